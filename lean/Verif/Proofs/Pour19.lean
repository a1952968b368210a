import Verif.Model.Coin
import Verif.Proofs.Curve19

/-! A complete payment on the curve with 19 points, run by the kernel. -/

-- one kernel run at a time, to save memory
set_option Elab.async false

namespace CT.Curve19

/-- Bulletproofs generators of capacity 128. -/
def prm2 : SelRerand Cs where
  gens _ := ⟨⟨4 • h, h⟩, 128, gs 128 1, gs 128 3⟩
  layer _ := ⟨h, (buildTables C (windows 6) h).getD [], 6⟩
  toNat _ x := x.val

/-- A scheme whose `verify` rejects every signature. -/
def sch : SigScheme Nat Nat Nat (ZMod 19) where
  tag k := k
  verify _ _ _ := .ok false
  sign k _ r := ⟨k, r⟩
  randomizeSig s _ := s
  randomizePk k r := k + r

/-! Encodings in one byte. -/

def fCodec : Codec (ZMod 19) where
  enc x := [UInt8.ofNat x.val]
  dec bs := match bs with
    | [] => none
    | b :: bs => if b.toNat < 19 then some ((b.toNat : ZMod 19), bs) else none
  size _ := 1
def kCodec : Codec Nat where
  enc x := [UInt8.ofNat x]
  dec bs := match bs with
    | [] => none
    | b :: bs => some (b.toNat, bs)
  size _ := 1
def dlog (P : C.Pt) : Nat := (List.range 19).findIdx fun i => i • h == P
def gCodec : Codec C.Pt where
  enc x := [UInt8.ofNat (dlog x)]
  dec bs := match bs with
    | [] => none
    | b :: bs => if b.toNat < 19 then some (b.toNat • h, bs) else none
  size _ := 1

/-- Two coins, of 5 and 7. -/
def coins : List (Coin (ZMod 19) Nat × C.Pt) :=
  [(5, 3), (7, 4)].filterMap fun (v, pk) => match coinNew sch (prm2.gens false) v pk 1 (v + pk) with
  | .ok c => some c
  | .error _ => none

/-- The tree of the two coins, of height 1. -/
def T1 : CurveTree 2 1 (Pts Cs) :=
  match fromSet prm2.tree (coins.map (·.2)) none 10 with
  | some (.ok t) => t
  | _ => default
instance : Inhabited (Coin (ZMod 19) Nat × C.Pt) := ⟨⟨0,0,0,0⟩, 0⟩

def input (i : Nat) : SpendingInfo Nat Nat Nat (ZMod 19) := ⟨i, (coins.getD i default).1, i + 4, 0⟩

def prand (a b : Nat) : PourRand Cs Nat where
  pkr _ := 1
  bl b := if b then (3 : ZMod 19) else (4 : ZMod 19)
  path _ _ i := (i + 5 : Nat)
  even := pr a
  odd := pr b
  sig _ := 0

def cod : Codec (PourOf Cs Nat) := pourCodec fCodec gCodec fCodec gCodec kCodec

/-- The coins (5 and 7) are spent, coins of 4 and 8 are minted. -/
def tx : Except Err (SignedTx Nat) :=
  provePour o false prm2 sch cod T1 (prand 3 2) (input 0) (input 1) 4 9 8 10 (.new []) (.new [])

/-- The transaction. -/
def txLit : SignedTx Nat := ⟨0, 0, 0, 0,
  [15, 5, 10, 0, 15, 0, 0, 0, 0, 0, 0, 0, 3, 2, 9, 2, 8, 6, 0, 3, 18, 14, 15, 17, 10, 1, 9, 16, 8, 3, 7, 0, 0, 0, 0, 0, 0, 0, 16, 12, 7, 6, 15, 17, 9,
  7, 0, 0, 0, 0, 0, 0, 0, 2, 6, 7, 3, 13, 15, 15, 16, 10, 10, 11, 13, 0, 7, 0, 0, 0, 0, 0, 0, 0, 2, 17, 0, 3, 17, 2, 1, 9, 9, 0, 7, 0, 0, 0, 0, 0, 0, 0,
  13, 15, 11, 10, 17, 1, 12, 7, 0, 0, 0, 0, 0, 0, 0, 9, 15, 15, 13, 15, 17, 1, 6, 6, 16, 0, 0, 0, 0, 0, 0, 0, 0, 0, 0, 0, 0, 0, 0, 0, 0, 7, 0, 0, 0, 0,
  0, 0, 0, 0, 0, 0, 0, 0, 0, 0, 0, 0, 4, 5, 4, 14]⟩

theorem tx_made : (match tx with | .ok t => decide (t = txLit) | .error _ => false) = true := by decide +kernel

/-- The tuple of one proof of the transaction is made and passes the final check. -/
def txAccepted (even : Bool) : Bool :=
  match signedTxVerification o false prm2 sch cod T1 (fun _ => []) (7 : ZMod 19) (8 : ZMod 19) txLit with
  | .error _ => false
  | .ok (vE, vO) => if even then isOk (checkTuple (prm2.gens false) vE) else isOk (checkTuple (prm2.gens true) vO)

theorem txAccepted_even : txAccepted true = true := by decide +kernel
theorem txAccepted_odd : txAccepted false = true := by decide +kernel

theorem tx_run : ∃ tx' vE vO, tx = .ok tx' ∧
    signedTxVerification o false prm2 sch cod T1 (fun _ => []) (7 : ZMod 19) (8 : ZMod 19) tx' = .ok (vE, vO) ∧
    checkTuple (prm2.gens false) vE = .ok () ∧ checkTuple (prm2.gens true) vO = .ok () := by
  have h1 := tx_made
  have h2 := txAccepted_even
  have h3 := txAccepted_odd
  unfold txAccepted at h2 h3
  split at h1
  swap
  · cases h1
  rename_i tx' e1
  obtain rfl := of_decide_eq_true h1
  split at h2
  · cases h2
  rename_i vE vO e2
  rw [e2] at h3
  simp only at h3
  have key : ∀ x : Except Err Unit, isOk x = true → x = .ok () := by
    intro x hx
    cases x with
    | ok u => rfl
    | error e => cases hx
  exact ⟨_, vE, vO, e1, e2, key _ h2, key _ h3⟩

end CT.Curve19
