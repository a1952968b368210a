import Verif.Spec.Coin

/-!
# A ledger

What a user of `coin.rs` builds from the functions of the repository: coins are leaves of a tree, payments are verified against the tree, the tags
of the spent coins are remembered so that no tag is accepted twice, and the minted commitments are added to the set from which the tree for the next payment is
made. The repository has no such ledger, only the parts.
-/

namespace CT

variable {B : Bool → Type} [∀ p, Field (B p)] [∀ p, DecidableEq (B p)] {C : ∀ p, SWCurve (B p)} [∀ p, Module (B (!p)) (C p).Pt]
  {L : Nat} {K S : Type}

/-- The points `leaves` are the commitments to the coins `coins`. -/
def CoinsOf (prm : SelRerand C) (coins : List (Coin (B true) S)) (leaves : List (C false).Pt) : Prop :=
  (coins.map fun a => Coin.commitment (F := B (!false)) (G := (C false).Pt) (prm.gens false) a) = leaves

/-- A payment and how it is verified: the tree, the oracles, the initial transcripts, the Pour, and the two Verifiers with its statement. -/
structure LedgerTx (C : ∀ p, SWCurve (B p)) (L : Nat) (K : Type) where
  height : Option Nat
  fuel : Nat
  T : CurveTree L 1 (Pts C)
  o : ∀ p, SideO C p
  dom : ∀ p, Transcript (B (!p)) (C p).Pt (C (!p)).Pt
  pour : PourOf C K
  t : ∀ p, SideV C p

/-- The payment is against the tree of the set `leaves`, its paths have the height of the tree, no point of the paths is `-Δ`, and the Verifiers for its two
circuits are `t`. -/
structure LedgerTx.Against (fx : Bool) (prm : SelRerand C) (tag : K → B true) (leaves : List (C false).Pt) (pay : LedgerTx C L K) : Prop where
  tree : fromSet prm.tree leaves pay.height pay.fuel = some (.ok pay.T)
  fuel : leaves.length + pay.height.getD 0 ≤ pay.fuel
  height : pay.T.height ≠ 0
  circuits : pourCircuits pay.o fx prm tag pay.T pay.dom pay.pour = .ok (pay.t false, pay.t true)
  len0 : pay.pour.path0.even.length + pay.pour.path0.odd.length + 1 = pay.T.height
  len1 : pay.pour.path1.even.length + pay.pour.path1.odd.length + 1 = pay.T.height
  even : ∀ c ∈ pay.pour.path0.even ++ pay.pour.path1.even, c + (prm.layer false).delta ≠ 0
  odd : ∀ c ∈ pay.pour.path0.odd ++ pay.pour.path1.odd, c + (prm.layer true).delta ≠ 0
  selected : ∀ c ∈ [pay.pour.path0.selected, pay.pour.path1.selected], c + (prm.layer false).delta ≠ 0

/-- The set of leaves after some payments. -/
def leavesAfter (leaves : List (C false).Pt) (ps : List (LedgerTx C L K)) : List (C false).Pt :=
  leaves ++ ps.flatMap fun pay => [pay.pour.minted0, pay.pour.minted1]

/-- A ledger with the set `leaves`, in which the tags `used` have been seen, takes the payments `ps` one after the other: each is against the tree of all coins so far, and
its two tags are different from each other and new. -/
def LedgerTakes (fx : Bool) (prm : SelRerand C) (tag : K → B true) : List (C false).Pt → List (B true) → List (LedgerTx C L K) → Prop
  | _, _, [] => True
  | leaves, used, pay :: ps =>
    pay.Against fx prm tag leaves ∧ tag pay.pour.pk0 ≠ tag pay.pour.pk1 ∧ tag pay.pour.pk0 ∉ used ∧ tag pay.pour.pk1 ∉ used ∧
      LedgerTakes fx prm tag (leaves ++ [pay.pour.minted0, pay.pour.minted1]) (tag pay.pour.pk0 :: tag pay.pour.pk1 :: used) ps

/-- The assignments and blindings satisfy the circuits of a payment and open its commitments. -/
def LedgerTx.Witness (prm : SelRerand C) (pay : LedgerTx C L K) (w : ∀ p, Assignment (B (!p))) (bl : ∀ p, Nat → B (!p)) : Prop :=
  ∀ p, (pay.t p).SatisfiedBy (w p) ∧ (pay.t p).OpenedBy (prm.gens p) (w p) (bl p)

/-- The coin has the entries and the blinding of commitment `j` in the witness. -/
def Coin.OpenedAs (a : Coin (B true) S) (w : ∀ p, Assignment (B (!p))) (bl : ∀ p, Nat → B (!p)) (j : Nat) : Prop :=
  (w false).vec j 0 = (a.value : B true) ∧ (w false).vec j 1 = a.tag ∧ bl false j = a.blinding

/-- `minted` are the coins minted by the first `k` payments, in order. -/
def MintedBy (minted : List (Coin (B true) S)) (k : Nat) (w : Nat → ∀ p, Assignment (B (!p))) (bl : Nat → ∀ p, Nat → B (!p)) : Prop :=
  minted.length = 2 * k ∧ ∀ i < k, ∃ a0 a1 : Coin (B true) S, minted[2 * i]? = some a0 ∧ minted[2 * i + 1]? = some a1 ∧
    a0.OpenedAs (w i) (bl i) 0 ∧ a1.OpenedAs (w i) (bl i) 1

/-- `spent` are the positions in `coins` of the coins spent by the payments, in order: each payment spends two coins which existed before it and which have the tags it shows. -/
def SpentBy (tag : K → B true) (n0 : Nat) (coins : List (Coin (B true) S)) (spent : List Nat) (ps : List (LedgerTx C L K)) : Prop :=
  spent.length = 2 * ps.length ∧ ∀ (i : Nat) (pay : LedgerTx C L K), ps[i]? = some pay →
    ∃ (i0 i1 : Nat) (a0 a1 : Coin (B true) S), spent[2 * i]? = some i0 ∧ spent[2 * i + 1]? = some i1 ∧ i0 < n0 + 2 * i ∧ i1 < n0 + 2 * i ∧
      coins[i0]? = some a0 ∧ coins[i1]? = some a1 ∧ a0.tag = tag pay.pour.pk0 ∧ a1.tag = tag pay.pour.pk1

/-- The amount of the coin at a position. -/
def amountAt {F : Type} (coins : List (Coin F S)) (i : Nat) : Nat := (coins[i]?.map (·.value)).getD 0

/-- The total of the coins whose positions are not in `spent`. -/
def unspent {F : Type} (coins : List (Coin F S)) (spent : List Nat) : Nat :=
  (((List.range coins.length).filter (· ∉ spent)).map (amountAt coins)).sum

end CT
