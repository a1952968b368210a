import Verif.Proofs.Coin
import Verif.Proofs.Lucas
import Verif.Proofs.Concrete
import Mathlib.Tactic.NormNum.Prime

/-!
# C28, C29: payments

A Pour's even circuit has these vector commitments: the two minted coins (dimension 2), then for each spent coin the even
nodes of its path and the re-randomised coin itself (dimension `L`). The first entry of a coin is its amount, the second its tag.
-/

namespace CT

variable {B : Bool → Type} [∀ p, Field (B p)] [∀ p, DecidableEq (B p)] {C : ∀ p, SWCurve (B p)} {L : Nat} {K SK S : Type}

/-- The position of the first spent coin among the vector commitments of the even circuit. -/
def Pour.spent0 {F0 P0 F1 P1 : Type} (pour : Pour F0 P0 F1 P1 K) : Nat := 2 + pour.path0.even.length
/-- The position of the second spent coin among the vector commitments of the even circuit. -/
def Pour.spent1 {F0 P0 F1 P1 : Type} (pour : Pour F0 P0 F1 P1 K) : Nat := 3 + pour.path0.even.length + pour.path1.even.length

theorem pourCircuits_even {o : ∀ p, SideO C p} {fx : Bool} {prm : SelRerand C} {tag : K → B true} {T : CurveTree L 1 (Pts C)}
    {dom : ∀ p, Transcript (B (!p)) (C p).Pt (C (!p)).Pt} {pour : PourOf C K} {tE : SideV C false} {tO : SideV C true}
    (h : pourCircuits o fx prm tag T dom pour = .ok (tE, tO)) :
    ∃ path0 path1, addRoot T pour.path0 = .ok path0 ∧ addRoot T pour.path1 = .ok path1 ∧
      pourEvenCircuit (o false) fx prm tag T pour.pk0 pour.pk1 pour.minted0 pour.minted1 path0 path1 (.new (dom false)) = .ok tE ∧
      pourOddCircuit (o true) fx prm T path0 path1 (.new (dom true)) = .ok tO := by
  unfold pourCircuits at h
  split at h
  · cases h
  rename_i path0 h0
  split at h
  · cases h
  rename_i path1 h1
  split at h
  · cases h
  rename_i tE' h2
  split at h
  · cases h
  rename_i tO' h3
  simp only [Except.ok.injEq, Prod.mk.injEq] at h
  obtain ⟨rfl, rfl⟩ := h
  exact ⟨path0, path1, h0, h1, h2, h3⟩

/-- The amounts in a Pour: which commitments they belong to, that the minted ones are in range, and their balance in the field. -/
theorem pour_amounts {o : ∀ p, SideO C p} {fx : Bool} {prm : SelRerand C}
    {tag : K → B true} {T : CurveTree L 1 (Pts C)} {dom : ∀ p, Transcript (B (!p)) (C p).Pt (C (!p)).Pt} {pour : PourOf C K}
    {tE : SideV C false} {tO : SideV C true} (h : pourCircuits o fx prm tag T dom pour = .ok (tE, tO)) :
    tE.vecComms[0]? = some (pour.minted0, 2) ∧ tE.vecComms[1]? = some (pour.minted1, 2) ∧
    tE.vecComms[pour.spent0]? = some (pour.path0.selected, L) ∧ tE.vecComms[pour.spent1]? = some (pour.path1.selected, L) ∧
    ∀ w : Assignment (B true), tE.SatisfiedBy w → ∃ m0 m1 : Nat, m0 < 2 ^ 64 ∧ m1 < 2 ^ 64 ∧ w.vec 0 0 = (m0 : B true) ∧ w.vec 1 0 = (m1 : B true) ∧
      w.vec pour.spent0 0 + w.vec pour.spent1 0 = (m0 : B true) + (m1 : B true) := by
  obtain ⟨path0, path1, r0, r1, hE, -⟩ := pourCircuits_even h
  obtain ⟨-, e, -, hw⟩ := pourEvenCircuit_ok r0 r1 rfl hE
  refine ⟨by simp [e], by simp [e], ?_, ?_, fun w hs => ?_⟩
  · rw [e, Pour.spent0]
    grind
  · rw [e, Pour.spent1]
    grind
  · obtain ⟨⟨m0, a1, a2⟩, ⟨m1, b1, b2⟩, -, -, c⟩ := hw w hs
    refine ⟨m0, m1, a1, b1, a2, b2, ?_⟩
    rw [← a2, ← b2]
    exact c.symm

/-- Sums of two integers below `2^64` are equal if they are equal in a field of characteristic at least `2^65`. -/
theorem sum_of_field {F : Type} [Field F] {p : Nat} [CharP F p] (hp : 2 ^ 65 ≤ p) {s0 s1 m0 m1 : Nat} (h0 : s0 < 2 ^ 64) (h1 : s1 < 2 ^ 64)
    (h2 : m0 < 2 ^ 64) (h3 : m1 < 2 ^ 64) (h : (s0 : F) + (s1 : F) = m0 + m1) : s0 + s1 = m0 + m1 := by
  rw [← Nat.cast_add, ← Nat.cast_add] at h
  have := (CharP.cast_eq_iff_mod_eq F p).1 h
  rw [Nat.mod_eq_of_lt (by omega), Nat.mod_eq_of_lt (by omega)] at this
  exact this

/-- **C28**: in every satisfying assignment `w` of the even circuit of a Pour (over a field whose characteristic is at least `2^65`) the
two minted amounts are integers `m0, m1 < 2^64`, and if the two spent amounts are integers `s0, s1 < 2^64` then `s0 + s1 = m0 + m1` as
integers. The first four conjuncts say which commitments the four amounts belong to. -/
theorem C28_pour_conserves_value {p : Nat} [CharP (B true) p] (hp : 2 ^ 65 ≤ p) {o : ∀ p, SideO C p} {fx : Bool} {prm : SelRerand C}
    {tag : K → B true} {T : CurveTree L 1 (Pts C)} {dom : ∀ p, Transcript (B (!p)) (C p).Pt (C (!p)).Pt} {pour : PourOf C K}
    {tE : SideV C false} {tO : SideV C true} (h : pourCircuits o fx prm tag T dom pour = .ok (tE, tO)) :
    tE.vecComms[0]? = some (pour.minted0, 2) ∧ tE.vecComms[1]? = some (pour.minted1, 2) ∧
    tE.vecComms[pour.spent0]? = some (pour.path0.selected, L) ∧ tE.vecComms[pour.spent1]? = some (pour.path1.selected, L) ∧
    ∀ w : Assignment (B true), tE.SatisfiedBy w → ∃ m0 m1 : Nat, m0 < 2 ^ 64 ∧ m1 < 2 ^ 64 ∧ w.vec 0 0 = (m0 : B true) ∧ w.vec 1 0 = (m1 : B true) ∧
      ∀ s0 s1 : Nat, s0 < 2 ^ 64 → s1 < 2 ^ 64 → w.vec pour.spent0 0 = (s0 : B true) → w.vec pour.spent1 0 = (s1 : B true) → s0 + s1 = m0 + m1 := by
  obtain ⟨h1, h2, h3, h4, hw⟩ := pour_amounts h
  refine ⟨h1, h2, h3, h4, fun w hs => ?_⟩
  obtain ⟨m0, m1, a1, b1, a2, b2, c⟩ := hw w hs
  refine ⟨m0, m1, a1, b1, a2, b2, fun s0 s1 h0 h1 g0 g1 => ?_⟩
  rw [g0, g1] at c
  exact sum_of_field hp h0 h1 a1 b1 c

/-- **C29**, the part that holds: in every satisfying assignment the tags of the two spent coins are the hashes of the two public keys of
the Pour. Missing: that the signatures are checked, see `C29_signatures_ignored`. -/
theorem C29_tags_partial {o : ∀ p, SideO C p} {fx : Bool} {prm : SelRerand C} {tag : K → B true} {T : CurveTree L 1 (Pts C)}
    {dom : ∀ p, Transcript (B (!p)) (C p).Pt (C (!p)).Pt} {pour : PourOf C K} {tE : SideV C false} {tO : SideV C true}
    (h : pourCircuits o fx prm tag T dom pour = .ok (tE, tO)) {w : Assignment (B true)} (hw : tE.SatisfiedBy w) :
    w.vec pour.spent0 1 = tag pour.pk0 ∧ w.vec pour.spent1 1 = tag pour.pk1 := by
  obtain ⟨path0, path1, r0, r1, hE, -⟩ := pourCircuits_even h
  obtain ⟨-, -, -, h⟩ := pourEvenCircuit_ok r0 r1 rfl hE
  obtain ⟨-, -, h0, h1, -⟩ := h w hw
  exact ⟨h0, h1⟩

/-- C29 is false of the code: take any accepted transaction, and replace the signatures by anything on which `Schnorr::verify`
returns `Ok(b)` for some `b`. The result is the same, even if `b` is `false`. -/
theorem C29_signatures_ignored {o : ∀ p, SideO C p} {fx : Bool} {prm : SelRerand C} {sch : SigScheme K SK S (B true)}
    {cod : Codec (PourOf C K)} {T : CurveTree L 1 (Pts C)} {dom : ∀ p, Transcript (B (!p)) (C p).Pt (C (!p)).Pt} {rE : B true} {rO : B false}
    {tx : SignedTx S} {v : Tuple (B true) (C false).Pt × Tuple (B false) (C true).Pt}
    (h : signedTxVerification o fx prm sch cod T dom rE rO tx = .ok v) (tx' : SignedTx S) (hb : tx'.pourBytes = tx.pourBytes)
    (hs : ∀ pk sig, ∃ b, sch.verify pk tx.pourBytes sig = .ok b) :
    signedTxVerification o fx prm sch cod T dom rE rO tx' = .ok v := by
  unfold signedTxVerification at h ⊢
  rw [hb]
  cases hd : cod.dec tx.pourBytes with
  | none => rw [hd] at h; cases h
  | some r =>
    obtain ⟨pour, rest⟩ := r
    rw [hd] at h
    simp only at h ⊢
    obtain ⟨b0, e0⟩ := hs pour.pk0 ⟨tx'.response0, tx'.challenge0⟩
    obtain ⟨b1, e1⟩ := hs pour.pk1 ⟨tx'.response1, tx'.challenge1⟩
    have : verifySignatures sch tx' pour.pk0 pour.pk1 = .ok () := by
      simp [verifySignatures, hb, e0, e1, unwrap]
    rw [this]
    split at h
    · cases h
    · exact h

/-- What the repair of C29 gives: a caller who checks the two signatures with `Schnorr::verify` before `verification_gadget` accepts only
transactions signed under the keys whose hashes are the tags of the spent coins. -/
theorem C29_checked_partial {o : ∀ p, SideO C p} {fx : Bool} {prm : SelRerand C} {sch : SigScheme K SK S (B true)}
    {cod : Codec (PourOf C K)} {T : CurveTree L 1 (Pts C)} {dom : ∀ p, Transcript (B (!p)) (C p).Pt (C (!p)).Pt} {rE : B true} {rO : B false}
    {tx : SignedTx S} {v : Tuple (B true) (C false).Pt × Tuple (B false) (C true).Pt}
    (h : signedTxVerification o fx prm sch cod T dom rE rO tx = .ok v) :
    ∃ pour rest tE tO, cod.dec tx.pourBytes = some (pour, rest) ∧ pourCircuits o fx prm sch.tag T dom pour = .ok (tE, tO) ∧
      verificationTuple (o false) rE pour.evenProof tE = .ok v.1 ∧ verificationTuple (o true) rO pour.oddProof tO = .ok v.2 ∧
      (∃ b, sch.verify pour.pk0 tx.pourBytes ⟨tx.response0, tx.challenge0⟩ = .ok b) ∧
      (∃ b, sch.verify pour.pk1 tx.pourBytes ⟨tx.response1, tx.challenge1⟩ = .ok b) ∧
      ∀ w : Assignment (B true), tE.SatisfiedBy w → w.vec pour.spent0 1 = sch.tag pour.pk0 ∧ w.vec pour.spent1 1 = sch.tag pour.pk1 := by
  unfold signedTxVerification at h
  split at h
  · cases h
  rename_i pour rest hd
  split at h
  · cases h
  rename_i hsig
  unfold pourVerification at h
  split at h
  · cases h
  rename_i tE tO hc
  split at h
  · cases h
  rename_i vE h1
  split at h
  · cases h
  rename_i vO h2
  simp only [Except.ok.injEq] at h
  subst h
  rw [unwrap_ok] at h1 h2
  unfold verifySignatures at hsig
  split at hsig
  · cases hsig
  rename_i b0 e0
  split at hsig
  · cases hsig
  rename_i b1 e1
  rw [unwrap_ok] at e0 e1
  exact ⟨pour, rest, tE, tO, hd, hc, h1, h2, ⟨b0, e0⟩, ⟨b1, e1⟩, fun w hw => C29_tags_partial hc hw⟩

/-! ### Non-vacuity of C28 -/

/-- A field of 67 bits, and the curve `y² = x³ + 3` over it with the point `(1, 2)`. -/
abbrev bigP : Nat := 12 * 2 ^ 64 + 1

instance bigPrime : Fact bigP.Prime :=
  ⟨prime_of_checkLucas (a := 10) (fs := List.replicate 66 2 ++ [3]) (by decide +kernel) (by
    intro q hq
    simp at hq
    rcases hq with rfl | rfl <;> norm_num)⟩

namespace BigPour

def curve : SWCurve (ZMod bigP) := ⟨0, 3, by decide +kernel⟩
abbrev Bs : Bool → Type := fun _ => ZMod bigP
abbrev Cs : ∀ p, SWCurve (Bs p) := fun _ => curve
def pt : curve.Pt := curve.pt (x := 1) (y := 2) (by decide +kernel : (2 : ZMod bigP) ^ 2 = 1 ^ 3 + 0 * 1 + 3)

def prm : SelRerand Cs where
  gens _ := ⟨⟨pt, pt⟩, 0, [], []⟩
  layer _ := ⟨pt, (buildTables curve (windows 6) pt).getD [], 6⟩
  toNat _ x := x.val

/-- A tree of height 1 with two coins. -/
def T : CurveTree 2 1 (Pts Cs) := .odd (.branch (fun _ => pt) (fun k => .node (.leaf ((k.val + 2) • pt))) 1 2)

/-- A Pour; the proofs do not matter for the circuits. -/
def pour : PourOf Cs Nat where
  evenProof := default
  oddProof := default
  path0 := ⟨2 • pt, [], []⟩
  path1 := ⟨4 • pt, [], []⟩
  pk0 := 17
  pk1 := 33
  minted0 := pt
  minted1 := 5 • pt

/-- The amounts: `5` and `2^64 - 1` minted, `6` and `2^64 - 2` spent. -/
def w : Assignment (ZMod bigP) where
  left i := if (if i < 64 then 5 / 2 ^ i else (2 ^ 64 - 1) / 2 ^ (i - 64)) % 2 = 1 then 0 else 1
  right i := if (if i < 64 then 5 / 2 ^ i else (2 ^ 64 - 1) / 2 ^ (i - 64)) % 2 = 1 then 1 else 0
  out _ := 0
  committed _ := 0
  vec j i := (([[5, 0], [2 ^ 64 - 1, 0], [6, 17], [2 ^ 64 - 2, 33]] : List (List Nat)).getD j []).getD i 0

def circuits := pourCircuits (fun _ _ => 0) false prm (fun k : Nat => (k : ZMod bigP)) T (fun _ => []) pour

def check : Bool :=
  match circuits with
  | .ok (tE, _) => (List.range tE.numVars).all (fun i => decide (w.left i * w.right i = w.out i)) &&
      tE.constraints.all fun c => decide (w.eval c = 0)
  | .error _ => false

end BigPour

open BigPour in
/-- Non-vacuity of C28 and C29_tags_partial. -/
example : ∃ tE tO, circuits = .ok (tE, tO) ∧ tE.SatisfiedBy w ∧ w.vec pour.spent0 0 = (6 : Nat) ∧ w.vec pour.spent1 0 = (2 ^ 64 - 2 : Nat) := by
  have h : BigPour.check = true := by decide +kernel
  unfold check at h
  split at h
  · rename_i tE tO e
    simp only [Bool.and_eq_true, List.all_eq_true, List.mem_range, decide_eq_true_eq] at h
    exact ⟨tE, tO, e, h, by decide +kernel, by decide +kernel⟩
  · cases h

end CT
