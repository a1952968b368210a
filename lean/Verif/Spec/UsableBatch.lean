import Mathlib.Data.Set.Card
import Verif.Spec.Usable
import Verif.Spec.BatchedTree

/-!
# The scalars drawn for a batched path

The batched gadget draws one scalar per inner level and one per leaf.
-/

namespace CT
variable {B : Bool → Type} [∀ p, Field (B p)] [∀ p, DecidableEq (B p)] {C : ∀ p, SWCurve (B p)} [∀ p, Module (B (!p)) (C p).Pt] {L M : Nat}

/-- The number of scalars for inner nodes of curve `p` on a batched path in a tree of height `h`. The root is not re-randomised. -/
def innerLen (h : Nat) : Bool → Nat
  | false => (h + 1) / 2 - 1
  | true => h / 2

/-- The number of scalars for points of curve `p`: those for the inner nodes and, on the even curve, one for each of the `M` leaves. -/
def batchLen (h M : Nat) : Bool → Nat
  | false => innerLen h false + M
  | true => innerLen h true

/-- All scalars drawn for `M` paths in a tree of height `h`. -/
abbrev BatchScalars (B : Bool → Type) (h M : Nat) := ∀ p, Fin (batchLen h M p) → B (!p)

/-- The scalars for inner nodes in the form the gadgets take them. -/
def BatchScalars.stream {h : Nat} (ω : BatchScalars B h M) : ∀ p, Nat → B (!p) :=
  fun p k => if hk : k < batchLen h M p then ω p ⟨k, hk⟩ else 0

/-- The scalar for the `j`-th leaf. -/
def BatchScalars.leaves {h : Nat} (ω : BatchScalars B h M) (j : Fin M) : B (!false) :=
  ω false ⟨innerLen h false + j, Nat.add_lt_add_left j.2 _⟩

/-- The randomness for the paths to `M` leaves is usable: the scalars that hide inner nodes are not zero, and no addition meets an exceptional case. -/
structure MultiOk [NeZero M] (prm : SelRerand C) (T : CurveTree L M (Pts C)) (indices : Fin M → Nat) (rnd : ∀ p, Nat → B (!p)) (leafR : Fin M → B (!false)) : Prop where
  even : ∀ j, j + 1 < (T.height + 1) / 2 → rnd false j ≠ 0
  odd : ∀ j < T.height / 2, rnd true j ≠ 0
  avoids : ∀ nodes, T.multiWitness prm.tree indices = .ok nodes → prm.MultiAvoids nodes rnd leafR

/-- The points `c j` of curve `p` can be added up one after the other, and their sum is finite. This depends on the tree and not on the scalars. -/
structure SelRerand.Summable (prm : SelRerand C) (p : Bool) (c : Fin M → (C p).Pt) : Prop where
  finite : ∀ j, c j + (prm.layer p).delta ≠ 0
  sums : ∀ j : Fin M, 0 < j.val → (C p).DiffX (∑ i : Fin j.val, (c ⟨i, i.2.trans j.2⟩ + (prm.layer p).delta)) (c j + (prm.layer p).delta)
  total : ∑ j, (c j + (prm.layer p).delta) ≠ 0

/-- On every level the nodes on the `M` paths can be added up; no leaf is `-Δ`. -/
structure SelRerand.BatchReady (prm : SelRerand C) (nodes : MultiWitPath M B (Pts C)) : Prop where
  inner : ∀ p (k : Nat) f, (nodes p)[k]? = some f → (p = true → k + 1 < (nodes p).length) → prm.Summable (!p) fun j => (f j).child
  leaf : ∀ f, (nodes true).getLast? = some f → ∀ j, (f j).child + (prm.layer (!true)).delta ≠ 0

end CT
