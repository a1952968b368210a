import Verif.Model.BatchedTree
import Verif.Spec.TreeGadgets

/-! # Conditions under which an honest Prover on a batched path succeeds -/

namespace CT
variable {B : Bool → Type} [∀ p, Field (B p)] [∀ p, DecidableEq (B p)] {C : ∀ p, SWCurve (B p)}
  [∀ p, Module (B (!p)) (C p).Pt] {M : Nat}

/-- The scalar `r` re-randomises the sum of the points `c j` of curve `p` without meeting an exceptional case of the incomplete
additions: each of the shifted points is finite, adding them up one after the other is proper, and so is adding `r·H`. -/
def SelRerand.BatchAvoids (prm : SelRerand C) (p : Bool) (c : Fin M → (C p).Pt) (r : B (!p)) : Prop :=
  ChainOk (C p) (prm.layer p).lambda (prm.h p) (prm.toNat (!p) r) ∧
    (∀ j, c j + (prm.layer p).delta ≠ 0) ∧
    (∀ j : Fin M, 0 < j.val → (C p).DiffX (∑ i : Fin j.val, (c ⟨i, i.2.trans j.2⟩ + (prm.layer p).delta)) (c j + (prm.layer p).delta)) ∧
    (C p).DiffX (∑ j, (c j + (prm.layer p).delta)) (r • prm.h p)

/-- The scalars `rnd` and `leafR` avoid the exceptional cases on all levels of the `M` paths `nodes`: the sums of the selected
nodes on all levels but the last, and the leaves one by one. -/
def SelRerand.MultiAvoids (prm : SelRerand C) (nodes : MultiWitPath M B (Pts C)) (rnd : ∀ p, Nat → B (!p))
    (leafR : Fin M → B (!false)) : Prop :=
  (∀ p (k : Nat) f, (nodes p)[k]? = some f → (p = true → k + 1 < (nodes p).length) →
    prm.BatchAvoids (!p) (fun j => (f j).child) (rnd (!p) k)) ∧
  ∀ f, (nodes true).getLast? = some f → ∀ j, prm.Avoids (!true) (f j).child (leafR j)

end CT
