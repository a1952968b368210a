import Mathlib.Algebra.BigOperators.Group.Finset.Basic
import Verif.Spec.Satisfaction
import Verif.Model.Prove

/-! # What the flattened weights mean -/

namespace CT
open Finset
variable {F : Type} [Field F]

/-- `<wL,aL> + <wR,aR> + <wO,aO> + sum_j <wVC_j,v_j> - <wV,v> - wc` for an assignment `w`. -/
def Weights.apply (wt : Weights F) (w : Assignment F) : F :=
  ∑ i ∈ range wt.wL.length, wt.wL.getD i 0 * w.left i +
  ∑ i ∈ range wt.wR.length, wt.wR.getD i 0 * w.right i +
  ∑ i ∈ range wt.wO.length, wt.wO.getD i 0 * w.out i +
  ∑ j ∈ range wt.wVC.length, ∑ i ∈ range (wt.wVC.getD j []).length, (wt.wVC.getD j []).getD i 0 * w.vec j i -
  ∑ i ∈ range wt.wV.length, wt.wV.getD i 0 * w.committed i - wt.wc

/-- `sum_q z^(q+1) * value of constraint q`. -/
def weightedConstraints (cs : List (LC F)) (z : F) (w : Assignment F) : F :=
  ∑ q ∈ range cs.length, z ^ (q + 1) * w.eval (cs.getD q ⟨[]⟩)

/-- The value of a constraint without its constant terms (the Prover does not track them). -/
def nonConstPart (c : LC F) : LC F := ⟨c.terms.filter fun t => t.1 ≠ .one⟩

/-- A variable is in range for `n` multipliers, `m` committed values, and vector commitments of the given
dimensions. -/
def Variable.InRange (n m : Nat) (dims : List Nat) : Variable → Prop
  | .vectorCommit j i => ∃ d, dims[j]? = some d ∧ i < d
  | .committed i => i < m
  | .multiplierLeft i => i < n
  | .multiplierRight i => i < n
  | .multiplierOutput i => i < n
  | .one => True

end CT
