import Verif.Spec.Extraction

/-! # Which commitments the constraints say something about on their own -/

namespace CT

/-- The constraints determine the committed variable `j`: no way of changing the committed variables that changes `j` is invisible in every constraint. -/
def Determined {F : Type} [Field F] (constraints : List (LC F)) (j : Nat) : Prop :=
  ∀ u : Nat → F, (∀ q ∈ constraints, committedPart q u = 0) → u j = 0

end CT
