import Mathlib.Data.Fintype.BigOperators
import Verif.Spec.Extraction

/-!
# How often a prover is accepted

The Verifier's challenges are drawn at random from a finite field. A prover is the same pair of next-message functions as in `Spec/Extraction`; now it is not
rewound, and all that is known is for how many of the challenges it is accepted.
-/

namespace CT
open Finset
variable {F G X : Type} [Field F] [AddCommGroup G] [Module F G]

/-- `coins y z u x w us` is an oracle that gives the challenges `y z u x w` and `us` to the prover, after a second phase that ends in `t2`. -/
def Interactive (coins : (y z u x w : F) → List F → Oracle F G X) (t t2 : VState F G X) (M : Messages F G) (R : Responses F) (lg : Nat) : Prop :=
  ∀ y z u x w us, us.length = lg →
    t.secondPhase (coins y z u x w us) M.AI1 M.AO1 M.S1 = .ok t2 ∧ HasChallenges (coins y z u x w us) (strategyProof M R y z u x w us) t2 y z u x w us

/-- The number of choices of the challenges `y z u x w`, of the `lg` challenges of the inner product argument and of the Verifier's own random scalar `r` for which the
prover is accepted. There are `q ^ (6 + lg)` choices, where `q` is the size of the field. -/
def acceptedChallenges [Fintype F] [DecidableEq F] [DecidableEq G] (g : Gens G) (t : VState F G X) (M : Messages F G) (R : Responses F) (lg : Nat)
    (coins : (y z u x w : F) → List F → Oracle F G X) : Nat :=
  ∑ y : F, ∑ z : F, ∑ u : F, ∑ x : F, ∑ w : F, ∑ us : Fin lg → F, ∑ r : F,
    if verify (coins y z u x w (List.ofFn us)) g r (strategyProof M R y z u x w (List.ofFn us)) t = .ok () then 1 else 0

/-- The numerator of the soundness error, for `lg` rounds of the inner product argument: a prover who cannot be extracted is accepted with probability at
most `soundnessLoss c lg / q`. -/
def soundnessLoss (c : Circuit F) (lg : Nat) : Nat :=
  2 ^ lg + c.constraints.length + 5 + 2 * (opDegree c.dims.length + 1) + 2 + 7 * lg + 1

end CT
