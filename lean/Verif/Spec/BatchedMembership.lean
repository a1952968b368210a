import Verif.Spec.Membership
import Verif.Model.BatchedTree

/-! # Membership, for batches -/

namespace CT

/-- Two openings of a sum of `M` commitments, or of the sum with some signs changed: `xs j` are the children of a node of the `j`-th tree
(committed without blinding, with the `j`-th `L` generators), `vals` and `bl` the opening in the assignment, `z` the scalar of the
re-randomisation, and `neg` the set of nodes whose sign was changed. This is a linear relation with known coefficients, not
all zero (when the order of the groups exceeds `2M`), between the generators and `Δ`. -/
def BatchSecondOpening {F G : Type} [Field F] [AddCommGroup G] [Module F G] {M : Nat} (g : Gens G) (delta : G) (L : Nat)
    (xs : Fin M → Nat → F) (vals : Nat → F) (bl : F) (z : Int) : Prop :=
  ∃ neg : Finset (Fin M), (neg ≠ ∅ ∨ ∃ j : Fin M, ∃ k < L, vals (j * L + k) ≠ xs j k) ∧
    ∑ j : Fin M, ∑ k : Fin L, (vals (j * L + k) - if j ∈ neg then - xs j k else xs j k) • g.Gs.getD (j * L + k) 0 +
      (bl - z) • g.pc.Bbl + (2 * neg.card) • delta = 0

end CT
