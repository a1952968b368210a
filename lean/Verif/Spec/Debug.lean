import Verif.Model.Verify

/-! # What the debug assertions ask of a proof (used by C63) -/

namespace CT
variable {F G : Type} [AddCommGroup G]

/-- The proofs the debug assertions of the Verifier let pass, when there are `ncomm` vector commitments: one point `T_d` for every
degree `d` up to `2 * (op_degree + 1)`, the one at `op_degree` being the identity; and no second-phase points if there is a vector
commitment. -/
structure R1CSProof.PassesAsserts (p : R1CSProof F G) (ncomm : Nat) : Prop where
  length : p.T.length = 2 * opDegree ncomm + 3
  op : p.T.getD (opDegree ncomm) 0 = 0
  AI2 : ncomm ≠ 0 → p.AI2 = 0
  AO2 : ncomm ≠ 0 → p.AO2 = 0
  S2 : ncomm ≠ 0 → p.S2 = 0

end CT
