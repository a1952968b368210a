import Verif.Model.R1CS

/-! # `metrics()` of a constraint system -/

namespace CT
variable {F G X : Type}

/-- `struct Metrics`, `metrics.rs:1-14`. -/
structure Metrics where
  multipliers : Nat
  constraints : Nat
  phaseOneConstraints : Nat
  phaseTwoConstraints : Nat
  deriving DecidableEq

/-- `Prover::metrics`, `prover.rs:171-178`; `RandomizingProver` forwards to it (`:241-243`). -/
def PState.metrics (s : PState F G X) : Metrics where
  multipliers := s.aL.length
  constraints := s.constraints.length + s.deferred.length
  phaseOneConstraints := s.constraints.length
  phaseTwoConstraints := s.deferred.length

/-- `Prover::number_of_constraints`, `prover.rs:497-499`. Despite the name it is the number of multipliers. -/
def PState.numberOfConstraints (s : PState F G X) : Nat := s.aL.length

/-- `Verifier::metrics`, `verifier.rs:141-148`; `RandomizingVerifier` forwards to it (`:212-214`). -/
def VState.metrics (s : VState F G X) : Metrics where
  multipliers := s.numVars
  constraints := s.constraints.length + s.deferred.length
  phaseOneConstraints := s.constraints.length
  phaseTwoConstraints := s.deferred.length

end CT
