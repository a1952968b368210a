import Verif.Model.Metrics

/-!
# Cost of a gadget

`Fixed p m a c`: however the gadget `p` is run (any witness, state, challenges), if it returns, it has added `m` multipliers of its own, as many
multipliers as are needed for `a` calls of `allocate` (two calls share a multiplier, the first may use a half left over from
before), and `c` linear constraints, according to `metrics()`.
-/

namespace CT
variable {F G X α : Type} [Field F]

/-- Half-used multipliers (0 or 1). -/
def spare (pending : Option Nat) : Nat := if pending.isSome then 1 else 0

/-- The increase in `metrics()`. -/
structure Metrics.Grows (before after : Metrics) (spare m a c : Nat) : Prop where
  multipliers : after.multipliers = before.multipliers + m + (a + 1 - spare) / 2
  constraints : after.constraints = before.constraints + c
  phaseTwo : after.phaseTwoConstraints = before.phaseTwoConstraints

structure FixedCost (p : Prog F G X α) (m a c : Nat) : Prop where
  prover : ∀ o s x s', runP o p s = .ok (x, s') → s.metrics.Grows s'.metrics (spare s.pending) m a c
  verifier : ∀ o s x s', runV o p s = .ok (x, s') → s.metrics.Grows s'.metrics (spare s.pending) m a c

end CT
