import Mathlib.Algebra.BigOperators.Group.Finset.Basic
import Verif.Model.Verify

/-!
# The two equations a Verifier has to check

Written from the paper (Bulletproofs with vector commitments), not from the code: one equation says that
`t(x)` is the evaluation of a committed polynomial whose coefficient of degree `op` is the circuit
equation, the other that the commitments open to vectors whose inner product is `t(x)`.

`k` vector commitments, `op = op_degree(k)`, slot `j` has degrees `(op - rDeg, rDeg)`.
-/

namespace CT
open Finset
variable {F G X : Type} [Field F] [AddCommGroup G] [Module F G]

/-- The degree of slot `j` on the right: the multiplication inputs are slot 0 (`op/2`), the outputs slot 1
(`0`), and the commitments get the remaining degrees `1, 2, ..` without `op/2`. -/
def rDeg (op j : Nat) : Nat :=
  if j = 0 then op / 2 else if j = 1 then 0 else if j - 1 < op / 2 then j - 1 else j

/-- The degree of slot `j` on the left. -/
def lDeg (op j : Nat) : Nat := op - rDeg op j

/-- Everything public that enters the two equations. -/
structure Check (F G : Type) where
  /-- number of vector commitments and the commitments -/
  comms : List G
  /-- single-value commitments -/
  V : List G
  wt : Weights F
  /-- number of multipliers of the first phase, and padded size -/
  n1 : Nat
  N : Nat
  y : F
  u : F
  x : F
  w : F

namespace Check

/-- `op_degree`. -/
def op (c : Check F G) : Nat := opDegree c.comms.length

/-- The factor of the generators of index `i`: second-phase generators are multiplied by `u`. -/
def factor (c : Check F G) (i : Nat) : F := if i < c.n1 then 1 else c.u

/-- `delta(y, z) = <y^-n ∘ wR, wL>`. -/
def delta (c : Check F G) : F := ∑ i ∈ range c.N, c.y⁻¹ ^ i * c.wt.wR.getD i 0 * c.wt.wL.getD i 0

/-- `t(x)` is the evaluation of the committed polynomial: the difference of the two sides. -/
def polyDefect (c : Check F G) (g : Gens G) (T : List G) (tx txBl : F) : G :=
  c.x ^ c.op • (∑ i ∈ range c.V.length, c.wt.wV.getD i 0 • c.V.getD i 0 + (c.wt.wc + c.delta) • g.pc.B) +
  ∑ d ∈ (range (2 * (c.op + 1) + 1)).erase c.op, c.x ^ d • T.getD d 0 -
  (tx • g.pc.B + txBl • g.pc.Bbl)

/-- The public part of `r(x)` at `i`: `sum over slots of x^(right degree) * weight`. -/
def rPublic (c : Check F G) (i : Nat) : F :=
  c.x ^ rDeg c.op 0 * c.wt.wL.getD i 0 + c.x ^ rDeg c.op 1 * c.wt.wO.getD i 0 +
  ∑ j ∈ range c.comms.length, c.x ^ rDeg c.op (j + 2) * (c.wt.wVC.getD j []).getD i 0

/-- The commitment to `l(x)` and `r(x)` that follows from the commitments in the proof. -/
def opened (c : Check F G) (g : Gens G) (AI1 AO1 S1 AI2 AO2 S2 : G) (eBl : F) : G :=
  ∑ j ∈ range c.comms.length, c.x ^ lDeg c.op (j + 2) • c.comms.getD j 0 +
  c.x ^ lDeg c.op 0 • (AI1 + c.u • AI2) + c.x ^ lDeg c.op 1 • (AO1 + c.u • AO2) +
  c.x ^ (c.op + 1) • (S1 + c.u • S2) - eBl • g.pc.Bbl +
  ∑ i ∈ range c.N, (c.factor i * (c.x ^ lDeg c.op 0 * (c.y⁻¹ ^ i * c.wt.wR.getD i 0))) • g.Gs.getD i 0 +
  ∑ i ∈ range c.N, (c.factor i * (c.y⁻¹ ^ i * c.rPublic i - 1)) • g.Hs.getD i 0

/-- The generators of the inner product argument. -/
def ippG (c : Check F G) (g : Gens G) : List G :=
  (List.range c.N).map fun i => c.factor i • g.Gs.getD i 0

/-- The generators of the inner product argument. -/
def ippH (c : Check F G) (g : Gens G) : List G :=
  (List.range c.N).map fun i => (c.factor i * c.y⁻¹ ^ i) • g.Hs.getD i 0

end Check

end CT
