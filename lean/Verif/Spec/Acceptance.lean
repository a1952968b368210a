import Verif.Spec.Verification
import Verif.Spec.InnerProduct

/-!
# The verifier of the paper, made non-interactive

`PaperAccepts o g p t`: the proof `p` passes the checks of the paper for the statement held by the Verifier
`t`, when every challenge is the oracle's answer on everything absorbed before it. There is no random
combination of checks here: the polynomial identity and the inner product argument are two separate checks,
and the inner product argument is checked round by round.
-/

namespace CT
variable {F G X : Type} [Field F] [AddCommGroup G] [Module F G]

/-- The state of the Verifier once the second phase has run: the circuit is padded to the size of the
largest vector commitment, the number of commitments and the first-phase commitments of the proof are
absorbed, and the deferred callbacks run. -/
def VState.secondPhase (o : Oracle F G X) (t : VState F G X) (AI AO S : G) : Except Err (VState F G X) :=
  VState.createRandomized o { t.pad with transcript := t.pad.transcript ++
    [.num "m" t.V.length, .point "A_I1" AI, .point "A_O1" AO, .point "S1" S] }

/-- The degrees of `t(X)` a proof holds a commitment for, all but the degree of the circuit equation. -/
def tDegrees (op : Nat) : List Nat := (List.range (2 * (op + 1) + 1)).filter (· ≠ op)

/-- Everything absorbed before the challenge `y`; `t2` is the Verifier after the second phase. -/
def absorbedA (p : R1CSProof F G) (t2 : VState F G X) : Transcript F G X :=
  t2.transcript ++ [.point "A_I2" p.AI2, .point "A_O2" p.AO2, .point "S2" p.S2]

/-- Everything absorbed before the challenge `u`. -/
def absorbedT (p : R1CSProof F G) (t2 : VState F G X) : Transcript F G X :=
  absorbedA p t2 ++ [.chal "y", .chal "z"] ++
    (tDegrees (opDegree t2.vecComms.length)).map fun d => .point ("T_" ++ toString d) (p.T.getD d 0)

/-- Everything absorbed up to the challenge `w`. -/
def absorbedW (p : R1CSProof F G) (t2 : VState F G X) : Transcript F G X :=
  absorbedT p t2 ++ [.chal "u", .chal "x", .scalar "t_x" p.tx, .scalar "t_x_blinding" p.txBl,
    .scalar "e_blinding" p.eBl, .chal "w"]

/-- The public values of the two equations. -/
def paperCheck (o : Oracle F G X) (p : R1CSProof F G) (t t2 : VState F G X) (wt : Weights F) : Check F G where
  comms := t2.vecComms.map (·.1)
  V := t2.V
  wt := wt
  n1 := t.size
  N := 2 ^ p.ipp.L.length
  y := o (absorbedA p t2 ++ [.chal "y"])
  u := o (absorbedT p t2 ++ [.chal "u"])
  x := o (absorbedT p t2 ++ [.chal "u", .chal "x"])
  w := o (absorbedW p t2)

/-- The checks that are not equations: `t2` is the Verifier after the second phase, `wt` the weights of the
flattened constraints. -/
structure PaperShape (o : Oracle F G X) (g : Gens G) (p : R1CSProof F G) (t t2 : VState F G X)
    (wt : Weights F) : Prop where
  AI1 : p.AI1 ≠ 0
  AO1 : p.AO1 ≠ 0
  S1 : p.S1 ≠ 0
  second : t.secondPhase o p.AI1 p.AO1 p.S1 = .ok t2
  /-- the commitments to the coefficients of `t(X)` are there and none is the identity -/
  T : ∀ d ∈ tDegrees (opDegree t2.vecComms.length), d < tLabelCount ∧ d < p.T.length ∧ p.T.getD d 0 ≠ 0
  y : o (absorbedA p t2 ++ [.chal "y"]) ≠ 0
  weights : t2.flattened (o (absorbedA p t2 ++ [.chal "y", .chal "z"])) = some wt
  /-- the inner product argument has the right number of rounds: `2 ^ rounds` is the least power of two that
  is not below the size -/
  size : t2.size ≤ 2 ^ p.ipp.L.length
  sizeMin : p.ipp.L ≠ [] → 2 ^ p.ipp.L.length < 2 * t2.size
  rounds : p.ipp.L.length < 32
  capacity : 2 ^ p.ipp.L.length ≤ g.capacity

/-- The checks of the paper. -/
def PaperAccepts (o : Oracle F G X) (g : Gens G) (p : R1CSProof F G) (t : VState F G X) : Prop :=
  ∃ t2 wt, PaperShape o g p t t2 wt ∧
    let c := paperCheck o p t t2 wt
    -- `t(x)` is the evaluation of the committed polynomial
    c.polyDefect g p.T p.tx p.txBl = 0 ∧
    -- the commitments open to vectors whose inner product is `t(x)`
    RoundByRound o (c.w • g.pc.B) p.ipp.a p.ipp.b (p.ipp.L.zip p.ipp.R)
      (absorbedW p t2 ++ [.sep "ipp v1", .num "n" (2 ^ p.ipp.L.length)])
      (c.opened g p.AI1 p.AO1 p.S1 p.AI2 p.AO2 p.S2 p.eBl + p.tx • (c.w • g.pc.B))
      (c.ippG g) (c.ippH g)

end CT
