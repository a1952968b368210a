import Verif.Model.Verify

/-! # What is absorbed by the transcript, in which order (used by C37)

Written down from the protocol description in `bulletproofs/src/r1cs` (notes) and not from the code of the model:
the lists below are what Prover and Verifier are expected to absorb. -/

namespace CT
variable {F G X : Type}

/-- The points sent before the second phase. -/
def R1CSProof.headMsgs (p : R1CSProof F G) (m : Nat) : Transcript F G X :=
  [.num "m" m, .point "A_I1" p.AI1, .point "A_O1" p.AO1, .point "S1" p.S1]

/-- The points sent after the second phase, and the challenge `y`. -/
def R1CSProof.toY (p : R1CSProof F G) : Transcript F G X :=
  [.point "A_I2" p.AI2, .point "A_O2" p.AO2, .point "S2" p.S2, .chal "y"]

/-- The commitments `T_d` to the coefficients of the polynomial `t`, without the one of degree `op`. -/
def tMsgs [Zero G] (op : Nat) (T : List G) : Transcript F G X :=
  ((List.range (2 * (op + 1) + 1)).filter (· ≠ op)).map fun d => .point ("T_" ++ toString d) (T.getD d 0)

/-- Everything after the second phase up to the challenge `x`. -/
def R1CSProof.toX [Zero G] (p : R1CSProof F G) (op : Nat) : Transcript F G X :=
  p.toY ++ [.chal "z"] ++ tMsgs op p.T ++ [.chal "u", .chal "x"]

/-- Everything after the second phase up to the challenge `w`. -/
def R1CSProof.toW [Zero G] (p : R1CSProof F G) (op : Nat) : Transcript F G X :=
  p.toX op ++ [.scalar "t_x" p.tx, .scalar "t_x_blinding" p.txBl, .scalar "e_blinding" p.eBl, .chal "w"]

/-- The rounds of the inner product argument. -/
def roundMsgs (LR : List (G × G)) : Transcript F G X :=
  LR.flatMap fun q => [.point "L" q.1, .point "R" q.2, .chal "u"]

/-- Everything after the second phase up to the challenge of round `j` of the inner product argument for vectors of length `N`. -/
def R1CSProof.toRound [Zero G] (p : R1CSProof F G) (op N j : Nat) : Transcript F G X :=
  p.toW op ++ [.sep "ipp v1", .num "n" N] ++ roundMsgs ((p.ipp.L.zip p.ipp.R).take j)

/-- Everything after the second phase. -/
def R1CSProof.tailMsgs [Zero G] (p : R1CSProof F G) (op N : Nat) : Transcript F G X :=
  p.toW op ++ [.sep "ipp v1", .num "n" N] ++ roundMsgs (p.ipp.L.zip p.ipp.R)

variable [Field F]

/-- `t2` is the Verifier after the second phase, when it has received the first points of `p`. -/
def VState.AfterCallbacks (o : Oracle F G X) (t : VState F G X) (p : R1CSProof F G) (t2 : VState F G X) : Prop :=
  VState.createRandomized o { t.pad with transcript := t.transcript ++ p.headMsgs t.V.length } = .ok t2

/-- `tr` is the transcript at the end of the verification of `p` for the statement `t`. -/
def VerifierTranscript [Zero G] (o : Oracle F G X) (t : VState F G X) (p : R1CSProof F G) (tr : Transcript F G X) : Prop :=
  ∃ t2, t.AfterCallbacks o p t2 ∧ tr = t2.transcript ++ p.tailMsgs (opDegree t.vecComms.length) (nextPow2 t2.size)

/-- Two challenge functions agree on all transcripts that lead to `tr`. -/
def AgreeUpTo (o o' : Oracle F G X) (tr : Transcript F G X) : Prop := ∀ q, q <+: tr → o q = o' q

end CT
