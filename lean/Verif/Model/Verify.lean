import Verif.Model.Prove

/-! # `Verifier::commit`, `commit_vec`, `verify`, `batch_verify`: `bulletproofs/src/r1cs/verifier.rs`

Debug-only code is not modelled: the model is of release builds. -/

namespace CT

variable {F G X : Type} [Field F] [DecidableEq F] [AddCommGroup G] [Module F G] [DecidableEq G]

/-- `Verifier::new(transcript)`, `verifier.rs:258-270`. -/
def VState.new (t : Transcript F G X) : VState F G X := { transcript := t ++ [.sep "r1cs v1"] }

/-- `Verifier::commit`, `verifier.rs:294-302`. -/
def VState.commit (s : VState F G X) (V : G) : Variable × VState F G X :=
  (.committed s.V.length,
    { s with V := s.V ++ [V], transcript := s.transcript ++ [.point "V" V] })

/-- `Verifier::commit_vec`, `verifier.rs:304-318`. -/
def VState.commitVec (s : VState F G X) (dimension : Nat) (comm : G) : List Variable × VState F G X :=
  ((List.range dimension).map fun i => .vectorCommit s.vecComms.length i,
    { s with vecComms := s.vecComms ++ [(comm, dimension)]
             transcript := s.transcript ++ [.point "V" comm] })

/-- `Verifier::flattened_constraints`, `verifier.rs:335-390`. `none` is an index panic. -/
def VState.flattened (s : VState F G X) (z : F) : Option (Weights F) :=
  flattenLoop true z s.constraints z (Weights.zero s.numVars s.V.length (s.vecComms.map (·.2)))

/-- `k` iterations of the padding loop, `verifier.rs:473-475`. -/
def VState.padN : Nat → VState F G X → VState F G X
  | 0, s => s
  | k + 1, s => VState.padN k s.allocateMultiplier.2

/-- The padding loop `while self.size() > self.num_vars`, `verifier.rs:473-475`. -/
def VState.pad (s : VState F G X) : VState F G X := s.padN (s.size - s.numVars)

/-- Run the second-phase callbacks, `verifier.rs:406-411`. -/
def runCallbacksV (o : Oracle F G X) : List (Prog F G X Unit) → VState F G X →
    Except Err (VState F G X)
  | [], s => .ok s
  | p :: ps, s =>
    match runV o p s with
    | .error e => .error e
    | .ok (_, s') => runCallbacksV o ps s'

/-- `Verifier::create_randomized_constraints`, `verifier.rs:394-413`. -/
def VState.createRandomized (o : Oracle F G X) (s : VState F G X) : Except Err (VState F G X) :=
  let s := { s with pending := none }
  if s.deferred = [] then .ok { s with transcript := s.transcript ++ [.sep "r1cs-1phase"] }
  else
    runCallbacksV o s.deferred
      { s with deferred := [], transcript := s.transcript ++ [.sep "r1cs-2phase"] }

/-- The loop absorbing `T_d` for `d` in the given list, `verifier.rs:539-546`: a missing label or a
missing point is a panic, the identity is refused. -/
def validateT (op : Nat) (T : List G) : List Nat → Transcript F G X → Except Err (Transcript F G X)
  | [], t => .ok t
  | d :: ds, t =>
    if d = op then validateT op T ds t
    else
      match tLabel d, T[d]? with
      | .ok l, some P =>
        match validateAndAppendPoint t l P with
        | .error e => .error e
        | .ok t => validateT op T ds t
      | _, _ => .error (.panic "index out of bounds: T_LABELS[d] or proof.T[d]")

/-- `struct VerificationTuple`, `verifier.rs:726-730`. -/
structure Tuple (F G : Type) where
  points : List G
  scalars : List F
  fixed : List F

/-- The challenges and derived values the verification equation is made of. -/
structure Chals (F : Type) where
  y : F
  z : F
  u : F
  x : F
  w : F
  r : F
  usq : List F
  uisq : List F
  s : List F

/-- The scalars of `G`, `verifier.rs:588-614`. -/
def gScalars (c : Chals F) (n1 n paddedN numVars : Nat) (op : Nat) (wt : Weights F) (a : F) : List F :=
  let yinv := expIter c.y⁻¹ paddedN
  let ynegwR := List.zipWith (· * ·) wt.wR yinv ++ List.replicate (paddedN - numVars) 0
  let uG := List.replicate n1 1 ++ List.replicate (n - n1 + (paddedN - n)) c.u
  let xs := expIter c.x (2 * (op + 1) + 1)
  let xwR := xs.getD ((opSplits op).getD 0 (0, 0)).1 0
  List.zipWith (fun (yw, u1) s => u1 * (xwR * yw - a * s)) (ynegwR.zip uG) (c.s.take paddedN)

/-- The scalars of `H`, `verifier.rs:616-652`. -/
def hScalars (c : Chals F) (n1 n paddedN : Nat) (op : Nat) (wt : Weights F) (b : F) : List F :=
  let yinv := expIter c.y⁻¹ paddedN
  let uG := List.replicate n1 1 ++ List.replicate (n - n1 + (paddedN - n)) c.u
  let xs := expIter c.x (2 * (op + 1) + 1)
  let ops := opSplits op
  (List.range paddedN).map fun i =>
    let comb := xs.getD (ops.getD 0 (0, 0)).2 0 * wt.wL.getD i 0 +
      xs.getD (ops.getD 1 (0, 0)).2 0 * wt.wO.getD i 0 +
      ((List.range wt.wVC.length).map fun j =>
        xs.getD ((ops.drop 2).getD j (0, 0)).2 0 * (wt.wVC.getD j []).getD i 0).sum
    uG.getD i 0 * (yinv.getD i 0 * (comb - b * c.s.reverse.getD i 0) - 1)

/-- `delta`, `verifier.rs:594-600`. -/
def deltaV (c : Chals F) (paddedN numVars : Nat) (wt : Weights F) : F :=
  let yinv := expIter c.y⁻¹ paddedN
  let ynegwR := List.zipWith (· * ·) wt.wR yinv ++ List.replicate (paddedN - numVars) 0
  innerProduct (ynegwR.take numVars) wt.wL

/-- The points and scalars of the final check, `verifier.rs:654-722`, from the challenges. -/
def buildTuple (p : R1CSProof F G) (s : VState F G X) (c : Chals F) (n1 n paddedN : Nat)
    (wt : Weights F) : Tuple F G :=
  let ncomm := s.vecComms.length
  let op := opDegree ncomm
  let ops := opSplits op
  let tdeg := 2 * (op + 1)
  let xs := expIter c.x (tdeg + 1)
  let rxs := expIterFrom c.x c.r (tdeg + 1)
  let ds := (List.range (tdeg + 1)).filter (· ≠ op)
  let xI := xs.getD (ops.getD 0 (0, 0)).1 0
  let xO := xs.getD (ops.getD 1 (0, 0)).1 0
  let xS := xs.getD (op + 1) 0
  let a := p.ipp.a
  let b := p.ipp.b
  { points := s.vecComms.map (·.1) ++ [p.AI1, p.AO1, p.S1, p.AI2, p.AO2, p.S2] ++ s.V ++
      ds.map (fun d => p.T.getD d 0) ++ p.ipp.L ++ p.ipp.R
    scalars := (List.range ncomm).map (fun j => xs.getD ((ops.drop 2).getD j (0, 0)).1 0) ++
      [xI, xO, xS, xI * c.u, xO * c.u, xS * c.u] ++ wt.wV.map (fun v => v * rxs.getD op 0) ++
      ds.map (fun d => rxs.getD d 0) ++ c.usq ++ c.uisq
    fixed := [c.w * (p.tx - a * b) + c.r * (xs.getD op 0 * (wt.wc + deltaV c paddedN s.numVars wt) - p.tx),
        -p.eBl - c.r * p.txBl] ++
      gScalars c n1 n paddedN s.numVars op wt a ++ hScalars c n1 n paddedN op wt b }

/-- The part of `verification_scalars_and_points` after the second phase, `verifier.rs:511-722`. `r` is
the Verifier's random scalar. -/
def verifyTail (o : Oracle F G X) (r : F) (p : R1CSProof F G) (n1 : Nat) (s : VState F G X) :
    Except Err (Tuple F G) :=
  let op := opDegree s.vecComms.length
  let n := s.size
  let paddedN := nextPow2 n
  let t := s.transcript ++ [.point "A_I2" p.AI2, .point "A_O2" p.AO2, .point "S2" p.S2]
  let (y, t) := challengeScalar o t "y"
  let (z, t) := challengeScalar o t "z"
  match validateT op p.T (List.range (2 * (op + 1) + 1)) t with
  | .error e => .error e
  | .ok t =>
    let (u, t) := challengeScalar o t "u"
    let (x, t) := challengeScalar o t "x"
    let t := t ++ [.scalar "t_x" p.tx, .scalar "t_x_blinding" p.txBl, .scalar "e_blinding" p.eBl]
    let (w, t) := challengeScalar o t "w"
    match s.flattened z with
    | none => .error (.panic "flattened_constraints: index out of bounds")
    | some wt =>
      match verificationScalars o p.ipp paddedN t with
      | .error e => .error e
      | .ok ((usq, uisq, sv), _) =>
        if y = 0 then .error (.panic "y.inverse().unwrap()")
        else .ok (buildTuple p s ⟨y, z, u, x, w, r, usq, uisq, sv⟩ n1 n paddedN wt)

/-- `verification_scalars_and_points`, `verifier.rs:468-723`. -/
def verificationTuple (o : Oracle F G X) (r : F) (p : R1CSProof F G) (s : VState F G X) :
    Except Err (Tuple F G) := do
  let s := s.pad
  let n1 := s.size
  let t := s.transcript ++ [.num "m" s.V.length]
  let t ← validateAndAppendPoint t "A_I1" p.AI1
  let t ← validateAndAppendPoint t "A_O1" p.AO1
  let t ← validateAndAppendPoint t "S1" p.S1
  let s ← VState.createRandomized o { s with transcript := t }
  verifyTail o r p n1 s

/-- The final multi-scalar multiplication, `verifier.rs:444-465` (and `batch_verify`,
`verifier.rs:767-801`). -/
def checkTuple (g : Gens G) (v : Tuple F G) : Except Err Unit :=
  let paddedN := (v.fixed.length - 2) / 2
  if g.capacity < paddedN then .error .invalidGeneratorsLength
  else
    let mega := msm (v.points ++ ([g.pc.B, g.pc.Bbl] ++ g.Gs.take paddedN ++ g.Hs.take paddedN))
      (v.scalars ++ v.fixed)
    if mega ≠ 0 then .error .verificationError else .ok ()

/-- `Verifier::verify`, `verifier.rs:421-466`. -/
def verify (o : Oracle F G X) (g : Gens G) (r : F) (p : R1CSProof F G) (s : VState F G X) :
    Except Err Unit :=
  match verificationTuple o r p s with
  | .error e => .error e
  | .ok v => checkTuple g v

/-- The accumulation loop of `batch_verify`, `verifier.rs:746-766`; `rs` are the random weights. -/
def batchAccum : List (Tuple F G) → List F → Tuple F G → Tuple F G
  | v :: vs, r :: rs, acc =>
    batchAccum vs rs
      { points := acc.points ++ v.points
        scalars := acc.scalars ++ v.scalars.map (· * r)
        fixed := List.zipWith (· + ·) acc.fixed (v.fixed.map (· * r)) }
  | _, _, acc => acc

/-- The final check of `batch_verify`, `verifier.rs:767-801`; `padded_n` was computed from the first
tuple. -/
def checkBatch (g : Gens G) (paddedN : Nat) (v : Tuple F G) : Except Err Unit :=
  if g.capacity < paddedN then .error .invalidGeneratorsLength
  else
    let mega := msm (v.points ++ ([g.pc.B, g.pc.Bbl] ++ g.Gs.take paddedN ++ g.Hs.take paddedN))
      (v.scalars ++ v.fixed)
    if mega ≠ 0 then .error .verificationError else .ok ()

/-- `batch_verify`, `verifier.rs:732-802`. `rs` are the random weights drawn for the tuples after the
first one (at least as many as tuples). -/
def batchVerify (g : Gens G) (rs : List F) : List (Tuple F G) → Except Err Unit
  | [] => .error (.panic "called `Option::unwrap()` on a `None` value")
  | v :: vs => checkBatch g ((v.fixed.length - 2) / 2) (batchAccum vs rs v)

end CT
