import Verif.Model.R1CS
import Verif.Model.IPP

/-! # `Prover::commit`, `commit_vec`, `prove`: `bulletproofs/src/r1cs/prover.rs`, `proof.rs`

Debug-only code (`debug_assert!`, printing) is not modelled here: the model is of
release builds. `Model/Debug` adds the assertions. -/

namespace CT

variable {F G X : Type} [Field F] [DecidableEq F] [AddCommGroup G] [Module F G] [DecidableEq G]

/-- `struct R1CSProof`, `proof.rs:33-56`. -/
structure R1CSProof (F G : Type) where
  AI1 : G
  AO1 : G
  S1 : G
  AI2 : G
  AO2 : G
  S2 : G
  T : List G
  tx : F
  txBl : F
  eBl : F
  ipp : IPP F G
deriving DecidableEq

/-- Weights produced by `flattened_constraints`; the Prover has no `wc`. -/
structure Weights (F : Type) where
  wL : List F
  wR : List F
  wO : List F
  wV : List F
  wVC : List (List F)
  wc : F

/-- `v[i] += x`; `none` is the index panic. -/
def addAt? (v : List F) (i : Nat) (x : F) : Option (List F) :=
  if i < v.length then some (v.modify i (· + x)) else none

/-- The `match` on one term in `flattened_constraints`, `prover.rs:411-432` (`isVerifier = false`) and
`verifier.rs:361-383` (`isVerifier = true`, which also handles constants). -/
def flattenTerm (isVerifier : Bool) (expz : F) (w : Weights F) (t : Variable × F) :
    Option (Weights F) :=
  match t.1 with
  | .multiplierLeft i => (addAt? w.wL i (expz * t.2)).map fun v => { w with wL := v }
  | .multiplierRight i => (addAt? w.wR i (expz * t.2)).map fun v => { w with wR := v }
  | .multiplierOutput i => (addAt? w.wO i (expz * t.2)).map fun v => { w with wO := v }
  | .committed i => (addAt? w.wV i (-(expz * t.2))).map fun v => { w with wV := v }
  | .vectorCommit j i =>
    match w.wVC[j]? with
    | none => none
    | some row => (addAt? row i (expz * t.2)).map fun v => { w with wVC := w.wVC.set j v }
  | .one => if isVerifier then some { w with wc := w.wc - expz * t.2 } else some w

/-- The inner loop over the terms of one constraint. -/
def flattenTerms (isVerifier : Bool) (expz : F) : List (Variable × F) → Weights F → Option (Weights F)
  | [], w => some w
  | t :: ts, w =>
    match flattenTerm isVerifier expz w t with
    | none => none
    | some w' => flattenTerms isVerifier expz ts w'

/-- The loop over the constraints, `prover.rs:409-436`, `verifier.rs:359-387`. -/
def flattenLoop (isVerifier : Bool) (z : F) : List (LC F) → F → Weights F → Option (Weights F)
  | [], _, w => some w
  | lc :: rest, expz, w =>
    match flattenTerms isVerifier expz lc.terms w with
    | none => none
    | some w' => flattenLoop isVerifier z rest (expz * z) w'

/-- The zero weights for `n` multipliers, `m` committed variables and the given dimensions. -/
def Weights.zero (n m : Nat) (dims : List Nat) : Weights F :=
  ⟨List.replicate n 0, List.replicate n 0, List.replicate n 0, List.replicate m 0,
    dims.map fun d => List.replicate d 0, 0⟩

/-- `Prover::flattened_constraints`, `prover.rs:387-440`. `none` is an index panic. -/
def PState.flattened (s : PState F G X) (z : F) : Option (Weights F) :=
  flattenLoop false z s.constraints z
    (Weights.zero s.aL.length s.v.length (s.vecOpen.map fun v => v.2.length))

/-- `Prover::new(pc_gens, transcript)`, `prover.rs:282-301`. -/
def PState.new (t : Transcript F G X) : PState F G X := { transcript := t ++ [.sep "r1cs v1"] }

/-- `Prover::commit`, `prover.rs:319-333`. -/
def PState.commit (g : Gens G) (s : PState F G X) (v bl : F) : (G × Variable) × PState F G X :=
  let V := g.pc.commit v bl
  ((V, .committed s.v.length),
    { s with v := s.v ++ [v], vBlinding := s.vBlinding ++ [bl]
             transcript := s.transcript ++ [.point "V" V] })

/-- `Prover::commit_vec`, `prover.rs:335-374`; the assertion on the lengths is modelled. -/
def PState.commitVec (g : Gens G) (s : PState F G X) (v : List F) (bl : F) :
    Except Err ((G × List Variable) × PState F G X) :=
  let gens := g.pc.Bbl :: g.Gs.take v.length
  let scalars := bl :: v
  if gens.length ≠ scalars.length then .error (.panic "assertion failed: generators.len() == scalars.len()")
  else
    let comm := msm gens scalars
    .ok ((comm, (List.range v.length).map fun i => .vectorCommit s.vecOpen.length i),
      { s with vecOpen := s.vecOpen ++ [(bl, v)]
               transcript := s.transcript ++ [.point "V" comm] })

/-- `k` iterations of the padding loop, `prover.rs:507-509`. -/
def PState.padN : Nat → PState F G X → PState F G X
  | 0, s => s
  | k + 1, s =>
    match s.allocateMultiplier (some (0, 0)) with
    | .ok (_, s') => PState.padN k s'
    | .error _ => s

/-- The padding loop `while self.size() > self.secrets.a_L.len()`, `prover.rs:507-509`: every iteration
adds one multiplier and leaves `size()` unchanged. -/
def PState.pad (s : PState F G X) : PState F G X := s.padN (s.size - s.aL.length)

/-- Run the second-phase callbacks, `prover.rs:474-479`. -/
def runCallbacksP (o : Oracle F G X) : List (Prog F G X Unit) → PState F G X →
    Except Err (PState F G X)
  | [], s => .ok s
  | p :: ps, s =>
    match runP o p s with
    | .error e => .error e
    | .ok (_, s') => runCallbacksP o ps s'

/-- `Prover::create_randomized_constraints`, `prover.rs:462-481`. -/
def PState.createRandomized (o : Oracle F G X) (s : PState F G X) : Except Err (PState F G X) :=
  let s := { s with pending := none }
  if s.deferred = [] then .ok { s with transcript := s.transcript ++ [.sep "r1cs-1phase"] }
  else
    runCallbacksP o s.deferred
      { s with deferred := [], transcript := s.transcript ++ [.sep "r1cs-2phase"] }

/-- The Prover's random choices in `prove`. -/
structure PRand (F : Type) where
  i1 : F
  o1 : F
  s1 : F
  sL1 : Nat → F
  sR1 : Nat → F
  i2 : F
  o2 : F
  s2 : F
  sL2 : Nat → F
  sR2 : Nat → F
  tau : Nat → F

/-- `usize::next_power_of_two` (for `0` it is `1`). -/
def nextPow2 (n : Nat) : Nat := if n ≤ 1 then 1 else 2 ^ ((n - 1).log2 + 1)

/-- Three commitments made in a phase. -/
structure Com (G : Type) where
  AI : G
  AO : G
  S : G

/-- First-phase commitments, `prover.rs:569-703` (the sequential variant; the parallel one is in `Parallel.lean`). -/
def commit1 (g : Gens G) (rnd : PRand F) (s : PState F G X) (n1 : Nat) : Com G where
  AI := msm (g.pc.Bbl :: (g.Gs.take n1 ++ g.Hs.take n1)) (rnd.i1 :: (s.aL ++ s.aR))
  AO := msm (g.pc.Bbl :: g.Gs.take n1) (rnd.o1 :: s.aO)
  S := msm (g.pc.Bbl :: (g.Gs.take n1 ++ g.Hs.take n1))
    (rnd.s1 :: ((List.range n1).map rnd.sL1 ++ (List.range n1).map rnd.sR1))

/-- Second-phase commitments, `prover.rs:752-803`. -/
def commit2 (g : Gens G) (rnd : PRand F) (s : PState F G X) (n1 n : Nat) : Com G :=
  if n - n1 > 0 then
    { AI := msm (g.pc.Bbl :: ((g.Gs.take n).drop n1 ++ (g.Hs.take n).drop n1))
        (rnd.i2 :: (s.aL.drop n1 ++ s.aR.drop n1))
      AO := msm (g.pc.Bbl :: (g.Gs.take n).drop n1) (rnd.o2 :: s.aO.drop n1)
      S := msm (g.pc.Bbl :: ((g.Gs.take n).drop n1 ++ (g.Hs.take n).drop n1))
        (rnd.s2 :: ((List.range (n - n1)).map rnd.sL2 ++ (List.range (n - n1)).map rnd.sR2)) }
  else ⟨0, 0, 0⟩

/-- The left vector polynomial, `prover.rs:838`, `971-1007`. `sL` is `s_L1` followed by `s_L2`. -/
def lPoly (s : PState F G X) (wt : Weights F) (yinv : List F) (n op : Nat) (ops : List (Nat × Nat))
    (sL : List F) : VecPoly F :=
  let p := VecPoly.zero n (op + 1)
  let p := p.write (ops.getD 0 (0, 0)).1
    ((List.range n).map fun i => s.aL.getD i 0 + yinv.getD i 0 * wt.wR.getD i 0)
  let p := p.write (ops.getD 1 (0, 0)).1 ((List.range n).map fun i => s.aO.getD i 0)
  let p := p.write (op + 1) sL
  (List.range s.vecOpen.length).foldl
    (fun p j => p.write ((ops.drop 2).getD j (0, 0)).1 (s.vecOpen.getD j (0, [])).2) p

/-- The right vector polynomial, `prover.rs:839`, `971-1007`. -/
def rPoly (s : PState F G X) (wt : Weights F) (ypow : List F) (n op : Nat) (ops : List (Nat × Nat))
    (sR : List F) : VecPoly F :=
  let p := VecPoly.zero n (op + 1)
  let p := p.write (ops.getD 0 (0, 0)).2
    ((List.range n).map fun i => ypow.getD i 0 * s.aR.getD i 0 + wt.wL.getD i 0)
  let p := p.write (ops.getD 1 (0, 0)).2
    ((List.range n).map fun i => wt.wO.getD i 0 - ypow.getD i 0)
  let p := p.write (op + 1) ((List.range n).map fun i => ypow.getD i 0 * sR.getD i 0)
  (List.range s.vecOpen.length).foldl
    (fun p j => p.write ((ops.drop 2).getD j (0, 0)).2 (wt.wVC.getD j [])) p

/-- Absorb the points `T_d`, `d ≠ op_degree`, with their labels, `prover.rs:1030-1037`. -/
def appendT (op : Nat) : Nat → List G → Transcript F G X → Except Err (Transcript F G X)
  | _, [], t => .ok t
  | d, T :: Ts, t =>
    if d = op then appendT op (d + 1) Ts t
    else
      match tLabel d with
      | .error e => .error e
      | .ok l => appendT op (d + 1) Ts (t ++ [.point l T])

/-- The blinding terms by degree, `prover.rs:1116-1134`. -/
def eTerms (op : Nat) (ops : List (Nat × Nat)) (ibl obl sbl : F) (bls : List F) : List (Option F) :=
  let e := List.replicate (op + 2) none
  let e := e.set (ops.getD 0 (0, 0)).1 (some ibl)
  let e := e.set (ops.getD 1 (0, 0)).1 (some obl)
  let e := (List.range bls.length).foldl
    (fun e j => e.set ((ops.drop 2).getD j (0, 0)).1 (some (bls.getD j 0))) e
  e.set (op + 1) (some sbl)

/-- Evaluation of the blinding terms at `x`, `prover.rs:1143-1153`. -/
def eEval (x : F) : List (Option F) → F → F
  | [], _ => 0
  | e :: es, xn => (match e with | some v => xn * v | none => 0) + eEval x es (xn * x)

/-- The part of `prove` after the second phase, `prover.rs:711-1194`. `c1` are the first-phase
commitments, `n1` the number of first-phase multipliers. -/
def proveTail (o : Oracle F G X) (g : Gens G) (rnd : PRand F) (n1 : Nat) (c1 : Com G)
    (s : PState F G X) : Except Err (R1CSProof F G × Transcript F G X) :=
  let ncomm := s.vecOpen.length
  let op := opDegree ncomm
  let ops := opSplits op
  let n := s.size
  let n2 := n - n1
  let paddedN := nextPow2 n
  let pad := paddedN - n
  if g.capacity < paddedN then .error .invalidGeneratorsLength
  else if n2 > 0 ∧ s.vecOpen ≠ [] then
    .error (.panic "assertion failed: !has_2nd_phase_commitments || vec_open.is_empty()")
  else
    let i2 := if n2 > 0 then rnd.i2 else 0
    let o2 := if n2 > 0 then rnd.o2 else 0
    let s2 := if n2 > 0 then rnd.s2 else 0
    let c2 := commit2 g rnd s n1 n
    let t := s.transcript ++ [.point "A_I2" c2.AI, .point "A_O2" c2.AO, .point "S2" c2.S]
    let (y, t) := challengeScalar o t "y"
    let (z, t) := challengeScalar o t "z"
    match s.flattened z with
    | none => .error (.panic "flattened_constraints: index out of bounds")
    | some wt =>
      if y = 0 then .error (.panic "y.inverse().unwrap()")
      else
        let yinv := expIter y⁻¹ paddedN
        let ypow := expIter y paddedN
        let sL := (List.range n1).map rnd.sL1 ++ (List.range n2).map rnd.sL2
        let sR := (List.range n1).map rnd.sR1 ++ (List.range n2).map rnd.sR2
        let lp := lPoly s wt yinv n op ops sL
        let rp := rPoly s wt ypow n op ops sR
        let tp := VecPoly.innerProduct lp rp
        let T := (List.range (2 * (op + 1) + 1)).map fun d =>
          if d = op then 0 else g.pc.commit (tp.getD d 0) (rnd.tau d)
        match appendT op 0 T t with
        | .error e => .error e
        | .ok t =>
          let (u, t) := challengeScalar o t "u"
          let (x, t) := challengeScalar o t "x"
          let tbl := (List.range (2 * (op + 1) + 1)).map fun d =>
            if d = op then innerProduct wt.wV s.vBlinding else rnd.tau d
          let tx := polyEval tp x
          let txBl := polyEval tbl x
          let lv := lp.eval x ++ List.replicate pad 0
          let rv := rp.eval x ++ ((List.range pad).map fun i => - ypow.getD (n + i) 0)
          let eBl := eEval x (eTerms op ops (rnd.i1 + u * i2) (rnd.o1 + u * o2) (rnd.s1 + u * s2)
            (s.vecOpen.map (·.1))) 1
          let t := t ++ [.scalar "t_x" tx, .scalar "t_x_blinding" txBl, .scalar "e_blinding" eBl]
          let (w, t) := challengeScalar o t "w"
          let Q := w • g.pc.B
          let Gf := List.replicate n1 1 ++ List.replicate (n2 + pad) u
          let Hf := List.zipWith (· * ·) yinv Gf
          match ippCreate o Q Gf Hf (g.Gs.take paddedN) (g.Hs.take paddedN) lv rv t with
          | .error e => .error e
          | .ok (ipp, t) =>
            .ok (⟨c1.AI, c1.AO, c1.S, c2.AI, c2.AO, c2.S, T, tx, txBl, eBl, ipp⟩, t)

/-- `prove_and_return_transcript`, `prover.rs:502-1195`, and `prove`, `prover.rs:484-487`. -/
def prove (o : Oracle F G X) (g : Gens G) (rnd : PRand F) (s : PState F G X) :
    Except Err (R1CSProof F G × Transcript F G X) :=
  let s := s.pad
  let s := { s with transcript := s.transcript ++ [.num "m" s.v.length] }
  let n1 := s.size
  if g.capacity < n1 then .error .invalidGeneratorsLength
  else
    let c1 := commit1 g rnd s n1
    let s := { s with transcript :=
      s.transcript ++ [Msg.point "A_I1" c1.AI, Msg.point "A_O1" c1.AO, Msg.point "S1" c1.S] }
    match s.createRandomized o with
    | .error e => .error e
    | .ok s => proveTail o g rnd n1 c1 s

end CT
