import Verif.Model.Verify
import Verif.Model.BatchedTree

/-! # Debug builds: `prove`, `verify` and the Verifier's tree gadgets with their debug assertions

The other modules model release builds. `debug_assert!` and the code under `#[cfg(debug_assertions)]` run in debug builds (`cargo
build`, `cargo test`); this module models the functions that contain them, with every assertion. Printing is not modelled. -/

namespace CT

section
variable {F G X : Type} [Field F] [DecidableEq F] [AddCommGroup G] [Module F G] [DecidableEq G]

/-- A failing `debug_assert!`, `debug_assert_eq!` or `assert_eq!`. -/
def assertionFailed : Err := .panic "assertion failed"

/-- `debug_assert!(c)`. -/
def debugAssert (c : Prop) [Decidable c] : Except Err Unit := if c then .ok () else .error assertionFailed

/-- `op_splits` with its assertion, `r1cs/mod.rs:19-39`. -/
def opSplitsDebug (opDeg : Nat) : Except Err (List (Nat × Nat)) :=
  (debugAssert (opDeg % 2 = 0)).map fun _ => opSplits opDeg

/-- One of the groups of writes to a polynomial: `k` entries of the coefficient of degree `chk` have to be zero, then the coefficient
of degree `d` is overwritten with `v`. `prover.rs:959-962`, `968-971`, `975-978`, `988-991`. The code checks and writes entry by
entry; the entries are independent. -/
def VecPoly.writeFresh (p : VecPoly F) (chk d k : Nat) (v : List F) : Except Err (VecPoly F) :=
  (debugAssert (∀ i < k, (p.getD chk []).getD i 0 = 0)).map fun _ => p.write d v

/-- The writes for the vector commitments, `prover.rs:982-994`, for one of the two polynomials: `deg j` is the degree for commitment
`j`, `len j` its number of entries and `vs j` what is written. -/
def writesFresh (deg len : Nat → Nat) (vs : Nat → List F) : List Nat → VecPoly F → Except Err (VecPoly F)
  | [], p => .ok p
  | j :: js, p =>
    match p.writeFresh (deg j) (deg j) (len j) (vs j) with
    | .error e => .error e
    | .ok p => writesFresh deg len vs js p

/-- The left polynomial with the assertions, `prover.rs:838`, `867-994`. `k` is the number of iterations of the loop over the entries
of `s_L` and `s_R`. The code works on both polynomials in one loop; they are independent. -/
def lPolyDebug (s : PState F G X) (wt : Weights F) (yinv : List F) (n op : Nat) (ops : List (Nat × Nat))
    (sL : List F) (k : Nat) : Except Err (VecPoly F) :=
  match (VecPoly.zero n (op + 1)).writeFresh (op / 2) (ops.getD 0 (0, 0)).1 k
    ((List.range n).map fun i => s.aL.getD i 0 + yinv.getD i 0 * wt.wR.getD i 0) with
  | .error e => .error e
  | .ok p =>
    match p.writeFresh op (ops.getD 1 (0, 0)).1 k ((List.range n).map fun i => s.aO.getD i 0) with
    | .error e => .error e
    | .ok p =>
      match p.writeFresh (op + 1) (op + 1) k sL with
      | .error e => .error e
      | .ok p =>
        writesFresh (fun j => ((ops.drop 2).getD j (0, 0)).1) (fun j => (s.vecOpen.getD j (0, [])).2.length)
          (fun j => (s.vecOpen.getD j (0, [])).2) (List.range s.vecOpen.length) p

/-- The right polynomial with the assertions, `prover.rs:839`, `867-994`. -/
def rPolyDebug (s : PState F G X) (wt : Weights F) (ypow : List F) (n op : Nat) (ops : List (Nat × Nat))
    (sR : List F) (k : Nat) : Except Err (VecPoly F) :=
  match (VecPoly.zero n (op + 1)).writeFresh (op / 2) (ops.getD 0 (0, 0)).2 k
    ((List.range n).map fun i => ypow.getD i 0 * s.aR.getD i 0 + wt.wL.getD i 0) with
  | .error e => .error e
  | .ok p =>
    match p.writeFresh 0 (ops.getD 1 (0, 0)).2 k ((List.range n).map fun i => wt.wO.getD i 0 - ypow.getD i 0) with
    | .error e => .error e
    | .ok p =>
      match p.writeFresh (op + 1) (op + 1) k ((List.range n).map fun i => ypow.getD i 0 * sR.getD i 0) with
      | .error e => .error e
      | .ok p =>
        writesFresh (fun j => ((ops.drop 2).getD j (0, 0)).2) (fun j => (s.vecOpen.getD j (0, [])).2.length)
          (fun j => wt.wVC.getD j []) (List.range s.vecOpen.length) p

/-- The loop `t2 += inner_product(&wVCs[i], &vec_open[i].1)` of the sanity check, `prover.rs:1098-1100`. -/
def sanityVecs (s : PState F G X) (wt : Weights F) : List Nat → F → Except Err F
  | [], t2 => .ok t2
  | j :: js, t2 =>
    match innerProduct? (wt.wVC.getD j []) (s.vecOpen.getD j (0, [])).2 with
    | .error e => .error e
    | .ok x => sanityVecs s wt js (t2 + x)

/-- The value `t2` of the sanity check, `prover.rs:1064-1108`, with the panics of `inner_product`. -/
def sanityT2 (s : PState F G X) (wt : Weights F) (y : F) (n paddedN : Nat) : Except Err F := do
  let ynegwR := List.zipWith (· * ·) wt.wR (expIter y⁻¹ paddedN) ++ List.replicate (paddedN - n) 0
  let delta ← innerProduct? (ynegwR.take n) wt.wL
  let yn := expIter y n
  let aRyn := (List.range n).map fun i => s.aR.getD i 0 * yn.getD i 0
  let x1 ← innerProduct? wt.wL s.aL
  let x2 ← innerProduct? wt.wR s.aR
  let x3 ← innerProduct? wt.wO s.aO
  let t2 ← sanityVecs s wt (List.range s.vecOpen.length) (x1 + x2 + x3)
  let x4 ← innerProduct? s.aL aRyn
  let x5 ← innerProduct? s.aO yn
  return t2 + x4 - x5 + delta

/-- The loop over the vector commitments in the computation of the blinding terms, `prover.rs:1121-1124`. -/
def eTermsLoop (ops : List (Nat × Nat)) (bls : List F) : List Nat → List (Option F) → Except Err (List (Option F))
  | [], e => .ok e
  | j :: js, e =>
    match debugAssert (e.getD ((ops.drop 2).getD j (0, 0)).1 none = none) with
    | .error x => .error x
    | .ok _ => eTermsLoop ops bls js (e.set ((ops.drop 2).getD j (0, 0)).1 (some (bls.getD j 0)))

/-- The blinding terms with their assertions, `prover.rs:1112-1127`. -/
def eTermsDebug (op : Nat) (ops : List (Nat × Nat)) (ibl obl sbl : F) (bls : List F) : Except Err (List (Option F)) :=
  match debugAssert ((ops.getD 0 (0, 0)).1 = (ops.getD 0 (0, 0)).2) with
  | .error x => .error x
  | .ok _ =>
    (eTermsLoop ops bls (List.range bls.length)
      (((List.replicate (op + 2) none).set (ops.getD 0 (0, 0)).1 (some ibl)).set (ops.getD 1 (0, 0)).1 (some obl))).map
      fun e => e.set (op + 1) (some sbl)

/-- The part of `prove` after the second phase in a debug build, `prover.rs:711-1194`: `proveTail` with the assertions. -/
def proveTailDebug (o : Oracle F G X) (g : Gens G) (rnd : PRand F) (n1 : Nat) (c1 : Com G)
    (s : PState F G X) : Except Err (R1CSProof F G × Transcript F G X) :=
  let ncomm := s.vecOpen.length
  let op := opDegree ncomm
  let ops := opSplits op
  let n := s.size
  let n2 := n - n1
  let paddedN := nextPow2 n
  let pad := paddedN - n
  if g.capacity < paddedN then .error .invalidGeneratorsLength
  else if n2 > 0 ∧ s.vecOpen ≠ [] then
    .error (.panic "assertion failed: !has_2nd_phase_commitments || vec_open.is_empty()")
  else
    let i2 := if n2 > 0 then rnd.i2 else 0
    let o2 := if n2 > 0 then rnd.o2 else 0
    let s2 := if n2 > 0 then rnd.s2 else 0
    let c2 := commit2 g rnd s n1 n
    let t := s.transcript ++ [.point "A_I2" c2.AI, .point "A_O2" c2.AO, .point "S2" c2.S]
    let (y, t) := challengeScalar o t "y"
    let (z, t) := challengeScalar o t "z"
    match s.flattened z with
    | none => .error (.panic "flattened_constraints: index out of bounds")
    | some wt =>
      if y = 0 then .error (.panic "y.inverse().unwrap()")
      else
        let yinv := expIter y⁻¹ paddedN
        let ypow := expIter y paddedN
        let sL := (List.range n1).map rnd.sL1 ++ (List.range n2).map rnd.sL2
        let sR := (List.range n1).map rnd.sR1 ++ (List.range n2).map rnd.sR2
        let k := min sL.length sR.length
        match debugAssert (op % 2 = 0 ∧ k ≤ s.aL.length) with
        | .error e => .error e
        | .ok _ =>
        match lPolyDebug s wt yinv n op ops sL k with
        | .error e => .error e
        | .ok lp =>
        match rPolyDebug s wt ypow n op ops sR k with
        | .error e => .error e
        | .ok rp =>
        let tp := VecPoly.innerProduct lp rp
        let T := (List.range (2 * (op + 1) + 1)).map fun d =>
          if d = op then 0 else g.pc.commit (tp.getD d 0) (rnd.tau d)
        match appendT op 0 T t with
        | .error e => .error e
        | .ok t =>
          let (u, t) := challengeScalar o t "u"
          let (x, t) := challengeScalar o t "x"
          let tbl := (List.range (2 * (op + 1) + 1)).map fun d =>
            if d = op then innerProduct wt.wV s.vBlinding else rnd.tau d
          let tx := polyEval tp x
          let txBl := polyEval tbl x
          let lv := lp.eval x ++ List.replicate pad 0
          let rv := rp.eval x ++ ((List.range pad).map fun i => - ypow.getD (n + i) 0)
          match sanityT2 s wt y n paddedN with
          | .error e => .error e
          | .ok t2 =>
          match debugAssert (tp.getD op 0 = t2) with
          | .error e => .error e
          | .ok _ =>
          match eTermsDebug op ops (rnd.i1 + u * i2) (rnd.o1 + u * o2) (rnd.s1 + u * s2) (s.vecOpen.map (·.1)) with
          | .error e => .error e
          | .ok es =>
          let eBl := eEval x es 1
          let t := t ++ [.scalar "t_x" tx, .scalar "t_x_blinding" txBl, .scalar "e_blinding" eBl]
          let (w, t) := challengeScalar o t "w"
          let Q := w • g.pc.B
          let Gf := List.replicate n1 1 ++ List.replicate (n2 + pad) u
          let Hf := List.zipWith (· * ·) yinv Gf
          match ippCreate o Q Gf Hf (g.Gs.take paddedN) (g.Hs.take paddedN) lv rv t with
          | .error e => .error e
          | .ok (ipp, t) =>
            .ok (⟨c1.AI, c1.AO, c1.S, c2.AI, c2.AO, c2.S, T, tx, txBl, eBl, ipp⟩, t)

/-- `prove` in a debug build, `prover.rs:502-1195`; `op_splits` is called at `prover.rs:521`. -/
def proveDebug (o : Oracle F G X) (g : Gens G) (rnd : PRand F) (s : PState F G X) :
    Except Err (R1CSProof F G × Transcript F G X) :=
  let s := s.pad
  let s := { s with transcript := s.transcript ++ [.num "m" s.v.length] }
  let n1 := s.size
  match opSplitsDebug (opDegree s.vecOpen.length) with
  | .error e => .error e
  | .ok _ =>
  if g.capacity < n1 then .error .invalidGeneratorsLength
  else
    let c1 := commit1 g rnd s n1
    let s := { s with transcript :=
      s.transcript ++ [Msg.point "A_I1" c1.AI, Msg.point "A_O1" c1.AO, Msg.point "S1" c1.S] }
    match s.createRandomized o with
    | .error e => .error e
    | .ok s => proveTailDebug o g rnd n1 c1 s

/-- The assertions in the last part of `verification_scalars_and_points`, `verifier.rs:610`, `656-657`, `674-676`. -/
def tailAsserts (p : R1CSProof F G) (ncomm : Nat) : Except Err Unit :=
  let op := opDegree ncomm
  let ops := opSplits op
  debugAssert ((ops.getD 0 (0, 0)).1 = (ops.getD 0 (0, 0)).2 ∧ p.T[op]? = some 0 ∧ p.T.length = 2 * (op + 1) + 1 ∧
    (ncomm = 0 ∨ p.AI2 = 0) ∧ (ncomm = 0 ∨ p.AO2 = 0) ∧ (ncomm = 0 ∨ p.S2 = 0))

/-- The part of `verification_scalars_and_points` after the second phase in a debug build, `verifier.rs:511-722`. All assertions come
after the last place where `verifyTail` can fail. -/
def verifyTailDebug (o : Oracle F G X) (r : F) (p : R1CSProof F G) (n1 : Nat) (s : VState F G X) : Except Err (Tuple F G) :=
  match verifyTail o r p n1 s with
  | .error e => .error e
  | .ok v => (tailAsserts p s.vecComms.length).map fun _ => v

/-- `verification_scalars_and_points` in a debug build, `verifier.rs:468-723`, with the assertions of `verifier.rs:492` (in
`op_splits`) and `505`. -/
def verificationTupleDebug (o : Oracle F G X) (r : F) (p : R1CSProof F G) (s : VState F G X) :
    Except Err (Tuple F G) := do
  let s := s.pad
  let n1 := s.size
  let t := s.transcript ++ [.num "m" s.V.length]
  let op := opDegree s.vecComms.length
  let _ ← opSplitsDebug op
  debugAssert (2 * (op + 1) + 1 = p.T.length)
  let t ← validateAndAppendPoint t "A_I1" p.AI1
  let t ← validateAndAppendPoint t "A_O1" p.AO1
  let t ← validateAndAppendPoint t "S1" p.S1
  let s ← VState.createRandomized o { s with transcript := t }
  verifyTailDebug o r p n1 s

/-- `Verifier::verify` in a debug build, `verifier.rs:421-466`. -/
def verifyDebug (o : Oracle F G X) (g : Gens G) (r : F) (p : R1CSProof F G) (s : VState F G X) : Except Err Unit :=
  match verificationTupleDebug o r p s with
  | .error e => .error e
  | .ok v => checkTuple g v

end

section
variable {B : Bool → Type} [∀ p, Field (B p)] [∀ p, DecidableEq (B p)] {C : ∀ p, SWCurve (B p)}
  [∀ p, Module (B (!p)) (C p).Pt] {L M : Nat}

/-- `select_and_rerandomize_verifier_gadget` in a debug build, `curve_tree_verifier.rs:59-77`. -/
def treeVerifierGadgetDebug [NeZero M] (oE : SideO C false) (oO : SideO C true) (fx : Bool) (prm : SelRerand C)
    (t : CurveTree L M (Pts C)) (path : Path (C false).Pt (C true).Pt) (sE : SideV C false) (sO : SideV C true) :
    Except Err ((C false).Pt × SideV C false × SideV C true) :=
  match addRoot t path with
  | .error e => .error e
  | .ok path =>
    match debugAssert (t.height = path.even.length + path.odd.length) with
    | .error e => .error e
    | .ok _ =>
      match evenVerifierGadget oE fx prm t path sE with
      | .error e => .error e
      | .ok sE =>
        match oddVerifierGadget oO fx prm t path sO with
        | .error e => .error e
        | .ok sO => .ok (path.selected, sE, sO)

/-- `batched_select_and_rerandomize_verifier_gadget` in a debug build, `batched_curve_tree_verifier.rs:69-87`. -/
def multiTreeVerifierGadgetDebug (oE : SideO C false) (oO : SideO C true) (fx : Bool) (prm : SelRerand C)
    (t : CurveTree L M (Pts C)) (path : MultiPath (C false).Pt (C true).Pt M) (sE : SideV C false) (sO : SideV C true) :
    Except Err ((Fin M → (C false).Pt) × SideV C false × SideV C true) :=
  match addRoots t path with
  | .error e => .error e
  | .ok path =>
    match debugAssert (t.height = path.even.length + path.odd.length) with
    | .error e => .error e
    | .ok _ =>
      match multiEvenVerifierGadget oE fx prm t path sE with
      | .error e => .error e
      | .ok sE =>
        match multiOddVerifierGadget oO fx prm t path sO with
        | .error e => .error e
        | .ok sO => .ok (path.selected, sE, sO)

end
end CT
