import Verif.Proofs.Complete
import Mathlib.LinearAlgebra.Span.Basic

/-! Translating the Prover's random choices from one witness to another (property C40). -/

namespace CT
open Finset
set_option linter.unusedSectionVars false
variable {F G X : Type} [Field F] [AddCommGroup G] [Module F G]

/-- Entry `i` of the `j`-th opened vector. -/
def vOf (s : PState F G X) (j i : Nat) : F := (s.vecOpen.getD j (0, [])).2.getD i 0

/-- The `s_L`, `s_R` of a run. -/
def sLOf (rnd : PRand F) (n1 n : Nat) : List F := (List.range n1).map rnd.sL1 ++ (List.range (n - n1)).map rnd.sL2
def sROf (rnd : PRand F) (n1 n : Nat) : List F := (List.range n1).map rnd.sR1 ++ (List.range (n - n1)).map rnd.sR2

/-- `l(x)` without the blinding vector. -/
def baseL (ch : Check F G) (s : PState F G X) (i : Nat) : F :=
  evalL ch (vOf s) (fun i => s.aL.getD i 0) (fun i => s.aO.getD i 0) (fun _ => 0) i

/-- `r(x)` without the blinding vector. -/
def baseR (ch : Check F G) (s : PState F G X) (i : Nat) : F :=
  evalR ch (fun i => s.aR.getD i 0) (fun _ => 0) (fun _ => 0) i

theorem evalL_base (ch : Check F G) (s : PState F G X) (sL : Nat → F) (i : Nat) :
    evalL ch (vOf s) (fun i => s.aL.getD i 0) (fun i => s.aO.getD i 0) sL i = baseL ch s i + ch.x ^ (ch.op + 1) * sL i := by
  unfold baseL evalL; ring

theorem evalR_base (ch : Check F G) (s : PState F G X) (sR : Nat → F) (i : Nat) :
    evalR ch (fun i => s.aR.getD i 0) (fun _ => 0) sR i = baseR ch s i + ch.x ^ (ch.op + 1) * (ch.y ^ i * sR i) := by
  unfold baseR evalR; ring

/-- The polynomials of a run. -/
def lpOf (ch : Check F G) (s : PState F G X) (rnd : PRand F) (n : Nat) : VecPoly F :=
  lPoly s ch.wt (expIter ch.y⁻¹ ch.N) n ch.op (opSplits ch.op) (sLOf rnd ch.n1 n)
def rpOf (ch : Check F G) (s : PState F G X) (rnd : PRand F) (n : Nat) : VecPoly F :=
  rPoly s ch.wt (expIter ch.y ch.N) n ch.op (opSplits ch.op) (sROf rnd ch.n1 n)

theorem lEval_eq (ch : Check F G) (s : PState F G X) (rnd : PRand F) (n : Nat) (hl : ch.comms.length = s.vecOpen.length)
    (h1 : ch.n1 ≤ n) (hv : ∀ v ∈ s.vecOpen, v.2.length ≤ n) (hnN : n ≤ ch.N) :
    (lpOf ch s rnd n).eval ch.x = (List.range n).map fun i => baseL ch s i + ch.x ^ (ch.op + 1) * (sLOf rnd ch.n1 n).getD i 0 := by
  have hop : ch.op = opDegree s.vecOpen.length := by unfold Check.op; rw [hl]
  have hrep := lPoly_rep s ch.wt (expIter ch.y⁻¹ ch.N) n (sLOf rnd ch.n1 n) (by simp [sLOf]; omega) hv
  dsimp only at hrep
  rw [← hop] at hrep
  obtain ⟨e1, e2⟩ := Rep_evalF hrep (by omega) ch.x
  refine ext_getD 0 (by unfold lpOf; rw [e1]; simp) fun i hi => ?_
  unfold lpOf at hi ⊢
  rw [e1] at hi
  rw [e2 i hi, getD_map_range, if_pos hi, hop,
    slot_sum s.vecOpen.length (fun j => opDegree s.vecOpen.length - slotR (opDegree s.vecOpen.length) j) (fun j _ => Nat.sub_le _ _), sum_slots]
  simp only [lSlot_zero, lSlot_one, lSlot_add_two, expIter_getD, if_pos (lt_of_lt_of_le hi hnN)]
  unfold baseL evalL vOf
  rw [hl, hop]
  simp only [lDeg, rDeg_eq]
  ring

theorem rEval_eq (ch : Check F G) (s : PState F G X) (rnd : PRand F) (n : Nat) (hl : ch.comms.length = s.vecOpen.length)
    (hv : ∀ v ∈ ch.wt.wVC, v.length ≤ n) (hw : s.vecOpen.length = ch.wt.wVC.length) (hnN : n ≤ ch.N) :
    (rpOf ch s rnd n).eval ch.x = (List.range n).map fun i => baseR ch s i + ch.x ^ (ch.op + 1) * (ch.y ^ i * (sROf rnd ch.n1 n).getD i 0) := by
  have hop : ch.op = opDegree s.vecOpen.length := by unfold Check.op; rw [hl]
  have hrep := rPoly_rep s ch.wt (expIter ch.y ch.N) n (sROf rnd ch.n1 n) hv hw
  dsimp only at hrep
  rw [← hop] at hrep
  obtain ⟨e1, e2⟩ := Rep_evalF hrep (by omega) ch.x
  have hslot : ∀ j < s.vecOpen.length + 2, slotR (opDegree s.vecOpen.length) j ≤ opDegree s.vecOpen.length := by
    obtain ⟨m, hm, ho, hk2⟩ := opDegree_pos s.vecOpen.length
    intro j hj
    rw [ho] at *
    exact slotR_le m j hm (by omega)
  refine ext_getD 0 (by unfold rpOf; rw [e1]; simp) fun i hi => ?_
  unfold rpOf at hi ⊢
  rw [e1] at hi
  rw [e2 i hi, getD_map_range, if_pos hi, hop,
    slot_sum s.vecOpen.length (fun j => slotR (opDegree s.vecOpen.length) j) hslot, sum_slots]
  simp only [rSlot_zero, rSlot_one, rSlot_add_two, expIter_getD, if_pos (lt_of_lt_of_le hi hnN)]
  unfold baseR evalR
  have hs1 : slotR (opDegree s.vecOpen.length) 1 = 0 := rfl
  rw [hl, hop]
  simp only [rDeg_eq, hs1, pow_zero, one_mul]
  ring

/-- The coefficients of `t`. -/
def tpOf (ch : Check F G) (s : PState F G X) (rnd : PRand F) (n : Nat) : List F :=
  VecPoly.innerProduct (lpOf ch s rnd n) (rpOf ch s rnd n)

/-- Sum of a part of the `G` and a part of the `H` generators. -/
def gh (g : Gens G) (lo hi : Nat) (a b : List F) : G := msm ((g.Gs.take hi).drop lo) a + msm ((g.Hs.take hi).drop lo) b

/-- What has to be added to `s_L`, `s_R`. -/
def dL (ch : Check F G) (s s' : PState F G X) (i : Nat) : F := (baseL ch s i - baseL ch s' i) / ch.x ^ (ch.op + 1)
def dR (ch : Check F G) (s s' : PState F G X) (i : Nat) : F := (baseR ch s i - baseR ch s' i) / (ch.x ^ (ch.op + 1) * ch.y ^ i)

/-- The random choices with shifted `s_L`, `s_R`. -/
def shiftS (ch : Check F G) (s s' : PState F G X) (rnd : PRand F) : PRand F :=
  { rnd with sL1 := fun i => rnd.sL1 i + dL ch s s' i
             sR1 := fun i => rnd.sR1 i + dR ch s s' i
             sL2 := fun i => rnd.sL2 i + dL ch s s' (ch.n1 + i)
             sR2 := fun i => rnd.sR2 i + dR ch s s' (ch.n1 + i) }

/-- The random choices with which the witness in `s'` gives the proof which the witness in `s` gives with `rnd`. -/
def twist (lg : G →ₗ[F] F) (g : Gens G) (ch : Check F G) (n : Nat) (s s' : PState F G X) (rnd : PRand F) : PRand F :=
  let r := shiftS ch s s' rnd
  { r with
    i1 := rnd.i1 + lg (gh g 0 ch.n1 (s.aL.take ch.n1) (s.aR.take ch.n1) - gh g 0 ch.n1 (s'.aL.take ch.n1) (s'.aR.take ch.n1))
    o1 := rnd.o1 + lg (gh g 0 ch.n1 (s.aO.take ch.n1) [] - gh g 0 ch.n1 (s'.aO.take ch.n1) [])
    s1 := rnd.s1 + lg (gh g 0 ch.n1 ((List.range ch.n1).map rnd.sL1) ((List.range ch.n1).map rnd.sR1) -
      gh g 0 ch.n1 ((List.range ch.n1).map r.sL1) ((List.range ch.n1).map r.sR1))
    i2 := rnd.i2 + lg (gh g ch.n1 n (s.aL.drop ch.n1) (s.aR.drop ch.n1) - gh g ch.n1 n (s'.aL.drop ch.n1) (s'.aR.drop ch.n1))
    o2 := rnd.o2 + lg (gh g ch.n1 n (s.aO.drop ch.n1) [] - gh g ch.n1 n (s'.aO.drop ch.n1) [])
    s2 := rnd.s2 + lg (gh g ch.n1 n ((List.range (n - ch.n1)).map rnd.sL2) ((List.range (n - ch.n1)).map rnd.sR2) -
      gh g ch.n1 n ((List.range (n - ch.n1)).map r.sL2) ((List.range (n - ch.n1)).map r.sR2))
    tau := fun d => rnd.tau d + lg g.pc.B * ((tpOf ch s rnd n).getD d 0 - (tpOf ch s' r n).getD d 0) }

theorem dL_swap (ch : Check F G) (s s' : PState F G X) (i : Nat) : dL ch s' s i = - dL ch s s' i := by
  unfold dL; rw [← neg_div]; congr 1; ring
theorem dR_swap (ch : Check F G) (s s' : PState F G X) (i : Nat) : dR ch s' s i = - dR ch s s' i := by
  unfold dR; rw [← neg_div]; congr 1; ring

theorem twist_twist (lg : G →ₗ[F] F) (g : Gens G) (ch : Check F G) (n : Nat) (s s' : PState F G X) (rnd : PRand F) :
    twist lg g ch n s' s (twist lg g ch n s s' rnd) = rnd := by
  have e : shiftS ch s' s (twist lg g ch n s s' rnd) =
      { twist lg g ch n s s' rnd with sL1 := rnd.sL1, sR1 := rnd.sR1, sL2 := rnd.sL2, sR2 := rnd.sR2 } := by
    unfold shiftS
    simp only [twist, shiftS, dL_swap ch s s', dR_swap ch s s', add_neg_cancel_right]
  have hl : ∀ (a : F) (P Q : G), a + lg (P - Q) + lg (Q - P) = a := by
    intro a P Q
    rw [add_assoc, ← map_add]; simp
  unfold twist at e ⊢
  dsimp only at e ⊢
  rw [e]
  cases rnd
  simp only [hl, PRand.mk.injEq, true_and]
  funext d
  simp only [shiftS]
  unfold tpOf lpOf rpOf sLOf sROf
  dsimp only
  ring

variable [DecidableEq F] [DecidableEq G]

/-- The transcript after the second-phase commitments of the proof. -/
def chkT0 (t : VState F G X) (p : R1CSProof F G) : Transcript F G X :=
  t.transcript ++ [.point "A_I2" p.AI2, .point "A_O2" p.AO2, .point "S2" p.S2]

/-- The challenge `z`. -/
def chkZ (o : Oracle F G X) (t : VState F G X) (p : R1CSProof F G) : F := o (chkT0 t p ++ [.chal "y"] ++ [.chal "z"])

/-- The transcript after the points `T_d`. -/
def chkT1 (t : VState F G X) (p : R1CSProof F G) : Except Err (Transcript F G X) :=
  appendT (opDegree t.vecComms.length) 0 p.T (chkT0 t p ++ [.chal "y"] ++ [.chal "z"])

/-- The same, as a function. -/
def chkT1' (t : VState F G X) (p : R1CSProof F G) : Transcript F G X :=
  match chkT1 t p with
  | .ok t1 => t1
  | .error _ => []

/-- The public values read off a proof. -/
def proofCheck (o : Oracle F G X) (n1 : Nat) (t : VState F G X) (p : R1CSProof F G) : Check F G where
  comms := t.vecComms.map (·.1)
  V := t.V
  wt := { (t.flattened (chkZ o t p)).getD (Weights.zero 0 0 []) with wc := 0 }
  n1 := n1
  N := nextPow2 t.size
  y := o (chkT0 t p ++ [.chal "y"])
  u := o (chkT1' t p ++ [.chal "u"])
  x := o (chkT1' t p ++ [.chal "u"] ++ [.chal "x"])
  w := o (chkT1' t p ++ [.chal "u"] ++ [.chal "x"] ++
    [.scalar "t_x" p.tx, .scalar "t_x_blinding" p.txBl, .scalar "e_blinding" p.eBl] ++ [.chal "w"])

/-- The equations a run of `proveTail` amounts to. -/
structure TailEqs (o : Oracle F G X) (g : Gens G) (rnd : PRand F) (n1 : Nat) (c1 : Com G) (s : PState F G X) (t : VState F G X)
    (p : R1CSProof F G) (tr : Transcript F G X) : Prop where
  cap : ¬ g.capacity < nextPow2 s.size
  ph : ¬ (s.size - n1 > 0 ∧ s.vecOpen ≠ [])
  AI : p.AI1 = c1.AI
  AO : p.AO1 = c1.AO
  S : p.S1 = c1.S
  c2 : commit2 g rnd s n1 s.size = ⟨p.AI2, p.AO2, p.S2⟩
  wt : t.flattened (chkZ o t p) ≠ none
  y : (proofCheck o n1 t p).y ≠ 0
  T : p.T = (List.range (2 * ((proofCheck o n1 t p).op + 1) + 1)).map fun d => if d = (proofCheck o n1 t p).op then 0 else
    g.pc.commit ((tpOf (proofCheck o n1 t p) s rnd s.size).getD d 0) (rnd.tau d)
  app : chkT1 t p = .ok (chkT1' t p)
  tx : p.tx = polyEval (tpOf (proofCheck o n1 t p) s rnd s.size) (proofCheck o n1 t p).x
  txBl : p.txBl = polyEval ((List.range (2 * ((proofCheck o n1 t p).op + 1) + 1)).map fun d =>
    if d = (proofCheck o n1 t p).op then innerProduct (proofCheck o n1 t p).wt.wV s.vBlinding else rnd.tau d) (proofCheck o n1 t p).x
  eBl : p.eBl = eEval (proofCheck o n1 t p).x (eTerms (proofCheck o n1 t p).op (opSplits (proofCheck o n1 t p).op)
    (rnd.i1 + (proofCheck o n1 t p).u * (if s.size - n1 > 0 then rnd.i2 else 0))
    (rnd.o1 + (proofCheck o n1 t p).u * (if s.size - n1 > 0 then rnd.o2 else 0))
    (rnd.s1 + (proofCheck o n1 t p).u * (if s.size - n1 > 0 then rnd.s2 else 0)) (s.vecOpen.map (·.1))) 1
  ipp : ippCreate o ((proofCheck o n1 t p).w • g.pc.B)
    (List.replicate n1 1 ++ List.replicate (s.size - n1 + (nextPow2 s.size - s.size)) (proofCheck o n1 t p).u)
    (List.zipWith (· * ·) (expIter (proofCheck o n1 t p).y⁻¹ (nextPow2 s.size))
      (List.replicate n1 1 ++ List.replicate (s.size - n1 + (nextPow2 s.size - s.size)) (proofCheck o n1 t p).u))
    (g.Gs.take (nextPow2 s.size)) (g.Hs.take (nextPow2 s.size))
    ((lpOf (proofCheck o n1 t p) s rnd s.size).eval (proofCheck o n1 t p).x ++ List.replicate (nextPow2 s.size - s.size) 0)
    ((rpOf (proofCheck o n1 t p) s rnd s.size).eval (proofCheck o n1 t p).x ++
      ((List.range (nextPow2 s.size - s.size)).map fun i => - (expIter (proofCheck o n1 t p).y (nextPow2 s.size)).getD (s.size + i) 0))
    (chkT1' t p ++ [.chal "u"] ++ [.chal "x"] ++
      [.scalar "t_x" p.tx, .scalar "t_x_blinding" p.txBl, .scalar "e_blinding" p.eBl] ++ [.chal "w"]) = .ok (p.ipp, tr)

theorem Synced.flat {g : Gens G} {s : PState F G X} {t : VState F G X} (h : Synced g s t) (z : F) :
    s.flattened z = (t.flattened z).map fun wt => { wt with wc := 0 } :=
  C04_same_weights s t z h.stmt.constraints h.stmt.left.symm (by rw [h.V, List.length_zipWith, h.lenV, min_self])
    (by rw [h.comms, List.map_map]; rfl)

theorem proveTail_iff (o : Oracle F G X) (g : Gens G) (rnd : PRand F) (n1 : Nat) (c1 : Com G) (s : PState F G X) (t : VState F G X)
    (h : Synced g s t) (p : R1CSProof F G) (tr : Transcript F G X) :
    proveTail o g rnd n1 c1 s = .ok (p, tr) ↔ TailEqs o g rnd n1 c1 s t p tr := by
  have hvl : t.vecComms.length = s.vecOpen.length := by rw [h.comms, List.length_map]
  have hop : (proofCheck o n1 t p).op = opDegree s.vecOpen.length := by
    unfold Check.op proofCheck; rw [List.length_map, hvl]
  have hN : (proofCheck o n1 t p).N = nextPow2 s.size := by show nextPow2 t.size = _; rw [h.size]
  constructor
  · intro hp
    unfold proveTail at hp
    simp only [challengeScalar] at hp
    by_cases hcap : g.capacity < nextPow2 s.size
    · rw [if_pos hcap] at hp; simp at hp
    rw [if_neg hcap] at hp
    by_cases hph : s.size - n1 > 0 ∧ s.vecOpen ≠ []
    · rw [if_pos hph] at hp; simp at hp
    rw [if_neg hph] at hp
    set c2 := commit2 g rnd s n1 s.size with hc2
    set T0 : Transcript F G X := s.transcript ++ [.point "A_I2" c2.AI, .point "A_O2" c2.AO, .point "S2" c2.S]
      with hT0
    cases hflat : s.flattened (o (T0 ++ [.chal "y"] ++ [.chal "z"])) with
    | none => rw [hflat] at hp; simp at hp
    | some wt0 =>
    rw [hflat] at hp
    simp only at hp
    by_cases hy : o (T0 ++ [.chal "y"]) = 0
    · exact absurd ((if_pos hy).symm.trans hp) (by simp)
    replace hp := (if_neg hy).symm.trans hp
    generalize hT : (List.range (2 * (opDegree s.vecOpen.length + 1) + 1)).map (fun d =>
          if d = opDegree s.vecOpen.length then 0 else g.pc.commit (List.getD (VecPoly.innerProduct (lPoly s wt0 (expIter (o (T0 ++ [.chal "y"]))⁻¹ (nextPow2 s.size)) s.size (opDegree s.vecOpen.length) (opSplits (opDegree s.vecOpen.length)) ((List.range n1).map rnd.sL1 ++ (List.range (s.size - n1)).map rnd.sL2)) (rPoly s wt0 (expIter (o (T0 ++ [.chal "y"])) (nextPow2 s.size)) s.size (opDegree s.vecOpen.length) (opSplits (opDegree s.vecOpen.length)) ((List.range n1).map rnd.sR1 ++ (List.range (s.size - n1)).map rnd.sR2))) d 0) (rnd.tau d)) = T at hp
    cases happ : appendT (opDegree s.vecOpen.length) 0 T (T0 ++ [.chal "y"] ++ [.chal "z"]) with
    | error e => rw [happ] at hp; simp at hp
    | ok t1 =>
    rw [happ] at hp
    simp only at hp
    split at hp
    · simp at hp
    rename_i ipp t2 hcr
    simp only [Except.ok.injEq, Prod.mk.injEq] at hp
    obtain ⟨hp, rfl⟩ := hp
    have eT0 : chkT0 t p = T0 := by unfold chkT0; rw [h.stmt.transcript, ← hp]
    have eT1 : chkT1 t p = .ok t1 := by
      unfold chkT1; rw [eT0, hvl, ← happ, ← hp]
    have eT1' : chkT1' t p = t1 := by unfold chkT1'; rw [eT1]
    have eflat : t.flattened (chkZ o t p) ≠ none ∧ (proofCheck o n1 t p).wt = wt0 := by
      have hz : chkZ o t p = o (T0 ++ [.chal "y"] ++ [.chal "z"]) := by unfold chkZ; rw [eT0]
      rw [h.flat, ← hz] at hflat
      obtain ⟨wt, hwt, rfl⟩ := Option.map_eq_some_iff.1 hflat
      refine ⟨by rw [hwt]; simp, ?_⟩
      show ({ (t.flattened (chkZ o t p)).getD (Weights.zero 0 0 []) with wc := 0 } : Weights F) = _
      rw [hwt]; rfl
    have ey : (proofCheck o n1 t p).y = o (T0 ++ [.chal "y"]) := by show o (chkT0 t p ++ _) = _; rw [eT0]
    have eu : (proofCheck o n1 t p).u = o (t1 ++ [.chal "u"]) := by show o (chkT1' t p ++ _) = _; rw [eT1']
    have ex : (proofCheck o n1 t p).x = o (t1 ++ [.chal "u"] ++ [.chal "x"]) := by
      show o (chkT1' t p ++ _ ++ _) = _; rw [eT1']
    have etp : tpOf (proofCheck o n1 t p) s rnd s.size = VecPoly.innerProduct (lPoly s wt0 (expIter (o (T0 ++ [.chal "y"]))⁻¹ (nextPow2 s.size)) s.size (opDegree s.vecOpen.length) (opSplits (opDegree s.vecOpen.length)) ((List.range n1).map rnd.sL1 ++ (List.range (s.size - n1)).map rnd.sL2)) (rPoly s wt0 (expIter (o (T0 ++ [.chal "y"])) (nextPow2 s.size)) s.size (opDegree s.vecOpen.length) (opSplits (opDegree s.vecOpen.length)) ((List.range n1).map rnd.sR1 ++ (List.range (s.size - n1)).map rnd.sR2)) := by
      unfold tpOf lpOf rpOf sLOf sROf
      rw [hop, eflat.2, ey, hN]; rfl
    refine ⟨hcap, hph, by rw [← hp], by rw [← hp], by rw [← hp], by rw [← hp], eflat.1, by rw [ey]; exact hy, ?_, by rw [eT1, eT1'], ?_, ?_, ?_, ?_⟩
    · rw [hop, etp, hT, ← hp]
    · rw [etp, ex, ← hp]
    · rw [hop, ex, eflat.2, ← hp]
    · rw [hop, ex, eu, ← hp]
    · have elp : lpOf (proofCheck o n1 t p) s rnd s.size = lPoly s wt0 (expIter (o (T0 ++ [.chal "y"]))⁻¹ (nextPow2 s.size)) s.size (opDegree s.vecOpen.length) (opSplits (opDegree s.vecOpen.length)) ((List.range n1).map rnd.sL1 ++ (List.range (s.size - n1)).map rnd.sL2) := by
        unfold lpOf sLOf; rw [hop, eflat.2, ey, hN]; rfl
      have erp : rpOf (proofCheck o n1 t p) s rnd s.size = rPoly s wt0 (expIter (o (T0 ++ [.chal "y"])) (nextPow2 s.size)) s.size (opDegree s.vecOpen.length) (opSplits (opDegree s.vecOpen.length)) ((List.range n1).map rnd.sR1 ++ (List.range (s.size - n1)).map rnd.sR2) := by
        unfold rpOf sROf; rw [hop, eflat.2, ey, hN]; rfl
      have ew : (proofCheck o n1 t p).w = o (t1 ++ [.chal "u"] ++ [.chal "x"] ++
          [.scalar "t_x" p.tx, .scalar "t_x_blinding" p.txBl, .scalar "e_blinding" p.eBl] ++ [.chal "w"]) := by
        show o (chkT1' t p ++ _ ++ _ ++ _ ++ _) = _; rw [eT1']
      rw [elp, erp, ew, eu, ex, ey, eT1', ← hp]
      exact hcr
  · intro E
    obtain ⟨wt, hwt⟩ := Option.ne_none_iff_exists'.1 E.wt
    have ewt : (proofCheck o n1 t p).wt = { wt with wc := 0 } := by
      show ({ (t.flattened (chkZ o t p)).getD (Weights.zero 0 0 []) with wc := 0 } : Weights F) = _
      rw [hwt]; rfl
    have eflat : s.flattened (o (chkT0 t p ++ [.chal "y"] ++ [.chal "z"])) = some (proofCheck o n1 t p).wt := by
      rw [h.flat]; change (t.flattened (chkZ o t p)).map _ = _; rw [hwt, ewt]; rfl
    have eT0 : s.transcript ++ [.point "A_I2" p.AI2, .point "A_O2" p.AO2, .point "S2" p.S2] = chkT0 t p := by
      unfold chkT0; rw [h.stmt.transcript]
    have ey : o (chkT0 t p ++ [.chal "y"]) = (proofCheck o n1 t p).y := rfl
    have elp : lPoly s (proofCheck o n1 t p).wt (expIter ((proofCheck o n1 t p).y)⁻¹ (nextPow2 s.size)) s.size (opDegree s.vecOpen.length) (opSplits (opDegree s.vecOpen.length)) ((List.range n1).map rnd.sL1 ++ (List.range (s.size - n1)).map rnd.sL2) = lpOf (proofCheck o n1 t p) s rnd s.size := by
      unfold lpOf sLOf; rw [hop, hN]; rfl
    have erp : rPoly s (proofCheck o n1 t p).wt (expIter ((proofCheck o n1 t p).y) (nextPow2 s.size)) s.size (opDegree s.vecOpen.length) (opSplits (opDegree s.vecOpen.length)) ((List.range n1).map rnd.sR1 ++ (List.range (s.size - n1)).map rnd.sR2) = rpOf (proofCheck o n1 t p) s rnd s.size := by
      unfold rpOf sROf; rw [hop, hN]; rfl
    have eT := E.T
    rw [hop] at eT
    have etx := E.tx
    unfold tpOf at eT etx
    have eapp : appendT (opDegree s.vecOpen.length) 0 p.T (chkT0 t p ++ [.chal "y"] ++ [.chal "z"]) = .ok (chkT1' t p) := by
      rw [← E.app]; unfold chkT1; rw [hvl]
    have etxBl := E.txBl
    have eeBl := E.eBl
    rw [hop] at etxBl eeBl
    have eu : o (chkT1' t p ++ [.chal "u"]) = (proofCheck o n1 t p).u := rfl
    have ex : o (chkT1' t p ++ [.chal "u"] ++ [.chal "x"]) = (proofCheck o n1 t p).x := rfl
    have ew : o (chkT1' t p ++ [.chal "u"] ++ [.chal "x"] ++
        [.scalar "t_x" p.tx, .scalar "t_x_blinding" p.txBl, .scalar "e_blinding" p.eBl] ++ [.chal "w"]) = (proofCheck o n1 t p).w := rfl
    unfold proveTail
    simp only [challengeScalar]
    rw [if_neg E.cap, if_neg E.ph]
    simp only [E.c2]
    simp only [eT0]
    rw [eflat]
    simp only [ey]
    refine (if_neg E.y).trans ?_
    simp only [elp, erp]
    rw [← eT]
    rw [eapp]
    simp only [eu, ex]
    rw [← etx, ← etxBl, ← eeBl, ew, E.ipp]
    simp only
    rw [← E.AI, ← E.AO, ← E.S]

theorem sLOf_twist (lg : G →ₗ[F] F) (g : Gens G) (ch : Check F G) (n : Nat) (s s' : PState F G X) (rnd : PRand F) (i : Nat) (hi : i < n) :
    (sLOf (twist lg g ch n s s' rnd) ch.n1 n).getD i 0 = (sLOf rnd ch.n1 n).getD i 0 + dL ch s s' i := by
  unfold sLOf
  rw [getD_append', getD_append']
  simp only [List.length_map, List.length_range, getD_map_range]
  split
  · rfl
  · rename_i h
    rw [if_pos (by omega), if_pos (by omega)]
    show rnd.sL2 (i - ch.n1) + dL ch s s' (ch.n1 + (i - ch.n1)) = _
    rw [show ch.n1 + (i - ch.n1) = i by omega]

theorem sROf_twist (lg : G →ₗ[F] F) (g : Gens G) (ch : Check F G) (n : Nat) (s s' : PState F G X) (rnd : PRand F) (i : Nat) (hi : i < n) :
    (sROf (twist lg g ch n s s' rnd) ch.n1 n).getD i 0 = (sROf rnd ch.n1 n).getD i 0 + dR ch s s' i := by
  unfold sROf
  rw [getD_append', getD_append']
  simp only [List.length_map, List.length_range, getD_map_range]
  split
  · rfl
  · rename_i h
    rw [if_pos (by omega), if_pos (by omega)]
    show rnd.sR2 (i - ch.n1) + dR ch s s' (ch.n1 + (i - ch.n1)) = _
    rw [show ch.n1 + (i - ch.n1) = i by omega]

/-- A state with all multipliers in place, synced with the Verifier, with a true statement. -/
structure TailOk (g : Gens G) (n1 : Nat) (s : PState F G X) (t : VState F G X) : Prop where
  sync : Synced g s t
  len : s.aL.length = s.size
  le : n1 ≤ s.size
  dim : ∀ c ∈ s.vecOpen, c.2.length ≤ n1
  gate : ∀ i < s.size, s.aL.getD i 0 * s.aR.getD i 0 = s.aO.getD i 0
  lin : ∀ c ∈ s.constraints, s.assignment.eval c = 0

/-- The first-phase commitments are made with these random choices. -/
structure FirstOk (g : Gens G) (n1 : Nat) (c1 : Com G) (rnd : PRand F) (s : PState F G X) : Prop where
  AI : c1.AI = rnd.i1 • g.pc.Bbl + gh g 0 n1 (s.aL.take n1) (s.aR.take n1)
  AO : c1.AO = rnd.o1 • g.pc.Bbl + gh g 0 n1 (s.aO.take n1) []
  S : c1.S = rnd.s1 • g.pc.Bbl + gh g 0 n1 ((List.range n1).map rnd.sL1) ((List.range n1).map rnd.sR1)

theorem FirstOk.twist {lg : G →ₗ[F] F} {g : Gens G} (hlg : ∀ P, lg P • g.pc.Bbl = P) {ch : Check F G} {n : Nat} {c1 : Com G} {rnd : PRand F}
    {s s' : PState F G X} (h : FirstOk g ch.n1 c1 rnd s) : FirstOk g ch.n1 c1 (twist lg g ch n s s' rnd) s' := by
  refine ⟨?_, ?_, ?_⟩
  · rw [h.AI]; simp only [CT.twist, add_smul, hlg]; abel
  · rw [h.AO]; simp only [CT.twist, add_smul, hlg]; abel
  · rw [h.S]; simp only [CT.twist, add_smul, hlg]; abel

theorem gh_nil (g : Gens G) (lo hi : Nat) (a : List F) : gh g lo hi a [] = msm ((g.Gs.take hi).drop lo) a := by
  unfold gh
  rw [msm_eq _ ([] : List F) 0 (Or.inr (by simp))]; simp

theorem commit2_gh (g : Gens G) (rnd : PRand F) (s : PState F G X) (n1 n : Nat) (hn : n - n1 > 0)
    (hL : s.aL.length = n) (hR : s.aR.length = n) (hO : s.aO.length = n) (hG : n ≤ g.Gs.length) :
    commit2 g rnd s n1 n = ⟨rnd.i2 • g.pc.Bbl + gh g n1 n (s.aL.drop n1) (s.aR.drop n1),
      rnd.o2 • g.pc.Bbl + gh g n1 n (s.aO.drop n1) [],
      rnd.s2 • g.pc.Bbl + gh g n1 n ((List.range (n - n1)).map rnd.sL2) ((List.range (n - n1)).map rnd.sR2)⟩ := by
  obtain ⟨h1, h2, h3⟩ := commit2_eq g rnd s n1 n hL hR hO hG
  simp only [if_pos hn] at h1 h2 h3
  cases hc : commit2 g rnd s n1 n with
  | mk a b c =>
    rw [hc] at h1 h2 h3
    dsimp only at h1 h2 h3
    rw [h1, h2, h3, gh_nil]
    unfold gh
    simp only [add_assoc]

/-- The constant coefficient of the statement. -/
theorem tp_op (o : Oracle F G X) (g : Gens G) (rnd : PRand F) (n1 : Nat) (s : PState F G X) (t : VState F G X)
    (p : R1CSProof F G) (h : TailOk g n1 s t) (hw : t.flattened (chkZ o t p) ≠ none) (hy : (proofCheck o n1 t p).y ≠ 0) (hN : s.size ≤ nextPow2 s.size) :
    ∃ k : F, (tpOf (proofCheck o n1 t p) s rnd s.size).getD (proofCheck o n1 t p).op 0 =
      innerProduct (proofCheck o n1 t p).wt.wV s.v + k ∧ k = ((t.flattened (chkZ o t p)).getD (Weights.zero 0 0 [])).wc +
        ∑ i ∈ range t.size, (proofCheck o n1 t p).y⁻¹ ^ i * ((proofCheck o n1 t p).wt.wR.getD i 0 * (proofCheck o n1 t p).wt.wL.getD i 0) := by
  obtain ⟨wt, hwt⟩ := Option.ne_none_iff_exists'.1 hw
  have hsy := h.sync
  have hvl : t.vecComms.length = s.vecOpen.length := by rw [hsy.comms, List.length_map]
  have hop : (proofCheck o n1 t p).op = opDegree s.vecOpen.length := by
    unfold Check.op proofCheck; rw [List.length_map, hvl]
  have hdims : t.vecComms.map (·.2) = s.vecOpen.map fun v => v.2.length := by
    rw [hsy.comms, List.map_map]; rfl
  have hVlen : t.V.length = s.v.length := by rw [hsy.V, List.length_zipWith, hsy.lenV, min_self]
  have ewt : (proofCheck o n1 t p).wt = { wt with wc := 0 } := by
    show ({ (t.flattened (chkZ o t p)).getD (Weights.zero 0 0 []) with wc := 0 } : Weights F) = _
    rw [hwt]; rfl
  have hce := C05_circuit_equation s t (chkZ o t p) (proofCheck o n1 t p).y hy (nextPow2 s.size) (by rw [h.len]; exact hN)
    (sLOf rnd n1 s.size) (sROf rnd n1 s.size) (by simp [sLOf, h.len]; have := h.le; omega) hsy.stmt.left.symm hVlen hdims
    (by rw [h.len]; exact s.dim_le_size) wt hwt
  simp only [h.len] at hce
  rw [hsy.stmt.constraints, C04_satisfied_vanishes s.constraints s.assignment h.lin] at hce
  refine ⟨_, ?_, rfl⟩
  have e : tpOf (proofCheck o n1 t p) s rnd s.size = VecPoly.innerProduct (lPoly s wt (expIter (proofCheck o n1 t p).y⁻¹ (nextPow2 s.size)) s.size (opDegree s.vecOpen.length) (opSplits (opDegree s.vecOpen.length)) (sLOf rnd n1 s.size)) (rPoly s wt (expIter (proofCheck o n1 t p).y (nextPow2 s.size)) s.size (opDegree s.vecOpen.length) (opSplits (opDegree s.vecOpen.length)) (sROf rnd n1 s.size)) := by
    unfold tpOf lpOf rpOf
    rw [hop, ewt, show (proofCheck o n1 t p).N = nextPow2 s.size by show nextPow2 t.size = _; rw [hsy.size]]
    rfl
  rw [e, hop, hce, hwt, ewt, hsy.size]
  dsimp only [Option.getD_some]
  rw [innerProduct_eq _ _ s.v.length (Or.inr le_rfl)]
  have hz : ∑ i ∈ range s.size, (proofCheck o n1 t p).y ^ i * (s.aL.getD i 0 * s.aR.getD i 0 - s.aO.getD i 0) = 0 := by
    apply Finset.sum_eq_zero
    intro i hi
    rw [h.gate i (mem_range.1 hi)]; ring
  rw [hz]
  ring

theorem eBl_opened (g : Gens G) (ch : Check F G) (s : PState F G X) (t : VState F G X) (rnd : PRand F) (c1 : Com G) (eBl : F)
    (h : TailOk g ch.n1 s t) (hc : ch.comms = t.vecComms.map (·.1)) (hN : s.size ≤ ch.N) (hG : s.size ≤ g.Gs.length) (hH : s.size ≤ g.Hs.length)
    (hy : ch.y ≠ 0) (hf : FirstOk g ch.n1 c1 rnd s)
    (he : eBl = eEval ch.x (eTerms ch.op (opSplits ch.op)
      (rnd.i1 + ch.u * (if s.size - ch.n1 > 0 then rnd.i2 else 0)) (rnd.o1 + ch.u * (if s.size - ch.n1 > 0 then rnd.o2 else 0))
      (rnd.s1 + ch.u * (if s.size - ch.n1 > 0 then rnd.s2 else 0)) (s.vecOpen.map (·.1))) 1) :
    ch.opened g c1.AI c1.AO c1.S (commit2 g rnd s ch.n1 s.size).AI (commit2 g rnd s ch.n1 s.size).AO (commit2 g rnd s ch.n1 s.size).S eBl =
      ∑ i ∈ range ch.N, (ch.factor i * (baseL ch s i + ch.x ^ (ch.op + 1) * (sLOf rnd ch.n1 s.size).getD i 0)) • g.Gs.getD i 0 +
      ∑ i ∈ range ch.N, (ch.factor i * (ch.y⁻¹ ^ i * (baseR ch s i + ch.x ^ (ch.op + 1) * (ch.y ^ i * (sROf rnd ch.n1 s.size).getD i 0)))) • g.Hs.getD i 0 := by
  have hsy := h.sync
  have hn1 := h.le
  have hvl : ch.comms.length = s.vecOpen.length := by rw [hc, List.length_map, hsy.comms, List.length_map]
  have hlenR : s.aR.length = s.size := by rw [hsy.stmt.right, ← hsy.stmt.left, h.len]
  have hlenO : s.aO.length = s.size := by rw [hsy.stmt.out, ← hsy.stmt.left, h.len]
  obtain ⟨hAI2, hAO2, hS2⟩ := commit2_eq g rnd s ch.n1 s.size h.len hlenR hlenO hG
  have chf : ∀ i, ch.factor i = if i < ch.n1 then 1 else ch.u := fun i => rfl
  have hsLl : (sLOf rnd ch.n1 s.size).length = s.size := by simp [sLOf]; omega
  have hsRl : (sROf rnd ch.n1 s.size).length = s.size := by simp [sROf]; omega
  have hAI := hf.AI
  have hAO := hf.AO
  have hS := hf.S
  rw [gh_nil] at hAO
  unfold gh at hAI hS
  simp only [List.drop_zero] at hAI hAO hS
  have key := opened_eq ch g c1.AI c1.AO c1.S (commit2 g rnd s ch.n1 s.size).AI (commit2 g rnd s ch.n1 s.size).AO
    (commit2 g rnd s ch.n1 s.size).S eBl (vOf s) (fun j => (s.vecOpen.getD j (0, [])).1)
    (fun i => s.aL.getD i 0) (fun i => s.aR.getD i 0) (fun i => s.aO.getD i 0) (fun _ => 0)
    (fun i => (sLOf rnd ch.n1 s.size).getD i 0) (fun i => (sROf rnd ch.n1 s.size).getD i 0)
    (rnd.i1 + ch.u * (if s.size - ch.n1 > 0 then rnd.i2 else 0)) (rnd.o1 + ch.u * (if s.size - ch.n1 > 0 then rnd.o2 else 0))
    (rnd.s1 + ch.u * (if s.size - ch.n1 > 0 then rnd.s2 else 0)) hy
    (by
      intro j hj
      rw [hvl] at hj
      rw [hc]
      exact hsy.comm ch.N hN j hj)
    (by
      intro j hj i hi
      rw [chf]
      split
      · rw [one_mul]
      · rename_i hi1
        rw [hvl] at hj
        unfold vOf
        rw [getD_of_lt _ _ _ hj, getD_of_le (s.vecOpen[j]).2 _ _
          (le_trans (h.dim _ (List.getElem_mem _)) (by omega)), mul_zero])
    (by
      have h1 := two_phase g.Gs s.aL ch.n1 s.size ch.N hn1 hN h.len hG ch.u
      have h2 := two_phase g.Hs s.aR ch.n1 s.size ch.N hn1 hN hlenR hH ch.u
      simp only [chf]
      rw [← h1, ← h2, hAI, hAI2]
      module)
    (by
      have h1 := two_phase g.Gs s.aO ch.n1 s.size ch.N hn1 hN hlenO hG ch.u
      simp only [chf, mul_zero, zero_smul, Finset.sum_const_zero, add_zero]
      rw [← h1, hAO, hAO2]
      module)
    (by
      have h1 := two_phase g.Gs (sLOf rnd ch.n1 s.size) ch.n1 s.size ch.N hn1 hN hsLl hG ch.u
      have h2 := two_phase g.Hs (sROf rnd ch.n1 s.size) ch.n1 s.size ch.N hn1 hN hsRl hH ch.u
      have a1 : (sLOf rnd ch.n1 s.size).take ch.n1 = (List.range ch.n1).map rnd.sL1 := by
        unfold sLOf; rw [List.take_append_of_le_length (by simp), List.take_of_length_le (by simp)]
      have a2 : (sLOf rnd ch.n1 s.size).drop ch.n1 = (List.range (s.size - ch.n1)).map rnd.sL2 := by
        unfold sLOf; rw [List.drop_append_of_le_length (by simp), List.drop_of_length_le (by simp), List.nil_append]
      have b1 : (sROf rnd ch.n1 s.size).take ch.n1 = (List.range ch.n1).map rnd.sR1 := by
        unfold sROf; rw [List.take_append_of_le_length (by simp), List.take_of_length_le (by simp)]
      have b2 : (sROf rnd ch.n1 s.size).drop ch.n1 = (List.range (s.size - ch.n1)).map rnd.sR2 := by
        unfold sROf; rw [List.drop_append_of_le_length (by simp), List.drop_of_length_le (by simp), List.nil_append]
      simp only [chf]
      rw [← h1, ← h2, hS, hS2, a1, a2, b1, b2]
      module)
    (by
      rw [he]
      have := eBl_eq s.vecOpen.length (s.vecOpen.map (·.1)) (by simp)
        (rnd.i1 + ch.u * (if s.size - ch.n1 > 0 then rnd.i2 else 0)) (rnd.o1 + ch.u * (if s.size - ch.n1 > 0 then rnd.o2 else 0))
        (rnd.s1 + ch.u * (if s.size - ch.n1 > 0 then rnd.s2 else 0)) ch.x
      have hop : ch.op = opDegree s.vecOpen.length := by unfold Check.op; rw [hvl]
      rw [← hop] at this
      rw [this, hvl]
      congr 3
      refine Finset.sum_congr rfl fun j hj => ?_
      rw [getD_map' _ _ _ (0, []), if_pos (mem_range.1 hj)])
  rw [key]
  simp only [evalL_base, evalR_base]

theorem opened_inj (g : Gens G) (ch : Check F G) (a b c d e f : G) (x y : F) (hinj : ∀ a b : F, a • g.pc.Bbl = b • g.pc.Bbl → a = b)
    (h : ch.opened g a b c d e f x = ch.opened g a b c d e f y) : x = y := by
  unfold Check.opened at h
  apply hinj
  simpa using h

theorem baseL_ge (ch : Check F G) (s : PState F G X) (i : Nat) (hL : s.aL.length = s.size) (hO : s.aO.length = s.size) (hi : s.size ≤ i) :
    baseL ch s i = ch.x ^ lDeg ch.op 0 * (ch.y⁻¹ ^ i * ch.wt.wR.getD i 0) := by
  unfold baseL evalL vOf
  simp only [s.size_ge i hi, getD_of_le s.aL i 0 (by omega), getD_of_le s.aO i 0 (by omega), mul_zero, Finset.sum_const_zero]
  ring

theorem baseR_ge (ch : Check F G) (s : PState F G X) (i : Nat) (hR : s.aR.length = s.size) (hi : s.size ≤ i) :
    baseR ch s i = ch.x ^ rDeg ch.op 0 * (ch.wt.wL.getD i 0) + (ch.wt.wO.getD i 0 - ch.y ^ i) +
      ∑ j ∈ range ch.comms.length, ch.x ^ rDeg ch.op (j + 2) * (ch.wt.wVC.getD j []).getD i 0 := by
  unfold baseR evalR
  simp only [getD_of_le s.aR i 0 (by omega), mul_zero, zero_add, add_zero]

set_option maxHeartbeats 1600000 in
theorem TailEqs.twist {lg : G →ₗ[F] F} {o : Oracle F G X} {g : Gens G} (hlg : ∀ P, lg P • g.pc.Bbl = P)
    (hinj : ∀ a b : F, a • g.pc.Bbl = b • g.pc.Bbl → a = b)
    (hcG : g.capacity ≤ g.Gs.length) (hcH : g.capacity ≤ g.Hs.length)
    {n1 : Nat} {c1 : Com G} {rnd : PRand F} {s s' : PState F G X} {t : VState F G X} {p : R1CSProof F G} {tr : Transcript F G X}
    (h : TailOk g n1 s t) (h' : TailOk g n1 s' t) (hf : FirstOk g n1 c1 rnd s)
    (E : TailEqs o g rnd n1 c1 s t p tr) (hx : (proofCheck o n1 t p).x ≠ 0) :
    TailEqs o g (twist lg g (proofCheck o n1 t p) s.size s s' rnd) n1 c1 s' t p tr := by
  have hsz : s'.size = s.size := by rw [← h'.sync.size, h.sync.size]
  obtain ⟨k, hNk, hnN, -⟩ := nextPow2_eq s.size
  rw [← hNk] at hnN
  have hcap := E.cap
  have hvl : s'.vecOpen.length = s.vecOpen.length := by
    have := congrArg List.length (h.sync.comms.symm.trans h'.sync.comms)
    simpa using this.symm
  have hvn : s'.vecOpen ≠ [] ↔ s.vecOpen ≠ [] := by
    rw [← List.length_pos_iff, ← List.length_pos_iff, hvl]
  set ch := proofCheck o n1 t p with hch
  have chn1 : ch.n1 = n1 := rfl
  have chN : ch.N = nextPow2 s.size := by show nextPow2 t.size = _; rw [h.sync.size]
  have chl : ch.comms.length = s.vecOpen.length := by
    show (t.vecComms.map _).length = _; rw [h.sync.comms, List.length_map, List.length_map]
  set r := CT.twist lg g ch s.size s s' rnd with hr
  -- weights
  obtain ⟨wt, hwt⟩ := Option.ne_none_iff_exists'.1 E.wt
  have ewt : ch.wt = { wt with wc := 0 } := by
    show ({ (t.flattened (chkZ o t p)).getD (Weights.zero 0 0 []) with wc := 0 } : Weights F) = _
    rw [hwt]; rfl
  have hsh := (flattenLoop_apply (Weights.zero_shape _ _ _) hwt ⟨0, 0, 0, 0, 0⟩).1
  have hdims : t.vecComms.map (·.2) = s.vecOpen.map fun v => v.2.length := by
    rw [h.sync.comms, List.map_map]; rfl
  have hwvc : ∀ v ∈ ch.wt.wVC, v.length ≤ s.size := by
    intro v hv
    rw [ewt] at hv
    have : v.length ∈ wt.wVC.map List.length := List.mem_map_of_mem hv
    rw [hsh.wVC, hdims] at this
    obtain ⟨c, hc, e⟩ := List.mem_map.1 this
    rw [← e]; exact s.dim_le_size c hc
  have hwvl : s.vecOpen.length = ch.wt.wVC.length := by
    have := congrArg List.length (hsh.wVC.trans hdims)
    rw [ewt]
    simpa using this.symm
  have hxp : ch.x ^ (ch.op + 1) ≠ 0 := pow_ne_zero _ hx
  have hdimS : ∀ v ∈ s.vecOpen, v.2.length ≤ s.size := s.dim_le_size
  have hdimS' : ∀ v ∈ s'.vecOpen, v.2.length ≤ s.size := by rw [← hsz]; exact s'.dim_le_size
  have hbL : ∀ i < s.size, baseL ch s' i + ch.x ^ (ch.op + 1) * (sLOf r ch.n1 s.size).getD i 0 =
      baseL ch s i + ch.x ^ (ch.op + 1) * (sLOf rnd ch.n1 s.size).getD i 0 := by
    intro i hi
    rw [hr, sLOf_twist lg g ch s.size s s' rnd i hi]
    unfold dL
    field_simp
    ring
  have hbR : ∀ i < s.size, baseR ch s' i + ch.x ^ (ch.op + 1) * (ch.y ^ i * (sROf r ch.n1 s.size).getD i 0) =
      baseR ch s i + ch.x ^ (ch.op + 1) * (ch.y ^ i * (sROf rnd ch.n1 s.size).getD i 0) := by
    intro i hi
    rw [hr, sROf_twist lg g ch s.size s s' rnd i hi]
    unfold dR
    have hyi : ch.y ^ i ≠ 0 := pow_ne_zero _ E.y
    field_simp
    ring
  have hlE : (lpOf ch s' r s.size).eval ch.x = (lpOf ch s rnd s.size).eval ch.x := by
    rw [lEval_eq ch s' r s.size (by rw [chl, hvl]) h.le hdimS' (by rw [chN]; exact hnN),
      lEval_eq ch s rnd s.size chl h.le hdimS (by rw [chN]; exact hnN)]
    exact List.map_congr_left fun i hi => hbL i (List.mem_range.1 hi)
  have hrE : (rpOf ch s' r s.size).eval ch.x = (rpOf ch s rnd s.size).eval ch.x := by
    rw [rEval_eq ch s' r s.size (by rw [chl, hvl]) hwvc (by rw [hvl]; exact hwvl) (by rw [chN]; exact hnN),
      rEval_eq ch s rnd s.size chl hwvc hwvl (by rw [chN]; exact hnN)]
    exact List.map_congr_left fun i hi => hbR i (List.mem_range.1 hi)
  have hrep : ∀ (q : PState F G X) (ρ : PRand F), q.vecOpen.length = s.vecOpen.length → (∀ v ∈ q.vecOpen, v.2.length ≤ s.size) →
      polyEval (tpOf ch q ρ s.size) ch.x = innerProduct ((lpOf ch q ρ s.size).eval ch.x) ((rpOf ch q ρ s.size).eval ch.x) ∧
      (tpOf ch q ρ s.size).length = 2 * (ch.op + 1) + 1 := by
    intro q ρ hq hqd
    have hop : ch.op = opDegree q.vecOpen.length := by unfold Check.op; rw [chl, hq]
    have h1 := lPoly_rep q ch.wt (expIter ch.y⁻¹ ch.N) s.size (sLOf ρ ch.n1 s.size) (by simp [sLOf]; have := h.le; omega) hqd
    have h2 := rPoly_rep q ch.wt (expIter ch.y ch.N) s.size (sROf ρ ch.n1 s.size) hwvc (by rw [hq]; exact hwvl)
    dsimp only at h1 h2
    rw [← hop] at h1 h2
    refine ⟨?_, ?_⟩
    · exact VecPoly.innerProduct_eval _ _ s.size ch.x
        (by intro h; have := h1.len; rw [show lPoly _ _ _ _ _ _ _ = _ from h] at this; simp at this)
        (by intro h; have := h2.len; rw [show rPoly _ _ _ _ _ _ _ = _ from h] at this; simp at this) h1.row h2.row
    · unfold tpOf VecPoly.innerProduct lpOf rpOf
      simp [h1.len, h2.len]; omega
  obtain ⟨htE, htl⟩ := hrep s rnd rfl hdimS
  obtain ⟨htE', htl'⟩ := hrep s' r hvl hdimS'
  have htx : polyEval (tpOf ch s' r s.size) ch.x = polyEval (tpOf ch s rnd s.size) ch.x := by
    rw [htE, htE', hlE, hrE]
  -- the shift of the blindings of `t`
  have hlgB : ∀ a : F, lg (a • g.pc.Bbl) = a := fun a => hinj _ _ (hlg _)
  have htau : ∀ d, r.tau d = rnd.tau d + lg g.pc.B * ((tpOf ch s rnd s.size).getD d 0 - (tpOf ch s' r s.size).getD d 0) := by
    intro d
    rfl
  have hwV : innerProduct ch.wt.wV s'.vBlinding = innerProduct ch.wt.wV s.vBlinding +
      lg g.pc.B * ((tpOf ch s rnd s.size).getD ch.op 0 - (tpOf ch s' r s.size).getD ch.op 0) := by
    obtain ⟨κ, e1, e2⟩ := tp_op o g rnd n1 s t p h E.wt E.y hnN
    obtain ⟨κ', e1', e2'⟩ := tp_op o g r n1 s' t p h' E.wt E.y (by rw [hsz]; exact hnN)
    rw [← hch] at e1 e1' e2 e2'
    rw [hsz] at e1'
    rw [e1, e1', e2, e2']
    have hv : s'.v.length = s.v.length := by
      have := congrArg List.length (h.sync.V.symm.trans h'.sync.V)
      rw [List.length_zipWith, List.length_zipWith, h.sync.lenV, h'.sync.lenV, min_self, min_self] at this
      exact this.symm
    rw [innerProduct_eq _ s'.vBlinding s.v.length (Or.inr (by rw [h'.sync.lenV, hv])),
      innerProduct_eq _ s.vBlinding s.v.length (Or.inr (by rw [h.sync.lenV])),
      innerProduct_eq _ s'.v s.v.length (Or.inr (by rw [hv])), innerProduct_eq _ s.v s.v.length (Or.inr le_rfl)]
    rw [add_sub_add_right_eq_sub, ← Finset.sum_sub_distrib, Finset.mul_sum, ← Finset.sum_add_distrib]
    refine Finset.sum_congr rfl fun i hi => ?_
    have hi := mem_range.1 hi
    have hV := congrArg (fun l => l.getD i 0) (h.sync.V.symm.trans h'.sync.V)
    simp only [getD_zipWith _ _ _ _ (0 : F) (0 : F)] at hV
    rw [if_pos ⟨hi, by rw [h.sync.lenV]; exact hi⟩, if_pos ⟨by rw [hv]; exact hi, by rw [h'.sync.lenV, hv]; exact hi⟩,
      commit_eq, commit_eq] at hV
    have := congrArg lg hV
    rw [map_add, map_add, hlgB, hlgB, map_smul, map_smul, smul_eq_mul, smul_eq_mul] at this
    linear_combination - ch.wt.wV.getD i 0 * this
  have hn1 := h.le
  have hlenR : s.aR.length = s.size := by rw [h.sync.stmt.right, ← h.sync.stmt.left, h.len]
  have hlenO : s.aO.length = s.size := by rw [h.sync.stmt.out, ← h.sync.stmt.left, h.len]
  have hlenL' : s'.aL.length = s.size := by rw [h'.len, hsz]
  have hlenR' : s'.aR.length = s.size := by rw [h'.sync.stmt.right, ← h'.sync.stmt.left, h'.len, hsz]
  have hlenO' : s'.aO.length = s.size := by rw [h'.sync.stmt.out, ← h'.sync.stmt.left, h'.len, hsz]
  have hc2 : commit2 g r s' n1 s.size = commit2 g rnd s n1 s.size := by
    by_cases hp2 : s.size - n1 > 0
    · rw [commit2_gh g r s' n1 s.size hp2 hlenL' hlenR' hlenO' (by omega), commit2_gh g rnd s n1 s.size hp2 h.len hlenR hlenO (by omega)]
      simp only [Com.mk.injEq]
      refine ⟨?_, ?_, ?_⟩ <;>
      · simp only [hr, CT.twist, add_smul, hlg, chn1]; abel
    · unfold commit2
      rw [if_neg hp2, if_neg hp2]
  have hf' : FirstOk g n1 c1 r s' := FirstOk.twist (ch := ch) hlg hf
  have heq : eEval ch.x (eTerms ch.op (opSplits ch.op)
      (r.i1 + ch.u * (if s.size - n1 > 0 then r.i2 else 0)) (r.o1 + ch.u * (if s.size - n1 > 0 then r.o2 else 0))
      (r.s1 + ch.u * (if s.size - n1 > 0 then r.s2 else 0)) (s'.vecOpen.map (·.1))) 1 = p.eBl := by
    have a1 := eBl_opened g ch s t rnd c1 p.eBl h rfl (by rw [chN]; exact hnN) (by omega) (by omega) E.y hf E.eBl
    have a2 := eBl_opened g ch s' t r c1 _ h' rfl (by rw [chN, hsz]; exact hnN) (by omega) (by omega) E.y hf' rfl
    rw [hsz] at a2
    rw [chn1, hc2] at a2
    rw [chn1] at a1
    refine opened_inj g ch _ _ _ _ _ _ _ _ hinj (a2.trans (Eq.trans ?_ a1.symm))
    congr 1
    · refine Finset.sum_congr rfl fun i hi => ?_
      by_cases hi : i < s.size
      · rw [← chn1, hbL i hi]
      · rw [baseL_ge ch s i h.len hlenO (by omega), baseL_ge ch s' i h'.len (by rw [hlenO', hsz]) (by omega),
          getD_of_le (sLOf r n1 s.size) _ _ (by simp [sLOf]; omega), getD_of_le (sLOf rnd n1 s.size) _ _ (by simp [sLOf]; omega)]
    · refine Finset.sum_congr rfl fun i hi => ?_
      by_cases hi : i < s.size
      · rw [← chn1, hbR i hi]
      · rw [baseR_ge ch s i hlenR (by omega), baseR_ge ch s' i (by rw [hlenR', hsz]) (by omega),
          getD_of_le (sROf r n1 s.size) _ _ (by simp [sROf]; omega), getD_of_le (sROf rnd n1 s.size) _ _ (by simp [sROf]; omega)]
  refine ⟨by rw [hsz]; exact E.cap, by rw [hsz, hvn]; exact E.ph, E.AI, E.AO, E.S, by rw [hsz, hc2]; exact E.c2, E.wt, E.y, ?_, E.app, ?_, ?_, ?_, ?_⟩
  · rw [← hch, hsz, E.T]
    refine List.map_congr_left fun d hd => ?_
    split
    · rfl
    · rw [commit_eq, commit_eq, htau]
      conv_rhs => rw [add_smul, mul_comm, mul_smul, hlg]
      module
  · rw [← hch, hsz, htx]; exact E.tx
  · rw [← hch, E.txBl, ← hch, polyEval_eq, polyEval_eq]
    simp only [List.length_map, List.length_range]
    rw [polyEval_eq, polyEval_eq, htl, htl'] at htx
    have e : ∀ d ∈ range (2 * (ch.op + 1) + 1), ch.x ^ d * ((List.range (2 * (ch.op + 1) + 1)).map fun d =>
        if d = ch.op then innerProduct ch.wt.wV s'.vBlinding else r.tau d).getD d 0 =
        ch.x ^ d * ((List.range (2 * (ch.op + 1) + 1)).map fun d =>
          if d = ch.op then innerProduct ch.wt.wV s.vBlinding else rnd.tau d).getD d 0 +
        lg g.pc.B * (ch.x ^ d * (tpOf ch s rnd s.size).getD d 0 - ch.x ^ d * (tpOf ch s' r s.size).getD d 0) := by
      intro d hd
      rw [getD_map_range, getD_map_range, if_pos (mem_range.1 hd), if_pos (mem_range.1 hd)]
      by_cases hdo : d = ch.op
      · rw [if_pos hdo, if_pos hdo, hwV, hdo]; ring
      · rw [if_neg hdo, if_neg hdo, htau]; ring
    rw [Finset.sum_congr rfl e, Finset.sum_add_distrib, ← Finset.mul_sum, Finset.sum_sub_distrib, htx, sub_self, mul_zero, add_zero]
  · rw [← hch, hsz]; exact heq.symm
  · rw [← hch, hsz, hlE, hrE]; exact E.ipp

theorem ippLoop_prefix (o : Oracle F G X) (Q : G) : ∀ (k : Nat) (s : IPPState F G X) (p : IPP F G) (t : Transcript F G X),
    ippLoop o Q k s = .ok (p, t) → s.t <+: t := by
  intro k
  induction k with
  | zero =>
    intro s p t h
    unfold ippLoop at h
    split at h
    · simp only [Except.ok.injEq, Prod.mk.injEq] at h; rw [h.2]
    · simp at h
  | succ k ih =>
    intro s p t h
    unfold ippLoop ippRound at h
    simp only [challengeScalar] at h
    split at h
    · simp at h
    rename_i L R s' hr
    by_cases hz : o (s.t ++ [.point "L" (ippCross Q (2 ^ k) s).1, .point "R" (ippCross Q (2 ^ k) s).2] ++ [.chal "u"]) = 0
    · exact absurd ((if_pos hz).symm.trans hr) (by simp)
    replace hr := (if_neg hz).symm.trans hr
    simp only [Except.ok.injEq, Prod.mk.injEq] at hr
    split at h
    · simp at h
    rename_i p' t' hl
    simp only [Except.ok.injEq, Prod.mk.injEq] at h
    rw [← h.2]
    refine List.IsPrefix.trans ?_ (ih s' p' t' hl)
    rw [← hr.2]
    simp [ippFold]

theorem ippFirstRound_prefix {o : Oracle F G X} {Q : G} {Gf Hf : List F} {n : Nat} {s s' : IPPState F G X} {LR : G × G}
    (h : ippFirstRound o Q Gf Hf n s = .ok (LR, s')) : s.t <+: s'.t := by
  unfold ippFirstRound at h
  simp only at h
  by_cases hz : (challengeScalar o (s.t ++ [.point "L" (ippFirstCross Q Gf Hf n s).1, .point "R" (ippFirstCross Q Gf Hf n s).2]) "u").1 = 0
  · exact absurd ((if_pos hz).symm.trans h) (by simp)
  replace h := (if_neg hz).symm.trans h
  simp only [Except.ok.injEq, Prod.mk.injEq] at h
  rw [← h.2]
  simp [ippFirstFold, challengeScalar]

theorem ippCreate_prefix (o : Oracle F G X) (Q : G) (Gf Hf : List F) (Gs Hs : List G) (a b : List F) (t t' : Transcript F G X) (p : IPP F G)
    (h : ippCreate o Q Gf Hf Gs Hs a b t = .ok (p, t')) : t <+: t' := by
  unfold ippCreate at h
  simp only at h
  split at h
  · simp at h
  split at h
  · simp at h
  split at h
  · exact List.IsPrefix.trans (by simp) (ippLoop_prefix o Q 0 _ p t' h)
  · rename_i k hk
    split at h
    · simp at h
    rename_i L R s' hr
    split at h
    · simp at h
    rename_i p' t2 hl
    simp only [Except.ok.injEq, Prod.mk.injEq] at h
    rw [← h.2]
    refine List.IsPrefix.trans ?_ (ippLoop_prefix o Q k s' p' t2 hl)
    exact List.IsPrefix.trans (by simp) (ippFirstRound_prefix hr)

/-- After the second phase. -/
theorem SessionInv.tail {o : Oracle F G X} {g : Gens G} {s : PState F G X} {t : VState F G X} (h : SessionInv g s t) {c : Com G} {s2 : PState F G X}
    (h2 : s.secondPhase o c = .ok s2) (hlin : ∀ k ∈ s2.constraints, s2.assignment.eval k = 0) :
    ∃ t2, VState.createRandomized o { t.pad with transcript := t.pad.transcript ++ [.num "m" t.pad.V.length] ++
        [.point "A_I1" c.AI, .point "A_O1" c.AO, .point "S1" c.S] } = .ok t2 ∧ TailOk g s.size s2 t2 ∧
      s2.aL.take s.size = s.pad.aL ∧ s2.aR.take s.size = s.pad.aR ∧ s2.aO.take s.size = s.pad.aO := by
  have hpi := PState.pad_inv h.inv
  have hpl := s.pad_length
  have hsy := h.sync.pad
  have hpv : s.pad.v = s.v := by rw [PState.pad_eq]
  have hpd : s.pad.deferred = s.deferred := by rw [PState.pad_eq]
  have hpo : s.pad.vecOpen = s.vecOpen := by rw [PState.pad_eq]
  have htd : t.pad.deferred = t.deferred := by unfold VState.pad; rw [VState.padN_eq]
  have htV : t.pad.V.length = s.v.length := by rw [hsy.V, List.length_zipWith, hsy.lenV, min_self, hpv]
  obtain ⟨t2, a1, a2, a3, a4⟩ := createRandomized_synced o g
    { s.pad with transcript := s.pad.transcript ++ [.num "m" s.v.length,
      .point "A_I1" c.AI, .point "A_O1" c.AO, .point "S1" c.S] } s2
    { t.pad with transcript := t.pad.transcript ++ [.num "m" t.pad.V.length] ++
      [.point "A_I1" c.AI, .point "A_O1" c.AO, .point "S1" c.S] }
    ⟨⟨hsy.stmt.constraints, hsy.stmt.left, hsy.stmt.right, hsy.stmt.out, hsy.stmt.pending,
      by simp [hsy.stmt.transcript, htV]⟩, hsy.lenV, hsy.V, hsy.comms⟩
    (by simp only [hpd, htd]; exact h.deferred) ⟨hpi.lenR, hpi.lenO, hpi.gates, hpi.pend⟩ h2
  have hx : PState.Ext { s.pad with pending := none, deferred := s2.deferred } s2 := by
    refine ⟨fun v hv => ?_, a4.v, a4.vBlinding, a4.vecOpen, a4.deferred, a4.len, a4.cs⟩
    have := a4.ext v (by cases v <;> exact hv)
    exact ⟨this.1, this.2.trans (by cases v <;> rfl)⟩
  have htk := Ext_take hx rfl ⟨hpi.lenR, hpi.lenO, hpi.gates, by simp⟩ a3
  simp only [hpl] at htk
  have hvo : s2.vecOpen = s.vecOpen := hx.vecOpen.trans hpo
  have hlen2 : s.size ≤ s2.aL.length := by rw [← hpl]; exact hx.len
  have hsz : s2.aL.length = s2.size := (s2.size_of_ge (by
    intro v hv; rw [hvo] at hv; exact le_trans (s.dim_le_size v hv) hlen2)).symm
  refine ⟨t2, a1, ⟨a2, hsz, by omega, by intro v hv; rw [hvo] at hv; exact s.dim_le_size v hv, ?_, hlin⟩, htk⟩
  intro i hi
  have := a3.gates i (by omega)
  simpa only [PState.assignment] using this

theorem proveTail_first {o : Oracle F G X} {g : Gens G} {rnd : PRand F} {n1 : Nat} {c1 : Com G} {s : PState F G X}
    {p : R1CSProof F G} {tr : Transcript F G X} (hp : proveTail o g rnd n1 c1 s = .ok (p, tr)) :
    p.AI1 = c1.AI ∧ p.AO1 = c1.AO ∧ p.S1 = c1.S := by
  unfold proveTail at hp
  simp only [challengeScalar] at hp
  split at hp
  · simp at hp
  split at hp
  · simp at hp
  split at hp
  · simp at hp
  by_cases hy : o (s.transcript ++ [.point "A_I2" (commit2 g rnd s n1 s.size).AI, .point "A_O2" (commit2 g rnd s n1 s.size).AO,
      .point "S2" (commit2 g rnd s n1 s.size).S] ++ [.chal "y"]) = 0
  · exact absurd ((if_pos hy).symm.trans hp) (by simp)
  replace hp := (if_neg hy).symm.trans hp
  split at hp
  · simp at hp
  split at hp
  · simp at hp
  simp only [Except.ok.injEq, Prod.mk.injEq] at hp
  rw [← hp.1]
  exact ⟨rfl, rfl, rfl⟩

theorem firstOk_iff {g : Gens G} {s : PState F G X} {t : VState F G X} (h : SessionInv g s t) (rnd : PRand F) {c : Com G} {s2 : PState F G X}
    (hG : s.size ≤ g.Gs.length) (e1 : s2.aL.take s.size = s.pad.aL) (e2 : s2.aR.take s.size = s.pad.aR) (e3 : s2.aO.take s.size = s.pad.aO) :
    FirstOk g s.size c rnd s2 ↔ c = s.firstCommitments g rnd := by
  have hpi := PState.pad_inv h.inv
  have hL : s.pad.aL.length = s.size := s.pad_length
  have a1 : (s.firstCommitments g rnd).AI = rnd.i1 • g.pc.Bbl + gh g 0 s.size (s2.aL.take s.size) (s2.aR.take s.size) := by
    rw [e1, e2]
    show msm _ _ = _
    rw [s.pad_size, msm_cons, msm_append _ _ _ _ (by simp; omega)]
    rfl
  have a2 : (s.firstCommitments g rnd).AO = rnd.o1 • g.pc.Bbl + gh g 0 s.size (s2.aO.take s.size) [] := by
    rw [e3, gh_nil]
    show msm _ _ = _
    rw [s.pad_size, msm_cons]
    rfl
  have a3 : (s.firstCommitments g rnd).S = rnd.s1 • g.pc.Bbl + gh g 0 s.size ((List.range s.size).map rnd.sL1) ((List.range s.size).map rnd.sR1) := by
    show msm _ _ = _
    rw [s.pad_size, msm_cons, msm_append _ _ _ _ (by simp; omega)]
    rfl
  constructor
  · intro hf
    cases c
    generalize hc : s.firstCommitments g rnd = c' at a1 a2 a3
    cases c'
    have := hf.AI; have := hf.AO; have := hf.S
    simp_all
  · rintro rfl
    exact ⟨a1, a2, a3⟩

/-- One direction of C40. -/
theorem prove_twist {lg : G →ₗ[F] F} {o : Oracle F G X} {g : Gens G} (hlg : ∀ P, lg P • g.pc.Bbl = P)
    (hinj : ∀ a b : F, a • g.pc.Bbl = b • g.pc.Bbl → a = b)
    (hcG : g.capacity ≤ g.Gs.length) (hcH : g.capacity ≤ g.Hs.length)
    {s s' : PState F G X} {t t2 : VState F G X} (h : SessionInv g s t) (h' : SessionInv g s' t) (hsz : s'.size = s.size) {s2 s2' : PState F G X}
    {p : R1CSProof F G} {tr : Transcript F G X}
    (e : s.secondPhase o ⟨p.AI1, p.AO1, p.S1⟩ = .ok s2) (e' : s'.secondPhase o ⟨p.AI1, p.AO1, p.S1⟩ = .ok s2')
    (k : TailOk g s.size s2 t2) (k' : TailOk g s.size s2' t2)
    (l1 : s2.aL.take s.size = s.pad.aL ∧ s2.aR.take s.size = s.pad.aR ∧ s2.aO.take s.size = s.pad.aO)
    (l2 : s2'.aL.take s'.size = s'.pad.aL ∧ s2'.aR.take s'.size = s'.pad.aR ∧ s2'.aO.take s'.size = s'.pad.aO)
    (hx : ∀ t', (challengeScalar o t' "x").2 <+: tr → (challengeScalar o t' "x").1 ≠ 0)
    (rnd : PRand F) (hp : prove o g rnd s = .ok (p, tr)) :
    prove o g (twist lg g (proofCheck o s.size t2 p) s2.size s2 s2' rnd) s' = .ok (p, tr) := by
  rw [prove_eq] at hp
  by_cases hcap : g.capacity < s.size
  · rw [if_pos hcap] at hp; simp at hp
  rw [if_neg hcap] at hp
  have hG : s.size ≤ g.Gs.length := by omega
  cases h2 : s.secondPhase o (s.firstCommitments g rnd) with
  | error e => rw [h2] at hp; simp at hp
  | ok s3 =>
  rw [h2] at hp
  simp only at hp
  have hfirst : (⟨p.AI1, p.AO1, p.S1⟩ : Com G) = s.firstCommitments g rnd := by
    obtain ⟨e1, e2, e3⟩ := proveTail_first hp
    rw [e1, e2, e3]
  rw [← hfirst] at h2 hp
  obtain rfl : s2 = s3 := by rw [e] at h2; simpa using h2
  have E := (proveTail_iff o g rnd s.size _ s2 t2 k.sync p tr).1 hp
  have hf : FirstOk g s.size ⟨p.AI1, p.AO1, p.S1⟩ rnd s2 := (firstOk_iff h rnd hG l1.1 l1.2.1 l1.2.2).2 hfirst
  have hx' : (proofCheck o s.size t2 p).x ≠ 0 := by
    refine hx (chkT1' t2 p ++ [.chal "u"]) (List.IsPrefix.trans ?_ (ippCreate_prefix _ _ _ _ _ _ _ _ _ _ _ E.ipp))
    simp [challengeScalar]
  have E' := E.twist hlg hinj hcG hcH k k' hf hx'
  have hf' : FirstOk g s.size ⟨p.AI1, p.AO1, p.S1⟩ (twist lg g (proofCheck o s.size t2 p) s2.size s2 s2' rnd) s2' :=
    FirstOk.twist (ch := proofCheck o s.size t2 p) hlg hf
  rw [← hsz] at hf'
  have hfirst' := (firstOk_iff h' _ (by omega) l2.1 l2.2.1 l2.2.2).1 hf'
  rw [hsz] at hfirst'
  rw [prove_eq, hsz, if_neg hcap, ← hfirst', e']
  exact (proveTail_iff o g _ s.size _ s2' t2 k'.sync p tr).2 E'

end CT
