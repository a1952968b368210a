import Verif.Proofs.Cheat
import Verif.Spec.Sync
import Verif.Spec.Session

/-! `cheatTail` is accepted when the coefficient of degree `op` is right. -/

namespace CT
open Finset
variable {F G X : Type} [Field F] [AddCommGroup G] [Module F G]

omit [AddCommGroup G] [Module F G] in
theorem PState.size_ge (s : PState F G X) : ∀ i, s.size ≤ i → ∀ j, (s.vecOpen.getD j (0, [])).2.getD i 0 = 0 := by
  intro i hi j
  by_cases hj : j < s.vecOpen.length
  · rw [getD_of_lt _ _ _ hj]
    exact getD_of_le _ _ _ (le_trans (s.dim_le_size _ (List.getElem_mem _)) hi)
  · rw [getD_of_le s.vecOpen _ _ (by omega)]; rfl

theorem Synced.size {g : Gens G} {s : PState F G X} {t : VState F G X} (h : Synced g s t) : t.size = s.size := by
  rw [s.size_eq, h.stmt.left]
  unfold VState.size
  rw [h.comms, List.foldl_map]

theorem Synced.comm {g : Gens G} {s : PState F G X} {t : VState F G X} (h : Synced g s t) (N : Nat)
    (hN : s.size ≤ N) (j : Nat) (hj : j < s.vecOpen.length) :
    (t.vecComms.map (·.1)).getD j 0 = (s.vecOpen.getD j (0, [])).1 • g.pc.Bbl +
      ∑ i ∈ range N, (s.vecOpen.getD j (0, [])).2.getD i 0 • g.Gs.getD i 0 := by
  have hd := s.dim_le_size _ (List.getElem_mem hj)
  rw [h.comms, List.map_map, getD_map' _ _ _ (0, []), if_pos hj]
  simp only [Function.comp]
  rw [getD_of_lt _ _ _ hj, msm_cons, msm_eq _ _ N (Or.inr (by omega))]
  congr 1
  refine Finset.sum_congr rfl fun i _ => ?_
  rw [getD_take]
  split
  · rfl
  · rw [getD_of_le (s.vecOpen[j]).2 _ _ (by omega), zero_smul, zero_smul]

omit [AddCommGroup G] [Module F G] in
theorem lSlot_add_two (s : PState F G X) (wt : Weights F) (yinv : List F) (j i : Nat) :
    lSlot s wt yinv (j + 2) i = (s.vecOpen.getD j (0, [])).2.getD i 0 := by
  simp [lSlot]

omit [AddCommGroup G] [Module F G] in
theorem rSlot_add_two (s : PState F G X) (wt : Weights F) (ypow : List F) (j i : Nat) :
    rSlot s wt ypow (j + 2) i = (wt.wVC.getD j []).getD i 0 := by
  simp [rSlot]

omit [AddCommGroup G] [Module F G] in
theorem lSlot_zero (s : PState F G X) (wt : Weights F) (yinv : List F) (i : Nat) :
    lSlot s wt yinv 0 i = s.aL.getD i 0 + yinv.getD i 0 * wt.wR.getD i 0 := rfl

omit [AddCommGroup G] [Module F G] in
theorem lSlot_one (s : PState F G X) (wt : Weights F) (yinv : List F) (i : Nat) :
    lSlot s wt yinv 1 i = s.aO.getD i 0 := rfl

omit [AddCommGroup G] [Module F G] in
theorem rSlot_zero (s : PState F G X) (wt : Weights F) (ypow : List F) (i : Nat) :
    rSlot s wt ypow 0 i = ypow.getD i 0 * s.aR.getD i 0 + wt.wL.getD i 0 := rfl

omit [AddCommGroup G] [Module F G] in
theorem rSlot_one (s : PState F G X) (wt : Weights F) (ypow : List F) (i : Nat) :
    rSlot s wt ypow 1 i = wt.wO.getD i 0 - ypow.getD i 0 := rfl

/-- The second-phase commitments in one formula. -/
theorem commit2_eq (g : Gens G) (rnd : PRand F) (s : PState F G X) (n1 n : Nat)
    (hL : s.aL.length = n) (hR : s.aR.length = n) (hO : s.aO.length = n) (hG : n ≤ g.Gs.length) :
    let i2 := if n - n1 > 0 then rnd.i2 else 0
    let o2 := if n - n1 > 0 then rnd.o2 else 0
    let s2 := if n - n1 > 0 then rnd.s2 else 0
    (commit2 g rnd s n1 n).AI = i2 • g.pc.Bbl + msm ((g.Gs.take n).drop n1) (s.aL.drop n1) +
      msm ((g.Hs.take n).drop n1) (s.aR.drop n1) ∧
    (commit2 g rnd s n1 n).AO = o2 • g.pc.Bbl + msm ((g.Gs.take n).drop n1) (s.aO.drop n1) ∧
    (commit2 g rnd s n1 n).S = s2 • g.pc.Bbl + msm ((g.Gs.take n).drop n1) ((List.range (n - n1)).map rnd.sL2) +
      msm ((g.Hs.take n).drop n1) ((List.range (n - n1)).map rnd.sR2) := by
  unfold commit2
  by_cases h : n - n1 > 0
  · simp only [if_pos h, msm_cons]
    rw [msm_append _ _ _ _ (by simp; omega), msm_append _ _ _ _ (by simp; omega), add_assoc, add_assoc]
    first | exact ⟨rfl, rfl, rfl⟩ | simp
  · simp only [if_neg h]
    have h0 : n - n1 = 0 := by omega
    rw [List.drop_of_length_le (l := s.aL) (by omega), List.drop_of_length_le (l := s.aR) (by omega),
      List.drop_of_length_le (l := s.aO) (by omega), h0]
    simp

variable [DecidableEq F] [DecidableEq G]

set_option maxHeartbeats 1600000 in
theorem cheatTail_verifies (o : Oracle F G X) (g : Gens G) (rnd : PRand F) (hO : List F) (n1 : Nat)
    (c1 : Com G) (s : PState F G X) (t : VState F G X) (h : Synced g s t)
    (hcG : g.capacity ≤ g.Gs.length) (hcH : g.capacity ≤ g.Hs.length)
    (hn : s.aL.length = s.size) (hn1 : n1 ≤ s.size) (hdim : ∀ c ∈ s.vecOpen, c.2.length ≤ n1)
    (hhO : hO.length ≤ n1)
    (hAI : c1.AI = rnd.i1 • g.pc.Bbl + msm (g.Gs.take n1) (s.aL.take n1) + msm (g.Hs.take n1) (s.aR.take n1))
    (hAO : c1.AO = rnd.o1 • g.pc.Bbl + msm (g.Gs.take n1) (s.aO.take n1) + msm (g.Hs.take n1) hO)
    (hS : c1.S = rnd.s1 • g.pc.Bbl + msm (g.Gs.take n1) ((List.range n1).map rnd.sL1) +
      msm (g.Hs.take n1) ((List.range n1).map rnd.sR1))
    (hgate : ∀ i < s.size, s.aL.getD i 0 * s.aR.getD i 0 - s.aO.getD i 0 + lastVec s i * hO.getD i 0 = 0)
    (hlin : ∀ c ∈ s.constraints, s.assignment.eval c = 0)
    (h32 : nextPow2 s.size < 2 ^ 32)
    {p : R1CSProof F G} {t' : Transcript F G X} (hp : cheatTail o g rnd hO n1 c1 s = .ok (p, t')) :
    p.AI1 = c1.AI ∧ p.AO1 = c1.AO ∧ p.S1 = c1.S ∧
    ((∀ d < p.T.length, d ≠ opDegree s.vecOpen.length → p.T.getD d 0 ≠ 0) → (∀ P ∈ p.ipp.L, P ≠ 0) →
      (∀ P ∈ p.ipp.R, P ≠ 0) → ∀ r,
      ∃ tup, verifyTail o r p n1 t = .ok tup ∧ checkTuple g tup = .ok ()) := by
  unfold cheatTail at hp
  simp only [challengeScalar] at hp
  -- sizes
  obtain ⟨k, hNk, hnN, -⟩ := nextPow2_eq s.size
  rw [hNk] at hp h32
  have hk32 : k < 32 := (Nat.pow_lt_pow_iff_right (by norm_num)).1 h32
  by_cases hcap : g.capacity < 2 ^ k
  · rw [if_pos hcap] at hp; simp at hp
  rw [if_neg hcap] at hp
  by_cases hph : s.size - n1 > 0 ∧ s.vecOpen ≠ []
  · rw [if_pos hph] at hp; simp at hp
  rw [if_neg hph] at hp
  have hlenR : s.aR.length = s.size := by rw [h.stmt.right, ← h.stmt.left, hn]
  have hlenO : s.aO.length = s.size := by rw [h.stmt.out, ← h.stmt.left, hn]
  obtain ⟨hAI2, hAO2, hS2⟩ := commit2_eq g rnd s n1 s.size hn hlenR hlenO (by omega)
  set c2 := commit2 g rnd s n1 s.size with hc2
  set T0 : Transcript F G X := s.transcript ++ [.point "A_I2" c2.AI, .point "A_O2" c2.AO, .point "S2" c2.S]
    with hT0
  cases hflat : s.flattened (o (T0 ++ [.chal "y"] ++ [.chal "z"])) with
  | none => rw [hflat] at hp; simp at hp
  | some wt0 =>
  rw [hflat] at hp
  simp only at hp
  by_cases hy : o (T0 ++ [.chal "y"]) = 0
  · exact absurd ((if_pos hy).symm.trans hp) (by simp)
  replace hp := (if_neg hy).symm.trans hp
  set y := o (T0 ++ [.chal "y"]) with hydef
  set op := opDegree s.vecOpen.length with hopdef
  set sL := (List.range n1).map rnd.sL1 ++ (List.range (s.size - n1)).map rnd.sL2 with hsL
  set sR := (List.range n1).map rnd.sR1 ++ (List.range (s.size - n1)).map rnd.sR2 with hsR
  set lp := lPoly s wt0 (expIter y⁻¹ (2 ^ k)) s.size op (opSplits op) sL with hlp
  set rp0 := rPoly s wt0 (expIter y (2 ^ k)) s.size op (opSplits op) sR with hrp0
  set rp := addRow rp0 op (fun i => (expIter y (2 ^ k)).getD i 0 * hO.getD i 0) with hrp
  set tp := VecPoly.innerProduct lp rp with htp
  set T := (List.range (2 * (op + 1) + 1)).map fun d =>
          if d = op then 0 else g.pc.commit (tp.getD d 0) (rnd.tau d) with hTdef
  cases happ : appendT op 0 T (T0 ++ [.chal "y"] ++ [.chal "z"]) with
  | error e => rw [happ] at hp; simp at hp
  | ok t1 =>
  rw [happ] at hp
  simp only at hp
  set u := o (t1 ++ [.chal "u"]) with hu
  set x := o (t1 ++ [.chal "u"] ++ [.chal "x"]) with hx
  set tx := polyEval tp x with htx
  set txBl := polyEval ((List.range (2 * (op + 1) + 1)).map fun d =>
            if d = op then innerProduct wt0.wV s.vBlinding else rnd.tau d) x with htxBl
  set lv := lp.eval x ++ List.replicate (2 ^ k - s.size) 0 with hlv
  set rv := rp.eval x ++ ((List.range (2 ^ k - s.size)).map fun i => - (expIter y (2 ^ k)).getD (s.size + i) 0)
    with hrv
  set i2 : F := if s.size - n1 > 0 then rnd.i2 else 0 with hi2
  set o2 : F := if s.size - n1 > 0 then rnd.o2 else 0 with ho2
  set s2 : F := if s.size - n1 > 0 then rnd.s2 else 0 with hs2
  set eBl := eEval x (eTerms op (opSplits op) (rnd.i1 + u * i2) (rnd.o1 + u * o2) (rnd.s1 + u * s2)
            (s.vecOpen.map (·.1))) 1 with heBl
  set T2 : Transcript F G X := t1 ++ [.chal "u"] ++ [.chal "x"] ++
    [.scalar "t_x" tx, .scalar "t_x_blinding" txBl, .scalar "e_blinding" eBl] ++ [.chal "w"] with hT2
  set w := o T2 with hw
  set Gf : List F := List.replicate n1 1 ++ List.replicate (s.size - n1 + (2 ^ k - s.size)) u with hGf
  cases hcr : ippCreate o (w • g.pc.B) Gf (List.zipWith (· * ·) (expIter y⁻¹ (2 ^ k)) Gf)
      (g.Gs.take (2 ^ k)) (g.Hs.take (2 ^ k)) lv rv T2 with
  | error e => rw [hcr] at hp; simp at hp
  | ok res =>
  obtain ⟨ipp, t2⟩ := res
  rw [hcr] at hp
  simp only [Except.ok.injEq, Prod.mk.injEq] at hp
  obtain ⟨rfl, rfl⟩ := hp
  refine ⟨rfl, rfl, rfl, fun hTne hLne hRne r => ?_⟩
  simp only at hTne hLne hRne
  -- the Verifier's weights
  have hdims : t.vecComms.map (·.2) = s.vecOpen.map fun v => v.2.length := by
    rw [h.comms, List.map_map]; rfl
  have hVlen : t.V.length = s.v.length := by rw [h.V, List.length_zipWith, h.lenV, min_self]
  have hsame := C04_same_weights s t (o (T0 ++ [.chal "y"] ++ [.chal "z"])) h.stmt.constraints h.stmt.left.symm
    hVlen hdims
  rw [hflat] at hsame
  obtain ⟨wt, hwt, hwt0⟩ := Option.map_eq_some_iff.1 hsame.symm
  have hvl : t.vecComms.length = s.vecOpen.length := by rw [h.comms, List.length_map]
  set pr : R1CSProof F G := ⟨c1.AI, c1.AO, c1.S, c2.AI, c2.AO, c2.S, T, tx, txBl, eBl, ipp⟩ with hpr
  have htail : tailT pr t = T0 := by
    rw [hT0]; unfold tailT; rw [h.stmt.transcript]
  have hGlen : (g.Gs.take (2 ^ k)).length = 2 ^ k := by simp; omega
  have hHlen : (g.Hs.take (2 ^ k)).length = 2 ^ k := by simp; omega
  obtain ⟨us, hLS⟩ := ippCreate_spec o (w • g.pc.B) k _ _ _ _ lv rv T2 hGlen hcr
  have hsh := (flattenLoop_apply (Weights.zero_shape _ _ _) hwt ⟨0, 0, 0, 0, 0⟩).1
  have hTl : T.length = 2 * (op + 1) + 1 := by simp [hTdef]
  have e1 : T0 ++ [Msg.chal "y"] ++ [.chal "z"] = tailT pr t ++ [.chal "y", .chal "z"] := by
    rw [htail]; simp
  have hWT : tailW pr t1 = T2 := by rw [hT2]; simp [tailW, hpr]
  have hval : validateT (opDegree t.vecComms.length) pr.T
      (List.range (2 * (opDegree t.vecComms.length + 1) + 1)) (tailT pr t ++ [.chal "y", .chal "z"]) = .ok t1 := by
    rw [hvl, ← hopdef, List.range_eq_range', ← e1]
    have := appendT_validateT op T T 0 (T0 ++ [Msg.chal "y"] ++ [.chal "z"]) t1 rfl
      (fun i _ hi hne => hTne i hi hne) happ
    rw [hTl] at this
    exact this
  have hwL : wt0.wL = wt.wL := by rw [← hwt0]
  have hwR : wt0.wR = wt.wR := by rw [← hwt0]
  have hwO : wt0.wO = wt.wO := by rw [← hwt0]
  have hwV : wt0.wV = wt.wV := by rw [← hwt0]
  have hwVC : wt0.wVC = wt.wVC := by rw [← hwt0]
  -- `lPoly`, `rPoly` do not read `wc`
  have hlp' : lp = lPoly s wt (expIter y⁻¹ (2 ^ k)) s.size op (opSplits op) sL := by
    rw [hlp]; unfold lPoly; rw [hwR]
  have hrp' : rp0 = rPoly s wt (expIter y (2 ^ k)) s.size op (opSplits op) sR := by
    rw [hrp0]; unfold rPoly; rw [hwL, hwO, hwVC]
  have hsLl : sL.length = s.size := by simp [hsL]; omega
  have hsRl : sR.length = s.size := by simp [hsR]; omega
  have hvc : ∀ v ∈ s.vecOpen, v.2.length ≤ s.size := s.dim_le_size
  have hwvc : ∀ v ∈ wt.wVC, v.length ≤ s.size := by
    intro v hv
    have : v.length ∈ wt.wVC.map List.length := List.mem_map_of_mem hv
    rw [hsh.wVC, hdims] at this
    obtain ⟨c, hc, e⟩ := List.mem_map.1 this
    rw [← e]; exact hvc c hc
  have hwvl : s.vecOpen.length = wt.wVC.length := by
    have := congrArg List.length (hsh.wVC.trans hdims)
    simpa using this.symm
  have hlrep := lPoly_rep s wt (expIter y⁻¹ (2 ^ k)) s.size sL hsLl.le hvc
  have hrrep := rPoly_rep s wt (expIter y (2 ^ k)) s.size sR hwvc hwvl
  dsimp only at hlrep hrrep
  rw [← hopdef, ← hlp'] at hlrep
  rw [← hopdef, ← hrp'] at hrrep
  have hr'rep := addRow_rep hrrep op (fun i => (expIter y (2 ^ k)).getD i 0 * hO.getD i 0)
  rw [← hrp] at hr'rep
  have hlen_wL : wt.wL.length = s.size := by rw [hsh.wL, ← h.stmt.left, hn]
  have hlen_wR : wt.wR.length = s.size := by rw [hsh.wR, ← h.stmt.left, hn]
  have hlen_wO : wt.wO.length = s.size := by rw [hsh.wO, ← h.stmt.left, hn]
  have hslot : ∀ j < s.vecOpen.length + 2, slotR op j ≤ op := by
    obtain ⟨m, hm, hop, hk2⟩ := opDegree_pos s.vecOpen.length
    intro j hj
    rw [hopdef, hop] at *
    exact slotR_le m j hm (by omega)
  apply verifyTail_accepts o g pr n1 k t t1 t2 wt us hval (by rw [← e1]; exact hwt) hLS.lenU hLS.lenL hLS.lenR
    (by rw [h.size]; exact hNk) hk32 (by rw [htail]; exact hy)
    (by rw [hWT]; exact hLS.chal hLne hRne) (by rw [h.size]; exact hn1) (by omega) hcG hcH
  · -- inner product equation
    intro r
    set ch := t.check (tailChals o r pr t t1 (us.map fun u => u * u) (us.map fun u => u⁻¹ * u⁻¹) (sVec us)) wt n1 (2 ^ k)
      with hch
    have chy : ch.y = y := by show o (tailT pr t ++ _) = _; rw [htail]
    have chu : ch.u = u := rfl
    have chx : ch.x = x := by show o (t1 ++ [.chal "u", .chal "x"]) = _; rw [hx]; simp
    have chw : ch.w = w := by show o (tailW pr t1) = _; rw [hWT]
    have chN : ch.N = 2 ^ k := rfl
    have chl : ch.comms.length = s.vecOpen.length := by show (t.vecComms.map _).length = _; rw [List.length_map, hvl]
    have chop : ch.op = op := by unfold Check.op; rw [chl]
    have chf : ∀ i, ch.factor i = if i < n1 then 1 else u := fun i => rfl
    have chwt : ch.wt = wt := rfl
    have hfac : ∀ i < 2 ^ k, Gf.getD i 0 = ch.factor i := by
      intro i hi; rw [chf, hGf]; exact factors_getD n1 s.size (2 ^ k) hn1 hnN u i hi
    have hGfl : Gf.length = 2 ^ k := by simp [hGf]; omega
    have hlvl : lv.length = 2 ^ k := by
      rw [hlv, List.length_append, (Rep_evalF hlrep (by omega) x).1, List.length_replicate]; omega
    have hrvl : rv.length = 2 ^ k := by
      rw [hrv, List.length_append, (Rep_evalF hr'rep (by omega) x).1]; simp; omega
    refine ippDefect_eq_zero ch g pr o k lv rv _ t2 us _ _ (by rw [hlvl, chN]) (by rw [hrvl, chN]) ?_ ?_ ?_ ?_
      (by rw [chw]; exact hLS)
    · -- opening
      have hop := opened_eq ch g c1.AI c1.AO c1.S c2.AI c2.AO c2.S eBl
        (fun j i => (s.vecOpen.getD j (0, [])).2.getD i 0) (fun j => (s.vecOpen.getD j (0, [])).1)
        (fun i => s.aL.getD i 0) (fun i => s.aR.getD i 0) (fun i => s.aO.getD i 0) (fun i => hO.getD i 0)
        (fun i => sL.getD i 0) (fun i => sR.getD i 0) (rnd.i1 + u * i2) (rnd.o1 + u * o2) (rnd.s1 + u * s2)
        (by rw [chy]; exact hy)
        (by
          intro j hj
          rw [chl] at hj
          exact h.comm (2 ^ k) hnN j hj)
        (by
          intro j hj i hi
          rw [chf]
          split
          · rw [one_mul]
          · rename_i hi1
            rw [chl] at hj
            rw [getD_of_lt _ _ _ hj, getD_of_le (s.vecOpen[j]).2 _ _
              (le_trans (hdim _ (List.getElem_mem _)) (by omega)), mul_zero])
        (by
          have h1 := two_phase g.Gs s.aL n1 s.size (2 ^ k) hn1 hnN hn (by omega) u
          have h2 := two_phase g.Hs s.aR n1 s.size (2 ^ k) hn1 hnN hlenR (by omega) u
          simp only [chf, chN]
          rw [← h1, ← h2, hAI, hAI2, chu]
          module)
        (by
          have h1 := two_phase g.Gs s.aO n1 s.size (2 ^ k) hn1 hnN hlenO (by omega) u
          simp only [chf, chN]
          have h2 : msm (g.Hs.take n1) hO = ∑ i ∈ range (2 ^ k), ((if i < n1 then 1 else u) * hO.getD i 0) •
              g.Hs.getD i 0 := by
            rw [msm_eq _ _ (2 ^ k) (Or.inr (by omega))]
            refine Finset.sum_congr rfl fun i _ => ?_
            rw [getD_take]
            split
            · rw [one_mul]
            · rw [getD_of_le hO _ _ (by omega), mul_zero, zero_smul, zero_smul]
          rw [← h1, ← h2, hAO, hAO2, chu]
          module)
        (by
          have h1 := two_phase g.Gs sL n1 s.size (2 ^ k) hn1 hnN hsLl (by omega) u
          have h2 := two_phase g.Hs sR n1 s.size (2 ^ k) hn1 hnN hsRl (by omega) u
          have a1 : sL.take n1 = (List.range n1).map rnd.sL1 := by
            rw [hsL, List.take_append_of_le_length (by simp), List.take_of_length_le (by simp)]
          have a2 : sL.drop n1 = (List.range (s.size - n1)).map rnd.sL2 := by
            rw [hsL, List.drop_append_of_le_length (by simp), List.drop_of_length_le (by simp), List.nil_append]
          have b1 : sR.take n1 = (List.range n1).map rnd.sR1 := by
            rw [hsR, List.take_append_of_le_length (by simp), List.take_of_length_le (by simp)]
          have b2 : sR.drop n1 = (List.range (s.size - n1)).map rnd.sR2 := by
            rw [hsR, List.drop_append_of_le_length (by simp), List.drop_of_length_le (by simp), List.nil_append]
          simp only [chf, chN]
          rw [← h1, ← h2, hS, hS2, chu, a1, a2, b1, b2]
          module)
        (by
          rw [chl, chop, chx, heBl]
          have := eBl_eq s.vecOpen.length (s.vecOpen.map (·.1)) (by simp) (rnd.i1 + u * i2) (rnd.o1 + u * o2)
            (rnd.s1 + u * s2) x
          rw [← hopdef] at this
          rw [this]
          congr 3
          refine Finset.sum_congr rfl fun j hj => ?_
          rw [getD_map' _ _ _ (0, []), if_pos (mem_range.1 hj)])
      rw [show pr.AI1 = c1.AI from rfl, show pr.AO1 = c1.AO from rfl, show pr.S1 = c1.S from rfl,
        show pr.AI2 = c2.AI from rfl, show pr.AO2 = c2.AO from rfl, show pr.S2 = c2.S from rfl,
        show pr.eBl = eBl from rfl, hop]
      congr 1
      · refine Finset.sum_congr rfl fun i hi => ?_
        have hi := mem_range.1 hi
        rw [chN] at hi
        congr 2
        unfold evalL
        rw [chl, chop, chx, chy, chwt, hlv, getD_append', (Rep_evalF hlrep (by omega) x).1]
        split
        · rename_i hin
          rw [(Rep_evalF hlrep (by omega) x).2 i hin,
            slot_sum s.vecOpen.length (fun j => op - slotR op j) (fun j _ => Nat.sub_le _ _), sum_slots]
          simp only [lSlot_zero, lSlot_one, lSlot_add_two, expIter_getD, if_pos hi]
          simp only [lDeg, rDeg_eq, hopdef]
          ring
        · rename_i hin
          have hz : ∀ j, (s.vecOpen.getD j (0, [])).2.getD i 0 = 0 := s.size_ge i (by omega)
          simp only [hz, mul_zero, Finset.sum_const_zero]
          rw [getD_of_le s.aL _ _ (by omega), getD_of_le wt.wR _ _ (by omega), getD_of_le s.aO _ _ (by omega),
            getD_of_le sL _ _ (by omega), getD_replicate']
          split <;> ring
      · refine Finset.sum_congr rfl fun i hi => ?_
        have hi := mem_range.1 hi
        rw [chN] at hi
        congr 3
        unfold evalR
        rw [chl, chop, chx, chy, chwt, hrv, getD_append', (Rep_evalF hr'rep (by omega) x).1]
        split
        · rename_i hin
          rw [(Rep_evalF hr'rep (by omega) x).2 i hin]
          have hsum : ∀ (A : Nat → F) (B : F), ∑ e ∈ range (op + 2), x ^ e * (A e + if e = op then B else 0) =
              ∑ e ∈ range (op + 2), x ^ e * A e + x ^ op * B := by
            intro A B
            simp only [mul_add, Finset.sum_add_distrib, mul_ite, mul_zero]
            rw [Finset.sum_ite_eq', if_pos (by simp)]
          rw [hsum, slot_sum s.vecOpen.length (fun j => slotR op j) hslot, sum_slots]
          simp only [rSlot_zero, rSlot_one, rSlot_add_two, expIter_getD, if_pos hi]
          have hs1 : slotR op 1 = 0 := rfl
          rw [hopdef] at hs1
          simp only [rDeg_eq, hs1, pow_zero, one_mul, hopdef]
        · rename_i hin
          have hz : ∀ j ∈ range s.vecOpen.length, x ^ rDeg op (j + 2) * (wt.wVC.getD j []).getD i 0 = 0 := by
            intro j hj
            have hj := mem_range.1 hj
            rw [getD_of_lt wt.wVC _ _ (by omega), getD_of_le (wt.wVC[j]) _ _
              (le_trans (hwvc _ (List.getElem_mem _)) (by omega)), mul_zero]
          rw [Finset.sum_eq_zero hz]
          dsimp only
          rw [getD_of_le s.aR _ _ (by omega), getD_of_le wt.wL _ _ (by omega),
            getD_of_le wt.wO _ _ (by omega), getD_of_le sR _ _ (by omega), getD_of_le hO _ _ (by omega),
            getD_map_range, if_pos (by omega), expIter_getD, if_pos (by omega)]
          rw [show s.size + (i - s.size) = i by omega]
          ring
    · -- t(x)
      show tx = _
      rw [htx, htp, VecPoly.innerProduct_eval lp rp s.size x
        (by intro h; have := hlrep.len; rw [h] at this; simp at this)
        (by intro h; have := hr'rep.len; rw [h] at this; simp at this) hlrep.row hr'rep.row]
      have hl1 := (Rep_evalF hlrep (by omega) x).1
      have hr1 := (Rep_evalF hr'rep (by omega) x).1
      rw [hlv, hrv, innerProduct_eq _ _ s.size (Or.inl hl1.le), innerProduct_eq _ _ (2 ^ k) (Or.inl (by simp [hl1]; omega))]
      symm
      rw [← Finset.sum_subset (s₁ := range s.size) (by intro i; simp; omega)]
      · refine Finset.sum_congr rfl fun i hi => ?_
        have hi := mem_range.1 hi
        rw [getD_append', getD_append', hl1, hr1, if_pos hi, if_pos hi]
      · intro i _ hi
        simp only [Finset.mem_range, not_lt] at hi
        rw [getD_append', hl1, if_neg (by omega), getD_replicate']
        split <;> ring
    · apply ext_getD 0
      · simp [List.length_zipWith, hGfl, hGlen, Check.ippG, chN]
      · intro i hi
        have hi : i < 2 ^ k := by simpa [List.length_zipWith, hGfl, hGlen] using hi
        rw [getD_zipWith _ _ _ _ 0 0, if_pos (by omega), hfac i hi, getD_take, if_pos hi, Check.ippG, getD_map_range,
          chN, if_pos hi]
    · apply ext_getD 0
      · simp [List.length_zipWith, hGfl, hHlen, Check.ippH, chN]
      · intro i hi
        have hi : i < 2 ^ k := by simpa [List.length_zipWith, hGfl, hHlen] using hi
        rw [getD_zipWith _ _ _ _ 0 0, if_pos (by simp [List.length_zipWith]; omega), getD_zipWith _ _ _ _ 0 0,
          if_pos (by simp; omega), hfac i hi, getD_take, if_pos hi, Check.ippH, getD_map_range, chN, if_pos hi,
          expIter_getD, if_pos hi, chy, mul_comm]
  · -- polynomial equation
    intro r
    set ch := t.check (tailChals o r pr t t1 (us.map fun u => u * u) (us.map fun u => u⁻¹ * u⁻¹) (sVec us)) wt n1 (2 ^ k)
      with hch
    have chy : ch.y = y := by show o (tailT pr t ++ _) = _; rw [htail]
    have chx : ch.x = x := by show o (t1 ++ [.chal "u", .chal "x"]) = _; rw [hx]; simp
    have chl : ch.comms.length = s.vecOpen.length := by show (t.vecComms.map _).length = _; rw [List.length_map, hvl]
    have chop : ch.op = op := by unfold Check.op; rw [chl]
    have chwt : ch.wt = wt := rfl
    have chV : ch.V = t.V := rfl
    have hlentp : tp.length = 2 * (op + 1) + 1 := by
      rw [htp]; unfold VecPoly.innerProduct
      simp [hlrep.len, hr'rep.len]; omega
    apply polyDefect_eq_zero ch g T (fun i => s.v.getD i 0) (fun i => s.vBlinding.getD i 0)
      (fun d => tp.getD d 0) (fun d => if d = op then innerProduct wt.wV s.vBlinding else rnd.tau d)
    · intro i hi
      rw [chV, hVlen] at hi
      rw [chV, h.V, getD_zipWith _ _ _ _ 0 0, if_pos (by rw [h.lenV]; exact ⟨hi, hi⟩), commit_eq]
    · intro d hd hne
      rw [chop] at hd hne
      rw [hTdef, getD_map_range, if_pos hd, if_neg hne, if_neg hne, commit_eq]
    · rw [chop, chV, chwt, hVlen]
      rw [htp, hrp, coeff_addRow hlrep hrrep, hlp', hrp']
      have hce := C05_circuit_equation s t (o (T0 ++ [.chal "y"] ++ [.chal "z"])) y hy (2 ^ k) (by omega) sL sR
        (by omega) h.stmt.left.symm hVlen hdims (by rw [hn]; exact hvc) wt hwt
      simp only [hn] at hce
      rw [hce, h.stmt.constraints, C04_satisfied_vanishes s.constraints s.assignment hlin]
      have hz : ∑ i ∈ range s.size, y ^ i * (s.aL.getD i 0 * s.aR.getD i 0 - s.aO.getD i 0) +
          ∑ i ∈ range s.size, ((∑ j ∈ range (s.vecOpen.length + 2),
            if 0 = op - slotR op j then lSlot s wt (expIter y⁻¹ (2 ^ k)) j i else 0) +
              if 0 = op + 1 then sL.getD i 0 else 0) * ((expIter y (2 ^ k)).getD i 0 * hO.getD i 0) = 0 := by
        rw [← Finset.sum_add_distrib]
        apply Finset.sum_eq_zero
        intro i hi
        have hi := mem_range.1 hi
        rw [slot_zero, if_neg (by omega), add_zero, expIter_getD, if_pos (by omega)]
        linear_combination y ^ i * hgate i hi
      have hdelta : ch.delta = ∑ i ∈ range s.size, y⁻¹ ^ i * (wt.wR.getD i 0 * wt.wL.getD i 0) := by
        unfold Check.delta
        rw [chy, chwt, show ch.N = 2 ^ k from rfl]
        rw [← Finset.sum_subset (s₁ := range s.size) (by intro i; simp; omega)]
        · exact Finset.sum_congr rfl fun i _ => by ring
        · intro i _ hi
          simp only [Finset.mem_range, not_lt] at hi
          rw [getD_of_le wt.wR _ _ (by omega)]; ring
      rw [hdelta]
      linear_combination hz
    · rw [chop, chV, chwt, hVlen, if_pos rfl, innerProduct_eq _ _ s.v.length (Or.inr h.lenV.le)]
    · show tx = _
      rw [htx, polyEval_eq, hlentp, chop, chx]
    · show txBl = _
      rw [htxBl, polyEval_eq, chop, chx, hwV]
      simp only [List.length_map, List.length_range]
      refine Finset.sum_congr rfl fun d hd => ?_
      rw [getD_map_range, if_pos (mem_range.1 hd)]

end CT
