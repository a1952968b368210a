import Verif.Spec.Verification
import Verif.Spec.InnerProduct
import Verif.Proofs.Schedule
import Verif.Proofs.Flatten
import Verif.Proofs.IPP
import Mathlib.Tactic.Module

/-! The final multi-scalar multiplication is a combination of the two equations. -/

namespace CT
open Finset
variable {F G X : Type} [Field F] [AddCommGroup G] [Module F G]

theorem rDeg_eq (op j : Nat) : rDeg op j = slotR op j := rfl

/-- The public inputs of a check made by a Verifier. -/
def VState.check (s : VState F G X) (c : Chals F) (wt : Weights F) (n1 N : Nat) : Check F G where
  comms := s.vecComms.map (·.1)
  V := s.V
  wt := wt
  n1 := n1
  N := N
  y := c.y
  u := c.u
  x := c.x
  w := c.w

/-- The defect of the one-shot inner product equation. -/
def ippDefect (ch : Check F G) (g : Gens G) (p : R1CSProof F G) (usq uisq sv : List F) : G :=
  ch.opened g p.AI1 p.AO1 p.S1 p.AI2 p.AO2 p.S2 p.eBl + p.tx • (ch.w • g.pc.B) +
    msm p.ipp.L usq + msm p.ipp.R uisq -
    ((p.ipp.a * p.ipp.b) • (ch.w • g.pc.B) + msm (ch.ippG g) (sv.map (p.ipp.a * ·)) +
      msm (ch.ippH g) (sv.reverse.map (p.ipp.b * ·)))

theorem factors_getD (n1 n N : Nat) (h1 : n1 ≤ n) (h2 : n ≤ N) (u : F) (i : Nat) (hi : i < N) :
    (List.replicate n1 (1 : F) ++ List.replicate (n - n1 + (N - n)) u).getD i 0 =
      if i < n1 then 1 else u := by
  rw [getD_append', List.length_replicate]
  split
  · rename_i h; rw [getD_replicate', if_pos h]
  · rw [getD_replicate', if_pos (by omega)]

theorem ynegwR_getD (wR : List F) (yinv : F) (N i : Nat) (hN : wR.length ≤ N) :
    (List.zipWith (· * ·) wR (expIter yinv N) ++ List.replicate (N - wR.length) 0).getD i 0 =
      yinv ^ i * wR.getD i 0 := by
  have hl : (expIter yinv N).length = N := expIterFrom_length _ _ _
  rw [getD_append']
  have hz : (List.zipWith (· * ·) wR (expIter yinv N)).length = wR.length := by
    rw [List.length_zipWith, hl]; omega
  rw [hz]
  split
  · rename_i h
    rw [getD_zipWith _ _ _ _ 0 0, if_pos (by omega), expIter_getD, if_pos (by omega), mul_comm]
  · rename_i h
    rw [getD_replicate', getD_of_le wR _ _ (by omega), mul_zero]; split <;> rfl

theorem ynegwR_length (wR : List F) (yinv : F) (N : Nat) (hN : wR.length ≤ N) :
    (List.zipWith (· * ·) wR (expIter yinv N) ++ List.replicate (N - wR.length) 0).length = N := by
  have hl : (expIter yinv N).length = N := expIterFrom_length _ _ _
  rw [List.length_append, List.length_zipWith, hl, List.length_replicate]; omega

theorem gScalars_length (c : Chals F) (n1 n N numVars op : Nat) (wt : Weights F) (a : F)
    (h1 : n1 ≤ n) (h2 : n ≤ N) (hw : wt.wR.length = numVars) (hn : numVars ≤ N) (hs : c.s.length = N) :
    (gScalars c n1 n N numVars op wt a).length = N := by
  unfold gScalars
  simp only [List.length_zipWith, List.length_zip, ← hw, ynegwR_length _ _ _ (hw ▸ hn : wt.wR.length ≤ N)]
  simp; omega

theorem gScalars_getD (c : Chals F) (n1 n N numVars k : Nat) (wt : Weights F) (a : F)
    (h1 : n1 ≤ n) (h2 : n ≤ N) (hw : wt.wR.length = numVars) (hn : numVars ≤ N) (hs : c.s.length = N)
    (i : Nat) (hi : i < N) :
    (gScalars c n1 n N numVars (opDegree k) wt a).getD i 0 =
      (if i < n1 then 1 else c.u) * (c.x ^ lDeg (opDegree k) 0 * (c.y⁻¹ ^ i * wt.wR.getD i 0) -
        a * c.s.getD i 0) := by
  obtain ⟨m, hm, hop, hk⟩ := opDegree_pos k
  unfold gScalars
  simp only
  have hz : ((List.zipWith (· * ·) wt.wR (expIter c.y⁻¹ N) ++ List.replicate (N - numVars) 0).zip
      (List.replicate n1 (1 : F) ++ List.replicate (n - n1 + (N - n)) c.u)).length = N := by
    rw [List.length_zip, ← hw, ynegwR_length _ _ _ (by omega)]; simp; omega
  rw [getD_zipWith _ _ _ _ (0, 0) 0, if_pos (by rw [hz]; simp; omega), List.zip_eq_zipWith,
    getD_zipWith _ _ _ _ 0 0, if_pos, ← hw, ynegwR_getD _ _ _ _ (by omega), factors_getD _ _ _ h1 h2 _ _ hi,
    getD_take, if_pos hi, expIter_getD, hop, opSplits_getD m hm 0 (by omega)]
  · have hb : 2 * m - slotR (2 * m) 0 < 2 * (2 * m + 1) + 1 := by omega
    simp only [if_pos hb]
    rfl
  · rw [← hw, ynegwR_length _ _ _ (by omega)]; simp; omega

omit [AddCommGroup G] [Module F G] in
theorem hScalars_getD (c : Chals F) (n1 n N : Nat) (wt : Weights F) (b : F) (ch : Check F G)
    (h1 : n1 ≤ n) (h2 : n ≤ N) (hvc : wt.wVC.length = ch.comms.length)
    (hwt : ch.wt = wt) (hx : ch.x = c.x)
    (i : Nat) (hi : i < N) :
    (hScalars c n1 n N ch.op wt b).getD i 0 =
      (if i < n1 then 1 else c.u) * (c.y⁻¹ ^ i * (ch.rPublic i - b * c.s.reverse.getD i 0) - 1) := by
  obtain ⟨m, hm, hop, hk⟩ := opDegree_pos ch.comms.length
  unfold hScalars
  simp only [Check.op] at *
  rw [getD_map_range, if_pos hi, factors_getD _ _ _ h1 h2 _ _ hi, expIter_getD, if_pos hi]
  congr 4
  unfold Check.rPublic
  simp only [Check.op]
  rw [hop] at hk ⊢
  rw [hwt, hx, opSplits_getD m hm 0 (by omega), opSplits_getD m hm 1 (by omega), hvc, map_range_sum]
  simp only [expIter_getD, rDeg_eq]
  rw [if_pos (by have := slotR_le m 0 hm (by omega); omega),
    if_pos (by have := slotR_le m 1 hm (by omega); omega)]
  congr 1
  refine Finset.sum_congr rfl fun j hj => ?_
  have hj := mem_range.1 hj
  have := slotR_le m (j + 2) hm (by omega)
  rw [getD_drop, Nat.add_comm 2, opSplits_getD m hm _ (by omega)]
  simp only
  rw [if_pos (by omega)]

theorem deltaV_eq (c : Chals F) (N numVars : Nat) (wt : Weights F) (hR : wt.wR.length = numVars)
    (hL : wt.wL.length = numVars) (hn : numVars ≤ N) :
    deltaV c N numVars wt = ∑ i ∈ range N, c.y⁻¹ ^ i * wt.wR.getD i 0 * wt.wL.getD i 0 := by
  unfold deltaV
  simp only
  rw [innerProduct_eq _ _ N (Or.inr (by omega))]
  refine Finset.sum_congr rfl fun i _ => ?_
  rw [getD_take]
  split
  · rw [← hR, ynegwR_getD _ _ _ _ (by omega)]
  · rw [getD_of_le wt.wL _ _ (by omega)]; ring

theorem expIterFrom_getD_lt (x acc : F) (n i : Nat) (h : i < n) :
    (expIterFrom x acc n).getD i 0 = acc * x ^ i := by rw [expIterFrom_getD, if_pos h]

/-- A sum over the filtered degrees. -/
theorem msm_filter (D op : Nat) (P : Nat → G) (f : Nat → F) :
    msm (((List.range D).filter (· ≠ op)).map P) (((List.range D).filter (· ≠ op)).map f) =
      ∑ d ∈ (range D).erase op, f d • P d := by
  unfold msm
  rw [List.zipWith_map_left, List.zipWith_map_right, List.zipWith_self]
  have : (range D).erase op = ((List.range D).filter (· ≠ op)).toFinset := by
    ext d; simp; tauto
  rw [this, List.sum_toFinset _ (List.Nodup.filter _ List.nodup_range)]

/-- The final multi-scalar multiplication. -/
theorem mega_eq (p : R1CSProof F G) (s : VState F G X) (c : Chals F) (n1 n N : Nat) (wt : Weights F)
    (g : Gens G) (hwt : wt.Shape s.numVars s.V.length (s.vecComms.map (·.2)))
    (h1 : n1 ≤ n) (h2 : n ≤ N) (hn : s.numVars ≤ N) (hs : c.s.length = N)
    (hL : c.usq.length = p.ipp.L.length) (hR : c.uisq.length = p.ipp.R.length)
    (hG : N ≤ g.Gs.length) (hH : N ≤ g.Hs.length) :
    let t := buildTuple p s c n1 n N wt
    let ch := s.check c wt n1 N
    (t.fixed.length - 2) / 2 = N ∧
    msm (t.points ++ ([g.pc.B, g.pc.Bbl] ++ g.Gs.take N ++ g.Hs.take N)) (t.scalars ++ t.fixed) =
      ippDefect ch g p c.usq c.uisq c.s + c.r • ch.polyDefect g p.T p.tx p.txBl := by
  intro t ch
  obtain ⟨m, hm, hop, hk⟩ := opDegree_pos s.vecComms.length
  have hcl : ch.comms.length = s.vecComms.length := by simp [ch, VState.check]
  have hchop : ch.op = opDegree s.vecComms.length := by simp [Check.op, hcl]
  have hvcl : wt.wVC.length = s.vecComms.length := by
    have := congrArg List.length hwt.wVC; simpa using this
  have hgl := gScalars_length c n1 n N s.numVars (opDegree s.vecComms.length) wt p.ipp.a h1 h2 hwt.wR hn hs
  have hhl : (hScalars c n1 n N (opDegree s.vecComms.length) wt p.ipp.b).length = N := by simp [hScalars]
  have hfl : t.fixed.length = 2 + N + N := by
    simp only [t, buildTuple, List.length_append, hgl, hhl]; simp
  refine ⟨by omega, ?_⟩
  have hpl : t.points.length = t.scalars.length := by
    simp only [t, buildTuple, List.length_append, List.length_map, List.length_range, hwt.wV, hL, hR,
      List.length_cons, List.length_nil]
  have hGt : (g.Gs.take N).length = N := by simp; omega
  have hHt : (g.Hs.take N).length = N := by simp; omega
  rw [msm_append _ _ _ _ hpl]
  -- the fixed part
  have hfix : msm ([g.pc.B, g.pc.Bbl] ++ g.Gs.take N ++ g.Hs.take N) t.fixed =
      (c.w * (p.tx - p.ipp.a * p.ipp.b) + c.r * (c.x ^ ch.op * (wt.wc + ch.delta) - p.tx)) • g.pc.B +
      (-p.eBl - c.r * p.txBl) • g.pc.Bbl +
      ∑ i ∈ range N, (ch.factor i * (c.x ^ lDeg ch.op 0 * (c.y⁻¹ ^ i * wt.wR.getD i 0) -
        p.ipp.a * c.s.getD i 0)) • g.Gs.getD i 0 +
      ∑ i ∈ range N, (ch.factor i * (c.y⁻¹ ^ i * (ch.rPublic i - p.ipp.b * c.s.reverse.getD i 0) - 1)) •
        g.Hs.getD i 0 := by
    simp only [t, buildTuple]
    rw [msm_append _ _ _ _ (by rw [List.length_append, List.length_append, hgl, hGt]; rfl),
      msm_append _ _ _ _ (by rfl), msm_eq _ _ N (Or.inl hGt.le), msm_eq _ _ N (Or.inl hHt.le), msm_two]
    rw [expIter_getD, if_pos (by omega), deltaV_eq c N s.numVars wt hwt.wR hwt.wL hn]
    congr 1
    · congr 1
      · rw [hchop]; rfl
      · refine Finset.sum_congr rfl fun i hi => ?_
        have hi := mem_range.1 hi
        rw [gScalars_getD c n1 n N s.numVars _ wt p.ipp.a h1 h2 hwt.wR hn hs i hi, getD_take, if_pos hi,
          hchop]
        rfl
    · refine Finset.sum_congr rfl fun i hi => ?_
      have hi := mem_range.1 hi
      rw [← hchop, hScalars_getD c n1 n N wt p.ipp.b ch h1 h2 (hvcl.trans hcl.symm) rfl rfl i hi,
        getD_take, if_pos hi]
      rfl
  rw [hfix]
  -- the variable part
  have hvar : msm t.points t.scalars =
      ∑ j ∈ range s.vecComms.length, c.x ^ lDeg ch.op (j + 2) • ch.comms.getD j 0 +
      (c.x ^ lDeg ch.op 0 • (p.AI1 + c.u • p.AI2) + c.x ^ lDeg ch.op 1 • (p.AO1 + c.u • p.AO2) +
      c.x ^ (ch.op + 1) • (p.S1 + c.u • p.S2)) +
      c.r • (c.x ^ ch.op • ∑ i ∈ range s.V.length, wt.wV.getD i 0 • s.V.getD i 0) +
      c.r • ∑ d ∈ (range (2 * (ch.op + 1) + 1)).erase ch.op, c.x ^ d • p.T.getD d 0 +
      msm p.ipp.L c.usq + msm p.ipp.R c.uisq := by
    simp only [t, buildTuple]
    rw [msm_append _ _ _ _ (by simp [hwt.wV, hL]), msm_append _ _ _ _ (by simp [hwt.wV]),
      msm_append _ _ _ _ (by simp [hwt.wV]), msm_append _ _ _ _ (by simp), msm_append _ _ _ _ (by simp)]
    congr 2
    rw [msm_filter, ← hchop]
    congr 1
    · congr 1
      · congr 1
        · rw [msm_eq _ _ s.vecComms.length (by simp)]
          refine Finset.sum_congr rfl fun j hj => ?_
          have hj := mem_range.1 hj
          rw [hchop, hop] at *
          have := slotR_le m (j + 2) hm (by omega)
          rw [getD_map_range, if_pos hj, getD_drop, Nat.add_comm 2, opSplits_getD m hm _ (by omega),
            expIter_getD, if_pos (by simp only; omega)]
          rfl
        · have e0 : (opSplits ch.op).getD 0 (0, 0) = (lDeg ch.op 0, rDeg ch.op 0) := by
            rw [hchop, hop, opSplits_getD m hm _ (by omega)]; rfl
          have e1 : (opSplits ch.op).getD 1 (0, 0) = (lDeg ch.op 1, rDeg ch.op 1) := by
            rw [hchop, hop, opSplits_getD m hm _ (by omega)]; rfl
          have b0 : lDeg ch.op 0 ≤ ch.op := Nat.sub_le _ _
          have b1 : lDeg ch.op 1 ≤ ch.op := Nat.sub_le _ _
          rw [e0, e1]
          simp only [expIter_getD]
          rw [if_pos (by omega), if_pos (by omega), if_pos (by omega)]
          simp only [msm, List.zipWith_cons_cons, List.zipWith_nil_left, List.sum_cons, List.sum_nil]
          module
      · rw [msm_eq _ _ s.V.length (by simp), Finset.smul_sum, Finset.smul_sum]
        refine Finset.sum_congr rfl fun i hi => ?_
        have hi := mem_range.1 hi
        rw [expIterFrom_getD_lt _ _ _ _ (by omega), getD_map' _ _ _ 0, if_pos (by rw [hwt.wV]; exact hi),
          smul_smul, smul_smul]
        congr 1; ring
    · rw [Finset.smul_sum]
      refine Finset.sum_congr rfl fun d hd => ?_
      have hd := mem_range.1 (Finset.mem_of_mem_erase hd)
      rw [expIterFrom_getD_lt _ _ _ _ hd, smul_smul]
  rw [hvar]
  unfold ippDefect Check.polyDefect Check.opened
  have hiG : msm (ch.ippG g) (c.s.map (p.ipp.a * ·)) =
      ∑ i ∈ range N, (ch.factor i * (p.ipp.a * c.s.getD i 0)) • g.Gs.getD i 0 := by
    rw [msm_eq _ _ N (Or.inr (by simp [hs]))]
    refine Finset.sum_congr rfl fun i hi => ?_
    have hi := mem_range.1 hi
    rw [getD_map' _ _ _ 0, if_pos (by omega), Check.ippG, getD_map_range, if_pos (by exact hi), smul_smul]
    congr 1; ring
  have hiH : msm (ch.ippH g) (c.s.reverse.map (p.ipp.b * ·)) =
      ∑ i ∈ range N, (ch.factor i * (c.y⁻¹ ^ i * (p.ipp.b * c.s.reverse.getD i 0))) • g.Hs.getD i 0 := by
    rw [msm_eq _ _ N (Or.inr (by simp [hs]))]
    refine Finset.sum_congr rfl fun i hi => ?_
    have hi := mem_range.1 hi
    rw [getD_map' _ _ _ 0, if_pos (by simp; omega), Check.ippH, getD_map_range, if_pos (by exact hi), smul_smul]
    congr 1
    show p.ipp.b * _ * (ch.factor i * c.y⁻¹ ^ i) = _
    ring
  rw [hiG, hiH]
  have hsG : ∑ i ∈ range N, (ch.factor i * (c.x ^ lDeg ch.op 0 * (c.y⁻¹ ^ i * wt.wR.getD i 0) -
        p.ipp.a * c.s.getD i 0)) • g.Gs.getD i 0 =
      ∑ i ∈ range N, (ch.factor i * (c.x ^ lDeg ch.op 0 * (c.y⁻¹ ^ i * wt.wR.getD i 0))) • g.Gs.getD i 0 -
      ∑ i ∈ range N, (ch.factor i * (p.ipp.a * c.s.getD i 0)) • g.Gs.getD i 0 := by
    rw [← Finset.sum_sub_distrib]
    refine Finset.sum_congr rfl fun i _ => ?_
    rw [← sub_smul]; congr 1; ring
  have hsH : ∑ i ∈ range N, (ch.factor i * (c.y⁻¹ ^ i * (ch.rPublic i - p.ipp.b * c.s.reverse.getD i 0) - 1)) •
        g.Hs.getD i 0 =
      ∑ i ∈ range N, (ch.factor i * (c.y⁻¹ ^ i * ch.rPublic i - 1)) • g.Hs.getD i 0 -
      ∑ i ∈ range N, (ch.factor i * (c.y⁻¹ ^ i * (p.ipp.b * c.s.reverse.getD i 0))) • g.Hs.getD i 0 := by
    rw [← Finset.sum_sub_distrib]
    refine Finset.sum_congr rfl fun i _ => ?_
    rw [← sub_smul]; congr 1; ring
  rw [hsG, hsH]
  simp only [hcl]
  show _ = ∑ j ∈ range s.vecComms.length, c.x ^ lDeg ch.op (j + 2) • ch.comms.getD j 0 +
    c.x ^ lDeg ch.op 0 • (p.AI1 + c.u • p.AI2) + c.x ^ lDeg ch.op 1 • (p.AO1 + c.u • p.AO2) +
    c.x ^ (ch.op + 1) • (p.S1 + c.u • p.S2) - p.eBl • g.pc.Bbl +
    ∑ i ∈ range N, (ch.factor i * (c.x ^ lDeg ch.op 0 * (c.y⁻¹ ^ i * wt.wR.getD i 0))) • g.Gs.getD i 0 +
    ∑ i ∈ range N, (ch.factor i * (c.y⁻¹ ^ i * ch.rPublic i - 1)) • g.Hs.getD i 0 +
    p.tx • (c.w • g.pc.B) + msm p.ipp.L c.usq + msm p.ipp.R c.uisq -
    ((p.ipp.a * p.ipp.b) • (c.w • g.pc.B) + _ + _) +
    c.r • (c.x ^ ch.op • (∑ i ∈ range s.V.length, wt.wV.getD i 0 • s.V.getD i 0 +
        (wt.wc + ch.delta) • g.pc.B) +
      ∑ d ∈ (range (2 * (ch.op + 1) + 1)).erase ch.op, c.x ^ d • p.T.getD d 0 -
      (p.tx • g.pc.B + p.txBl • g.pc.Bbl))
  module

end CT
