import Verif.Proofs.Transcript
import Verif.Proofs.Total
import Verif.Spec.Simulator

/-! From the random choices of the Prover to the coins of the simulator (property C55). -/

namespace CT
open Finset
set_option linter.unusedSectionVars false
variable {F G X : Type} [Field F] [AddCommGroup G] [Module F G]

/-! ## The bijection -/

/-- The blinding of `l(x)`, `r(x)`. -/
def eOf (ch : Check F G) (s : PState F G X) (n : Nat) (ρ : PRand F) : F :=
  ∑ j ∈ range s.vecOpen.length, ch.x ^ lDeg ch.op (j + 2) * (s.vecOpen.map (·.1)).getD j 0 +
  ch.x ^ lDeg ch.op 0 * (ρ.i1 + ch.u * (if n - ch.n1 > 0 then ρ.i2 else 0)) +
  ch.x ^ lDeg ch.op 1 * (ρ.o1 + ch.u * (if n - ch.n1 > 0 then ρ.o2 else 0)) +
  ch.x ^ (ch.op + 1) * (ρ.s1 + ch.u * (if n - ch.n1 > 0 then ρ.s2 else 0))

/-- `s_1` becomes the blinding of `l(x)`, `r(x)`. -/
def stepS (ch : Check F G) (s : PState F G X) (n : Nat) (hx : ch.x ≠ 0) : PRand F ≃ PRand F where
  toFun ρ := { ρ with s1 := eOf ch s n ρ }
  invFun ρ := { ρ with s1 := (ρ.s1 - eOf ch s n { ρ with s1 := 0 }) / ch.x ^ (ch.op + 1) }
  left_inv ρ := by
    cases ρ
    simp only [eOf, PRand.mk.injEq, true_and, and_true]
    field_simp
    ring
  right_inv ρ := by
    cases ρ
    simp only [eOf, PRand.mk.injEq, true_and, and_true]
    field_simp
    ring

/-- The values under the commitments are added to the blindings. -/
def stepC (lg : G →ₗ[F] F) (g : Gens G) (n1 n : Nat) (s : PState F G X) : PRand F ≃ PRand F where
  toFun ρ := { ρ with
    i1 := ρ.i1 + lg (gh g 0 n1 (s.aL.take n1) (s.aR.take n1))
    o1 := ρ.o1 + lg (gh g 0 n1 (s.aO.take n1) [])
    i2 := ρ.i2 + lg (gh g n1 n (s.aL.drop n1) (s.aR.drop n1))
    o2 := ρ.o2 + lg (gh g n1 n (s.aO.drop n1) [])
    s2 := ρ.s2 + lg (gh g n1 n ((List.range (n - n1)).map ρ.sL2) ((List.range (n - n1)).map ρ.sR2)) }
  invFun ρ := { ρ with
    i1 := ρ.i1 - lg (gh g 0 n1 (s.aL.take n1) (s.aR.take n1))
    o1 := ρ.o1 - lg (gh g 0 n1 (s.aO.take n1) [])
    i2 := ρ.i2 - lg (gh g n1 n (s.aL.drop n1) (s.aR.drop n1))
    o2 := ρ.o2 - lg (gh g n1 n (s.aO.drop n1) [])
    s2 := ρ.s2 - lg (gh g n1 n ((List.range (n - n1)).map ρ.sL2) ((List.range (n - n1)).map ρ.sR2)) }
  left_inv ρ := by cases ρ; simp
  right_inv ρ := by cases ρ; simp

/-- `tau_0` becomes the blinding of `t(x)`; `vb` is the blinding of the coefficient of the circuit equation. -/
def stepT0 (ch : Check F G) (vb : F) : PRand F ≃ PRand F where
  toFun ρ := { ρ with tau := fun d => if d = 0 then ρ.tau 0 + ∑ d ∈ (range (2 * (ch.op + 1) + 1)).erase 0, ch.x ^ d * (if d = ch.op then vb else ρ.tau d) else ρ.tau d }
  invFun ρ := { ρ with tau := fun d => if d = 0 then ρ.tau 0 - ∑ d ∈ (range (2 * (ch.op + 1) + 1)).erase 0, ch.x ^ d * (if d = ch.op then vb else ρ.tau d) else ρ.tau d }
  left_inv ρ := by
    have e : ∀ (f : Nat → F) (k : F), ∑ d ∈ (range (2 * (ch.op + 1) + 1)).erase 0, ch.x ^ d * (if d = ch.op then vb else if d = 0 then k else f d) =
        ∑ d ∈ (range (2 * (ch.op + 1) + 1)).erase 0, ch.x ^ d * (if d = ch.op then vb else f d) := fun f k =>
      Finset.sum_congr rfl fun d hd => by rw [if_neg (Finset.ne_of_mem_erase hd)]
    cases ρ
    simp only [e, PRand.mk.injEq, true_and]
    funext d
    by_cases hd : d = 0
    · simp [hd]
    · simp [hd]
  right_inv ρ := by
    have e : ∀ (f : Nat → F) (k : F), ∑ d ∈ (range (2 * (ch.op + 1) + 1)).erase 0, ch.x ^ d * (if d = ch.op then vb else if d = 0 then k else f d) =
        ∑ d ∈ (range (2 * (ch.op + 1) + 1)).erase 0, ch.x ^ d * (if d = ch.op then vb else f d) := fun f k =>
      Finset.sum_congr rfl fun d hd => by rw [if_neg (Finset.ne_of_mem_erase hd)]
    cases ρ
    simp only [e, PRand.mk.injEq, true_and]
    funext d
    by_cases hd : d = 0
    · simp [hd]
    · simp [hd]

/-- The coefficients are added to the other blindings of `t`. -/
def stepT (ch : Check F G) (s : PState F G X) (n : Nat) (b : F) : PRand F ≃ PRand F where
  toFun ρ := { ρ with tau := fun d => if d = 0 then ρ.tau 0 else ρ.tau d + b * (tpOf ch s ρ n).getD d 0 }
  invFun ρ := { ρ with tau := fun d => if d = 0 then ρ.tau 0 else ρ.tau d - b * (tpOf ch s ρ n).getD d 0 }
  left_inv ρ := by
    have e : ∀ f, tpOf ch s { ρ with tau := f } n = tpOf ch s ρ n := fun f => rfl
    simp only [e]
    cases ρ
    simp only [PRand.mk.injEq, true_and]
    funext d
    by_cases hd : d = 0 <;> simp [hd]
  right_inv ρ := by
    have e : ∀ f, tpOf ch s { ρ with tau := f } n = tpOf ch s ρ n := fun f => rfl
    simp only [e]
    cases ρ
    simp only [PRand.mk.injEq, true_and]
    funext d
    by_cases hd : d = 0 <;> simp [hd]

/-- `s_L`, `s_R` become `l(x)`, `r(x)`. -/
def stepL (ch : Check F G) (s : PState F G X) (hx : ch.x ≠ 0) (hy : ch.y ≠ 0) : PRand F ≃ PRand F where
  toFun ρ := { ρ with
    sL1 := fun i => baseL ch s i + ch.x ^ (ch.op + 1) * ρ.sL1 i
    sR1 := fun i => baseR ch s i + ch.x ^ (ch.op + 1) * (ch.y ^ i * ρ.sR1 i)
    sL2 := fun i => baseL ch s (ch.n1 + i) + ch.x ^ (ch.op + 1) * ρ.sL2 i
    sR2 := fun i => baseR ch s (ch.n1 + i) + ch.x ^ (ch.op + 1) * (ch.y ^ (ch.n1 + i) * ρ.sR2 i) }
  invFun ρ := { ρ with
    sL1 := fun i => (ρ.sL1 i - baseL ch s i) / ch.x ^ (ch.op + 1)
    sR1 := fun i => (ρ.sR1 i - baseR ch s i) / (ch.x ^ (ch.op + 1) * ch.y ^ i)
    sL2 := fun i => (ρ.sL2 i - baseL ch s (ch.n1 + i)) / ch.x ^ (ch.op + 1)
    sR2 := fun i => (ρ.sR2 i - baseR ch s (ch.n1 + i)) / (ch.x ^ (ch.op + 1) * ch.y ^ (ch.n1 + i)) }
  left_inv ρ := by
    have := pow_ne_zero (ch.op + 1) hx
    cases ρ
    simp only [PRand.mk.injEq, true_and, and_true]
    refine ⟨?_, ?_, ?_, ?_⟩ <;> funext i
    · field_simp; ring
    · have := pow_ne_zero i hy; field_simp; ring
    · field_simp; ring
    · have := pow_ne_zero (ch.n1 + i) hy; field_simp; ring
  right_inv ρ := by
    have := pow_ne_zero (ch.op + 1) hx
    cases ρ
    simp only [PRand.mk.injEq, true_and, and_true]
    refine ⟨?_, ?_, ?_, ?_⟩ <;> funext i
    · field_simp; ring
    · have := pow_ne_zero i hy; field_simp; ring
    · field_simp; ring
    · have := pow_ne_zero (ch.n1 + i) hy; field_simp; ring

/-- All steps. -/
def toCoins (lg : G →ₗ[F] F) (g : Gens G) (ch : Check F G) (s : PState F G X) (n : Nat) (hx : ch.x ≠ 0) (hy : ch.y ≠ 0) : PRand F ≃ PRand F :=
  ((((stepS ch s n hx).trans (stepC lg g ch.n1 n s)).trans (stepT0 ch (innerProduct ch.wt.wV s.vBlinding))).trans
    (stepT ch s n (lg g.pc.B))).trans (stepL ch s hx hy)

/-! ## The honest proof, up to the inner product argument -/

/-- The proof of a run with the random choices `rnd`, when the public values are `ch`. -/
def realPoints (g : Gens G) (ch : Check F G) (s : PState F G X) (rnd : PRand F) : R1CSProof F G where
  AI1 := rnd.i1 • g.pc.Bbl + gh g 0 ch.n1 (s.aL.take ch.n1) (s.aR.take ch.n1)
  AO1 := rnd.o1 • g.pc.Bbl + gh g 0 ch.n1 (s.aO.take ch.n1) []
  S1 := rnd.s1 • g.pc.Bbl + gh g 0 ch.n1 ((List.range ch.n1).map rnd.sL1) ((List.range ch.n1).map rnd.sR1)
  AI2 := (commit2 g rnd s ch.n1 s.size).AI
  AO2 := (commit2 g rnd s ch.n1 s.size).AO
  S2 := (commit2 g rnd s ch.n1 s.size).S
  T := (List.range (2 * (ch.op + 1) + 1)).map fun d => if d = ch.op then 0 else g.pc.commit ((tpOf ch s rnd s.size).getD d 0) (rnd.tau d)
  tx := polyEval (tpOf ch s rnd s.size) ch.x
  txBl := polyEval ((List.range (2 * (ch.op + 1) + 1)).map fun d => if d = ch.op then innerProduct ch.wt.wV s.vBlinding else rnd.tau d) ch.x
  eBl := eEval ch.x (eTerms ch.op (opSplits ch.op)
    (rnd.i1 + ch.u * (if s.size - ch.n1 > 0 then rnd.i2 else 0))
    (rnd.o1 + ch.u * (if s.size - ch.n1 > 0 then rnd.o2 else 0))
    (rnd.s1 + ch.u * (if s.size - ch.n1 > 0 then rnd.s2 else 0)) (s.vecOpen.map (·.1))) 1
  ipp := ⟨[], [], 0, 0⟩

theorem op_pos (ch : Check F G) : 0 < ch.op := by
  obtain ⟨m, hm, ho, -⟩ := opDegree_pos ch.comms.length
  unfold Check.op
  omega

/-- The public values belong to the statement. -/
structure CheckOf (n1 : Nat) (t : VState F G X) (ch : Check F G) : Prop where
  comms : ch.comms = t.vecComms.map (·.1)
  V : ch.V = t.V
  n1 : ch.n1 = n1
  N : ch.N = nextPow2 t.size
  wt : ∃ z, t.flattened z = some ch.wt

theorem real_L {g : Gens G} {n1 : Nat} {s : PState F G X} {t : VState F G X} {ch : Check F G} (h : TailOk g n1 s t) (hc : CheckOf n1 t ch)
    (lg : G →ₗ[F] F) (hx : ch.x ≠ 0) (hy : ch.y ≠ 0) (rnd : PRand F) :
    (lpOf ch s rnd s.size).eval ch.x ++ List.replicate (ch.N - s.size) 0 = simL (toCoins lg g ch s s.size hx hy rnd) ch.n1 s.size ch.N := by
  have hl : ch.comms.length = s.vecOpen.length := by rw [hc.comms, List.length_map, h.sync.comms, List.length_map]
  have hN : s.size ≤ ch.N := by
    obtain ⟨k, hk, hk', -⟩ := nextPow2_eq t.size
    rw [hc.N, hk, ← h.sync.size]; exact hk'
  have hn := h.le
  rw [lEval_eq ch s rnd s.size hl (by rw [hc.n1]; exact hn) s.dim_le_size hN]
  unfold simL
  congr 1
  rw [hc.n1]
  refine ext_getD 0 (by simp; omega) fun i hi => ?_
  have hi : i < s.size := by simpa using hi
  rw [getD_map_range, if_pos hi, getD_append', List.length_map, List.length_range]
  unfold sLOf
  rw [getD_append', List.length_map, List.length_range]
  by_cases h1 : i < n1
  · rw [if_pos h1, if_pos h1, getD_map_range, if_pos h1, getD_map_range, if_pos h1]
    rfl
  · rw [if_neg h1, if_neg h1, getD_map_range, if_pos (by omega), getD_map_range, if_pos (by omega)]
    show _ = baseL ch s (ch.n1 + (i - n1)) + _
    rw [hc.n1, show n1 + (i - n1) = i by omega]
    rfl

theorem wt_shape {g : Gens G} {n1 : Nat} {s : PState F G X} {t : VState F G X} {ch : Check F G} (h : TailOk g n1 s t) (hc : CheckOf n1 t ch) :
    (∀ v ∈ ch.wt.wVC, v.length ≤ s.size) ∧ s.vecOpen.length = ch.wt.wVC.length ∧ ch.wt.wL.length = s.size ∧ ch.wt.wR.length = s.size ∧
      ch.wt.wO.length = s.size := by
  obtain ⟨z, hwt⟩ := hc.wt
  have hsh := (flattenLoop_apply (Weights.zero_shape _ _ _) hwt ⟨0, 0, 0, 0, 0⟩).1
  have hdims : t.vecComms.map (·.2) = s.vecOpen.map fun v => v.2.length := by
    rw [h.sync.comms, List.map_map]; rfl
  refine ⟨?_, ?_, ?_, ?_, ?_⟩
  · intro v hv
    have : v.length ∈ ch.wt.wVC.map List.length := List.mem_map_of_mem hv
    rw [hsh.wVC, hdims] at this
    obtain ⟨c, hc, e⟩ := List.mem_map.1 this
    rw [← e]; exact s.dim_le_size c hc
  · have := congrArg List.length (hsh.wVC.trans hdims)
    simpa using this.symm
  · rw [hsh.wL, ← h.sync.stmt.left, h.len]
  · rw [hsh.wR, ← h.sync.stmt.left, h.len]
  · rw [hsh.wO, ← h.sync.stmt.left, h.len]

theorem real_R {g : Gens G} {n1 : Nat} {s : PState F G X} {t : VState F G X} {ch : Check F G} (h : TailOk g n1 s t) (hc : CheckOf n1 t ch)
    (lg : G →ₗ[F] F) (hx : ch.x ≠ 0) (hy : ch.y ≠ 0) (rnd : PRand F) :
    (rpOf ch s rnd s.size).eval ch.x ++ ((List.range (ch.N - s.size)).map fun i => - (expIter ch.y ch.N).getD (s.size + i) 0) =
      simR (toCoins lg g ch s s.size hx hy rnd) ch.y ch.n1 s.size ch.N := by
  have hl : ch.comms.length = s.vecOpen.length := by rw [hc.comms, List.length_map, h.sync.comms, List.length_map]
  have hN : s.size ≤ ch.N := by
    obtain ⟨k, hk, hk', -⟩ := nextPow2_eq t.size
    rw [hc.N, hk, ← h.sync.size]; exact hk'
  have hn := h.le
  obtain ⟨w1, w2, -⟩ := wt_shape h hc
  rw [rEval_eq ch s rnd s.size hl w1 w2 hN]
  unfold simR
  congr 1
  · rw [hc.n1]
    refine ext_getD 0 (by simp; omega) fun i hi => ?_
    have hi : i < s.size := by simpa using hi
    rw [getD_map_range, if_pos hi, getD_append', List.length_map, List.length_range]
    unfold sROf
    rw [getD_append', List.length_map, List.length_range]
    by_cases h1 : i < n1
    · rw [if_pos h1, if_pos h1, getD_map_range, if_pos h1, getD_map_range, if_pos h1]
      rfl
    · rw [if_neg h1, if_neg h1, getD_map_range, if_pos (by omega), getD_map_range, if_pos (by omega)]
      show _ = baseR ch s (ch.n1 + (i - n1)) + ch.x ^ (ch.op + 1) * (ch.y ^ (ch.n1 + (i - n1)) * _)
      rw [hc.n1, show n1 + (i - n1) = i by omega]
      rfl
  · refine List.map_congr_left fun i hi => ?_
    have hi := List.mem_range.1 hi
    rw [expIter_getD, if_pos (by omega)]

theorem opened_S1 (ch : Check F G) (g : Gens G) (AI1 AO1 S1 AI2 AO2 S2 : G) (e : F) :
    ch.opened g AI1 AO1 S1 AI2 AO2 S2 e = ch.opened g AI1 AO1 0 AI2 AO2 S2 e + ch.x ^ (ch.op + 1) • S1 := by
  unfold Check.opened
  module

theorem polyDefect_T0 (ch : Check F G) (g : Gens G) (T T' : List G) (tx b : F) (h0 : T'.getD 0 0 = 0)
    (h : ∀ d, d < 2 * (ch.op + 1) + 1 → d ≠ ch.op → d ≠ 0 → T.getD d 0 = T'.getD d 0) :
    ch.polyDefect g T tx b = ch.polyDefect g T' tx b + T.getD 0 0 := by
  have hop := op_pos ch
  have hm : 0 ∈ (range (2 * (ch.op + 1) + 1)).erase ch.op := by simp; omega
  unfold Check.polyDefect
  rw [← Finset.add_sum_erase _ _ hm, ← Finset.add_sum_erase _ (fun d => ch.x ^ d • T'.getD d 0) hm, h0]
  have : ∑ d ∈ ((range (2 * (ch.op + 1) + 1)).erase ch.op).erase 0, ch.x ^ d • T.getD d 0 =
      ∑ d ∈ ((range (2 * (ch.op + 1) + 1)).erase ch.op).erase 0, ch.x ^ d • T'.getD d 0 := by
    refine Finset.sum_congr rfl fun d hd => ?_
    simp only [Finset.mem_erase, Finset.mem_range] at hd
    rw [h d hd.2.2 hd.2.1 hd.1]
  rw [this, pow_zero]
  module

variable [DecidableEq F] [DecidableEq G]

section
variable {g : Gens G} {n1 : Nat} {s : PState F G X} {t : VState F G X} {ch : Check F G} (h : TailOk g n1 s t) (hc : CheckOf n1 t ch)
  {lg : G →ₗ[F] F}
include h hc

theorem CheckOf.size_le : s.size ≤ ch.N := by
  obtain ⟨k, hk, hk', -⟩ := nextPow2_eq t.size
  rw [hc.N, hk, ← h.sync.size]; exact hk'

theorem CheckOf.comms_len : ch.comms.length = s.vecOpen.length := by
  rw [hc.comms, List.length_map, h.sync.comms, List.length_map]

theorem tp_facts (rnd : PRand F) :
    polyEval (tpOf ch s rnd s.size) ch.x = innerProduct ((lpOf ch s rnd s.size).eval ch.x) ((rpOf ch s rnd s.size).eval ch.x) ∧
      (tpOf ch s rnd s.size).length = 2 * (ch.op + 1) + 1 := by
  obtain ⟨w1, w2, -⟩ := wt_shape h hc
  have hop : ch.op = opDegree s.vecOpen.length := by unfold Check.op; rw [hc.comms_len h]
  have hn := h.le
  have h1 := lPoly_rep s ch.wt (expIter ch.y⁻¹ ch.N) s.size (sLOf rnd ch.n1 s.size) (by simp [sLOf, hc.n1]; omega) s.dim_le_size
  have h2 := rPoly_rep s ch.wt (expIter ch.y ch.N) s.size (sROf rnd ch.n1 s.size) w1 w2
  dsimp only at h1 h2
  rw [← hop] at h1 h2
  refine ⟨?_, ?_⟩
  · exact VecPoly.innerProduct_eval _ _ s.size ch.x
      (by intro h; have := h1.len; rw [show lPoly _ _ _ _ _ _ _ = _ from h] at this; simp at this)
      (by intro h; have := h2.len; rw [show rPoly _ _ _ _ _ _ _ = _ from h] at this; simp at this) h1.row h2.row
  · unfold tpOf VecPoly.innerProduct lpOf rpOf
    simp [h1.len, h2.len]; omega

theorem lEval_length (rnd : PRand F) : ((lpOf ch s rnd s.size).eval ch.x).length = s.size := by
  have hn := h.le
  rw [lEval_eq ch s rnd s.size (hc.comms_len h) (by rw [hc.n1]; exact hn) s.dim_le_size (hc.size_le h)]
  simp

theorem rEval_length (rnd : PRand F) : ((rpOf ch s rnd s.size).eval ch.x).length = s.size := by
  obtain ⟨w1, w2, -⟩ := wt_shape h hc
  rw [rEval_eq ch s rnd s.size (hc.comms_len h) w1 w2 (hc.size_le h)]
  simp

theorem real_tx (hx : ch.x ≠ 0) (hy : ch.y ≠ 0) (rnd : PRand F) :
    polyEval (tpOf ch s rnd s.size) ch.x = ∑ i ∈ range ch.N, (simL (toCoins lg g ch s s.size hx hy rnd) ch.n1 s.size ch.N).getD i 0 *
      (simR (toCoins lg g ch s s.size hx hy rnd) ch.y ch.n1 s.size ch.N).getD i 0 := by
  have hN := hc.size_le h
  rw [(tp_facts h hc rnd).1, ← real_L h hc, ← real_R h hc, innerProduct_eq _ _ s.size (Or.inl (lEval_length h hc rnd).le)]
  rw [← Finset.sum_subset (s₁ := range s.size) (s₂ := range ch.N) (by intro i; simp; omega)]
  · refine Finset.sum_congr rfl fun i hi => ?_
    have hi := mem_range.1 hi
    rw [getD_append', getD_append', lEval_length h hc, rEval_length h hc, if_pos hi, if_pos hi]
  · intro i hi hi'
    simp only [mem_range, not_lt] at hi hi'
    rw [getD_append', lEval_length h hc, if_neg (by omega), getD_replicate']
    simp

/-- The two vectors are committed to. -/
theorem real_opened (hG : s.size ≤ g.Gs.length) (hH : s.size ≤ g.Hs.length) (hx : ch.x ≠ 0) (hy : ch.y ≠ 0) (rnd : PRand F) :
    ch.opened g (realPoints g ch s rnd).AI1 (realPoints g ch s rnd).AO1 (realPoints g ch s rnd).S1 (realPoints g ch s rnd).AI2
      (realPoints g ch s rnd).AO2 (realPoints g ch s rnd).S2 (realPoints g ch s rnd).eBl =
    ch.commitVectors g (simL (toCoins lg g ch s s.size hx hy rnd) ch.n1 s.size ch.N) (simR (toCoins lg g ch s s.size hx hy rnd) ch.y ch.n1 s.size ch.N) := by
  have hN := hc.size_le h
  have hn := h.le
  obtain ⟨w1, w2, wL, wR, wO⟩ := wt_shape h hc
  have hlenR : s.aR.length = s.size := by rw [h.sync.stmt.right, ← h.sync.stmt.left, h.len]
  have hlenO : s.aO.length = s.size := by rw [h.sync.stmt.out, ← h.sync.stmt.left, h.len]
  have key := eBl_opened g ch s t rnd ⟨(realPoints g ch s rnd).AI1, (realPoints g ch s rnd).AO1, (realPoints g ch s rnd).S1⟩
    (realPoints g ch s rnd).eBl (by rw [hc.n1]; exact h) hc.comms hN hG hH hy ⟨rfl, rfl, rfl⟩ rfl
  refine key.trans ?_
  unfold Check.commitVectors
  rw [← real_L h hc, ← real_R h hc]
  congr 1
  · refine Finset.sum_congr rfl fun i hi => ?_
    have hi := mem_range.1 hi
    rw [getD_append', lEval_length h hc]
    by_cases hi' : i < s.size
    · rw [if_pos hi', lEval_eq ch s rnd s.size (hc.comms_len h) (by rw [hc.n1]; exact hn) s.dim_le_size hN, getD_map_range, if_pos hi']
    · rw [if_neg hi', getD_replicate', baseL_ge ch s i h.len hlenO (by omega), getD_of_le ch.wt.wR _ _ (by omega),
        getD_of_le (sLOf rnd ch.n1 s.size) _ _ (by simp [sLOf, hc.n1]; omega)]
      simp
  · refine Finset.sum_congr rfl fun i hi => ?_
    have hi := mem_range.1 hi
    rw [getD_append', rEval_length h hc]
    by_cases hi' : i < s.size
    · rw [if_pos hi', rEval_eq ch s rnd s.size (hc.comms_len h) w1 w2 hN, getD_map_range, if_pos hi']
    · have hv : ∀ j ∈ range ch.comms.length, ch.x ^ rDeg ch.op (j + 2) * (ch.wt.wVC.getD j []).getD i 0 = 0 := by
        intro j hj
        have hj : j < ch.wt.wVC.length := by rw [← w2, ← hc.comms_len h]; exact mem_range.1 hj
        rw [getD_of_lt _ _ _ hj, getD_of_le _ _ _ (le_trans (w1 _ (List.getElem_mem hj)) (by omega)), mul_zero]
      rw [if_neg hi', getD_map_range, if_pos (by omega), expIter_getD, if_pos (by omega), baseR_ge ch s i hlenR (by omega),
        getD_of_le ch.wt.wL _ _ (by omega), getD_of_le ch.wt.wO _ _ (by omega), Finset.sum_eq_zero hv,
        getD_of_le (sROf rnd ch.n1 s.size) _ _ (by simp [sROf, hc.n1]; omega), show s.size + (i - s.size) = i by omega]
      ring_nf

/-- The polynomial equation holds. -/
theorem real_poly (hy : ch.y ≠ 0) (rnd : PRand F) :
    ch.polyDefect g (realPoints g ch s rnd).T (realPoints g ch s rnd).tx (realPoints g ch s rnd).txBl = 0 := by
  have hsy := h.sync
  have hN := hc.size_le h
  have hn := h.le
  obtain ⟨w1, w2, wL, wR, wO⟩ := wt_shape h hc
  obtain ⟨z, hwt⟩ := hc.wt
  have hVlen : t.V.length = s.v.length := by rw [hsy.V, List.length_zipWith, hsy.lenV, min_self]
  have hdims : t.vecComms.map (·.2) = s.vecOpen.map fun v => v.2.length := by
    rw [hsy.comms, List.map_map]; rfl
  have hop : ch.op = opDegree s.vecOpen.length := by unfold Check.op; rw [hc.comms_len h]
  apply polyDefect_eq_zero ch g _ (fun i => s.v.getD i 0) (fun i => s.vBlinding.getD i 0)
    (fun d => (tpOf ch s rnd s.size).getD d 0) (fun d => if d = ch.op then innerProduct ch.wt.wV s.vBlinding else rnd.tau d)
  · intro i hi
    rw [hc.V, hVlen] at hi
    rw [hc.V, hsy.V, getD_zipWith _ _ _ _ 0 0, if_pos (by rw [hsy.lenV]; exact ⟨hi, hi⟩), commit_eq]
  · intro d hd hne
    simp only [realPoints]
    rw [getD_map_range, if_pos hd, if_neg hne, if_neg hne, commit_eq]
  · have hce := C05_circuit_equation s t z ch.y hy ch.N (by rw [h.len]; exact hN)
      (sLOf rnd ch.n1 s.size) (sROf rnd ch.n1 s.size) (by simp [sLOf, h.len, hc.n1]; omega) hsy.stmt.left.symm hVlen hdims
      (by rw [h.len]; exact s.dim_le_size) ch.wt hwt
    simp only [h.len] at hce
    rw [hsy.stmt.constraints, C04_satisfied_vanishes s.constraints s.assignment h.lin, ← hop] at hce
    rw [hc.V, hVlen]
    refine hce.trans ?_
    have hz : ∑ i ∈ range s.size, ch.y ^ i * (s.aL.getD i 0 * s.aR.getD i 0 - s.aO.getD i 0) = 0 := by
      apply Finset.sum_eq_zero
      intro i hi
      rw [h.gate i (mem_range.1 hi)]; ring
    have hdelta : ch.delta = ∑ i ∈ range s.size, ch.y⁻¹ ^ i * (ch.wt.wR.getD i 0 * ch.wt.wL.getD i 0) := by
      unfold Check.delta
      rw [← Finset.sum_subset (s₁ := range s.size) (by intro i; simp; omega)]
      · exact Finset.sum_congr rfl fun i _ => by ring
      · intro i _ hi
        simp only [Finset.mem_range, not_lt] at hi
        rw [getD_of_le ch.wt.wR _ _ (by omega)]; ring
    rw [hz, hdelta]
    ring
  · rw [hc.V, hVlen, if_pos rfl, innerProduct_eq _ _ s.v.length (Or.inr hsy.lenV.le)]
  · simp only [realPoints]
    rw [polyEval_eq, (tp_facts h hc rnd).2]
  · simp only [realPoints]
    rw [polyEval_eq]
    simp only [List.length_map, List.length_range]
    refine Finset.sum_congr rfl fun d hd => ?_
    rw [getD_map_range, if_pos (mem_range.1 hd)]

/-- The honest proof is the simulated one. -/
theorem real_eq_sim (hlg : ∀ P, lg P • g.pc.Bbl = P) (hG : s.size ≤ g.Gs.length) (hH : s.size ≤ g.Hs.length) (hx : ch.x ≠ 0) (hy : ch.y ≠ 0) (rnd : PRand F) :
    realPoints g ch s rnd = simPoints g ch s.size (toCoins lg g ch s s.size hx hy rnd) := by
  have hlenR : s.aR.length = s.size := by rw [h.sync.stmt.right, ← h.sync.stmt.left, h.len]
  have hlenO : s.aO.length = s.size := by rw [h.sync.stmt.out, ← h.sync.stmt.left, h.len]
  have hop : ch.op = opDegree s.vecOpen.length := by unfold Check.op; rw [hc.comms_len h]
  set ρ := toCoins lg g ch s s.size hx hy rnd with hρ
  have e1 : (realPoints g ch s rnd).AI1 = ρ.i1 • g.pc.Bbl := by
    show _ = (rnd.i1 + _) • _
    rw [add_smul, hlg]; rfl
  have e2 : (realPoints g ch s rnd).AO1 = ρ.o1 • g.pc.Bbl := by
    show _ = (rnd.o1 + _) • _
    rw [add_smul, hlg]; rfl
  have e3 : (realPoints g ch s rnd).AI2 = (if s.size - ch.n1 > 0 then ρ.i2 • g.pc.Bbl else 0) ∧
      (realPoints g ch s rnd).AO2 = (if s.size - ch.n1 > 0 then ρ.o2 • g.pc.Bbl else 0) ∧
      (realPoints g ch s rnd).S2 = (if s.size - ch.n1 > 0 then ρ.s2 • g.pc.Bbl else 0) := by
    simp only [realPoints]
    by_cases hp2 : s.size - ch.n1 > 0
    · rw [commit2_gh g rnd s ch.n1 s.size hp2 h.len hlenR hlenO hG, if_pos hp2, if_pos hp2, if_pos hp2]
      refine ⟨?_, ?_, ?_⟩
      · show _ = (rnd.i2 + _) • _
        rw [add_smul, hlg]
      · show _ = (rnd.o2 + _) • _
        rw [add_smul, hlg]
      · show _ = (rnd.s2 + _) • _
        rw [add_smul, hlg]
        rfl
    · unfold commit2
      rw [if_neg hp2, if_neg hp2, if_neg hp2, if_neg hp2]
      exact ⟨rfl, rfl, rfl⟩
  have e4 : (realPoints g ch s rnd).eBl = ρ.s1 := by
    have := eBl_eq s.vecOpen.length (s.vecOpen.map (·.1)) (by simp)
        (rnd.i1 + ch.u * (if s.size - ch.n1 > 0 then rnd.i2 else 0)) (rnd.o1 + ch.u * (if s.size - ch.n1 > 0 then rnd.o2 else 0))
        (rnd.s1 + ch.u * (if s.size - ch.n1 > 0 then rnd.s2 else 0)) ch.x
    rw [← hop] at this
    exact this
  have hop0 := op_pos ch
  have e5 : (realPoints g ch s rnd).txBl = ρ.tau 0 := by
    show polyEval _ _ = rnd.tau 0 + ∑ d ∈ _, _
    rw [polyEval_eq, List.length_map, List.length_range, ← Finset.add_sum_erase _ _ (show 0 ∈ range (2 * (ch.op + 1) + 1) by simp),
      getD_map_range, if_pos (by omega), if_neg (by omega), pow_zero, one_mul]
    congr 1
    refine Finset.sum_congr rfl fun d hd => ?_
    rw [getD_map_range, if_pos (mem_range.1 (Finset.mem_of_mem_erase hd))]
    rfl
  have e6 : (realPoints g ch s rnd).tx = ∑ i ∈ range ch.N, (simL ρ ch.n1 s.size ch.N).getD i 0 * (simR ρ ch.y ch.n1 s.size ch.N).getD i 0 :=
    real_tx h hc hx hy rnd
  have e7 : ∀ d, d ≠ 0 → g.pc.commit ((tpOf ch s rnd s.size).getD d 0) (rnd.tau d) = ρ.tau d • g.pc.Bbl := by
    intro d hd
    have : ρ.tau d = rnd.tau d + lg g.pc.B * (tpOf ch s rnd s.size).getD d 0 := by
      show (if d = 0 then _ else (if d = 0 then _ else rnd.tau d) + _) = _
      rw [if_neg hd, if_neg hd]
      rfl
    rw [this, commit_eq, add_smul, mul_comm, mul_smul, hlg, add_comm]
  have e8 : (realPoints g ch s rnd).S1 = (simPoints g ch s.size ρ).S1 := by
    have := real_opened (lg := lg) h hc hG hH hx hy rnd
    rw [opened_S1, e1, e2, e3.1, e3.2.1, e3.2.2, e4] at this
    simp only [simPoints]
    rw [← this, add_sub_cancel_left, smul_smul, inv_mul_cancel₀ (pow_ne_zero _ hx), one_smul]
  have e9 : (realPoints g ch s rnd).T = (simPoints g ch s.size ρ).T := by
    have hp := real_poly h hc hy rnd
    rw [polyDefect_T0 ch g _ ((List.range (2 * (ch.op + 1) + 1)).map fun d => if d = 0 then 0 else ρ.tau d • g.pc.Bbl) _ _
      (by rw [getD_map_range, if_pos (by omega), if_pos rfl])
      (by
        intro d hd hne hd0
        simp only [realPoints]
        rw [getD_map_range, if_pos hd, if_neg hne, getD_map_range, if_pos hd, if_neg hd0, e7 d hd0])] at hp
    simp only [simPoints]
    conv_lhs => simp only [realPoints]
    refine List.map_congr_left fun d hd => ?_
    by_cases hdo : d = ch.op
    · rw [if_pos hdo, if_pos hdo]
    rw [if_neg hdo, if_neg hdo]
    by_cases hd0 : d = 0
    · rw [if_pos hd0, hd0, ← e6, ← e5]
      refine Eq.trans ?_ (neg_eq_of_add_eq_zero_right hp).symm
      simp only [realPoints]
      rw [getD_map_range, if_pos (by omega), if_neg (by omega)]
    · rw [if_neg hd0, e7 d hd0]
  cases hr : realPoints g ch s rnd with
  | mk a1 a2 a3 a4 a5 a6 a7 a8 a9 a10 a11 =>
    have e11 : (realPoints g ch s rnd).ipp = ⟨[], [], 0, 0⟩ := rfl
    rw [hr] at e1 e2 e3 e4 e5 e6 e8 e9 e11
    simp only at e1 e2 e3 e4 e5 e6 e8 e9 e11
    obtain ⟨e3, e3', e3''⟩ := e3
    simp only [simPoints] at e8 e9 ⊢
    subst e1 e2 e3 e3' e3'' e4 e5 e6 e11
    rw [e8, e9]

end

/-! ## The two runs -/

/-- Without the inner product argument. -/
def R1CSProof.head (p : R1CSProof F G) : R1CSProof F G := { p with ipp := ⟨[], [], 0, 0⟩ }

theorem simulate_iff (o : Oracle F G X) (g : Gens G) (n1 : Nat) (t2 : VState F G X) (c : Guess F) (ρ : PRand F) (p : R1CSProof F G) (tr : Transcript F G X)
    {wt : Weights F} (hwt : t2.flattened c.z = some wt) (hy : c.y ≠ 0) :
    simulate o g n1 t2 c ρ = .ok (p, tr) ↔ ¬ g.capacity < nextPow2 t2.size ∧ ¬ (t2.size - n1 > 0 ∧ t2.vecComms ≠ []) ∧
      ¬ (∃ d ∈ tDegrees (opDegree t2.vecComms.length), tLabelCount ≤ d) ∧ p.head = simPoints g (c.check n1 t2 wt) t2.size ρ ∧
      ippCreate o (c.w • g.pc.B) ((List.range (c.check n1 t2 wt).N).map (c.check n1 t2 wt).factor)
        ((List.range (c.check n1 t2 wt).N).map fun i => c.y⁻¹ ^ i * (c.check n1 t2 wt).factor i)
        (g.Gs.take (c.check n1 t2 wt).N) (g.Hs.take (c.check n1 t2 wt).N) (simL ρ n1 t2.size (c.check n1 t2 wt).N)
        (simR ρ c.y n1 t2.size (c.check n1 t2 wt).N) (absorbedW p t2) = .ok (p.ipp, tr) := by
  unfold simulate
  simp only [hwt, if_neg hy]
  by_cases h1 : g.capacity < nextPow2 t2.size
  · rw [if_pos h1]; simp [h1]
  rw [if_neg h1]
  by_cases h2 : t2.size - n1 > 0 ∧ t2.vecComms ≠ []
  · rw [if_pos h2]; simp [h2]
  rw [if_neg h2]
  by_cases h3 : ∃ d ∈ tDegrees (opDegree t2.vecComms.length), tLabelCount ≤ d
  · rw [if_pos h3]; simp [h3]
  rw [if_neg h3]
  simp only [h1, h2, h3, not_false_eq_true, true_and]
  generalize hq : simPoints g (c.check n1 t2 wt) t2.size ρ = q
  have hqi : q.ipp = ⟨[], [], 0, 0⟩ := by rw [← hq]; rfl
  constructor
  · intro h
    split at h
    · cases h
    rename_i ipp tr' hi
    simp only [Except.ok.injEq, Prod.mk.injEq] at h
    obtain ⟨rfl, rfl⟩ := h
    refine ⟨?_, hi⟩
    cases q
    simp only at hqi
    subst hqi
    rfl
  · rintro ⟨rfl, h⟩
    have e : absorbedW p.head t2 = absorbedW p t2 := rfl
    rw [e, h]
    rfl

theorem absorbedT_eq {t : VState F G X} {p : R1CSProof F G} (hT : p.T.length = 2 * (opDegree t.vecComms.length + 1) + 1)
    (h : chkT1 t p = .ok (chkT1' t p)) : chkT1' t p = absorbedT p t := by
  have := appendT_ok _ _ _ _ _ h
  rw [this, hT, ← List.range_eq_range']
  simp [absorbedT, absorbedA, tDegrees, chkT0]

/-- The oracle's challenges are the ones chosen in advance. -/
theorem proofCheck_right {o : Oracle F G X} {n1 : Nat} {t : VState F G X} {p : R1CSProof F G} {c : Guess F} {wt : Weights F}
    (hwt : t.flattened c.z = some wt) (hT : p.T.length = 2 * (opDegree t.vecComms.length + 1) + 1)
    (h : chkT1 t p = .ok (chkT1' t p)) (hr : c.Right o p t) :
    proofCheck o n1 t p = { c.check n1 t wt with wt := { wt with wc := 0 } } := by
  obtain ⟨us, hr⟩ := hr
  have e := absorbedT_eq hT h
  have ez : chkZ o t p = c.z := by rw [← hr.z]; unfold chkZ chkT0 absorbedA; simp
  have ey : o (chkT0 t p ++ [.chal "y"]) = c.y := hr.y
  have eu : o (absorbedT p t ++ [.chal "u"]) = c.u := hr.u
  have ex : o (absorbedT p t ++ [.chal "u"] ++ [.chal "x"]) = c.x := by rw [← hr.x]; simp
  have ew : o (absorbedT p t ++ [.chal "u"] ++ [.chal "x"] ++
    [.scalar "t_x" p.tx, .scalar "t_x_blinding" p.txBl, .scalar "e_blinding" p.eBl] ++ [.chal "w"]) = c.w := by
    rw [← hr.w]; unfold absorbedW; simp
  unfold proofCheck Guess.check
  rw [ez, ey, e, eu, ex, ew, hwt]
  rfl

theorem labels_iff (op : Nat) : (¬ ∃ d ∈ tDegrees op, tLabelCount ≤ d) ↔ 2 * (op + 1) + 1 ≤ tLabelCount := by
  constructor
  · intro h
    by_contra hn
    exact h ⟨2 * (op + 1), by simp [tDegrees]; omega, by omega⟩
  · rintro h ⟨d, hd, hd'⟩
    simp [tDegrees] at hd
    omega

theorem prove_iff_real {o : Oracle F G X} {g : Gens G} (hcG : g.capacity ≤ g.Gs.length) {s s2 : PState F G X} {t t2 : VState F G X}
    (h : SessionInv g s t) {p : R1CSProof F G} (e2 : s.secondPhase o ⟨p.AI1, p.AO1, p.S1⟩ = .ok s2) (k : TailOk g s.size s2 t2)
    (l : s2.aL.take s.size = s.pad.aL ∧ s2.aR.take s.size = s.pad.aR ∧ s2.aO.take s.size = s.pad.aO) {c : Guess F} (hr : c.Right o p t2)
    {wt : Weights F} (hwt : t2.flattened c.z = some wt) (hy : c.y ≠ 0) (rnd : PRand F) (tr : Transcript F G X) :
    prove o g rnd s = .ok (p, tr) ↔ ¬ g.capacity < nextPow2 t2.size ∧ ¬ (t2.size - s.size > 0 ∧ t2.vecComms ≠ []) ∧
      ¬ (∃ d ∈ tDegrees (opDegree t2.vecComms.length), tLabelCount ≤ d) ∧ p.head = realPoints g (c.check s.size t2 wt) s2 rnd ∧
      ippCreate o (c.w • g.pc.B) ((List.range (c.check s.size t2 wt).N).map (c.check s.size t2 wt).factor)
        ((List.range (c.check s.size t2 wt).N).map fun i => c.y⁻¹ ^ i * (c.check s.size t2 wt).factor i)
        (g.Gs.take (c.check s.size t2 wt).N) (g.Hs.take (c.check s.size t2 wt).N)
        ((lpOf (c.check s.size t2 wt) s2 rnd s2.size).eval c.x ++ List.replicate ((c.check s.size t2 wt).N - s2.size) 0)
        ((rpOf (c.check s.size t2 wt) s2 rnd s2.size).eval c.x ++ ((List.range ((c.check s.size t2 wt).N - s2.size)).map fun i =>
          - (expIter c.y (c.check s.size t2 wt).N).getD (s2.size + i) 0)) (absorbedW p t2) = .ok (p.ipp, tr) := by
  set ch := c.check s.size t2 wt with hch
  have hsz : t2.size = s2.size := k.sync.size
  have hvl : t2.vecComms.length = s2.vecOpen.length := by rw [k.sync.comms, List.length_map]
  have hvn : t2.vecComms ≠ [] ↔ s2.vecOpen ≠ [] := by rw [← List.length_pos_iff, ← List.length_pos_iff, hvl]
  have hle := k.le
  obtain ⟨K, hK, hK', -⟩ := nextPow2_eq t2.size
  have hN : s2.size ≤ ch.N := by
    show _ ≤ nextPow2 t2.size
    rw [hK, ← hsz]; exact hK'
  have chop : ch.op = opDegree t2.vecComms.length := by unfold Check.op; rw [hch]; simp [Guess.check]
  have hGf : List.replicate s.size 1 ++ List.replicate (s2.size - s.size + (ch.N - s2.size)) c.u = (List.range ch.N).map ch.factor := by
    refine ext_getD 0 (by simp; omega) fun i hi => ?_
    have hi : i < ch.N := by simp at hi; omega
    rw [factors_getD s.size s2.size ch.N hle hN c.u i hi, getD_map_range, if_pos hi]
    rfl
  have hHf : List.zipWith (· * ·) (expIter c.y⁻¹ ch.N) ((List.range ch.N).map ch.factor) = (List.range ch.N).map fun i => c.y⁻¹ ^ i * ch.factor i := by
    have hl : (expIter c.y⁻¹ ch.N).length = ch.N := expIterFrom_length _ _ _
    refine ext_getD 0 (by simp [hl]) fun i hi => ?_
    have hi : i < ch.N := by simp [hl] at hi; omega
    rw [getD_zipWith _ _ _ _ 0 0, if_pos (by rw [hl]; simp [hi]), expIter_getD, if_pos hi, getD_map_range, if_pos hi, getD_map_range, if_pos hi]
  have hNs : nextPow2 s2.size = ch.N := by rw [← hsz]; rfl
  have hcheck : ∀ (hT : p.T.length = 2 * (opDegree t2.vecComms.length + 1) + 1) (ha : chkT1 t2 p = .ok (chkT1' t2 p)),
      proofCheck o s.size t2 p = { ch with wt := { wt with wc := 0 } } := fun hT ha => proofCheck_right hwt hT ha hr
  have hW : ∀ (hT : p.T.length = 2 * (opDegree t2.vecComms.length + 1) + 1) (ha : chkT1 t2 p = .ok (chkT1' t2 p)),
      chkT1' t2 p ++ [.chal "u"] ++ [.chal "x"] ++
      [.scalar "t_x" p.tx, .scalar "t_x_blinding" p.txBl, .scalar "e_blinding" p.eBl] ++ [.chal "w"] = absorbedW p t2 := by
    intro hT ha
    rw [absorbedT_eq hT ha]; simp [absorbedW]
  have ez : chkZ o t2 p = c.z := by
    obtain ⟨us, hr⟩ := hr
    rw [← hr.z]; unfold chkZ chkT0 absorbedA; simp
  have hne : t2.flattened (chkZ o t2 p) ≠ none := by rw [ez, hwt]; simp
  -- nothing but `polyDefect` reads `wc`
  have r1 : ({ ch with wt := { wt with wc := 0 } } : Check F G).op = ch.op := rfl
  have r2 : ∀ n, tpOf { ch with wt := { wt with wc := 0 } } s2 rnd n = tpOf ch s2 rnd n := fun n => rfl
  have r3 : ∀ n, lpOf { ch with wt := { wt with wc := 0 } } s2 rnd n = lpOf ch s2 rnd n := fun n => rfl
  have r4 : ∀ n, rpOf { ch with wt := { wt with wc := 0 } } s2 rnd n = rpOf ch s2 rnd n := fun n => rfl
  constructor
  · intro hp
    rw [prove_eq] at hp
    by_cases hcap : g.capacity < s.size
    · rw [if_pos hcap] at hp; simp at hp
    rw [if_neg hcap] at hp
    cases h2 : s.secondPhase o (s.firstCommitments g rnd) with
    | error e => rw [h2] at hp; simp at hp
    | ok s3 =>
    rw [h2] at hp
    simp only at hp
    have hfirst : (⟨p.AI1, p.AO1, p.S1⟩ : Com G) = s.firstCommitments g rnd := by
      obtain ⟨e1, e2, e3⟩ := proveTail_first hp
      rw [e1, e2, e3]
    rw [← hfirst] at h2 hp
    obtain rfl : s2 = s3 := by rw [e2] at h2; simpa using h2
    have E := (proveTail_iff o g rnd s.size _ s2 t2 k.sync p tr).1 hp
    have hf : FirstOk g s.size ⟨p.AI1, p.AO1, p.S1⟩ rnd s2 := (firstOk_iff h rnd (by omega) l.1 l.2.1 l.2.2).2 hfirst
    have hop : (proofCheck o s.size t2 p).op = opDegree t2.vecComms.length := by
      unfold Check.op proofCheck; rw [List.length_map]
    have hT : p.T.length = 2 * (opDegree t2.vecComms.length + 1) + 1 := by rw [E.T, List.length_map, List.length_range, hop]
    have hck := hcheck hT E.app
    refine ⟨by rw [hsz]; exact E.cap, by rw [hsz, hvn]; exact E.ph, ?_, ?_, ?_⟩
    · rw [labels_iff]
      by_contra hn
      obtain ⟨m, hm⟩ := appendT_err (opDegree t2.vecComms.length) 0 p.T (chkT0 t2 p ++ [.chal "y"] ++ [.chal "z"])
        ⟨2 * (opDegree t2.vecComms.length + 1), by omega, by rw [hT]; omega, by omega, by omega⟩
      have := E.app
      unfold chkT1 at this
      rw [hm] at this
      cases this
    · have a1 := hf.AI
      have a2 := hf.AO
      have a3 := hf.S
      have a4 := E.c2
      have a5 := E.T
      have a6 := E.tx
      have a7 := E.txBl
      have a8 := E.eBl
      rw [hck, r1, r2] at a5
      rw [hck, r2] at a6
      rw [hck, r1] at a7 a8
      unfold R1CSProof.head realPoints
      rw [show ch.n1 = s.size from rfl, a4]
      simp only at a1 a2 a3
      rw [← a1, ← a2, ← a3]
      simp only [R1CSProof.mk.injEq, true_and, and_true]
      exact ⟨a5, a6, a7, a8⟩
    · have a9 := E.ipp
      rw [hW hT E.app, hck, r3, r4] at a9
      simp only [hNs] at a9
      rw [← hHf, ← hGf]
      exact a9
  · rintro ⟨b1, b2, b3, b4, b5⟩
    rw [hsz] at b1
    have hT : p.T.length = 2 * (opDegree t2.vecComms.length + 1) + 1 := by
      have := congrArg (fun q => q.T.length) b4
      simp only [R1CSProof.head, realPoints, List.length_map, List.length_range, chop] at this
      exact this
    rw [labels_iff] at b3
    have happ : chkT1 t2 p = .ok (chkT1' t2 p) := by
      obtain ⟨t', ht'⟩ := appendT_total (opDegree t2.vecComms.length) 0 p.T (chkT0 t2 p ++ [.chal "y"] ++ [.chal "z"]) (by omega)
      unfold chkT1' chkT1
      rw [ht']
    have hck := hcheck hT happ
    have hf : FirstOk g s.size ⟨p.AI1, p.AO1, p.S1⟩ rnd s2 :=
      ⟨congrArg R1CSProof.AI1 b4, congrArg R1CSProof.AO1 b4, congrArg R1CSProof.S1 b4⟩
    have hG : s.size ≤ g.Gs.length := by omega
    have hfirst := (firstOk_iff h rnd hG l.1 l.2.1 l.2.2).1 hf
    have E : TailEqs o g rnd s.size ⟨p.AI1, p.AO1, p.S1⟩ s2 t2 p tr := by
      refine ⟨b1, by rw [← hsz, ← hvn]; exact b2, rfl, rfl, rfl, ?_, hne, ?_, ?_, happ, ?_, ?_, ?_, ?_⟩
      · have c1 := congrArg R1CSProof.AI2 b4
        have c2 := congrArg R1CSProof.AO2 b4
        have c3 := congrArg R1CSProof.S2 b4
        simp only [R1CSProof.head, realPoints] at c1 c2 c3
        rw [show ch.n1 = s.size from rfl] at c1 c2 c3
        rw [c1, c2, c3]
      · rw [hck]; exact hy
      · rw [hck, r1, r2]; exact congrArg R1CSProof.T b4
      · rw [hck, r2]; exact congrArg R1CSProof.tx b4
      · rw [hck, r1]; exact congrArg R1CSProof.txBl b4
      · rw [hck, r1]; exact congrArg R1CSProof.eBl b4
      · rw [hW hT happ, hck, r3, r4]
        simp only [hNs]
        rw [← hHf, ← hGf] at b5
        exact b5
    rw [prove_eq, if_neg (by omega), ← hfirst, e2]
    exact (proveTail_iff o g rnd s.size _ s2 t2 k.sync p tr).2 E

/-! ## Simulated proofs are accepted -/

theorem sim_opened (g : Gens G) (ch : Check F G) (n : Nat) (ρ : PRand F) (hx : ch.x ≠ 0) :
    ch.opened g (simPoints g ch n ρ).AI1 (simPoints g ch n ρ).AO1 (simPoints g ch n ρ).S1 (simPoints g ch n ρ).AI2 (simPoints g ch n ρ).AO2
      (simPoints g ch n ρ).S2 (simPoints g ch n ρ).eBl = ch.commitVectors g (simL ρ ch.n1 n ch.N) (simR ρ ch.y ch.n1 n ch.N) := by
  rw [opened_S1]
  simp only [simPoints]
  rw [smul_smul, mul_inv_cancel₀ (pow_ne_zero _ hx), one_smul]
  abel

theorem sim_poly (g : Gens G) (ch : Check F G) (n : Nat) (ρ : PRand F) :
    ch.polyDefect g (simPoints g ch n ρ).T (simPoints g ch n ρ).tx (simPoints g ch n ρ).txBl = 0 := by
  have hop := op_pos ch
  rw [polyDefect_T0 ch g _ ((List.range (2 * (ch.op + 1) + 1)).map fun d => if d = 0 then 0 else ρ.tau d • g.pc.Bbl) _ _
    (by rw [getD_map_range, if_pos (by omega), if_pos rfl])
    (by
      intro d hd hne hd0
      simp only [simPoints]
      rw [getD_map_range, if_pos hd, if_neg hne, if_neg hd0, getD_map_range, if_pos hd, if_neg hd0])]
  simp only [simPoints]
  rw [getD_map_range, if_pos (by omega), if_neg (by omega), if_pos rfl]
  abel

theorem simulate_accepted (o : Oracle F G X) (g : Gens G) (hcG : g.capacity ≤ g.Gs.length) (hcH : g.capacity ≤ g.Hs.length)
    (t t2 : VState F G X) (c : Guess F) (ρ : PRand F) (p : R1CSProof F G) (tr : Transcript F G X) (hx : c.x ≠ 0)
    (h2 : t.secondPhase o p.AI1 p.AO1 p.S1 = .ok t2) (hs : simulate o g t.size t2 c ρ = .ok (p, tr)) (hr : c.Right o p t2)
    (h32 : nextPow2 t2.size < 2 ^ 32) (hne : p.NoIdentity t2.vecComms.length) (r : F) : verify o g r p t = .ok () := by
  have hyw : c.y ≠ 0 ∧ ∃ wt, t2.flattened c.z = some wt := by
    unfold simulate at hs
    simp only at hs
    split at hs
    · cases hs
    split at hs
    · cases hs
    split at hs
    · cases hs
    split at hs
    · cases hs
    rename_i wt hwt
    by_cases hy : c.y = 0
    · rw [if_pos hy] at hs; cases hs
    exact ⟨hy, wt, hwt⟩
  obtain ⟨hy, wt, hwt⟩ := hyw
  obtain ⟨b1, b2, b3, b4, b5⟩ := (simulate_iff o g t.size t2 c ρ p tr hwt hy).1 hs
  set ch := c.check t.size t2 wt with hch
  obtain ⟨k, hNk, hnN, -⟩ := nextPow2_eq t2.size
  have hN : ch.N = 2 ^ k := hNk
  have hk32 : k < 32 := by rw [hNk] at h32; exact (Nat.pow_lt_pow_iff_right (by norm_num)).1 h32
  rw [hNk] at b1
  have chop : ch.op = opDegree t2.vecComms.length := by unfold Check.op; rw [hch]; simp [Guess.check]
  have hT : p.T.length = 2 * (opDegree t2.vecComms.length + 1) + 1 := by
    have := congrArg (fun q => q.T.length) b4
    simp only [R1CSProof.head, simPoints, List.length_map, List.length_range, chop] at this
    exact this
  rw [labels_iff] at b3
  have happ : chkT1 t2 p = .ok (chkT1' t2 p) := by
    obtain ⟨t', ht'⟩ := appendT_total (opDegree t2.vecComms.length) 0 p.T (chkT0 t2 p ++ [.chal "y"] ++ [.chal "z"]) (by omega)
    unfold chkT1' chkT1
    rw [ht']
  have hTT := absorbedT_eq hT happ
  rw [hTT] at happ
  have hval : validateT (opDegree t2.vecComms.length) p.T (List.range (2 * (opDegree t2.vecComms.length + 1) + 1))
      (tailT p t2 ++ [.chal "y", .chal "z"]) = .ok (absorbedT p t2) := by
    have e : chkT0 t2 p ++ [Msg.chal "y"] ++ [.chal "z"] = tailT p t2 ++ [.chal "y", .chal "z"] := by simp [chkT0, tailT]
    unfold chkT1 at happ
    rw [e] at happ
    have := appendT_validateT (opDegree t2.vecComms.length) p.T p.T 0 _ _ rfl (fun i _ hi hne' => hne.T i hi hne') happ
    rw [hT] at this
    rw [List.range_eq_range']
    exact this
  have hW : tailW p (absorbedT p t2) = absorbedW p t2 := rfl
  have hmono : t.size ≤ t2.size := by
    unfold VState.secondPhase at h2
    have hm := (createRandomized_mono h2).1
    have : t.pad.numVars = t.size := by
      unfold VState.pad
      rw [VState.padN_eq]
      have := t.numVars_le_size
      simp only
      omega
    have := t2.numVars_le_size
    simp only at hm
    omega
  have hGl : (g.Gs.take ch.N).length = 2 ^ k := by simp [hN]; omega
  have hHl : (g.Hs.take ch.N).length = 2 ^ k := by simp [hN]; omega
  obtain ⟨us, hLS⟩ := ippCreate_spec o (c.w • g.pc.B) k _ _ _ _ _ _ (absorbedW p t2) hGl b5
  obtain ⟨us', hr⟩ := hr
  have hz : o (tailT p t2 ++ [.chal "y", .chal "z"]) = c.z := hr.z
  have hlL : (simL ρ t.size t2.size ch.N).length = 2 ^ k := by simp [simL, hN]; omega
  have hlR : (simR ρ c.y t.size t2.size ch.N).length = 2 ^ k := by simp [simR, hN]; omega
  have hchk : ∀ r, t2.check (tailChals o r p t2 (absorbedT p t2) (us.map fun u => u * u) (us.map fun u => u⁻¹ * u⁻¹) (sVec us)) wt t.size (2 ^ k) = ch := by
    intro r
    rw [hch]
    unfold VState.check Guess.check tailChals
    simp only [Check.mk.injEq, true_and]
    exact ⟨hNk.symm, hr.y, hr.u, hr.x, hr.w⟩
  have hhead : verifyHead o p t = .ok (t.size, t2) := by
    unfold verifyHead
    simp only
    unfold VState.secondPhase at h2
    rw [← t.pad_fields.2.1] at h2
    rw [if_neg (by simp only [not_or]; exact ⟨hne.AI1, hne.AO1, hne.S1⟩), List.append_assoc, List.singleton_append]
    simp only at h2 ⊢
    rw [h2]
    simp only
    rw [t.pad_size]
  obtain ⟨tup, ht1, ht2⟩ := verifyTail_accepts o g p t.size k t2 (absorbedT p t2) tr wt us hval (by rw [hz]; exact hwt) hLS.lenU hLS.lenL hLS.lenR hNk hk32
    (by rw [show o (tailT p t2 ++ [.chal "y"]) = c.y from hr.y]; exact hy) (by rw [hW]; exact hLS.chal hne.L hne.R) hmono (by omega) hcG hcH
    (by
      intro r
      rw [hchk]
      refine ippDefect_eq_zero ch g p o k _ _ _ _ us _ _ (hlL.trans hN.symm) (hlR.trans hN.symm) ?_ ?_ ?_ ?_ hLS
      · have := sim_opened g ch t2.size ρ hx
        rw [← b4] at this
        exact this
      · have := congrArg R1CSProof.tx b4
        simp only [R1CSProof.head, simPoints] at this
        rw [this, innerProduct_eq _ _ ch.N (Or.inl (hlL.trans hN.symm).le)]
        rfl
      · refine ext_getD 0 (by simp [Check.ippG]; omega) fun i hi => ?_
        have hi : i < ch.N := by simp at hi; omega
        rw [getD_zipWith _ _ _ _ 0 0, if_pos (by rw [hGl, ← hN]; simp [hi]), getD_map_range, if_pos hi, getD_take, if_pos hi, Check.ippG, getD_map_range,
          if_pos hi]
      · refine ext_getD 0 (by simp [Check.ippH]; omega) fun i hi => ?_
        have hi : i < ch.N := by simp at hi; omega
        rw [getD_zipWith _ _ _ _ 0 0, if_pos (by rw [hHl, ← hN]; simp [hi]), getD_map_range, if_pos hi, getD_take, if_pos hi, Check.ippH, getD_map_range,
          if_pos hi, mul_comm]
        rfl)
    (by
      intro r
      rw [hchk]
      have := sim_poly g ch t2.size ρ
      rw [← b4] at this
      exact this) r
  unfold verify
  rw [verificationTuple_eq, hhead]
  simp only
  rw [ht1]
  exact ht2

end CT
