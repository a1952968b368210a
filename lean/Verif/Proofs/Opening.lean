import Verif.Proofs.Mega
import Mathlib.Algebra.Module.BigOperators

/-! The commitments of the proof, recombined, open to `l(x)` and `r(x)`. -/

namespace CT
open Finset
variable {F G X : Type} [Field F] [AddCommGroup G] [Module F G]

theorem lDeg_zero (k : Nat) : lDeg (opDegree k) 0 = rDeg (opDegree k) 0 := by
  obtain ⟨m, -, h, -⟩ := opDegree_pos k
  rw [h]; unfold lDeg rDeg; simp; omega

theorem rDeg_one (op : Nat) : rDeg op 1 = 0 := rfl
theorem lDeg_one (op : Nat) : lDeg op 1 = op := rfl

/-- `l(x)` at `i`, from the vectors in the slots. -/
def evalL (ch : Check F G) (v : Nat → Nat → F) (aL aO sL : Nat → F) (i : Nat) : F :=
  ∑ j ∈ range ch.comms.length, ch.x ^ lDeg ch.op (j + 2) * v j i +
    ch.x ^ lDeg ch.op 0 * (aL i + ch.y⁻¹ ^ i * ch.wt.wR.getD i 0) + ch.x ^ lDeg ch.op 1 * aO i +
    ch.x ^ (ch.op + 1) * sL i

/-- `r(x)` at `i`; `hO` is zero for an honest Prover. -/
def evalR (ch : Check F G) (aR hO sR : Nat → F) (i : Nat) : F :=
  ch.x ^ rDeg ch.op 0 * (ch.y ^ i * aR i + ch.wt.wL.getD i 0) + (ch.wt.wO.getD i 0 - ch.y ^ i) +
    ∑ j ∈ range ch.comms.length, ch.x ^ rDeg ch.op (j + 2) * (ch.wt.wVC.getD j []).getD i 0 +
    ch.x ^ (ch.op + 1) * (ch.y ^ i * sR i) + ch.x ^ ch.op * (ch.y ^ i * hO i)

theorem opened_eq (ch : Check F G) (g : Gens G) (AI1 AO1 S1 AI2 AO2 S2 : G) (eBl : F)
    (v : Nat → Nat → F) (bl : Nat → F) (aL aR aO hO sL sR : Nat → F) (ibl obl sbl : F) (hy : ch.y ≠ 0)
    (hC : ∀ j < ch.comms.length, ch.comms.getD j 0 =
      bl j • g.pc.Bbl + ∑ i ∈ range ch.N, v j i • g.Gs.getD i 0)
    (hf : ∀ j < ch.comms.length, ∀ i < ch.N, ch.factor i * v j i = v j i)
    (hAI : AI1 + ch.u • AI2 = ibl • g.pc.Bbl + ∑ i ∈ range ch.N, (ch.factor i * aL i) • g.Gs.getD i 0 +
      ∑ i ∈ range ch.N, (ch.factor i * aR i) • g.Hs.getD i 0)
    (hAO : AO1 + ch.u • AO2 = obl • g.pc.Bbl + ∑ i ∈ range ch.N, (ch.factor i * aO i) • g.Gs.getD i 0 +
      ∑ i ∈ range ch.N, (ch.factor i * hO i) • g.Hs.getD i 0)
    (hS : S1 + ch.u • S2 = sbl • g.pc.Bbl + ∑ i ∈ range ch.N, (ch.factor i * sL i) • g.Gs.getD i 0 +
      ∑ i ∈ range ch.N, (ch.factor i * sR i) • g.Hs.getD i 0)
    (he : eBl = ∑ j ∈ range ch.comms.length, ch.x ^ lDeg ch.op (j + 2) * bl j +
      ch.x ^ lDeg ch.op 0 * ibl + ch.x ^ lDeg ch.op 1 * obl + ch.x ^ (ch.op + 1) * sbl) :
    ch.opened g AI1 AO1 S1 AI2 AO2 S2 eBl =
      ∑ i ∈ range ch.N, (ch.factor i * evalL ch v aL aO sL i) • g.Gs.getD i 0 +
      ∑ i ∈ range ch.N, (ch.factor i * (ch.y⁻¹ ^ i * evalR ch aR hO sR i)) • g.Hs.getD i 0 := by
  unfold Check.opened
  have hC' : ∑ j ∈ range ch.comms.length, ch.x ^ lDeg ch.op (j + 2) • ch.comms.getD j 0 =
      (∑ j ∈ range ch.comms.length, ch.x ^ lDeg ch.op (j + 2) * bl j) • g.pc.Bbl +
      ∑ i ∈ range ch.N, (ch.factor i * ∑ j ∈ range ch.comms.length, ch.x ^ lDeg ch.op (j + 2) * v j i) •
        g.Gs.getD i 0 := by
    rw [Finset.sum_smul]
    have : ∀ i ∈ range ch.N, (ch.factor i * ∑ j ∈ range ch.comms.length, ch.x ^ lDeg ch.op (j + 2) * v j i) •
        g.Gs.getD i 0 = ∑ j ∈ range ch.comms.length, (ch.x ^ lDeg ch.op (j + 2) * v j i) • g.Gs.getD i 0 := by
      intro i hi
      rw [← Finset.sum_smul, Finset.mul_sum]
      congr 1
      refine Finset.sum_congr rfl fun j hj => ?_
      rw [mul_left_comm, hf j (mem_range.1 hj) i (mem_range.1 hi)]
    rw [Finset.sum_congr rfl this, Finset.sum_comm, ← Finset.sum_add_distrib]
    refine Finset.sum_congr rfl fun j hj => ?_
    rw [hC j (mem_range.1 hj), smul_add, smul_smul, Finset.smul_sum]
    congr 1
    exact Finset.sum_congr rfl fun i _ => smul_smul _ _ _
  have hG : ∑ i ∈ range ch.N, (ch.factor i * evalL ch v aL aO sL i) • g.Gs.getD i 0 =
      ∑ i ∈ range ch.N, (ch.factor i * ∑ j ∈ range ch.comms.length, ch.x ^ lDeg ch.op (j + 2) * v j i) •
        g.Gs.getD i 0 +
      ch.x ^ lDeg ch.op 0 • ∑ i ∈ range ch.N, (ch.factor i * aL i) • g.Gs.getD i 0 +
      ch.x ^ lDeg ch.op 1 • ∑ i ∈ range ch.N, (ch.factor i * aO i) • g.Gs.getD i 0 +
      ch.x ^ (ch.op + 1) • ∑ i ∈ range ch.N, (ch.factor i * sL i) • g.Gs.getD i 0 +
      ∑ i ∈ range ch.N, (ch.factor i * (ch.x ^ lDeg ch.op 0 * (ch.y⁻¹ ^ i * ch.wt.wR.getD i 0))) •
        g.Gs.getD i 0 := by
    simp only [Finset.smul_sum, ← Finset.sum_add_distrib, smul_smul, ← add_smul]
    refine Finset.sum_congr rfl fun i _ => ?_
    congr 1
    unfold evalL
    ring
  have hH : ∑ i ∈ range ch.N, (ch.factor i * (ch.y⁻¹ ^ i * evalR ch aR hO sR i)) • g.Hs.getD i 0 =
      ch.x ^ lDeg ch.op 0 • ∑ i ∈ range ch.N, (ch.factor i * aR i) • g.Hs.getD i 0 +
      ch.x ^ lDeg ch.op 1 • ∑ i ∈ range ch.N, (ch.factor i * hO i) • g.Hs.getD i 0 +
      ch.x ^ (ch.op + 1) • ∑ i ∈ range ch.N, (ch.factor i * sR i) • g.Hs.getD i 0 +
      ∑ i ∈ range ch.N, (ch.factor i * (ch.y⁻¹ ^ i * ch.rPublic i - 1)) • g.Hs.getD i 0 := by
    simp only [Finset.smul_sum, ← Finset.sum_add_distrib, smul_smul, ← add_smul]
    refine Finset.sum_congr rfl fun i _ => ?_
    congr 1
    have hyi : ch.y⁻¹ ^ i * ch.y ^ i = 1 := by rw [← mul_pow, inv_mul_cancel₀ hy, one_pow]
    have h0 : lDeg ch.op 0 = rDeg ch.op 0 := lDeg_zero _
    unfold evalR Check.rPublic
    rw [h0, lDeg_one, rDeg_one, pow_zero, one_mul]
    linear_combination (ch.factor i * (ch.x ^ rDeg ch.op 0 * aR i - 1 + ch.x ^ (ch.op + 1) * sR i +
      ch.x ^ ch.op * hO i)) * hyi
  rw [hC', hAI, hAO, hS, hG, hH, he]
  module

/-- Commitments of the two phases, recombined. -/
theorem two_phase (gs : List G) (a : List F) (n1 n N : Nat) (h1 : n1 ≤ n) (h2 : n ≤ N)
    (ha : a.length = n) (hg : n ≤ gs.length) (u : F) :
    msm (gs.take n1) (a.take n1) + u • msm ((gs.take n).drop n1) (a.drop n1) =
      ∑ i ∈ range N, ((if i < n1 then 1 else u) * a.getD i 0) • gs.getD i 0 := by
  have hsub : ∑ i ∈ range N, ((if i < n1 then 1 else u) * a.getD i 0) • gs.getD i 0 =
      ∑ i ∈ range n, ((if i < n1 then 1 else u) * a.getD i 0) • gs.getD i 0 := by
    symm
    apply Finset.sum_subset (by intro i; simp; omega)
    intro i _ hi
    rw [getD_of_le _ _ _ (by simp at hi; omega), mul_zero, zero_smul]
  rw [hsub, msm_eq _ _ n1 (by simp), msm_eq _ _ (n - n1) (by simp; omega)]
  obtain ⟨c, rfl⟩ := Nat.exists_eq_add_of_le h1
  rw [Finset.sum_range_add, Nat.add_sub_cancel_left, Finset.smul_sum]
  congr 1
  · refine Finset.sum_congr rfl fun i hi => ?_
    have hi := mem_range.1 hi
    rw [getD_take, getD_take, if_pos hi, if_pos hi, if_pos hi, one_mul]
  · refine Finset.sum_congr rfl fun i hi => ?_
    have hi := mem_range.1 hi
    rw [getD_drop, getD_drop, getD_take, if_pos (by omega), if_neg (by omega), smul_smul]

theorem Rep_eval (k n : Nat) (deg : Nat → Nat) (hdeg : ∀ j < k + 2, deg j ≤ opDegree k)
    (V : Nat → Nat → F) (sv : Nat → F) {p : VecPoly F}
    (h : p.Rep (opDegree k + 2) n fun e i =>
      (∑ j ∈ range (k + 2), if e = deg j then V j i else 0) + if e = opDegree k + 1 then sv i else 0)
    (x : F) : (p.eval x).length = n ∧ ∀ i < n, (p.eval x).getD i 0 =
      ∑ j ∈ range (k + 2), x ^ deg j * V j i + x ^ (opDegree k + 1) * sv i := by
  have hh : (p.headD []).length = n := by
    rw [headD_eq, getD_of_lt _ _ _ (by rw [h.len]; omega)]
    exact h.row _ (List.getElem_mem _)
  refine ⟨by rw [VecPoly.eval_length, hh], fun i hi => ?_⟩
  rw [VecPoly.eval_getD _ _ _ (by omega), h.len]
  have : ∀ d ∈ range (opDegree k + 2), x ^ d * (p.getD d []).getD i 0 =
      (∑ j ∈ range (k + 2), if d = deg j then x ^ deg j * V j i else 0) +
        if d = opDegree k + 1 then x ^ (opDegree k + 1) * sv i else 0 := by
    intro d hd
    rw [h.get d i (mem_range.1 hd) hi, mul_add, Finset.mul_sum]
    congr 1
    · refine Finset.sum_congr rfl fun j _ => ?_
      split
      · rename_i e; rw [e]
      · rw [mul_zero]
    · split
      · rename_i e; rw [e]
      · rw [mul_zero]
  rw [Finset.sum_congr rfl this, Finset.sum_add_distrib, Finset.sum_comm, Finset.sum_ite_eq',
    if_pos (by simp)]
  congr 1
  refine Finset.sum_congr rfl fun j hj => ?_
  rw [Finset.sum_ite_eq', if_pos]
  have := hdeg j (mem_range.1 hj)
  simp; omega

/-- The blinding terms: value at each degree. -/
def BlRep (e : List (Option F)) (D : Nat) (f : Nat → F) : Prop :=
  e.length = D ∧ ∀ d < D, (e.getD d none).getD 0 = f d

theorem BlRep.set {e : List (Option F)} {D : Nat} {f : Nat → F} (h : BlRep e D f) (d : Nat) (hd : d < D)
    (v : F) (h0 : f d = 0) :
    BlRep (e.set d (some v)) D fun i => f i + if i = d then v else 0 := by
  refine ⟨by simp [h.1], fun i hi => ?_⟩
  have hlen : i < (e.set d (some v)).length := by rw [List.length_set, h.1]; exact hi
  rw [getD_of_lt _ _ _ hlen, List.getElem_set]
  by_cases hid : i = d
  · subst hid
    simp [h0]
  · have := h.2 i hi
    rw [getD_of_lt _ _ _ (by rw [h.1]; exact hi)] at this
    show _ = f i + if i = d then v else 0
    rw [if_neg (Ne.symm hid), this, if_neg hid, add_zero]

theorem BlRep.sets (deg : Nat → Nat) (vs : Nat → F) (k D : Nat) (hdeg : ∀ j < k, deg j < D)
    (hinj : ∀ i < k, ∀ j < k, deg i = deg j → i = j) {e : List (Option F)} {f : Nat → F}
    (h : BlRep e D f) (h0 : ∀ j < k, f (deg j) = 0) :
    BlRep ((List.range k).foldl (fun e j => e.set (deg j) (some (vs j))) e) D fun i =>
      f i + ∑ j ∈ range k, if i = deg j then vs j else 0 := by
  induction k with
  | zero => simpa using h
  | succ k ih =>
    rw [List.range_succ, List.foldl_append, List.foldl_cons, List.foldl_nil]
    have ih := ih (fun j hj => hdeg j (by omega)) (fun i hi j hj => hinj i (by omega) j (by omega))
      (fun j hj => h0 j (by omega))
    have := ih.set (deg k) (hdeg k (by omega)) (vs k) (by
      rw [h0 k (by omega), zero_add]
      apply Finset.sum_eq_zero
      intro j hj
      have hj := mem_range.1 hj
      rw [if_neg]
      intro he
      exact absurd (hinj k (by omega) j (by omega) he) (by omega))
    refine ⟨this.1, fun d hd => ?_⟩
    rw [this.2 d hd]
    dsimp only
    rw [Finset.sum_range_succ, add_assoc]

theorem eEval_eq (x : F) (e : List (Option F)) (acc : F) :
    eEval x e acc = ∑ d ∈ range e.length, acc * x ^ d * (e.getD d none).getD 0 := by
  induction e generalizing acc with
  | nil => simp [eEval]
  | cons a e ih =>
    simp only [eEval]
    rw [ih, List.length_cons, Finset.sum_range_succ', add_comm]
    congr 1
    · refine Finset.sum_congr rfl fun d _ => ?_
      rw [List.getD_cons_succ, pow_succ]; ring
    · cases a <;> simp

theorem eBl_eq (k : Nat) (bls : List F) (hk : bls.length = k) (ibl obl sbl x : F) :
    eEval x (eTerms (opDegree k) (opSplits (opDegree k)) ibl obl sbl bls) 1 =
      ∑ j ∈ range k, x ^ lDeg (opDegree k) (j + 2) * bls.getD j 0 +
      x ^ lDeg (opDegree k) 0 * ibl + x ^ lDeg (opDegree k) 1 * obl + x ^ (opDegree k + 1) * sbl := by
  obtain ⟨m, hm, hop, hk2⟩ := opDegree_pos k
  have hdl : ∀ j < 2 * m + 1, ((opSplits (2 * m)).getD j (0, 0)).1 = lDeg (2 * m) j := fun j hj => by
    rw [opSplits_getD m hm j hj]; rfl
  have hle : ∀ j, lDeg (2 * m) j ≤ 2 * m := fun j => Nat.sub_le _ _
  have hinj : ∀ i < 2 * m + 1, ∀ j < 2 * m + 1, lDeg (2 * m) i = lDeg (2 * m) j → i = j := by
    intro i hi j hj h
    have := slotR_le m i hm hi
    have := slotR_le m j hm hj
    unfold lDeg at h
    simp only [rDeg_eq] at h
    exact slotR_inj m i j hm (by omega)
  have hb : BlRep (eTerms (2 * m) (opSplits (2 * m)) ibl obl sbl bls) (2 * m + 2) fun i =>
      0 + (if i = lDeg (2 * m) 0 then ibl else 0) + (if i = lDeg (2 * m) 1 then obl else 0) +
        (∑ j ∈ range k, if i = lDeg (2 * m) (j + 2) then bls.getD j 0 else 0) +
        if i = 2 * m + 1 then sbl else 0 := by
    unfold eTerms
    simp only [getD_drop, Nat.add_comm 2 _, hk]
    rw [hdl 0 (by omega), hdl 1 (by omega)]
    have z : BlRep (List.replicate (2 * m + 2) (none : Option F)) (2 * m + 2) fun _ => 0 :=
      ⟨by simp, fun d hd => by rw [getD_replicate', if_pos hd]; rfl⟩
    have z1 := z.set (lDeg (2 * m) 0) (by have := hle 0; omega) ibl rfl
    have z2 := z1.set (lDeg (2 * m) 1) (by have := hle 1; omega) obl (by
      rw [if_neg, add_zero]
      intro h; have := hinj 1 (by omega) 0 (by omega) h; omega)
    have z3 := BlRep.sets (fun j => ((opSplits (2 * m)).getD (j + 2) (0, 0)).1) (fun j => bls.getD j 0) k
      (2 * m + 2) (fun j hj => by
        have := hdl (j + 2) (by omega); have := hle (j + 2)
        show ((opSplits (2 * m)).getD (j + 2) (0, 0)).1 < _
        omega)
      (fun i hi j hj h => by
        rw [hdl (i + 2) (by omega), hdl (j + 2) (by omega)] at h
        have := hinj (i + 2) (by omega) (j + 2) (by omega) h; omega) z2 (by
      intro j hj
      show (0 : F) + (if ((opSplits (2 * m)).getD (j + 2) (0, 0)).1 = lDeg (2 * m) 0 then ibl else 0) +
        (if ((opSplits (2 * m)).getD (j + 2) (0, 0)).1 = lDeg (2 * m) 1 then obl else 0) = 0
      rw [hdl (j + 2) (by omega), if_neg, if_neg]
      · simp
      · intro h; have := hinj _ (by omega) _ (by omega) h; omega
      · intro h; have := hinj _ (by omega) _ (by omega) h; omega)
    have z4 := z3.set (2 * m + 1) (by omega) sbl (by
      have h0 := hle 0
      have h1 := hle 1
      rw [if_neg (by omega), if_neg (by omega), Finset.sum_eq_zero]
      · simp
      · intro j hj
        have := mem_range.1 hj
        have := hle (j + 2)
        rw [hdl (j + 2) (by omega), if_neg (by omega)])
    refine ⟨z4.1, fun d hd => ?_⟩
    rw [z4.2 d hd]
    dsimp only
    congr 2
    refine Finset.sum_congr rfl fun j hj => ?_
    have := mem_range.1 hj
    rw [hdl (j + 2) (by omega)]
  rw [hop, eEval_eq, hb.1]
  have : ∀ d ∈ range (2 * m + 2), 1 * x ^ d *
      ((eTerms (2 * m) (opSplits (2 * m)) ibl obl sbl bls).getD d none).getD 0 =
      (if d = lDeg (2 * m) 0 then x ^ lDeg (2 * m) 0 * ibl else 0) +
      (if d = lDeg (2 * m) 1 then x ^ lDeg (2 * m) 1 * obl else 0) +
      (∑ j ∈ range k, if d = lDeg (2 * m) (j + 2) then x ^ lDeg (2 * m) (j + 2) * bls.getD j 0 else 0) +
      if d = 2 * m + 1 then x ^ (2 * m + 1) * sbl else 0 := by
    intro d hd
    rw [hb.2 d (mem_range.1 hd), one_mul]
    dsimp only
    rw [zero_add, mul_add, mul_add, mul_add, Finset.mul_sum]
    have key : ∀ (e : Nat) (v : F), x ^ d * (if d = e then v else 0) = if d = e then x ^ e * v else 0 := by
      intro e v
      split
      · rename_i h; rw [h]
      · rw [mul_zero]
    simp only [key]
  rw [Finset.sum_congr rfl this, Finset.sum_add_distrib, Finset.sum_add_distrib, Finset.sum_add_distrib,
    Finset.sum_comm]
  have hs : ∀ (e : Nat) (v : F), e < 2 * m + 2 → ∑ d ∈ range (2 * m + 2), (if d = e then v else 0) = v := by
    intro e v he
    rw [Finset.sum_ite_eq', if_pos (mem_range.2 he)]
  rw [hs _ _ (by have := hle 0; omega), hs _ _ (by have := hle 1; omega), hs _ _ (by omega),
    Finset.sum_congr rfl fun j hj => hs (lDeg (2 * m) (j + 2)) _ (by have := hle (j + 2); omega)]
  ring

end CT
