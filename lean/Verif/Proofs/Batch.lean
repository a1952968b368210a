import Verif.Proofs.Exact

/-! `batch_verify` checks a random combination of the individual checks. -/

namespace CT
open Finset
variable {F G X : Type} [Field F] [AddCommGroup G] [Module F G]

/-- A tuple as `verification_scalars_and_points` produces it for a circuit of padded size `N`. -/
structure Tuple.Sized (v : Tuple F G) (N : Nat) : Prop where
  points : v.points.length = v.scalars.length
  fixed : v.fixed.length = 2 + 2 * N

/-- The value of the multi-scalar multiplication of a single tuple. -/
def Tuple.value (g : Gens G) (N : Nat) (v : Tuple F G) : G :=
  msm (v.points ++ ([g.pc.B, g.pc.Bbl] ++ g.Gs.take N ++ g.Hs.take N)) (v.scalars ++ v.fixed)

theorem msm_scale (gs : List G) (ss : List F) (r : F) : msm gs (ss.map (· * r)) = r • msm gs ss := by
  unfold msm
  rw [List.zipWith_map_right, List.smul_sum]
  congr 1
  rw [List.map_zipWith]
  congr 1
  funext g s
  rw [smul_smul, mul_comm]

theorem msm_add (gs : List G) (a b : List F) (h : a.length = b.length) :
    msm gs (List.zipWith (· + ·) a b) = msm gs a + msm gs b := by
  induction gs generalizing a b with
  | nil => simp [msm]
  | cons g gs ih =>
    cases a with
    | nil => cases b with
      | nil => simp [msm]
      | cons => simp at h
    | cons x a =>
      cases b with
      | nil => simp at h
      | cons y b =>
        simp only [List.length_cons, Nat.add_right_cancel_iff] at h
        simp only [List.zipWith_cons_cons, msm_cons, ih a b h, add_smul]
        abel

/-- The weighted sum of the values of the tuples after the first. -/
def weighted (g : Gens G) (N : Nat) : List (Tuple F G) → List F → G
  | v :: vs, r :: rs => r • v.value g N + weighted g N vs rs
  | _, _ => 0

theorem batchAccum_value (g : Gens G) (N : Nat) (vs : List (Tuple F G)) (rs : List F) (acc : Tuple F G)
    (ha : acc.Sized N) (hv : ∀ v ∈ vs, v.Sized N) :
    (batchAccum vs rs acc).Sized N ∧
    (batchAccum vs rs acc).value g N = acc.value g N + weighted g N vs rs := by
  induction vs generalizing rs acc with
  | nil => cases rs <;> simp [batchAccum, weighted, ha]
  | cons v vs ih =>
    cases rs with
    | nil => simp [batchAccum, weighted, ha]
    | cons r rs =>
      have hs := hv v (by simp)
      have hf : acc.fixed.length = (v.fixed.map (· * r)).length := by rw [List.length_map, ha.fixed, hs.fixed]
      have ha' : (Tuple.mk (acc.points ++ v.points) (acc.scalars ++ v.scalars.map (· * r))
          (List.zipWith (· + ·) acc.fixed (v.fixed.map (· * r)))).Sized N := by
        refine ⟨by simp [ha.points, hs.points], ?_⟩
        simp only [List.length_zipWith, ← hf, min_self]
        exact ha.fixed
      obtain ⟨h1, h2⟩ := ih rs _ ha' (fun w hw => hv w (by simp [hw]))
      refine ⟨h1, ?_⟩
      rw [batchAccum, h2]
      simp only [weighted, Tuple.value]
      rw [msm_append _ _ _ _ ha'.points, msm_append _ _ _ _ ha.points, msm_append _ _ _ _ hs.points,
        msm_append _ _ _ _ ha.points, msm_add _ _ _ hf, msm_scale, msm_scale, smul_add]
      abel

section
variable [DecidableEq G]

theorem checkTuple_value (g : Gens G) (N : Nat) (v : Tuple F G) (h : v.Sized N) :
    checkTuple g v = if g.capacity < N then .error .invalidGeneratorsLength
      else if v.value g N ≠ 0 then .error .verificationError else .ok () := by
  have : (v.fixed.length - 2) / 2 = N := by rw [h.fixed]; omega
  unfold checkTuple Tuple.value
  rw [this]

theorem batchVerify_value (g : Gens G) (N : Nat) (v : Tuple F G) (vs : List (Tuple F G)) (rs : List F)
    (hv : ∀ w ∈ v :: vs, w.Sized N) :
    batchVerify g rs (v :: vs) = if g.capacity < N then .error .invalidGeneratorsLength
      else if v.value g N + weighted g N vs rs ≠ 0 then .error .verificationError else .ok () := by
  have h0 := hv v (by simp)
  have : (v.fixed.length - 2) / 2 = N := by rw [h0.fixed]; omega
  have h := batchAccum_value g N vs rs v h0 (fun w hw => hv w (by simp [hw]))
  rw [← h.2]
  show checkBatch g ((v.fixed.length - 2) / 2) (batchAccum vs rs v) = _
  rw [this]
  rfl

omit [DecidableEq G] in
theorem weighted_zero (g : Gens G) (N : Nat) (vs : List (Tuple F G)) (rs : List F)
    (h : ∀ v ∈ vs, v.value g N = 0) : weighted g N vs rs = 0 := by
  induction vs generalizing rs with
  | nil => simp [weighted]
  | cons v vs ih =>
    cases rs with
    | nil => simp [weighted]
    | cons r rs =>
      rw [weighted, h v (by simp), ih rs (fun w hw => h w (by simp [hw]))]; simp

omit [DecidableEq G] in
theorem weighted_set (g : Gens G) (N : Nat) (vs : List (Tuple F G)) (rs : List F) (j : Nat)
    (hj : j < vs.length) (hl : vs.length ≤ rs.length) (c c' : F) :
    weighted g N vs (rs.set j c) - weighted g N vs (rs.set j c') = (c - c') • vs[j].value g N := by
  induction vs generalizing rs j with
  | nil => simp at hj
  | cons v vs ih =>
    cases rs with
    | nil => simp at hl
    | cons r rs =>
      cases j with
      | zero => simp [weighted, sub_smul]
      | succ j =>
        simp only [List.set_cons_succ, weighted, List.getElem_cons_succ]
        rw [← ih rs j (by simpa using hj) (by simpa using hl)]
        abel
end

variable [DecidableEq F] [DecidableEq G]

/-- Tuples of proofs with as many `R` as `L` points are well sized. -/
theorem verificationTuple_sized {o : Oracle F G X} {r : F} {p : R1CSProof F G} {t : VState F G X}
    {v : Tuple F G} (hLR : p.ipp.L.length = p.ipp.R.length) (h : verificationTuple o r p t = .ok v) :
    v.Sized (2 ^ p.ipp.L.length) := by
  rw [verificationTuple_eq, verifyHead_eq] at h
  by_cases h0 : p.AI1 = 0 ∨ p.AO1 = 0 ∨ p.S1 = 0
  · rw [if_pos h0] at h; simp at h
  rw [if_neg h0] at h
  cases h2 : t.secondPhase o p.AI1 p.AO1 p.S1 with
  | error e => rw [h2] at h; simp at h
  | ok t2 =>
    rw [h2] at h
    simp only [VState.pad_size] at h
    rcases verifyTail_cases o p t.size t2 hLR with ⟨e, he⟩ | ⟨tr, wt, us, t', hT, hw, hus, hN, h32, hy, hc, hok⟩
    · rw [he r] at h; simp at h
    · rw [hok r] at h
      simp only [Except.ok.injEq] at h
      subst h
      have hwt := (flattenLoop_apply (Weights.zero_shape _ _ _) hw ⟨0, 0, 0, 0, 0⟩).1
      have hsz : t2.size ≤ 2 ^ p.ipp.L.length := ((nextPow2_iff _ _).1 hN).1
      have hmono := createRandomized_mono h2
      have hn1 : t.size ≤ t2.size := by
        rw [← VState.pad_size]; exact VState.size_mono hmono.1 hmono.2.1
      have hgl := gScalars_length
        (tailChals o r p t2 tr (us.map fun u => u * u) (us.map fun u => u⁻¹ * u⁻¹) (sVec us))
        t.size t2.size (2 ^ p.ipp.L.length) t2.numVars (opDegree t2.vecComms.length) wt p.ipp.a hn1
        hsz hwt.wR (le_trans t2.numVars_le_size hsz) (by simp only [tailChals]; rw [sVec_length, hus])
      rw [hN]
      refine ⟨by simp [buildTuple, hwt.wV, tailChals, hus, hLR], ?_⟩
      simp only [buildTuple, List.length_append, hgl, List.length_cons, List.length_nil, hScalars,
        List.length_map, List.length_range]
      omega

end CT
