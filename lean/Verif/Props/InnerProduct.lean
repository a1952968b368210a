import Verif.Proofs.IPP
import Mathlib.Algebra.Field.Rat
import Mathlib.Tactic.NormNum

/-! # C06 and C07: the inner product argument -/

namespace CT
open Finset
variable {F G X : Type} [Field F] [DecidableEq F] [AddCommGroup G] [Module F G] [DecidableEq G]
variable (o : Oracle F G X)

/-- **C06.** For vectors of one power-of-two length `2^k` (below the limit of `2^32` hard-wired in the
verifier) `create` either stops on a zero challenge or returns a proof; the proof verifies for the
point of the relation unless one of its points is the identity. -/
theorem C06_inner_product_complete (k : Nat) (hk : k < 32) (P Q : G) (Gf Hf : List F) (Gs Hs : List G)
    (a b : List F) (t : Transcript F G X)
    (hG : Gs.length = 2 ^ k) (hH : Hs.length = 2 ^ k) (ha : a.length = 2 ^ k) (hb : b.length = 2 ^ k)
    (hGf : Gf.length = 2 ^ k) (hHf : Hf.length = 2 ^ k)
    (hP : InnerProductRelation (2 ^ k) P Q Gf Hf Gs Hs a b) :
    ippCreate o Q Gf Hf Gs Hs a b t = .error (.panic "u challenge is zero") ∨
    ∃ p t', ippCreate o Q Gf Hf Gs Hs a b t = .ok (p, t') ∧ p.L.length = k ∧ p.R.length = k ∧
      ((∀ x ∈ p.L, x ≠ 0) → (∀ x ∈ p.R, x ≠ 0) →
        ippVerify o p (2 ^ k) t Gf Hf P Q Gs Hs = .ok ()) := by
  rcases ippCreate_total o Q k Gf Hf Gs Hs a b t hG hH ha hb hGf hHf with ⟨⟨p, t'⟩, hc⟩ | h
  swap
  · exact .inl h
  right
  obtain ⟨us, h1, h2, h3, h4, h5, h6⟩ := ippCreate_spec o Q k Gf Hf Gs Hs a b t hG hc
  refine ⟨p, t', hc, h2, h3, fun hL hR => ?_⟩
  have hch := verificationScalars_ok o p k t t' us hk h2 h1 (h5 hL hR)
  unfold ippVerify
  rw [hch]
  simp only [bind, Except.bind]
  rw [ippVerify_eq Q p k us Gf Hf Gs Hs h1 h2 hG hH hGf hHf, if_pos]
  simp only at h6
  rw [← h6, hP, msm_eq _ _ (2 ^ k) (Or.inr ha.le), msm_eq _ _ (2 ^ k) (Or.inr hb.le),
    innerProduct_eq _ _ (2 ^ k) (Or.inl ha.le)]
  have e : ∀ (fs : List F) (gs : List G) (x : List F), fs.length = 2 ^ k → gs.length = 2 ^ k →
      ∑ i ∈ range (2 ^ k), x.getD i 0 • (List.zipWith (fun f g => f • g) fs gs).getD i 0 =
      ∑ i ∈ range (2 ^ k), (x.getD i 0 * fs.getD i 0) • gs.getD i 0 := by
    intro fs gs x h1 h2
    refine Finset.sum_congr rfl fun i hi => ?_
    have hi := Finset.mem_range.1 hi
    rw [getD_zipWith _ _ _ _ 0 0, if_pos (by omega), smul_smul]
  rw [e _ _ _ hGf hG, e _ _ _ hHf hH]
  abel

/-- The hypotheses of `C06_inner_product_complete` can be met: two elements over the rationals,
`G = H = Q = ℚ`, challenges all `2`. -/
example : InnerProductRelation (F := ℚ) (2 ^ 1) (115 : ℚ) 1 [1, 1] [1, 3] [1, 2] [5, 7] [1, 2] [3, 4] ∧
    ∃ p t', ippCreate (fun _ => 2 : Oracle ℚ ℚ Unit) 1 [1, 1] [1, 3] [1, 2] [5, 7] [1, 2] [3, 4] [] =
    .ok (p, t') ∧ ippVerify (fun _ => 2 : Oracle ℚ ℚ Unit) p 2 [] [1, 1] [1, 3] 115 1 [1, 2] [5, 7] =
      .ok () := by
  refine ⟨by simp [InnerProductRelation, Finset.sum_range_succ]; norm_num, ?_⟩
  have hlog : Nat.log2 2 = 1 := by decide
  have hlog1 : Nat.log2 1 = 0 := by decide
  refine ⟨⟨[26], [71], 3, 19 / 2⟩, [.sep "ipp v1", .num "n" 2, .point "L" 26, .point "R" 71, .chal "u"],
    ?_, ?_⟩
  · simp [ippCreate, isPow2, hlog, ippFirstRound, challengeScalar, ippLoop, ippFirstFold, ippFirstCross,
      msm, innerProduct, List.take]
    norm_num
  · simp [ippVerify, verificationScalars, ippChallenges, validateAndAppendPoint, challengeScalar, bind,
      Except.bind, pure, Except.pure, msm, ippS, hlog1, List.take]
    norm_num

omit [DecidableEq F] [Module F G] in
/-- **C07**, the scalars: whenever `verification_scalars` succeeds on a proof with as many `R` as `L`
points, the challenges are those of the transcript, `n = 2^|L|`, the first two vectors are `u^2` and
`u^-2`, entry `i` of the third is the product of `u_j` or `u_j^-1` according to bit `k-1-j` of `i`. -/
theorem C07_scalars (p : IPP F G) (n : Nat) (t t' : Transcript F G X) (usq uisq s : List F)
    (hLR : p.L.length = p.R.length)
    (h : verificationScalars o p n t = .ok ((usq, uisq, s), t')) :
    n = 2 ^ p.L.length ∧ s.length = n ∧ ∃ us : List F, us.length = p.L.length ∧
      usq = us.map (· ^ 2) ∧ uisq = us.map (·⁻¹ ^ 2) ∧
      (∀ i < n, s.getD i 0 = ∏ j ∈ range us.length,
        (if i.testBit (us.length - 1 - j) then us.getD j 0 else (us.getD j 0)⁻¹)) ∧
      ((∀ u ∈ us, u ≠ 0) → ∀ i < n, s.getD i 0 * s.getD (n - 1 - i) 0 = 1) := by
  unfold verificationScalars at h
  simp only at h
  split at h
  · simp at h
  rename_i h32
  split at h
  · simp at h
  rename_i hn
  push Not at hn
  subst hn
  cases hc : ippChallenges o (p.L.zip p.R) (t ++ [.sep "ipp v1", .num "n" (2 ^ p.L.length)]) with
  | error e => rw [hc] at h; simp [bind, Except.bind] at h
  | ok r =>
    obtain ⟨us, t''⟩ := r
    have hu : us.length = p.L.length := by
      rw [ippChallenges_length _ _ _ _ _ hc]; simp [List.length_zip, hLR]
    have hv := verificationScalars_ok o p p.L.length t t'' us (by omega) rfl hu hc
    have hv' : verificationScalars o p (2 ^ p.L.length) t = .ok ((usq, uisq, s), t') := by
      unfold verificationScalars
      simp only [if_neg h32, ne_eq, not_true_eq_false, if_false]
      exact h
    rw [hv'] at hv
    simp only [Except.ok.injEq, Prod.mk.injEq] at hv
    obtain ⟨⟨rfl, rfl, rfl⟩, rfl⟩ := hv
    refine ⟨rfl, by rw [sVec_length, hu], us, hu, by simp [pow_two], by simp [pow_two], ?_, ?_⟩
    · intro i hi
      exact sVec_bits us i (by rw [hu]; exact hi)
    · intro hne i hi
      rw [← hu] at hi ⊢
      have e : (sVec us).getD (2 ^ us.length - 1 - i) 0 = (sVec us).reverse.getD i 0 := by
        rw [getD_reverse' _ _ _ (by rw [sVec_length]; exact hi), sVec_length]
      rw [e, sVec_reverse, sVec_bits us i hi,
        sVec_bits (us.map (·⁻¹)) i (by simpa using hi), List.length_map, ← Finset.prod_mul_distrib]
      apply Finset.prod_eq_one
      intro j hj
      have hj := Finset.mem_range.1 hj
      have hne' : us.getD j 0 ≠ 0 := by
        rw [getD_of_lt _ _ _ hj]; exact hne _ (List.getElem_mem _)
      rw [getD_map' _ _ _ 0, if_pos hj]
      split
      · exact mul_inv_cancel₀ hne'
      · rw [inv_inv]; exact inv_mul_cancel₀ hne'

omit [DecidableEq F] in
/-- **C07.** For a proof with as many `R` as `L` points and vectors of length `n = 2^|L|`, the
one-shot check accepts exactly when the round-by-round verifier accepts. -/
theorem C07_one_shot_iff_round_by_round (p : IPP F G) (k : Nat) (hk : k < 32) (t : Transcript F G X)
    (Gf Hf : List F) (P Q : G) (Gs Hs : List G) (hL : p.L.length = k) (hR : p.R.length = k)
    (hG : Gs.length = 2 ^ k) (hH : Hs.length = 2 ^ k) (hGf : Gf.length = 2 ^ k)
    (hHf : Hf.length = 2 ^ k) :
    ippVerify o p (2 ^ k) t Gf Hf P Q Gs Hs = .ok () ↔
      RoundByRound o Q p.a p.b (p.L.zip p.R) (t ++ [.sep "ipp v1", .num "n" (2 ^ k)]) P
        (List.zipWith (fun f g => f • g) Gf Gs) (List.zipWith (fun f g => f • g) Hf Hs) := by
  have hz : (p.L.zip p.R).length = k := by simp [List.length_zip, hL, hR]
  rw [roundByRound_iff o Q p.a p.b _ _ _ _ _ (by simp [List.length_zipWith, hz, hG, hGf])
    (by simp [List.length_zipWith, hz, hH, hHf]), List.map_fst_zip (by omega),
    List.map_snd_zip (by omega)]
  unfold ippVerify
  constructor
  · intro h
    cases hc : ippChallenges o (p.L.zip p.R) (t ++ [.sep "ipp v1", .num "n" (2 ^ k)]) with
    | error e =>
      exfalso
      unfold verificationScalars at h
      simp only [hL, if_neg (show ¬ k ≥ 32 by omega), ne_eq, not_true_eq_false, if_false, hc, bind,
        Except.bind] at h
      simp at h
    | ok r =>
      obtain ⟨us, t'⟩ := r
      have hu : us.length = k := by rw [ippChallenges_length _ _ _ _ _ hc, hz]
      refine ⟨us, t', rfl, ?_⟩
      rw [verificationScalars_ok o p k t t' us hk hL hu hc] at h
      simp only [bind, Except.bind] at h
      rw [ippVerify_eq Q p k us Gf Hf Gs Hs hu hL hG hH hGf hHf] at h
      split at h
      · rename_i e
        rw [← e]; abel
      · simp at h
  · rintro ⟨us, t', hc, e⟩
    have hu : us.length = k := by rw [ippChallenges_length _ _ _ _ _ hc, hz]
    rw [verificationScalars_ok o p k t t' us hk hL hu hc]
    simp only [bind, Except.bind]
    rw [ippVerify_eq Q p k us Gf Hf Gs Hs hu hL hG hH hGf hHf, if_pos]
    rw [← e]; abel

omit [DecidableEq F] in
/-- A length other than `2^|L|` is refused. -/
theorem C07_wrong_length_refused (p : IPP F G) (n : Nat) (t : Transcript F G X)
    (Gf Hf : List F) (P Q : G) (Gs Hs : List G) (h : n ≠ 2 ^ p.L.length) :
    ippVerify o p n t Gf Hf P Q Gs Hs = .error .verificationError := by
  unfold ippVerify verificationScalars
  simp only [if_pos h]
  split <;> rfl

/-- Both directions of `C07_one_shot_iff_round_by_round` are inhabited: the one-round proof with
`L = R = 1`, `a = b = 1` over the rationals (challenge 2, all generators 1, `Q = 1`) is accepted for
one `P` and refused for another. -/
example : RoundByRound (fun _ => 2 : Oracle ℚ ℚ Unit) 1 1 1 [(1, 1)] [] (7 / 4) [1, 1] [1, 1] ∧
    ¬ RoundByRound (fun _ => 2 : Oracle ℚ ℚ Unit) 1 1 1 [(1, 1)] [] 3 [1, 1] [1, 1] := by
  constructor <;> simp [RoundByRound, halve, List.range_succ] <;> norm_num

end CT
