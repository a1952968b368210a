import Verif.Proofs.HonestTree
import Mathlib.Algebra.Order.Field.Basic
import Mathlib.Data.Rat.Lemmas
import Mathlib.Algebra.Order.Ring.Rat

/-! The points of an honest inner product argument are not the identity when the vector `a` is positive and the `G` generators are positive under a linear functional that
vanishes on the `H` generators and on `Q`. Used to show that the hypotheses of the theorems on trees of challenges are met. -/

namespace CT
variable {F G X : Type} [Field F] [LinearOrder F] [IsStrictOrderedRing F] [AddCommGroup G] [Module F G]

omit [LinearOrder F] [IsStrictOrderedRing F] in
theorem pi_msm_zero (π : G →ₗ[F] F) : ∀ (Ps : List G) (xs : List F), (∀ P ∈ Ps, π P = 0) → π (msm Ps xs) = 0
  | [], _, _ => by simp
  | _ :: _, [], _ => by simp
  | P :: Ps, x :: xs, h => by
    rw [msm_cons, map_add, map_smul, h P (by simp), pi_msm_zero π Ps xs (fun Q hQ => h Q (by simp [hQ]))]
    simp

theorem pi_msm_nonneg (π : G →ₗ[F] F) : ∀ (Ps : List G) (xs : List F), (∀ P ∈ Ps, 0 < π P) → (∀ x ∈ xs, 0 ≤ x) → 0 ≤ π (msm Ps xs)
  | [], _, _, _ => by simp
  | _ :: _, [], _, _ => by simp
  | P :: Ps, x :: xs, h, h' => by
    rw [msm_cons, map_add, map_smul, smul_eq_mul]
    exact add_nonneg (mul_nonneg (h' x (by simp)) (h P (by simp)).le) (pi_msm_nonneg π Ps xs (fun Q hQ => h Q (by simp [hQ])) (fun y hy => h' y (by simp [hy])))

theorem pi_msm_pos (π : G →ₗ[F] F) : ∀ (Ps : List G) (xs : List F), Ps.length = xs.length → (∀ P ∈ Ps, 0 < π P) → (∀ x ∈ xs, 0 ≤ x) → (∃ x ∈ xs, 0 < x) →
    0 < π (msm Ps xs)
  | _, [], _, _, _, he => by obtain ⟨x, hx, -⟩ := he; cases hx
  | [], _ :: _, hl, _, _, _ => by simp at hl
  | P :: Ps, x :: xs, hl, h, h', he => by
    rw [msm_cons, map_add, map_smul, smul_eq_mul]
    have hP := h P (by simp)
    obtain ⟨y, hy, hy0⟩ := he
    rcases List.mem_cons.1 hy with rfl | hy
    · exact add_pos_of_pos_of_nonneg (mul_pos hy0 hP) (pi_msm_nonneg π Ps xs (fun Q hQ => h Q (by simp [hQ])) (fun y hy => h' y (by simp [hy])))
    · exact add_pos_of_nonneg_of_pos (mul_nonneg (h' x (by simp)) hP.le)
        (pi_msm_pos π Ps xs (by simpa using hl) (fun Q hQ => h Q (by simp [hQ])) (fun y hy => h' y (by simp [hy])) ⟨y, hy, hy0⟩)

/-- The state of the argument, before a round that halves vectors of length `n + n`. -/
structure PositiveState (π : G →ₗ[F] F) (n : Nat) (s : IPPState F G X) : Prop where
  len : s.Len (n + n)
  gs : ∀ P ∈ s.gs, 0 < π P
  hs : ∀ P ∈ s.hs, π P = 0
  a : ∀ x ∈ s.a, 0 ≤ x
  low : ∀ x ∈ s.a.take n, 0 < x
  high : ∃ x ∈ s.a.drop n, 0 < x

theorem PositiveState.cross {π : G →ₗ[F] F} {n : Nat} {s : IPPState F G X} (h : PositiveState π n s) (hn : 0 < n) {Q : G} (hQ : π Q = 0) :
    (ippCross Q n s).1 ≠ 0 ∧ (ippCross Q n s).2 ≠ 0 := by
  obtain ⟨l1, l2, l3, l4⟩ := h.len
  have key : ∀ (Ps Hs : List G) (xs bs : List F) (c : F), Ps.length = xs.length → Hs.length = bs.length → (∀ P ∈ Ps, P ∈ s.gs) → (∀ P ∈ Hs, P ∈ s.hs) → (∀ x ∈ xs, x ∈ s.a) →
      (∃ x ∈ xs, 0 < x) → msm (Ps ++ Hs ++ [Q]) (xs ++ bs ++ [c]) ≠ 0 := by
    intro Ps Hs xs bs c e1 e2 m1 m2 m3 he h0
    have h1 := congrArg π h0
    rw [msm_append _ _ _ _ (by simp [e1, e2]), msm_append _ _ _ _ e1, map_add, map_add, pi_msm_zero π Hs bs (fun P hP => h.hs P (m2 P hP)),
      pi_msm_zero π [Q] [c] (by simpa using hQ), map_zero, add_zero, add_zero] at h1
    exact (pi_msm_pos π Ps xs e1 (fun P hP => h.gs P (m1 P hP)) (fun x hx => h.a x (m3 x hx)) he).ne' h1
  constructor
  · refine key _ _ _ _ _ (by simp; omega) (by simp; omega) (fun P hP => List.mem_of_mem_drop hP) (fun P hP => List.mem_of_mem_take hP) (fun x hx => List.mem_of_mem_take hx) ?_
    have hlt : 0 < (s.a.take n).length := by simp; omega
    exact ⟨_, List.getElem_mem hlt, h.low _ (List.getElem_mem hlt)⟩
  · exact key _ _ _ _ _ (by simp; omega) (by simp; omega) (fun P hP => List.mem_of_mem_take hP) (fun P hP => List.mem_of_mem_drop hP) (fun x hx => List.mem_of_mem_drop hx) h.high

theorem mem_zipWith {α β γ : Type} {f : α → β → γ} : ∀ {l : List α} {m : List β} {c : γ}, c ∈ List.zipWith f l m → ∃ a ∈ l, ∃ b ∈ m, c = f a b
  | [], _, _, h => by simp at h
  | _ :: _, [], _, h => by simp at h
  | a :: l, b :: m, c, h => by
    rw [List.zipWith_cons_cons, List.mem_cons] at h
    rcases h with rfl | h
    · exact ⟨a, by simp, b, by simp, rfl⟩
    · obtain ⟨a', ha, b', hb, e⟩ := mem_zipWith h
      exact ⟨a', by simp [ha], b', by simp [hb], e⟩

theorem PositiveState.fold {π : G →ₗ[F] F} {n : Nat} {s : IPPState F G X} (h : PositiveState π (n + n) s) (hn : 0 < n) {u : F} (hu : 0 < u) :
    PositiveState π n (ippFold (n + n) u s []) := by
  have hl := ippFold_len (n + n) u [] h.len
  have hui : 0 < u⁻¹ := inv_pos.2 hu
  have ha : ∀ x ∈ (ippFold (n + n) u s []).a, 0 < x := by
    intro x hx
    obtain ⟨l, hl, r, hr, rfl⟩ := mem_zipWith hx
    exact add_pos_of_pos_of_nonneg (mul_pos (h.low l hl) hu) (mul_nonneg hui.le (h.a r (List.mem_of_mem_drop hr)))
  refine ⟨hl, ?_, ?_, fun x hx => (ha x hx).le, fun x hx => ha x (List.mem_of_mem_take hx), ?_⟩
  · intro P hP
    obtain ⟨A, hA, B, hB, rfl⟩ := mem_zipWith hP
    have h1 := h.gs A (List.mem_of_mem_take hA)
    have h2 := h.gs B (List.mem_of_mem_drop hB)
    simp only [msm_cons, msm_nil, add_zero, map_add, map_smul, smul_eq_mul]
    exact add_pos (mul_pos hui h1) (mul_pos hu h2)
  · intro P hP
    obtain ⟨A, hA, B, hB, rfl⟩ := mem_zipWith hP
    simp only [msm_cons, msm_nil, add_zero, map_add, map_smul, smul_eq_mul, h.hs A (List.mem_of_mem_take hA), h.hs B (List.mem_of_mem_drop hB), mul_zero]
  · have hlt : 0 < ((ippFold (n + n) u s []).a.drop n).length := by
      have := hl.2.2.1
      simp; omega
    exact ⟨_, List.getElem_mem hlt, ha _ (List.mem_of_mem_drop (List.getElem_mem hlt))⟩

/-- No point of the argument is the identity. -/
theorem PositiveState.honest {π : G →ₗ[F] F} {Q : G} (hQ : π Q = 0) : ∀ (k : Nat) {s : IPPState F G X} {us : List F}, PositiveState π (2 ^ k) s → us.length = k + 1 → (∀ u ∈ us, 0 < u) →
    (∀ P ∈ (honestIPP Q (k + 1) s us).L, P ≠ 0) ∧ ∀ P ∈ (honestIPP Q (k + 1) s us).R, P ≠ 0 := by
  intro k
  induction k with
  | zero =>
    intro s us h hl _
    obtain ⟨u, rfl⟩ := List.length_eq_one_iff.1 hl
    rw [honestIPP_cons]
    have := h.cross (by simp) hQ
    constructor
    · intro P hP
      simp only [honestIPP, List.length_nil, List.range_zero, List.map_nil, List.mem_singleton] at hP
      rw [hP]; exact this.1
    · intro P hP
      simp only [honestIPP, List.length_nil, List.range_zero, List.map_nil, List.mem_singleton] at hP
      rw [hP]; exact this.2
  | succ k ih =>
    intro s us h hl hu
    obtain ⟨u, us, rfl⟩ := List.exists_cons_of_length_eq_add_one hl
    rw [honestIPP_cons]
    have hc := h.cross (by positivity) hQ
    rw [pow_succ, mul_two] at h
    have h' := ih (h.fold (by positivity) (hu u (by simp))) (by simpa using hl) (fun v hv => hu v (by simp [hv]))
    rw [← mul_two, ← pow_succ] at h'
    constructor
    · intro P hP
      rcases List.mem_cons.1 hP with rfl | hP
      · exact hc.1
      · exact h'.1 P hP
    · intro P hP
      rcases List.mem_cons.1 hP with rfl | hP
      · exact hc.2
      · exact h'.2 P hP

omit [Field F] [LinearOrder F] [IsStrictOrderedRing F] in
theorem InPaths.mem {Cs : List F → Finset F} {S : Finset F} (hC : ∀ pre, Cs pre = S) : ∀ {us pre : List F}, InPaths Cs pre us → ∀ u ∈ us, u ∈ S
  | [], _, _, _, hu => by cases hu
  | v :: us, pre, h, u, hu => by
    rcases List.mem_cons.1 hu with rfl | hu
    · rw [← hC pre]; exact h.1
    · exact InPaths.mem hC h.2 u hu

end CT
