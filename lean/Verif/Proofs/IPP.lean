import Verif.Proofs.Lists
import Verif.Spec.InnerProduct
import Mathlib.Data.Nat.Log
import Mathlib.Tactic.FieldSimp

/-! Inner product argument: folding identity, the scalars `s`, completeness. -/

namespace CT

open Finset

variable {F G X : Type} [Field F] [AddCommGroup G] [Module F G]

/-- The folding identity of one round. -/
theorem fold_identity (m : Nat) (u : F) (hu : u ≠ 0) (aL aR bL bR : Nat → F) (gL gR hL hR : Nat → G)
    (Q : G) :
    (u * u) • (∑ i ∈ range m, aL i • gR i + ∑ i ∈ range m, bR i • hL i +
        (∑ i ∈ range m, aL i * bR i) • Q) +
      (u⁻¹ * u⁻¹) • (∑ i ∈ range m, aR i • gL i + ∑ i ∈ range m, bL i • hR i +
        (∑ i ∈ range m, aR i * bL i) • Q) +
      (∑ i ∈ range m, aL i • gL i + ∑ i ∈ range m, aR i • gR i) +
      (∑ i ∈ range m, bL i • hL i + ∑ i ∈ range m, bR i • hR i) +
      (∑ i ∈ range m, aL i * bL i + ∑ i ∈ range m, aR i * bR i) • Q =
    ∑ i ∈ range m, (aL i * u + u⁻¹ * aR i) • (u⁻¹ • gL i + u • gR i) +
      ∑ i ∈ range m, (bL i * u⁻¹ + u * bR i) • (u • hL i + u⁻¹ • hR i) +
      (∑ i ∈ range m, (aL i * u + u⁻¹ * aR i) * (bL i * u⁻¹ + u * bR i)) • Q := by
  have h1 : u * u⁻¹ = 1 := mul_inv_cancel₀ hu
  induction m with
  | zero => simp
  | succ m ih =>
    simp only [Finset.sum_range_succ]
    have step : ∀ (A1 A2 A3 B1 B2 B3 C1 C2 D1 D2 E1 E2 : G) (k1 k2 k3 k4 k5 : F),
        (u * u) • (A1 + A2 + k1 • Q) + (u⁻¹ * u⁻¹) • (B1 + B2 + k2 • Q) + (C1 + C2) + (D1 + D2) +
          (k3 + k4) • Q = E1 + E2 + k5 • Q →
        (u * u) • (A1 + aL m • gR m + (A2 + bR m • hL m) + (k1 + aL m * bR m) • Q) +
          (u⁻¹ * u⁻¹) • (B1 + aR m • gL m + (B2 + bL m • hR m) + (k2 + aR m * bL m) • Q) +
          (C1 + aL m • gL m + (C2 + aR m • gR m)) + (D1 + bL m • hL m + (D2 + bR m • hR m)) +
          (k3 + aL m * bL m + (k4 + aR m * bR m)) • Q =
        E1 + (aL m * u + u⁻¹ * aR m) • (u⁻¹ • gL m + u • gR m) +
          (E2 + (bL m * u⁻¹ + u * bR m) • (u • hL m + u⁻¹ • hR m)) +
          (k5 + (aL m * u + u⁻¹ * aR m) * (bL m * u⁻¹ + u * bR m)) • Q := by
      intro A1 A2 A3 B1 B2 B3 C1 C2 D1 D2 E1 E2 k1 k2 k3 k4 k5 h
      have e : E1 = (u * u) • (A1 + A2 + k1 • Q) + (u⁻¹ * u⁻¹) • (B1 + B2 + k2 • Q) + (C1 + C2) +
          (D1 + D2) + (k3 + k4) • Q - E2 - k5 • Q := by rw [h]; abel
      rw [e]
      match_scalars <;> (try field_simp) <;> (try ring)
    exact step _ _ 0 _ _ 0 _ _ _ _ _ _ _ _ _ _ _ ih

/-- The scalars `s` by recursion over the challenges (first challenge = highest bit of the index). -/
def sVec : List F → List F
  | [] => [1]
  | u :: us => (sVec us).map (u⁻¹ * ·) ++ (sVec us).map (u * ·)

theorem sVec_length (us : List F) : (sVec us).length = 2 ^ us.length := by
  induction us with
  | nil => rfl
  | cons u us ih => simp [sVec, ih, pow_succ]; omega

theorem sVec_reverse (us : List F) : (sVec us).reverse = sVec (us.map (·⁻¹)) := by
  induction us with
  | nil => rfl
  | cons u us ih =>
    simp only [sVec, List.reverse_append, ← List.map_reverse, ih, List.map_cons, inv_inv]

theorem sVec_double_reverse (c : List F) (u : F) :
    (c.map (u⁻¹ * ·) ++ c.map (u * ·)).reverse =
      c.reverse.map (u * ·) ++ c.reverse.map (u⁻¹ * ·) := by
  simp [List.map_reverse]

variable [DecidableEq F]

/-- All vectors of the state have length `n`. -/
def IPPState.Len (s : IPPState F G X) (n : Nat) : Prop :=
  s.gs.length = n ∧ s.hs.length = n ∧ s.a.length = n ∧ s.b.length = n

omit [DecidableEq F] in
theorem msm_take_add_drop (gs : List G) (ss : List F) (m : Nat) (h : gs.length = m + m) :
    msm gs ss = ∑ i ∈ range m, ss.getD i 0 • gs.getD i 0 +
      ∑ i ∈ range m, ss.getD (m + i) 0 • gs.getD (m + i) 0 := by
  rw [msm_eq _ _ (m + m) (by omega), sum_range_double]

omit [DecidableEq F] in
theorem innerProduct_take_add_drop (a b : List F) (m : Nat) (h : a.length = m + m) :
    innerProduct a b = ∑ i ∈ range m, a.getD i 0 * b.getD i 0 +
      ∑ i ∈ range m, a.getD (m + i) 0 * b.getD (m + i) 0 := by
  rw [innerProduct_eq _ _ (m + m) (by omega), sum_range_double]

omit [DecidableEq F] in
/-- The two-element multi-scalar product. -/
theorem msm_two (g h : G) (a b : F) : msm [g, h] [a, b] = a • g + b • h := by simp

omit [DecidableEq F] in
/-- Cross terms `<x_first, G_second> + <y_second, H_first> + c Q`. -/
theorem msm_three (g1 g2 : List G) (s1 s2 : List F) (Q : G) (c : F) (m : Nat)
    (h1 : g1.length = m) (h2 : s1.length = m) (h3 : g2.length = m) (h4 : s2.length = m) :
    msm (g1 ++ g2 ++ [Q]) (s1 ++ s2 ++ [c]) =
      ∑ i ∈ range m, s1.getD i 0 • g1.getD i 0 + ∑ i ∈ range m, s2.getD i 0 • g2.getD i 0 + c • Q := by
  rw [msm_append _ _ _ _ (by simp; omega), msm_append _ _ _ _ (by omega), msm_eq _ _ m (by omega),
    msm_eq _ _ m (by omega)]
  simp

/-- What a round does, in terms of the folded generators. -/
structure RoundSpec (o : Oracle F G X) (Q : G) (m : Nat) (gs hs : List G) (s : IPPState F G X)
    (L R : G) (u : F) (s' : IPPState F G X) : Prop where
  ne : u ≠ 0
  len : s'.Len m
  chal : challengeScalar o (s.t ++ [.point "L" L, .point "R" R]) "u" = (u, s'.t)
  fold : (u * u) • L + (u⁻¹ * u⁻¹) • R + msm gs s.a + msm hs s.b + innerProduct s.a s.b • Q =
    msm s'.gs s'.a + msm s'.hs s'.b + innerProduct s'.a s'.b • Q
  gens : ∀ c : List F, c.length = m → msm s'.gs c = msm gs (c.map (u⁻¹ * ·) ++ c.map (u * ·))
  hens : ∀ c : List F, c.length = m → msm s'.hs c = msm hs (c.map (u * ·) ++ c.map (u⁻¹ * ·))

omit [DecidableEq F] in
theorem unfold_gens (gs gs' : List G) (m : Nat) (p q : F) (h : gs.length = m + m)
    (h' : gs'.length = m)
    (e : ∀ i < m, gs'.getD i 0 = p • gs.getD i 0 + q • gs.getD (m + i) 0) (c : List F)
    (hc : c.length = m) : msm gs' c = msm gs (c.map (p * ·) ++ c.map (q * ·)) := by
  rw [msm_eq _ _ m (by omega), msm_take_add_drop _ _ m h, ← Finset.sum_add_distrib]
  refine Finset.sum_congr rfl fun i hi => ?_
  have hi := Finset.mem_range.1 hi
  rw [e i hi, getD_append', getD_append', if_pos (by simpa using by omega),
    if_neg (by simp; omega), getD_map' _ _ _ 0, getD_map' _ _ _ 0, if_pos (by omega),
    if_pos (by simp; omega)]
  simp only [List.length_map, hc, Nat.add_sub_cancel_left]
  module


omit [DecidableEq F] in
theorem ippFold_len (m : Nat) (u : F) (t : Transcript F G X) {s : IPPState F G X} (hl : s.Len (m + m)) :
    (ippFold m u s t).Len m := by
  obtain ⟨hg, hh, ha, hb⟩ := hl
  refine ⟨?_, ?_, ?_, ?_⟩ <;> simp [ippFold, List.length_zipWith] <;> omega

omit [DecidableEq F] in
theorem ippFold_getD (m : Nat) (u : F) (t : Transcript F G X) {s : IPPState F G X} (hl : s.Len (m + m))
    (i : Nat) (hi : i < m) :
    (ippFold m u s t).a.getD i 0 = s.a.getD i 0 * u + u⁻¹ * s.a.getD (m + i) 0 ∧
    (ippFold m u s t).b.getD i 0 = s.b.getD i 0 * u⁻¹ + u * s.b.getD (m + i) 0 ∧
    (ippFold m u s t).gs.getD i 0 = u⁻¹ • s.gs.getD i 0 + u • s.gs.getD (m + i) 0 ∧
    (ippFold m u s t).hs.getD i 0 = u • s.hs.getD i 0 + u⁻¹ • s.hs.getD (m + i) 0 := by
  obtain ⟨hg, hh, ha, hb⟩ := hl
  have key : ∀ {α γ : Type} (f : α → α → γ) (x : List α) (d : α) (e : γ), x.length = m + m →
      (List.zipWith f (x.take m) (x.drop m)).getD i e = f (x.getD i d) (x.getD (m + i) d) := by
    intro α γ f x d e hx
    rw [getD_zipWith f _ _ _ d d, if_pos (by simp; omega), getD_take, if_pos hi, getD_drop]
  refine ⟨?_, ?_, ?_, ?_⟩
  · simp only [ippFold]; rw [key _ _ 0 _ ha]
  · simp only [ippFold]; rw [key _ _ 0 _ hb]
  · simp only [ippFold]; rw [key _ _ 0 _ hg, msm_two]
  · simp only [ippFold]; rw [key _ _ 0 _ hh, msm_two]

omit [DecidableEq F] in
theorem ippCross_eq (Q : G) (m : Nat) {s : IPPState F G X} (hl : s.Len (m + m)) :
    ippCross Q m s =
      (∑ i ∈ range m, s.a.getD i 0 • s.gs.getD (m + i) 0 +
          ∑ i ∈ range m, s.b.getD (m + i) 0 • s.hs.getD i 0 +
          (∑ i ∈ range m, s.a.getD i 0 * s.b.getD (m + i) 0) • Q,
        ∑ i ∈ range m, s.a.getD (m + i) 0 • s.gs.getD i 0 +
          ∑ i ∈ range m, s.b.getD i 0 • s.hs.getD (m + i) 0 +
          (∑ i ∈ range m, s.a.getD (m + i) 0 * s.b.getD i 0) • Q) := by
  obtain ⟨hg, hh, ha, hb⟩ := hl
  unfold ippCross
  simp only
  have ta : (s.a.take m).length = m := by simp; omega
  have tb : (s.b.take m).length = m := by simp; omega
  have tg : (s.gs.take m).length = m := by simp; omega
  have th : (s.hs.take m).length = m := by simp; omega
  have da : (s.a.drop m).length = m := by simp; omega
  have db : (s.b.drop m).length = m := by simp; omega
  have dg : (s.gs.drop m).length = m := by simp; omega
  have dh : (s.hs.drop m).length = m := by simp; omega
  rw [msm_three _ _ _ _ _ _ m dg ta th db, msm_three _ _ _ _ _ _ m tg da dh tb,
    innerProduct_eq _ _ m (Or.inl ta.le), innerProduct_eq _ _ m (Or.inl da.le)]
  have h1 : ∀ {M : Type} [AddCommGroup M] (f g : Nat → M), (∀ i < m, f i = g i) →
      ∑ i ∈ range m, f i = ∑ i ∈ range m, g i := fun f g h =>
    Finset.sum_congr rfl fun i hi => h i (Finset.mem_range.1 hi)
  refine Prod.ext ?_ ?_
  · refine congrArg₂ (· + ·) (congrArg₂ (· + ·) (h1 _ _ ?_) (h1 _ _ ?_)) (congrArg (· • Q) (h1 _ _ ?_)) <;>
      (intro i hi; simp only [getD_take, getD_drop, if_pos hi])
  · refine congrArg₂ (· + ·) (congrArg₂ (· + ·) (h1 _ _ ?_) (h1 _ _ ?_)) (congrArg (· • Q) (h1 _ _ ?_)) <;>
      (intro i hi; simp only [getD_take, getD_drop, if_pos hi])

omit [DecidableEq F] in
theorem ipp_fold_eq (Q : G) (m : Nat) (u : F) (hu : u ≠ 0) (t : Transcript F G X) {s : IPPState F G X}
    (hl : s.Len (m + m)) :
    (u * u) • (ippCross Q m s).1 + (u⁻¹ * u⁻¹) • (ippCross Q m s).2 + msm s.gs s.a + msm s.hs s.b +
      innerProduct s.a s.b • Q =
    msm (ippFold m u s t).gs (ippFold m u s t).a + msm (ippFold m u s t).hs (ippFold m u s t).b +
      innerProduct (ippFold m u s t).a (ippFold m u s t).b • Q := by
  have hl' := ippFold_len m u t hl
  rw [ippCross_eq Q m hl, msm_take_add_drop _ _ m hl.1, msm_take_add_drop _ _ m hl.2.1,
    innerProduct_take_add_drop _ _ m hl.2.2.1, msm_eq _ _ m (Or.inl hl'.1.le),
    msm_eq _ _ m (Or.inl hl'.2.1.le), innerProduct_eq _ _ m (Or.inl hl'.2.2.1.le)]
  rw [fold_identity m u hu (fun i => s.a.getD i 0) (fun i => s.a.getD (m + i) 0)
      (fun i => s.b.getD i 0) (fun i => s.b.getD (m + i) 0)
      (fun i => s.gs.getD i 0) (fun i => s.gs.getD (m + i) 0)
      (fun i => s.hs.getD i 0) (fun i => s.hs.getD (m + i) 0) Q]
  have h1 : ∀ {M : Type} [AddCommGroup M] (f g : Nat → M), (∀ i < m, f i = g i) →
      ∑ i ∈ range m, f i = ∑ i ∈ range m, g i := fun f g h =>
    Finset.sum_congr rfl fun i hi => h i (Finset.mem_range.1 hi)
  congr 1
  · congr 1 <;> apply h1 <;> intro i hi <;> obtain ⟨e1, e2, e3, e4⟩ := ippFold_getD m u t hl i hi
    · rw [e1, e3]
    · rw [e2, e4]
  · congr 1
    apply h1
    intro i hi
    obtain ⟨e1, e2, e3, e4⟩ := ippFold_getD m u t hl i hi
    rw [e1, e2]

theorem ippRound_spec (o : Oracle F G X) (Q : G) (m : Nat) {s s' : IPPState F G X} {L R : G}
    (hl : s.Len (m + m)) (h : ippRound o Q m s = .ok ((L, R), s')) :
    ∃ u, RoundSpec o Q m s.gs s.hs s L R u s' := by
  unfold ippRound at h
  simp only at h
  split at h
  · exact absurd h (by simp)
  rename_i hu
  simp only [Except.ok.injEq, Prod.mk.injEq] at h
  obtain ⟨e, rfl⟩ := h
  have eL : (ippCross Q m s).1 = L := by rw [e]
  have eR : (ippCross Q m s).2 = R := by rw [e]
  subst eL; subst eR
  refine ⟨_, hu, ippFold_len m _ _ hl, rfl, ipp_fold_eq Q m _ hu _ hl, fun c hc => ?_, fun c hc => ?_⟩
  · exact unfold_gens _ _ m _ _ hl.1 (ippFold_len m _ _ hl).1
      (fun i hi => (ippFold_getD m _ _ hl i hi).2.2.1) c hc
  · exact unfold_gens _ _ m _ _ hl.2.1 (ippFold_len m _ _ hl).2.1
      (fun i hi => (ippFold_getD m _ _ hl i hi).2.2.2) c hc


/-- What the whole loop returns. -/
structure LoopSpec (o : Oracle F G X) (Q : G) (k : Nat) (s : IPPState F G X) (us : List F)
    (p : IPP F G) (t' : Transcript F G X) : Prop where
  lenU : us.length = k
  lenL : p.L.length = k
  lenR : p.R.length = k
  ne : ∀ u ∈ us, u ≠ 0
  chal : (∀ P ∈ p.L, P ≠ 0) → (∀ P ∈ p.R, P ≠ 0) →
    ∀ [DecidableEq G], ippChallenges o (p.L.zip p.R) s.t = .ok (us, t')
  eq : msm p.L (us.map fun u => u * u) + msm p.R (us.map fun u => u⁻¹ * u⁻¹) +
      msm s.gs s.a + msm s.hs s.b + innerProduct s.a s.b • Q =
    (p.a * p.b) • Q + msm s.gs ((sVec us).map (p.a * ·)) + msm s.hs ((sVec us).reverse.map (p.b * ·))

omit [DecidableEq F] in
theorem LoopSpec.step {o : Oracle F G X} {Q : G} {k : Nat} {s s' : IPPState F G X} {us : List F} {u : F}
    {L R : G} {p : IPP F G} {t' : Transcript F G X} (hr : RoundSpec o Q (2 ^ k) s.gs s.hs s L R u s')
    (h : LoopSpec o Q k s' us p t') :
    LoopSpec o Q (k + 1) s (u :: us) { p with L := L :: p.L, R := R :: p.R } t' := by
  obtain ⟨h1, h2, h3, h4, h5, h6⟩ := h
  obtain ⟨r1, r2, r3, r4, r5, r6⟩ := hr
  refine ⟨by simp [h1], by simp [h2], by simp [h3], ?_, ?_, ?_⟩
  · intro v hv
    rcases List.mem_cons.1 hv with rfl | hv
    · exact r1
    · exact h4 v hv
  · intro hL hR inst
    have hL0 : L ≠ 0 := hL L (by simp)
    have hR0 : R ≠ 0 := hR R (by simp)
    have hrec := h5 (fun P hP => hL P (by simp [hP])) (fun P hP => hR P (by simp [hP]))
    simp only [List.zip_cons_cons, ippChallenges, validateAndAppendPoint, if_neg hL0, if_neg hR0,
      bind, Except.bind, pure, Except.pure, List.append_assoc, List.cons_append, List.nil_append]
    rw [r3]
    simp only [hrec]
  · have e1 := r5 ((sVec us).map (p.a * ·)) (by simp [sVec_length, h1])
    have e2 := r6 ((sVec us).reverse.map (p.b * ·)) (by simp [sVec_length, h1])
    have f1 : ((sVec us).map (p.a * ·)).map (u⁻¹ * ·) ++ ((sVec us).map (p.a * ·)).map (u * ·) =
        (sVec (u :: us)).map (p.a * ·) := by
      simp only [sVec, List.map_append, List.map_map]
      congr 1 <;> (apply List.map_congr_left; intro x _; simp only [Function.comp]; ring)
    have f2 : ((sVec us).reverse.map (p.b * ·)).map (u * ·) ++
        ((sVec us).reverse.map (p.b * ·)).map (u⁻¹ * ·) = (sVec (u :: us)).reverse.map (p.b * ·) := by
      simp only [sVec, sVec_double_reverse, List.map_append, List.map_map]
      congr 1 <;> (apply List.map_congr_left; intro x _; simp only [Function.comp]; ring)
    rw [f1] at e1
    rw [f2] at e2
    simp only [List.map_cons, msm_cons]
    rw [← e1, ← e2, ← h6]
    calc _ = msm p.L (us.map fun u => u * u) + msm p.R (us.map fun u => u⁻¹ * u⁻¹) +
        ((u * u) • L + (u⁻¹ * u⁻¹) • R + msm s.gs s.a + msm s.hs s.b + innerProduct s.a s.b • Q) := by
          abel
      _ = _ := by rw [r4]; abel

theorem ippLoop_spec (o : Oracle F G X) (Q : G) (k : Nat) (s : IPPState F G X) (hl : s.Len (2 ^ k))
    {p : IPP F G} {t' : Transcript F G X} (h : ippLoop o Q k s = .ok (p, t')) :
    ∃ us, LoopSpec o Q k s us p t' := by
  induction k generalizing s p with
  | zero =>
    obtain ⟨gs, hs, a, b, t⟩ := s
    obtain ⟨hg, hh, ha, hb⟩ := hl
    simp only [pow_zero] at hg hh ha hb
    obtain ⟨g, rfl⟩ := List.length_eq_one_iff.1 hg
    obtain ⟨h', rfl⟩ := List.length_eq_one_iff.1 hh
    obtain ⟨a, rfl⟩ := List.length_eq_one_iff.1 ha
    obtain ⟨b, rfl⟩ := List.length_eq_one_iff.1 hb
    simp only [ippLoop, Except.ok.injEq, Prod.mk.injEq] at h
    obtain ⟨rfl, rfl⟩ := h
    refine ⟨[], rfl, rfl, rfl, by simp, ?_, ?_⟩
    · intro _ _ _; rfl
    · simp [sVec, innerProduct]; abel
  | succ k ih =>
    unfold ippLoop at h
    cases hr : ippRound o Q (2 ^ k) s with
    | error e => rw [hr] at h; simp at h
    | ok r =>
      obtain ⟨⟨L, R⟩, s'⟩ := r
      rw [hr] at h
      simp only at h
      obtain ⟨u, hu⟩ := ippRound_spec o Q (2 ^ k) (by rw [pow_succ, mul_two] at hl; exact hl) hr
      cases hp : ippLoop o Q k s' with
      | error e => rw [hp] at h; simp at h
      | ok r =>
        obtain ⟨p', t⟩ := r
        rw [hp] at h
        simp only [Except.ok.injEq, Prod.mk.injEq] at h
        obtain ⟨rfl, rfl⟩ := h
        obtain ⟨us, hus⟩ := ih s' hu.len hp
        exact ⟨u :: us, hus.step hu⟩

/-- The unrolled first round is a plain round on the generators scaled by their factors. -/
theorem ippFirstRound_eq (o : Oracle F G X) (Q : G) (Gf Hf : List F) (m : Nat) {s : IPPState F G X}
    (hl : s.Len (m + m)) (hG : Gf.length = m + m) (hH : Hf.length = m + m) :
    ippFirstRound o Q Gf Hf m s =
      ippRound o Q m { s with gs := List.zipWith (fun f g => f • g) Gf s.gs,
                              hs := List.zipWith (fun f g => f • g) Hf s.hs } := by
  obtain ⟨hg, hh, ha, hb⟩ := hl
  have hcross : ippFirstCross Q Gf Hf m s = ippCross Q m
      { s with gs := List.zipWith (fun f g => f • g) Gf s.gs,
               hs := List.zipWith (fun f g => f • g) Hf s.hs } := by
    have key : ∀ (gs : List G) (fs xs : List F), gs.length = m → fs.length = m → xs.length = m →
        msm gs (List.zipWith (· * ·) xs fs) = msm (List.zipWith (fun f g => f • g) fs gs) xs := by
      intro gs fs xs h1 h2 h3
      rw [msm_eq _ _ m (by omega), msm_eq _ _ m (by omega)]
      refine Finset.sum_congr rfl fun i hi => ?_
      have hi := Finset.mem_range.1 hi
      rw [getD_zipWith _ _ _ _ 0 0, getD_zipWith _ _ _ _ 0 0, if_pos (by omega), if_pos (by omega),
        smul_smul]
    have tk : ∀ {α : Type} (x : List α), x.length = m + m → (x.take m).length = m := by
      intro α x hx; simp; omega
    have dr : ∀ {α : Type} (x : List α), x.length = m + m → (x.drop m).length = m := by
      intro α x hx; simp; omega
    have dt : ∀ {α : Type} (x : List α), x.length = m + m → (x.drop m).take m = x.drop m := by
      intro α x hx; rw [List.take_of_length_le (by simp; omega)]
    have zl : ∀ {α β γ : Type} (f : α → β → γ) (x : List α) (y : List β), x.length = m →
        y.length = m → (List.zipWith f x y).length = m := by
      intro α β γ f x y h1 h2; simp [List.length_zipWith]; omega
    unfold ippFirstCross ippCross
    simp only [dt _ hG, dt _ hH]
    refine Prod.ext ?_ ?_ <;> simp only
    · rw [msm_append _ _ _ _ (by simp; omega), msm_append _ _ _ _ (by simp; omega),
        msm_append _ _ _ _ (by simp; omega), msm_append _ _ _ _ (by simp; omega),
        key _ _ _ (dr _ hg) (dr _ hG) (tk _ ha), key _ _ _ (tk _ hh) (tk _ hH) (dr _ hb),
        ← List.drop_zipWith, ← List.take_zipWith]
    · rw [msm_append _ _ _ _ (by simp; omega), msm_append _ _ _ _ (by simp; omega),
        msm_append _ _ _ _ (by simp; omega), msm_append _ _ _ _ (by simp; omega),
        key _ _ _ (tk _ hg) (tk _ hG) (dr _ ha), key _ _ _ (dr _ hh) (dr _ hH) (tk _ hb),
        ← List.drop_zipWith, ← List.take_zipWith]
  have hfold : ∀ u t, ippFirstFold Gf Hf m u s t = ippFold m u
      { s with gs := List.zipWith (fun f g => f • g) Gf s.gs,
               hs := List.zipWith (fun f g => f • g) Hf s.hs } t := by
    intro u t
    have key : ∀ (gs : List G) (fs : List F) (p q : F), gs.length = m + m → fs.length = m + m →
        List.zipWith (fun l r : G × F => msm [l.1, r.1] [p * l.2, q * r.2])
          ((gs.take m).zip (fs.take m)) ((gs.drop m).zip (fs.drop m)) =
        List.zipWith (fun gl gr => msm [gl, gr] [p, q])
          ((List.zipWith (fun f g => f • g) fs gs).take m)
          ((List.zipWith (fun f g => f • g) fs gs).drop m) := by
      intro gs fs p q h1 h2
      apply ext_getD 0
      · simp [List.length_zipWith, h1, h2]
      · intro i hi
        have hi : i < m := by
          simp only [List.length_zipWith, List.length_zip, List.length_take, List.length_drop] at hi
          omega
        rw [getD_zipWith _ _ _ _ ((0 : G), (0 : F)) ((0 : G), (0 : F)), getD_zipWith _ _ _ _ 0 0,
          if_pos (by simp; omega), if_pos (by simp; omega), msm_two, msm_two, getD_take, getD_drop,
          if_pos hi, getD_zipWith _ _ _ _ 0 0, getD_zipWith _ _ _ _ 0 0, if_pos (by omega),
          if_pos (by omega), List.zip_eq_zipWith, List.zip_eq_zipWith, getD_zipWith _ _ _ _ 0 0,
          getD_zipWith _ _ _ _ 0 0, if_pos (by simp; omega), if_pos (by simp; omega)]
        simp only [getD_take, getD_drop, if_pos hi, smul_smul]
    simp only [ippFirstFold, ippFold, key _ _ _ _ hg hG, key _ _ _ _ hh hH]
  unfold ippFirstRound ippRound
  simp only [hcross, hfold]


omit [DecidableEq F] in
theorem sVec_zero (us : List F) : (sVec us).getD 0 0 = (us.map (·⁻¹)).prod := by
  induction us with
  | nil => rfl
  | cons u us ih =>
    have hpos : 0 < (sVec us).length := by rw [sVec_length]; exact Nat.two_pow_pos _
    simp only [sVec]
    rw [getD_append', if_pos (by simpa using hpos), getD_map' _ _ _ 0, if_pos hpos, ih]
    simp

omit [DecidableEq F] in
theorem sVec_rec (us : List F) (i : Nat) (h1 : 1 ≤ i) (h2 : i < 2 ^ us.length) :
    (sVec us).getD i 0 = (sVec us).getD (i - 2 ^ i.log2) 0 *
      (us.map fun u => u * u).getD (us.length - 1 - i.log2) 0 := by
  induction us with
  | nil => simp at h2; omega
  | cons u us ih =>
    have hlen := sVec_length us
    have hp : 2 ^ i.log2 ≤ i := Nat.log2_self_le (by omega)
    have hp0 : 0 < 2 ^ i.log2 := Nat.two_pow_pos _
    simp only [sVec, List.length_cons] at h2 ⊢
    rw [getD_append', getD_append']
    simp only [List.length_map, hlen]
    by_cases hi : i < 2 ^ us.length
    · rw [if_pos hi, if_pos (by omega), getD_map' _ _ _ 0, getD_map' _ _ _ 0, if_pos (by omega),
        if_pos (by omega), ih hi]
      have hlog : i.log2 < us.length := by
        rwa [Nat.log2_lt (by omega)]
      have : us.length + 1 - 1 - i.log2 = (us.length - 1 - i.log2) + 1 := by omega
      rw [this, List.map_cons, List.getD_cons_succ, mul_assoc]
    · have hlog : i.log2 = us.length := by
        apply le_antisymm
        · have : i.log2 < us.length + 1 := by rwa [Nat.log2_lt (by omega)]
          omega
        · exact (Nat.le_log2 (by omega)).2 (by omega)
      rw [hlog, if_neg hi, if_pos (by rw [pow_succ] at h2; omega), getD_map' _ _ _ 0,
        getD_map' _ _ _ 0, if_pos (by rw [pow_succ] at h2; omega),
        if_pos (by rw [pow_succ] at h2; omega)]
      simp only [Nat.add_sub_cancel, Nat.sub_self, List.map_cons, List.getD_cons_zero]
      by_cases hu : u = 0
      · simp [hu]
      · field_simp

omit [DecidableEq F] in
/-- Step 4 of `verification_scalars` computes the closed form. -/
theorem ippS_eq (us : List F) :
    ippS us.length (us.map fun u => u * u) (us.map (·⁻¹)).prod (2 ^ us.length) = sVec us := by
  have key : ∀ j, j + 1 ≤ 2 ^ us.length →
      (List.range' 1 j).foldl
        (fun s i => s ++ [s.getD (i - 2 ^ i.log2) 0 *
          (us.map fun u => u * u).getD (us.length - 1 - i.log2) 0]) [(us.map (·⁻¹)).prod] =
      (sVec us).take (j + 1) := by
    intro j
    induction j with
    | zero =>
      intro _
      have hpos : 0 < (sVec us).length := by rw [sVec_length]; exact Nat.two_pow_pos _
      apply ext_getD 0
      · simp; omega
      · intro i hi
        have : i = 0 := by simpa using hi
        subst this
        rw [getD_take, if_pos (by omega), sVec_zero]
        rfl
    | succ j ih =>
      intro hj
      rw [List.range'_concat, List.foldl_append, ih (by omega)]
      simp only [List.foldl_cons, List.foldl_nil, Nat.one_mul]
      have hlt : j + 1 < (sVec us).length := by rw [sVec_length]; omega
      have hp : 0 < 2 ^ (1 + j).log2 := by exact Nat.two_pow_pos _
      rw [getD_take, if_pos (by omega), ← sVec_rec us (1 + j) (by omega) (by omega),
        Nat.add_comm 1 j, List.take_add_one (i := j + 1), List.getElem?_eq_getElem hlt,
        getD_of_lt _ _ _ hlt]
      rfl
  have hpos : 0 < 2 ^ us.length := by exact Nat.two_pow_pos _
  unfold ippS
  rw [key _ (by omega), List.take_of_length_le (by rw [sVec_length]; omega)]

omit [Module F G] [DecidableEq F] in
/-- `verification_scalars` on a proof with as many `R` as `L` points, all non-zero. -/
theorem verificationScalars_ok [DecidableEq G] (o : Oracle F G X) (p : IPP F G) (k : Nat)
    (t t' : Transcript F G X) (us : List F) (hk : k < 32) (hL : p.L.length = k) (hu : us.length = k)
    (h : ippChallenges o (p.L.zip p.R) (t ++ [.sep "ipp v1", .num "n" (2 ^ k)]) = .ok (us, t')) :
    verificationScalars o p (2 ^ k) t =
      .ok ((us.map fun u => u * u, us.map fun u => u⁻¹ * u⁻¹, sVec us), t') := by
  unfold verificationScalars
  simp only [hL, if_neg (show ¬ k ≥ 32 by omega), ne_eq, not_true_eq_false, if_false, h, bind,
    Except.bind, hu, lt_self_iff_false, pure, Except.pure, List.map_map]
  congr 3
  · subst hu
    rw [List.take_of_length_le (by simp), ippS_eq]
    rfl

/-- `create` satisfies the loop specification on the scaled generators. -/
theorem ippCreate_spec (o : Oracle F G X) (Q : G) (k : Nat) (Gf Hf : List F) (Gs Hs : List G)
    (a b : List F) (t : Transcript F G X) (hG : Gs.length = 2 ^ k)
    {p : IPP F G} {t' : Transcript F G X} (h : ippCreate o Q Gf Hf Gs Hs a b t = .ok (p, t')) :
    ∃ us, LoopSpec o Q k ⟨List.zipWith (fun f g => f • g) Gf Gs, List.zipWith (fun f g => f • g) Hf Hs,
      a, b, t ++ [.sep "ipp v1", .num "n" (2 ^ k)]⟩ us p t' := by
  unfold ippCreate at h
  simp only [hG] at h
  split at h
  · simp at h
  rename_i hlen
  push Not at hlen
  obtain ⟨h1, h2, h3, h4, h5⟩ := hlen
  split at h
  · simp at h
  rw [Nat.log2_two_pow] at h
  cases k with
  | zero =>
    simp only at h
    have e : ∀ gs hs gs' hs' t, ippLoop o Q 0 (⟨gs, hs, a, b, t⟩ : IPPState F G X) =
        ippLoop o Q 0 ⟨gs', hs', a, b, t⟩ := fun _ _ _ _ _ => by simp only [ippLoop]
    rw [e _ _ (List.zipWith (fun f g => f • g) Gf Gs) (List.zipWith (fun f g => f • g) Hf Hs)] at h
    exact ippLoop_spec o Q 0 _
      ⟨by simp [List.length_zipWith, hG, h4], by simp [List.length_zipWith, h1, h5], h2, h3⟩ h
  | succ k =>
    simp only at h
    rw [ippFirstRound_eq o Q Gf Hf (2 ^ k) (by rw [pow_succ, mul_two] at *; exact ⟨hG, h1, h2, h3⟩)
      (by rw [pow_succ] at h4; omega) (by rw [pow_succ] at h5; omega)] at h
    apply ippLoop_spec o Q (k + 1) _ ⟨by simp [List.length_zipWith, hG, h4],
      by simp [List.length_zipWith, h1, h5], h2, h3⟩
    exact h


/-- `create` on vectors of matching power-of-two length only stops on a zero challenge. -/
theorem ippLoop_total (o : Oracle F G X) (Q : G) (k : Nat) (s : IPPState F G X) (hl : s.Len (2 ^ k)) :
    (∃ r, ippLoop o Q k s = .ok r) ∨ ippLoop o Q k s = .error (.panic "u challenge is zero") := by
  induction k generalizing s with
  | zero =>
    obtain ⟨gs, hs, a, b, t⟩ := s
    obtain ⟨hg, hh, ha, hb⟩ := hl
    simp only [pow_zero] at ha hb
    obtain ⟨a, rfl⟩ := List.length_eq_one_iff.1 ha
    obtain ⟨b, rfl⟩ := List.length_eq_one_iff.1 hb
    exact .inl ⟨_, rfl⟩
  | succ k ih =>
    unfold ippLoop
    have hl' : s.Len (2 ^ k + 2 ^ k) := by rw [pow_succ, mul_two] at hl; exact hl
    cases hr : ippRound o Q (2 ^ k) s with
    | error e =>
      right
      unfold ippRound at hr
      simp only at hr
      split at hr
      · simpa using hr.symm
      · simp at hr
    | ok r =>
      obtain ⟨⟨L, R⟩, s'⟩ := r
      obtain ⟨u, hu⟩ := ippRound_spec o Q (2 ^ k) hl' hr
      rcases ih s' hu.len with ⟨⟨p, t⟩, hp⟩ | hp
      · left; simp [hp]
      · right; simp [hp]

theorem ippCreate_total (o : Oracle F G X) (Q : G) (k : Nat) (Gf Hf : List F) (Gs Hs : List G)
    (a b : List F) (t : Transcript F G X) (hG : Gs.length = 2 ^ k) (hH : Hs.length = 2 ^ k)
    (ha : a.length = 2 ^ k) (hb : b.length = 2 ^ k) (hGf : Gf.length = 2 ^ k)
    (hHf : Hf.length = 2 ^ k) :
    (∃ r, ippCreate o Q Gf Hf Gs Hs a b t = .ok r) ∨
      ippCreate o Q Gf Hf Gs Hs a b t = .error (.panic "u challenge is zero") := by
  have hp2 : isPow2 (2 ^ k) = true := by
    simp [isPow2, Nat.log2_two_pow]
  unfold ippCreate
  simp only [hG, hH, ha, hb, hGf, hHf, ne_eq, not_true_eq_false, or_self, if_false, hp2,
    Bool.not_true, Bool.false_eq_true, Nat.log2_two_pow]
  cases k with
  | zero =>
    exact ippLoop_total o Q 0 ⟨Gs, Hs, a, b, _⟩ ⟨hG, hH, ha, hb⟩
  | succ k =>
    simp only
    rw [ippFirstRound_eq o Q Gf Hf (2 ^ k) (by rw [pow_succ, mul_two] at *; exact ⟨hG, hH, ha, hb⟩)
      (by rw [pow_succ] at hGf; omega) (by rw [pow_succ] at hHf; omega)]
    exact ippLoop_total o Q (k + 1)
      ⟨List.zipWith (fun f g => f • g) Gf Gs, List.zipWith (fun f g => f • g) Hf Hs, a, b, _⟩
      ⟨by simp [List.length_zipWith, hG, hGf], by simp [List.length_zipWith, hH, hHf], ha, hb⟩

omit [DecidableEq F] in
theorem halve_length (p q : F) (gs : List G) (m : Nat) (h : gs.length = m + m) :
    (halve p q gs).length = m := by simp [halve]; omega

omit [DecidableEq F] in
theorem halve_getD (p q : F) (gs : List G) (m : Nat) (h : gs.length = m + m) (i : Nat) (hi : i < m) :
    (halve p q gs).getD i 0 = p • gs.getD i 0 + q • gs.getD (m + i) 0 := by
  have : gs.length / 2 = m := by omega
  simp only [halve, this]
  rw [getD_map_range, if_pos hi]

omit [Module F G] [DecidableEq F] in
theorem ippChallenges_cons [DecidableEq G] (o : Oracle F G X) (L R : G) (rest : List (G × G))
    (t t' : Transcript F G X) (us : List F) :
    ippChallenges o ((L, R) :: rest) t = .ok (us, t') ↔
      L ≠ 0 ∧ R ≠ 0 ∧ ∃ us', us = o (t ++ [.point "L" L, .point "R" R, .chal "u"]) :: us' ∧
        ippChallenges o rest (t ++ [.point "L" L, .point "R" R, .chal "u"]) = .ok (us', t') := by
  by_cases hL : L = 0
  · simp [ippChallenges, validateAndAppendPoint, hL, bind, Except.bind]
  by_cases hR : R = 0
  · simp [ippChallenges, validateAndAppendPoint, hL, hR, bind, Except.bind]
  have e : ippChallenges o ((L, R) :: rest) t =
      (match ippChallenges o rest (t ++ [.point "L" L, .point "R" R, .chal "u"]) with
        | .error e => .error e
        | .ok r => .ok (o (t ++ [.point "L" L, .point "R" R, .chal "u"]) :: r.1, r.2)) := by
    rw [ippChallenges]
    simp only [validateAndAppendPoint, if_neg hL, if_neg hR, bind, Except.bind, challengeScalar,
      List.append_assoc, List.cons_append, List.nil_append, pure, Except.pure]
    cases ippChallenges o rest (t ++ [.point "L" L, .point "R" R, .chal "u"]) <;> rfl
  rw [e]
  cases hc : ippChallenges o rest (t ++ [.point "L" L, .point "R" R, .chal "u"]) with
  | error e => simp
  | ok r =>
    obtain ⟨us', t''⟩ := r
    simp only [Except.ok.injEq, Prod.mk.injEq]
    constructor
    · rintro ⟨rfl, rfl⟩
      exact ⟨hL, hR, _, rfl, rfl, rfl⟩
    · rintro ⟨-, -, _, rfl, rfl, rfl⟩
      exact ⟨rfl, rfl⟩

omit [Module F G] [DecidableEq F] in
theorem ippChallenges_length [DecidableEq G] (o : Oracle F G X) (LR : List (G × G))
    (t t' : Transcript F G X) (us : List F) (h : ippChallenges o LR t = .ok (us, t')) :
    us.length = LR.length := by
  induction LR generalizing t us with
  | nil => simp [ippChallenges] at h; simp [h.1.symm]
  | cons LR rest ih =>
    obtain ⟨L, R⟩ := LR
    obtain ⟨-, -, us', rfl, h'⟩ := (ippChallenges_cons o L R rest t t' us).1 h
    simp [ih _ _ h']

omit [DecidableEq F] in
theorem roundByRound_iff [DecidableEq G] (o : Oracle F G X) (Q : G) (a b : F) (LR : List (G × G))
    (t : Transcript F G X) (P : G) (gs hs : List G) (hg : gs.length = 2 ^ LR.length)
    (hh : hs.length = 2 ^ LR.length) :
    RoundByRound o Q a b LR t P gs hs ↔
      ∃ us t', ippChallenges o LR t = .ok (us, t') ∧
        P + msm (LR.map Prod.fst) (us.map fun u => u * u) +
          msm (LR.map Prod.snd) (us.map fun u => u⁻¹ * u⁻¹) =
        (a * b) • Q + msm gs ((sVec us).map (a * ·)) + msm hs ((sVec us).reverse.map (b * ·)) := by
  induction LR generalizing t P gs hs with
  | nil =>
    obtain ⟨g, rfl⟩ := List.length_eq_one_iff.1 hg
    obtain ⟨h', rfl⟩ := List.length_eq_one_iff.1 hh
    simp only [RoundByRound, ippChallenges, Except.ok.injEq, Prod.mk.injEq]
    constructor
    · rintro rfl
      refine ⟨[], t, ⟨rfl, rfl⟩, ?_⟩
      simp [sVec]; abel
    · rintro ⟨us, t', ⟨rfl, rfl⟩, e⟩
      simp [sVec] at e
      rw [e]; simp; abel
  | cons LR rest ih =>
    obtain ⟨L, R⟩ := LR
    simp only [List.length_cons, pow_succ, mul_two] at hg hh
    simp only [RoundByRound]
    rw [ih _ _ _ _ (halve_length _ _ _ _ hg) (halve_length _ _ _ _ hh)]
    set u := o (t ++ [.point "L" L, .point "R" R, .chal "u"]) with hu
    have key : ∀ us' : List F, us'.length = rest.length →
        ((P + (u ^ 2) • L + (u⁻¹ ^ 2) • R + msm (rest.map Prod.fst) (us'.map fun u => u * u) +
          msm (rest.map Prod.snd) (us'.map fun u => u⁻¹ * u⁻¹) =
        (a * b) • Q + msm (halve u⁻¹ u gs) ((sVec us').map (a * ·)) +
          msm (halve u u⁻¹ hs) ((sVec us').reverse.map (b * ·))) ↔
        (P + msm (((L, R) :: rest).map Prod.fst) ((u :: us').map fun u => u * u) +
          msm (((L, R) :: rest).map Prod.snd) ((u :: us').map fun u => u⁻¹ * u⁻¹) =
        (a * b) • Q + msm gs ((sVec (u :: us')).map (a * ·)) +
          msm hs ((sVec (u :: us')).reverse.map (b * ·)))) := by
      intro us' hl
      have e1 := unfold_gens gs (halve u⁻¹ u gs) _ u⁻¹ u hg (halve_length _ _ _ _ hg)
        (halve_getD _ _ _ _ hg) ((sVec us').map (a * ·)) (by simp [sVec_length, hl])
      have e2 := unfold_gens hs (halve u u⁻¹ hs) _ u u⁻¹ hh (halve_length _ _ _ _ hh)
        (halve_getD _ _ _ _ hh) ((sVec us').reverse.map (b * ·)) (by simp [sVec_length, hl])
      have f1 : ((sVec us').map (a * ·)).map (u⁻¹ * ·) ++ ((sVec us').map (a * ·)).map (u * ·) =
          (sVec (u :: us')).map (a * ·) := by
        simp only [sVec, List.map_append, List.map_map]
        congr 1 <;> (apply List.map_congr_left; intro x _; simp only [Function.comp]; ring)
      have f2 : ((sVec us').reverse.map (b * ·)).map (u * ·) ++
          ((sVec us').reverse.map (b * ·)).map (u⁻¹ * ·) = (sVec (u :: us')).reverse.map (b * ·) := by
        simp only [sVec, sVec_double_reverse, List.map_append, List.map_map]
        congr 1 <;> (apply List.map_congr_left; intro x _; simp only [Function.comp]; ring)
      rw [e1, e2, f1, f2]
      simp only [List.map_cons, msm_cons]
      rw [pow_two, pow_two]
      have : ∀ (A B C D E : G), A + B + C + D + E = A + (B + D) + (C + E) := by intros; abel
      rw [this]
    constructor
    · rintro ⟨hL, hR, us', t', hc, e⟩
      refine ⟨u :: us', t', (ippChallenges_cons ..).2 ⟨hL, hR, us', rfl, hc⟩, ?_⟩
      exact (key us' (ippChallenges_length _ _ _ _ _ hc)).1 e
    · rintro ⟨us, t', hc, e⟩
      obtain ⟨hL, hR, us', rfl, hc'⟩ := (ippChallenges_cons ..).1 hc
      exact ⟨hL, hR, us', t', hc', (key us' (ippChallenges_length _ _ _ _ _ hc')).2 e⟩

omit [DecidableEq F] in
theorem msm_factors (gs : List G) (fs ss : List F) (c : F) (n : Nat) (h1 : gs.length = n)
    (h2 : fs.length = n) (h3 : ss.length = n) :
    msm gs (List.zipWith (fun g s => c * s * g) fs ss) =
      msm (List.zipWith (fun f g => f • g) fs gs) (ss.map (c * ·)) := by
  rw [msm_eq _ _ n (by omega), msm_eq _ _ n (by simp [List.length_zipWith]; omega)]
  refine Finset.sum_congr rfl fun i hi => ?_
  have hi := Finset.mem_range.1 hi
  rw [getD_zipWith _ _ _ _ 0 0, getD_zipWith _ _ _ _ 0 0, if_pos (by omega), if_pos (by omega),
    getD_map' _ _ _ 0, if_pos (by omega), smul_smul]

omit [DecidableEq F] in
theorem msm_neg (gs : List G) (ss : List F) : msm gs (ss.map (- ·)) = - msm gs ss := by
  rw [msm_eq _ _ gs.length (by simp), msm_eq _ _ gs.length (by simp), ← Finset.sum_neg_distrib]
  refine Finset.sum_congr rfl fun i _ => ?_
  rw [← neg_zero, getD_map, neg_smul, neg_zero]

omit [DecidableEq F] in
/-- The equation checked by `verify`, with the closed form of the scalars. -/
theorem ippVerify_eq (Q : G) (p : IPP F G) (k : Nat) (us : List F) (Gf Hf : List F) (Gs Hs : List G)
    (hu : us.length = k) (hL : p.L.length = k) (hG : Gs.length = 2 ^ k)
    (hH : Hs.length = 2 ^ k) (hGf : Gf.length = 2 ^ k) (hHf : Hf.length = 2 ^ k) :
    msm ([Q] ++ Gs ++ Hs ++ p.L ++ p.R)
      ([p.a * p.b] ++ (List.zipWith (fun g s => p.a * s * g) Gf (sVec us)).take Gs.length ++
        List.zipWith (fun h s => p.b * s * h) Hf (sVec us).reverse ++
        (us.map fun u => u * u).map (- ·) ++ (us.map fun u => u⁻¹ * u⁻¹).map (- ·)) =
    (p.a * p.b) • Q + msm (List.zipWith (fun f g => f • g) Gf Gs) ((sVec us).map (p.a * ·)) +
      msm (List.zipWith (fun f g => f • g) Hf Hs) ((sVec us).reverse.map (p.b * ·)) -
      msm p.L (us.map fun u => u * u) - msm p.R (us.map fun u => u⁻¹ * u⁻¹) := by
  have hs : (sVec us).length = 2 ^ k := by rw [sVec_length, hu]
  have hs' : (sVec us).reverse.length = 2 ^ k := by rw [List.length_reverse, hs]
  rw [List.take_of_length_le (by simp [List.length_zipWith]; omega)]
  rw [msm_append _ _ _ _ (by simp [List.length_zipWith]; omega),
    msm_append _ _ _ _ (by simp [List.length_zipWith]; omega),
    msm_append _ _ _ _ (by simp [List.length_zipWith]; omega), msm_append _ _ _ _ (by simp),
    msm_factors _ _ _ _ _ hG hGf hs, msm_factors _ _ _ _ _ hH hHf hs', msm_neg, msm_neg]
  simp only [msm_cons, msm_nil, add_zero]
  abel


omit [DecidableEq F] in
theorem sVec_bits (us : List F) (i : Nat) (hi : i < 2 ^ us.length) :
    (sVec us).getD i 0 = ∏ j ∈ range us.length,
      (if i.testBit (us.length - 1 - j) then us.getD j 0 else (us.getD j 0)⁻¹) := by
  induction us generalizing i with
  | nil =>
    have : i = 0 := by simpa using hi
    subst this; simp [sVec]
  | cons u us ih =>
    have hlen := sVec_length us
    simp only [List.length_cons, pow_succ] at hi
    have hcongr : ∀ i' : Nat, (∀ j < us.length, i.testBit j = i'.testBit j) →
        ∏ j ∈ range us.length, (if i'.testBit (us.length - 1 - j) then us.getD j 0 else (us.getD j 0)⁻¹) =
        ∏ j ∈ range us.length, (if i.testBit (us.length + 1 - 1 - (j + 1)) then (u :: us).getD (j + 1) 0
          else ((u :: us).getD (j + 1) 0)⁻¹) := by
      intro i' h
      refine Finset.prod_congr rfl fun j hj => ?_
      have hj := Finset.mem_range.1 hj
      have : us.length + 1 - 1 - (j + 1) = us.length - 1 - j := by omega
      rw [this, h _ (by omega), List.getD_cons_succ]
    rw [List.length_cons, Finset.prod_range_succ']
    simp only [sVec]
    rw [getD_append']
    simp only [List.length_map, hlen]
    by_cases h : i < 2 ^ us.length
    · rw [if_pos h, getD_map' _ _ _ 0, if_pos (by omega), ih i h, hcongr i (fun _ _ => rfl)]
      have : i.testBit us.length = false := Nat.testBit_lt_two_pow h
      simp only [Nat.add_sub_cancel, Nat.sub_zero, this, List.getD_cons_zero]
      simp [mul_comm]
    · have h2 : i - 2 ^ us.length < 2 ^ us.length := by omega
      rw [if_neg h, getD_map' _ _ _ 0, if_pos (by omega), ih _ h2, hcongr (i - 2 ^ us.length)]
      · have : i.testBit us.length = true := by
          have e : i = 2 ^ us.length + (i - 2 ^ us.length) := by omega
          rw [e, Nat.testBit_two_pow_add_eq, Nat.testBit_lt_two_pow h2]; rfl
        simp only [Nat.add_sub_cancel, Nat.sub_zero, this, List.getD_cons_zero]
        simp [mul_comm]
      · intro j hj
        have e : i = 2 ^ us.length + (i - 2 ^ us.length) := by omega
        conv_lhs => rw [e]
        rw [Nat.testBit_two_pow_add_gt hj]

end CT
