import Verif.Proofs.ExtractLift
import Verif.Spec.Extraction
import Mathlib.Tactic.LinearCombination
import Mathlib.Tactic.FieldSimp
import Mathlib.Tactic.Ring
import Mathlib.Tactic.Abel
import Mathlib.Tactic.Module

/-! Extraction for the inner product argument, when the generators are linearly independent. -/

namespace CT
open Finset

variable {F G : Type} [Field F] [AddCommGroup G] [Module F G]

/-- The difference of the two sides of the final check of an inner product argument whose messages after the challenges
`pre` are `L pre`, `R pre`, and whose final scalars are `a`, `b`; `us` are the challenges of the remaining rounds. -/
def ippDef (L R : List F → G) (a b : List F → F) (Q : G) : (us pre : List F) → G → (Nat → G) → (Nat → G) → G
  | [], pre, P, gs, hs => P - (a pre • gs 0 + b pre • hs 0 + (a pre * b pre) • Q)
  | u :: us, pre, P, gs, hs => ippDef L R a b Q us (pre ++ [u]) (P + u ^ 2 • L pre + u⁻¹ ^ 2 • R pre)
      (fun i => u⁻¹ • gs i + u • gs (2 ^ us.length + i)) (fun i => u • hs i + u⁻¹ • hs (2 ^ us.length + i))

theorem ippDef_map {G' : Type} [AddCommGroup G'] [Module F G'] (f : G →ₗ[F] G') (L R : List F → G) (a b : List F → F) (Q : G)
    (us pre : List F) (P : G) (gs hs : Nat → G) :
    ippDef (fun l => f (L l)) (fun l => f (R l)) a b (f Q) us pre (f P) (fun i => f (gs i)) (fun i => f (hs i)) =
      f (ippDef L R a b Q us pre P gs hs) := by
  induction us generalizing pre P gs hs with
  | nil => simp [ippDef]
  | cons u us ih =>
    simp only [ippDef]
    rw [← ih]
    simp

theorem square_poly [DecidableEq F] {S : Finset F} (n : Nat) (P : Nat → G) (hS : n ≤ (S.image (· ^ 2)).card)
    (h : ∀ u ∈ S, ∑ d ∈ range n, (u ^ 2) ^ d • P d = 0) : ∀ d < n, P d = 0 := by
  refine vandermonde_zero n P (S.image (· ^ 2)) hS fun x hx => ?_
  obtain ⟨u, hu, rfl⟩ := mem_image.1 hx
  exact h u hu

theorem ipp_zero [DecidableEq F] {Cs : List F → Finset F} (hC : FourChallenges Cs) (L R : List F → G) (a b : List F → F) (k : Nat)
    (pre : List F) (P : G)
    (h : ∀ us : List F, us.length = k → InPaths Cs pre us → ippDef L R a b 0 us pre P (fun _ => 0) (fun _ => 0) = 0) :
    P = 0 := by
  induction k generalizing pre P with
  | zero => simpa [ippDef] using h [] rfl trivial
  | succ k ih =>
    have h1 : ∀ u ∈ Cs pre, P + u ^ 2 • L pre + u⁻¹ ^ 2 • R pre = 0 := by
      intro u hu
      refine ih (pre ++ [u]) _ fun us hl hp => ?_
      have := h (u :: us) (by simp [hl]) ⟨hu, hp⟩
      simpa [ippDef] using this
    have h2 := square_poly (S := Cs pre) 3 (fun d => if d = 0 then R pre else if d = 1 then P else L pre)
      (le_trans (by norm_num) (hC pre).2) ?_ 1 (by norm_num)
    · simpa using h2
    · intro u hu
      have hu0 : u ≠ 0 := fun h0 => (hC pre).1 (h0 ▸ hu)
      have := congrArg (fun x => u ^ 2 • x) (h1 u hu)
      simp only [smul_add, smul_smul, smul_zero] at this
      rw [show u ^ 2 * u⁻¹ ^ 2 = 1 by rw [← mul_pow, mul_inv_cancel₀ hu0, one_pow]] at this
      simp only [Finset.sum_range_succ, Finset.sum_range_zero]
      refine Eq.trans ?_ this
      simp
      module

/-- The combination with coefficients `a`, `b`, `c`. -/
def comb (n : Nat) (gs hs : Nat → G) (Q : G) (a b : Nat → F) (c : F) : G :=
  ∑ i ∈ range n, a i • gs i + ∑ i ∈ range n, b i • hs i + c • Q

/-- `gs`, `hs`, `Q` are linearly independent. -/
def Indep (F : Type) [Field F] [Module F G] (n : Nat) (gs hs : Nat → G) (Q : G) : Prop :=
  ∀ (a b : Nat → F) (c : F), comb n gs hs Q a b c = 0 → (∀ i < n, a i = 0) ∧ (∀ i < n, b i = 0) ∧ c = 0

theorem comb_add (n : Nat) (gs hs : Nat → G) (Q : G) (a b a' b' : Nat → F) (c c' : F) :
    comb n gs hs Q (fun i => a i + a' i) (fun i => b i + b' i) (c + c') = comb n gs hs Q a b c + comb n gs hs Q a' b' c' := by
  simp only [comb, add_smul, Finset.sum_add_distrib]; abel

theorem comb_smul (n : Nat) (gs hs : Nat → G) (Q : G) (x : F) (a b : Nat → F) (c : F) :
    comb n gs hs Q (fun i => x * a i) (fun i => x * b i) (x * c) = x • comb n gs hs Q a b c := by
  simp only [comb, mul_smul, Finset.smul_sum, smul_add]

theorem Indep.inj {n : Nat} {gs hs : Nat → G} {Q : G} (h : Indep F n gs hs Q) {a b a' b' : Nat → F} {c c' : F}
    (he : comb n gs hs Q a b c = comb n gs hs Q a' b' c') :
    (∀ i < n, a i = a' i) ∧ (∀ i < n, b i = b' i) ∧ c = c' := by
  have h1 : comb n gs hs Q (fun i => a i + (-1) * a' i) (fun i => b i + (-1) * b' i) (c + (-1) * c') = 0 := by
    rw [comb_add, comb_smul, he]; simp
  obtain ⟨h2, h3, h4⟩ := h _ _ _ h1
  exact ⟨fun i hi => by linear_combination h2 i hi, fun i hi => by linear_combination h3 i hi, by linear_combination h4⟩

/-- The combinations form a submodule. -/
def combs (F : Type) [Field F] [Module F G] (n : Nat) (gs hs : Nat → G) (Q : G) : Submodule F G where
  carrier := {x | ∃ (a b : Nat → F) (c : F), x = comb n gs hs Q a b c}
  zero_mem' := ⟨fun _ => 0, fun _ => 0, 0, by simp [comb]⟩
  add_mem' := by
    rintro _ _ ⟨a, b, c, rfl⟩ ⟨a', b', c', rfl⟩
    exact ⟨_, _, _, (comb_add ..).symm⟩
  smul_mem' := by
    rintro x _ ⟨a, b, c, rfl⟩
    exact ⟨_, _, _, (comb_smul ..).symm⟩

/-- A combination of halved generators. -/
theorem comb_halved (n : Nat) (gs hs : Nat → G) (Q : G) (u : F) (a b : Nat → F) (c : F) :
    comb n (fun i => u⁻¹ • gs i + u • gs (n + i)) (fun i => u • hs i + u⁻¹ • hs (n + i)) Q a b c =
      comb (n + n) gs hs Q (fun i => if i < n then u⁻¹ * a i else u * a (i - n))
        (fun i => if i < n then u * b i else u⁻¹ * b (i - n)) c := by
  have key : ∀ (s t : F) (gs : Nat → G) (a : Nat → F),
      ∑ i ∈ range n, a i • (s • gs i + t • gs (n + i)) =
        ∑ i ∈ range (n + n), (if i < n then s * a i else t * a (i - n)) • gs i := by
    intro s t gs a
    rw [Finset.sum_range_add, ← Finset.sum_add_distrib]
    refine Finset.sum_congr rfl fun i hi => ?_
    have hi := mem_range.1 hi
    rw [if_pos hi, if_neg (by omega), Nat.add_sub_cancel_left]
    module
  simp only [comb]
  rw [key, key]

theorem Indep.halve {n : Nat} {gs hs : Nat → G} {Q : G} (h : Indep F (n + n) gs hs Q) {u : F} (hu : u ≠ 0) :
    Indep F n (fun i => u⁻¹ • gs i + u • gs (n + i)) (fun i => u • hs i + u⁻¹ • hs (n + i)) Q := by
  intro a b c he
  rw [comb_halved] at he
  obtain ⟨h1, h2, h3⟩ := h _ _ _ he
  refine ⟨fun i hi => ?_, fun i hi => ?_, h3⟩
  · have := h1 i (by omega)
    simp only [if_pos hi] at this
    exact (mul_eq_zero.1 this).resolve_left (inv_ne_zero hu)
  · have := h2 i (by omega)
    simp only [if_pos hi] at this
    exact (mul_eq_zero.1 this).resolve_left hu

/-- With independent generators, a tree of accepting inner product arguments determines an opening. -/
theorem ipp_extract [DecidableEq F] {Cs : List F → Finset F} (hC : FourChallenges Cs) (L R : List F → G) (a b : List F → F) (Q : G)
    (k : Nat) (pre : List F) (P : G) (gs hs : Nat → G) (hI : Indep F (2 ^ k) gs hs Q)
    (h : ∀ us : List F, us.length = k → InPaths Cs pre us → ippDef L R a b Q us pre P gs hs = 0) :
    ∃ av bv : Nat → F, P = comb (2 ^ k) gs hs Q av bv (∑ i ∈ range (2 ^ k), av i * bv i) := by
  induction k generalizing pre P gs hs with
  | zero =>
    refine ⟨fun _ => a pre, fun _ => b pre, ?_⟩
    have := h [] rfl trivial
    simp only [ippDef, sub_eq_zero] at this
    simpa [comb] using this
  | succ k ih =>
    rw [pow_succ, mul_two] at hI ⊢
    set n := 2 ^ k with hn
    have hne : ∀ u ∈ Cs pre, u ≠ 0 := fun u hu h0 => (hC pre).1 (h0 ▸ hu)
    have h1 : ∀ u ∈ Cs pre, ∃ av bv : Nat → F, P + u ^ 2 • L pre + u⁻¹ ^ 2 • R pre =
        comb (n + n) gs hs Q (fun i => if i < n then u⁻¹ * av i else u * av (i - n))
        (fun i => if i < n then u * bv i else u⁻¹ * bv (i - n)) (∑ i ∈ range n, av i * bv i) := by
      intro u hu
      obtain ⟨av, bv, e⟩ := ih (pre ++ [u]) _ _ _ (hI.halve (hne u hu)) fun us hl hp => by
        have := h (u :: us) (by simp [hl]) ⟨hu, hp⟩
        simp only [ippDef, hl] at this
        exact this
      exact ⟨av, bv, by rw [e, comb_halved]⟩
    -- the three points are combinations of the generators
    have h2 : ∀ d < 3, (fun d => if d = 0 then (combs F (n + n) gs hs Q).mkQ (R pre)
        else if d = 1 then (combs F (n + n) gs hs Q).mkQ P else (combs F (n + n) gs hs Q).mkQ (L pre)) d = 0 := by
      refine square_poly (S := Cs pre) 3 _ (le_trans (by norm_num) (hC pre).2) ?_
      intro u hu
      obtain ⟨av, bv, e⟩ := h1 u hu
      have hm : P + u ^ 2 • L pre + u⁻¹ ^ 2 • R pre ∈ combs F (n + n) gs hs Q := ⟨_, _, _, e⟩
      have hq : (combs F (n + n) gs hs Q).mkQ (u ^ 2 • (P + u ^ 2 • L pre + u⁻¹ ^ 2 • R pre)) = 0 := by
        exact (Submodule.Quotient.mk_eq_zero _).2 (Submodule.smul_mem _ _ hm)
      have e2 : u ^ 2 • (P + u ^ 2 • L pre + u⁻¹ ^ 2 • R pre) = R pre + u ^ 2 • P + (u ^ 2) ^ 2 • L pre := by
        have : u ^ 2 * u⁻¹ ^ 2 = 1 := by rw [← mul_pow, mul_inv_cancel₀ (hne u hu), one_pow]
        rw [smul_add, smul_add, smul_smul, smul_smul, this]
        module
      rw [e2] at hq
      simp only [map_add, map_smul] at hq
      simp only [Finset.sum_range_succ, Finset.sum_range_zero]
      refine Eq.trans ?_ hq
      simp
    have mem : ∀ x, (combs F (n + n) gs hs Q).mkQ x = 0 → x ∈ combs F (n + n) gs hs Q :=
      fun x hx => (Submodule.Quotient.mk_eq_zero _).1 hx
    obtain ⟨ra, rb, rc, hR⟩ := mem _ (by simpa using h2 0 (by norm_num))
    obtain ⟨pa, pb, pc, hP⟩ := mem _ (by simpa using h2 1 (by norm_num))
    obtain ⟨la, lb, lc, hL⟩ := mem _ (by simpa using h2 2 (by norm_num))
    have h3 : ∀ u ∈ Cs pre, ∃ av bv : Nat → F,
        (∀ i < n, pa i + u ^ 2 * la i + u⁻¹ ^ 2 * ra i = u⁻¹ * av i) ∧
        (∀ i < n, pa (n + i) + u ^ 2 * la (n + i) + u⁻¹ ^ 2 * ra (n + i) = u * av i) ∧
        (∀ i < n, pb i + u ^ 2 * lb i + u⁻¹ ^ 2 * rb i = u * bv i) ∧
        (∀ i < n, pb (n + i) + u ^ 2 * lb (n + i) + u⁻¹ ^ 2 * rb (n + i) = u⁻¹ * bv i) ∧
        pc + u ^ 2 * lc + u⁻¹ ^ 2 * rc = ∑ i ∈ range n, av i * bv i := by
      intro u hu
      obtain ⟨av, bv, e⟩ := h1 u hu
      rw [hP, hL, hR, ← comb_smul, ← comb_smul, ← comb_add, ← comb_add] at e
      obtain ⟨e1, e2, e3⟩ := hI.inj e
      refine ⟨av, bv, fun i hi => ?_, fun i hi => ?_, fun i hi => ?_, fun i hi => ?_, e3⟩
      · have := e1 i (by omega); simpa only [if_pos hi] using this
      · have := e1 (n + i) (by omega)
        simpa only [if_neg (show ¬ n + i < n by omega), Nat.add_sub_cancel_left] using this
      · have := e2 i (by omega); simpa only [if_pos hi] using this
      · have := e2 (n + i) (by omega)
        simpa only [if_neg (show ¬ n + i < n by omega), Nat.add_sub_cancel_left] using this
    have hA : ∀ i < n, ∀ d < 4, (fun d => if d = 0 then - ra (n + i) else if d = 1 then ra i - pa (n + i)
        else if d = 2 then pa i - la (n + i) else la i) d = 0 := by
      intro i hi
      refine square_poly (S := Cs pre) 4 _ (hC pre).2 fun u hu => ?_
      obtain ⟨av, bv, e1, e2, -⟩ := h3 u hu
      have hu0 := hne u hu
      have e1 := e1 i hi
      have e2 := e2 i hi
      simp only [Finset.sum_range_succ, Finset.sum_range_zero]
      simp
      field_simp at e1 e2
      linear_combination u ^ 2 * e1 - e2
    have hB : ∀ i < n, ∀ d < 4, (fun d => if d = 0 then rb i else if d = 1 then pb i - rb (n + i)
        else if d = 2 then lb i - pb (n + i) else - lb (n + i)) d = 0 := by
      intro i hi
      refine square_poly (S := Cs pre) 4 _ (hC pre).2 fun u hu => ?_
      obtain ⟨av, bv, -, -, e1, e2, -⟩ := h3 u hu
      have hu0 := hne u hu
      have e1 := e1 i hi
      have e2 := e2 i hi
      simp only [Finset.sum_range_succ, Finset.sum_range_zero]
      simp
      field_simp at e1 e2
      linear_combination e1 - u ^ 2 * e2
    have hA0 : ∀ i < n, ra (n + i) = 0 := fun i hi => by simpa using hA i hi 0 (by norm_num)
    have hA3 : ∀ i < n, la i = 0 := fun i hi => by simpa using hA i hi 3 (by norm_num)
    have hA1 : ∀ i < n, ra i = pa (n + i) := fun i hi => by simpa [sub_eq_zero] using hA i hi 1 (by norm_num)
    have hB0 : ∀ i < n, rb i = 0 := fun i hi => by simpa using hB i hi 0 (by norm_num)
    have hB3 : ∀ i < n, lb (n + i) = 0 := fun i hi => by simpa using hB i hi 3 (by norm_num)
    have hB1 : ∀ i < n, rb (n + i) = pb i := fun i hi => by
      have := hB i hi 1 (by norm_num)
      simp [sub_eq_zero] at this
      exact this.symm
    have hc : ∀ d < 3, (fun d => if d = 0 then rc - ∑ i ∈ range n, pa (n + i) * pb i
        else if d = 1 then pc - ∑ i ∈ range n, (pa i * pb i + pa (n + i) * pb (n + i))
        else lc - ∑ i ∈ range n, pa i * pb (n + i)) d = 0 := by
      refine square_poly (S := Cs pre) 3 _ (le_trans (by norm_num) (hC pre).2) fun u hu => ?_
      obtain ⟨av, bv, e1, e2, e3, e4, e5⟩ := h3 u hu
      have hu0 := hne u hu
      have hav : ∀ i < n, av i = u * pa i + u⁻¹ * pa (n + i) := by
        intro i hi
        have := e1 i hi
        rw [hA3 i hi, hA1 i hi] at this
        field_simp at this ⊢
        linear_combination -this
      have hbv : ∀ i < n, bv i = u⁻¹ * pb i + u * pb (n + i) := by
        intro i hi
        have := e4 i hi
        rw [hB3 i hi, hB1 i hi] at this
        field_simp at this ⊢
        linear_combination -this
      have hs : ∑ i ∈ range n, av i * bv i = ∑ i ∈ range n, (pa i * pb i + pa (n + i) * pb (n + i)) +
          u ^ 2 * ∑ i ∈ range n, pa i * pb (n + i) + u⁻¹ ^ 2 * ∑ i ∈ range n, pa (n + i) * pb i := by
        rw [Finset.mul_sum, Finset.mul_sum, ← Finset.sum_add_distrib, ← Finset.sum_add_distrib]
        refine Finset.sum_congr rfl fun i hi => ?_
        have hi := mem_range.1 hi
        rw [hav i hi, hbv i hi]
        field_simp
        ring
      rw [hs] at e5
      simp only [Finset.sum_range_succ _ 2, Finset.sum_range_succ _ 1, Finset.sum_range_succ _ 0, Finset.sum_range_zero]
      simp
      generalize ∑ i ∈ range n, (pa i * pb i + pa (n + i) * pb (n + i)) = s1 at *
      generalize ∑ i ∈ range n, pa i * pb (n + i) = s2 at *
      generalize ∑ i ∈ range n, pa (n + i) * pb i = s3 at *
      field_simp at e5
      linear_combination e5
    refine ⟨pa, pb, ?_⟩
    rw [hP]
    congr 1
    have := hc 1 (by norm_num)
    simp [sub_eq_zero] at this
    rw [this, Finset.sum_range_add, Finset.sum_add_distrib]

end CT
