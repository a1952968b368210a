import Verif.Proofs.Lists
import Mathlib.Algebra.BigOperators.Intervals
import Mathlib.Algebra.BigOperators.NatAntidiagonal


/-! Polynomials, powers. -/

namespace CT
open Finset

variable {F : Type} [Field F]

theorem horner_foldl (x : F) (f : List F → F) (l : List (List F)) (acc : F) :
    l.foldl (fun out v => out * x + f v) acc =
      acc * x ^ l.length + ∑ d ∈ range l.length, x ^ (l.length - 1 - d) * f (l.getD d []) := by
  induction l generalizing acc with
  | nil => simp
  | cons v l ih =>
    rw [List.foldl_cons, ih, List.length_cons, Finset.sum_range_succ']
    simp only [List.getD_cons_succ, List.getD_cons_zero]
    have : ∀ d ∈ range l.length, x ^ (l.length + 1 - 1 - (d + 1)) * f (l.getD d []) =
        x ^ (l.length - 1 - d) * f (l.getD d []) := by
      intro d _
      congr 2; omega
    rw [Finset.sum_congr rfl this]
    simp only [Nat.add_sub_cancel, Nat.sub_zero, pow_succ]
    ring

theorem polyEval_eq (p : List F) (x : F) : polyEval p x = ∑ d ∈ range p.length, x ^ d * p.getD d 0 := by
  have h := horner_foldl x (fun v => v.getD 0 0) ((p.reverse).map fun a => [a]) 0
  rw [List.foldl_map] at h
  simp only [List.getD_cons_zero] at h
  unfold polyEval
  rw [h, ← Finset.sum_range_reflect]
  simp only [zero_mul, zero_add, List.length_map, List.length_reverse]
  refine Finset.sum_congr rfl fun d hd => ?_
  have hd := Finset.mem_range.1 hd
  have e : ((p.reverse).map fun a => [a]).getD (p.length - 1 - d) [] = [p.getD d 0] := by
    rw [getD_map' _ _ _ 0, if_pos (by simp; omega), getD_reverse' _ _ _ (by omega)]
    congr 2; omega
  rw [e]
  simp only [List.getD_cons_zero]
  congr 2; omega

theorem VecPoly.eval_length (p : VecPoly F) (x : F) : (p.eval x).length = (p.headD []).length := by
  simp [VecPoly.eval]

theorem VecPoly.eval_getD (p : VecPoly F) (x : F) (i : Nat) (hi : i < (p.headD []).length) :
    (p.eval x).getD i 0 = ∑ d ∈ range p.length, x ^ d * (p.getD d []).getD i 0 := by
  unfold VecPoly.eval
  rw [getD_map_range, if_pos hi, horner_foldl x (fun v => v.getD i 0) p.reverse 0,
    ← Finset.sum_range_reflect]
  simp only [zero_mul, zero_add, List.length_reverse]
  refine Finset.sum_congr rfl fun d hd => ?_
  have hd := Finset.mem_range.1 hd
  rw [getD_reverse' _ _ _ (by omega)]
  congr 3 <;> omega

theorem VecPoly.innerProduct_getD (l r : VecPoly F) (d : Nat) (hd : d < l.length - 1 + (r.length - 1) + 1) :
    (VecPoly.innerProduct l r).getD d 0 = ∑ i ∈ range (d + 1),
      if i ≤ l.length - 1 ∧ d - i ≤ r.length - 1 then
        CT.innerProduct (l.getD i []) (r.getD (d - i) []) else 0 := by
  unfold VecPoly.innerProduct
  rw [getD_map_range, if_pos hd, map_range_sum]

/-- A Cauchy product, bounded on both sides. -/
theorem cauchy (f : Nat → Nat → F) (x : F) (A B : Nat) :
    ∑ d ∈ range (A + B + 1), x ^ d * ∑ i ∈ range (d + 1), (if i ≤ A ∧ d - i ≤ B then f i (d - i) else 0) =
      ∑ i ∈ range (A + 1), ∑ j ∈ range (B + 1), x ^ i * x ^ j * f i j := by
  have h1 : ∀ d, x ^ d * ∑ i ∈ range (d + 1), (if i ≤ A ∧ d - i ≤ B then f i (d - i) else 0) =
      ∑ p ∈ Finset.antidiagonal d, (if p.1 ≤ A ∧ p.2 ≤ B then x ^ p.1 * x ^ p.2 * f p.1 p.2 else 0) := by
    intro d
    rw [Finset.Nat.sum_antidiagonal_eq_sum_range_succ
      (fun i j => if i ≤ A ∧ j ≤ B then x ^ i * x ^ j * f i j else 0), Finset.mul_sum]
    refine Finset.sum_congr rfl fun i hi => ?_
    have hi := Finset.mem_range.1 hi
    split
    · rw [← pow_add]; congr 2; omega
    · simp
  simp only [h1]
  rw [Finset.sum_sigma']
  rw [← Finset.sum_product']
  symm
  apply Finset.sum_bij_ne_zero (fun (p : Nat × Nat) _ _ => (⟨p.1 + p.2, p⟩ : Σ _ : Nat, Nat × Nat))
  · intro p hp _
    simp only [Finset.mem_product, Finset.mem_range, Finset.mem_sigma, Finset.mem_antidiagonal] at hp ⊢
    exact ⟨by omega, trivial⟩
  · intro p _ _ q _ _ h
    simpa using congrArg Sigma.snd h
  · rintro ⟨d, p⟩ hp hne
    simp only [Finset.mem_sigma, Finset.mem_range, Finset.mem_antidiagonal] at hp
    by_cases hc : p.1 ≤ A ∧ p.2 ≤ B
    · simp only [if_pos hc] at hne
      refine ⟨p, by simp; omega, hne, ?_⟩
      obtain ⟨-, rfl⟩ := hp
      rfl
    · simp only [if_neg hc] at hne
      exact absurd rfl hne
  · intro p hp _
    simp only [Finset.mem_product, Finset.mem_range] at hp
    have hc : p.1 ≤ A ∧ p.2 ≤ B := by omega
    simp only [if_pos hc]

omit [Field F] in
theorem headD_eq (p : List (List F)) : p.headD [] = p.getD 0 [] := by cases p <;> rfl

/-- `t(x) = <l(x), r(x)>`. -/
theorem VecPoly.innerProduct_eval (l r : VecPoly F) (n : Nat) (x : F) (hl : l ≠ []) (hr : r ≠ [])
    (hln : ∀ v ∈ l, v.length = n) (hrn : ∀ v ∈ r, v.length = n) :
    polyEval (VecPoly.innerProduct l r) x = CT.innerProduct (l.eval x) (r.eval x) := by
  obtain ⟨A, hA⟩ : ∃ A, l.length = A + 1 := Nat.exists_eq_succ_of_ne_zero (by simpa using hl)
  obtain ⟨B, hB⟩ : ∃ B, r.length = B + 1 := Nat.exists_eq_succ_of_ne_zero (by simpa using hr)
  have hln' : ∀ d < A + 1, (l.getD d []).length = n := fun d hd => by
    rw [getD_of_lt _ _ _ (by omega)]; exact hln _ (List.getElem_mem _)
  have hrn' : ∀ d < B + 1, (r.getD d []).length = n := fun d hd => by
    rw [getD_of_lt _ _ _ (by omega)]; exact hrn _ (List.getElem_mem _)
  have hlen : (VecPoly.innerProduct l r).length = A + B + 1 := by
    simp [VecPoly.innerProduct, hA, hB]
  rw [polyEval_eq, hlen]
  have h1 : ∀ d ∈ range (A + B + 1), x ^ d * (VecPoly.innerProduct l r).getD d 0 =
      x ^ d * ∑ i ∈ range (d + 1), (if i ≤ A ∧ d - i ≤ B then
        CT.innerProduct (l.getD i []) (r.getD (d - i) []) else 0) := by
    intro d hd
    have hd := Finset.mem_range.1 hd
    rw [VecPoly.innerProduct_getD _ _ _ (by omega)]
    simp only [hA, hB, Nat.add_sub_cancel]
  rw [Finset.sum_congr rfl h1, cauchy (fun i j => CT.innerProduct (l.getD i []) (r.getD j []))]
  have hhl : (l.headD []).length = n := by rw [headD_eq]; exact hln' 0 (by omega)
  have hhr : (r.headD []).length = n := by rw [headD_eq]; exact hrn' 0 (by omega)
  rw [innerProduct_eq _ _ n (Or.inl (by rw [VecPoly.eval_length, hhl]))]
  have h2 : ∀ i ∈ range n, (l.eval x).getD i 0 * (r.eval x).getD i 0 =
      ∑ a ∈ range (A + 1), ∑ b ∈ range (B + 1),
        x ^ a * x ^ b * ((l.getD a []).getD i 0 * (r.getD b []).getD i 0) := by
    intro i hi
    have hi := Finset.mem_range.1 hi
    rw [VecPoly.eval_getD _ _ _ (by omega), VecPoly.eval_getD _ _ _ (by omega), hA, hB,
      Finset.sum_mul_sum]
    refine Finset.sum_congr rfl fun a _ => Finset.sum_congr rfl fun b _ => ?_
    ring
  rw [Finset.sum_congr rfl h2]
  symm
  rw [Finset.sum_comm]
  refine Finset.sum_congr rfl fun a ha => ?_
  rw [Finset.sum_comm]
  refine Finset.sum_congr rfl fun b _ => ?_
  rw [innerProduct_eq _ _ n (Or.inl (hln' a (Finset.mem_range.1 ha)).le), Finset.mul_sum]

theorem scalarExpLoop_eq (result aux : F) (n : Nat) : scalarExpLoop result aux n = result * aux ^ n := by
  induction n using Nat.strong_induction_on generalizing result aux with
  | _ n ih =>
    rw [scalarExpLoop]
    split
    · rename_i h; subst h; simp
    · rename_i h
      rw [ih (n / 2) (by omega)]
      rcases Nat.mod_two_eq_zero_or_one n with h2 | h2
      · have e : n = 2 * (n / 2) := by omega
        rw [if_neg (by omega)]
        conv_rhs => rw [e, pow_mul]
        rw [pow_two]
      · have e : n = 2 * (n / 2) + 1 := by omega
        rw [if_pos h2]
        conv_rhs => rw [e, pow_succ, pow_mul]
        rw [pow_two]; ring

theorem sumOfPowersLoop_eq (x : F) (k : Nat) (m : Nat) (e : Nat) (hm : m = 2 ^ (k + 1)) :
    sumOfPowersLoop (∑ i ∈ range (2 * e), x ^ i) (x ^ e) m = ∑ i ∈ range (m * e), x ^ i := by
  induction k generalizing m e with
  | zero =>
    rw [sumOfPowersLoop, dif_neg (by omega), hm]; norm_num
  | succ k ih =>
    have h2 : 2 < m := by
      have := Nat.one_le_two_pow (n := k)
      rw [hm, pow_succ, pow_succ]; omega
    rw [sumOfPowersLoop, dif_pos h2]
    have e1 : x ^ e * x ^ e = x ^ (2 * e) := by rw [← pow_add]; congr 1; omega
    have e2 : ∑ i ∈ range (2 * e), x ^ i + x ^ e * x ^ e * ∑ i ∈ range (2 * e), x ^ i =
        ∑ i ∈ range (2 * (2 * e)), x ^ i := by
      rw [two_mul (2 * e), Finset.sum_range_add, e1, Finset.mul_sum]
      congr 1
      refine Finset.sum_congr rfl fun i _ => ?_
      rw [pow_add]
    rw [e2, e1, ih (m / 2) (2 * e) (by rw [hm, pow_succ]; omega)]
    have : m / 2 * (2 * e) = m * e := by
      have : m = 2 * (m / 2) := by rw [hm, pow_succ]; omega
      conv_rhs => rw [this]
      ring
    rw [this]

end CT
