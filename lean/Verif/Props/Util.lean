import Verif.Proofs.Util
import Mathlib.Tactic.LinearCombination
import Mathlib.Tactic.NormNum

/-! # Property C32: scalar and polynomial helpers -/

namespace CT
open Finset

variable {F : Type} [Field F]

/-- C32: `scalar_exp_vartime(x, n) = x^n`. -/
theorem C32_scalar_exp (x : F) (n : Nat) : scalarExpVartime x n = x ^ n := by
  simp [scalarExpVartime, scalarExpLoop_eq]

/-- C32: `exp_iter(x)` yields the powers of `x`, in order. -/
theorem C32_exp_iter (x : F) (n : Nat) : expIter x n = (List.range n).map fun i => x ^ i := by
  apply ext_getD 0 (by simp [expIter, expIterFrom_length])
  intro i _
  rw [expIter_getD, getD_map_range]

/-- C32: `sum_of_powers(x, n) = 1 + x + … + x^(n-1)`, for powers of two and for all other `n`. -/
theorem C32_sum_of_powers (x : F) (n : Nat) : sumOfPowers x n = ∑ i ∈ range n, x ^ i := by
  unfold sumOfPowers
  split
  · unfold sumOfPowersSlow
    rw [C32_exp_iter, map_range_sum]
  · rename_i h
    simp only [isPow2, Bool.not_eq_true, Bool.not_eq_false', Bool.and_eq_true, decide_eq_true_eq] at h
    split
    · rename_i h1
      rcases h1 with rfl | rfl <;> simp
    · rename_i h1
      obtain ⟨k, hk⟩ : ∃ k, n.log2 = k + 1 := by
        cases hl : n.log2 with
        | zero => rw [hl] at h; omega
        | succ k => exact ⟨k, rfl⟩
      have := sumOfPowersLoop_eq x k n 1 (by rw [← hk]; exact h.2.symm)
      simpa [Finset.sum_range_succ] using this

/-- C32: `Poly::eval` is polynomial evaluation. -/
theorem C32_poly_eval (p : List F) (x : F) :
    polyEval p x = ∑ d ∈ range p.length, p.getD d 0 * x ^ d := by
  rw [polyEval_eq]; exact Finset.sum_congr rfl fun d _ => mul_comm _ _

/-- C32: `VecPoly::eval` evaluates every coordinate. -/
theorem C32_vec_poly_eval (p : VecPoly F) (n : Nat) (x : F) (hp : p ≠ [])
    (hn : ∀ v ∈ p, v.length = n) :
    (p.eval x).length = n ∧ ∀ i < n,
      (p.eval x).getD i 0 = ∑ d ∈ range p.length, (p.getD d []).getD i 0 * x ^ d := by
  have hh : (p.headD []).length = n := by
    cases p with
    | nil => exact absurd rfl hp
    | cons v p => exact hn v (by simp)
  refine ⟨by rw [VecPoly.eval_length, hh], fun i hi => ?_⟩
  rw [VecPoly.eval_getD _ _ _ (by omega)]
  exact Finset.sum_congr rfl fun d _ => mul_comm _ _

/-- C32: evaluating the inner product of two vector polynomials (`VecPoly::inner_product`) is the inner
product of their evaluations. -/
theorem C32_vec_poly_inner_product (l r : VecPoly F) (n : Nat) (x : F) (hl : l ≠ []) (hr : r ≠ [])
    (hln : ∀ v ∈ l, v.length = n) (hrn : ∀ v ∈ r, v.length = n) :
    polyEval (VecPoly.innerProduct l r) x = CT.innerProduct (l.eval x) (r.eval x) :=
  VecPoly.innerProduct_eval l r n x hl hr hln hrn

/-- C32: the Karatsuba inner product of `VecPoly1` succeeds on vectors of equal length and evaluates to
the inner product of the evaluations. -/
theorem C32_vec_poly1_inner_product (l r : VecPoly1 F) (n : Nat) (x : F)
    (h0 : l.c0.length = n) (h1 : l.c1.length = n) (h2 : r.c0.length = n) (h3 : r.c1.length = n) :
    ∃ t, VecPoly1.innerProduct l r = .ok t ∧
      poly2Eval t x = CT.innerProduct (l.eval x) (r.eval x) := by
  have hz1 : (List.zipWith (· + ·) l.c0 l.c1).length = n := by simp [h0, h1]
  have hz2 : (List.zipWith (· + ·) r.c0 r.c1).length = n := by simp [h2, h3]
  refine ⟨(CT.innerProduct l.c0 r.c0,
    CT.innerProduct (List.zipWith (· + ·) l.c0 l.c1) (List.zipWith (· + ·) r.c0 r.c1) -
      CT.innerProduct l.c0 r.c0 - CT.innerProduct l.c1 r.c1, CT.innerProduct l.c1 r.c1), ?_, ?_⟩
  · simp [VecPoly1.innerProduct, innerProduct?, addVec, h0, h1, h2, h3, bind, Except.bind, pure,
      Except.pure]
  · have e1 : ∀ i < n, (List.zipWith (· + ·) l.c0 l.c1).getD i 0 = l.c0.getD i 0 + l.c1.getD i 0 := by
      intro i hi
      rw [getD_zipWith _ _ _ _ 0 0, if_pos (by omega)]
    have e2 : ∀ i < n, (List.zipWith (· + ·) r.c0 r.c1).getD i 0 = r.c0.getD i 0 + r.c1.getD i 0 := by
      intro i hi
      rw [getD_zipWith _ _ _ _ 0 0, if_pos (by omega)]
    have e3 : ∀ i < n, (l.eval x).getD i 0 = l.c0.getD i 0 + l.c1.getD i 0 * x := by
      intro i hi
      rw [VecPoly1.eval, getD_zipWith _ _ _ _ 0 0, if_pos (by omega)]
    have e4 : ∀ i < n, (r.eval x).getD i 0 = r.c0.getD i 0 + r.c1.getD i 0 * x := by
      intro i hi
      rw [VecPoly1.eval, getD_zipWith _ _ _ _ 0 0, if_pos (by omega)]
    unfold poly2Eval
    have f1 : ∑ i ∈ range n, (List.zipWith (· + ·) l.c0 l.c1).getD i 0 *
        (List.zipWith (· + ·) r.c0 r.c1).getD i 0 =
        ∑ i ∈ range n, (l.c0.getD i 0 + l.c1.getD i 0) * (r.c0.getD i 0 + r.c1.getD i 0) :=
      Finset.sum_congr rfl fun i hi => by rw [e1 i (mem_range.1 hi), e2 i (mem_range.1 hi)]
    have f2 : ∑ i ∈ range n, (l.eval x).getD i 0 * (r.eval x).getD i 0 =
        ∑ i ∈ range n, (l.c0.getD i 0 + l.c1.getD i 0 * x) * (r.c0.getD i 0 + r.c1.getD i 0 * x) :=
      Finset.sum_congr rfl fun i hi => by rw [e3 i (mem_range.1 hi), e4 i (mem_range.1 hi)]
    rw [innerProduct_eq l.c0 r.c0 n (by omega), innerProduct_eq l.c1 r.c1 n (by omega),
      innerProduct_eq _ _ n (Or.inl hz1.le),
      innerProduct_eq (l.eval x) (r.eval x) n (by simp [VecPoly1.eval]; omega), f1, f2]
    simp only [mul_add, add_mul, Finset.sum_add_distrib]
    have hA : ∑ i ∈ range n, l.c1.getD i 0 * x * r.c0.getD i 0 =
        x * ∑ i ∈ range n, l.c1.getD i 0 * r.c0.getD i 0 := by
      rw [Finset.mul_sum]; exact Finset.sum_congr rfl fun i _ => by ring
    have hB : ∑ i ∈ range n, l.c0.getD i 0 * (r.c1.getD i 0 * x) =
        x * ∑ i ∈ range n, l.c0.getD i 0 * r.c1.getD i 0 := by
      rw [Finset.mul_sum]; exact Finset.sum_congr rfl fun i _ => by ring
    have hC : ∑ i ∈ range n, l.c1.getD i 0 * x * (r.c1.getD i 0 * x) =
        x * (x * ∑ i ∈ range n, l.c1.getD i 0 * r.c1.getD i 0) := by
      rw [Finset.mul_sum, Finset.mul_sum]; exact Finset.sum_congr rfl fun i _ => by ring
    rw [hA, hB, hC]
    ring

/-- C32: `VecPoly3::special_inner_product`, for an `l` without constant term and an `r` without
quadratic term, succeeds and evaluates to the inner product of the evaluations. -/
theorem C32_vec_poly3_inner_product (l r : VecPoly3 F) (n : Nat) (x : F)
    (hl : l.c0 = List.replicate n 0) (hr : r.c2 = List.replicate n 0)
    (h1 : l.c1.length = n) (h2 : l.c2.length = n) (h3 : l.c3.length = n)
    (h4 : r.c0.length = n) (h5 : r.c1.length = n) (h6 : r.c3.length = n) :
    ∃ t, VecPoly3.specialInnerProduct l r = .ok t ∧
      poly6Eval t x = CT.innerProduct (l.eval x) (r.eval x) := by
  refine ⟨[CT.innerProduct l.c1 r.c0, CT.innerProduct l.c1 r.c1 + CT.innerProduct l.c2 r.c0,
    CT.innerProduct l.c2 r.c1 + CT.innerProduct l.c3 r.c0,
    CT.innerProduct l.c1 r.c3 + CT.innerProduct l.c3 r.c1,
    CT.innerProduct l.c2 r.c3, CT.innerProduct l.c3 r.c3], ?_, ?_⟩
  · simp [VecPoly3.specialInnerProduct, innerProduct?, h1, h2, h3, h4, h5, h6, bind, Except.bind, pure,
      Except.pure]
  · have hlen : (l.eval x).length = n := by simp [VecPoly3.eval, hl]
    have e : ∀ i ∈ range n, (l.eval x).getD i 0 * (r.eval x).getD i 0 =
        (x * (l.c1.getD i 0 + x * (l.c2.getD i 0 + x * l.c3.getD i 0))) *
          (r.c0.getD i 0 + x * (r.c1.getD i 0 + x * (x * r.c3.getD i 0))) := by
      intro i hi
      have hi := mem_range.1 hi
      rw [VecPoly3.eval, VecPoly3.eval, getD_map_range, getD_map_range,
        if_pos (by rw [hl]; simpa using hi), if_pos (by omega)]
      simp only [VecPoly3.evalAt]
      rw [hl, hr, getD_replicate', if_pos hi]
      ring
    rw [innerProduct_eq (l.eval x) (r.eval x) n (Or.inl hlen.le), Finset.sum_congr rfl e]
    simp only [poly6Eval, List.getD_cons_zero, List.getD_cons_succ]
    rw [innerProduct_eq l.c1 r.c0 n (by omega), innerProduct_eq l.c1 r.c1 n (by omega),
      innerProduct_eq l.c2 r.c0 n (by omega), innerProduct_eq l.c2 r.c1 n (by omega),
      innerProduct_eq l.c3 r.c0 n (by omega), innerProduct_eq l.c1 r.c3 n (by omega),
      innerProduct_eq l.c3 r.c1 n (by omega), innerProduct_eq l.c2 r.c3 n (by omega),
      innerProduct_eq l.c3 r.c3 n (by omega)]
    simp only [← Finset.sum_add_distrib, Finset.mul_sum]
    exact Finset.sum_congr rfl fun i _ => by ring

/-- The hypotheses are met: evaluation and inner product of two polynomials of different degrees. -/
example : polyEval (VecPoly.innerProduct [[1, 2], [3, 4], [5, 6]] [[1, 0], [2, 5]] : List ℚ) 2 =
    27 * 5 + 34 * 10 := by
  rw [C32_vec_poly_inner_product _ _ 2 2 (by simp) (by simp) (by simp) (by simp)]
  simp [VecPoly.eval, CT.innerProduct, List.range, List.range.loop]; norm_num

example : ∃ t, VecPoly1.innerProduct ⟨[1, 2], [3, 4]⟩ ⟨[5, 6], [7, (8 : ℚ)]⟩ = .ok t ∧
    poly2Eval t 2 = CT.innerProduct (VecPoly1.eval ⟨[1, 2], [3, 4]⟩ 2)
      (VecPoly1.eval ⟨[5, 6], [7, (8 : ℚ)]⟩ 2) :=
  C32_vec_poly1_inner_product _ _ 2 2 rfl rfl rfl rfl

example : ∃ t, VecPoly3.specialInnerProduct ⟨[0], [1], [2], [3]⟩ ⟨[4], [5], [0], [(7 : ℚ)]⟩ = .ok t ∧
    poly6Eval t 2 = CT.innerProduct (VecPoly3.eval ⟨[0], [1], [2], [3]⟩ 2)
      (VecPoly3.eval ⟨[4], [5], [0], [(7 : ℚ)]⟩ 2) :=
  C32_vec_poly3_inner_product _ _ 1 2 rfl rfl rfl rfl rfl rfl rfl rfl

example : sumOfPowers (3 : ℚ) 4 = 40 := by
  rw [C32_sum_of_powers]; simp [Finset.sum_range_succ]; norm_num

end CT
