import Mathlib.LinearAlgebra.Finsupp.LinearCombination
import Mathlib.LinearAlgebra.Quotient.Basic
import Mathlib.LinearAlgebra.Dual.Lemmas
import Mathlib.LinearAlgebra.Basis.VectorSpace
import Mathlib.Algebra.Polynomial.Roots

/-! Linear algebra for the extraction of witnesses: a system of linear equations between generators and messages either
implies a relation between the generators, or has a solution in the free module over the generators. -/

namespace CT
open Finset

variable {F : Type} [Field F]

/-- Equations `D e = 0` between symbols, some of which (`inc`) are generators. -/
theorem lift_or_relation {Sym Gen Idx : Type} [Fintype Gen] [DecidableEq Gen] (inc : Gen → Sym) (D : Idx → Sym →₀ F) :
    (∃ r : Gen → F, r ≠ 0 ∧ ∀ (G : Type) [AddCommGroup G] [Module F G] (pts : Sym → G),
      (∀ e, Finsupp.linearCombination F pts (D e) = 0) → ∑ q, r q • pts (inc q) = 0) ∨
    (∃ P : Sym → Gen → F, (∀ q, P (inc q) = Pi.single q 1) ∧ ∀ e, Finsupp.linearCombination F P (D e) = 0) := by
  classical
  let W : Submodule F (Sym →₀ F) := Submodule.span F (Set.range D)
  let A : (Gen → F) →ₗ[F] (Sym →₀ F) := ∑ q, (LinearMap.proj q : (Gen → F) →ₗ[F] F).smulRight (Finsupp.single (inc q) (1 : F))
  have hA : ∀ r, A r = ∑ q, r q • Finsupp.single (inc q) (1 : F) := by
    intro r; simp [A, LinearMap.sum_apply]
  by_cases h : ∃ r, r ≠ 0 ∧ A r ∈ W
  · obtain ⟨r, hr, hW⟩ := h
    refine .inl ⟨r, hr, fun G _ _ pts hp => ?_⟩
    have hle : W ≤ LinearMap.ker (Finsupp.linearCombination F pts) := by
      rw [Submodule.span_le]
      rintro _ ⟨e, rfl⟩
      exact hp e
    have := hle hW
    rw [LinearMap.mem_ker, hA, map_sum] at this
    simpa using this
  · push Not at h
    right
    have hinj : LinearMap.ker (W.mkQ ∘ₗ A) = ⊥ := by
      rw [LinearMap.ker_eq_bot']
      intro r hr
      by_contra hne
      exact h r hne (by simpa using hr)
    obtain ⟨θ, hθ⟩ := LinearMap.exists_leftInverse_of_injective _ hinj
    refine ⟨fun s => θ (W.mkQ (Finsupp.single s 1)), fun q => ?_, fun e => ?_⟩
    · have h1 : A (Pi.single q 1) = Finsupp.single (inc q) 1 := by
        rw [hA, Finset.sum_eq_single q]
        · simp
        · intro b _ hb; simp [hb]
        · simp
      have := LinearMap.congr_fun hθ (Pi.single q 1)
      simpa [h1] using this
    · have h1 : Finsupp.linearCombination F (fun s => θ (W.mkQ (Finsupp.single s 1))) = θ ∘ₗ W.mkQ := by
        ext s : 2
        simp
      rw [h1]
      have : W.mkQ (D e) = 0 := by
        rw [Submodule.mkQ_apply, Submodule.Quotient.mk_eq_zero]
        exact Submodule.subset_span ⟨e, rfl⟩
      rw [LinearMap.comp_apply, this, map_zero]

/-- A polynomial with coefficients in a module which vanishes at more points than its degree is zero. -/
theorem vandermonde_zero {G : Type} [AddCommGroup G] [Module F G] (n : Nat) (P : Nat → G) (S : Finset F) (hS : n ≤ S.card)
    (h : ∀ x ∈ S, ∑ d ∈ range n, x ^ d • P d = 0) : ∀ d < n, P d = 0 := by
  intro d hd
  rw [← Module.forall_dual_apply_eq_zero_iff F]
  intro φ
  let p : Polynomial F := ∑ i ∈ range n, Polynomial.monomial i (φ (P i))
  have hp : p = 0 := by
    by_cases hn : n = 0
    · omega
    refine Polynomial.eq_zero_of_natDegree_lt_card_of_eval_eq_zero' p S ?_ ?_
    · intro x hx
      have := congrArg φ (h x hx)
      simp only [map_sum, map_smul, smul_eq_mul, map_zero] at this
      simp only [p, Polynomial.eval_finsetSum, Polynomial.eval_monomial]
      rw [← this]
      exact Finset.sum_congr rfl fun i _ => mul_comm _ _
    · refine lt_of_lt_of_le ?_ hS
      rw [Nat.lt_iff_le_pred (by omega)]
      refine Polynomial.natDegree_sum_le_of_forall_le _ _ fun i hi => ?_
      refine (Polynomial.natDegree_monomial_le _).trans ?_
      have := mem_range.1 hi
      omega
  have := congrArg (fun q => q.coeff d) hp
  simp only [p, Polynomial.finsetSum_coeff, Polynomial.coeff_monomial, Polynomial.coeff_zero] at this
  rw [Finset.sum_ite_eq', if_pos (by simpa using hd)] at this
  exact this

end CT
