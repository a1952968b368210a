import Mathlib.LinearAlgebra.Dual.Lemmas
import Verif.Spec.Openings
import Verif.Spec.Acceptance
import Verif.Props.Verification
import Verif.Props.Flatten

namespace CT
open Finset
variable {F : Type} [Field F]

/-- `committedPart` as a linear map. -/
def committedMap (q : LC F) : (Nat → F) →ₗ[F] F where
  toFun := committedPart q
  map_add' u v := by
    unfold committedPart
    induction q.terms with
    | nil => simp
    | cons t ts ih =>
      simp only [List.map_cons, List.sum_cons, ih]
      cases t.1 <;> simp only [Pi.add_apply, smul_eq_mul] <;> ring
  map_smul' c u := by
    unfold committedPart
    induction q.terms with
    | nil => simp
    | cons t ts ih =>
      simp only [List.map_cons, List.sum_cons, ih]
      cases t.1 <;> simp only [Pi.smul_apply, smul_eq_mul, RingHom.id_apply] <;> ring

/-- The coefficients. -/
theorem committedPart_eq {G : Type} [AddCommGroup G] [Module F G] (q : LC F) : ∃ K, ∀ n, K ≤ n → ∀ V : Nat → G,
    committedPart q V = ∑ k ∈ range n, committedPart q (fun j => if j = k then (1 : F) else 0) • V k := by
  obtain ⟨l⟩ := q
  induction l with
  | nil => exact ⟨0, fun n _ V => by simp [committedPart]⟩
  | cons t l ih =>
    obtain ⟨K, h⟩ := ih
    obtain ⟨v, c⟩ := t
    have e : ∀ n, K ≤ n → ∀ V : Nat → G, ((l.map fun t => match t.1 with | .committed j => t.2 • V j | _ => 0).sum : G) =
      ∑ k ∈ range n, ((l.map fun t => match t.1 with | .committed j => t.2 • (if j = k then (1 : F) else 0) | _ => 0).sum : F) • V k := h
    cases v with
    | committed j =>
      refine ⟨max K (j + 1), fun n hn V => ?_⟩
      simp only [committedPart, List.map_cons, List.sum_cons, add_smul, sum_add_distrib]
      refine congrArg₂ (· + ·) ?_ (e n (by omega) V)
      rw [sum_eq_single j]
      · simp
      · intro k _ hk; simp [Ne.symm hk]
      · intro hj; exact absurd (mem_range.2 (by omega)) hj
    | _ =>
      refine ⟨K, fun n hn V => ?_⟩
      simp only [committedPart, List.map_cons, List.sum_cons, zero_add]
      exact e n hn V

/-- If the constraints determine a variable, it is a linear combination of the committed parts of the constraints. -/
theorem Determined.combination {cs : List (LC F)} {j : Nat} (h : Determined cs j) : ∃ a : Fin cs.length → F,
    ∀ (G : Type) [AddCommGroup G] [Module F G] (V : Nat → G), ∑ i, a i • committedPart cs[i] V = V j := by
  have hm : LinearMap.proj (R := F) (φ := fun _ : Nat => F) j ∈ Submodule.span F (Set.range fun i : Fin cs.length => committedMap cs[i]) := by
    refine mem_span_of_iInf_ker_le_ker fun u hu => ?_
    simp only [Submodule.mem_iInf, LinearMap.mem_ker] at hu ⊢
    refine h u fun q hq => ?_
    obtain ⟨i, hi, rfl⟩ := List.mem_iff_getElem.1 hq
    exact hu ⟨i, hi⟩
  obtain ⟨a, ha⟩ := (Submodule.mem_span_range_iff_exists_fun F).1 hm
  refine ⟨a, fun G _ _ V => ?_⟩
  have hK : ∃ K, ∀ n, K ≤ n → ∀ i : Fin cs.length, ∀ V : Nat → G,
      committedPart cs[i] V = ∑ k ∈ range n, committedPart cs[i] (fun j => if j = k then (1 : F) else 0) • V k := by
    choose K hK using fun i : Fin cs.length => committedPart_eq (G := G) cs[i]
    exact ⟨∑ i, K i, fun n hn i V => hK i n ((single_le_sum (f := K) (fun _ _ => Nat.zero_le _) (mem_univ i)).trans hn) V⟩
  obtain ⟨K, hK⟩ := hK
  rw [sum_congr rfl fun i _ => by rw [hK (max K (j + 1)) (le_max_left _ _) i V, smul_sum]]
  rw [sum_comm, sum_eq_single j]
  · simp only [smul_smul]
    rw [← sum_smul]
    have := LinearMap.congr_fun ha (fun l => if l = j then 1 else 0)
    simp only [LinearMap.sum_apply, LinearMap.smul_apply, LinearMap.proj_apply, smul_eq_mul, if_true] at this
    have e : ∑ i, a i * committedPart cs[i] (fun l => if l = j then (1 : F) else 0) = 1 := this
    rw [e, one_smul]
  · intro k _ hk
    simp only [smul_smul]
    rw [← sum_smul]
    have := LinearMap.congr_fun ha (fun l => if l = k then 1 else 0)
    simp only [LinearMap.sum_apply, LinearMap.smul_apply, LinearMap.proj_apply, smul_eq_mul, if_neg (Ne.symm hk)] at this
    have e : ∑ i, a i * committedPart cs[i] (fun l => if l = k then (1 : F) else 0) = 0 := this
    rw [e, zero_smul]
  · intro hj; exact absurd (mem_range.2 (by omega)) hj

/-! ## Changes nobody can see -/

theorem eval_committed_shift (w : Assignment F) (u : Nat → F) (q : LC F) :
    ({ w with committed := fun j => w.committed j + u j } : Assignment F).eval q = w.eval q + committedPart q u := by
  unfold Assignment.eval committedPart
  induction q.terms with
  | nil => simp
  | cons t ts ih =>
    simp only [List.map_cons, List.sum_cons, ih]
    cases t.1 <;> simp only [Assignment.val, smul_eq_mul] <;> ring

theorem wV_shift {G X : Type} (t : VState F G X) {z : F} {wt : Weights F} (h : t.flattened z = some wt) {u : Nat → F}
    (hu : ∀ q ∈ t.constraints, committedPart q u = 0) : ∑ i ∈ range wt.wV.length, wt.wV.getD i 0 * u i = 0 := by
  let w : Assignment F := ⟨fun _ => 0, fun _ => 0, fun _ => 0, fun _ => 0, fun _ _ => 0⟩
  have h1 := C04_verifier_weights t z wt h w
  have h2 := C04_verifier_weights t z wt h { w with committed := fun j => w.committed j + u j }
  have h3 : weightedConstraints t.constraints z { w with committed := fun j => w.committed j + u j } = weightedConstraints t.constraints z w := by
    unfold weightedConstraints
    refine sum_congr rfl fun q hq => ?_
    rw [eval_committed_shift, getD_of_lt _ _ _ (mem_range.1 hq), hu _ (List.getElem_mem _), add_zero]
  rw [h3, ← h1] at h2
  simp only [Weights.apply, w, mul_zero, sum_const_zero, zero_add, add_zero] at h2
  linear_combination -h2

end CT
