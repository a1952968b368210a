import Mathlib.Data.Set.Card
import Mathlib.Data.Set.Card.Arithmetic
import Mathlib.Data.Fintype.BigOperators
import Mathlib.Tactic.Module

/-! # Counting choices that make a point the identity -/

namespace CT

variable {I F : Type} [Fintype I] [DecidableEq I] [Fintype F]

/-- If at most one value of coordinate `i` leads into `E`, whatever the other coordinates are, a share of at most `1 / q` of all choices is in `E`. -/
theorem ncard_one (E : Set (I → F)) (i : I) (h : ∀ f ∈ E, ∀ v, Function.update f i v ∈ E → v = f i) :
    Fintype.card F * E.ncard ≤ Fintype.card (I → F) := by
  classical
  have hinj : Set.InjOn (fun p : F × (I → F) => Function.update p.2 i p.1) (Set.univ ×ˢ E) := by
    rintro ⟨v, f⟩ ⟨-, hf⟩ ⟨v', f'⟩ ⟨-, hf'⟩ e
    simp only at e hf hf'
    have hv : v = v' := by simpa using congrFun e i
    have hff : f' = Function.update f i (f' i) := by
      funext j
      by_cases hj : j = i
      · subst hj; simp
      · have := congrFun e j
        simp only [Function.update_of_ne hj] at this ⊢
        exact this.symm
    have h1 := h f hf (f' i) (hff ▸ hf')
    rw [h1, Function.update_eq_self] at hff
    exact Prod.ext hv hff.symm
  have h2 := hinj.ncard_image
  rw [Set.ncard_prod, Set.ncard_univ, Nat.card_eq_fintype_card] at h2
  rw [← h2, ← Nat.card_eq_fintype_card, ← Set.ncard_univ]
  exact Set.ncard_le_ncard (Set.subset_univ _)

/-- If a point is bilinear in two coordinates, with a mixed coefficient that is not the identity, a share of at most `2 / q` of all choices make it the identity. -/
theorem ncard_bilinear [Field F] {G : Type} [AddCommGroup G] [Module F G] (E : Set (I → F)) (i k : I) (f : (I → F) → G) (hE : ∀ ω ∈ E, f ω = 0) (hik : i ≠ k)
    (h : ∀ ω ∈ E, ∃ r g t P : G, P ≠ 0 ∧ ∀ α β, f (Function.update (Function.update ω i α) k β) = r + α • g + β • t + (α * β) • P) :
    Fintype.card F * E.ncard ≤ 2 * Fintype.card (I → F) := by
  classical
  set E1 : Set (I → F) := {ω ∈ E | ∃ β, β ≠ ω k ∧ Function.update ω k β ∈ E} with hE1
  set E2 : Set (I → F) := {ω ∈ E | ¬ ∃ β, β ≠ ω k ∧ Function.update ω k β ∈ E} with hE2
  have hu : E = E1 ∪ E2 := by
    ext ω
    simp only [hE1, hE2, Set.mem_union, Set.mem_ofPred_eq]
    rw [← and_or_left]
    exact ⟨fun h => ⟨h, Classical.em _⟩, And.left⟩
  have c2 : Fintype.card F * E2.ncard ≤ Fintype.card (I → F) := by
    refine ncard_one E2 k fun ω hω v hv => ?_
    by_contra hne
    exact hω.2 ⟨v, hne, hv.1⟩
  have c1 : Fintype.card F * E1.ncard ≤ Fintype.card (I → F) := by
    refine ncard_one E1 i fun ω hω v hv => ?_
    by_contra hne
    obtain ⟨r, g, t, P, hP, e⟩ := h ω hω.1
    obtain ⟨β, hβ, hβE⟩ := hω.2
    obtain ⟨β', hβ', hβE'⟩ := hv.2
    rw [Function.update_of_ne hik.symm] at hβ'
    have z1 : r + ω i • g + ω k • t + (ω i * ω k) • P = 0 := by
      rw [← e (ω i) (ω k)]; simpa using hE _ hω.1
    have z2 : r + ω i • g + β • t + (ω i * β) • P = 0 := by
      rw [← e (ω i) β]; simpa using hE _ hβE
    have z3 : r + v • g + ω k • t + (v * ω k) • P = 0 := by
      rw [← e v (ω k)]
      have := hE _ hv.1
      rwa [show Function.update (Function.update ω i v) k (ω k) = Function.update ω i v from by
        rw [show ω k = Function.update ω i v k from (Function.update_of_ne hik.symm ..).symm, Function.update_eq_self]]
    have z4 : r + v • g + β' • t + (v * β') • P = 0 := by
      rw [← e v β']; exact hE _ hβE'
    have w1 : (β - ω k) • (t + ω i • P) = 0 := by
      rw [← sub_eq_zero.2 (z2.trans z1.symm)]; module
    have w2 : (β' - ω k) • (t + v • P) = 0 := by
      rw [← sub_eq_zero.2 (z4.trans z3.symm)]; module
    have y1 := (smul_eq_zero.1 w1).resolve_left (sub_ne_zero.2 hβ)
    have y2 := (smul_eq_zero.1 w2).resolve_left (sub_ne_zero.2 hβ')
    have y3 : (v - ω i) • P = 0 := by rw [← sub_eq_zero.2 (y2.trans y1.symm)]; module
    exact hP ((smul_eq_zero.1 y3).resolve_left (sub_ne_zero.2 hne))
  have := Set.ncard_union_le E1 E2
  rw [hu]
  calc _ ≤ Fintype.card F * (E1.ncard + E2.ncard) := Nat.mul_le_mul_left _ this
    _ ≤ _ := by rw [Nat.mul_add]; omega

/-- The union bound. -/
theorem ncard_union_bound {Ω J : Type} [Fintype J] (Q T : Nat) (E : J → Set Ω) (w : J → Nat) (h : ∀ j, Q * (E j).ncard ≤ w j * T) :
    Q * (⋃ j, E j).ncard ≤ (∑ j, w j) * T := by
  have h1 : (⋃ j, E j).ncard ≤ ∑ j, (E j).ncard := by
    have := Finset.set_ncard_biUnion_le (Finset.univ : Finset J) E
    simpa using this
  calc _ ≤ Q * ∑ j, (E j).ncard := Nat.mul_le_mul_left _ h1
    _ = ∑ j, Q * (E j).ncard := Finset.mul_sum ..
    _ ≤ ∑ j, w j * T := Finset.sum_le_sum fun j _ => h j
    _ = _ := (Finset.sum_mul ..).symm

end CT
