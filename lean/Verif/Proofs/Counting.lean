import Mathlib.Data.Set.Card
import Mathlib.Data.Set.Card.Arithmetic
import Mathlib.Data.Fintype.BigOperators
import Mathlib.Logic.Equiv.Prod

/-! # Counting functions that hit a small set -/

namespace CT

/-- A share of `|S| / |A i|` of all functions take a value of `S` at `i`. -/
theorem ncard_hit {ι : Type} [Fintype ι] [DecidableEq ι] {A : ι → Type} [∀ i, Fintype (A i)] (i : ι) (S : Set (A i)) :
    Fintype.card (A i) * {f : ∀ j, A j | f i ∈ S}.ncard = S.ncard * Fintype.card (∀ j, A j) := by
  have e := Equiv.piSplitAt i A
  have h1 : {f : ∀ j, A j | f i ∈ S}.ncard = S.ncard * Fintype.card (∀ j : {j // j ≠ i}, A j) := by
    rw [← Set.ncard_image_of_injective _ (Equiv.piSplitAt i A).injective,
      show (Equiv.piSplitAt i A) '' {f : ∀ j, A j | f i ∈ S} = S ×ˢ Set.univ by
        ext ⟨a, b⟩
        simp only [Set.mem_image, Set.mem_ofPred_eq, Set.mem_prod, Set.mem_univ, and_true]
        constructor
        · rintro ⟨f, hf, e⟩
          have := congrArg Prod.fst e
          simp only [Equiv.piSplitAt_apply] at this
          rwa [← this]
        · intro ha
          refine ⟨(Equiv.piSplitAt i A).symm (a, b), ?_, Equiv.apply_symm_apply ..⟩
          simpa [Equiv.piSplitAt] using ha,
      Set.ncard_prod, Set.ncard_univ, Nat.card_eq_fintype_card]
  rw [h1, Fintype.card_congr (Equiv.piSplitAt i A), Fintype.card_prod]
  ring

/-- The union bound. -/
theorem ncard_hits {ι : Type} [Fintype ι] [DecidableEq ι] {A : ι → Type} [∀ i, Fintype (A i)] (S : ∀ i, Set (A i)) {m Q : Nat} (hS : ∀ i, (S i).ncard ≤ m)
    (hQ : ∀ i, Q ≤ Fintype.card (A i)) : Q * {f : ∀ i, A i | ∃ i, f i ∈ S i}.ncard ≤ m * Fintype.card ι * Fintype.card (∀ i, A i) := by
  have h1 : {f : ∀ i, A i | ∃ i, f i ∈ S i} = ⋃ i ∈ (Finset.univ : Finset ι), {f | f i ∈ S i} := by ext; simp
  have h2 : {f : ∀ i, A i | ∃ i, f i ∈ S i}.ncard ≤ ∑ i, {f : ∀ i, A i | f i ∈ S i}.ncard := by
    rw [h1]; exact Finset.set_ncard_biUnion_le _ _
  calc Q * _ ≤ Q * ∑ i, {f : ∀ i, A i | f i ∈ S i}.ncard := Nat.mul_le_mul_left _ h2
    _ = ∑ i, Q * {f : ∀ i, A i | f i ∈ S i}.ncard := Finset.mul_sum ..
    _ ≤ ∑ _i : ι, m * Fintype.card (∀ i, A i) := by
        refine Finset.sum_le_sum fun i _ => ?_
        calc Q * _ ≤ Fintype.card (A i) * {f : ∀ i, A i | f i ∈ S i}.ncard := Nat.mul_le_mul_right _ (hQ i)
          _ = (S i).ncard * _ := ncard_hit i (S i)
          _ ≤ _ := Nat.mul_le_mul_right _ (hS i)
    _ = _ := by rw [Finset.sum_const, Finset.card_univ, smul_eq_mul]; ring

/-- The same for two-level families. -/
theorem ncard_hits₂ {ι : Type} [Fintype ι] [DecidableEq ι] {κ : ι → Type} [∀ i, Fintype (κ i)] [∀ i, DecidableEq (κ i)] {A : ι → Type} [∀ i, Fintype (A i)]
    (S : ∀ i, κ i → Set (A i)) {m Q : Nat} (hS : ∀ i k, (S i k).ncard ≤ m) (hQ : ∀ i, Q ≤ Fintype.card (A i)) :
    Q * {f : ∀ i, κ i → A i | ∃ i k, f i k ∈ S i k}.ncard ≤ m * (∑ i, Fintype.card (κ i)) * Fintype.card (∀ i, κ i → A i) := by
  have h := ncard_hits (A := fun x : (Σ i, κ i) => A x.1) (fun x => S x.1 x.2) (fun x => hS x.1 x.2) (fun x => hQ x.1)
  rw [Fintype.card_sigma, Fintype.card_congr (Equiv.piCurry (fun (i : ι) (_ : κ i) => A i)),
    ← Set.ncard_image_of_injective _ (Equiv.piCurry (fun (i : ι) (_ : κ i) => A i)).injective] at h
  refine le_of_eq_of_le ?_ h
  congr 2
  ext f
  constructor
  · rintro ⟨i, k, hk⟩
    exact ⟨fun x => f x.1 x.2, ⟨⟨i, k⟩, hk⟩, rfl⟩
  · rintro ⟨g, ⟨⟨i, k⟩, hk⟩, rfl⟩
    exact ⟨i, k, hk⟩

end CT
