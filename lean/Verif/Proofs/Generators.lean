import Verif.Proofs.Lists

/-! Generators and the aggregated iterator. -/

namespace CT
namespace BPGens
variable {G : Type}

/-- The first `cap` items of each chain. -/
def table (ch : Nat → Nat → G) (cap parties : Nat) : List (List G) :=
  (List.range parties).map fun i => (List.range cap).map (ch (i % 2 ^ 32))

/-- What the generators should be. -/
def ideal (ch : Chains G) (cap parties : Nat) : BPGens G where
  gensCapacity := cap
  partyCapacity := parties
  Gvec := table (ch false) cap parties
  Hvec := table (ch true) cap parties

theorem table_extend (ch : Nat → Nat → G) (a b parties : Nat) (h : a < b) :
    ((table ch a parties).mapIdx fun i v => v ++ chainTake (ch (i % 2 ^ 32)) a (b - a)) =
      table ch b parties := by
  unfold table chainTake
  apply List.ext_getElem (by simp)
  intro i h1 h2
  simp only [List.getElem_mapIdx, List.getElem_map, List.getElem_range]
  apply List.ext_getElem (by simp; omega)
  intro j h3 h4
  rw [List.getElem_append]
  split
  · simp
  · rename_i h5
    simp only [List.length_map, List.length_range] at h5
    simp only [List.getElem_map, List.getElem_range, List.length_map, List.length_range]
    congr 1; omega

theorem increaseCapacity_ideal (ch : Chains G) (a b parties : Nat) :
    increaseCapacity ch (ideal ch a parties) b = ideal ch (max a b) parties := by
  unfold increaseCapacity
  by_cases h : a ≥ b
  · rw [if_pos (by simpa [ideal] using h), Nat.max_eq_left h]
  · rw [if_neg (by simpa [ideal] using h), Nat.max_eq_right (by omega)]
    simp only [ideal, table_extend _ _ _ _ (Nat.lt_of_not_le h)]

theorem new_eq_ideal (ch : Chains G) (cap parties : Nat) : new ch cap parties = ideal ch cap parties := by
  have h : ({ gensCapacity := 0, partyCapacity := parties
              Gvec := List.replicate parties [], Hvec := List.replicate parties [] } : BPGens G) =
      ideal ch 0 parties := by
    simp [ideal, table]
  unfold new
  rw [h, increaseCapacity_ideal, Nat.zero_max]

/-- What is left to yield. -/
def AggIter.rest (array : List (List G)) (s : AggIter) : List G :=
  ((array.getD s.partyIdx []).take s.n).drop s.genIdx ++
    ((array.take s.m).drop (s.partyIdx + 1)).flatMap fun row => row.take s.n

theorem AggIter.collect_eq (array : List (List G)) (n m : Nat) (hn : 0 < n) (hm : m ≤ array.length)
    (hrow : ∀ row ∈ array, n ≤ row.length) (fuel p g : Nat) (hp : p < m) (hg : g ≤ n) :
    AggIter.collect array fuel ⟨n, m, p, g⟩ = .ok ((AggIter.rest array ⟨n, m, p, g⟩).take fuel) := by
  induction fuel generalizing p g with
  | zero => simp [collect]
  | succ fuel ih =>
    have key : ∀ p g (hp : p < m) (hg : g < n),
        ∃ x, array[p]?.bind (fun row => row[g]?) = some x ∧ ∃ row, array[p]? = some row ∧ row[g]? = some x ∧
          AggIter.rest array ⟨n, m, p, g⟩ = x :: AggIter.rest array ⟨n, m, p, g + 1⟩ := by
      intro p g hp hg
      have hpa : p < array.length := by omega
      have hr := hrow _ (List.getElem_mem hpa)
      have hgr : g < (array[p]).length := by omega
      refine ⟨array[p][g], by simp [hpa, hgr], array[p], by simp [hpa], by simp [hgr], ?_⟩
      simp only [AggIter.rest]
      rw [getD_of_lt _ _ _ hpa, List.drop_eq_getElem_cons (by simp; omega)]
      simp
    by_cases h : g = n
    · subst h
      have e : AggIter.rest array ⟨g, m, p, g⟩ = if p + 1 < m then AggIter.rest array ⟨g, m, p + 1, 0⟩ else [] := by
        simp only [AggIter.rest]
        rw [List.drop_eq_nil_of_le (by simp), List.nil_append]
        split
        · rename_i h1
          rw [List.drop_eq_getElem_cons (by simp; omega), List.flatMap_cons]
          congr 1
          rw [getD_of_lt _ _ _ (by omega)]
          simp
        · rename_i h1
          rw [List.drop_eq_nil_of_le (by simp; omega)]; rfl
      rw [collect, AggIter.next, e]
      simp only [ge_iff_le, le_refl, if_true]
      by_cases h1 : p + 1 < m
      · obtain ⟨x, -, row, h2, h3, h4⟩ := key (p + 1) 0 h1 hn
        rw [if_neg (by omega), if_pos h1, h4]
        simp only [h2, h3, Nat.zero_add]
        rw [ih (p + 1) 1 h1 (by omega)]
        simp
      · rw [if_pos (by omega), if_neg h1]; simp
    · obtain ⟨x, -, row, h2, h3, h4⟩ := key p g hp (by omega)
      rw [collect, AggIter.next, h4]
      simp only [ge_iff_le, if_neg (show ¬ n ≤ g by omega), if_neg (show ¬ m ≤ p by omega), h2, h3]
      rw [ih p (g + 1) hp (by omega)]
      simp

theorem AggIter.rest_start (array : List (List G)) (n m : Nat) (h0 : 0 < m) (hm : m ≤ array.length) :
    AggIter.rest array ⟨n, m, 0, 0⟩ = (array.take m).flatMap fun row => row.take n := by
  have : array.take m = array.getD 0 [] :: (array.take m).drop 1 := by
    cases array with
    | nil => simp at hm; omega
    | cons a l =>
      obtain ⟨k, rfl⟩ : ∃ k, m = k + 1 := ⟨m - 1, by omega⟩
      simp
  conv_rhs => rw [this]
  simp [AggIter.rest]

end BPGens
end CT
