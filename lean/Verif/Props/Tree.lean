import Verif.Proofs.TreeWitness
import Verif.Proofs.Concrete

/-!
# Building curve trees and finding the path to a leaf
-/

namespace CT
variable {L M : Nat} {B P : Bool → Type}
variable [∀ p, Field (B p)] [∀ p, AddCommGroup (P p)] [∀ p, Module (B (!p)) (P p)]

/-- C25. `from_set` terminates for `L ≥ 2` (the number of loop iterations is at most the size of the set plus the requested
height) and returns a tree whose height is the maximum of the requested height and the least `h` with
`|set| ≤ L ^ h`; the leaves from left to right are the set, leaf `i` is found by following the base-`L` digits
of `i` and nothing else is found, and every node commits to its children. -/
theorem C25_from_set {prm : TreeParams B P} (hg : prm.EnoughGens L M) (hL : 2 ≤ L) {set : List (P false)}
    (h0 : set ≠ []) (height : Option Nat) :
    ∃ (t : CurveTree L M P) (h : Nat),
      (∀ fuel, set.length + height.getD 0 ≤ fuel → fromSet prm set height fuel = some (.ok t)) ∧
      set.length ≤ L ^ h ∧ (∀ k < h, L ^ k < set.length) ∧
      t.height = max h (height.getD 0) ∧
      t.leaves = set.map (fun c => ⟨false, c⟩) ∧
      t.elements = set.length ∧
      (∀ i < L ^ t.height, t.follow (digits L t.height i) = set[i]?.map fun c => ⟨false, c⟩) ∧
      t.Committed prm := by
  obtain ⟨t, h, h1, h2, h3, hs⟩ := fromSet_stores hg hL h0 height
  refine ⟨t, h, h1, h2, h3, hs.height, hs.leaves, by simpa using hs.elements, ?_, hs.committed⟩
  rw [hs.height]
  intro i hi
  rw [hs.follow i hi, List.getElem?_map]

/-- C25 (limits). `from_set` panics on the empty set and for branching factor 0, and for branching factor 1 it
never returns when there is more than one leaf. -/
theorem C25_from_set_limits {prm : TreeParams B P} (height : Option Nat) (fuel : Nat) :
    (∃ m, fromSet (L := L) (M := M) prm [] height fuel = some (.error (.panic m))) ∧
    (∀ set, ∃ m, fromSet (L := 0) (M := M) prm set height fuel = some (.error (.panic m))) ∧
    (prm.EnoughGens 1 M → ∀ set, 2 ≤ set.length → fromSet (L := 1) (M := M) prm set height fuel = none) := by
  refine ⟨⟨_, rfl⟩, fun set => ?_, fun hg set hs => ?_⟩
  · cases set with
    | nil => exact ⟨_, rfl⟩
    | cons a l => exact ⟨_, rfl⟩
  · unfold fromSet
    rw [if_neg (by rintro rfl; simp at hs), if_neg (by omega)]
    exact fromForest_one hg height fuel (leaf_forest prm set) (by simpa using hs)

/-- C26. For every tree returned by `from_set` and every index below the number of leaves the witness is a path
from the root to the leaf with that index, one node for each level. -/
theorem C26_witness_partial {prm : TreeParams B P} (hg : prm.EnoughGens L M) (hL : 2 ≤ L) {set : List (P false)}
    {height : Option Nat} {fuel : Nat} {t : CurveTree L M P} (ht : fromSet prm set height fuel = some (.ok t))
    (hfuel : set.length + height.getD 0 ≤ fuel) (idx : Fin M) {i : Nat} (hi : i < set.length) :
    ∃ nodes, t.witness prm i idx = .ok nodes ∧ t.PathTo prm idx nodes ⟨false, set[i]⟩ := by
  have h0 : set ≠ [] := by rintro rfl; simp at hi
  obtain ⟨t', h, h1, h2, h3, hs⟩ := fromSet_stores (M := M) hg hL h0 height
  rw [h1 fuel hfuel] at ht
  cases ht
  refine (tree_witness (by omega) i idx hs).1 _ ?_
  have hlt : i < L ^ max h (height.getD 0) :=
    lt_of_lt_of_le hi (le_trans h2 (Nat.pow_le_pow_right (by omega) (le_max_left _ _)))
  rw [Nat.mod_eq_of_lt hlt, List.getElem?_map, List.getElem?_eq_getElem hi]
  rfl

/-- C26. What happens for every index: it is reduced modulo the capacity `L ^ height`; if there is a leaf at that
position the witness is the path to it, otherwise the code panics. -/
theorem C26_witness_every_index {prm : TreeParams B P} (hg : prm.EnoughGens L M) (hL : 2 ≤ L) {set : List (P false)}
    {height : Option Nat} {fuel : Nat} {t : CurveTree L M P} (ht : fromSet prm set height fuel = some (.ok t))
    (hfuel : set.length + height.getD 0 ≤ fuel) (idx : Fin M) (i : Nat) :
    (∀ leaf, set[i % L ^ t.height]? = some leaf →
      ∃ nodes, t.witness prm i idx = .ok nodes ∧ t.PathTo prm idx nodes ⟨false, leaf⟩) ∧
    (set[i % L ^ t.height]? = none → ∃ m, t.witness prm i idx = .error (.panic m)) := by
  have h0 : set ≠ [] := by
    rintro rfl
    simp [fromSet] at ht
  obtain ⟨t', h, h1, h2, h3, hs⟩ := fromSet_stores (M := M) hg hL h0 height
  rw [h1 fuel hfuel] at ht
  cases ht
  obtain ⟨a, b⟩ := tree_witness (by omega) i idx hs
  rw [hs.height]
  rw [List.getElem?_map] at a b
  refine ⟨fun leaf e => a _ (by rw [e]; rfl), fun e => b (by rw [e]; rfl)⟩

/-- C26 is false of the code for indices outside the set: every index whose remainder modulo the capacity is the index of a leaf is
accepted, in particular `L ^ height`. -/
theorem C26_index_wraps {prm : TreeParams B P} (hg : prm.EnoughGens L M) (hL : 2 ≤ L) {set : List (P false)}
    {height : Option Nat} {fuel : Nat} {t : CurveTree L M P} (ht : fromSet prm set height fuel = some (.ok t))
    (hfuel : set.length + height.getD 0 ≤ fuel) (idx : Fin M) (h0 : 0 < set.length) :
    set.length ≤ L ^ t.height ∧ ∃ nodes, t.witness prm (L ^ t.height) idx = .ok nodes ∧
      t.PathTo prm idx nodes ⟨false, set[0]⟩ := by
  refine ⟨?_, (C26_witness_every_index hg hL ht hfuel idx _).1 _ ?_⟩
  · obtain ⟨t', h, h1, h2, h3, hs⟩ := fromSet_stores (M := M) hg hL (List.ne_nil_of_length_pos h0) height
    rw [h1 fuel hfuel] at ht
    cases ht
    rw [hs.height]
    exact le_trans h2 (Nat.pow_le_pow_right (by omega) (le_max_left _ _))
  · rw [Nat.mod_self, List.getElem?_eq_getElem h0]

section Example

/-- Parameters over the rationals: points and field elements are numbers, `xc` is the identity. -/
def exTree : TreeParams (fun _ => ℚ) (fun _ => ℚ) where
  gens _ := exGens
  delta _ := 1
  xc _ := id

theorem exTree_gens : exTree.EnoughGens 2 2 := fun _ => by
  change 4 ≤ exGens.Gs.length
  decide +kernel

/-- The height and the leaves of the tree with three leaves, requested height 3. -/
example : ∃ t : CurveTree 2 2 (fun _ => ℚ), fromSet exTree [(5 : ℚ), 6, 7] (some 3) 10 = some (.ok t) ∧
    t.height = 3 ∧ t.leaves = [⟨false, (5 : ℚ)⟩, ⟨false, (6 : ℚ)⟩, ⟨false, (7 : ℚ)⟩] := by
  obtain ⟨t, h, h1, h2, h3, h4, h5, _⟩ := C25_from_set (L := 2) (M := 2) exTree_gens le_rfl
    (set := [(5 : ℚ), 6, 7]) (by simp) (some 3)
  refine ⟨t, h1 10 (by simp), ?_, h5⟩
  rw [h4]
  have : h ≤ 3 := by
    by_contra hh
    have := h3 3 (by omega)
    simp at this
  simpa using this

/-- Index 2 is accepted and index 3, which has no leaf, is refused, index 4 is leaf 0 again. -/
example : ∃ t : CurveTree 2 2 (fun _ => ℚ), fromSet exTree [(5 : ℚ), 6, 7] none 10 = some (.ok t) ∧
    (∃ nodes, t.witness exTree 2 0 = .ok nodes ∧ t.PathTo exTree 0 nodes ⟨false, (7 : ℚ)⟩) ∧
    (∃ m, t.witness exTree 3 0 = .error (.panic m)) ∧
    (∃ nodes, t.witness exTree 4 0 = .ok nodes ∧ t.PathTo exTree 0 nodes ⟨false, (5 : ℚ)⟩) := by
  obtain ⟨t, h, h1, h2, h3, h4, h5, _⟩ := C25_from_set (L := 2) (M := 2) exTree_gens le_rfl
    (set := [(5 : ℚ), 6, 7]) (by simp) none
  have ht := h1 10 (by simp)
  have hh : t.height = 2 := by
    rw [h4]
    simp only [List.length_cons, List.length_nil] at h2 h3
    have : h ≤ 2 := by
      by_contra hh
      have := h3 2 (by omega)
      omega
    have : 2 ≤ h := by
      by_contra hh
      have : 2 ^ h ≤ 2 ^ 1 := Nat.pow_le_pow_right (by omega) (by omega)
      omega
    simp; omega
  refine ⟨t, ht, C26_witness_partial exTree_gens le_rfl ht (by simp) 0 (by simp), ?_, ?_⟩
  · exact (C26_witness_every_index exTree_gens le_rfl ht (by simp) 0 3).2 (by rw [hh]; simp)
  · exact (C26_witness_every_index exTree_gens le_rfl ht (by simp) 0 4).1 _ (by rw [hh]; simp)

/-- With branching factor 1 two leaves are too many. -/
example : fromSet (L := 1) (M := 2) exTree [(5 : ℚ), 6] none 1000 = none :=
  (C25_from_set_limits (L := 1) none 1000).2.2 (fun _ => by change 2 ≤ exGens.Gs.length; decide +kernel) _ (by simp)

end Example

end CT
