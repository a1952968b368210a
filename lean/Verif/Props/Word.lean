import Verif.Proofs.Word
import Verif.Props.Tree

/-!
# C59: the index of a leaf on a machine

`m : Machine` is any word size with or without overflow checks.
-/

namespace CT
variable {L M : Nat} {B P : Bool → Type}
variable [∀ p, Field (B p)] [∀ p, AddCommGroup (P p)] [∀ p, Module (B (!p)) (P p)]

omit [∀ p, Module (B (!p)) (P p)] in
theorem tree_machine_exact {m : Machine} {prm : TreeParams B P} (hL : 0 < L) {index : Nat} {i : Fin M} {h : Nat} (hlt : L ^ h < m.size)
    {t : CurveTree L M P} (hu : t.Uniform h) : t.machineWitness m prm index i = t.witness prm index i := by
  cases t <;>
  simp only [CurveTree.machineWitness, CurveTree.witness, CurveTree.machineNodes, CurveTree.witnessNodes,
    node_machine_exact m prm hL index i h hlt _ _ hu]

/-- C59. If the capacity `L ^ height` of the tree fits into a word, every index below the number of leaves gives the path to its leaf. -/
theorem C59_fits_partial {prm : TreeParams B P} (hg : prm.EnoughGens L M) (hL : 2 ≤ L) {set : List (P false)}
    {height : Option Nat} {fuel : Nat} {t : CurveTree L M P} (ht : fromSet prm set height fuel = some (.ok t))
    (hfuel : set.length + height.getD 0 ≤ fuel) (m : Machine) (hm : L ^ t.height < 2 ^ m.bits) (idx : Fin M) {i : Nat} (hi : i < set.length) :
    ∃ nodes, t.machineWitness m prm i idx = .ok nodes ∧ t.PathTo prm idx nodes ⟨false, set[i]⟩ := by
  have h0 : set ≠ [] := by rintro rfl; simp at hi
  obtain ⟨nodes, h1, h2⟩ := C26_witness_partial hg hL ht hfuel idx hi
  obtain ⟨t', h, e1, _, _, hs⟩ := fromSet_stores (M := M) hg hL h0 height
  rw [e1 fuel hfuel] at ht
  cases ht
  rw [hs.height] at hm
  exact ⟨nodes, by rw [tree_machine_exact (by omega) hm hs.uniform, h1], h2⟩

/-- C59. The machine never returns the path to another leaf: if the leaves fit into a full tree whose capacity fits into a word (whatever height
the tree was given), then for an index below the number of leaves the result is the path to its leaf, or a panic. -/
theorem C59_never_another_leaf {prm : TreeParams B P} (hg : prm.EnoughGens L M) (hL : 2 ≤ L) {set : List (P false)}
    {height : Option Nat} {fuel : Nat} {t : CurveTree L M P} (ht : fromSet prm set height fuel = some (.ok t))
    (hfuel : set.length + height.getD 0 ≤ fuel) (m : Machine) {b : Nat} (hb : set.length ≤ L ^ b) (hm : L ^ b < 2 ^ m.bits)
    (idx : Fin M) {i : Nat} (hi : i < set.length) :
    (∃ nodes, t.machineWitness m prm i idx = .ok nodes ∧ t.PathTo prm idx nodes ⟨false, set[i]⟩) ∨
    ∃ e, t.machineWitness m prm i idx = .error e := by
  have h0 : set ≠ [] := by rintro rfl; simp at hi
  obtain ⟨nodes, h1, h2⟩ := C26_witness_partial hg hL ht hfuel idx hi
  obtain ⟨t', h, e1, _, _, hs⟩ := fromSet_stores (M := M) hg hL h0 height
  rw [e1 fuel hfuel] at ht
  cases ht
  have hL0 : 0 < L := by omega
  have hagree : ∀ {H j : Nat} (_ : j < L ^ b) (_ : ∀ k < H, L ^ (k + 1) < m.size → j / L ^ k % L = i / L ^ k % L),
      ∀ k < H, j / L ^ k % L = i / L ^ k % L := by
    intro H j hj hd k hk
    rcases Nat.lt_or_ge k b with hkb | hkb
    · exact hd k hk (lt_of_le_of_lt (Nat.pow_le_pow_right hL0 hkb) hm)
    · have hp := Nat.pow_le_pow_right hL0 hkb
      rw [Nat.div_eq_of_lt (lt_of_lt_of_le hj hp), Nat.div_eq_of_lt (lt_of_lt_of_le (lt_of_lt_of_le hi hb) hp)]
  cases hw : t.machineWitness m prm i idx with
  | error e => exact .inr ⟨e, rfl⟩
  | ok w =>
    refine .inl ⟨nodes, ?_, h2⟩
    obtain ⟨j, hj, hd, hwit⟩ : ∃ j < L ^ max h (height.getD 0), (∀ k < max h (height.getD 0), L ^ (k + 1) < m.size →
        j / L ^ k % L = i / L ^ k % L) ∧ (t.witness prm j idx = .ok w ∧ ((∀ k < max h (height.getD 0), j / L ^ k % L = i / L ^ k % L) →
          t.witness prm i idx = .ok w)) := by
      cases t with
      | even n =>
        simp only [CurveTree.machineWitness, CurveTree.machineNodes] at hw
        cases hn : n.machineWitness m prm i idx fun _ => [] with
        | error e => simp [hn, bind, Except.bind] at hw
        | ok w' =>
          obtain ⟨j, hj, hd, hwit⟩ := node_machine_ok m prm hL0 i idx _ n _ _ hs.uniform hn
          rw [hn] at hw
          refine ⟨j, hj, hd, ?_, fun hc => ?_⟩
          · simp only [CurveTree.witness, CurveTree.witnessNodes, hwit]; exact hw
          · simp only [CurveTree.witness, CurveTree.witnessNodes]
            rw [← node_witness_congr prm j i idx _ hc n _ hs.uniform, hwit]; exact hw
      | odd n =>
        simp only [CurveTree.machineWitness, CurveTree.machineNodes] at hw
        cases hn : n.machineWitness m prm i idx fun _ => [] with
        | error e => simp [hn, bind, Except.bind] at hw
        | ok w' =>
          obtain ⟨j, hj, hd, hwit⟩ := node_machine_ok m prm hL0 i idx _ n _ _ hs.uniform hn
          rw [hn] at hw
          refine ⟨j, hj, hd, ?_, fun hc => ?_⟩
          · simp only [CurveTree.witness, CurveTree.witnessNodes, hwit]; exact hw
          · simp only [CurveTree.witness, CurveTree.witnessNodes]
            rw [← node_witness_congr prm j i idx _ hc n _ hs.uniform, hwit]; exact hw
    have hjlen : j < set.length := by
      by_contra hlt
      obtain ⟨e, he⟩ := (tree_witness hL0 j idx hs).2 (by
        rw [Nat.mod_eq_of_lt hj]; simpa using hlt)
      rw [hwit.1] at he
      cases he
    rw [← h1]
    exact (hwit.2 (hagree (lt_of_lt_of_le hjlen hb) hd)).symm ▸ rfl

omit [∀ p, Module (B (!p)) (P p)] in
theorem tree_machine_panics {m : Machine} {prm : TreeParams B P} {index : Nat} {i : Fin M} {h : Nat} (hh : 0 < h)
    {t : CurveTree L M P} (hu : t.Uniform h) (ho : 2 ^ m.bits ≤ L ^ h) (hc : m.checks = true ∨ 2 ^ m.bits ∣ L ^ h) :
    ∃ s, t.machineWitness m prm index i = .error (.panic s) := by
  have key : ∃ s, m.childIndex L h index = .error (.panic s) := by
    unfold Machine.childIndex
    by_cases hb : m.checks = true
    · exact ⟨"attempt to multiply with overflow", by
        simp only [Machine.pow, Machine.size, if_neg (Nat.not_lt.2 ho), hb, if_true]⟩
    · have e : m.pow L h = .ok 0 := by
        rw [Machine.pow, if_neg (Nat.not_lt.2 (show m.size ≤ _ from ho)), if_neg hb]
        exact congrArg _ (Nat.mod_eq_zero_of_dvd (hc.resolve_left hb))
      rw [e]
      have : ∃ c, m.pow L (h - 1) = .ok c := by
        unfold Machine.pow
        rw [if_neg hb]
        split
        · exact ⟨_, rfl⟩
        · exact ⟨_, rfl⟩
      obtain ⟨c, hc⟩ := this
      exact ⟨"attempt to calculate the remainder with a divisor of zero", by simp only [hc, if_true]⟩
  obtain ⟨s, hs⟩ := key
  refine ⟨s, ?_⟩
  cases t with
  | even n =>
    cases n with
    | leaf c => exact absurd hu.1 (by omega)
    | branch comm ch h' e =>
      obtain ⟨rfl, _, _⟩ := hu
      simp only [CurveTree.machineWitness, CurveTree.machineNodes, Node.machineWitness, hs]; rfl
  | odd n =>
    cases n with
    | leaf c => exact absurd hu.1 (by omega)
    | branch comm ch h' e =>
      obtain ⟨rfl, _, _⟩ := hu
      simp only [CurveTree.machineWitness, CurveTree.machineNodes, Node.machineWitness, hs]; rfl

/-- C59 is false of the code: if the capacity does not fit into a word, then with overflow checks every index panics, and without them every
index panics if the capacity is a multiple of the number of words (as it is for every power of two). -/
theorem C59_overflow_panics {prm : TreeParams B P} (hg : prm.EnoughGens L M) (hL : 2 ≤ L) {set : List (P false)}
    {height : Option Nat} {fuel : Nat} {t : CurveTree L M P} (ht : fromSet prm set height fuel = some (.ok t))
    (hfuel : set.length + height.getD 0 ≤ fuel) (m : Machine) (ho : 2 ^ m.bits ≤ L ^ t.height)
    (hc : m.checks = true ∨ 2 ^ m.bits ∣ L ^ t.height) (hb : 0 < m.bits) (idx : Fin M) (i : Nat) :
    ∃ s, t.machineWitness m prm i idx = .error (.panic s) := by
  have h0 : set ≠ [] := by
    rintro rfl
    simp [fromSet] at ht
  obtain ⟨t', h, e1, _, _, hs⟩ := fromSet_stores (M := M) hg hL h0 height
  rw [e1 fuel hfuel] at ht
  cases ht
  rw [hs.height] at ho hc
  refine tree_machine_panics ?_ hs.uniform ho hc
  rcases Nat.eq_zero_or_pos (max h (height.getD 0)) with e | e
  · rw [e, pow_zero] at ho
    exact absurd ho (Nat.not_le.2 (Nat.one_lt_two_pow (by omega)))
  · exact e

/-- C59. If the branching factor is a power of two, then on every machine the paths to the leaves are found exactly if the capacity fits into a
word. -/
theorem C59_power_of_two {prm : TreeParams B P} {l : Nat} (hl : 0 < l) (hg : prm.EnoughGens (2 ^ l) M) {set : List (P false)}
    {height : Option Nat} {fuel : Nat} {t : CurveTree (2 ^ l) M P} (ht : fromSet prm set height fuel = some (.ok t))
    (hfuel : set.length + height.getD 0 ≤ fuel) (m : Machine) (hb : 0 < m.bits) (idx : Fin M) {i : Nat} (hi : i < set.length) :
    (∃ nodes, t.machineWitness m prm i idx = .ok nodes ∧ t.PathTo prm idx nodes ⟨false, set[i]⟩) ↔ l * t.height < m.bits := by
  have hL : 2 ≤ 2 ^ l := by
    calc 2 = 2 ^ 1 := rfl
      _ ≤ 2 ^ l := Nat.pow_le_pow_right (by norm_num) hl
  constructor
  · rintro ⟨nodes, h1, _⟩
    by_contra hlt
    have hle : m.bits ≤ l * t.height := by omega
    obtain ⟨s, hs⟩ := C59_overflow_panics hg hL ht hfuel m
      (by rw [← pow_mul]; exact Nat.pow_le_pow_right (by norm_num) hle)
      (.inr (by rw [← pow_mul]; exact pow_dvd_pow 2 hle)) hb idx i
    rw [h1] at hs
    cases hs
  · intro hlt
    exact C59_fits_partial hg hL ht hfuel m (by rw [← pow_mul]; exact Nat.pow_lt_pow_right (by norm_num) hlt) idx hi

section Example

/-- Generators for nodes with 256 children. -/
def exTree256 : TreeParams (fun _ => ℚ) (fun _ => ℚ) where
  gens _ := { exGens with Gs := List.replicate 256 1 }
  delta _ := 1
  xc _ := id

theorem exTree256_gens : exTree256.EnoughGens 256 1 := fun _ => by
  change 256 * 1 ≤ (List.replicate 256 (1 : ℚ)).length
  rw [List.length_replicate]

/-- A tree of height 4 with branching factor 256, the size used in the paper, and three leaves: on a machine with 64 bits the path of the last leaf
is found; on a machine with 32 bits every index panics, in both profiles. -/
example : ∃ t : CurveTree 256 1 (fun _ => ℚ), fromSet exTree256 [(5 : ℚ), 6, 7] (some 4) 10 = some (.ok t) ∧
    (∀ checks, ∃ nodes, t.machineWitness ⟨64, checks⟩ exTree256 2 0 = .ok nodes ∧ t.PathTo exTree256 0 nodes ⟨false, (7 : ℚ)⟩) ∧
    (∀ checks i, ∃ s, t.machineWitness ⟨32, checks⟩ exTree256 i 0 = .error (.panic s)) ∧
    ∀ bits checks, 8 < bits → (∃ nodes, t.machineWitness ⟨bits, checks⟩ exTree256 2 0 = .ok nodes ∧
      t.PathTo exTree256 0 nodes ⟨false, (7 : ℚ)⟩) ∨ ∃ e, t.machineWitness ⟨bits, checks⟩ exTree256 2 0 = .error e := by
  obtain ⟨t, h, h1, h2, h3, h4, h5, _⟩ := C25_from_set (L := 256) (M := 1) exTree256_gens (by norm_num)
    (set := [(5 : ℚ), 6, 7]) (by simp) (some 4)
  have ht := h1 10 (by simp)
  have hh : t.height = 4 := by
    rw [h4]
    have : h ≤ 1 := by
      by_contra hh
      have := h3 1 (by omega)
      simp at this
    simp; omega
  refine ⟨t, ht, fun checks => ?_, fun checks i => ?_, fun bits checks hb => ?_⟩
  · exact C59_fits_partial exTree256_gens (by norm_num) ht (by simp) ⟨64, checks⟩ (by rw [hh]; norm_num) 0 (by simp)
  · exact C59_overflow_panics exTree256_gens (by norm_num) ht (by simp) ⟨32, checks⟩ (by rw [hh]; norm_num)
      (.inr (by rw [hh]; norm_num)) (by norm_num) 0 i
  · exact C59_never_another_leaf exTree256_gens (by norm_num) ht (by simp) ⟨bits, checks⟩ (b := 1) (by simp)
      (by simpa using Nat.pow_lt_pow_right (show 1 < 2 by norm_num) hb) 0 (by simp)

/-- Without overflow checks and a branching factor that is not a power of two the capacity wraps around to some other number: with four bits and
height 3 the capacity `3 ^ 3 = 27` becomes 11, and the child of the root for leaf 11 is the first one instead of the second. The hypothesis of
`C59_never_another_leaf` excludes this: for 12 leaves it needs `27 < 16`. -/
example : Machine.childIndex ⟨4, false⟩ 3 3 11 = .ok 0 ∧ childIndex 3 3 11 = 1 := ⟨rfl, rfl⟩

end Example

end CT
