import Verif.Proofs.Util
import Verif.Model.Prove
import Mathlib.Tactic.LinearCombination

/-! The degree schedule and the coefficients of `l`, `r`, `t`. -/

namespace CT
open Finset

/-- The right degree of slot `j`. -/
def slotR (op j : Nat) : Nat :=
  if j = 0 then op / 2 else if j = 1 then 0 else if j - 1 < op / 2 then j - 1 else j

theorem opDegree_pos (k : Nat) : ∃ m, 1 ≤ m ∧ opDegree k = 2 * m ∧ k + 1 ≤ opDegree k :=
  ⟨1 + k / 2, by omega, by unfold opDegree; omega, by unfold opDegree; omega⟩

theorem opSplits_rest (m : Nat) (hm : 1 ≤ m) (d : Nat → Nat × Nat) :
    (((List.range (2 * m)).map (· + 1)).filterMap fun r => if r = m then none else some (d r)) =
      ((List.range (2 * m - 1)).map fun i => d (if i + 1 < m then i + 1 else i + 2)) := by
  have h1 : (List.range (2 * m)).map (· + 1) =
      (List.range (m - 1)).map (· + 1) ++ [m] ++ (List.range m).map (· + (m + 1)) := by
    apply ext_getD 0 (by simp; omega)
    intro i hi
    simp only [List.length_map, List.length_range] at hi
    rw [getD_map_range, if_pos hi, getD_append', getD_append', getD_map_range, getD_map_range]
    simp only [List.length_append, List.length_map, List.length_range, List.length_singleton]
    split
    · split
      · rfl
      · have : i = m - 1 := by omega
        subst this; simp; omega
    · rw [if_pos (by omega)]; omega
  have h2 : (List.range (2 * m - 1)).map (fun i => d (if i + 1 < m then i + 1 else i + 2)) =
      (List.range (m - 1)).map (fun i => d (i + 1)) ++ (List.range m).map fun i => d (i + (m + 1)) := by
    apply ext_getD (0, 0) (by simp; omega)
    intro i hi
    simp only [List.length_map, List.length_range] at hi
    rw [getD_map_range, if_pos hi, getD_append', getD_map_range, getD_map_range]
    simp only [List.length_map, List.length_range]
    by_cases h : i < m - 1
    · rw [if_pos (by omega), if_pos h, if_pos h]
    · rw [if_neg (by omega), if_neg h, if_pos (by omega)]; congr 1; omega
  rw [h1, h2, List.filterMap_append, List.filterMap_append]
  congr 1
  · rw [List.filterMap_map]
    simp only [List.filterMap_cons, if_true, List.filterMap_nil, List.append_nil]
    rw [← List.filterMap_eq_map]
    apply List.filterMap_congr
    intro x hx
    have := List.mem_range.1 hx
    simp only [Function.comp]
    rw [if_neg (by omega)]
  · rw [List.filterMap_map, ← List.filterMap_eq_map]
    apply List.filterMap_congr
    intro x hx
    simp only [Function.comp]
    rw [if_neg (by omega)]

theorem opSplits_length (m : Nat) (hm : 1 ≤ m) : (opSplits (2 * m)).length = 2 * m + 1 := by
  unfold opSplits
  simp only [show 2 * m / 2 = m by omega]
  rw [opSplits_rest m hm (fun r => (2 * m - r, r))]
  simp; omega

theorem opSplits_getD (m : Nat) (hm : 1 ≤ m) (j : Nat) (hj : j < 2 * m + 1) :
    (opSplits (2 * m)).getD j (0, 0) = (2 * m - slotR (2 * m) j, slotR (2 * m) j) := by
  unfold opSplits slotR
  simp only [show 2 * m / 2 = m by omega]
  rw [opSplits_rest m hm (fun r => (2 * m - r, r)), getD_append']
  by_cases h0 : j = 0
  · subst h0; simp; omega
  by_cases h1 : j = 1
  · subst h1; simp
  rw [if_neg h0, if_neg h1, if_neg (by simp; omega), getD_map_range]
  simp only [List.length_cons, List.length_nil]
  rw [if_pos (by omega)]
  by_cases h2 : j - 1 < m
  · rw [if_pos (by omega), if_pos h2]
    have : j - (0 + 1 + 1) + 1 = j - 1 := by omega
    rw [this]
  · rw [if_neg (by omega), if_neg h2]
    have : j - (0 + 1 + 1) + 2 = j := by omega
    rw [this]

theorem slotR_le (m j : Nat) (hm : 1 ≤ m) (hj : j < 2 * m + 1) : slotR (2 * m) j ≤ 2 * m := by
  unfold slotR; split <;> [omega; split <;> [omega; split <;> omega]]

theorem slotR_inj (m i j : Nat) (hm : 1 ≤ m) (h : slotR (2 * m) i = slotR (2 * m) j) : i = j := by
  unfold slotR at h
  have : 2 * m / 2 = m := by omega
  rw [this] at h
  split at h <;> split at h <;> (try split at h) <;> (try split at h) <;> (try split at h) <;>
    (try split at h) <;> omega

section rep
variable {F G X : Type} [Field F]

/-- `p` has `D` rows of length `n`, with the given entries. -/
structure VecPoly.Rep (p : VecPoly F) (D n : Nat) (f : Nat → Nat → F) : Prop where
  len : p.length = D
  row : ∀ v ∈ p, v.length = n
  get : ∀ d i, d < D → i < n → (p.getD d []).getD i 0 = f d i

theorem VecPoly.zero_rep (n deg : Nat) : (VecPoly.zero n deg : VecPoly F).Rep (deg + 1) n fun _ _ => 0 where
  len := by simp [VecPoly.zero]
  row := by
    intro v hv
    rw [List.eq_of_mem_replicate hv]; simp
  get := by
    intro d i hd hi
    rw [VecPoly.zero, getD_replicate', if_pos hd, getD_replicate', if_pos hi]

omit [Field F] in
theorem overwrite_length (row v : List F) (h : v.length ≤ row.length) : (overwrite row v).length = row.length := by
  simp [overwrite]; omega

theorem overwrite_getD (row v : List F) (h : v.length ≤ row.length) (i : Nat) :
    (overwrite row v).getD i 0 = if i < v.length then v.getD i 0 else row.getD i 0 := by
  unfold overwrite
  rw [getD_append', List.take_of_length_le h, getD_drop]
  split
  · rfl
  · congr 1; omega

theorem VecPoly.Rep.write {p : VecPoly F} {D n : Nat} {f : Nat → Nat → F} (h : p.Rep D n f) (d : Nat)
    (hd : d < D) (v : List F) (hv : v.length ≤ n) (h0 : ∀ i < n, f d i = 0) :
    (p.write d v).Rep D n fun e i => f e i + if e = d then v.getD i 0 else 0 where
  len := by simp [VecPoly.write, h.len]
  row := by
    intro w hw
    obtain ⟨i, hi, rfl⟩ := List.mem_iff_getElem.1 hw
    simp only [VecPoly.write, List.length_modify] at hi
    simp only [VecPoly.write, List.getElem_modify]
    have := h.row _ (List.getElem_mem hi)
    split
    · rw [overwrite_length _ _ (by omega), this]
    · exact this
  get := by
    intro e i he hi
    have hlen : e < p.length := by rw [h.len]; exact he
    have hr := h.row _ (List.getElem_mem hlen)
    have hg := h.get e i he hi
    rw [getD_of_lt _ _ _ hlen] at hg
    rw [getD_of_lt (p.write d v) e [] (by simpa [VecPoly.write] using hlen)]
    simp only [VecPoly.write, List.getElem_modify]
    by_cases hed : e = d
    · subst hed
      rw [if_pos rfl, if_pos rfl, overwrite_getD _ _ (by omega)]
      split
      · rw [h0 i hi, zero_add]
      · rename_i h1
        rw [hg, getD_of_le v _ _ (by omega), add_zero]
    · rw [if_neg (Ne.symm hed), if_neg hed, hg, add_zero]

theorem VecPoly.Rep.writes {D n : Nat} (deg : Nat → Nat) (vs : Nat → List F) (k : Nat)
    (hdeg : ∀ j < k, deg j < D) (hinj : ∀ i < k, ∀ j < k, deg i = deg j → i = j)
    (hv : ∀ j < k, (vs j).length ≤ n) {p : VecPoly F} {f : Nat → Nat → F} (h : p.Rep D n f)
    (h0 : ∀ j < k, ∀ i < n, f (deg j) i = 0) :
    ((List.range k).foldl (fun p j => p.write (deg j) (vs j)) p).Rep D n fun e i =>
      f e i + ∑ j ∈ range k, if e = deg j then (vs j).getD i 0 else 0 := by
  induction k with
  | zero => simpa using h
  | succ k ih =>
    rw [List.range_succ, List.foldl_append, List.foldl_cons, List.foldl_nil]
    have ih := ih (fun j hj => hdeg j (by omega)) (fun i hi j hj => hinj i (by omega) j (by omega))
      (fun j hj => hv j (by omega)) (fun j hj => h0 j (by omega))
    have := ih.write (deg k) (hdeg k (by omega)) (vs k) (hv k (by omega)) (by
      intro i hi
      rw [h0 k (by omega) i hi, zero_add]
      apply Finset.sum_eq_zero
      intro j hj
      have hj := mem_range.1 hj
      rw [if_neg]
      intro he
      exact absurd (hinj k (by omega) j (by omega) he) (by omega))
    refine ⟨this.len, this.row, fun d i hd hi => ?_⟩
    rw [this.get d i hd hi, Finset.sum_range_succ, add_assoc]

/-- Left vector of slot `j`. -/
def lSlot (s : PState F G X) (wt : Weights F) (yinv : List F) (j i : Nat) : F :=
  if j = 0 then s.aL.getD i 0 + yinv.getD i 0 * wt.wR.getD i 0
  else if j = 1 then s.aO.getD i 0
  else (s.vecOpen.getD (j - 2) (0, [])).2.getD i 0

/-- Right vector of slot `j`. -/
def rSlot (s : PState F G X) (wt : Weights F) (ypow : List F) (j i : Nat) : F :=
  if j = 0 then ypow.getD i 0 * s.aR.getD i 0 + wt.wL.getD i 0
  else if j = 1 then wt.wO.getD i 0 - ypow.getD i 0
  else (wt.wVC.getD (j - 2) []).getD i 0

theorem sum_slots (k : Nat) (f : Nat → F) :
    ∑ j ∈ range (k + 2), f j = f 0 + f 1 + ∑ j ∈ range k, f (j + 2) := by
  rw [Finset.sum_range_succ', Finset.sum_range_succ']; ring

/-- The generic shape shared by `lPoly` and `rPoly`. -/
theorem slots_rep (m k n : Nat) (hm : 1 ≤ m) (hk : k + 1 ≤ 2 * m) (deg : Nat → Nat) (dl : Nat → Nat)
    (hdl : ∀ j < 2 * m + 1, dl j = deg j) (hdeg : ∀ j < 2 * m + 1, deg j ≤ 2 * m)
    (hinj : ∀ i < 2 * m + 1, ∀ j < 2 * m + 1, deg i = deg j → i = j)
    (f0 f1 : Nat → F) (sv : List F) (vs : Nat → List F)
    (hs : sv.length ≤ n) (hv : ∀ j < k, (vs j).length ≤ n) :
    ((List.range k).foldl (fun p j => p.write (dl (j + 2)) (vs j))
      ((((VecPoly.zero n (2 * m + 1)).write (dl 0) ((List.range n).map f0)).write (dl 1)
        ((List.range n).map f1)).write (2 * m + 1) sv)).Rep (2 * m + 2) n fun e i =>
      (∑ j ∈ range (k + 2), if e = deg j then
        (if j = 0 then f0 i else if j = 1 then f1 i else (vs (j - 2)).getD i 0) else 0) +
      if e = 2 * m + 1 then sv.getD i 0 else 0 := by
  have h01 : deg 0 ≠ deg 1 := fun h => absurd (hinj 0 (by omega) 1 (by omega) h) (by omega)
  have z := VecPoly.zero_rep (F := F) n (2 * m + 1)
  have z1 := z.write (dl 0) (by rw [hdl 0 (by omega)]; have := hdeg 0 (by omega); omega)
    ((List.range n).map f0) (by simp) (by simp)
  have z2 := z1.write (dl 1) (by rw [hdl 1 (by omega)]; have := hdeg 1 (by omega); omega)
    ((List.range n).map f1) (by simp) (by
      intro i _
      rw [hdl 0 (by omega), hdl 1 (by omega), if_neg (Ne.symm h01)]; simp)
  have z3 := z2.write (2 * m + 1) (by omega) sv hs (by
    intro i _
    have h0 := hdeg 0 (by omega)
    have h1 := hdeg 1 (by omega)
    rw [hdl 0 (by omega), hdl 1 (by omega), if_neg (by omega), if_neg (by omega)]; simp)
  have z4 := VecPoly.Rep.writes (fun j => dl (j + 2)) vs k
    (fun j hj => by
      have := hdeg (j + 2) (by omega); have := hdl (j + 2) (by omega)
      show dl (j + 2) < _
      omega)
    (fun i hi j hj h => by
      have h : dl (i + 2) = dl (j + 2) := h
      rw [hdl _ (by omega), hdl _ (by omega)] at h
      have := hinj (i + 2) (by omega) (j + 2) (by omega) h
      omega) hv z3 (by
    intro j hj i _
    have e := hdl (j + 2) (by omega)
    have h2 := hdeg (j + 2) (by omega)
    show _ + _ + (if dl (j + 2) = _ then _ else _) = _
    rw [e, hdl 0 (by omega), hdl 1 (by omega), if_neg, if_neg, if_neg (by omega)]
    · simp
    · intro h; have := hinj _ (by omega) _ (by omega) h; omega
    · intro h; have := hinj _ (by omega) _ (by omega) h; omega)
  refine ⟨z4.len, z4.row, fun e i he hi => ?_⟩
  rw [z4.get e i he hi, sum_slots]
  simp only [hdl 0 (by omega : 0 < 2 * m + 1), hdl 1 (by omega : 1 < 2 * m + 1), getD_map_range, if_pos hi]
  have : ∀ j ∈ range k, (if e = dl (j + 2) then (vs j).getD i 0 else 0) =
      if e = deg (j + 2) then (if j + 2 = 0 then f0 i else if j + 2 = 1 then f1 i
        else (vs (j + 2 - 2)).getD i 0) else 0 := by
    intro j hj
    have := mem_range.1 hj
    rw [hdl (j + 2) (by omega), if_neg (by omega : ¬ j + 2 = 0), if_neg (by omega : ¬ j + 2 = 1)]
    simp
  rw [Finset.sum_congr rfl this]
  simp
  ring

theorem lPoly_rep (s : PState F G X) (wt : Weights F) (yinv : List F) (n : Nat) (sL : List F)
    (hs : sL.length ≤ n) (hv : ∀ v ∈ s.vecOpen, v.2.length ≤ n) :
    let op := opDegree s.vecOpen.length
    (lPoly s wt yinv n op (opSplits op) sL).Rep (op + 2) n fun e i =>
      (∑ j ∈ range (s.vecOpen.length + 2), if e = op - slotR op j then lSlot s wt yinv j i else 0) +
        if e = op + 1 then sL.getD i 0 else 0 := by
  obtain ⟨m, hm, hop, hk⟩ := opDegree_pos s.vecOpen.length
  simp only [hop] at hk ⊢
  unfold lPoly
  simp only [getD_drop, Nat.add_comm 2]
  have := slots_rep m s.vecOpen.length n hm hk (fun j => 2 * m - slotR (2 * m) j)
    (fun j => ((opSplits (2 * m)).getD j (0, 0)).1)
    (fun j hj => by rw [opSplits_getD m hm j hj]) (fun j hj => by omega)
    (fun i hi j hj h => by
      have := slotR_le m i hm hi
      have := slotR_le m j hm hj
      exact slotR_inj m i j hm (by omega))
    (fun i => s.aL.getD i 0 + yinv.getD i 0 * wt.wR.getD i 0) (fun i => s.aO.getD i 0) sL
    (fun j => (s.vecOpen.getD j (0, [])).2) hs
    (fun j hj => by rw [getD_of_lt _ _ _ hj]; exact hv _ (List.getElem_mem _))
  exact this

theorem rPoly_rep (s : PState F G X) (wt : Weights F) (ypow : List F) (n : Nat) (sR : List F)
    (hv : ∀ v ∈ wt.wVC, v.length ≤ n) (hw : s.vecOpen.length = wt.wVC.length) :
    let op := opDegree s.vecOpen.length
    (rPoly s wt ypow n op (opSplits op) sR).Rep (op + 2) n fun e i =>
      (∑ j ∈ range (s.vecOpen.length + 2), if e = slotR op j then rSlot s wt ypow j i else 0) +
        if e = op + 1 then ypow.getD i 0 * sR.getD i 0 else 0 := by
  obtain ⟨m, hm, hop, hk⟩ := opDegree_pos s.vecOpen.length
  simp only [hop] at hk ⊢
  unfold rPoly
  simp only [getD_drop, Nat.add_comm 2]
  have := slots_rep m s.vecOpen.length n hm hk (fun j => slotR (2 * m) j)
    (fun j => ((opSplits (2 * m)).getD j (0, 0)).2)
    (fun j hj => by rw [opSplits_getD m hm j hj]) (fun j hj => slotR_le m j hm hj)
    (fun i hi j hj h => slotR_inj m i j hm h)
    (fun i => ypow.getD i 0 * s.aR.getD i 0 + wt.wL.getD i 0) (fun i => wt.wO.getD i 0 - ypow.getD i 0)
    ((List.range n).map fun i => ypow.getD i 0 * sR.getD i 0)
    (fun j => wt.wVC.getD j []) (by simp)
    (fun j hj => by rw [getD_of_lt _ _ _ (by omega)]; exact hv _ (List.getElem_mem _))
  refine ⟨this.len, this.row, fun d i hd hi => ?_⟩
  rw [this.get d i hd hi, getD_map_range, if_pos hi]
  rfl

end rep
end CT

namespace CT
open Finset
section coeff
variable {F G X : Type} [Field F]

/-- The coefficient of degree `op` only pairs equal slots. -/
theorem coeff_op (k n : Nat) (L R : Nat → Nat → F) (sl sr : Nat → F) {l r : VecPoly F}
    (hl : l.Rep (opDegree k + 2) n fun e i =>
      (∑ j ∈ range (k + 2), if e = opDegree k - slotR (opDegree k) j then L j i else 0) +
        if e = opDegree k + 1 then sl i else 0)
    (hr : r.Rep (opDegree k + 2) n fun e i =>
      (∑ j ∈ range (k + 2), if e = slotR (opDegree k) j then R j i else 0) +
        if e = opDegree k + 1 then sr i else 0) :
    (VecPoly.innerProduct l r).getD (opDegree k) 0 =
      ∑ i ∈ range n, ∑ j ∈ range (k + 2), L j i * R j i := by
  obtain ⟨m, hm, hop, hk⟩ := opDegree_pos k
  rw [hop] at hl hr hk ⊢
  rw [VecPoly.innerProduct_getD _ _ _ (by rw [hl.len, hr.len]; omega), hl.len, hr.len]
  have h1 : ∀ a ∈ range (2 * m + 1), (if a ≤ 2 * m + 2 - 1 ∧ 2 * m - a ≤ 2 * m + 2 - 1 then
        CT.innerProduct (l.getD a []) (r.getD (2 * m - a) []) else 0) =
      ∑ i ∈ range n, ∑ j ∈ range (k + 2), ∑ j' ∈ range (k + 2),
        if a = 2 * m - slotR (2 * m) j then (if j' = j then L j i * R j' i else 0) else 0 := by
    intro a ha
    have ha := mem_range.1 ha
    rw [if_pos (by omega), innerProduct_eq _ _ n (Or.inl (by
      rw [getD_of_lt _ _ _ (by rw [hl.len]; omega), hl.row _ (List.getElem_mem _)]))]
    refine Finset.sum_congr rfl fun i hi => ?_
    rw [hl.get _ _ (by omega) (mem_range.1 hi), hr.get _ _ (by omega) (mem_range.1 hi),
      if_neg (by omega), if_neg (by omega), add_zero, add_zero, Finset.sum_mul_sum]
    refine Finset.sum_congr rfl fun j hj => Finset.sum_congr rfl fun j' hj' => ?_
    have hj := mem_range.1 hj
    have hj' := mem_range.1 hj'
    have b1 := slotR_le m j hm (by omega)
    have b2 := slotR_le m j' hm (by omega)
    by_cases e : a = 2 * m - slotR (2 * m) j
    · rw [if_pos e, if_pos e]
      by_cases e2 : j' = j
      · subst e2
        rw [if_pos rfl, if_pos (by omega)]
      · rw [if_neg e2, if_neg, mul_zero]
        intro h
        exact e2 (slotR_inj m j' j hm (by omega))
    · rw [if_neg e, if_neg e, zero_mul]
  rw [Finset.sum_congr rfl h1, Finset.sum_comm]
  refine Finset.sum_congr rfl fun i _ => ?_
  rw [Finset.sum_comm]
  refine Finset.sum_congr rfl fun j hj => ?_
  have hj := mem_range.1 hj
  have b1 := slotR_le m j hm (by omega)
  rw [Finset.sum_eq_single (2 * m - slotR (2 * m) j)]
  · simp only [if_true]
    rw [Finset.sum_ite_eq' (range (k + 2)) j, if_pos (mem_range.2 hj)]
  · intro a _ ha
    simp only [if_neg ha, Finset.sum_const_zero]
  · intro h
    exact absurd (mem_range.2 (by omega)) h

/-- Extending a sum by indices outside the list. -/
theorem sum_getD_extend (l : List F) (n : Nat) (h : l.length ≤ n) (f : Nat → F) :
    ∑ i ∈ range n, l.getD i 0 * f i = ∑ i ∈ range l.length, l.getD i 0 * f i := by
  symm
  apply Finset.sum_subset (by intro i; simp; omega)
  intro i _ hi
  rw [getD_of_le _ _ _ (by simpa using hi), zero_mul]


end coeff
end CT
