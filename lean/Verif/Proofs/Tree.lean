import Verif.Spec.Tree
import Verif.Proofs.Lists
import Mathlib.Tactic.Linarith
import Mathlib.Algebra.BigOperators.Group.Finset.Basic

/-! Building a tree. -/

namespace CT

theorem digits_mod (L h i : Nat) : digits L h (i % L ^ h) = digits L h i := by
  have key : ∀ k h, k ≤ h → digits L k (i % L ^ h) = digits L k i := by
    intro k
    induction k with
    | zero => intros; rfl
    | succ k ih =>
      intro h hk
      simp only [digits, ih h (by omega)]
      congr 1
      obtain ⟨d, rfl⟩ : ∃ d, h = k + (d + 1) := ⟨h - k - 1, by omega⟩
      rw [pow_add, Nat.mod_mul_right_div_self, pow_succ', Nat.mod_mod_of_dvd _ (Dvd.intro _ rfl)]
  exact key h h le_rfl

theorem digits_length (L h i : Nat) : (digits L h i).length = h := by
  induction h with
  | zero => rfl
  | succ h ih => simp [digits, ih]

theorem flatten_chunks {α : Type} (l : List α) (m K : Nat) :
    ((List.range K).map fun j => (l.drop (j * m)).take m).flatten = l.take (K * m) := by
  induction K with
  | zero => simp
  | succ K ih =>
    rw [List.range_succ, List.map_append, List.flatten_append, ih]
    simp only [List.map_cons, List.map_nil, List.flatten_cons, List.flatten_nil, List.append_nil]
    rw [Nat.succ_mul, List.take_add]

theorem mapM_eq_ok {α β : Type} (f : α → Except Err β) (g : α → β) (l : List α) (h : ∀ a ∈ l, f a = .ok (g a)) :
    l.mapM f = .ok (l.map g) := by
  induction l with
  | nil => rfl
  | cons a l ih =>
    rw [List.mapM_cons, h a (by simp), ih fun b hb => h b (List.mem_cons_of_mem _ hb)]
    rfl

variable {L M : Nat} {B P : Bool → Type} {p : Bool}
variable [∀ p, Field (B p)] [∀ p, AddCommGroup (P p)] [∀ p, Module (B (!p)) (P p)]

mutual
/-- Every branch at height `h` above the leaves says so, and the leaves are on the even curve. -/
def Node.Uniform {L M : Nat} {P : Bool → Type} : {p : Bool} → Nat → Node L M P p → Prop
  | p, h, .leaf _ => h = 0 ∧ p = false
  | _, h, .branch _ children height _ => height = h ∧ 0 < h ∧ ∀ k, (children k).Uniform (h - 1)
def Slot.Uniform {L M : Nat} {P : Bool → Type} : {p : Bool} → Nat → Slot L M P p → Prop
  | _, _, .empty => True
  | _, h, .node n => n.Uniform h
end

/-- A node of height `h` storing `ls`. -/
structure Node.Stores (prm : TreeParams B P) (h : Nat) (n : Node L M P p) (ls : List (Σ p, P p)) : Prop where
  height : n.height = h
  leaves : n.leaves = ls
  elements : n.elements = ls.length
  follow : ∀ i < L ^ h, n.follow (digits L h i) = ls[i]?
  committed : n.Committed prm
  uniform : n.Uniform h

/-- A forest of trees of height `h` storing `ls`, all but the last one full. -/
structure Forest (prm : TreeParams B P) (h : Nat) (ns : List (Node L M P p)) (ls : List (Σ p, P p)) : Prop where
  lo : ls.length ≤ ns.length * L ^ h
  hi : ∀ k < ns.length, k * L ^ h < ls.length
  stores : ∀ k (n : Node L M P p), ns[k]? = some n → n.Stores prm h ((ls.drop (k * L ^ h)).take (L ^ h))

omit [∀ p, Module (B (!p)) (P p)] in
theorem xCoordinates_length (prm : TreeParams B P) (ch : Fin L → Slot L M P p) (i : Fin M) :
    (xCoordinates prm ch i).length = L := by simp [xCoordinates]

theorem layerGens_length {G : Type} (g : Gens G) (n idx : Nat) (h : n * (idx + 1) ≤ g.Gs.length) :
    (layerGens g n idx).length = n := by
  simp only [layerGens, List.length_drop, List.length_take, min_eq_left h]
  rw [Nat.mul_succ]; omega

theorem msm_ofFn {F G : Type} [Field F] [AddCommGroup G] [Module F G] (n : Nat) (gs : List G) (f : Fin n → F)
    (h : gs.length = n) : msm gs (List.ofFn f) = ∑ k : Fin n, f k • gs.getD k 0 := by
  induction n generalizing gs with
  | zero => simp [msm]
  | succ n ih =>
    cases gs with
    | nil => simp at h
    | cons g gs =>
      rw [List.ofFn_succ, Fin.sum_univ_succ]
      have := ih gs (fun k => f k.succ) (by simpa using h)
      simp only [msm, List.zipWith_cons_cons, List.sum_cons] at this ⊢
      rw [this]
      simp

theorem layerCommit_eq (prm : TreeParams B P) (hg : prm.EnoughGens L M) (p : Bool)
    (ch : Fin L → Slot L M P (!p)) (i : Fin M) :
    layerCommit? (prm.gens p) (xCoordinates prm ch i) 0 i =
      some (∑ k : Fin L, (ch k).x prm i • (prm.gens p).Gs.getD (i * L + k) 0) := by
  have hl : L * (i + 1) ≤ (prm.gens p).Gs.length :=
    le_trans (Nat.mul_le_mul_left _ i.isLt) (hg p)
  unfold layerCommit?
  rw [xCoordinates_length, if_neg (by rw [layerGens_length _ _ _ hl]; simp)]
  congr 1
  have := msm_ofFn L (layerGens (prm.gens p) L i) (fun k => (ch k).x prm i) (layerGens_length _ _ _ hl)
  simp only [msm, List.zipWith_cons_cons, List.sum_cons, zero_smul, zero_add] at this ⊢
  rw [xCoordinates, this]
  refine Finset.sum_congr rfl fun k _ => ?_
  congr 1
  simp only [layerGens, List.getD_eq_getElem?_getD, List.getElem?_drop]
  rw [List.getElem?_take, if_pos (by have := k.isLt; rw [Nat.mul_succ]; omega), Nat.mul_comm]

theorem combine_ok (prm : TreeParams B P) (hg : prm.EnoughGens L M) {cs : List (Node L M P (!p))}
    (hL : cs.length ≤ L) (h0 : cs ≠ []) {h : Nat} (hh : ∀ c ∈ cs, c.height = h) :
    combine prm p cs = .ok (.branch (fun i => ∑ k : Fin L, (childSlots cs k).x prm i •
      (prm.gens p).Gs.getD (i * L + k) 0) (childSlots cs) (h + 1) (cs.map Node.elements).sum) := by
  have hpos := List.length_pos_iff.2 h0
  unfold combine
  rw [if_neg (by omega), if_neg (by omega)]
  simp only [layerCommit_eq prm hg, Option.isSome_some, implies_true, if_true, Option.getD_some]
  congr 2
  cases cs with
  | nil => exact absurd rfl h0
  | cons c cs => simp [hh c (by simp)]

theorem combine_stores (prm : TreeParams B P) (hg : prm.EnoughGens L M) {cs : List (Node L M P (!p))} {h : Nat}
    {ls : List (Σ p, P p)} (hL : cs.length ≤ L) (h0 : cs ≠ []) (hf : Forest prm h cs ls) :
    ∃ n, combine prm p cs = .ok n ∧ n.Stores prm (h + 1) ls := by
  have hpos := List.length_pos_iff.2 h0
  have hLpos : 0 < L := by omega
  have hP : 0 < L ^ h := Nat.pow_pos hLpos
  refine ⟨_, combine_ok prm hg hL h0 (h := h) fun c hc => ?_, rfl, ?_, ?_, fun i hi => ?_, ?_, ?_⟩
  · obtain ⟨k, hk⟩ := List.getElem?_of_mem hc
    exact (hf.stores k c hk).height
  · simp only [Node.leaves]
    have e : (List.ofFn fun k : Fin L => (childSlots cs k).leaves) =
        (List.range L).map fun j => (ls.drop (j * L ^ h)).take (L ^ h) := by
      apply List.ext_getElem (by simp)
      intro k h1 h2
      simp only [List.getElem_ofFn, List.getElem_map, List.getElem_range]
      simp only [childSlots]
      cases hc : cs[k]? with
      | none =>
        simp only [Slot.leaves]
        have := List.getElem?_eq_none_iff.1 hc
        rw [List.drop_eq_nil_of_le (le_trans hf.lo (Nat.mul_le_mul_right _ this))]
        simp
      | some n => simp only [Slot.leaves]; exact (hf.stores k n hc).leaves
    rw [e, flatten_chunks, List.take_of_length_le]
    exact le_trans hf.lo (Nat.mul_le_mul_right _ hL)
  · simp only [Node.elements]
    have e : cs.map Node.elements = (List.range cs.length).map fun j => ((ls.drop (j * L ^ h)).take (L ^ h)).length := by
      apply List.ext_getElem (by simp)
      intro k h1 h2
      simp only [List.getElem_map, List.getElem_range]
      have h3 : k < cs.length := by simpa using h1
      exact (hf.stores k cs[k] (List.getElem?_eq_getElem h3)).elements
    have e2 := congrArg List.length (flatten_chunks ls (L ^ h) cs.length)
    rw [List.length_flatten, List.map_map, List.take_of_length_le hf.lo] at e2
    rw [e, ← e2]
    rfl
  · simp only [digits, Node.follow]
    have hd : i / L ^ h < L := by
      rw [Nat.div_lt_iff_lt_mul hP, ← pow_succ']; exact hi
    rw [Nat.mod_eq_of_lt hd, dif_pos hd]
    simp only [childSlots]
    have hdm := Nat.div_add_mod i (L ^ h)
    have hm := Nat.mod_lt i hP
    cases hc : cs[i / L ^ h]? with
    | none =>
      simp only [Slot.follow]
      have := List.getElem?_eq_none_iff.1 hc
      symm
      rw [List.getElem?_eq_none_iff]
      have h1 := Nat.mul_le_mul_right (L ^ h) this
      have h2 := Nat.div_mul_le_self i (L ^ h)
      have := hf.lo
      omega
    | some n =>
      simp only [Slot.follow]
      rw [← digits_mod, (hf.stores _ n hc).follow _ hm, List.getElem?_take, if_pos hm, List.getElem?_drop]
      congr 1
      rw [Nat.mul_comm]; exact hdm
  · refine ⟨fun i => rfl, fun k => ?_⟩
    simp only [childSlots]
    cases hc : cs[k.val]? with
    | none => trivial
    | some n => exact (hf.stores _ n hc).committed
  · refine ⟨rfl, by omega, fun k => ?_⟩
    simp only [childSlots]
    cases hc : cs[k.val]? with
    | none => trivial
    | some n => exact (hf.stores _ n hc).uniform

theorem forest_group (prm : TreeParams B P) {ns : List (Node L M P p)} {h : Nat} {ls : List (Σ p, P p)}
    (hL : 0 < L) (hf : Forest prm h ns ls) (i : Nat) :
    Forest prm h ((ns.take ((i + 1) * L)).drop (i * L)) ((ls.drop (i * L ^ (h + 1))).take (L ^ (h + 1))) := by
  have hP : 0 < L ^ h := Nat.pow_pos hL
  have epow : i * L ^ (h + 1) = i * L * L ^ h := by rw [pow_succ]; ring
  have epow2 : L ^ (h + 1) = L * L ^ h := by rw [pow_succ]; ring
  have hlo := hf.lo
  refine ⟨?_, ?_, ?_⟩
  · simp only [List.length_take, List.length_drop]
    rcases le_total ((i + 1) * L) ns.length with h1 | h1
    · rw [min_eq_left h1, Nat.succ_mul, Nat.add_sub_cancel_left, epow2]
      exact min_le_left _ _
    · rw [min_eq_right h1, epow, Nat.sub_mul]
      refine le_trans (min_le_right _ _) ?_
      omega
  · intro k hk
    simp only [List.length_take, List.length_drop] at hk ⊢
    have h1 : i * L + k < ns.length := by omega
    have h2 : k < L := by rw [Nat.succ_mul] at hk; omega
    have h3 := hf.hi _ h1
    rw [Nat.add_mul] at h3
    rw [epow, epow2]
    refine lt_min (Nat.mul_lt_mul_of_pos_right h2 hP) (by omega)
  · intro k n hk
    rw [List.getElem?_drop, List.getElem?_take] at hk
    split at hk
    · rename_i h1
      have h2 : k < L := by rw [Nat.succ_mul] at h1; omega
      have := hf.stores _ n hk
      have e : (((ls.drop (i * L ^ (h + 1))).take (L ^ (h + 1))).drop (k * L ^ h)).take (L ^ h) =
          (ls.drop ((i * L + k) * L ^ h)).take (L ^ h) := by
        rw [List.drop_take, List.drop_drop, List.take_take, epow, epow2, ← Nat.add_mul, min_eq_left]
        rw [← Nat.sub_mul]
        exact Nat.le_mul_of_pos_left _ (by omega)
      rw [e]; exact this
    · simp at hk

theorem ceil_div (n L : Nat) (hL : 0 < L) : n ≤ (n + L - 1) / L * L ∧ ∀ k < (n + L - 1) / L, k * L < n := by
  have h1 := Nat.div_add_mod (n + L - 1) L
  have h2 := Nat.mod_lt (n + L - 1) hL
  have h3 : L * ((n + L - 1) / L) = (n + L - 1) / L * L := Nat.mul_comm _ _
  refine ⟨by omega, fun k hk => ?_⟩
  have h4 : (k + 1) * L ≤ (n + L - 1) / L * L := Nat.mul_le_mul_right _ hk
  rw [Nat.add_mul] at h4
  omega

theorem combineForest_ok (prm : TreeParams B P) (hg : prm.EnoughGens L M) {ns : List (Node L M P (!p))} {h : Nat}
    {ls : List (Σ p, P p)} (hL : 0 < L) (hf : Forest prm h ns ls) :
    ∃ ms, combineForest prm p ns = .ok ms ∧ Forest prm (h + 1) ms ls ∧ ms.length = (ns.length + L - 1) / L := by
  obtain ⟨c1, c2⟩ := ceil_div ns.length L hL
  have hP : 0 < L ^ h := Nat.pow_pos hL
  have key : ∀ i < (ns.length + L - 1) / L, ∃ n, combine prm p ((ns.take ((i + 1) * L)).drop (i * L)) = .ok n ∧
      n.Stores prm (h + 1) ((ls.drop (i * L ^ (h + 1))).take (L ^ (h + 1))) := by
    intro i hi
    have := c2 i hi
    refine combine_stores prm hg ?_ ?_ (forest_group prm hL hf i)
    · simp only [List.length_drop, List.length_take]
      rw [Nat.succ_mul]; omega
    · apply List.ne_nil_of_length_pos
      simp only [List.length_drop, List.length_take]
      rw [Nat.succ_mul]; omega
  have : Nonempty (Node L M P p) := ⟨.leaf 0⟩
  choose! f hf1 hf2 using key
  refine ⟨(List.range ((ns.length + L - 1) / L)).map f, ?_, ⟨?_, ?_, ?_⟩, by simp⟩
  · exact mapM_eq_ok _ f _ fun a ha => hf1 a (List.mem_range.1 ha)
  · simp only [List.length_map, List.length_range]
    rw [pow_succ, Nat.mul_comm (L ^ h), ← Nat.mul_assoc]
    exact le_trans hf.lo (Nat.mul_le_mul_right _ c1)
  · intro k hk
    simp only [List.length_map, List.length_range] at hk
    rw [pow_succ, Nat.mul_comm (L ^ h), ← Nat.mul_assoc]
    exact hf.hi _ (c2 k hk)
  · intro k n hk
    rw [List.getElem?_map] at hk
    rcases lt_or_ge k ((ns.length + L - 1) / L) with h1 | h1
    · rw [List.getElem?_range h1] at hk
      cases hk
      exact hf2 k h1
    · rw [List.getElem?_eq_none (by simpa using h1)] at hk
      simp at hk


theorem ceil_lt {a L : Nat} (ha : 2 ≤ a) (hL : 2 ≤ L) : (a + L - 1) / L < a := by
  obtain ⟨a, rfl⟩ := Nat.exists_eq_add_of_le ha
  obtain ⟨l, rfl⟩ := Nat.exists_eq_add_of_le hL
  rw [Nat.div_lt_iff_lt_mul (by omega), show 2 + a + (2 + l) - 1 = a + l + 3 by omega]
  nlinarith [Nat.zero_le (a * l)]

theorem forest_single (prm : TreeParams B P) {n : Node L M P p} {h : Nat} {ls : List (Σ p, P p)}
    (hf : Forest prm h [n] ls) : n.Stores prm h ls ∧ ls.length ≤ L ^ h ∧ ls ≠ [] := by
  have h1 := hf.lo
  have h2 := hf.hi 0 (by simp)
  simp only [List.length_singleton, Nat.one_mul] at h1
  have h3 := hf.stores 0 n rfl
  rw [Nat.zero_mul, List.drop_zero, List.take_of_length_le h1] at h3
  exact ⟨h3, h1, List.ne_nil_of_length_pos (by omega)⟩

theorem single_forest (prm : TreeParams B P) {n : Node L M P p} {h : Nat} {ls : List (Σ p, P p)}
    (hs : n.Stores prm h ls) (hl : ls.length ≤ L ^ h) (h0 : ls ≠ []) : Forest prm h [n] ls := by
  have := List.length_pos_iff.2 h0
  refine ⟨by simpa using hl, fun k hk => ?_, fun k m hk => ?_⟩
  · obtain rfl : k = 0 := by simpa using hk
    omega
  · cases k with
    | zero =>
      cases hk
      rwa [Nat.zero_mul, List.drop_zero, List.take_of_length_le hl]
    | succ k => simp at hk

/-- See `Node.Uniform`. -/
def CurveTree.Uniform (h : Nat) : CurveTree L M P → Prop
  | .even n => n.Uniform h
  | .odd n => n.Uniform h

/-- A tree of height `h` storing `ls`. -/
structure CurveTree.Stores (prm : TreeParams B P) (h : Nat) (t : CurveTree L M P) (ls : List (Σ p, P p)) : Prop where
  height : t.height = h
  leaves : t.leaves = ls
  elements : t.elements = ls.length
  follow : ∀ i < L ^ h, t.follow (digits L h i) = ls[i]?
  committed : t.Committed prm
  uniform : t.Uniform h

theorem Node.Stores.even {prm : TreeParams B P} {h : Nat} {n : Node L M P false} {ls : List (Σ p, P p)}
    (hs : n.Stores prm h ls) : (CurveTree.even n).Stores prm h ls :=
  ⟨hs.height, hs.leaves, hs.elements, hs.follow, hs.committed, hs.uniform⟩

theorem Node.Stores.odd {prm : TreeParams B P} {h : Nat} {n : Node L M P true} {ls : List (Σ p, P p)}
    (hs : n.Stores prm h ls) : (CurveTree.odd n).Stores prm h ls :=
  ⟨hs.height, hs.leaves, hs.elements, hs.follow, hs.committed, hs.uniform⟩

theorem grow_stores {prm : TreeParams B P} (hg : prm.EnoughGens L M) (hL : 0 < L) {h : Nat} {t : CurveTree L M P}
    {ls : List (Σ p, P p)} (hs : t.Stores prm h ls) (hl : ls.length ≤ L ^ h) (h0 : ls ≠ []) :
    ∃ t', t.grow prm = .ok t' ∧ t'.Stores prm (h + 1) ls := by
  cases t with
  | even n =>
    obtain ⟨m, hm, hs'⟩ := combine_stores (p := true) prm hg (cs := [n]) (by simp only [List.length_singleton]; omega) (by simp)
      (single_forest prm ⟨hs.height, hs.leaves, hs.elements, hs.follow, hs.committed, hs.uniform⟩ hl h0)
    exact ⟨.odd m, by simp only [CurveTree.grow, hm]; rfl, hs'.odd⟩
  | odd n =>
    obtain ⟨m, hm, hs'⟩ := combine_stores (p := false) prm hg (cs := [n]) (by simp only [List.length_singleton]; omega) (by simp)
      (single_forest prm ⟨hs.height, hs.leaves, hs.elements, hs.follow, hs.committed, hs.uniform⟩ hl h0)
    exact ⟨.even m, by simp only [CurveTree.grow, hm]; rfl, hs'.even⟩

theorem growTo_stores {prm : TreeParams B P} (hg : prm.EnoughGens L M) (hL : 0 < L) (height : Nat) (d : Nat) :
    ∀ {h : Nat} {t : CurveTree L M P} {ls : List (Σ p, P p)}, t.Stores prm h ls → ls.length ≤ L ^ h → ls ≠ [] →
    height - h ≤ d → ∃ t', (∀ fuel, d ≤ fuel → t.growTo prm height fuel = some (.ok t')) ∧ t'.Stores prm (max h height) ls := by
  induction d with
  | zero =>
    intro h t ls hs hl h0 hd
    refine ⟨t, fun fuel _ => ?_, by rwa [max_eq_left (by omega)]⟩
    unfold CurveTree.growTo
    rw [if_neg (by rw [hs.height]; omega)]
  | succ d ih =>
    intro h t ls hs hl h0 hd
    by_cases hh : h < height
    · obtain ⟨t', ht', hs'⟩ := grow_stores hg hL hs hl h0
      obtain ⟨t'', e, hs''⟩ := ih hs' (le_trans hl (Nat.pow_le_pow_right hL (by omega))) h0 (by omega)
      refine ⟨t'', fun fuel hfuel => ?_, ?_⟩
      · obtain ⟨fuel, rfl⟩ : ∃ f, fuel = f + 1 := ⟨fuel - 1, by omega⟩
        unfold CurveTree.growTo
        rw [hs.height, if_pos hh]
        simp only [ht']
        exact e fuel (by omega)
      · rwa [max_eq_right (by omega)] at hs'' ⊢
    · refine ⟨t, fun fuel _ => ?_, by rwa [max_eq_left (by omega)]⟩
      unfold CurveTree.growTo
      rw [hs.height, if_neg hh]

theorem increaseHeight_stores {prm : TreeParams B P} (hg : prm.EnoughGens L M) (hL : 0 < L) (height : Option Nat)
    {h : Nat} {t : CurveTree L M P} {ls : List (Σ p, P p)} (hs : t.Stores prm h ls) (hl : ls.length ≤ L ^ h) (h0 : ls ≠ []) :
    ∃ t', (∀ fuel, height.getD 0 ≤ fuel → t.increaseHeight prm height fuel = some (.ok t')) ∧
      t'.Stores prm (max h (height.getD 0)) ls := by
  cases height with
  | none => exact ⟨t, fun _ _ => rfl, by simpa using hs⟩
  | some k => exact growTo_stores hg hL k k hs hl h0 (by omega)

theorem Forest.ne_nil {prm : TreeParams B P} {h : Nat} {ns : List (Node L M P p)} {ls : List (Σ p, P p)}
    (hf : Forest prm h ns ls) (h0 : ls ≠ []) : 0 < ns.length := by
  rcases Nat.eq_zero_or_pos ns.length with e | e
  · have := hf.lo
    rw [e, Nat.zero_mul] at this
    exact absurd (List.length_eq_zero_iff.1 (Nat.le_zero.1 this)) h0
  · exact e

theorem Forest.lt_length {prm : TreeParams B P} {h : Nat} {ns : List (Node L M P p)} {ls : List (Σ p, P p)}
    (hf : Forest prm h ns ls) (hn : 2 ≤ ns.length) (hh : ∀ k < h, L ^ k < ls.length) : ∀ k < h + 1, L ^ k < ls.length := by
  intro k hk
  rcases Nat.lt_succ_iff_lt_or_eq.1 hk with hk | rfl
  · exact hh k hk
  · have := hf.hi 1 (by omega)
    omega

theorem fromForest_stores {prm : TreeParams B P} (hg : prm.EnoughGens L M) (hL : 2 ≤ L) (height : Option Nat)
    (d : Nat) : ∀ {h : Nat} {ns : List (Node L M P false)} {ls : List (Σ p, P p)}, Forest prm h ns ls → ls ≠ [] →
    (∀ k < h, L ^ k < ls.length) → ns.length ≤ d →
    ∃ t h', (∀ fuel, d + height.getD 0 ≤ fuel → fromForest prm height fuel ns = some (.ok t)) ∧
      ls.length ≤ L ^ h' ∧ (∀ k < h', L ^ k < ls.length) ∧ t.Stores prm (max h' (height.getD 0)) ls := by
  induction d with
  | zero =>
    intro h ns ls hf h0 _ hd
    have := hf.ne_nil h0
    omega
  | succ d ih =>
    intro h ns ls hf h0 hh hd
    match ns, hf, hd with
    | [], hf, _ => exact absurd (hf.ne_nil h0) (by simp)
    | [n], hf, _ =>
      obtain ⟨hs, hl, _⟩ := forest_single prm hf
      obtain ⟨t, ht, hst⟩ := increaseHeight_stores hg (by omega) height hs.even hl h0
      refine ⟨t, h, fun fuel hfuel => ?_, hl, hh, hst⟩
      unfold fromForest
      exact ht fuel (by omega)
    | n1 :: n2 :: ns, hf, hd =>
      obtain ⟨odds, ho, hfo, hlo⟩ := combineForest_ok (p := true) prm hg (by omega) hf
      have hh1 := hf.lt_length (by simp) hh
      have hn : (n1 :: n2 :: ns).length = ns.length + 2 := rfl
      have hlen : odds.length < ns.length + 2 := by
        rw [hlo, hn]; exact ceil_lt (by omega) hL
      have hpos := hfo.ne_nil h0
      match odds, ho, hfo, hlen, hpos with
      | [m], ho, hfo, _, _ =>
        obtain ⟨hs, hl, _⟩ := forest_single prm hfo
        obtain ⟨t, ht, hst⟩ := increaseHeight_stores hg (by omega) height hs.odd hl h0
        refine ⟨t, h + 1, fun fuel hfuel => ?_, hl, hh1, hst⟩
        obtain ⟨fuel, rfl⟩ : ∃ f, fuel = f + 1 := ⟨fuel - 1, by omega⟩
        unfold fromForest
        simp only [ho]
        exact ht fuel (by omega)
      | m1 :: m2 :: ms, ho, hfo, hlen, _ =>
        obtain ⟨evens, he, hfe, hle⟩ := combineForest_ok (p := false) prm hg (by omega) hfo
        have hm : (m1 :: m2 :: ms).length = ms.length + 2 := rfl
        have hlen2 : evens.length < ms.length + 2 := by
          rw [hle, hm]; exact ceil_lt (by omega) hL
        obtain ⟨t, h', ht, r⟩ := ih hfe h0 (hfo.lt_length (by simp) hh1)
          (by simp only [List.length_cons] at hd hlen; omega)
        refine ⟨t, h', fun fuel hfuel => ?_, r⟩
        obtain ⟨fuel, rfl⟩ : ∃ f, fuel = f + 1 := ⟨fuel - 1, by omega⟩
        unfold fromForest
        simp only [ho, he]
        exact ht fuel (by omega)

theorem leaf_forest (prm : TreeParams B P) (set : List (P false)) :
    Forest prm 0 (set.map (Node.leaf (L := L) (M := M))) (set.map fun c => ⟨false, c⟩) := by
  refine ⟨by simp, by simp, fun k n hk => ?_⟩
  rw [List.getElem?_map] at hk
  obtain ⟨c, hc, rfl⟩ := Option.map_eq_some_iff.1 hk
  have e : ((set.map fun c => (⟨false, c⟩ : Σ p, P p)).drop (k * L ^ 0)).take (L ^ 0) = [⟨false, c⟩] := by
    rw [pow_zero, Nat.mul_one]
    have : k < set.length := (List.getElem?_eq_some_iff.1 hc).1
    rw [List.take_one_drop_eq_of_lt_length (by simpa using this)]
    rw [List.get_eq_getElem, List.getElem_map, (List.getElem?_eq_some_iff.1 hc).2]
  rw [e]
  refine ⟨rfl, rfl, rfl, fun i hi => ?_, trivial, rfl, rfl⟩
  obtain rfl : i = 0 := by simpa using hi
  rfl

theorem fromSet_stores {prm : TreeParams B P} (hg : prm.EnoughGens L M) (hL : 2 ≤ L) {set : List (P false)}
    (h0 : set ≠ []) (height : Option Nat) :
    ∃ (t : CurveTree L M P) (h : Nat),
      (∀ fuel, set.length + height.getD 0 ≤ fuel → fromSet prm set height fuel = some (.ok t)) ∧
      set.length ≤ L ^ h ∧ (∀ k < h, L ^ k < set.length) ∧
      t.Stores prm (max h (height.getD 0)) (set.map fun c => ⟨false, c⟩) := by
  obtain ⟨t, h, ht, r⟩ := fromForest_stores hg hL height set.length (leaf_forest (L := L) (M := M) prm set)
    (by simpa using h0) (by simp) (by simp)
  refine ⟨t, h, fun fuel hf => ?_, by simpa using r⟩
  unfold fromSet
  rw [if_neg h0, if_neg (by omega)]
  exact ht fuel hf

/-- With one child per node a set with more than one element is never reduced to one tree. -/
theorem fromForest_one {prm : TreeParams B P} (hg : prm.EnoughGens 1 M) (height : Option Nat) (fuel : Nat) :
    ∀ {h : Nat} {ns : List (Node 1 M P false)} {ls : List (Σ p, P p)}, Forest prm h ns ls → 2 ≤ ns.length →
    fromForest prm height fuel ns = none := by
  induction fuel with
  | zero =>
    intro h ns ls _ hn
    match ns, hn with
    | n1 :: n2 :: ns, _ => rfl
  | succ fuel ih =>
    intro h ns ls hf hn
    match ns, hf, hn with
    | n1 :: n2 :: ns, hf, _ =>
      obtain ⟨odds, ho, hfo, hlo⟩ := combineForest_ok (p := true) prm hg (by omega) hf
      rw [Nat.div_one] at hlo
      match odds, ho, hfo, hlo with
      | [], _, _, hlo => simp at hlo
      | [m], _, _, hlo => simp at hlo
      | m1 :: m2 :: ms, ho, hfo, _ =>
        obtain ⟨evens, he, hfe, hle⟩ := combineForest_ok (p := false) prm hg (by omega) hfo
        rw [Nat.div_one] at hle
        unfold fromForest
        simp only [ho, he]
        exact ih hfe (by rw [hle]; simp)

end CT
