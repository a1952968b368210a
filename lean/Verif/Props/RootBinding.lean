import Verif.Proofs.RootBinding
import Verif.Proofs.Membership
import Verif.Props.TreeGadgets
import Verif.Props.EmptySlot

/-! # C66: the root determines the set -/

namespace CT
section
variable {B : Bool → Type} [∀ p, Field (B p)] [∀ p, DecidableEq (B p)] {C : ∀ p, SWCurve (B p)}
  [∀ p, Module (B (!p)) (C p).Pt] {L M : Nat}

omit [∀ p, Module (B (!p)) (C p).Pt] in
theorem x_zero (h0 : ∀ p y, ¬ (C p).OnCurve 0 y) (p : Bool) (P : (C p).Pt) (h : (C p).xField P = 0) : P = 0 := by
  by_contra hP
  obtain ⟨ho, -⟩ := OnCurve.coords_of_ne_zero hP
  rw [h] at ho
  exact h0 p _ ho

omit [∀ p, Module (B (!p)) (C p).Pt] in
theorem x_same (h0 : ∀ p y, ¬ (C p).OnCurve 0 y) (p : Bool) (P Q : (C p).Pt) (h : (C p).xField P = (C p).xField Q) : P = Q ∨ P + Q = 0 := by
  by_cases hP : P = 0
  · left
    rw [hP] at h ⊢
    exact (x_zero h0 p Q h.symm).symm
  by_cases hQ : Q = 0
  · left
    rw [hQ] at h ⊢
    exact x_zero h0 p P h
  obtain ⟨ho, e⟩ := OnCurve.coords_of_ne_zero hP
  rcases OnCurve.eq_or_neg ho hQ h.symm with e1 | e1
  · exact .inl (e.trans e1)
  · exact .inr (by rw [e.trans e1, neg_add_cancel])

/-- **C66** (partial: up to the sign of shifted leaves). On curves without points with `x = 0`, take two trees made by `from_set` with the same branching factor and height, and
with the same commitment `i` in their roots, and no leaf `-Δ`. Either the sets are equal up to replacing leaves `P` by `-P - 2Δ`, or two of the vectors committed to in the
trees give a linear relation between generators. -/
theorem C66_root_determines_set_partial {prm : SelRerand C} (hg : prm.tree.EnoughGens L M) (hL : 2 ≤ L) (h0 : ∀ p y, ¬ (C p).OnCurve 0 y)
    {set set' : List (C false).Pt} {height height' : Option Nat} {fuel fuel' : Nat} {T T' : CurveTree L M (Pts C)}
    (ht : fromSet prm.tree set height fuel = some (.ok T)) (hfuel : set.length + height.getD 0 ≤ fuel)
    (ht' : fromSet prm.tree set' height' fuel' = some (.ok T')) (hfuel' : set'.length + height'.getD 0 ≤ fuel')
    (hh : T.height = T'.height) {i : Fin M} (hr : T.root i = T'.root i)
    (hs : - (prm.layer false).delta ∉ set) (hs' : - (prm.layer false).delta ∉ set') :
    RelationIn prm.tree i (fun q => T.vectors prm.tree i q ++ T'.vectors prm.tree i q) ∨
    List.Forall₂ (fun P Q => P = Q ∨ Q = - P - (2 : Nat) • (prm.layer false).delta) set set' := by
  have hne : set ≠ [] := by rintro rfl; simp [fromSet] at ht
  have hne' : set' ≠ [] := by rintro rfl; simp [fromSet] at ht'
  obtain ⟨t, h, h1, -, -, hs1⟩ := fromSet_stores (M := M) hg hL hne height
  obtain ⟨t', h', h1', -, -, hs1'⟩ := fromSet_stores (M := M) hg hL hne' height'
  rw [h1 fuel hfuel] at ht
  rw [h1' fuel' hfuel'] at ht'
  cases ht
  cases ht'
  rw [hs1.height, hs1'.height] at hh
  rw [← hh] at hs1'
  have hl : ∀ (s : List (C false).Pt), - (prm.layer false).delta ∉ s → ∀ a ∈ s.map (fun c => (⟨false, c⟩ : Σ p, Pts C p)), a.2 + prm.tree.delta a.1 ≠ 0 := by
    intro s hs a ha
    obtain ⟨c, hc, rfl⟩ := List.mem_map.1 ha
    intro e
    exact hs ((show c = - (prm.layer false).delta from eq_neg_of_add_eq_zero_left e) ▸ hc)
  refine (trees_bind (x_same h0) (x_zero h0) i hs1 hs1' hr (hl _ hs) (hl _ hs')).imp_right fun k => ?_
  rw [List.forall₂_map_left_iff, List.forall₂_map_right_iff] at k
  refine k.imp fun P Q ⟨p, c, d, e1, e2, e3⟩ => ?_
  cases e1
  cases e2
  refine e3.imp_right fun e => ?_
  have e' : P + Q + (2 : Nat) • (prm.layer false).delta = 0 := e
  rw [eq_sub_iff_add_eq, eq_neg_iff_add_eq_zero, ← e']
  abel

/-- C66 is false of the code: in every set, any of the leaves `P` can be replaced by `-P - 2Δ`. If the tree of the set is not a single leaf, then the other set has a tree
of the same height, with the same root. -/
theorem C66_mirrored_same_root (prm : SelRerand C) {set set' : List (C false).Pt} {height : Option Nat} {fuel : Nat} {T : CurveTree L M (Pts C)}
    (ht : fromSet prm.tree set height fuel = some (.ok T)) (h0 : T.height ≠ 0)
    (hs : List.Forall₂ (fun P Q => P = Q ∨ Q = - P - (2 : Nat) • (prm.layer false).delta) set set') :
    ∃ T' : CurveTree L M (Pts C), fromSet prm.tree set' height fuel = some (.ok T') ∧ T'.height = T.height ∧ ∀ i, T'.root i = T.root i := by
  have hf : List.Forall₂ (Node.Alike prm.tree) (set.map (Node.leaf (L := L) (M := M) (P := Pts C) (p := false))) (set'.map Node.leaf) := by
    rw [List.forall₂_map_left_iff, List.forall₂_map_right_iff]
    refine hs.imp fun P Q h => ?_
    rcases h with rfl | rfl
    · exact ⟨rfl, fun _ => rfl, fun _ => rfl⟩
    · refine ⟨rfl, fun i => ?_, fun h => absurd rfl h⟩
      change (C false).xField (P + (prm.layer false).delta) = (C false).xField (- P - (2 : Nat) • (prm.layer false).delta + (prm.layer false).delta)
      have : - P - (2 : Nat) • (prm.layer false).delta + (prm.layer false).delta = - (P + (prm.layer false).delta) := by
        rw [two_nsmul]; abel
      rw [this]
      generalize P + (prm.layer false).delta = R
      cases R <;> rfl
  unfold fromSet at ht ⊢
  by_cases hn : set = []
  · rw [if_pos hn] at ht; cases ht
  rw [if_neg hn] at ht
  rw [if_neg (by rintro rfl; cases hs; exact hn rfl)]
  split at ht
  · cases ht
  rename_i hL
  rw [if_neg hL]
  obtain ⟨u, e1, e2⟩ := fromForest_alike height fuel hf ht
  refine ⟨u, e1, e2.height.symm, fun i => ?_⟩
  cases T <;> cases u
  case even.odd | odd.even => exact e2.elim
  all_goals
    have := (Node.Alike.comm e2 h0)
    simp only [CurveTree.root, this]

end

namespace Curve19

instance (i : Fin 1) (vs : ∀ q : Bool, List (Fin 2 → B (!q))) : Decidable (RelationIn prm.tree i vs) := by
  unfold RelationIn
  exact inferInstanceAs (Decidable (∃ q, ∃ v ∈ vs q, ∃ w ∈ vs q,
    (v ≠ w ∧ ∑ k, (v k - w k) • (show C.Pt from (prm.tree.gens q).Gs.getD (i * 2 + k) 0) = 0) ∨
    ∑ k, (v k + w k) • (show C.Pt from (prm.tree.gens q).Gs.getD (i * 2 + k) 0) + (2 : Nat) • (show C.Pt from prm.tree.delta q) = 0))

/-- The tree of a set. -/
def treeOf (set : List C.Pt) : CurveTree 2 1 (Pts Cs) :=
  match fromSet prm.tree set none 10 with
  | some (.ok t) => t
  | _ => default

theorem treeOf_eq {set : List C.Pt} (h : (match fromSet (L := 2) (M := 1) prm.tree set none 10 with
    | some (.ok _) => true
    | _ => false) = true) : fromSet prm.tree set none 10 = some (.ok (treeOf set)) := by
  unfold treeOf
  split at h
  · rename_i t e; rw [e]
  · simp at h

/-- The set with the second of its leaves, `5h`, replaced by `-5h - 2Δ`. -/
def mirrored : List C.Pt := [3 • h, - (5 • h) - (2 : Nat) • h, 11 • h]

set_option maxRecDepth 10000 in
/-- Two sets whose trees have the same root and no relation: the hypotheses are met, the first alternative of the conclusion is false, so the second one is what the theorem
gives here. -/
example : List.Forall₂ (fun P Q => P = Q ∨ Q = - P - (2 : Nat) • (prm.layer false).delta) set mirrored :=
  (C66_root_determines_set_partial (prm := prm) tree_gens (by decide) (fun _ => curve19_no_zero_x) (T := T) (T' := treeOf mirrored) (i := 0)
    fromSet_T (by decide +kernel) (treeOf_eq (by decide +kernel)) (by decide +kernel) (by decide +kernel) (by decide +kernel) (by decide +kernel) (by decide +kernel)).resolve_left
    (by decide +kernel)

/-- C66 without the restriction to leaves up to `P ↦ -P - 2Δ` is false: the two sets are different. -/
theorem C66_mirrored_example : set ≠ mirrored ∧ ∃ T' : CurveTree 2 1 (Pts Cs), fromSet prm.tree mirrored none 10 = some (.ok T') ∧ T'.height = T.height ∧ ∀ i, T'.root i = T.root i :=
  ⟨by decide +kernel, C66_mirrored_same_root prm fromSet_T (by rw [height_T]; decide) (by
    refine .cons (.inl rfl) (.cons (.inr rfl) (.cons (.inl rfl) .nil)))⟩

/-- C66 is false for a set with the leaf `-Δ`: adding the leaf to the set does not change the root. -/
theorem C66_unshifted_leaf_example : ∃ T' : CurveTree 2 1 (Pts Cs), fromSet prm.tree (set ++ [- (prm.layer false).delta]) none 10 = some (.ok T') ∧ T'.height = T.height ∧ T'.root 0 = T.root 0 :=
  ⟨treeOf (set ++ [- (prm.layer false).delta]), treeOf_eq (by decide +kernel), by decide +kernel, by decide +kernel⟩

/-- Seven leaves, in a tree of height 3. -/
def seven : List C.Pt := [3 • h, 5 • h, 11 • h, 2 • h, 7 • h, 6 • h, 9 • h]

set_option maxRecDepth 10000 in
/-- C66 is false for trees of different heights: the commitments to the first four and to the last three leaves, taken as leaves, have a tree of height 1 with the root of
the tree of height 3 of the seven leaves. -/
theorem C66_inner_nodes_example : ∃ T₃ T₁ : CurveTree 2 1 (Pts Cs), ∃ U U' : Node 2 1 (Pts Cs) false,
    fromSet prm.tree (seven.take 4) none 10 = some (.ok (.even U)) ∧ fromSet prm.tree (seven.drop 4) none 10 = some (.ok (.even U')) ∧
    fromSet prm.tree seven none 10 = some (.ok T₃) ∧ fromSet prm.tree [U.commitment 0, U'.commitment 0] none 10 = some (.ok T₁) ∧
    T₃.height = 3 ∧ T₁.height = 1 ∧ T₃.root 0 = T₁.root 0 := by
  have e1 := treeOf_eq (set := seven.take 4) (by decide +kernel)
  have e2 := treeOf_eq (set := seven.drop 4) (by decide +kernel)
  have h1 : (match treeOf (seven.take 4), treeOf (seven.drop 4) with
    | .even U, .even U' => decide ((treeOf [U.commitment 0, U'.commitment 0]).height = 1 ∧ (treeOf seven).root 0 = (treeOf [U.commitment 0, U'.commitment 0]).root 0) &&
      (match fromSet (L := 2) (M := 1) prm.tree [U.commitment 0, U'.commitment 0] none 10 with
        | some (.ok _) => true
        | _ => false)
    | _, _ => false) = true := by decide +kernel
  generalize treeOf (seven.take 4) = a at e1 h1
  generalize treeOf (seven.drop 4) = b at e2 h1
  cases a with
  | odd n => cases h1
  | even U =>
    cases b with
    | odd n => cases h1
    | even U' =>
      simp only [Bool.and_eq_true, decide_eq_true_eq] at h1
      exact ⟨treeOf seven, treeOf [U.commitment 0, U'.commitment 0], U, U', e1, e2, treeOf_eq (by decide +kernel), treeOf_eq h1.2, by decide +kernel, h1.1⟩

end Curve19

end CT
