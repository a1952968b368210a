import Verif.Spec.RootBinding
import Verif.Proofs.Tree
import Mathlib.Data.List.Forall2

/-! Two trees with the same root. -/

namespace CT
variable {L M : Nat} {B P : Bool → Type} [∀ p, Field (B p)] [∀ p, AddCommGroup (P p)] [∀ p, Module (B (!p)) (P p)]

theorem RelationIn.mono {prm : TreeParams B P} {i : Fin M} {vs ws : ∀ q : Bool, List (Fin L → B (!q))} (h : RelationIn prm i vs)
    (hs : ∀ q, ∀ v ∈ vs q, v ∈ ws q) : RelationIn prm i ws := by
  obtain ⟨q, v, hv, w, hw, h⟩ := h
  exact ⟨q, v, hs q v hv, w, hs q w hw, h⟩

/-- The two leaves are on the same curve and equal, or opposite when shifted by delta. -/
def SameShifted (prm : TreeParams B P) (a b : Σ p, P p) : Prop :=
  ∃ (p : Bool) (c d : P p), a = ⟨p, c⟩ ∧ b = ⟨p, d⟩ ∧ (c = d ∨ c + d + (2 : Nat) • prm.delta p = 0)

omit [∀ p, Module (B (!p)) (P p)] in
theorem branch_vectors {prm : TreeParams B P} {i : Fin M} {p : Bool} {comm : Fin M → P p} {ch : Fin L → Slot L M P (!p)} {h e : Nat} :
    (fun k => (ch k).x prm i) ∈ (Node.branch comm ch h e).vectors prm i p ∧
    ∀ k q, ∀ v ∈ (ch k).vectors prm i q, v ∈ (Node.branch comm ch h e).vectors prm i q := by
  simp only [Node.vectors, Function.update_self, List.mem_append]
  refine ⟨.inl (by simp), fun k q v hv => .inr ?_⟩
  exact List.mem_flatten.2 ⟨_, List.mem_ofFn.2 ⟨k, rfl⟩, hv⟩

theorem nodes_bind {prm : TreeParams B P} (hx : ∀ p (c d : P p), prm.xc p c = prm.xc p d → c = d ∨ c + d = 0)
    (hx0 : ∀ p (c : P p), prm.xc p c = 0 → c = 0) (i : Fin M) :
    ∀ (h : Nat) {p : Bool} (n m : Node L M P p), n.Uniform h → m.Uniform h → n.Committed prm → m.Committed prm →
      (∀ a ∈ n.leaves, a.2 + prm.delta a.1 ≠ 0) → (∀ a ∈ m.leaves, a.2 + prm.delta a.1 ≠ 0) →
      prm.xc p (n.commitment i + prm.delta p) = prm.xc p (m.commitment i + prm.delta p) →
      RelationIn prm i (fun q => n.vectors prm i q ++ m.vectors prm i q) ∨ List.Forall₂ (SameShifted prm) n.leaves m.leaves := by
  intro h
  induction h with
  | zero =>
    intro p n m un um _ _ _ _ e
    cases n with
    | branch => exact absurd un.2.1 (by omega)
    | leaf c =>
      cases m with
      | branch => exact absurd um.2.1 (by omega)
      | leaf d =>
        right
        refine .cons ⟨p, c, d, rfl, rfl, ?_⟩ .nil
        rcases hx p _ _ e with e | e
        · exact .inl (add_right_cancel e)
        · refine .inr (Eq.trans ?_ e)
          simp only [Node.commitment, two_nsmul]
          abel
  | succ h ih =>
    intro p n m un um cn cm ln lm e
    cases n with
    | leaf => exact absurd un.1 (by omega)
    | branch a ch hn en =>
      cases m with
      | leaf => exact absurd um.1 (by omega)
      | branch b dh hm em =>
        obtain ⟨vn, sn⟩ := branch_vectors (prm := prm) (i := i) (comm := a) (ch := ch) (h := hn) (e := en)
        obtain ⟨vm, sm⟩ := branch_vectors (prm := prm) (i := i) (comm := b) (ch := dh) (h := hm) (e := em)
        have ea := cn.1 i
        have eb := cm.1 i
        by_cases hv : (fun k => (ch k).x prm i) = fun k => (dh k).x prm i
        swap
        · left
          refine ⟨p, _, List.mem_append_left _ vn, _, List.mem_append_right _ vm, ?_⟩
          rcases hx p _ _ e with e | e
          · left
            refine ⟨hv, ?_⟩
            have e' : a i = b i := add_right_cancel e
            simp only [sub_smul, Finset.sum_sub_distrib]
            rw [← ea, ← eb, e', sub_self]
          · right
            simp only [add_smul, Finset.sum_add_distrib]
            rw [← ea, ← eb]
            refine Eq.trans ?_ e
            simp only [Node.commitment, two_nsmul]
            abel
        -- a slot that looks empty
        have key : ∀ (n : Node L M P (!p)), n.Uniform h → n.Committed prm → (∀ a ∈ n.leaves, a.2 + prm.delta a.1 ≠ 0) →
            n.commitment i + prm.delta (!p) = 0 → RelationIn prm i (n.vectors prm i) := by
          intro n u c l e
          cases n with
          | leaf d => exact absurd e (l ⟨_, d⟩ (by simp [Node.leaves]))
          | branch a' ch' h' e' =>
            refine ⟨_, _, branch_vectors.1, _, branch_vectors.1, .inr ?_⟩
            have := c.1 i
            simp only [add_smul, Finset.sum_add_distrib]
            rw [← this]
            have e2 : a' i + prm.delta (!p) + (a' i + prm.delta (!p)) = 0 := by
              have e1 : a' i + prm.delta (!p) = 0 := e
              rw [e1, add_zero]
            refine Eq.trans ?_ e2
            rw [two_nsmul]
            abel
        have hk : ∀ k, RelationIn prm i (fun q => (Node.branch a ch hn en).vectors prm i q ++ (Node.branch b dh hm em).vectors prm i q) ∨
            List.Forall₂ (SameShifted prm) (ch k).leaves (dh k).leaves := by
          intro k
          have hxk : (ch k).x prm i = (dh k).x prm i := congrFun hv k
          have unk := un.2.2 k
          have umk := um.2.2 k
          have cnk := cn.2 k
          have cmk := cm.2 k
          have lnk : ∀ a ∈ (ch k).leaves, a.2 + prm.delta a.1 ≠ 0 := fun a ha =>
            ln a (List.mem_flatten.2 ⟨_, List.mem_ofFn.2 ⟨k, rfl⟩, ha⟩)
          have lmk : ∀ a ∈ (dh k).leaves, a.2 + prm.delta a.1 ≠ 0 := fun a ha =>
            lm a (List.mem_flatten.2 ⟨_, List.mem_ofFn.2 ⟨k, rfl⟩, ha⟩)
          have snk := sn k
          have smk := sm k
          generalize ch k = s at *
          generalize dh k = t at *
          cases s with
          | empty =>
            cases t with
            | empty => exact .inr .nil
            | node m => exact .inl ((key m umk cmk lmk (hx0 _ _ hxk.symm)).mono fun q v hv => List.mem_append_right _ (smk q v hv))
          | node n =>
            cases t with
            | empty => exact .inl ((key n unk cnk lnk (hx0 _ _ hxk)).mono fun q v hv => List.mem_append_left _ (snk q v hv))
            | node m =>
              refine (ih n m unk umk cnk cmk lnk lmk hxk).imp_left fun r => r.mono fun q v hv => ?_
              rcases List.mem_append.1 hv with hv | hv
              · exact List.mem_append_left _ (snk q v hv)
              · exact List.mem_append_right _ (smk q v hv)
        by_cases hr : RelationIn prm i (fun q => (Node.branch a ch hn en).vectors prm i q ++ (Node.branch b dh hm em).vectors prm i q)
        · exact .inl hr
        · right
          simp only [Node.leaves]
          refine List.rel_flatten (List.forall₂_iff_get.2 ⟨by simp, fun k h1 h2 => ?_⟩)
          simp only [List.get_eq_getElem, List.getElem_ofFn]
          exact (hk _).resolve_left hr

theorem trees_bind {prm : TreeParams B P} (hx : ∀ p (c d : P p), prm.xc p c = prm.xc p d → c = d ∨ c + d = 0)
    (hx0 : ∀ p (c : P p), prm.xc p c = 0 → c = 0) (i : Fin M) {h : Nat} {t u : CurveTree L M P} {ls ks : List (Σ p, P p)}
    (ht : t.Stores prm h ls) (hu : u.Stores prm h ks) (hr : t.root i = u.root i)
    (hl : ∀ a ∈ ls, a.2 + prm.delta a.1 ≠ 0) (hk : ∀ a ∈ ks, a.2 + prm.delta a.1 ≠ 0) :
    RelationIn prm i (fun q => t.vectors prm i q ++ u.vectors prm i q) ∨ List.Forall₂ (SameShifted prm) ls ks := by
  rw [← ht.leaves] at hl ⊢
  rw [← hu.leaves] at hk ⊢
  cases t with
  | even n =>
    cases u with
    | even m =>
      refine nodes_bind hx hx0 i h n m ht.uniform hu.uniform ht.committed hu.committed hl hk ?_
      simp only [CurveTree.root, Sigma.mk.injEq, heq_eq_eq, true_and] at hr
      rw [hr]
    | odd m => simp [CurveTree.root] at hr
  | odd n =>
    cases u with
    | even m => simp [CurveTree.root] at hr
    | odd m =>
      refine nodes_bind hx hx0 i h n m ht.uniform hu.uniform ht.committed hu.committed hl hk ?_
      simp only [CurveTree.root, Sigma.mk.injEq, heq_eq_eq, true_and] at hr
      rw [hr]

/-! ## Trees that look the same -/

/-- The parent of a node sees the same, and so does everybody if it is not a leaf. -/
structure Node.Alike (prm : TreeParams B P) {p : Bool} (n m : Node L M P p) : Prop where
  height : n.height = m.height
  x : ∀ i, prm.xc p (n.commitment i + prm.delta p) = prm.xc p (m.commitment i + prm.delta p)
  comm : n.height ≠ 0 → n.commitment = m.commitment

omit [∀ p, Module (B (!p)) (P p)] in
theorem slots_alike {prm : TreeParams B P} {p : Bool} {ns ms : List (Node L M P p)} (h : List.Forall₂ (Node.Alike prm) ns ms) (k : Fin L) (i : Fin M) :
    (childSlots ns k).x prm i = (childSlots ms k).x prm i := by
  unfold childSlots
  have hl := h.length_eq
  by_cases hk : k.val < ns.length
  · have hk' : k.val < ms.length := hl ▸ hk
    rw [List.getElem?_eq_getElem hk, List.getElem?_eq_getElem hk']
    exact (h.get hk hk').x i
  · rw [List.getElem?_eq_none (by omega), List.getElem?_eq_none (by omega)]

theorem combine_alike {prm : TreeParams B P} {p : Bool} {ns ms : List (Node L M P (!p))} (h : List.Forall₂ (Node.Alike prm) ns ms) {n : Node L M P p}
    (hn : combine prm p ns = .ok n) : ∃ m, combine prm p ms = .ok m ∧ n.Alike prm m := by
  have hl := h.length_eq
  have hxs : xCoordinates prm (childSlots (L := L) ns) = xCoordinates (M := M) prm (childSlots (L := L) ms) := by
    funext i
    unfold xCoordinates
    congr 1
    funext k
    exact slots_alike h k i
  have hh : (match ns.head? with
      | some c => c.height + 1
      | none => 1) = match ms.head? with
      | some c => c.height + 1
      | none => 1 := by
    cases h with
    | nil => rfl
    | cons a _ => simp [a.height]
  unfold combine at hn ⊢
  rw [← hl, ← hxs]
  split at hn
  · cases hn
  rename_i h1
  rw [if_neg h1]
  split at hn
  · cases hn
  rename_i h2
  rw [if_neg h2]
  generalize hns : (match ns.head? with
      | some c => c.height + 1
      | none => 1) = a at hn hh
  simp only at hn ⊢
  split at hn
  swap
  · cases hn
  rename_i h3
  rw [if_pos h3]
  cases hn
  exact ⟨_, rfl, hns.trans hh, fun _ => rfl, fun _ => rfl⟩

theorem mapM_rel {α β γ : Type} {R : β → γ → Prop} {f : α → Except Err β} {g : α → Except Err γ} (l : List α)
    (h : ∀ a ∈ l, ∀ b, f a = .ok b → ∃ c, g a = .ok c ∧ R b c) {bs : List β} (hb : l.mapM f = .ok bs) :
    ∃ cs, l.mapM g = .ok cs ∧ List.Forall₂ R bs cs := by
  induction l generalizing bs with
  | nil => cases hb; exact ⟨[], rfl, .nil⟩
  | cons a l ih =>
    rw [List.mapM_cons] at hb ⊢
    cases ha : f a with
    | error e => rw [ha] at hb; cases hb
    | ok b =>
      rw [ha] at hb
      cases hl : l.mapM f with
      | error e => rw [hl] at hb; cases hb
      | ok bs' =>
        rw [hl] at hb
        cases hb
        obtain ⟨c, e1, e2⟩ := h a (by simp) b ha
        obtain ⟨cs, e3, e4⟩ := ih (fun x hx => h x (List.mem_cons_of_mem _ hx)) hl
        rw [e1, e3]
        exact ⟨_, rfl, .cons e2 e4⟩

theorem combineForest_alike {prm : TreeParams B P} {p : Bool} {ns ms : List (Node L M P (!p))} (h : List.Forall₂ (Node.Alike prm) ns ms)
    {ns' : List (Node L M P p)} (hn : combineForest prm p ns = .ok ns') :
    ∃ ms', combineForest prm p ms = .ok ms' ∧ List.Forall₂ (Node.Alike prm) ns' ms' := by
  unfold combineForest at hn ⊢
  rw [← h.length_eq]
  exact mapM_rel _ (fun k _ n e => combine_alike (List.forall₂_drop _ (List.forall₂_take _ h)) e) hn

/-- The same for trees. -/
def CurveTree.Alike (prm : TreeParams B P) : CurveTree L M P → CurveTree L M P → Prop
  | .even n, .even m => n.Alike prm m
  | .odd n, .odd m => n.Alike prm m
  | _, _ => False

omit [∀ p, Field (B p)] [∀ p, Module (B (!p)) (P p)] in
theorem CurveTree.Alike.height {prm : TreeParams B P} {t u : CurveTree L M P} (h : t.Alike prm u) : t.height = u.height := by
  cases t <;> cases u <;> first | exact Node.Alike.height h | exact h.elim

theorem grow_alike {prm : TreeParams B P} {t u t' : CurveTree L M P} (h : t.Alike prm u) (ht : t.grow prm = .ok t') :
    ∃ u', u.grow prm = .ok u' ∧ t'.Alike prm u' := by
  cases t <;> cases u
  case even.odd | odd.even => exact h.elim
  all_goals
    rename_i n m
    simp only [CurveTree.grow] at ht ⊢
  · cases hc : combine prm true [n] with
    | error e => rw [hc] at ht; cases ht
    | ok a =>
      rw [hc] at ht
      cases ht
      obtain ⟨b, e1, e2⟩ := combine_alike (p := true) (.cons h .nil) hc
      exact ⟨.odd b, by rw [e1]; rfl, e2⟩
  · cases hc : combine prm false [n] with
    | error e => rw [hc] at ht; cases ht
    | ok a =>
      rw [hc] at ht
      cases ht
      obtain ⟨b, e1, e2⟩ := combine_alike (p := false) (.cons h .nil) hc
      exact ⟨.even b, by rw [e1]; rfl, e2⟩

theorem growTo_alike {prm : TreeParams B P} (height fuel : Nat) {t u t' : CurveTree L M P} (h : t.Alike prm u)
    (ht : t.growTo prm height fuel = some (.ok t')) : ∃ u', u.growTo prm height fuel = some (.ok u') ∧ t'.Alike prm u' := by
  induction fuel generalizing t u with
  | zero =>
    unfold CurveTree.growTo at ht ⊢
    rw [← h.height]
    split at ht
    · cases ht
    · rename_i hlt
      rw [if_neg hlt]
      cases ht
      exact ⟨u, rfl, h⟩
  | succ fuel ih =>
    unfold CurveTree.growTo at ht ⊢
    rw [← h.height]
    split at ht
    · rename_i hlt
      rw [if_pos hlt]
      cases hg : t.grow prm with
      | error e => rw [hg] at ht; cases ht
      | ok a =>
        rw [hg] at ht
        obtain ⟨b, e1, e2⟩ := grow_alike h hg
        rw [e1]
        exact ih e2 ht
    · rename_i hlt
      rw [if_neg hlt]
      cases ht
      exact ⟨u, rfl, h⟩

theorem increaseHeight_alike {prm : TreeParams B P} {height : Option Nat} {fuel : Nat} {t u t' : CurveTree L M P} (h : t.Alike prm u)
    (ht : t.increaseHeight prm height fuel = some (.ok t')) : ∃ u', u.increaseHeight prm height fuel = some (.ok u') ∧ t'.Alike prm u' := by
  cases height with
  | none => cases ht; exact ⟨u, rfl, h⟩
  | some k => exact growTo_alike k fuel h ht

theorem fromForest_alike {prm : TreeParams B P} (height : Option Nat) (fuel : Nat) {ns ms : List (Node L M P false)}
    (h : List.Forall₂ (Node.Alike prm) ns ms) {t : CurveTree L M P} (ht : fromForest prm height fuel ns = some (.ok t)) :
    ∃ u, fromForest prm height fuel ms = some (.ok u) ∧ t.Alike prm u := by
  induction fuel generalizing ns ms with
  | zero =>
    cases h with
    | nil => cases ht
    | cons a h =>
      cases h with
      | nil =>
        unfold fromForest at ht ⊢
        exact increaseHeight_alike (t := .even _) (u := .even _) a ht
      | cons b h => unfold fromForest at ht; cases ht
  | succ fuel ih =>
    cases h with
    | nil => cases ht
    | cons a h =>
      cases h with
      | nil =>
        unfold fromForest at ht ⊢
        exact increaseHeight_alike (t := .even _) (u := .even _) a ht
      | cons b h =>
        have hf := List.Forall₂.cons a (.cons b h)
        unfold fromForest at ht ⊢
        simp only at ht ⊢
        split at ht
        · cases ht
        · rename_i n e1
          obtain ⟨ms', e2, e3⟩ := combineForest_alike (p := true) hf e1
          cases e3 with
          | cons c e3 =>
            cases e3
            rw [e2]
            exact increaseHeight_alike (t := .odd _) (u := .odd _) c ht
        · rename_i odds hne e1
          obtain ⟨ms', e2, e3⟩ := combineForest_alike (p := true) hf e1
          rw [e2]
          split at ht
          · cases ht
          rename_i evens e4
          obtain ⟨ms2, e5, e6⟩ := combineForest_alike (p := false) e3 e4
          have hne' : ∀ m, ms' ≠ [m] := by
            rintro m rfl
            cases e3 with
            | cons c e3 => cases e3; exact hne _ rfl
          split
          · rename_i e; cases e
          · rename_i m e; cases e; exact absurd rfl (hne' m)
          · rename_i e
            cases e
            rw [e5]
            exact ih e6 ht

end CT
