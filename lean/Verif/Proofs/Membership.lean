import Verif.Spec.Membership
import Verif.Proofs.SingleLevel
import Verif.Proofs.Tree

/-! # Extracting a chain of selections from the Verifier's path gadget -/

namespace CT
variable {B : Bool → Type} [∀ p, Field (B p)] [∀ p, DecidableEq (B p)] {C : ∀ p, SWCurve (B p)}
  [∀ p, Module (B (!p)) (C p).Pt] {L M : Nat} [NeZero M]

/-- `c + Δ` is `P + z·h` or `-P` for a finite point `P` with x-coordinate among `xs`. -/
def SelectsFrom {F : Type} [Field F] [DecidableEq F] (C : SWCurve F) (delta h : C.Pt) (xs : List F) (c : C.Pt) (z : Int) : Prop :=
  ∃ x y, ∃ ho : C.OnCurve x y, x ∈ xs ∧ (c + delta = C.pt ho + z • h ∨ c + delta = - C.pt ho)

section
variable {F G X : Type} [Field F] [DecidableEq F] (o : Oracle F G X)

omit [DecidableEq F] in
theorem runV_vecComms {α : Type} {p : Prog F G X α} {s s' : VState F G X} {a : α}
    (h : runV o p s = .ok (a, s')) : s'.vecComms = s.vecComms := by
  induction p generalizing s with
  | pure a => simp only [runV, Except.ok.injEq, Prod.mk.injEq] at h; rw [h.2]
  | fail e => simp [runV] at h
  | multiply l r k ih => simp only [runV] at h; exact (ih _ h :)
  | allocate a k ih =>
    simp only [runV] at h
    rw [ih _ h]
    cases hp : s.pending <;> simp [VState.allocate, hp]
  | allocateMultiplier i k ih => simp only [runV] at h; exact (ih _ h :)
  | constrain lc k ih => simp only [runV] at h; exact (ih h :)
  | append m k ih => simp only [runV] at h; exact (ih h :)
  | challenge l k ih => simp only [runV, challengeScalar] at h; exact (ih _ h :)
end

/-! ## One loop -/

omit [∀ p, Module (B (!p)) (C p).Pt] in
/-- The point selected on a level and its scalar. -/
theorem level_selects {p : Bool} (o : SideO C p) {prm : SelRerand C} (hv : prm.Valid) {c : (C (!p)).Pt}
    (hne : c + (prm.layer (!p)).delta ≠ 0) {children : List (LC (B (!p)))} {s s' : SideV C p}
    (h : runV o (singleLevel (C (!p)) true (prm.layer (!p)) c children none none) s = .ok ((), s')) :
    ∃ vs : List (Window (B (!p))), ∀ w, s'.SatisfiedBy w →
      SelectsFrom (C (!p)) (prm.layer (!p)).delta (prm.h (!p)) (children.map w.eval) c
        (extractScalar (windows (prm.layer (!p)).lambda) (prm.layer (!p)).tables vs w) := by
  obtain ⟨y, vs, _, hw⟩ := singleLevel_extract o (hv.a (!p)) (hv.tables (!p)) hne h
  refine ⟨vs, fun w hs => ?_⟩
  obtain ⟨P, ⟨lc, hlc, ho, rfl⟩, e⟩ := hw w hs
  exact ⟨_, _, ho, List.mem_map_of_mem hlc, e⟩

omit [∀ p, Module (B (!p)) (C p).Pt] in
/-- The loop over parents none of which is the root. -/
theorem loop_selects {p : Bool} (o : SideO C p) {prm : SelRerand C} (hv : prm.Valid) {T : CurveTree L M (Pts C)}
    {rootHere : Bool} {child : Nat → Option (C (!p)).Pt}
    (hne : ∀ k c, child k = some c → c + (prm.layer (!p)).delta ≠ 0) (ps : List (C p).Pt) : ∀ (i : Nat),
    i ≠ 0 ∨ rootHere = false → ∀ {s s' : SideV C p},
    verifierLoop o true prm T rootHere child i ps s = .ok s' →
    s'.vecComms = s.vecComms ++ ps.map (·, L) ∧ (∀ w, s'.SatisfiedBy w → s.SatisfiedBy w) ∧
    ∃ vs : List (List (Window (B (!p)))), ∀ w, s'.SatisfiedBy w → ∀ k < ps.length, ∃ c z, child (i + k) = some c ∧
      (prm.scalars p vs w)[k]? = some z ∧
      SelectsFrom (C (!p)) (prm.layer (!p)).delta (prm.h (!p)) (List.ofFn fun a : Fin L => w.vec (s.vecComms.length + k) a) c z := by
  induction ps with
  | nil =>
    intro i _ s s' h
    simp only [verifierLoop, Except.ok.injEq] at h
    subst h
    exact ⟨by simp, fun w h => h, [], fun w _ k hk => by simp at hk⟩
  | cons parent ps ih =>
    intro i hi s s' h
    simp only [verifierLoop] at h
    cases hc : child i with
    | none => simp [hc] at h
    | some c =>
      have hr : (decide (i = 0) && rootHere) = false := by
        rcases hi with hi | hi
        · simp [hi]
        · simp [hi]
      simp only [hc, hr, verifierChildren, Bool.false_eq_true, if_false] at h
      split at h
      · cases h
      · rename_i x s2 hx
        obtain ⟨vs1, h1⟩ := level_selects o hv (hne i c hc) hx
        obtain ⟨e2, m2, vs2, h2⟩ := ih (i + 1) (Or.inl (by omega)) h
        have e1 := runV_vecComms o hx
        have m1 : ∀ w, s2.SatisfiedBy w → s.SatisfiedBy w := fun w hw => (SatisfiedBy_of_run o hx hw :)
        refine ⟨by rw [e2, e1]; simp [VState.commitVec], fun w hw => m1 w (m2 w hw), vs1 :: vs2, fun w hw k hk => ?_⟩
        cases k with
        | zero =>
          refine ⟨c, _, hc, rfl, ?_⟩
          have := h1 w (m2 w hw)
          convert this using 1
          apply List.ext_getElem (by simp [VState.commitVec])
          intro a h1 h2
          simp [VState.commitVec, eval_ofVar, Assignment.val]
        | succ k =>
          obtain ⟨c', z, a1, a2, a3⟩ := h2 w hw k (by simpa using hk)
          refine ⟨c', z, by rw [← a1]; congr 1; omega, a2, ?_⟩
          rw [e1] at a3
          simp only [VState.commitVec, List.length_append, List.length_singleton] at a3
          rwa [show s.vecComms.length + (k + 1) = s.vecComms.length + 1 + k by omega]

omit [∀ p, Module (B (!p)) (C p).Pt] in
/-- The loop starting with the root. -/
theorem loop_selects_root {p : Bool} (o : SideO C p) {prm : SelRerand C} (hv : prm.Valid) {T : CurveTree L M (Pts C)}
    {child : Nat → Option (C (!p)).Pt}
    (hne : ∀ k c, child k = some c → c + (prm.layer (!p)).delta ≠ 0) {root : (C p).Pt} {ps : List (C p).Pt} {s s' : SideV C p}
    (h : verifierLoop o true prm T true child 0 (root :: ps) s = .ok s') :
    ∃ xs, rootSiblings prm p T = .ok xs ∧ 
    s'.vecComms = s.vecComms ++ ps.map (·, L) ∧
    ∃ vs : List (List (Window (B (!p)))), ∀ w, s'.SatisfiedBy w →
      (∃ c z, child 0 = some c ∧ (prm.scalars p vs w)[0]? = some z ∧
        SelectsFrom (C (!p)) (prm.layer (!p)).delta (prm.h (!p)) xs c z) ∧
      ∀ k < ps.length, ∃ c z, child (k + 1) = some c ∧ (prm.scalars p vs w)[k + 1]? = some z ∧
      SelectsFrom (C (!p)) (prm.layer (!p)).delta (prm.h (!p)) (List.ofFn fun a : Fin L => w.vec (s.vecComms.length + k) a) c z := by
  simp only [verifierLoop] at h
  cases hc : child 0 with
  | none => simp [hc] at h
  | some c =>
    simp only [hc, verifierChildren, decide_true, Bool.and_self, if_true] at h
    cases hx : rootSiblings prm p T with
    | error e => simp [hx, Except.map] at h
    | ok xs =>
      simp only [hx, Except.map] at h
      split at h
      · cases h
      · rename_i x s2 hr
        obtain ⟨vs1, h1⟩ := level_selects o hv (hne 0 c hc) hr
        obtain ⟨e2, m2, vs2, h2⟩ := loop_selects o hv hne ps 1 (Or.inl (by omega)) h
        have e1 := runV_vecComms o hr
        refine ⟨xs, rfl, by rw [e2, e1], vs1 :: vs2, fun w hw => ⟨⟨c, _, rfl, rfl, ?_⟩, fun k hk => ?_⟩⟩
        · have := h1 w (m2 w hw)
          convert this using 1
          rw [List.map_map]
          apply List.ext_getElem (by simp)
          intro a h1 h2
          simp [eval_const]
        · obtain ⟨c', z, a1, a2, a3⟩ := h2 w hw k hk
          rw [e1] at a3
          exact ⟨c', z, by rw [← a1]; congr 1; omega, a2, a3⟩

/-! ## Following the chain down the tree -/

/-- The index, on the other curve, of the level below level `e` of curve `q`, when the root is on curve `p0`. -/
def nextLevel (p0 q : Bool) (e : Nat) : Nat := if q = p0 then e else e + 1
/-- The depth of level `e` of curve `q`. -/
def levelDepth (p0 q : Bool) (e : Nat) : Nat := 2 * e + if q = p0 then 0 else 1

theorem levelDepth_next (p0 q : Bool) (e : Nat) : levelDepth p0 (!q) (nextLevel p0 q e) = levelDepth p0 q e + 1 := by
  unfold levelDepth nextLevel
  cases p0 <;> cases q <;> simp <;> omega

theorem OnCurve.eq_or_neg {F : Type} [Field F] [DecidableEq F] {C : SWCurve F} {x y : F} (ho : C.OnCurve x y) {Q : C.Pt} (hQ : Q ≠ 0)
    (hx : C.xField Q = x) : C.pt ho = Q ∨ C.pt ho = - Q := by
  obtain ⟨hq, e⟩ := OnCurve.coords_of_ne_zero hQ
  subst hx
  rcases C.eq_or_neg_of_x ho hq with h | h
  · left; rw [← h, ← e]
  · right; exact (neg_eq_iff_eq_neg.2 (e.trans h)).symm

/-- What a selection from the children of a node means. -/
theorem selects_child {F : Type} [Field F] [DecidableEq F] {C : SWCurve F} {delta h : C.Pt} {xs : List F} {c : C.Pt} {z : Int}
    (h0 : ∀ y, ¬ C.OnCurve 0 y) (hs : SelectsFrom C delta h xs c z) :
    ∃ x ∈ xs, x ≠ 0 ∧ ∀ a : C.Pt, x = C.xField (a + delta) → ∃ z', (z' = 0 ∨ z' = z) ∧ RerandOf delta h z' a c := by
  obtain ⟨x, y, ho, hx, e⟩ := hs
  have hx0 : x ≠ 0 := by rintro rfl; exact h0 y ho
  refine ⟨x, hx, hx0, fun a ha => ?_⟩
  have hne : a + delta ≠ 0 := by
    intro h; rw [h] at ha; exact hx0 ha
  rcases OnCurve.eq_or_neg ho hne ha.symm with e1 | e1 <;> rw [e1] at e <;> rcases e with e | e
  · exact ⟨z, .inr rfl, .inl e⟩
  · exact ⟨0, .inl rfl, .inr (by rw [e]; simp)⟩
  · exact ⟨z, .inr rfl, .inr e⟩
  · exact ⟨0, .inl rfl, .inl (by rw [e]; simp)⟩

omit [∀ p, Module (B (!p)) (C p).Pt] [NeZero M] in
/-- The child meant by a selection from the children of a node. -/
theorem selects_slot {prm : SelRerand C} {q : Bool} {idx : Fin M} {children : Fin L → Slot L M (Pts C) q} {c : (C q).Pt} {z : Int}
    (h0 : ∀ y, ¬ (C q).OnCurve 0 y)
    (hs : SelectsFrom (C q) (prm.layer q).delta (prm.h q) (xCoordinates prm.tree children idx) c z) :
    ∃ i n z', children i = .node n ∧ (z' = 0 ∨ z' = z) ∧
      RerandOf (prm.layer q).delta (prm.h q) z' (n.commitment idx) c := by
  obtain ⟨x, hxm, hx0, hr⟩ := selects_child h0 hs
  obtain ⟨i, rfl⟩ := List.mem_ofFn.1 hxm
  cases hi : children i with
  | empty => exact absurd (by rw [hi]; rfl) hx0
  | node n =>
    obtain ⟨z', a, b⟩ := hr (n.commitment idx) (by rw [hi]; rfl)
    exact ⟨i, n, z', hi, a, b⟩

/-- A commitment of the tree and an opening of its re-randomisation. -/
theorem opening_or {F G : Type} [Field F] [AddCommGroup G] [Module F G] {g : Gens G} {delta : G} {xs vals : Nat → F} {bl : F} {z : Int}
    {a c : G} (ha : a = ∑ k : Fin L, xs k • g.Gs.getD k 0) (hc : c = ∑ k : Fin L, vals k • g.Gs.getD k 0 + bl • g.pc.Bbl)
    (hr : RerandOf delta g.pc.Bbl z a c) : (∀ k < L, vals k = xs k) ∨ SecondOpening g delta L xs vals bl z := by
  rcases hr with e | e
  · by_cases h : ∃ k < L, vals k ≠ xs k
    · right; left
      refine ⟨h, ?_⟩
      have e' : c = a + z • g.pc.Bbl := by
        have := congrArg (· - delta) e
        simpa [add_assoc, add_comm, add_left_comm] using this
      simp only [sub_smul, Finset.sum_sub_distrib]
      rw [← ha, Int.cast_smul_eq_zsmul]
      rw [hc] at e'
      rw [← sub_eq_zero] at e'
      refine Eq.trans ?_ e'
      abel
    · left; push Not at h; exact h
  · right; right
    simp only [sub_smul, add_smul, Finset.sum_add_distrib]
    rw [← ha, Int.cast_smul_eq_zsmul]
    rw [← sub_eq_zero, hc] at e
    refine Eq.trans ?_ e
    rw [two_smul]
    abel

/-- A chain of selections below a node of height `k`, every selected point being opened on the next level: the last one is a
re-randomisation of a leaf, or there is a second opening of a node. -/
theorem chain {prm : SelRerand C} {p0 : Bool} {h : Nat} {xs : ∀ q, Nat → List (B (!q))} {child : ∀ q, Nat → (C (!q)).Pt}
    {z : Bool → Nat → Int} {bl : ∀ q, Nat → B (!q)} (h0 : ∀ p y, ¬ (C p).OnCurve 0 y)
    (hl : ∀ q e, levelDepth p0 q e < h → (xs q e).length = L)
    (hsel : ∀ q e, levelDepth p0 q e < h →
      SelectsFrom (C (!q)) (prm.layer (!q)).delta (prm.h (!q)) (xs q e) (child q e) (z q e))
    (hop : ∀ q e, levelDepth p0 q e + 1 < h → child q e =
      ∑ k : Fin L, (xs (!q) (nextLevel p0 q e)).getD k 0 • (prm.gens (!q)).Gs.getD k 0 + bl (!q) (nextLevel p0 q e) • prm.h (!q)) :
    ∀ k q e (comm : Fin M → (C q).Pt) (children : Fin L → Slot L M (Pts C) (!q)) (ht el : Nat),
      (Node.branch comm children ht el : Node L M (Pts C) q).Uniform (k + 1) →
      (Node.branch comm children ht el : Node L M (Pts C) q).Committed prm.tree → levelDepth p0 q e + (k + 1) = h →
      xs q e = xCoordinates prm.tree children 0 →
    (∃ e' z' leaf, levelDepth p0 true e' + 1 = h ∧ (z' = 0 ∨ z' = z true e') ∧
      (⟨false, leaf⟩ : Σ p, (C p).Pt) ∈ (Node.branch comm children ht el : Node L M (Pts C) q).leaves ∧
      RerandOf (prm.layer false).delta (prm.h false) z' leaf (child true e')) ∨
    ∃ q' e' z' xs', levelDepth p0 (!q') e' + 1 < h ∧ (z' = 0 ∨ z' = z (!q') e') ∧
      (⟨q', xs'⟩ : Σ p, Nat → B (!p)) ∈ (Node.branch comm children ht el : Node L M (Pts C) q).branches prm.tree 0 ∧
      SecondOpening (prm.gens q') (prm.layer q').delta L xs' (fun k => (xs q' (nextLevel p0 (!q') e')).getD k 0)
        (bl q' (nextLevel p0 (!q') e')) z' := by
  intro k
  induction k with
  | zero =>
    intro q e comm children ht el hu hc hd hx
    left
    have hs := hsel q e (by omega)
    rw [hx] at hs
    obtain ⟨i, n, z', hi, hz, hr⟩ := selects_slot (h0 (!q)) hs
    have hn := hu.2.2 i
    rw [hi] at hn
    simp only [Slot.Uniform, Nat.zero_add, Nat.sub_self] at hn
    cases n with
    | branch _ _ _ _ => exact absurd hn.2.1 (by omega)
    | leaf c =>
      obtain ⟨_, hq⟩ := hn
      cases q with
      | false => simp at hq
      | true =>
        refine ⟨e, z', c, by omega, hz, ?_, hr⟩
        simp only [Node.leaves, List.mem_flatten, List.mem_ofFn]
        exact ⟨_, ⟨i, rfl⟩, by rw [hi]; simp [Slot.leaves, Node.leaves]⟩
  | succ k ih =>
    intro q e comm children ht el hu hc hd hx
    have hs := hsel q e (by omega)
    rw [hx] at hs
    obtain ⟨i, n, z', hi, hz, hr⟩ := selects_slot (h0 (!q)) hs
    have hn := hu.2.2 i
    have hcn := hc.2 i
    rw [hi] at hn hcn
    simp only [Slot.Uniform, Nat.add_sub_cancel] at hn
    simp only [Slot.Committed] at hcn
    have hmem : ∀ x, x ∈ n.leaves → x ∈ (Node.branch comm children ht el : Node L M (Pts C) q).leaves := by
      intro x hx
      simp only [Node.leaves, List.mem_flatten, List.mem_ofFn]
      exact ⟨_, ⟨i, rfl⟩, by rw [hi]; exact hx⟩
    have hmem' : ∀ x, x ∈ n.branches prm.tree 0 → x ∈ (Node.branch comm children ht el : Node L M (Pts C) q).branches prm.tree 0 := by
      intro x hx
      simp only [Node.branches, List.mem_cons, List.mem_flatten, List.mem_ofFn]
      exact Or.inr ⟨_, ⟨i, rfl⟩, by rw [hi]; exact hx⟩
    cases n with
    | leaf c => exact absurd hn.1 (by omega)
    | branch comm' children' ht' el' =>
      have hnext := levelDepth_next p0 q e
      rcases opening_or (xs := fun k => (xCoordinates prm.tree children' 0).getD k 0)
        (vals := fun k => (xs (!q) (nextLevel p0 q e)).getD k 0) (bl := bl (!q) (nextLevel p0 q e))
        (by
          refine (hcn.1 0).trans (Finset.sum_congr rfl fun k _ => ?_)
          simp [xCoordinates]
          rfl) (hop q e (by omega)) hr with hv | hv
      · have hxs : xs (!q) (nextLevel p0 q e) = xCoordinates prm.tree children' 0 := by
          apply List.ext_getElem
          · rw [hl _ _ (by omega)]; simp [xCoordinates]
          · intro j h1 h2
            have := hv j (by rwa [hl _ _ (by omega)] at h1)
            simpa [h1, h2] using this
        rcases ih (!q) (nextLevel p0 q e) comm' children' ht' el' hn hcn (by omega) hxs with ⟨e', z', leaf, a1, a2, a3, a4⟩ | ⟨q', e', z', xs', a1, a2, a3, a4⟩
        · exact .inl ⟨e', z', leaf, a1, a2, hmem _ a3, a4⟩
        · exact .inr ⟨q', e', z', xs', a1, a2, hmem' _ a3, a4⟩
      · right
        have hm := hmem' ⟨!q, _⟩ (by rw [Node.branches]; exact List.mem_cons_self)
        cases q
        · exact ⟨true, e, z', _, by simpa using by omega, hz, hm, hv⟩
        · exact ⟨false, e, z', _, by simpa using by omega, hz, hm, hv⟩

theorem SecondOpening.congr {F G : Type} [Field F] [AddCommGroup G] [Module F G] {g : Gens G} {delta : G} {xs vals vals' : Nat → F}
    {bl : F} {z : Int} (h : ∀ k < L, vals k = vals' k) (hs : SecondOpening g delta L xs vals bl z) :
    SecondOpening g delta L xs vals' bl z := by
  rcases hs with ⟨⟨k, hk, hne⟩, hs⟩ | hs
  · refine .inl ⟨⟨k, hk, by rwa [← h k hk]⟩, ?_⟩
    refine Eq.trans ?_ hs
    congr 1
    exact Finset.sum_congr rfl fun k _ => by rw [h k k.2]
  · refine .inr ?_
    refine Eq.trans ?_ hs
    congr 2
    exact Finset.sum_congr rfl fun k _ => by rw [h k k.2]

/-! ## Both loops -/

/-- The x-coordinates to choose from on level `e` of curve `q`. -/
def levelXs (L : Nat) (p0 q : Bool) (rx : List (B (!q))) (j0 : Nat) (w : Assignment (B (!q))) (e : Nat) : List (B (!q)) :=
  if q = p0 then if e = 0 then rx else List.ofFn fun a : Fin L => w.vec (j0 + (e - 1)) a
  else List.ofFn fun a : Fin L => w.vec (j0 + e) a

omit [∀ p, Module (B (!p)) (C p).Pt] in
theorem both_select {prm : SelRerand C} (hv : prm.Valid) {T : CurveTree L M (Pts C)} {o : ∀ q, SideO C q} {p0 : Bool} {h : Nat}
    {ch : ∀ q, Nat → Option (C (!q)).Pt} (hne : ∀ q k c, ch q k = some c → c + (prm.layer (!q)).delta ≠ 0)
    {root : (C p0).Pt} {ps : ∀ q, List (C q).Pt} (hl0 : (ps p0).length + 1 = (h + 1) / 2) (hl1 : (ps (!p0)).length = h / 2)
    {rx : ∀ q, List (B (!q))} (hrx : rootSiblings prm p0 T = .ok (rx p0)) {t t' : ∀ q, SideV C q}
    (h0 : verifierLoop (o p0) true prm T true (ch p0) 0 (root :: ps p0) (t p0) = .ok (t' p0))
    (h1 : verifierLoop (o (!p0)) true prm T false (ch (!p0)) 0 (ps (!p0)) (t (!p0)) = .ok (t' (!p0))) (q : Bool) :
    (t' q).vecComms = (t q).vecComms ++ (ps q).map (·, L) ∧
    ∃ vs : List (List (Window (B (!q)))), ∀ w, (t' q).SatisfiedBy w → ∀ e, levelDepth p0 q e < h →
      ∃ c z, ch q e = some c ∧ (prm.scalars q vs w)[e]? = some z ∧
        SelectsFrom (C (!q)) (prm.layer (!q)).delta (prm.h (!q)) (levelXs L p0 q (rx q) (t q).vecComms.length w e) c z := by
  by_cases hq : q = p0
  · subst hq
    obtain ⟨xs, e1, e2, vs, hw⟩ := loop_selects_root (o q) hv (hne q) h0
    rw [hrx] at e1
    cases e1
    refine ⟨e2, vs, fun w hs e he => ?_⟩
    obtain ⟨a1, a2⟩ := hw w hs
    simp only [levelDepth, if_true] at he
    cases e with
    | zero =>
      obtain ⟨c, z, b1, b2, b3⟩ := a1
      exact ⟨c, z, b1, b2, by simpa [levelXs] using b3⟩
    | succ e =>
      obtain ⟨c, z, b1, b2, b3⟩ := a2 e (by omega)
      exact ⟨c, z, b1, b2, by simpa [levelXs] using b3⟩
  · have hq' : q = !p0 := by cases q <;> cases p0 <;> simp_all
    subst hq'
    obtain ⟨e2, _, vs, hw⟩ := loop_selects (o (!p0)) hv (hne (!p0)) _ 0 (Or.inr rfl) h1
    refine ⟨e2, vs, fun w hs e he => ?_⟩
    simp only [levelDepth, hq, if_false] at he
    obtain ⟨c, z, b1, b2, b3⟩ := hw w hs e (by omega)
    refine ⟨c, z, by simpa using b1, b2, ?_⟩
    simpa [levelXs, hq] using b3

theorem membership_core {prm : SelRerand C} (hv : prm.Valid) (hx0 : ∀ p y, ¬ (C p).OnCurve 0 y) {T : CurveTree L M (Pts C)} {o : ∀ q, SideO C q} {p0 : Bool} {h : Nat}
    {comm : Fin M → (C p0).Pt} {children : Fin L → Slot L M (Pts C) (!p0)} {el : Nat} (_hh : h ≠ 0)
    (hu : (Node.branch comm children h el : Node L M (Pts C) p0).Uniform h)
    (hc : (Node.branch comm children h el : Node L M (Pts C) p0).Committed prm.tree)
    {ch : ∀ q, Nat → Option (C (!q)).Pt} (hne : ∀ q k c, ch q k = some c → c + (prm.layer (!q)).delta ≠ 0)
    {root : (C p0).Pt} {ps : ∀ q, List (C q).Pt} (hl0 : (ps p0).length + 1 = (h + 1) / 2) (hl1 : (ps (!p0)).length = h / 2)
    (hch : ∀ q e, levelDepth p0 q e + 1 < h → ch q e = (ps (!q))[e]?) {sel : (C false).Pt}
    (hlast : ∀ e, levelDepth p0 true e + 1 = h → ch true e = some sel)
    {rx : ∀ q, List (B (!q))} (hrx : rootSiblings prm p0 T = .ok (rx p0)) (hrx' : rx p0 = xCoordinates prm.tree children 0)
    {t t' : ∀ q, SideV C q}
    (h0 : verifierLoop (o p0) true prm T true (ch p0) 0 (root :: ps p0) (t p0) = .ok (t' p0))
    (h1 : verifierLoop (o (!p0)) true prm T false (ch (!p0)) 0 (ps (!p0)) (t (!p0)) = .ok (t' (!p0))) :
    (∀ q, (t' q).vecComms = (t q).vecComms ++ (ps q).map (·, L)) ∧
    ∃ vs : ∀ p, List (List (Window (B (!p)))), ∀ w : ∀ p, Assignment (B (!p)), (∀ p, (t' p).SatisfiedBy (w p)) →
      ∀ bl : ∀ p, Nat → B (!p), (∀ p, (t' p).OpenedBy (prm.gens p) (w p) (bl p)) →
      (∃ leaf, (⟨false, leaf⟩ : Σ p, (C p).Pt) ∈ (Node.branch comm children h el : Node L M (Pts C) p0).leaves ∧
        ∃ z ∈ 0 :: prm.scalars true (vs true) (w true), RerandOf (prm.layer false).delta (prm.h false) z leaf sel) ∨
      ∃ p j c xs, (t' p).vecComms[j]? = some (c, L) ∧
        (⟨p, xs⟩ : Σ p, Nat → B (!p)) ∈ (Node.branch comm children h el : Node L M (Pts C) p0).branches prm.tree 0 ∧
        ∃ z ∈ 0 :: prm.scalars (!p) (vs (!p)) (w (!p)),
          SecondOpening (prm.gens p) (prm.layer p).delta L xs ((w p).vec j) (bl p j) z := by
  have hb := both_select hv hne hl0 hl1 hrx h0 h1
  choose hvc vs hs using hb
  refine ⟨hvc, vs, fun w hw bl hbl => ?_⟩
  have hs' := fun q e he => hs q (w q) (hw q) e he
  have hxs : ∀ q e, levelDepth p0 q e < h → (levelXs L p0 q (rx q) (t q).vecComms.length (w q) e).length = L := by
    intro q e _
    unfold levelXs
    by_cases hq : q = p0
    · subst hq
      simp only [if_true]
      split
      · rw [hrx']; simp [xCoordinates]
      · simp
    · simp [hq]
  have hpt : ∀ q e, ∃ c : (C (!q)).Pt, ∃ z, levelDepth p0 q e < h → ch q e = some c ∧ (prm.scalars q (vs q) (w q))[e]? = some z ∧
      SelectsFrom (C (!q)) (prm.layer (!q)).delta (prm.h (!q)) (levelXs L p0 q (rx q) (t q).vecComms.length (w q) e) c z := by
    intro q e
    by_cases hd : levelDepth p0 q e < h
    · obtain ⟨c, z, a⟩ := hs' q e hd
      exact ⟨c, z, fun _ => a⟩
    · exact ⟨0, 0, fun h => absurd h hd⟩
  choose child z hcz using hpt
  have hnx : ∀ q e, levelXs L p0 (!q) (rx (!q)) (t (!q)).vecComms.length (w (!q)) (nextLevel p0 q e) =
      List.ofFn fun a : Fin L => (w (!q)).vec ((t (!q)).vecComms.length + e) a := by
    intro q e
    unfold levelXs nextLevel
    by_cases hq : q = p0
    · subst hq; simp
    · have : (!q) = p0 := by cases q <;> cases p0 <;> simp_all
      simp [hq, this]
  have key := chain (prm := prm) (p0 := p0) (h := h) (L := L) (M := M)
    (xs := fun q e => levelXs L p0 q (rx q) (t q).vecComms.length (w q) e) (child := child) (z := z)
    (bl := fun q e => bl q ((t q).vecComms.length + if q = p0 then e - 1 else e)) hx0 hxs (fun q e he => (hcz q e he).2.2)
    (by
      intro q e he
      obtain ⟨a1, _, _⟩ := hcz q e (by omega)
      rw [hch q e he] at a1
      have hj : (t' (!q)).vecComms[(t (!q)).vecComms.length + e]? = some (child q e, L) := by
        rw [hvc, List.getElem?_append_right (by omega)]
        simp [a1]
      have := hbl (!q) _ _ _ hj
      rw [hnx]
      refine this.trans ?_
      congr 1
      · refine Finset.sum_congr rfl fun k _ => ?_
        simp
      · have : (if (!q) = p0 then nextLevel p0 q e - 1 else nextLevel p0 q e) = e := by
          unfold nextLevel
          cases q <;> cases p0 <;> simp
        rw [this]; rfl)
    (h - 1) p0 0 comm children h el (by rwa [Nat.sub_add_cancel (by omega)]) hc (by simp [levelDepth]; omega)
    (by simp [levelXs, hrx'])
  rcases key with ⟨e', z', leaf, a1, a2, a3, a4⟩ | ⟨q', e', z', xs', a1, a2, a3, a4⟩
  · left
    obtain ⟨b1, b2, _⟩ := hcz true e' (by omega)
    rw [hlast e' a1, Option.some.injEq] at b1
    refine ⟨leaf, a3, z', ?_, by rw [b1]; exact a4⟩
    rcases a2 with rfl | rfl
    · simp
    · exact List.mem_cons_of_mem _ (List.mem_of_getElem? b2)
  · right
    obtain ⟨b1, b2, _⟩ := hcz (!q') e' (by omega)
    rw [hch _ e' a1] at b1
    have hz : z' ∈ 0 :: prm.scalars (!q') (vs (!q')) (w (!q')) := by
      rcases a2 with rfl | rfl
      · simp
      · exact List.mem_cons_of_mem _ (List.mem_of_getElem? b2)
    have hidx : ((t q').vecComms.length + if q' = p0 then nextLevel p0 (!q') e' - 1 else nextLevel p0 (!q') e') = (t q').vecComms.length + e' := by
      unfold nextLevel
      cases q' <;> cases p0 <;> simp
    simp only [hidx] at a4
    have hv : ∀ k < L, (levelXs L p0 q' (rx q') (t q').vecComms.length (w q') (nextLevel p0 (!q') e')).getD k 0 =
        (w q').vec ((t q').vecComms.length + e') k := by
      intro k hk
      have : levelXs L p0 q' (rx q') (t q').vecComms.length (w q') (nextLevel p0 (!q') e') =
          List.ofFn fun a : Fin L => (w q').vec ((t q').vecComms.length + e') a := by
        unfold levelXs nextLevel
        cases q' <;> cases p0 <;> simp
      rw [this]
      simp [hk]
    refine ⟨q', (t q').vecComms.length + e', ?_⟩
    have hb1 : ∃ c : (C q').Pt, (ps q')[e']? = some c := by
      cases q'
      · exact ⟨_, b1⟩
      · exact ⟨_, b1⟩
    obtain ⟨c, hc⟩ := hb1
    refine ⟨c, xs', ?_, a3, z', hz, a4.congr hv⟩
    rw [hvc, List.getElem?_append_right (by omega)]
    simp [hc]

end CT
