import Verif.Spec.BatchedMembership
import Verif.Proofs.Membership
import Verif.Proofs.BatchedComplete

/-! # Extracting `M` chains of selections from the Verifier's batched gadget -/

namespace CT
variable {B : Bool → Type} [∀ p, Field (B p)] [∀ p, DecidableEq (B p)] {C : ∀ p, SWCurve (B p)}
  [∀ p, Module (B (!p)) (C p).Pt] {L M : Nat}

/-- The `j`-th `L` entries. -/
def chunkAt {α : Type} (L : Nat) (l : List α) (j : Nat) : List α := (l.drop (j * L)).take L

/-- `P` is a finite point with x-coordinate among `xs`. -/
def HasXIn {F : Type} [Field F] [DecidableEq F] (C : SWCurve F) (xs : List F) (P : C.Pt) : Prop :=
  ∃ x y, ∃ ho : C.OnCurve x y, x ∈ xs ∧ P = C.pt ho

/-- `c + M·Δ` is `ΣP + z·h` or `-ΣP` for `M` points, the `j`-th with x-coordinate in the `j`-th chunk of `xs`. -/
def MultiSelects {F : Type} [Field F] [DecidableEq F] (C : SWCurve F) (M L : Nat) (delta h : C.Pt) (xs : List F) (c : C.Pt) (z : Int) :
    Prop :=
  ∃ P : Fin M → C.Pt, (∀ j : Fin M, HasXIn C (chunkAt L xs j) (P j)) ∧
    (c + M • delta = ∑ j, P j + z • h ∨ c + M • delta = - ∑ j, P j)

theorem Finset.sum_ite_mem_neg (neg : Finset (Fin M)) :
    ∑ j : Fin M, (if j ∈ neg then (-1 : Int) else 1) = (M : Int) - (2 * neg.card : Nat) := by
  have : ∀ j : Fin M, (if j ∈ neg then (-1 : Int) else 1) = 1 - (if j ∈ neg then 2 else 0) := by
    intro j; split <;> rfl
  simp only [this, Finset.sum_sub_distrib]
  rw [Finset.sum_ite_mem]
  simp [mul_comm]

theorem chunkAt_map {α β : Type} (f : α → β) (l : List α) (j : Nat) : chunkAt L (l.map f) j = (chunkAt L l j).map f := by
  simp [chunkAt, List.map_take, List.map_drop]

omit [∀ p, Module (B (!p)) (C p).Pt] in
theorem multi_level_selects {p : Bool} (o : SideO C p) {prm : SelRerand C} (hv : prm.Valid) (hM : M ≠ 0) (hL : L ≠ 0) {c : (C (!p)).Pt}
    (hne : c + M • (prm.layer (!p)).delta ≠ 0) {children : List (LC (B (!p)))} (hch : children.length = M * L) {s s' : SideV C p}
    (h : runV o (singleLevelBatched (C (!p)) true M (prm.layer (!p)) c children none none) s = .ok ((), s')) :
    ∃ vs : List (Window (B (!p))), ∀ w, s'.SatisfiedBy w →
      MultiSelects (C (!p)) M L (prm.layer (!p)).delta (prm.h (!p)) (children.map w.eval) c
        (extractScalar (windows (prm.layer (!p)).lambda) (prm.layer (!p)).tables vs w) := by
  obtain ⟨ys, vs, hy, _, hw⟩ := C27_batched_level_partial o (hv.a (!p)) hM hL (hv.tables (!p)) hne hch h
  refine ⟨vs, fun w hs => ?_⟩
  obtain ⟨pts, h1, h2, h3⟩ := hw w hs
  have hsum : ∑ j : Fin M, pts[j.val]'(by rw [h1]; exact j.2) = pts.sum := by
    subst h1
    rw [← List.sum_ofFn]
    congr 1
    exact List.ofFn_getElem
  refine ⟨fun j => pts[j.val]'(by rw [h1]; exact j.2), fun j => ?_, by rw [hsum]; exact h3⟩
  obtain ⟨lc, hlc, ho, e⟩ := h2 j _ _ (List.getElem?_eq_getElem (by rw [hy]; exact j.2)) (List.getElem?_eq_getElem (by rw [h1]; exact j.2))
  exact ⟨_, _, ho, by rw [chunkAt_map]; exact List.mem_map_of_mem hlc, e⟩

omit [∀ p, Module (B (!p)) (C p).Pt] in
theorem leavesLoop_selects {p : Bool} (o : SideO C p) {prm : SelRerand C} (hv : prm.Valid) {leaf : Fin M → (C (!p)).Pt}
    (hne : ∀ j, leaf j + (prm.layer (!p)).delta ≠ 0) (chunks : List (List (LC (B (!p))))) : ∀ (i : Nat) {s s' : SideV C p},
    runV o (leavesLoop (C (!p)) true (prm.layer (!p)) leaf none none i chunks) s = .ok ((), s') →
    (∀ w, s'.SatisfiedBy w → s.SatisfiedBy w) ∧
    ∃ vl : Nat → List (Window (B (!p))), ∀ w, s'.SatisfiedBy w → ∀ (k : Nat) ch, chunks[k]? = some ch → ∀ hk : i + k < M,
      SelectsFrom (C (!p)) (prm.layer (!p)).delta (prm.h (!p)) (ch.map w.eval) (leaf ⟨i + k, hk⟩)
        (extractScalar (windows (prm.layer (!p)).lambda) (prm.layer (!p)).tables (vl (i + k)) w) := by
  induction chunks with
  | nil =>
    intro i s s' h
    obtain ⟨-, rfl⟩ := (runV_pure o).1 h
    exact ⟨fun w h => h, fun _ => [], fun w _ k ch hc => by simp at hc⟩
  | cons c cs ih =>
    intro i s s' h
    unfold leavesLoop at h
    split at h
    · rename_i hi
      obtain ⟨⟨⟩, s1, h1, h2⟩ := (runV_bind_ok o).1 h
      obtain ⟨vs, g1⟩ := level_selects o hv (hne ⟨i, hi⟩) h1
      obtain ⟨m2, vl, g2⟩ := ih (i + 1) h2
      refine ⟨fun w hw => (SatisfiedBy_of_run o h1 (m2 w hw) :), fun k => if k = i then vs else vl k, fun w hw k ch hc hk => ?_⟩
      cases k with
      | zero =>
        simp only [List.getElem?_cons_zero, Option.some.injEq] at hc
        subst hc
        simp only [Nat.add_zero, if_true]
        exact g1 w (m2 w hw)
      | succ k =>
        have hne' : ¬ (i + (k + 1) = i) := by omega
        simp only [hne', if_false]
        have := g2 w hw k ch (by simpa using hc) (by omega)
        convert this using 3
        · omega
        · omega
    · simp [panic, runV] at h

omit [∀ p, Module (B (!p)) (C p).Pt] in
theorem leaves_select {p : Bool} (o : SideO C p) {prm : SelRerand C} (hv : prm.Valid) (hM : M ≠ 0) (hL : L ≠ 0)
    {leaf : Fin M → (C (!p)).Pt} (hne : ∀ j, leaf j + (prm.layer (!p)).delta ≠ 0) {children : List (LC (B (!p)))}
    (hch : children.length = M * L) {s s' : SideV C p}
    (h : runV o (leavesLevel (C (!p)) true (prm.layer (!p)) leaf children none none) s = .ok ((), s')) :
    (∀ w, s'.SatisfiedBy w → s.SatisfiedBy w) ∧
    ∃ vl : Nat → List (Window (B (!p))), ∀ w, s'.SatisfiedBy w → ∀ j : Fin M,
      SelectsFrom (C (!p)) (prm.layer (!p)).delta (prm.h (!p)) (chunkAt L (children.map w.eval) j) (leaf j)
        (extractScalar (windows (prm.layer (!p)).lambda) (prm.layer (!p)).tables (vl j) w) := by
  have hdiv : children.length / M = L := by rw [hch, Nat.mul_div_cancel_left _ (Nat.pos_of_ne_zero hM)]
  have hcl : (chunksExact L children).length = M := by
    rw [chunksExact_length, hch, Nat.mul_div_cancel _ (Nat.pos_of_ne_zero hL)]
  unfold leavesLevel at h
  rw [hdiv, if_neg hL] at h
  obtain ⟨m, vl, g⟩ := leavesLoop_selects o hv hne _ 0 h
  refine ⟨m, vl, fun w hw j => ?_⟩
  have hj : j.val < (chunksExact L children).length := by rw [hcl]; exact j.2
  have := g w hw j _ (List.getElem?_eq_getElem hj) (by simp)
  rw [chunksExact_getElem? (List.getElem?_eq_getElem hj)] at this
  rw [chunkAt_map]
  simp only [Nat.zero_add] at this
  exact this

omit [∀ p, Module (B (!p)) (C p).Pt] in
/-- The variables of a parent that is not the root. -/
theorem multiVerifierChildren_comm {p : Bool} {prm : SelRerand C} {T : CurveTree L M (Pts C)} {parent : (C p).Pt} {s s1 : SideV C p}
    {ch : List (LC (B (!p)))} (h : multiVerifierChildren prm T p false parent s = .ok (ch, s1)) :
    ch.length = M * L ∧ s1.vecComms = s.vecComms ++ [(parent, L * M)] ∧ (∀ w, s1.SatisfiedBy w → s.SatisfiedBy w) ∧
      ∀ w : Assignment (B (!p)), ch.map w.eval = List.ofFn fun a : Fin (L * M) => w.vec s.vecComms.length a := by
  unfold multiVerifierChildren at h
  simp only [Bool.false_eq_true, if_false] at h
  split at h
  · rename_i hl
    simp only [Except.ok.injEq, Prod.mk.injEq] at h
    obtain ⟨rfl, rfl⟩ := h
    refine ⟨hl, rfl, fun w hw => hw, fun w => ?_⟩
    apply List.ext_getElem (by simp [VState.commitVec])
    intro a h1 h2
    simp [VState.commitVec, eval_ofVar, Assignment.val]
  · cases h

omit [∀ p, Module (B (!p)) (C p).Pt] in
/-- The constants of the root. -/
theorem multiVerifierChildren_root {p : Bool} {prm : SelRerand C} {T : CurveTree L M (Pts C)} {parent : (C p).Pt} {s s1 : SideV C p}
    {ch : List (LC (B (!p)))} (h : multiVerifierChildren prm T p true parent s = .ok (ch, s1)) :
    ch.length = M * L ∧ s1 = s ∧ ∃ xs, multiRootSiblings prm p T = .ok xs ∧ ∀ w : Assignment (B (!p)), ch.map w.eval = xs := by
  unfold multiVerifierChildren at h
  simp only [if_true] at h
  cases hx : multiRootSiblings prm p T with
  | error e => simp [hx, Except.map] at h
  | ok xs =>
    simp only [hx, Except.map] at h
    split at h
    · rename_i hl
      simp only [Except.ok.injEq, Prod.mk.injEq] at h
      obtain ⟨rfl, rfl⟩ := h
      refine ⟨hl, rfl, xs, rfl, fun w => ?_⟩
      rw [List.map_map]
      apply List.ext_getElem (by simp)
      intro a h1 h2
      simp [eval_const]
    · cases h

omit [∀ p, Module (B (!p)) (C p).Pt] in
/-- The loop over parents none of which is the root. -/
theorem multi_loop_selects {p : Bool} (o : SideO C p) {prm : SelRerand C} (hv : prm.Valid) (hM : M ≠ 0) (hL : L ≠ 0)
    {T : CurveTree L M (Pts C)} {rootHere : Bool} {child : Nat → Option (C (!p)).Pt}
    (ps : List (C p).Pt) : ∀ (i : Nat), (∀ k c, k < ps.length → child (i + k) = some c → c + M • (prm.layer (!p)).delta ≠ 0) →
    i ≠ 0 ∨ rootHere = false → ∀ {s s' : SideV C p},
    multiVerifierLoop o true prm T rootHere child i ps s = .ok s' →
    s'.vecComms = s.vecComms ++ ps.map (·, L * M) ∧ (∀ w, s'.SatisfiedBy w → s.SatisfiedBy w) ∧
    ∃ vs : List (List (Window (B (!p)))), ∀ w, s'.SatisfiedBy w → ∀ k < ps.length, ∃ c z, child (i + k) = some c ∧
      (prm.scalars p vs w)[k]? = some z ∧
      MultiSelects (C (!p)) M L (prm.layer (!p)).delta (prm.h (!p))
        (List.ofFn fun a : Fin (L * M) => w.vec (s.vecComms.length + k) a) c z := by
  induction ps with
  | nil =>
    intro i _ _ s s' h
    simp only [multiVerifierLoop, Except.ok.injEq] at h
    subst h
    exact ⟨by simp, fun w h => h, [], fun w _ k hk => by simp at hk⟩
  | cons parent ps ih =>
    intro i hne hi s s' h
    simp only [multiVerifierLoop] at h
    have hr : (decide (i = 0) && rootHere) = false := by
      rcases hi with hi | hi
      · simp [hi]
      · simp [hi]
    rw [hr] at h
    split at h
    · cases h
    rename_i ch s1 hch
    split at h
    · cases h
    rename_i c hc
    split at h
    · cases h
    rename_i x s2 hx
    obtain ⟨b1, b2, b3, b4⟩ := multiVerifierChildren_comm hch
    obtain ⟨vs1, h1⟩ := multi_level_selects o hv hM hL (hne 0 c (by simp) hc) b1 hx
    obtain ⟨e2, m2, vs2, h2⟩ := ih (i + 1) (fun k c hk hc => hne (k + 1) c (by simpa using hk) (by rwa [show i + (k + 1) = i + 1 + k by omega]))
      (Or.inl (by omega)) h
    have e1 := runV_vecComms o hx
    refine ⟨by rw [e2, e1, b2]; simp, fun w hw => b3 w (SatisfiedBy_of_run o hx (m2 w hw) :), vs1 :: vs2, fun w hw k hk => ?_⟩
    cases k with
    | zero =>
      refine ⟨c, _, hc, rfl, ?_⟩
      have := h1 w (m2 w hw)
      rw [b4] at this
      exact this
    | succ k =>
      obtain ⟨c', z, a1, a2, a3⟩ := h2 w hw k (by simpa using hk)
      refine ⟨c', z, by rw [← a1]; congr 1; omega, a2, ?_⟩
      rw [e1, b2] at a3
      simp only [List.length_append, List.length_singleton] at a3
      rwa [show s.vecComms.length + (k + 1) = s.vecComms.length + 1 + k by omega]

omit [∀ p, Module (B (!p)) (C p).Pt] in
/-- The loop starting with the root. -/
theorem multi_loop_selects_root {p : Bool} (o : SideO C p) {prm : SelRerand C} (hv : prm.Valid) (hM : M ≠ 0) (hL : L ≠ 0)
    {T : CurveTree L M (Pts C)} {child : Nat → Option (C (!p)).Pt} {root : (C p).Pt} {ps : List (C p).Pt}
    (hne : ∀ k c, k < ps.length + 1 → child k = some c → c + M • (prm.layer (!p)).delta ≠ 0) {s s' : SideV C p}
    (h : multiVerifierLoop o true prm T true child 0 (root :: ps) s = .ok s') :
    ∃ xs, multiRootSiblings prm p T = .ok xs ∧ s'.vecComms = s.vecComms ++ ps.map (·, L * M) ∧
    (∀ w, s'.SatisfiedBy w → s.SatisfiedBy w) ∧
    ∃ vs : List (List (Window (B (!p)))), ∀ w, s'.SatisfiedBy w →
      (∃ c z, child 0 = some c ∧ (prm.scalars p vs w)[0]? = some z ∧
        MultiSelects (C (!p)) M L (prm.layer (!p)).delta (prm.h (!p)) xs c z) ∧
      ∀ k < ps.length, ∃ c z, child (k + 1) = some c ∧ (prm.scalars p vs w)[k + 1]? = some z ∧
      MultiSelects (C (!p)) M L (prm.layer (!p)).delta (prm.h (!p))
        (List.ofFn fun a : Fin (L * M) => w.vec (s.vecComms.length + k) a) c z := by
  simp only [multiVerifierLoop, decide_true, Bool.and_self] at h
  split at h
  · cases h
  rename_i ch s1 hch
  split at h
  · cases h
  rename_i c hc
  split at h
  · cases h
  rename_i x s2 hx
  obtain ⟨b1, rfl, xs, b3, b4⟩ := multiVerifierChildren_root hch
  obtain ⟨vs1, h1⟩ := multi_level_selects o hv hM hL (hne 0 c (by omega) hc) b1 hx
  obtain ⟨e2, m2, vs2, h2⟩ := multi_loop_selects o hv hM hL ps 1 (fun k c hk hc => hne (1 + k) c (by omega) hc) (Or.inl (by omega)) h
  have e1 := runV_vecComms o hx
  refine ⟨xs, b3, by rw [e2, e1], fun w hw => (SatisfiedBy_of_run o hx (m2 w hw) :), vs1 :: vs2,
    fun w hw => ⟨⟨c, _, hc, rfl, ?_⟩, fun k hk => ?_⟩⟩
  · have := h1 w (m2 w hw)
    rwa [b4] at this
  · obtain ⟨c', z, a1, a2, a3⟩ := h2 w hw k hk
    rw [e1] at a3
    exact ⟨c', z, by rw [← a1]; congr 1; omega, a2, a3⟩

/-! ## Following the chains down the tree -/

omit [∀ p, Module (B (!p)) (C p).Pt] in
/-- The child meant by a point with x-coordinate among those of the children of a node. -/
theorem hasX_slot {prm : SelRerand C} {q : Bool} {j : Fin M} {children : Fin L → Slot L M (Pts C) q} {P : (C q).Pt}
    (h0 : ∀ y, ¬ (C q).OnCurve 0 y) (hs : HasXIn (C q) (xCoordinates prm.tree children j) P) :
    ∃ i n, children i = .node n ∧ ∃ b : Bool, P = (if b then (-1 : Int) else 1) • (n.commitment j + (prm.layer q).delta) := by
  obtain ⟨x, y, ho, hx, hP⟩ := hs
  have hx0 : x ≠ 0 := by rintro rfl; exact h0 y ho
  obtain ⟨i, hxi⟩ := List.mem_ofFn.1 hx
  rcases hi : children i with _ | n
  · exact absurd (by rw [← hxi, hi]; rfl) hx0
  · have e : (C q).xField (n.commitment j + (prm.layer q).delta) = x := by rw [← hxi, hi]; rfl
    have hne : n.commitment j + (prm.layer q).delta ≠ 0 := by
      intro h; rw [h] at e; exact hx0 e.symm
    refine ⟨i, n, hi, ?_⟩
    rcases OnCurve.eq_or_neg ho hne e with e1 | e1
    · exact ⟨false, by rw [hP, e1]; simp⟩
    · exact ⟨true, by rw [hP, e1]; simp [add_comm]⟩

/-- `M` commitments of the tree and an opening of a re-randomisation of their sum, with signs. -/
theorem batch_opening_or {F G : Type} [Field F] [AddCommGroup G] [Module F G] {g : Gens G} {delta : G} {xs : Fin M → Nat → F}
    {vals : Nat → F} {bl : F} {z : Int} {a : Fin M → G} {c : G}
    (ha : ∀ j : Fin M, a j = ∑ k : Fin L, xs j k • g.Gs.getD (j * L + k) 0)
    (hc : c = ∑ j : Fin M, ∑ k : Fin L, vals (j * L + k) • g.Gs.getD (j * L + k) 0 + bl • g.pc.Bbl) (neg : Finset (Fin M))
    (hr : c + M • delta = ∑ j, (if j ∈ neg then (-1 : Int) else 1) • (a j + delta) + z • g.pc.Bbl) :
    (∀ j : Fin M, ∀ k < L, vals (j * L + k) = xs j k) ∨ BatchSecondOpening g delta L xs vals bl z := by
  by_cases h : neg ≠ ∅ ∨ ∃ j : Fin M, ∃ k < L, vals (j * L + k) ≠ xs j k
  · right
    refine ⟨neg, h, ?_⟩
    have e1 : ∀ j : Fin M, ∑ k : Fin L, (vals (j * L + k) - if j ∈ neg then - xs j k else xs j k) • g.Gs.getD (j * L + k) 0 =
        ∑ k : Fin L, vals (j * L + k) • g.Gs.getD (j * L + k) 0 - (if j ∈ neg then (-1 : Int) else 1) • a j := by
      intro j
      simp only [sub_smul, Finset.sum_sub_distrib]
      congr 1
      split
      · simp only [neg_smul, Finset.sum_neg_distrib, one_smul, ha j]
      · rw [one_smul, ha j]
    have e2 : ∑ j, (if j ∈ neg then (-1 : Int) else 1) • (a j + delta) =
        ∑ j, (if j ∈ neg then (-1 : Int) else 1) • a j + (M • delta - (2 * neg.card) • delta) := by
      simp only [smul_add, Finset.sum_add_distrib]
      congr 1
      rw [← Finset.sum_smul, Finset.sum_ite_mem_neg neg]
      rw [sub_smul, natCast_zsmul, natCast_zsmul]
    simp only [e1, Finset.sum_sub_distrib]
    rw [e2, hc] at hr
    rw [sub_smul, Int.cast_smul_eq_zsmul]
    rw [← sub_eq_zero] at hr
    refine Eq.trans ?_ hr
    abel
  · left
    push Not at h
    exact h.2

/-- `M` chains of selections below nodes of height `k`, every selected sum being opened on the next level: the last ones are
re-randomisations of leaves, or there is a second opening of a sum of nodes. -/
theorem multi_chain {prm : SelRerand C} {p0 : Bool} {h : Nat} {xs : ∀ q, Nat → List (B (!q))} {child : ∀ q, Nat → (C (!q)).Pt}
    {sel : Fin M → (C false).Pt} {z : Bool → Nat → Int} {zl : Fin M → Int} {bl : ∀ q, Nat → B (!q)}
    (h0 : ∀ p y, ¬ (C p).OnCurve 0 y) (hpar : ∀ e, levelDepth p0 false e + 1 ≠ h)
    (hl : ∀ q e, levelDepth p0 q e < h → (xs q e).length = M * L)
    (hsel : ∀ q e, levelDepth p0 q e + 1 < h →
      MultiSelects (C (!q)) M L (prm.layer (!q)).delta (prm.h (!q)) (xs q e) (child q e) (z q e))
    (hleaf : ∀ e, levelDepth p0 true e + 1 = h → ∀ j : Fin M,
      SelectsFrom (C (!true)) (prm.layer (!true)).delta (prm.h (!true)) (chunkAt L (xs true e) j) (sel j) (zl j))
    (hop : ∀ q e, levelDepth p0 q e + 1 < h → child q e = ∑ j : Fin M, ∑ k : Fin L,
      (xs (!q) (nextLevel p0 q e)).getD (j * L + k) 0 • (prm.gens (!q)).Gs.getD (j * L + k) 0 +
        bl (!q) (nextLevel p0 q e) • prm.h (!q)) :
    ∀ k q e (comm : Fin M → Fin M → (C q).Pt) (children : Fin M → Fin L → Slot L M (Pts C) (!q)) (ht el : Fin M → Nat),
      (∀ j, (Node.branch (comm j) (children j) (ht j) (el j) : Node L M (Pts C) q).Uniform (k + 1)) →
      (∀ j, (Node.branch (comm j) (children j) (ht j) (el j) : Node L M (Pts C) q).Committed prm.tree) →
      levelDepth p0 q e + (k + 1) = h → (∀ j : Fin M, chunkAt L (xs q e) j = xCoordinates prm.tree (children j) j) →
    (∀ j, ∃ z' leaf, (z' = 0 ∨ z' = zl j) ∧
      (⟨false, leaf⟩ : Σ p, (C p).Pt) ∈ (Node.branch (comm j) (children j) (ht j) (el j) : Node L M (Pts C) q).leaves ∧
      RerandOf (prm.layer false).delta (prm.h false) z' leaf (sel j)) ∨
    ∃ q' e' z', ∃ xs' : Fin M → Nat → B (!q'), levelDepth p0 (!q') e' + 1 < h ∧ (z' = 0 ∨ z' = z (!q') e') ∧
      (∀ j, (⟨q', xs' j⟩ : Σ p, Nat → B (!p)) ∈
        (Node.branch (comm j) (children j) (ht j) (el j) : Node L M (Pts C) q).branches prm.tree j) ∧
      BatchSecondOpening (prm.gens q') (prm.layer q').delta L xs' (fun k => (xs q' (nextLevel p0 (!q') e')).getD k 0)
        (bl q' (nextLevel p0 (!q') e')) z' := by
  intro k
  induction k with
  | zero =>
    intro q e comm children ht el hu hc hd hx
    left
    intro j
    cases q with
    | false => exact absurd (by omega) (hpar e)
    | true =>
      have hs := hleaf e (by omega) j
      rw [hx] at hs
      obtain ⟨i, n, z', hi, hz, hr⟩ := selects_slot (h0 (!true)) hs
      have hn := (hu j).2.2 i
      rw [hi] at hn
      simp only [Slot.Uniform, Nat.zero_add, Nat.sub_self] at hn
      cases n with
      | branch _ _ _ _ => exact absurd hn.2.1 (by omega)
      | leaf c =>
        refine ⟨z', c, hz, ?_, hr⟩
        simp only [Node.leaves, List.mem_flatten, List.mem_ofFn]
        exact ⟨_, ⟨i, rfl⟩, by rw [hi]; simp [Slot.leaves, Node.leaves]⟩
  | succ k ih =>
    intro q e comm children ht el hu hc hd hx
    obtain ⟨P, hP, hsum⟩ := hsel q e (by omega)
    have hslot := fun j => hasX_slot (prm := prm) (j := j) (children := children j) (h0 (!q)) (by rw [← hx]; exact hP j)
    choose i n hi b hb using hslot
    have hn : ∀ j, (n j).Uniform (k + 1) := fun j => by
      have := (hu j).2.2 (i j)
      rw [hi] at this
      simpa only [Slot.Uniform, Nat.add_sub_cancel] using this
    have hcn : ∀ j, (n j).Committed prm.tree := fun j => by
      have := (hc j).2 (i j)
      rw [hi] at this
      exact this
    have hmem : ∀ j x, x ∈ (n j).leaves → x ∈ (Node.branch (comm j) (children j) (ht j) (el j) : Node L M (Pts C) q).leaves := by
      intro j x hx
      simp only [Node.leaves, List.mem_flatten, List.mem_ofFn]
      exact ⟨_, ⟨i j, rfl⟩, by rw [hi]; exact hx⟩
    have hmem' : ∀ j x, x ∈ (n j).branches prm.tree j →
        x ∈ (Node.branch (comm j) (children j) (ht j) (el j) : Node L M (Pts C) q).branches prm.tree j := by
      intro j x hx
      simp only [Node.branches, List.mem_cons, List.mem_flatten, List.mem_ofFn]
      exact Or.inr ⟨_, ⟨i j, rfl⟩, by rw [hi]; exact hx⟩
    have hbr : ∀ j, ∃ comm' children' ht' el', n j = .branch comm' children' ht' el' := by
      intro j
      have := hn j
      cases hh : n j with
      | leaf c => rw [hh] at this; exact absurd this.1 (by omega)
      | branch a b c d => exact ⟨a, b, c, d, rfl⟩
    choose comm' children' ht' el' hbr using hbr
    obtain rfl : n = fun j => .branch (comm' j) (children' j) (ht' j) (el' j) := funext hbr
    have hr : ∃ z', (z' = 0 ∨ z' = z q e) ∧ ∃ neg : Finset (Fin M), child q e + M • (prm.layer (!q)).delta =
        ∑ j, (if j ∈ neg then (-1 : Int) else 1) • (comm' j j + (prm.layer (!q)).delta) + z' • prm.h (!q) := by
      rcases hsum with e1 | e1
      · refine ⟨z q e, .inr rfl, Finset.univ.filter fun j => b j = true, ?_⟩
        rw [e1]
        congr 1
        refine Finset.sum_congr rfl fun j _ => ?_
        rw [hb j]
        simp [Node.commitment]
      · refine ⟨0, .inl rfl, Finset.univ.filter fun j => b j = false, ?_⟩
        rw [e1, zero_smul, add_zero, ← Finset.sum_neg_distrib]
        refine Finset.sum_congr rfl fun j _ => ?_
        rw [hb j]
        cases hbj : b j <;> simp [Node.commitment, hbj, add_comm]
    obtain ⟨z', hz, neg, hr⟩ := hr
    have hnext := levelDepth_next p0 q e
    have hlen := hl (!q) (nextLevel p0 q e) (by omega)
    rcases batch_opening_or (xs := fun j k => (xCoordinates prm.tree (children' j) j).getD k 0)
      (vals := fun k => (xs (!q) (nextLevel p0 q e)).getD k 0) (bl := bl (!q) (nextLevel p0 q e))
      (fun j => by
        refine ((hcn j).1 j).trans (Finset.sum_congr rfl fun k _ => ?_)
        simp [xCoordinates]
        rfl) (hop q e (by omega)) neg hr with hv | hv
    · have hxs : ∀ j : Fin M, chunkAt L (xs (!q) (nextLevel p0 q e)) j = xCoordinates prm.tree (children' j) j := by
        intro j
        have hjL : j * L + L ≤ M * L := by rw [← Nat.succ_mul]; exact Nat.mul_le_mul_right L j.2
        apply List.ext_getElem
        · simp only [chunkAt, List.length_take, List.length_drop, hlen, xCoordinates, List.length_ofFn]; omega
        · intro a h1 h2
          have ha : a < L := by simpa [xCoordinates] using h2
          have := hv j a ha
          simp only [chunkAt, List.getElem_take, List.getElem_drop]
          rw [List.getD_eq_getElem?_getD, List.getElem?_eq_getElem (by omega), List.getD_eq_getElem?_getD, List.getElem?_eq_getElem h2] at this
          exact this
      rcases ih (!q) (nextLevel p0 q e) comm' children' ht' el' hn hcn (by omega) hxs with a | ⟨q', e', z', xs', a1, a2, a3, a4⟩
      · left
        intro j
        obtain ⟨z', leaf, a1, a2, a3⟩ := a j
        exact ⟨z', leaf, a1, hmem _ _ a2, a3⟩
      · exact .inr ⟨q', e', z', xs', a1, a2, fun j => hmem' _ _ (a3 j), a4⟩
    · right
      have hm := fun j => hmem' j ⟨!q, _⟩ (by rw [Node.branches]; exact List.mem_cons_self)
      cases q
      · exact ⟨true, e, z', _, by simpa using by omega, hz, hm, hv⟩
      · exact ⟨false, e, z', _, by simpa using by omega, hz, hm, hv⟩

/-! ## Both loops -/

omit [∀ p, Module (B (!p)) (C p).Pt] in
/-- The even curve: only batched levels. -/
theorem multi_even_select {prm : SelRerand C} (hv : prm.Valid) (hM : M ≠ 0) (hL : L ≠ 0) {T : CurveTree L M (Pts C)} {p q : Bool}
    {o : SideO C q} {ch : Nat → Option (C (!q)).Pt} {parents ps : List (C q).Pt} (hps : parents = ps ∧ q ≠ p ∨ ∃ r, parents = r :: ps ∧ q = p)
    (hne : ∀ k c, k < parents.length → ch k = some c → c + M • (prm.layer (!q)).delta ≠ 0)
    {rx : List (B (!q))} (hrx : q = p → multiRootSiblings prm q T = .ok rx) {t t' : SideV C q}
    (h : multiVerifierLoop o true prm T (decide (q = p)) ch 0 parents t = .ok t') :
    t'.vecComms = t.vecComms ++ ps.map (·, L * M) ∧ (∀ w, t'.SatisfiedBy w → t.SatisfiedBy w) ∧
    ∃ vs : List (List (Window (B (!q)))), ∀ w, t'.SatisfiedBy w → ∀ e < parents.length,
      ∃ c z, ch e = some c ∧ (prm.scalars q vs w)[e]? = some z ∧
        MultiSelects (C (!q)) M L (prm.layer (!q)).delta (prm.h (!q)) (levelXs (L * M) p q rx t.vecComms.length w e) c z := by
  rcases hps with ⟨rfl, hq⟩ | ⟨r, rfl, hq⟩
  · rw [decide_eq_false hq] at h
    obtain ⟨e2, m, vs, hw⟩ := multi_loop_selects o hv hM hL _ 0 (fun k c hk hc => hne k c hk (by simpa using hc)) (Or.inr rfl) h
    refine ⟨e2, m, vs, fun w hs e he => ?_⟩
    obtain ⟨c, z, b1, b2, b3⟩ := hw w hs e he
    refine ⟨c, z, by simpa using b1, b2, ?_⟩
    simpa [levelXs, hq] using b3
  · rw [decide_eq_true hq] at h
    obtain ⟨xs, e1, e2, m, vs, hw⟩ := multi_loop_selects_root o hv hM hL (fun k c hk hc => hne k c (by simpa using hk) hc) h
    rw [hrx hq] at e1
    cases e1
    refine ⟨e2, m, vs, fun w hs e he => ?_⟩
    obtain ⟨a1, a2⟩ := hw w hs
    cases e with
    | zero =>
      obtain ⟨c, z, b1, b2, b3⟩ := a1
      exact ⟨c, z, b1, b2, by simpa [levelXs, hq] using b3⟩
    | succ e =>
      obtain ⟨c, z, b1, b2, b3⟩ := a2 e (by simpa using he)
      exact ⟨c, z, b1, b2, by simpa [levelXs, hq] using b3⟩

omit [∀ p, Module (B (!p)) (C p).Pt] in
/-- The last level. -/
theorem multi_last_select {prm : SelRerand C} (hv : prm.Valid) (hM : M ≠ 0) (hL : L ≠ 0) {T : CurveTree L M (Pts C)} {p q : Bool}
    {o : SideO C q} {parents ps : List (C q).Pt} (hps : parents = ps ∧ q ≠ p ∨ ∃ r, parents = r :: ps ∧ q = p)
    {last : (C q).Pt} (hlast : parents.getLast? = some last)
    {sel : Fin M → (C (!q)).Pt} (hne : ∀ j, sel j + (prm.layer (!q)).delta ≠ 0)
    {rx : List (B (!q))} (hrx : q = p → multiRootSiblings prm q T = .ok rx) {t1 t2 t' : SideV C q} {n : Nat}
    (ht1 : t1.vecComms.length = n + ((parents.length - 1) - if q = p then 1 else 0))
    {children : List (LC (B (!q)))}
    (h1 : multiVerifierChildren prm T q (decide (parents.length - 1 = 0) && decide (q = p)) last t1 = .ok (children, t2))
    (h2 : runV o (leavesLevel (C (!q)) true (prm.layer (!q)) sel children none none) t2 = .ok ((), t')) :
    t'.vecComms = t1.vecComms ++ (if ps = [] then [] else [(last, L * M)]) ∧ (∀ w, t'.SatisfiedBy w → t1.SatisfiedBy w) ∧
    ∃ vl : Nat → List (Window (B (!q))), ∀ w, t'.SatisfiedBy w → ∀ j : Fin M,
      SelectsFrom (C (!q)) (prm.layer (!q)).delta (prm.h (!q)) (chunkAt L (levelXs (L * M) p q rx n w (parents.length - 1)) j) (sel j)
        (extractScalar (windows (prm.layer (!q)).lambda) (prm.layer (!q)).tables (vl j) w) := by
  have hpos : parents ≠ [] := by rintro rfl; simp at hlast
  by_cases hroot : parents.length - 1 = 0 ∧ q = p
  · obtain ⟨r1, r2⟩ := hroot
    rw [decide_eq_true r1, decide_eq_true r2] at h1
    obtain ⟨b1, rfl, xs, b3, b4⟩ := multiVerifierChildren_root h1
    rw [hrx r2] at b3
    cases b3
    obtain ⟨m, vl, hw⟩ := leaves_select o hv hM hL hne b1 h2
    have hnil : ps = [] := by
      rcases hps with ⟨-, h⟩ | ⟨r, rfl, -⟩
      · exact absurd r2 h
      · simpa using r1
    refine ⟨by rw [runV_vecComms o h2, if_pos hnil]; simp, m, vl, fun w hs j => ?_⟩
    have := hw w hs j
    rw [b4] at this
    simpa [levelXs, r1, r2] using this
  · have hf : (decide (parents.length - 1 = 0) && decide (q = p)) = false := by
      rw [← Bool.not_eq_true, Bool.and_eq_true, decide_eq_true_eq, decide_eq_true_eq]; exact hroot
    rw [hf] at h1
    obtain ⟨b1, b2, b3, b4⟩ := multiVerifierChildren_comm h1
    obtain ⟨m, vl, hw⟩ := leaves_select o hv hM hL hne b1 h2
    have hnil : ps ≠ [] := by
      rcases hps with ⟨rfl, h⟩ | ⟨r, rfl, h⟩
      · exact hpos
      · rintro rfl; exact hroot ⟨rfl, h⟩
    refine ⟨by rw [runV_vecComms o h2, b2, if_neg hnil], fun w hw => b3 w (m w hw), vl, fun w hs j => ?_⟩
    have := hw w hs j
    rw [b4, ht1] at this
    convert this using 2
    unfold levelXs
    by_cases hq : q = p
    · have : parents.length - 1 ≠ 0 := fun h => hroot ⟨h, hq⟩
      simp [hq, this]
    · simp [hq]

theorem sum_fin_mul {F G : Type} [Field F] [AddCommGroup G] [Module F G] (f : Nat → F) (gs : Nat → G) :
    (∑ k : Fin (L * M), f k • gs k) = ∑ j : Fin M, ∑ k : Fin L, f (j * L + k) • gs (j * L + k) := by
  have e : ∀ n, n = M * L → (∑ k : Fin n, f k • gs k) = ∑ k : Fin (M * L), f k • gs k := by rintro n rfl; rfl
  rw [e _ (Nat.mul_comm _ _), ← finProdFinEquiv.sum_comp, Fintype.sum_prod_type]
  refine Finset.sum_congr rfl fun j _ => Finset.sum_congr rfl fun k _ => ?_
  have e1 : ((finProdFinEquiv (j, k) : Fin (M * L)) : Nat) = j * L + k := by
    simp [finProdFinEquiv, Nat.add_comm, Nat.mul_comm]
  rw [e1]

omit [∀ p, Module (B (!p)) (C p).Pt] in
/-- The odd curve: batched levels, then the leaves. -/
theorem multi_odd_select {prm : SelRerand C} (hv : prm.Valid) (hM : M ≠ 0) (hL : L ≠ 0) {T : CurveTree L M (Pts C)} {p q : Bool}
    {o : SideO C q} {ch : Nat → Option (C (!q)).Pt} {parents ps : List (C q).Pt} (hps : parents = ps ∧ q ≠ p ∨ ∃ r, parents = r :: ps ∧ q = p)
    (hne : ∀ k c, k + 1 < parents.length → ch k = some c → c + M • (prm.layer (!q)).delta ≠ 0)
    {rx : List (B (!q))} (hrx : q = p → multiRootSiblings prm q T = .ok rx) {t t1 t2 t' : SideV C q}
    (h : multiVerifierLoop o true prm T (decide (q = p)) ch 0 parents.dropLast t = .ok t1)
    {last : (C q).Pt} (hlast : parents.getLast? = some last)
    {sel : Fin M → (C (!q)).Pt} (hnes : ∀ j, sel j + (prm.layer (!q)).delta ≠ 0) {children : List (LC (B (!q)))}
    (h1 : multiVerifierChildren prm T q (decide (parents.length - 1 = 0) && decide (q = p)) last t1 = .ok (children, t2))
    (h2 : runV o (leavesLevel (C (!q)) true (prm.layer (!q)) sel children none none) t2 = .ok ((), t')) :
    t'.vecComms = t.vecComms ++ ps.map (·, L * M) ∧
    ∃ vs : List (List (Window (B (!q)))), ∃ vl : Nat → List (Window (B (!q))), ∀ w, t'.SatisfiedBy w →
      (∀ e, e + 1 < parents.length → ∃ c z, ch e = some c ∧ (prm.scalars q vs w)[e]? = some z ∧
        MultiSelects (C (!q)) M L (prm.layer (!q)).delta (prm.h (!q)) (levelXs (L * M) p q rx t.vecComms.length w e) c z) ∧
      ∀ j : Fin M, SelectsFrom (C (!q)) (prm.layer (!q)).delta (prm.h (!q))
        (chunkAt L (levelXs (L * M) p q rx t.vecComms.length w (parents.length - 1)) j) (sel j)
        (extractScalar (windows (prm.layer (!q)).lambda) (prm.layer (!q)).tables (vl j) w) := by
  have key : t1.vecComms = t.vecComms ++ ps.dropLast.map (·, L * M) ∧
      ∃ vs : List (List (Window (B (!q)))), ∀ w, t1.SatisfiedBy w → ∀ e, e + 1 < parents.length →
        ∃ c z, ch e = some c ∧ (prm.scalars q vs w)[e]? = some z ∧
          MultiSelects (C (!q)) M L (prm.layer (!q)).delta (prm.h (!q)) (levelXs (L * M) p q rx t.vecComms.length w e) c z := by
    by_cases hone : ps = [] ∧ q = p
    · obtain ⟨rfl, hq⟩ := hone
      rcases hps with ⟨-, hq'⟩ | ⟨r, rfl, -⟩
      · exact absurd hq hq'
      · simp only [List.dropLast_singleton, multiVerifierLoop, Except.ok.injEq] at h
        subst h
        exact ⟨by simp, [], fun w _ e he => by simp at he⟩
    · have hps' : parents.dropLast = ps.dropLast ∧ q ≠ p ∨ ∃ r, parents.dropLast = r :: ps.dropLast ∧ q = p := by
        rcases hps with ⟨rfl, hq⟩ | ⟨r, rfl, hq⟩
        · exact .inl ⟨rfl, hq⟩
        · right
          refine ⟨r, ?_, hq⟩
          cases ps with
          | nil => exact absurd ⟨rfl, hq⟩ hone
          | cons a as => rfl
      obtain ⟨a1, _, vs, a2⟩ := multi_even_select hv hM hL hps' (fun k c hk => hne k c (by simp at hk; omega)) hrx h
      exact ⟨a1, vs, fun w hw e he => a2 w hw e (by simp; omega)⟩
  obtain ⟨a1, vs, a2⟩ := key
  obtain ⟨b1, b2, vl, b3⟩ := multi_last_select hv hM hL hps hlast hnes hrx (n := t.vecComms.length) (by
    rw [a1]
    rcases hps with ⟨rfl, hq⟩ | ⟨r, rfl, hq⟩
    · simp [hq]
    · simp [hq]) h1 h2
  refine ⟨?_, vs, vl, fun w hw => ⟨a2 w (b2 w hw), b3 w hw⟩⟩
  rw [b1, a1, List.append_assoc]
  congr 1
  by_cases hn : ps = []
  · subst hn; simp
  · rw [if_neg hn]
    have : ps.getLast? = some last := by
      rcases hps with ⟨rfl, hq⟩ | ⟨r, rfl, hq⟩
      · exact hlast
      · cases ps with
        | nil => exact absurd rfl hn
        | cons a as => simpa using hlast
    obtain ⟨ys, rfl⟩ := List.getLast?_eq_some_iff.1 this
    simp

theorem multi_membership_core {prm : SelRerand C} (hv : prm.Valid) (hM : M ≠ 0) (hL : L ≠ 0) (hx0 : ∀ p y, ¬ (C p).OnCurve 0 y)
    {T : CurveTree L M (Pts C)} {o : ∀ q, SideO C q} {p0 : Bool} {h : Nat}
    {comm : Fin M → (C p0).Pt} {children : Fin L → Slot L M (Pts C) (!p0)} {el : Nat} (hh : h ≠ 0)
    (hu : (Node.branch comm children h el : Node L M (Pts C) p0).Uniform h)
    (hc : (Node.branch comm children h el : Node L M (Pts C) p0).Committed prm.tree)
    {ch : ∀ q, Nat → Option (C (!q)).Pt} (hne : ∀ q k c, levelDepth p0 q k + 1 < h → ch q k = some c → c + M • (prm.layer (!q)).delta ≠ 0)
    {parents ps : ∀ q, List (C q).Pt} (hps : ∀ q, parents q = ps q ∧ q ≠ p0 ∨ ∃ r, parents q = r :: ps q ∧ q = p0)
    (hpF : ∀ e, e < (parents false).length ↔ levelDepth p0 false e + 1 < h)
    (hpT : ∀ e, e + 1 < (parents true).length ↔ levelDepth p0 true e + 1 < h)
    (hpar : ∀ e, levelDepth p0 false e + 1 ≠ h) (hlt : ∀ e, levelDepth p0 true e + 1 = h → (parents true).length = e + 1)
    (hch : ∀ q e, levelDepth p0 q e + 1 < h → ch q e = (ps (!q))[e]?)
    {sel : Fin M → (C (!true)).Pt} (hnes : ∀ j, sel j + (prm.layer (!true)).delta ≠ 0)
    {rx : ∀ q, List (B (!q))} (hrx : multiRootSiblings prm p0 T = .ok (rx p0))
    (hrx' : rx p0 = (List.ofFn fun i => xCoordinates prm.tree children i).flatten)
    {t t' : ∀ q, SideV C q} {t1 t2 : SideV C true}
    (h0 : multiVerifierLoop (o false) true prm T (decide (false = p0)) (ch false) 0 (parents false) (t false) = .ok (t' false))
    (h1 : multiVerifierLoop (o true) true prm T (decide (true = p0)) (ch true) 0 (parents true).dropLast (t true) = .ok t1)
    {last : (C true).Pt} (hlast : (parents true).getLast? = some last) {cs : List (LC (B (!true)))}
    (h2 : multiVerifierChildren prm T true (decide ((parents true).length - 1 = 0) && decide (true = p0)) last t1 = .ok (cs, t2))
    (h3 : runV (o true) (leavesLevel (C (!true)) true (prm.layer (!true)) sel cs none none) t2 = .ok ((), t' true)) :
    (∀ q, (t' q).vecComms = (t q).vecComms ++ (ps q).map (·, L * M)) ∧
    ∃ vs : ∀ p, List (List (Window (B (!p)))), ∃ vl : Nat → List (Window (B (!true))),
      ∀ w : ∀ p, Assignment (B (!p)), (∀ p, (t' p).SatisfiedBy (w p)) →
      ∀ bl : ∀ p, Nat → B (!p), (∀ p, (t' p).OpenedBy (prm.gens p) (w p) (bl p)) →
      (∀ j : Fin M, ∃ leaf, (⟨false, leaf⟩ : Σ p, (C p).Pt) ∈ (Node.branch comm children h el : Node L M (Pts C) p0).leaves ∧
        ∃ z, (z = 0 ∨ z = extractScalar (windows (prm.layer (!true)).lambda) (prm.layer (!true)).tables (vl j) (w true)) ∧
          RerandOf (prm.layer false).delta (prm.h false) z leaf (sel j)) ∨
      ∃ p i c, ∃ xs : Fin M → Nat → B (!p), (t' p).vecComms[i]? = some (c, L * M) ∧
        (∀ j, (⟨p, xs j⟩ : Σ p, Nat → B (!p)) ∈ (Node.branch comm children h el : Node L M (Pts C) p0).branches prm.tree j) ∧
        ∃ z ∈ 0 :: prm.scalars (!p) (vs (!p)) (w (!p)),
          BatchSecondOpening (prm.gens p) (prm.layer p).delta L xs ((w p).vec i) (bl p i) z := by
  have hF := multi_even_select (o := o false) (p := p0) (rx := rx false) hv hM hL (hps false)
    (fun k c hk hc => hne false k c ((hpF k).1 hk) hc) (by rintro rfl; exact hrx) h0
  have hT := multi_odd_select (o := o true) (p := p0) (rx := rx true) hv hM hL (hps true)
    (fun k c hk hc => hne true k c ((hpT k).1 hk) hc) (by rintro rfl; exact hrx) h1 hlast hnes h2 h3
  obtain ⟨f1, -, vF, f2⟩ := hF
  obtain ⟨g1, vT, vl, g2⟩ := hT
  have hvc : ∀ q, (t' q).vecComms = (t q).vecComms ++ (ps q).map (·, L * M) := by
    rintro (_ | _)
    · exact f1
    · exact g1
  let vs : ∀ p, List (List (Window (B (!p)))) := fun p => match p with | false => vF | true => vT
  refine ⟨hvc, vs, vl, fun w hw bl hbl => ?_⟩
  have hs' : ∀ q e, levelDepth p0 q e + 1 < h → ∃ c z, ch q e = some c ∧ (prm.scalars q (vs q) (w q))[e]? = some z ∧
      MultiSelects (C (!q)) M L (prm.layer (!q)).delta (prm.h (!q)) (levelXs (L * M) p0 q (rx q) (t q).vecComms.length (w q) e) c z := by
    rintro (_ | _) e he
    · exact f2 _ (hw false) e ((hpF e).2 he)
    · exact (g2 _ (hw true)).1 e ((hpT e).2 he)
  have hlen' : (List.ofFn fun i : Fin M => xCoordinates prm.tree children i).flatten.length = M * L := by
    simp [List.length_flatten, xCoordinates, List.sum_ofFn]
  have hxs : ∀ q e, levelDepth p0 q e < h → (levelXs (L * M) p0 q (rx q) (t q).vecComms.length (w q) e).length = M * L := by
    intro q e _
    unfold levelXs
    by_cases hq : q = p0
    · subst hq
      simp only [if_true]
      split
      · rw [hrx', hlen']
      · simp [Nat.mul_comm]
    · simp [hq, Nat.mul_comm]
  have hpt : ∀ q e, ∃ c : (C (!q)).Pt, ∃ z, levelDepth p0 q e + 1 < h → ch q e = some c ∧ (prm.scalars q (vs q) (w q))[e]? = some z ∧
      MultiSelects (C (!q)) M L (prm.layer (!q)).delta (prm.h (!q)) (levelXs (L * M) p0 q (rx q) (t q).vecComms.length (w q) e) c z := by
    intro q e
    by_cases hd : levelDepth p0 q e + 1 < h
    · obtain ⟨c, z, a⟩ := hs' q e hd
      exact ⟨c, z, fun _ => a⟩
    · exact ⟨0, 0, fun h => absurd h hd⟩
  choose child z hcz using hpt
  have hnx : ∀ q e, levelXs (L * M) p0 (!q) (rx (!q)) (t (!q)).vecComms.length (w (!q)) (nextLevel p0 q e) =
      List.ofFn fun a : Fin (L * M) => (w (!q)).vec ((t (!q)).vecComms.length + e) a := by
    intro q e
    unfold levelXs nextLevel
    by_cases hq : q = p0
    · subst hq; simp
    · have : (!q) = p0 := by cases q <;> cases p0 <;> simp_all
      simp [hq, this]
  have hjk : ∀ (j : Fin M) (k : Fin L), j * L + k < L * M := by
    intro j k
    have hjL : j * L + L ≤ M * L := by rw [← Nat.succ_mul]; exact Nat.mul_le_mul_right L j.2
    rw [Nat.mul_comm L M]
    omega
  have key := multi_chain (prm := prm) (p0 := p0) (h := h) (L := L) (M := M)
    (xs := fun q e => levelXs (L * M) p0 q (rx q) (t q).vecComms.length (w q) e) (child := child) (z := z) (sel := sel)
    (zl := fun j => extractScalar (windows (prm.layer (!true)).lambda) (prm.layer (!true)).tables (vl j) (w true))
    (bl := fun q e => bl q ((t q).vecComms.length + if q = p0 then e - 1 else e)) hx0 hpar hxs (fun q e he => (hcz q e he).2.2)
    (by
      intro e he j
      have := (g2 _ (hw true)).2 j
      rw [hlt e he, Nat.add_sub_cancel] at this
      exact this)
    (by
      intro q e he
      obtain ⟨a1, _, _⟩ := hcz q e (by omega)
      rw [hch q e he] at a1
      have hj : (t' (!q)).vecComms[(t (!q)).vecComms.length + e]? = some (child q e, L * M) := by
        rw [hvc, List.getElem?_append_right (by omega)]
        simp [a1]
      have := hbl (!q) _ _ _ hj
      rw [sum_fin_mul (fun k => (w (!q)).vec ((t (!q)).vecComms.length + e) k) (fun k => (prm.gens (!q)).Gs.getD k 0)] at this
      rw [hnx]
      refine this.trans ?_
      congr 1
      · refine Finset.sum_congr rfl fun j _ => Finset.sum_congr rfl fun k _ => ?_
        congr 1
        rw [List.getD_eq_getElem?_getD, List.getElem?_ofFn, dif_pos (hjk j k)]
        rfl
      · have : (if (!q) = p0 then nextLevel p0 q e - 1 else nextLevel p0 q e) = e := by
          unfold nextLevel
          cases q <;> cases p0 <;> simp
        rw [this]; rfl)
    (h - 1) p0 0 (fun _ => comm) (fun _ => children) (fun _ => h) (fun _ => el)
    (fun _ => by rwa [Nat.sub_add_cancel (by omega)]) (fun _ => hc) (by simp [levelDepth]; omega)
    (by
      intro j
      simp only [levelXs, if_true, hrx']
      exact flatten_ofFn_chunk (fun j => by simp [xCoordinates]) j)
  rcases key with a | ⟨q', e', z', xs', a1, a2, a3, a4⟩
  · left
    intro j
    obtain ⟨z', leaf, b1, b2, b3⟩ := a j
    exact ⟨leaf, b2, z', b1, b3⟩
  · right
    obtain ⟨b1, b2, _⟩ := hcz (!q') e' (by omega)
    rw [hch _ e' a1] at b1
    have hz : z' ∈ 0 :: prm.scalars (!q') (vs (!q')) (w (!q')) := by
      rcases a2 with rfl | rfl
      · simp
      · exact List.mem_cons_of_mem _ (List.mem_of_getElem? b2)
    have hidx : ((t q').vecComms.length + if q' = p0 then nextLevel p0 (!q') e' - 1 else nextLevel p0 (!q') e') = (t q').vecComms.length + e' := by
      unfold nextLevel
      cases q' <;> cases p0 <;> simp
    simp only [hidx] at a4
    have hv : ∀ (j : Fin M) (k : Fin L), (levelXs (L * M) p0 q' (rx q') (t q').vecComms.length (w q') (nextLevel p0 (!q') e')).getD (j * L + k) 0 =
        (w q').vec ((t q').vecComms.length + e') (j * L + k) := by
      intro j k
      have : levelXs (L * M) p0 q' (rx q') (t q').vecComms.length (w q') (nextLevel p0 (!q') e') =
          List.ofFn fun a : Fin (L * M) => (w q').vec ((t q').vecComms.length + e') a := by
        unfold levelXs nextLevel
        cases q' <;> cases p0 <;> simp
      rw [this, List.getD_eq_getElem?_getD, List.getElem?_ofFn, dif_pos (hjk j k)]
      rfl
    refine ⟨q', (t q').vecComms.length + e', ?_⟩
    have hb1 : ∃ c : (C q').Pt, (ps q')[e']? = some c := by
      cases q'
      · exact ⟨_, b1⟩
      · exact ⟨_, b1⟩
    obtain ⟨c, hc⟩ := hb1
    refine ⟨c, xs', ?_, a3, z', hz, ?_⟩
    · rw [hvc, List.getElem?_append_right (by omega)]
      simp [hc]
    · obtain ⟨neg, c1, c2⟩ := a4
      refine ⟨neg, ?_, ?_⟩
      · rcases c1 with c1 | ⟨j, k, hk, c1⟩
        · exact .inl c1
        · exact .inr ⟨j, k, hk, by rw [← hv j ⟨k, hk⟩]; exact c1⟩
      · refine Eq.trans ?_ c2
        congr 2
        refine Finset.sum_congr rfl fun j _ => Finset.sum_congr rfl fun k _ => ?_
        simp only [hv j k]

end CT
