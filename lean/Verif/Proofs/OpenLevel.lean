import Verif.Proofs.Clear
import Verif.Proofs.SingleLevel
import Verif.Props.SingleLevel
import Verif.Props.OddForgery

/-! One level of select-and-rerandomize run for a child that is not among the children: every call but the
last constraint of `select`. -/

namespace CT
set_option linter.unusedSectionVars false
variable {F G X : Type} [Field F]

/-- `select` without its last constraint. -/
def selectOpen (x : LC F) : List (LC F) → Prog F G X Unit
  | [] => panic "Cannot select from empty list."
  | x1 :: xs => do
      let _ ← selectLoop x xs (x1 - x)
      pure ()

theorem selectOpenLoop_run (o : Oracle F G X) {x : LC F} : ∀ {xs : List (LC F)} {prod lc : LC F} {t t' : VState F G X} {m : Nat},
    xs ≠ [] → m = t.numVars + xs.length - 1 → x.Clear m → (∀ c ∈ xs, c.Clear m) → prod.Clear m →
    runV o (selectLoop x xs prod) t = .ok (lc, t') →
    lc = LC.ofVar (.multiplierOutput m) ∧ m < t'.numVars ∧
      ∃ A, t'.constraints = t.constraints ++ A ∧ ∀ c ∈ A, c.Clear m
  | [], _, _, _, _, _, h, _, _, _, _, _ => absurd rfl h
  | xi :: xs, prod, lc, t, t', m, _, hm, hx, hxs, hp, hrun => by
    unfold selectLoop at hrun
    obtain ⟨v, t1, h1, h2⟩ := (runV_bind_ok o).1 hrun
    simp only [multiply, runV, VState.multiply, VState.constrain, Except.ok.injEq, Prod.mk.injEq] at h1
    obtain ⟨rfl, rfl⟩ := h1
    have hA : ∀ c ∈ [(⟨prod.terms ++ [(.multiplierLeft t.numVars, -1)]⟩ : LC F),
        ⟨(xi - x).terms ++ [(.multiplierRight t.numVars, -1)]⟩], c.Clear m := by
      intro c hc
      rcases List.mem_cons.1 hc with rfl | hc
      · exact clear_push hp (by simp) _
      · rw [List.mem_singleton.1 hc]; exact clear_push (clear_sub (hxs xi (by simp)) hx) (by simp) _
    cases xs with
    | nil =>
      simp only [selectLoop, Pure.pure, runV, Except.ok.injEq, Prod.mk.injEq] at h2
      obtain ⟨rfl, rfl⟩ := h2
      have : m = t.numVars := by simpa using hm
      subst this
      exact ⟨rfl, by simp, _, by simp, hA⟩
    | cons y ys =>
      have hne : Variable.multiplierOutput t.numVars ≠ .multiplierOutput m := by
        simp only [List.length_cons] at hm
        simp; omega
      obtain ⟨k1, k2, A, k3, k4⟩ := selectOpenLoop_run o (m := m) (by simp) (by simp only [List.length_cons] at hm ⊢; omega) hx
        (fun c hc => hxs c (by simp only [List.mem_cons] at hc ⊢; exact .inr hc)) (clear_ofVar hne) h2
      refine ⟨k1, k2, [(⟨prod.terms ++ [(.multiplierLeft t.numVars, -1)]⟩ : LC F),
        ⟨(xi - x).terms ++ [(.multiplierRight t.numVars, -1)]⟩] ++ A, by rw [k3]; simp only [List.append_assoc]; rfl, ?_⟩
      intro c hc
      rcases List.mem_append.1 hc with hc | hc
      · exact hA c hc
      · exact k4 c hc

variable [DecidableEq F] {C : SWCurve F}

/-- `singleLevel` without the last constraint of `select`. -/
def singleLevelOpen (C : SWCurve F) (fx : Bool) (prm : LayerParams C) (rc : C.Pt) (children : List (LC F))
    (wit : Option C.Pt) (r : Option Nat) : Prog F G C.Pt Unit := do
  appendMsg (.foreign "rerandomized_child" rc)
  let xVar ← allocate (wit.map C.xField)
  selectOpen (LC.ofVar xVar) children
  let yVar ← allocate (wit.map C.yField)
  curveCheck (LC.ofVar xVar) (LC.ofVar yVar) C.a C.b
  reRandomize C fx prm.lambda prm.tables ⟨LC.ofVar xVar, LC.ofVar yVar, wit⟩
    (LC.const (C.xField (rc + prm.delta))) (LC.const (C.yField (rc + prm.delta))) r

/-- What the Verifier does on the level, compared with the open version. -/
theorem open_run (o : Oracle F G C.Pt) (fx : Bool) (prm : LayerParams C) (rc : C.Pt) {children : List (LC F)}
    {t t' : VState F G C.Pt} (hL : 2 ≤ children.length) {m : Nat} (hm : m = t.allocate.2.numVars + children.length - 2)
    (hc : ∀ c ∈ children, c.Clear m) 
    (hrun : runV o (singleLevelOpen C fx prm rc children none none) t = .ok ((), t')) :
    m < t'.numVars ∧ ∃ A N, t'.constraints = t.constraints ++ (A ++ N) ∧ (∀ c ∈ A ++ N, c.Clear m) ∧
      runV o (singleLevel C fx prm rc children none none) t =
        .ok ((), { t' with constraints := t.constraints ++ (A ++ LC.ofVar (.multiplierOutput m) :: N) }) := by
  unfold singleLevelOpen at hrun
  obtain ⟨_, t1, h1, g1⟩ := (runV_bind_ok o).1 hrun
  simp only [appendMsg, runV, Except.ok.injEq, Prod.mk.injEq, true_and] at h1
  subst h1
  obtain ⟨xv, t2, h2, g2⟩ := (runV_bind_ok o).1 g1
  have hxv : xv ≠ .multiplierOutput m := by
    simp only [allocate, runV, Except.ok.injEq, Prod.mk.injEq] at h2
    rw [← h2.1]; unfold VState.allocate; split <;> simp
  have hn2 : t2.numVars = t.allocate.2.numVars := by
    simp only [allocate, runV, Except.ok.injEq, Prod.mk.injEq] at h2
    rw [← h2.2]; unfold VState.allocate; simp only; cases t.pending <;> rfl
  have hc2 : t2.constraints = t.constraints := by
    simp only [allocate, runV, Except.ok.injEq, Prod.mk.injEq] at h2
    rw [← h2.2]; unfold VState.allocate; simp only; cases t.pending <;> rfl
  obtain ⟨⟨⟩, t3, h3, g3⟩ := (runV_bind_ok o).1 g2
  match children, hL, hm, hc, h3 with
  | x1 :: xs, hL, hm, hc, h3 =>
  simp only [selectOpen] at h3
  obtain ⟨lc, t4, h4, g4⟩ := (runV_bind_ok o).1 h3
  simp only [Pure.pure, runV, Except.ok.injEq, Prod.mk.injEq, true_and] at g4
  subst g4
  simp only [List.length_cons] at hL hm
  obtain ⟨rfl, k2, A, k3, k4⟩ := selectOpenLoop_run o (m := m) (by intro e; subst e; simp at hL) (by omega) (clear_ofVar hxv)
    (fun c hc' => hc c (by simp [hc'])) (clear_sub (hc x1 (by simp)) (clear_ofVar hxv)) h4
  obtain ⟨l1, -, N, l2, l3, l4⟩ := (clear_afterSelect fx prm rc hxv none none).run o k2 g3
  refine ⟨l1, A, N, by rw [l2, k3, hc2, List.append_assoc], ?_, ?_⟩
  · intro c hc'
    rcases List.mem_append.1 hc' with h | h
    · exact k4 c h
    · exact l3 c h
  · unfold singleLevel
    refine (runV_bind_ok o).2 ⟨(), _, rfl, (runV_bind_ok o).2 ⟨xv, t2, h2, (runV_bind_ok o).2
      ⟨(), t4.constrain (LC.ofVar (.multiplierOutput m)), ?_, ?_⟩⟩⟩
    · simp only [select]
      exact (runV_bind_ok o).2 ⟨_, _, h4, rfl⟩
    · have := l4 (t4.constraints ++ [LC.ofVar (.multiplierOutput m)])
      rw [k3, hc2] at this
      simp only [List.append_assoc, List.cons_append, List.nil_append] at this
      rw [← this]
      simp only [VState.constrain, k3, hc2, List.append_assoc]

theorem sameCalls_open (fx : Bool) (prm : LayerParams C) (rc : C.Pt) (children : List (LC F)) (wit : Option C.Pt) (r : Option Nat) :
    SameCalls (G := G) Eq (singleLevelOpen C fx prm rc children wit r) (singleLevelOpen C fx prm rc children none none) := by
  unfold singleLevelOpen
  refine (SameCalls.refl (fun _ => rfl) _).bind fun _ _ (_ : _ = _) => ?_
  refine (SameCalls.allocate' _ _).bind fun v3 v4 hv => ?_
  subst hv
  refine (SameCalls.refl (fun _ => rfl) _).bind fun _ _ (_ : _ = _) => ?_
  refine (SameCalls.allocate' _ _).bind fun v3 v4 hv => ?_
  subst hv
  refine (SameCalls.refl (fun _ => rfl) _).bind fun _ _ (_ : _ = _) => ?_
  exact sync_reRandomize _ _ _ (by exact ⟨rfl, rfl⟩) rfl _ _ _

theorem complete_open {o : Oracle F G C.Pt} {s : PState F G C.Pt} (hs : s.Good) (ha : C.a = 0) {fx : Bool}
    {prm : LayerParams C} (hm : windows prm.lambda ≠ 1) {h : C.Pt}
    (hts : buildTables C (windows prm.lambda) h = some prm.tables) {rc child : C.Pt}
    {children : List (LC F)} (hch : ∀ lc ∈ children, s.HasLC lc) (h0 : children ≠ []) {r : Nat} (hr : r < 2 ^ prm.lambda)
    (hrc : rc = child + r • h) (hne : rc + prm.delta ≠ 0)
    (hok : ChainOk C prm.lambda h r) (hfin : C.DiffX (child + prm.delta) (r • h)) :
    Complete o (singleLevelOpen C fx prm rc children (some (child + prm.delta)) (some r)) s fun _ _ => True := by
  obtain ⟨e1, e2, e3⟩ := entries_of_chain (C := C) hr h
  have hrc' : rc + prm.delta = (child + prm.delta) + ((List.range (windows prm.lambda)).map
      (entryAt C prm.lambda r h)).sum := by rw [e3, hrc]; abel
  obtain ⟨hc, ec⟩ := OnCurve.coords_of_ne_zero hfin.1
  unfold singleLevelOpen
  refine (complete_append hs _).bind fun _ s1 g1 e1' _ => ?_
  refine (complete_allocate g1 _).bind fun xv s2 g2 e2' h2 => ?_
  have E2 := e1'.trans e2'
  match children, h0, hch with
  | x1 :: xs, _, hch =>
  refine Complete.bind (Q := fun _ _ => True) ?_ fun _ s3 g3 e3' _ => ?_
  · unfold selectOpen
    exact (complete_selectLoop g2 (PState.hasLC_ofVar h2.1) (fun l hl => E2.hasLC (hch l (by simp [hl])))
      (PState.hasLC_sub (E2.hasLC (hch x1 (by simp))) (PState.hasLC_ofVar h2.1))).bind fun _ s' g' _ _ => .pure g' trivial
  refine (complete_allocate g3 _).bind fun yv s4 g4 e4 h4 => ?_
  have hxv4 := (e3'.trans e4).ext _ h2.1
  have ex : s4.assignment.val xv = C.xField (child + prm.delta) := by rw [hxv4.2, h2.2]
  refine (complete_curveCheck g4 (PState.hasLC_ofVar hxv4.1) (PState.hasLC_ofVar h4.1) ?_).bind
    fun _ s5 g5 e5 _ => ?_
  · rw [eval_ofVar, eval_ofVar, ex, h4.2]
    unfold SWCurve.OnCurve at hc
    rw [hc, ha]; ring
  refine complete_reRandomize g5 hm hts (c := ⟨LC.ofVar xv, LC.ofVar yv, some (child + prm.delta)⟩)
    (P := child + prm.delta) rfl ⟨?_, ?_, ?_⟩ ?_
    (fun k hk1 hk => by rw [e1 k hk, e2]; exact hok k hk1 hk) (by rw [e3]; exact hfin)
  · exact PState.hasLC_ofVar (e5.ext _ hxv4.1).1
  · exact PState.hasLC_ofVar (e5.ext _ h4.1).1
  · have e1 : s5.assignment.eval (LC.ofVar xv : LC F) = C.xField (child + prm.delta) := by
      rw [eval_ofVar, (e5.ext _ hxv4.1).2, ex]
    have e2 : s5.assignment.eval (LC.ofVar yv : LC F) = C.yField (child + prm.delta) := by
      rw [eval_ofVar, (e5.ext _ h4.1).2, h4.2]
    have hc' : C.OnCurve (s5.assignment.eval (LC.ofVar xv : LC F))
        (s5.assignment.eval (LC.ofVar yv : LC F)) := by rw [e1, e2]; exact hc
    refine ⟨hc', ?_⟩
    rw [ec]
    exact C.pt_inj.2 ⟨by rw [← ec]; exact e1.symm, by rw [← ec]; exact e2.symm⟩
  · rw [← hrc']
    exact rep_const hne

end CT
