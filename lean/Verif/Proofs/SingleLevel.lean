import Verif.Proofs.RerandExtract
import Verif.Proofs.RerandAttack

/-! One level of select-and-rerandomize: soundness, completeness, attack. -/

namespace CT
set_option linter.unusedSectionVars false

variable {F G X : Type} [Field F] [DecidableEq F] {C : SWCurve F}

theorem OnCurve.coords_of_ne_zero {P : C.Pt} (h : P ≠ 0) :
    ∃ hc : C.OnCurve (C.xField P) (C.yField P), P = C.pt hc := by
  rcases C.cases_pt P with rfl | ⟨x, y, hc, rfl⟩
  · exact absurd rfl h
  · exact ⟨hc, rfl⟩

section
variable (o : Oracle F G C.Pt)

theorem singleLevel_extract (ha : C.a = 0) {prm : LayerParams C} {h : C.Pt}
    (hts : buildTables C (windows prm.lambda) h = some prm.tables) {rc : C.Pt}
    (hne : rc + prm.delta ≠ 0) {children : List (LC F)} {wit : Option C.Pt} {ro : Option Nat}
    {s s' : VState F G C.Pt}
    (hrun : runV o (singleLevel C true prm rc children wit ro) s = .ok ((), s')) :
    ∃ (y : Variable) (vs : List (Window F)), vs.length = windows prm.lambda ∧
      ∀ w : Assignment F, s'.SatisfiedBy w → ∃ P, Selected C w children (w.val y) P ∧
        (rc + prm.delta = P + extractScalar (windows prm.lambda) prm.tables vs w • h ∨
          rc + prm.delta = - P) := by
  unfold singleLevel at hrun
  obtain ⟨_, s1, h1, g1⟩ := (runV_bind_ok o).1 hrun
  obtain ⟨xv, s2, h2, g2⟩ := (runV_bind_ok o).1 g1
  obtain ⟨⟨⟩, s3, h3, g3⟩ := (runV_bind_ok o).1 g2
  obtain ⟨yv, s4, h4, g4⟩ := (runV_bind_ok o).1 g3
  obtain ⟨⟨⟩, s5, h5, g5⟩ := (runV_bind_ok o).1 g4
  obtain ⟨vs, hvs, hv⟩ := reRandomize_extract o hts g5
  refine ⟨yv, vs, hvs, fun w hs => ?_⟩
  obtain ⟨lc, hlc, e⟩ := select_sound o h3 (SatisfiedBy_of_run o g3 hs)
  have hcc := curveCheck_sound o h5 (SatisfiedBy_of_run o g5 hs)
  rw [ha, eval_ofVar, eval_ofVar] at hcc
  rw [eval_ofVar] at e
  have hon : C.OnCurve (w.val xv) (w.val yv) := by
    unfold SWCurve.OnCurve; rw [ha, hcc]; ring
  have hon' : C.OnCurve (w.eval lc) (w.val yv) := by rw [e]; exact hon
  refine ⟨C.pt hon', ⟨lc, hlc, hon', rfl⟩, ?_⟩
  obtain ⟨ho, eo⟩ := OnCurve.coords_of_ne_zero hne
  have hon2 : C.OnCurve (w.eval (LC.ofVar xv : LC F)) (w.eval (LC.ofVar yv : LC F)) := by
    rw [eval_ofVar, eval_ofVar]; exact hon
  have hq2 : C.OnCurve (w.eval (LC.const (C.xField (rc + prm.delta))))
      (w.eval (LC.const (C.yField (rc + prm.delta)))) := by
    rw [eval_const, eval_const]; exact ho
  have k1 : C.pt hon2 = C.pt hon' := C.pt_inj.2 ⟨by rw [eval_ofVar, e], by rw [eval_ofVar]⟩
  have k2 : C.pt hq2 = rc + prm.delta := by
    have : C.pt hq2 = C.pt ho := C.pt_inj.2 ⟨by rw [eval_const], by rw [eval_const]⟩
    rw [this, ← eo]
  have := hv w hs hon2 hq2
  rw [k1, k2] at this
  exact this.symm

end

variable {o : Oracle F G C.Pt}

/-- The part of the gadget before `re_randomize`, run by a Prover that knows a child. -/
theorem complete_select_child {s : PState F G C.Pt} (hs : s.Good) (ha : C.a = 0) {rc : C.Pt}
    {children : List (LC F)} (hch : ∀ lc ∈ children, s.HasLC lc) {x y : F} (hc : C.OnCurve x y)
    (hmem : ∃ lc ∈ children, s.assignment.eval lc = x)
    {f : Variable → Variable → Prog F G C.Pt Unit}
    (hf : ∀ xv yv s', s'.Good → s.Ext s' → s'.Rep C (C.pt hc) (LC.ofVar xv, LC.ofVar yv) →
      Complete o (f xv yv) s' fun _ _ => True) :
    Complete o (do
      appendMsg (.foreign "rerandomized_child" rc)
      let xVar ← allocate (some x)
      select (LC.ofVar xVar) children
      let yVar ← allocate (some y)
      curveCheck (LC.ofVar xVar) (LC.ofVar yVar) C.a C.b
      f xVar yVar) s fun _ _ => True := by
  refine (complete_append hs _).bind fun _ s1 g1 e1 _ => ?_
  refine (complete_allocate g1 _).bind fun xv s2 g2 e2 h2 => ?_
  have E2 := e1.trans e2
  obtain ⟨lc, hlc, hx⟩ := hmem
  refine (complete_select g2 (PState.hasLC_ofVar h2.1) (fun l hl => E2.hasLC (hch l hl))
    ⟨lc, hlc, by rw [E2.eval (hch lc hlc), hx, eval_ofVar, h2.2]⟩).bind fun _ s3 g3 e3 _ => ?_
  refine (complete_allocate g3 _).bind fun yv s4 g4 e4 h4 => ?_
  have hxv4 := (e3.trans e4).ext _ h2.1
  have ex : s4.assignment.val xv = x := by rw [hxv4.2, h2.2]
  refine (complete_curveCheck g4 (PState.hasLC_ofVar hxv4.1) (PState.hasLC_ofVar h4.1) ?_).bind
    fun _ s5 g5 e5 _ => ?_
  · rw [eval_ofVar, eval_ofVar, ex, h4.2]
    unfold SWCurve.OnCurve at hc
    rw [hc, ha]; ring
  refine hf xv yv s5 g5 (((E2.trans e3).trans e4).trans e5) ⟨?_, ?_, ?_⟩
  · exact PState.hasLC_ofVar (e5.ext _ hxv4.1).1
  · exact PState.hasLC_ofVar (e5.ext _ h4.1).1
  · have e1 : s5.assignment.eval (LC.ofVar xv : LC F) = x := by
      rw [eval_ofVar, (e5.ext _ hxv4.1).2, ex]
    have e2 : s5.assignment.eval (LC.ofVar yv : LC F) = y := by
      rw [eval_ofVar, (e5.ext _ h4.1).2, h4.2]
    have hc' : C.OnCurve (s5.assignment.eval (LC.ofVar xv : LC F))
        (s5.assignment.eval (LC.ofVar yv : LC F)) := by rw [e1, e2]; exact hc
    exact ⟨hc', C.pt_inj.2 ⟨e1.symm, e2.symm⟩⟩

theorem rep_const {s : PState F G X} {P : C.Pt} (h : P ≠ 0) :
    s.Rep C P (LC.const (C.xField P), LC.const (C.yField P)) := by
  obtain ⟨hc, e⟩ := OnCurve.coords_of_ne_zero h
  refine ⟨PState.hasLC_const, PState.hasLC_const, ?_⟩
  simp only [eval_const]
  exact ⟨hc, e⟩

theorem complete_singleLevel {s : PState F G C.Pt} (hs : s.Good) (ha : C.a = 0) {fx : Bool}
    {prm : LayerParams C} (hm : windows prm.lambda ≠ 1) {h : C.Pt}
    (hts : buildTables C (windows prm.lambda) h = some prm.tables) {rc child : C.Pt}
    {children : List (LC F)} (hch : ∀ lc ∈ children, s.HasLC lc) {r : Nat}
    (hr : rc + prm.delta = child + ((List.range (windows prm.lambda)).map
      (entryAt C prm.lambda r h)).sum) (hne : rc + prm.delta ≠ 0)
    (hmem : ∃ lc ∈ children, s.assignment.eval lc = C.xField child)
    (hd : ∀ k, 1 ≤ k → k < windows prm.lambda →
      C.DiffX ((List.range k).map (entryAt C prm.lambda r h)).sum (entryAt C prm.lambda r h k))
    (hfin : C.DiffX child ((List.range (windows prm.lambda)).map (entryAt C prm.lambda r h)).sum) :
    Complete o (singleLevel C fx prm rc children (some child) (some r)) s fun _ _ => True := by
  obtain ⟨hc, ec⟩ := OnCurve.coords_of_ne_zero hfin.1
  unfold singleLevel
  refine complete_select_child (o := o) hs ha hch hc hmem (rc := rc)
    (f := fun xv yv => reRandomize C fx prm.lambda prm.tables
      ⟨LC.ofVar xv, LC.ofVar yv, some child⟩ (LC.const (C.xField (rc + prm.delta)))
      (LC.const (C.yField (rc + prm.delta))) (some r)) ?_
  intro xv yv s' g' e' hrep
  rw [← ec] at hrep
  refine complete_reRandomize g' hm hts rfl hrep ?_ hd hfin
  rw [← hr]
  exact rep_const hne

/-- The gadget run by a Prover that knows a child but no re-randomisation scalar. -/
def cheatSingleLevel (C : SWCurve F) (prm : LayerParams C) (rc : C.Pt) (children : List (LC F))
    (child : C.Pt) (r : Nat) (P : C.Pt) : Prog F G C.Pt Unit := do
  appendMsg (.foreign "rerandomized_child" rc)
  let xVar ← allocate (some (C.xField child))
  select (LC.ofVar xVar) children
  let yVar ← allocate (some (C.yField child))
  curveCheck (LC.ofVar xVar) (LC.ofVar yVar) C.a C.b
  cheatRerandomize C prm.lambda prm.tables (LC.ofVar xVar) (LC.ofVar yVar) child
    (LC.const (C.xField (rc + prm.delta))) (LC.const (C.yField (rc + prm.delta))) r P

theorem sameCalls_cheatSingleLevel {prm : LayerParams C}
    (hl : prm.tables.length = windows prm.lambda) (rc : C.Pt) (children : List (LC F))
    (child : C.Pt) (r : Nat) (P : C.Pt) :
    SameCalls (G := G) Eq (cheatSingleLevel C prm rc children child r P)
      (singleLevel C false prm rc children none none) := by
  unfold singleLevel cheatSingleLevel
  refine (SameCalls.refl (fun _ => rfl) _).bind fun _ _ (_ : _ = _) => ?_
  refine (SameCalls.allocate' _ _).bind fun v3 v4 hv => ?_
  subst hv
  refine (SameCalls.refl (fun _ => rfl) _).bind fun _ _ (_ : _ = _) => ?_
  refine (SameCalls.allocate' _ _).bind fun v3 v4 hv => ?_
  subst hv
  refine (SameCalls.refl (fun _ => rfl) _).bind fun _ _ (_ : _ = _) => ?_
  exact sameCalls_cheat C prm.lambda _ hl (⟨_, _, none⟩ : PointRep C) rfl _ _ _ r P

/-- The point the cheating Prover starts the chain of additions with. It is computed from public points. -/
def cheatStart (C : SWCurve F) (prm : LayerParams C) (h rc child : C.Pt) (r : Nat) : C.Pt :=
  rc + prm.delta - child -
      (partialScalar (windows prm.lambda) (fun i => windowIndex prm.lambda r (i + 1))
        (windows prm.lambda) -
          partialScalar (windows prm.lambda) (fun i => windowIndex prm.lambda r (i + 1)) 1) • h

theorem complete_cheatSingleLevel_at {s : PState F G C.Pt} (hs : s.Good) (ha : C.a = 0)
    {prm : LayerParams C} {h : C.Pt}
    (hts : buildTables C (windows prm.lambda) h = some prm.tables) {rc child : C.Pt}
    {children : List (LC F)} (hch : ∀ lc ∈ children, s.HasLC lc) {r : Nat}
    (hne : rc + prm.delta ≠ 0) (hc0 : child ≠ 0)
    (hmem : ∃ lc ∈ children, s.assignment.eval lc = C.xField child)
    (hat : Attackable C prm.lambda h r child (rc + prm.delta)) :
    Complete o (cheatSingleLevel C prm rc children child r (cheatStart C prm h rc child r)) s fun _ _ => True := by
  obtain ⟨hc, ec⟩ := OnCurve.coords_of_ne_zero hc0
  unfold cheatSingleLevel
  refine complete_select_child (o := o) hs ha hch hc hmem (rc := rc)
    (f := fun xv yv => cheatRerandomize C prm.lambda prm.tables (LC.ofVar xv) (LC.ofVar yv) child
    (LC.const (C.xField (rc + prm.delta))) (LC.const (C.yField (rc + prm.delta))) r _) ?_
  intro xv yv s' g' e' hrep
  rw [← ec] at hrep
  exact complete_attack hts g' hrep (rep_const hne) hat

theorem complete_cheatSingleLevel {s : PState F G C.Pt} (hs : s.Good) (ha : C.a = 0)
    {prm : LayerParams C} {h : C.Pt}
    (hts : buildTables C (windows prm.lambda) h = some prm.tables) {rc child : C.Pt}
    {children : List (LC F)} (hch : ∀ lc ∈ children, s.HasLC lc) {r : Nat}
    (hne : rc + prm.delta ≠ 0) (hc0 : child ≠ 0)
    (hmem : ∃ lc ∈ children, s.assignment.eval lc = C.xField child)
    (hat : Attackable C prm.lambda h r child (rc + prm.delta)) :
    ∃ P, Complete o (cheatSingleLevel C prm rc children child r P) s fun _ _ => True :=
  ⟨_, complete_cheatSingleLevel_at hs ha hts hch hne hc0 hmem hat⟩

end CT
