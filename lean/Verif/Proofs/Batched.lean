import Verif.Proofs.SingleLevel

/-! The batched single-level gadget: soundness and completeness. -/

namespace CT
set_option linter.unusedSectionVars false

variable {F G X : Type} [Field F] [DecidableEq F] {C : SWCurve F}

section
variable (o : Oracle F G X)

theorem checkedHelper_sound {l r out : PointRep C} {s s' : VState F G X} {w : Assignment F}
    (h : runV o (checkedCurveAdditionHelper C l r) s = .ok (out, s')) (hs : s'.SatisfiedBy w)
    (hl : C.OnCurve (w.eval l.x) (w.eval l.y)) (hr : C.OnCurve (w.eval r.x) (w.eval r.y)) :
    ∃ ho : C.OnCurve (w.eval out.x) (w.eval out.y), C.pt ho = C.pt hl + C.pt hr := by
  unfold checkedCurveAdditionHelper at h
  obtain ⟨⟨a, b, c⟩, s1, h1, hs1, h⟩ := runV_step o h hs
  obtain ⟨⟨d, e⟩, s2, h2, hs2, h⟩ := runV_step o h hs
  obtain ⟨xv, s3, h3, hs3, h⟩ := runV_step o h hs
  obtain ⟨yv, s4, h4, hs4, h⟩ := runV_step o h hs
  obtain ⟨⟨⟩, s5, h5, hs5, h⟩ := runV_step o h hs
  obtain ⟨rfl, rfl⟩ := (runV_pure o).1 h
  obtain ⟨hne, dd, e1, e2, e3⟩ := checked_sound o h5 hs5
  exact C.add_of_chord hl hr hne e1 e2 e3

theorem batchedLoop_extract (ha : C.a = 0) {first : Bool} {chunks : List (List (LC F))}
    {wit : Option (List C.Pt)} {sum r : PointRep C} {s s' : VState F G X}
    (hrun : runV o (batchedLoop C first chunks wit sum) s = .ok (r, s')) :
    ∃ ys : List Variable, ys.length = chunks.length ∧
      ∀ w : Assignment F, s'.SatisfiedBy w → ∀ S : C.Pt,
        ((first = true ∧ S = 0 ∧ chunks ≠ []) ∨
          (first = false ∧ ∃ hc : C.OnCurve (w.eval sum.x) (w.eval sum.y), S = C.pt hc)) →
        ∃ pts : List C.Pt,
          List.Forall₂ (fun c P => Selected C w c.1 (w.val c.2) P) (chunks.zip ys) pts ∧
          ∃ hc : C.OnCurve (w.eval r.x) (w.eval r.y), C.pt hc = S + pts.sum := by
  induction chunks generalizing first wit sum s with
  | nil =>
    obtain ⟨rfl, rfl⟩ := (runV_pure o).1 hrun
    refine ⟨[], rfl, fun w hs S hS => ⟨[], by simp, ?_⟩⟩
    rcases hS with ⟨-, -, h⟩ | ⟨-, hc, rfl⟩
    · exact absurd rfl h
    · exact ⟨hc, by simp⟩
  | cons ch chunks ih =>
    unfold batchedLoop at hrun
    obtain ⟨⟨w0, rest⟩, s1, h1, g1⟩ := (runV_bind_ok o).1 hrun
    obtain ⟨xv, s2, h2, g2⟩ := (runV_bind_ok o).1 g1
    obtain ⟨yv, s3, h3, g3⟩ := (runV_bind_ok o).1 g2
    obtain ⟨⟨⟩, s4, h4, g4⟩ := (runV_bind_ok o).1 g3
    obtain ⟨⟨⟩, s5, h5, g5⟩ := (runV_bind_ok o).1 g4
    obtain ⟨sum', s6, h6, g6⟩ := (runV_bind_ok o).1 g5
    obtain ⟨ys, hys, hih⟩ := ih g6
    refine ⟨yv :: ys, by simp [hys], fun w hs S hS => ?_⟩
    obtain ⟨lc, hlc, e⟩ := select_sound o h4 (SatisfiedBy_of_run o g4 hs)
    have hcc := curveCheck_sound o h5 (SatisfiedBy_of_run o g5 hs)
    rw [ha, eval_ofVar, eval_ofVar] at hcc
    rw [eval_ofVar] at e
    have hon : C.OnCurve (w.val xv) (w.val yv) := by
      unfold SWCurve.OnCurve; rw [ha, hcc]; ring
    have hon' : C.OnCurve (w.eval lc) (w.val yv) := by rw [e]; exact hon
    have hon2 : C.OnCurve (w.eval (LC.ofVar xv : LC F)) (w.eval (LC.ofVar yv : LC F)) := by
      rw [eval_ofVar, eval_ofVar]; exact hon
    have k1 : C.pt hon2 = C.pt hon' := C.pt_inj.2 ⟨by rw [eval_ofVar, e], by rw [eval_ofVar]⟩
    have hsum : ∃ hc : C.OnCurve (w.eval sum'.x) (w.eval sum'.y), S + C.pt hon' = C.pt hc := by
      unfold batchedSum at h6
      rcases hS with ⟨rfl, rfl, -⟩ | ⟨rfl, hc, rfl⟩
      · obtain ⟨rfl, rfl⟩ := (runV_pure o).1 h6
        exact ⟨hon2, by rw [k1, zero_add]⟩
      · obtain ⟨ho, eo⟩ := checkedHelper_sound o h6 (SatisfiedBy_of_run o g6 hs) hc hon2
        exact ⟨ho, by rw [eo, k1]⟩
    obtain ⟨hc, ec⟩ := hsum
    obtain ⟨pts, hp, hr, er⟩ := hih w hs _ (.inr ⟨rfl, hc, rfl⟩)
    refine ⟨C.pt hon' :: pts, ?_, hr, ?_⟩
    · exact .cons ⟨lc, hlc, hon', rfl⟩ hp
    · rw [er, List.sum_cons, ← add_assoc, ec]

theorem chunksExact_length {α : Type} (k : Nat) (l : List α) :
    (chunksExact k l).length = l.length / k := by simp [chunksExact]

theorem singleLevelBatched_extract (ha : C.a = 0) {M L : Nat} (hM : M ≠ 0) (hL : L ≠ 0)
    {prm : LayerParams C} {h : C.Pt}
    (hts : buildTables C (windows prm.lambda) h = some prm.tables) {rc : C.Pt}
    (hne : rc + M • prm.delta ≠ 0) {children : List (LC F)} (hch : children.length = M * L)
    {wit : Option (List C.Pt)} {ro : Option Nat} {s s' : VState F G X}
    (hrun : runV o (singleLevelBatched C true M prm rc children wit ro) s = .ok ((), s')) :
    ∃ (ys : List Variable) (vs : List (Window F)), ys.length = M ∧ vs.length = windows prm.lambda ∧
      ∀ w : Assignment F, s'.SatisfiedBy w → ∃ pts : List C.Pt,
        List.Forall₂ (fun c P => Selected C w c.1 (w.val c.2) P)
          ((chunksExact L children).zip ys) pts ∧
        (rc + M • prm.delta = pts.sum + extractScalar (windows prm.lambda) prm.tables vs w • h ∨
          rc + M • prm.delta = - pts.sum) := by
  have hdiv : children.length / M = L := by rw [hch, Nat.mul_div_cancel_left _ (Nat.pos_of_ne_zero hM)]
  have hlen : (chunksExact L children).length = M := by
    rw [chunksExact_length, hch, Nat.mul_div_cancel _ (Nat.pos_of_ne_zero hL)]
  unfold singleLevelBatched at hrun
  rw [if_neg (by rw [hdiv]; omega), hdiv] at hrun
  obtain ⟨sum, s1, h1, g1⟩ := (runV_bind_ok o).1 hrun
  obtain ⟨ys, hys, hy⟩ := batchedLoop_extract o ha h1
  obtain ⟨vs, hvs, hv⟩ := reRandomize_extract o hts g1
  refine ⟨ys, vs, by rw [hys, hlen], hvs, fun w hs => ?_⟩
  obtain ⟨pts, hp, hc, ec⟩ := hy w (SatisfiedBy_of_run o g1 hs) 0
    (.inl ⟨rfl, rfl, fun h0 => by rw [h0] at hlen; simp at hlen; omega⟩)
  refine ⟨pts, hp, ?_⟩
  obtain ⟨ho, eo⟩ := OnCurve.coords_of_ne_zero hne
  have hq2 : C.OnCurve (w.eval (LC.const (C.xField (rc + M • prm.delta))))
      (w.eval (LC.const (C.yField (rc + M • prm.delta)))) := by
    rw [eval_const, eval_const]; exact ho
  have k2 : C.pt hq2 = rc + M • prm.delta := by
    have : C.pt hq2 = C.pt ho := C.pt_inj.2 ⟨by rw [eval_const], by rw [eval_const]⟩
    rw [this, ← eo]
  have := hv w hs hc hq2
  rw [ec, k2, zero_add] at this
  exact this.symm

end

variable {o : Oracle F G X} {s : PState F G X}

theorem complete_checkedHelper (hs : s.Good) {l r : PointRep C} {P Q : C.Pt}
    (hlw : l.witness = some P) (hrw : r.witness = some Q)
    (hl : s.Rep C P (l.x, l.y)) (hr : s.Rep C Q (r.x, r.y)) (hd : C.DiffX P Q) :
    Complete o (checkedCurveAdditionHelper C l r) s fun out s' =>
      out.witness = some (P + Q) ∧ s'.Rep C (P + Q) (out.x, out.y) := by
  obtain ⟨px, py, qx, qy, hp, hq, rfl, rfl, hne⟩ := hd.coords
  obtain ⟨ox, oy, ho, e, c1, c2, c3⟩ := C.chord_of_add hp hq hne
  have n1 : qx - px ≠ 0 := sub_ne_zero.2 hne.symm
  have n2 : px - qx ≠ 0 := sub_ne_zero.2 hne
  have hw : addWitness C (C.pt hp) (C.pt hq) =
      some (C.pt hp + C.pt hq, (qy - py) / (qx - px), 1 / (px - qx)) := by
    simp [addWitness, fdiv, n1, n2]
  unfold checkedCurveAdditionHelper
  rw [hlw, hrw]
  refine Complete.bind (Q := fun a s' => a = (some (C.pt ho),
    some ((qy - py) / (qx - px)), some (1 / (px - qx))) ∧ s' = s) ?_ fun a s1 g1 _ h1 => ?_
  · unfold helperWitness
    refine (complete_orPanic' hs (Q := fun a s' => a = (C.pt hp + C.pt hq, (qy - py) / (qx - px),
      1 / (px - qx)) ∧ s' = s) hw ⟨rfl, rfl⟩).bind fun a s1 g1 _ h1 => ?_
    obtain ⟨rfl, rfl⟩ := h1
    exact .pure g1 ⟨by rw [e], rfl⟩
  obtain ⟨rfl, rfl⟩ := h1
  refine (complete_orPanic' g1 (Q := fun a s' => a = (some ox, some oy) ∧ s' = s1)
    (a := (some ox, some oy)) (by simp [coords?]) ⟨rfl, rfl⟩).bind fun a s2 g2 _ h2 => ?_
  obtain ⟨rfl, rfl⟩ := h2
  refine (complete_allocate g2 _).bind fun xv s3 g3 e3 h3 => ?_
  refine (complete_allocate g3 _).bind fun yv s4 g4 e4 h4 => ?_
  have E := e3.trans e4
  obtain ⟨l1, l2, hl', el⟩ := hl.ext E
  obtain ⟨r1, r2, hr', er⟩ := hr.ext E
  obtain ⟨a1, a2⟩ := C.pt_inj.1 el
  obtain ⟨a3, a4⟩ := C.pt_inj.1 er
  have hx4 := e4.ext _ h3.1
  have ex : s4.assignment.eval (LC.ofVar xv : LC F) = ox := by rw [eval_ofVar, hx4.2, h3.2]
  have ey : s4.assignment.eval (LC.ofVar yv : LC F) = oy := by rw [eval_ofVar, h4.2]
  refine (complete_checked g4 (d := (qy - py) / (qx - px)) (i := 1 / (px - qx))
    ⟨l1, l2, r1, r2, PState.hasLC_ofVar hx4.1, PState.hasLC_ofVar h4.1⟩ rfl ?_ ?_ ?_ ?_).bind
    fun _ s5 g5 e5 _ => ?_
  · simp only [← a1, ← a3]; field_simp
  · simp only [← a1, ← a2, ← a3, ← a4]; exact c1
  · simp only [← a1, ← a2, ex, ey]; exact c2
  · simp only [← a1, ← a3, ex]; exact c3
  · refine .pure g5 ⟨by rw [e], ?_⟩
    rw [e]
    refine PState.Rep.ext (s := s4) ⟨PState.hasLC_ofVar hx4.1, PState.hasLC_ofVar h4.1, ?_⟩ e5
    have hc' : C.OnCurve (s4.assignment.eval (LC.ofVar xv : LC F))
        (s4.assignment.eval (LC.ofVar yv : LC F)) := by rw [ex, ey]; exact ho
    exact ⟨hc', C.pt_inj.2 ⟨ex.symm, ey.symm⟩⟩

theorem BatchOk.congr {w w' : Assignment F} {first : Bool} {S : C.Pt} {chunks : List (List (LC F))}
    {pts : List C.Pt} (h : BatchOk C w first S chunks pts)
    (hw : ∀ ch ∈ chunks, ∀ lc ∈ ch, w'.eval lc = w.eval lc) : BatchOk C w' first S chunks pts := by
  induction chunks generalizing first S pts with
  | nil =>
    cases pts with
    | nil => trivial
    | cons P pts => simp [BatchOk] at h
  | cons ch chunks ih =>
    cases pts with
    | nil => simp [BatchOk] at h
    | cons P pts =>
      obtain ⟨h1, ⟨lc, hlc, e⟩, h3, h4⟩ := h
      exact ⟨h1, ⟨lc, hlc, by rw [hw ch (by simp) lc hlc, e]⟩, h3,
        ih h4 fun c hc => hw c (by simp [hc])⟩

theorem complete_batchedLoop (hs : s.Good) (ha : C.a = 0) {first : Bool}
    {chunks : List (List (LC F))} (hch : ∀ ch ∈ chunks, ∀ lc ∈ ch, s.HasLC lc) {pts : List C.Pt}
    {sum : PointRep C} {S : C.Pt} (hsw : sum.witness = some S) (hS0 : first = true → S = 0)
    (hS : first = false → s.Rep C S (sum.x, sum.y)) (hne : first = true → chunks ≠ [])
    (hok : BatchOk C s.assignment first S chunks pts) :
    Complete o (batchedLoop C first chunks (some pts) sum) s fun out s' =>
      out.witness = some (S + pts.sum) ∧ s'.Rep C (S + pts.sum) (out.x, out.y) := by
  induction chunks generalizing first pts sum S s with
  | nil =>
    cases pts with
    | cons P pts => simp [BatchOk] at hok
    | nil =>
      cases first with
      | true => exact absurd rfl (hne rfl)
      | false => exact .pure hs ⟨by simp [hsw], by simpa using hS rfl⟩
  | cons ch chunks ih =>
    cases pts with
    | nil => simp [BatchOk] at hok
    | cons P pts =>
      obtain ⟨hP0, ⟨lc, hlc, hx⟩, hdiff, hrest⟩ := hok
      obtain ⟨hc, ec⟩ := OnCurve.coords_of_ne_zero hP0
      unfold batchedLoop
      refine Complete.bind (Q := fun a s' => a = (some P, some pts) ∧ s' = s) (.pure hs ⟨rfl, rfl⟩)
        fun a s0 g0 _ h0 => ?_
      obtain ⟨rfl, rfl⟩ := h0
      refine (complete_allocate g0 _).bind fun xv s1 g1 e1 h1 => ?_
      refine (complete_allocate g1 _).bind fun yv s2 g2 e2 h2 => ?_
      have E2 := e1.trans e2
      have hx2 := e2.ext _ h1.1
      refine (complete_select g2 (PState.hasLC_ofVar hx2.1)
        (fun l hl => E2.hasLC (hch ch (by simp) l hl))
        ⟨lc, hlc, by rw [E2.eval (hch ch (by simp) lc hlc), hx, eval_ofVar, hx2.2, h1.2]⟩).bind
        fun _ s3 g3 e3 _ => ?_
      have hx3 := e3.ext _ hx2.1
      have hy3 := e3.ext _ h2.1
      have ex : s3.assignment.eval (LC.ofVar xv : LC F) = C.xField P := by
        rw [eval_ofVar, hx3.2, hx2.2, h1.2]
      have ey : s3.assignment.eval (LC.ofVar yv : LC F) = C.yField P := by
        rw [eval_ofVar, hy3.2, h2.2]
      refine (complete_curveCheck g3 (PState.hasLC_ofVar hx3.1) (PState.hasLC_ofVar hy3.1) ?_).bind
        fun _ s4 g4 e4 _ => ?_
      · rw [ex, ey]
        have := hc
        unfold SWCurve.OnCurve at this
        rw [this, ha]; ring
      have E4 := (E2.trans e3).trans e4
      have hrep : s4.Rep C P (LC.ofVar xv, LC.ofVar yv) := by
        refine PState.Rep.ext (s := s3) ⟨PState.hasLC_ofVar hx3.1, PState.hasLC_ofVar hy3.1, ?_⟩ e4
        have hc' : C.OnCurve (s3.assignment.eval (LC.ofVar xv : LC F))
            (s3.assignment.eval (LC.ofVar yv : LC F)) := by rw [ex, ey]; exact hc
        exact ⟨hc', ec.trans (C.pt_inj.2 ⟨ex.symm, ey.symm⟩)⟩
      refine Complete.bind (Q := fun out s' => out.witness = some (S + P) ∧
        s'.Rep C (S + P) (out.x, out.y)) ?_ fun out s5 g5 e5 h5 => ?_
      · unfold batchedSum
        cases first with
        | true =>
          rw [hS0 rfl, zero_add]
          exact .pure g4 ⟨rfl, hrep⟩
        | false =>
          exact complete_checkedHelper g4 hsw rfl ((hS rfl).ext E4) hrep (hdiff rfl)
      have E5 := E4.trans e5
      rw [List.sum_cons, ← add_assoc]
      refine ih g5 (fun c hc l hl => E5.hasLC (hch c (by simp [hc]) l hl)) h5.1 (by simp)
        (fun _ => h5.2) (by simp) (hrest.congr fun c hc l hl => E5.eval (hch c (by simp [hc]) l hl))

end CT
