import Verif.Proofs.Run
import Verif.Model.Gadgets
import Verif.Spec.Satisfaction

/-! Programs that never mention the output of one given gate. -/

namespace CT
set_option linter.unusedSectionVars false
variable {F G X α β : Type} [Field F]

/-- The output of gate `m` does not occur in the linear combination. -/
def LC.Clear (m : Nat) (lc : LC F) : Prop := ∀ t ∈ lc.terms, t.1 ≠ .multiplierOutput m

section
variable {m : Nat} {a b : LC F}

theorem clear_ofVar {v : Variable} (h : v ≠ .multiplierOutput m) : (LC.ofVar v : LC F).Clear m := by
  simpa [LC.Clear, LC.ofVar] using h

theorem clear_const (c : F) : (LC.const c : LC F).Clear m := by simp [LC.Clear, LC.const]

theorem clear_add (ha : a.Clear m) (hb : b.Clear m) : (a + b).Clear m := by
  intro t ht
  rcases List.mem_append.1 (ht : t ∈ a.terms ++ b.terms) with h | h
  · exact ha t h
  · exact hb t h

theorem clear_neg (ha : a.Clear m) : (-a).Clear m := by
  intro t ht
  obtain ⟨u, hu, rfl⟩ := List.mem_map.1 (ht : t ∈ a.terms.map fun t => (t.1, -t.2))
  exact ha u hu

theorem clear_sub (ha : a.Clear m) (hb : b.Clear m) : (a - b).Clear m := by
  intro t ht
  rcases List.mem_append.1 (ht : t ∈ a.terms ++ b.terms.map fun t => (t.1, -t.2)) with h | h
  · exact ha t h
  · obtain ⟨u, hu, rfl⟩ := List.mem_map.1 h
    exact hb u hu

theorem clear_smul (ha : a.Clear m) (c : F) : (a.smul c).Clear m := by
  intro t ht
  obtain ⟨u, hu, rfl⟩ := List.mem_map.1 (ht : t ∈ a.terms.map fun t => (t.1, t.2 * c))
  exact ha u hu

theorem clear_push (ha : a.Clear m) {v : Variable} (hv : v ≠ .multiplierOutput m) (c : F) :
    (⟨a.terms ++ [(v, c)]⟩ : LC F).Clear m := by
  intro t ht
  rcases List.mem_append.1 (ht : t ∈ a.terms ++ [(v, c)]) with h | h
  · exact ha t h
  · rw [List.mem_singleton.1 h]; exact hv

/-- The value does not depend on the output of the gate. -/
theorem Clear.eval {lc : LC F} (h : lc.Clear m) {w w' : Assignment F}
    (hw : ∀ v, v ≠ .multiplierOutput m → w'.val v = w.val v) : w'.eval lc = w.eval lc := by
  unfold Assignment.eval
  congr 1
  exact List.map_congr_left fun t ht => by rw [hw _ (h t ht)]

end

/-- A triple of variables without the output of gate `m`. -/
def Clear3 (m : Nat) (v : Variable × Variable × Variable) : Prop :=
  v.1 ≠ .multiplierOutput m ∧ v.2.1 ≠ .multiplierOutput m ∧ v.2.2 ≠ .multiplierOutput m

/-- A program that, given no variable for the output of gate `m`, never mentions it. -/
inductive ClearProg (m : Nat) (Q : α → Prop) : Prog F G X α → Prop
  | pure {x : α} (h : Q x) : ClearProg m Q (.pure x)
  | fail (e : Err) : ClearProg m Q (.fail e)
  | multiply {l r : LC F} {k} (hl : l.Clear m) (hr : r.Clear m) (h : ∀ v, Clear3 m v → ClearProg m Q (k v)) :
      ClearProg m Q (.multiply l r k)
  | allocate {x k} (h : ∀ v, v ≠ .multiplierOutput m → ClearProg m Q (k v)) : ClearProg m Q (.allocate x k)
  | allocateMultiplier {x k} (h : ∀ v, Clear3 m v → ClearProg m Q (k v)) : ClearProg m Q (.allocateMultiplier x k)
  | constrain {lc : LC F} {k} (hl : lc.Clear m) (h : ClearProg m Q k) : ClearProg m Q (.constrain lc k)
  | append {msg k} (h : ClearProg m Q k) : ClearProg m Q (.append msg k)
  | challenge {l k} (h : ∀ v, ClearProg m Q (k v)) : ClearProg m Q (.challenge l k)

variable {m : Nat}

theorem ClearProg.bind {Q : α → Prop} {R : β → Prop} {p : Prog F G X α} {f : α → Prog F G X β} (h : ClearProg m Q p)
    (hf : ∀ x, Q x → ClearProg m R (f x)) : ClearProg m R (p >>= f) := by
  change ClearProg m R (p.bind f)
  induction h with
  | pure h => exact hf _ h
  | fail e => exact .fail e
  | multiply hl hr _ ih => exact .multiply hl hr ih
  | allocate _ ih => exact .allocate ih
  | allocateMultiplier _ ih => exact .allocateMultiplier ih
  | constrain hl _ ih => exact .constrain hl ih
  | append _ ih => exact .append ih
  | challenge _ ih => exact .challenge ih

/-- Such a program, run when gate `m` exists, adds constraints that do not mention its output, whatever the constraints so far. -/
theorem ClearProg.run {Q : α → Prop} {p : Prog F G X α} (h : ClearProg m Q p) (o : Oracle F G X) :
    ∀ {t t' : VState F G X} {a : α}, m < t.numVars → runV o p t = .ok (a, t') →
      m < t'.numVars ∧ Q a ∧ ∃ new, t'.constraints = t.constraints ++ new ∧ (∀ c ∈ new, c.Clear m) ∧
        ∀ cs, runV o p { t with constraints := cs } = .ok (a, { t' with constraints := cs ++ new }) := by
  induction h with
  | pure h =>
    intro t t' a hm hr
    simp only [runV, Except.ok.injEq, Prod.mk.injEq] at hr
    obtain ⟨rfl, rfl⟩ := hr
    exact ⟨hm, h, [], by simp, by simp, fun cs => by simp [runV]⟩
  | fail e => intro t t' a hm hr; simp [runV] at hr
  | @multiply l r k hl hr _ ih =>
    intro t t' a hm hrun
    simp only [runV] at hrun
    have hne : Variable.multiplierOutput t.numVars ≠ .multiplierOutput m := by simp; omega
    obtain ⟨h1, h2, new, h3, h4, h5⟩ := ih (t.multiply l r).1 ⟨by simp [VState.multiply], by simp [VState.multiply], hne⟩
      (t := (t.multiply l r).2) (by simp [VState.multiply, VState.constrain]; omega) hrun
    refine ⟨h1, h2, [⟨l.terms ++ [(.multiplierLeft t.numVars, -1)]⟩, ⟨r.terms ++ [(.multiplierRight t.numVars, -1)]⟩] ++ new,
      ?_, ?_, fun cs => ?_⟩
    · rw [h3]; simp [VState.multiply, VState.constrain]
    · intro c hc
      rcases List.mem_append.1 hc with hc | hc
      · rcases List.mem_cons.1 hc with rfl | hc
        · exact clear_push hl (by simp) _
        · rw [List.mem_singleton.1 hc]; exact clear_push hr (by simp) _
      · exact h4 c hc
    · have := h5 (cs ++ [⟨l.terms ++ [(.multiplierLeft t.numVars, -1)]⟩, ⟨r.terms ++ [(.multiplierRight t.numVars, -1)]⟩])
      rw [List.append_assoc] at this
      rw [← this]
      simp [runV, VState.multiply, VState.constrain]
  | @allocate x k _ ih =>
    intro t t' a hm hrun
    simp only [runV] at hrun
    have hv : t.allocate.1 ≠ .multiplierOutput m := by unfold VState.allocate; split <;> simp
    have hn : m < t.allocate.2.numVars := by unfold VState.allocate; split <;> simp <;> omega
    have hc : t.allocate.2.constraints = t.constraints := by unfold VState.allocate; split <;> rfl
    obtain ⟨h1, h2, new, h3, h4, h5⟩ := ih _ hv hn hrun
    refine ⟨h1, h2, new, by rw [h3, hc], h4, fun cs => ?_⟩
    rw [← h5 cs]
    simp only [runV, VState.allocate]
    cases t.pending <;> rfl
  | @allocateMultiplier x k _ ih =>
    intro t t' a hm hrun
    simp only [runV] at hrun
    have hne : Variable.multiplierOutput t.numVars ≠ .multiplierOutput m := by simp; omega
    obtain ⟨h1, h2, new, h3, h4, h5⟩ := ih t.allocateMultiplier.1
      ⟨by simp [VState.allocateMultiplier], by simp [VState.allocateMultiplier], hne⟩
      (t := t.allocateMultiplier.2) (by simp [VState.allocateMultiplier]; omega) hrun
    exact ⟨h1, h2, new, h3, h4, fun cs => h5 cs⟩
  | @constrain lc k hl _ ih =>
    intro t t' a hm hrun
    simp only [runV] at hrun
    obtain ⟨h1, h2, new, h3, h4, h5⟩ := ih (t := t.constrain lc) hm hrun
    refine ⟨h1, h2, [lc] ++ new, by rw [h3]; simp [VState.constrain], ?_, fun cs => ?_⟩
    · intro c hc
      rcases List.mem_append.1 hc with hc | hc
      · rw [List.mem_singleton.1 hc]; exact hl
      · exact h4 c hc
    · have := h5 (cs ++ [lc])
      rw [List.append_assoc] at this
      rw [← this]
      simp [runV, VState.constrain]
  | @append msg k _ ih =>
    intro t t' a hm hrun
    simp only [runV] at hrun
    obtain ⟨h1, h2, new, h3, h4, h5⟩ := ih (t := { t with transcript := t.transcript ++ [msg] }) hm hrun
    exact ⟨h1, h2, new, h3, h4, fun cs => h5 cs⟩
  | @challenge l k _ ih =>
    intro t t' a hm hrun
    simp only [runV] at hrun
    obtain ⟨h1, h2, new, h3, h4, h5⟩ := ih _ (t := { t with transcript := (challengeScalar o t.transcript l).2 }) hm hrun
    exact ⟨h1, h2, new, h3, h4, fun cs => h5 cs⟩

/-! ## The gadgets -/

section Gadgets
variable {l r x y : LC F}

theorem clear_multiply (hl : l.Clear m) (hr : r.Clear m) :
    ClearProg m (Clear3 m) (multiply l r : Prog F G X _) := .multiply hl hr fun _ h => .pure h

theorem clear_allocate (a : Option F) :
    ClearProg m (· ≠ .multiplierOutput m) (allocate a : Prog F G X _) := .allocate fun _ h => .pure h

theorem clear_allocateMultiplier (a : Option (F × F)) :
    ClearProg m (Clear3 m) (allocateMultiplier a : Prog F G X _) := .allocateMultiplier fun _ h => .pure h

theorem clear_constrain (hl : l.Clear m) : ClearProg m (fun _ => True) (constrain l : Prog F G X _) :=
  .constrain hl (.pure trivial)

theorem clear_orPanic {s : String} {a : Option α} {Q : α → Prop} (h : ∀ x, a = some x → Q x) :
    ClearProg m Q (orPanic s a : Prog F G X α) := by
  cases a with
  | none => exact .fail _
  | some x => exact .pure (h x rfl)

theorem clear_selectLoop (hx : x.Clear m) : ∀ {xs : List (LC F)} {prod : LC F}, (∀ c ∈ xs, c.Clear m) → prod.Clear m →
    ClearProg m (·.Clear m) (selectLoop x xs prod : Prog F G X _)
  | [], _, _, hp => .pure hp
  | xi :: xs, prod, hxs, hp => by
    unfold selectLoop
    exact (clear_multiply hp (clear_sub (hxs xi (by simp)) hx)).bind fun v hv =>
      clear_selectLoop hx (fun c hc => hxs c (by simp [hc])) (clear_ofVar hv.2.2)

theorem clear_select (hx : x.Clear m) {xs : List (LC F)} (hxs : ∀ c ∈ xs, c.Clear m) :
    ClearProg m (fun _ => True) (select x xs : Prog F G X _) := by
  cases xs with
  | nil => exact .fail _
  | cons x1 xs =>
    unfold select
    exact (clear_selectLoop hx (fun c hc => hxs c (by simp [hc])) (clear_sub (hxs x1 (by simp)) hx)).bind
      fun q hq => clear_constrain hq

theorem clear_isBit (hl : l.Clear m) : ClearProg m (fun _ => True) (isBit l : Prog F G X _) := by
  unfold isBit
  exact (clear_multiply hl (clear_sub hl (clear_const _))).bind fun v hv => clear_constrain (clear_ofVar hv.2.2)

theorem clear_bit (b : Option Bool) : ClearProg m (· ≠ .multiplierOutput m) (bit b : Prog F G X _) := by
  unfold bit
  refine (clear_allocateMultiplier _).bind fun v hv => ?_
  refine (clear_constrain (clear_sub (clear_ofVar hv.2.1) (clear_sub (clear_ofVar hv.1) (clear_const _)))).bind fun _ _ => ?_
  exact (clear_constrain (clear_ofVar hv.2.2)).bind fun _ _ => .pure hv.1

theorem clear_singleMembership (u : Row F) {sa s0 s1 s2 : LC F} (ha : sa.Clear m) (h0 : s0.Clear m) (h1 : s1.Clear m)
    (h2 : s2.Clear m) : ClearProg m (·.Clear m) (singleMembership u sa s0 s1 s2 : Prog F G X _) := by
  unfold singleMembership
  refine (clear_multiply h0 ?_).bind fun v hv => .pure (clear_sub (clear_ofVar hv.2.2) ?_) <;>
  repeat' first
    | apply clear_add | apply clear_sub | apply clear_neg | apply clear_smul | apply clear_const | assumption

theorem clear_lookup (tx ty : Row F) (i : Option Nat) :
    ClearProg m (fun v => v.1.Clear m ∧ v.2.Clear m) (lookup tx ty i : Prog F G X _) := by
  unfold lookup
  refine (clear_allocateMultiplier _).bind fun v hv => ?_
  refine (clear_bit _).bind fun b hb => ?_
  refine (clear_isBit (clear_ofVar hv.1)).bind fun _ _ => ?_
  refine (clear_isBit (clear_ofVar hv.2.1)).bind fun _ _ => ?_
  refine (clear_singleMembership tx (clear_ofVar hv.2.2) (clear_ofVar hb) (clear_ofVar hv.1) (clear_ofVar hv.2.1)).bind
    fun x hx => ?_
  exact (clear_singleMembership ty (clear_ofVar hv.2.2) (clear_ofVar hb) (clear_ofVar hv.1) (clear_ofVar hv.2.1)).bind
    fun y hy => .pure ⟨hx, hy⟩

theorem clear_curveCheck (hx : x.Clear m) (hy : y.Clear m) (a b : F) :
    ClearProg m (fun _ => True) (curveCheck x y a b : Prog F G X _) := by
  unfold curveCheck
  refine (clear_multiply hx hx).bind fun v hv => ?_
  refine (clear_multiply hx (clear_ofVar hv.2.2)).bind fun v' hv' => ?_
  refine (clear_multiply hy hy).bind fun v'' hv'' => ?_
  exact clear_constrain (clear_sub (clear_add (clear_add (clear_ofVar hv'.2.2) (clear_smul (clear_ofVar hv.2.2) _))
    (clear_const _)) (clear_ofVar hv''.2.2))

/-- No coordinate mentions the output of gate `m`. -/
structure ClearAddition (m : Nat) (p : CurveAddition F) : Prop where
  xl : p.xl.Clear m
  yl : p.yl.Clear m
  xr : p.xr.Clear m
  yr : p.yr.Clear m
  xo : p.xo.Clear m
  yo : p.yo.Clear m

theorem clear_incomplete {p : CurveAddition F} (h : ClearAddition m p) :
    ClearProg m (fun _ => True) (incompleteCurveAddition p : Prog F G X _) := by
  unfold incompleteCurveAddition
  refine (clear_allocate _).bind fun d hd => ?_
  have hd := clear_ofVar (F := F) hd
  refine (clear_multiply hd (clear_sub h.xr h.xl)).bind fun v hv => ?_
  refine (clear_constrain (clear_sub (clear_ofVar hv.2.2) (clear_sub h.yr h.yl))).bind fun _ _ => ?_
  refine (clear_multiply hd (clear_sub h.xo h.xl)).bind fun v hv => ?_
  refine (clear_constrain (clear_sub (clear_ofVar hv.2.2) (clear_sub (clear_neg h.yo) h.yl))).bind fun _ _ => ?_
  refine (clear_multiply hd hd).bind fun v hv => ?_
  exact clear_constrain (clear_sub (clear_add (clear_add h.xo h.xr) h.xl) (clear_ofVar hv.2.2))

theorem clear_checked {p : CurveAddition F} (h : ClearAddition m p) (i : Option F) :
    ClearProg m (fun _ => True) (checkedCurveAddition p i : Prog F G X _) := by
  unfold checkedCurveAddition
  refine (clear_allocate _).bind fun d hd => ?_
  refine ClearProg.bind (Q := fun _ => True) ?_ fun _ _ => clear_incomplete h
  unfold notZero
  exact (clear_multiply (clear_sub h.xl h.xr) (clear_ofVar hd)).bind fun v hv =>
    clear_constrain (clear_sub (clear_ofVar hv.2.2) (clear_ofVar (by simp)))

variable [DecidableEq F] {C : SWCurve F}

theorem clear_rerandLoop (fx : Bool) (lambda k : Nat) (ro : Option Nat) : ∀ (ts : List (Table F)) (i : Nat)
    {st : C.Pt × LC F × LC F}, st.2.1.Clear m → st.2.2.Clear m →
    ClearProg m (fun st => st.2.1.Clear m ∧ st.2.2.Clear m) (rerandLoop C fx lambda k ro i ts st : Prog F G X _)
  | [], _, _, h1, h2 => .pure ⟨h1, h2⟩
  | t :: ts, i, st, h1, h2 => by
    unfold rerandLoop
    refine ClearProg.bind (Q := fun st => st.2.1.Clear m ∧ st.2.2.Clear m) ?_
      fun st' h => clear_rerandLoop fx lambda k ro ts (i + 1) h.1 h.2
    unfold rerandStep
    refine ClearProg.bind (Q := fun _ => True) ?_ fun sw _ => ?_
    · cases ro with
      | none => exact .pure trivial
      | some r => exact (clear_orPanic (Q := fun _ => True) fun _ _ => trivial).bind fun _ _ => .pure trivial
    refine ClearProg.bind (Q := fun v => v.1.Clear m ∧ v.2.Clear m) ?_ fun v hv => .pure hv
    unfold rerandStepBody
    refine (clear_lookup _ _ _).bind fun v hv => ?_
    refine (clear_allocate _).bind fun vx hvx => ?_
    refine (clear_allocate _).bind fun vy hvy => ?_
    have hp : ClearAddition m ⟨st.2.1, st.2.2, v.1, v.2, LC.ofVar vx, LC.ofVar vy, sw.bind (·.delta)⟩ :=
      ⟨h1, h2, hv.1, hv.2, clear_ofVar hvx, clear_ofVar hvy⟩
    refine ClearProg.bind (Q := fun _ => True) ?_ fun _ _ => .pure ⟨clear_ofVar hvx, clear_ofVar hvy⟩
    unfold rerandStepAdd
    split
    · split
      · exact clear_checked hp _
      · exact clear_incomplete hp
    · split
      · exact (clear_constrain (clear_sub hp.xo hp.xr)).bind fun _ _ => clear_constrain (clear_sub hp.yo hp.yr)
      · exact .pure trivial

theorem clear_reRandomize (fx : Bool) (lambda : Nat) (ts : List (Table F)) {c : PointRep C} (hx : c.x.Clear m)
    (hy : c.y.Clear m) {xt yt : LC F} (hxt : xt.Clear m) (hyt : yt.Clear m) (ro : Option Nat) :
    ClearProg m (fun _ => True) (reRandomize C fx lambda ts c xt yt ro : Prog F G X _) := by
  unfold reRandomize
  split
  · exact .fail _
  refine (clear_rerandLoop fx lambda _ ro _ 1 (clear_ofVar (by simp)) (clear_ofVar (by simp))).bind fun st hst => ?_
  refine ClearProg.bind (Q := fun _ => True) ?_ fun d _ => clear_checked ⟨hx, hy, hst.1, hst.2, hxt, hyt⟩ _
  unfold rerandFinalMatch
  split
  · exact (clear_orPanic (Q := fun _ => True) fun _ _ => trivial).bind fun _ _ => .pure trivial
  · exact .pure trivial

/-- The part of a level after `select`. -/
theorem clear_afterSelect (fx : Bool) (prm : LayerParams C) (rc : C.Pt) {xv : Variable} (hx : xv ≠ .multiplierOutput m)
    (wit : Option C.Pt) (ro : Option Nat) :
    ClearProg m (fun _ => True) (do
      let yVar ← allocate (wit.map C.yField)
      curveCheck (LC.ofVar xv) (LC.ofVar yVar) C.a C.b
      reRandomize C fx prm.lambda prm.tables ⟨LC.ofVar xv, LC.ofVar yVar, wit⟩
        (LC.const (C.xField (rc + prm.delta))) (LC.const (C.yField (rc + prm.delta))) ro : Prog F G X Unit) := by
  refine (clear_allocate _).bind fun yv hy => ?_
  refine (clear_curveCheck (clear_ofVar hx) (clear_ofVar hy) _ _).bind fun _ _ => ?_
  exact clear_reRandomize fx _ _ (clear_ofVar hx) (clear_ofVar hy) (clear_const _) (clear_const _) ro

theorem clear_singleLevel (fx : Bool) (prm : LayerParams C) (rc : C.Pt) {children : List (LC F)} (hc : ∀ c ∈ children, c.Clear m)
    (wit : Option C.Pt) (ro : Option Nat) :
    ClearProg m (fun _ => True) (singleLevel C fx prm rc children wit ro : Prog F G C.Pt Unit) := by
  unfold singleLevel
  refine ClearProg.bind (Q := fun _ => True) (.append (.pure trivial)) fun _ _ => ?_
  refine (clear_allocate _).bind fun xv hx => ?_
  refine (clear_select (clear_ofVar hx) hc).bind fun _ _ => ?_
  exact clear_afterSelect fx prm rc hx wit ro

end Gadgets

end CT
