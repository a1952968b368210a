import Verif.Proofs.GadgetComplete
import Verif.Proofs.CurveAdd
import Verif.Proofs.Tables
import Verif.Spec.Points

/-! Completeness of the re-randomisation chain, for the honest first accumulator and for a freely
chosen one. -/

namespace CT
set_option linter.unusedSectionVars false

variable {F G X : Type} [Field F] [DecidableEq F] {o : Oracle F G X} {s : PState F G X}
variable {C : SWCurve F}

open PState

theorem SWCurve.DiffX.coords {P Q : C.Pt} (h : C.DiffX P Q) :
    ∃ x y x' y', ∃ (h : C.OnCurve x y) (h' : C.OnCurve x' y'),
      P = C.pt h ∧ Q = C.pt h' ∧ x ≠ x' := by
  obtain ⟨hP, hQ, h1, h2⟩ := h
  rcases C.cases_pt P with rfl | ⟨x, y, hp, rfl⟩
  · exact absurd rfl hP
  rcases C.cases_pt Q with rfl | ⟨x', y', hq, rfl⟩
  · exact absurd rfl hQ
  refine ⟨x, y, x', y', hp, hq, rfl, rfl, ?_⟩
  rintro rfl
  rcases C.eq_or_neg_of_x hq hp with e | e
  · exact h1 e
  · exact h2 e

theorem SWCurve.diffX_pt {x y x' y' : F} {h : C.OnCurve x y} {h' : C.OnCurve x' y'} (hne : x ≠ x') :
    C.DiffX (C.pt h) (C.pt h') := by
  refine ⟨C.pt_ne_zero h, C.pt_ne_zero h', fun e => hne (C.pt_inj.1 e).1, fun e => ?_⟩
  obtain ⟨h'', e'⟩ := C.neg_pt h'
  rw [← e'] at e
  exact hne (C.pt_inj.1 e).1

/-- The linear combinations hold the coordinates of the point. -/
def PState.Rep (s : PState F G X) (C : SWCurve F) (P : C.Pt) (l : LC F × LC F) : Prop :=
  s.HasLC l.1 ∧ s.HasLC l.2 ∧
    ∃ h : C.OnCurve (s.assignment.eval l.1) (s.assignment.eval l.2), P = C.pt h

theorem PState.Rep.ext {s' : PState F G X} {P : C.Pt} {l : LC F × LC F} (h : s.Rep C P l)
    (e : s.Ext s') : s'.Rep C P l := by
  obtain ⟨h1, h2, hc, rfl⟩ := h
  refine ⟨e.hasLC h1, e.hasLC h2, ?_⟩
  rw [e.eval h1, e.eval h2]
  exact ⟨hc, rfl⟩

theorem PState.Rep.mk' {P : C.Pt} {l : LC F × LC F} {x y : F} {h : C.OnCurve x y} (hP : P = C.pt h)
    (h1 : s.HasLC l.1) (h2 : s.HasLC l.2) (e1 : s.assignment.eval l.1 = x)
    (e2 : s.assignment.eval l.2 = y) : s.Rep C P l := by
  subst e1 e2
  exact ⟨h1, h2, h, hP⟩

theorem new?_some {x y : F} {P : C.Pt} (h : C.new? x y = some P) : ∃ hc : C.OnCurve x y, P = C.pt hc := by
  unfold SWCurve.new? at h
  split at h
  · next hc => exact ⟨hc, by simpa using h.symm⟩
  · simp at h

/-- One iteration's constraints, `i > 1`, with the honest slope and (at the end) inverse. -/
theorem complete_body_add (hs : s.Good) {fx : Bool} {m i k : Nat} (hi : 1 < i) (hk : k < 8)
    {t : Table F} {st : LC F × LC F} {ax ay sx sy : F} {ha : C.OnCurve ax ay}
    (hst : s.Rep C (C.pt ha) st) {he : C.OnCurve (t.x (Fin.ofNat 8 k)) (t.y (Fin.ofNat 8 k))}
    (hne : ax ≠ t.x (Fin.ofNat 8 k)) {hsum : C.OnCurve sx sy} (hsm : C.pt ha + C.pt he = C.pt hsum)
    {v : Option F} (hv : i = m → v = some (1 / (ax - t.x (Fin.ofNat 8 k)))) :
    Complete o (rerandStepBody fx m i t st (some k) (some sx) (some sy)
      (some ((t.y (Fin.ofNat 8 k) - ay) / (t.x (Fin.ofNat 8 k) - ax))) v) s
      fun r s' => s'.Rep C (C.pt hsum) r := by
  unfold rerandStepBody
  refine (complete_lookup hs hk).bind fun r s1 g1 e1 hr => ?_
  obtain ⟨xt, yt⟩ := r
  obtain ⟨hr1, hr2, hr3, hr4⟩ := hr
  refine (complete_allocate g1 sx).bind fun vx s2 g2 e2 hvx => ?_
  refine (complete_allocate g2 sy).bind fun vy s3 g3 e3 hvy => ?_
  have hst3 := hst.ext (e1.trans (e2.trans e3))
  obtain ⟨l1, l2, hc, heq⟩ := hst3
  obtain ⟨ex, ey⟩ := C.pt_inj.1 heq
  have hR1 : s3.HasLC xt := (e2.trans e3).hasLC hr1
  have hR2 : s3.HasLC yt := (e2.trans e3).hasLC hr2
  have hX : s3.Has vx := (e3.ext _ hvx.1).1
  have evx : s3.assignment.val vx = sx := by rw [(e3.ext _ hvx.1).2, hvx.2]
  have ext' : s3.assignment.eval xt = t.x (Fin.ofNat 8 k) := by rw [(e2.trans e3).eval hr1, hr3]
  have eyt' : s3.assignment.eval yt = t.y (Fin.ofNat 8 k) := by rw [(e2.trans e3).eval hr2, hr4]
  have hall : (CurveAddition.mk st.1 st.2 xt yt (LC.ofVar vx) (LC.ofVar vy)
      (some ((t.y (Fin.ofNat 8 k) - ay) / (t.x (Fin.ofNat 8 k) - ax)))).HasAll s3 :=
    ⟨l1, l2, hR1, hR2, hasLC_ofVar hX, hasLC_ofVar hvy.1⟩
  obtain ⟨xo, yo, ho, eo, c1, c2, c3⟩ := C.chord_of_add ha he hne
  rw [hsm] at eo
  obtain ⟨rfl, rfl⟩ := C.pt_inj.1 eo
  have d1 : (t.y (Fin.ofNat 8 k) - ay) / (t.x (Fin.ofNat 8 k) - ax) *
      (s3.assignment.eval xt - s3.assignment.eval st.1) =
      s3.assignment.eval yt - s3.assignment.eval st.2 := by rw [ext', eyt', ← ex, ← ey, c1]
  have d2 : (t.y (Fin.ofNat 8 k) - ay) / (t.x (Fin.ofNat 8 k) - ax) *
      (s3.assignment.eval (LC.ofVar vx) - s3.assignment.eval st.1) =
      - s3.assignment.eval (LC.ofVar vy) - s3.assignment.eval st.2 := by
    rw [eval_ofVar, eval_ofVar, evx, hvy.2, ← ex, ← ey, c2]
  have d3 : (t.y (Fin.ofNat 8 k) - ay) / (t.x (Fin.ofNat 8 k) - ax) *
      ((t.y (Fin.ofNat 8 k) - ay) / (t.x (Fin.ofNat 8 k) - ax)) =
      s3.assignment.eval (LC.ofVar vx) + s3.assignment.eval xt + s3.assignment.eval st.1 := by
    rw [eval_ofVar, evx, ext', ← ex, c3]
  refine Complete.bind (Q := fun _ _ => True) ?_ fun _ s4 g4 e4 _ => .pure g4 ?_
  · unfold rerandStepAdd
    rw [if_pos hi]
    split
    · next him =>
      rw [hv him]
      refine (complete_checked g3 hall rfl ?_ d1 d2 d3).mono fun _ _ _ _ _ => trivial
      simp only
      rw [ext', ← ex]
      have := sub_ne_zero.2 hne
      field_simp
    · exact (complete_incomplete g3 hall rfl d1 d2 d3).mono fun _ _ _ _ _ => trivial
  · refine PState.Rep.mk' (h := hsum) rfl (e4.hasLC (hasLC_ofVar hX)) (e4.hasLC (hasLC_ofVar hvy.1))
      ?_ ?_
    · rw [e4.eval (hasLC_ofVar hX), eval_ofVar, evx]
    · rw [e4.eval (hasLC_ofVar hvy.1), eval_ofVar, hvy.2]

/-- The first iteration of the code as it is: any point may be put into the accumulator. -/
theorem complete_body_first (hs : s.Good) {m k : Nat} (hk : k < 8) {t : Table F} {st : LC F × LC F}
    {px py : F} (hp : C.OnCurve px py) {d v : Option F} :
    Complete o (rerandStepBody false m 1 t st (some k) (some px) (some py) d v) s
      fun r s' => s'.Rep C (C.pt hp) r := by
  unfold rerandStepBody
  refine (complete_lookup hs hk).bind fun r s1 g1 e1 hr => ?_
  obtain ⟨xt, yt⟩ := r
  refine (complete_allocate g1 px).bind fun vx s2 g2 e2 hvx => ?_
  refine (complete_allocate g2 py).bind fun vy s3 g3 e3 hvy => ?_
  refine Complete.bind (Q := fun _ _ => True) ?_ fun _ s4 g4 e4 _ => .pure g4 ?_
  · unfold rerandStepAdd
    simp only [gt_iff_lt, lt_irrefl, if_false, Bool.false_eq_true]
    exact .pure g3 trivial
  · have hX : s3.Has vx := (e3.ext _ hvx.1).1
    refine PState.Rep.mk' (h := hp) rfl (e4.hasLC (hasLC_ofVar hX)) (e4.hasLC (hasLC_ofVar hvy.1))
      ?_ ?_
    · rw [e4.eval (hasLC_ofVar hX), eval_ofVar, (e3.ext _ hvx.1).2, hvx.2]
    · rw [e4.eval (hasLC_ofVar hvy.1), eval_ofVar, hvy.2]

/-- The first iteration with the looked-up point as accumulator, repaired or not. -/
theorem complete_body_first_honest (hs : s.Good) {fx : Bool} {m k : Nat} (hk : k < 8) {t : Table F}
    {st : LC F × LC F} (he : C.OnCurve (t.x (Fin.ofNat 8 k)) (t.y (Fin.ofNat 8 k)))
    {d v : Option F} :
    Complete o (rerandStepBody fx m 1 t st (some k) (some (t.x (Fin.ofNat 8 k)))
      (some (t.y (Fin.ofNat 8 k))) d v) s fun r s' => s'.Rep C (C.pt he) r := by
  unfold rerandStepBody
  refine (complete_lookup hs hk).bind fun r s1 g1 e1 hr => ?_
  obtain ⟨xt, yt⟩ := r
  obtain ⟨hr1, hr2, hr3, hr4⟩ := hr
  refine (complete_allocate g1 _).bind fun vx s2 g2 e2 hvx => ?_
  refine (complete_allocate g2 _).bind fun vy s3 g3 e3 hvy => ?_
  have hX : s3.Has vx := (e3.ext _ hvx.1).1
  have evx : s3.assignment.val vx = t.x (Fin.ofNat 8 k) := by rw [(e3.ext _ hvx.1).2, hvx.2]
  have hR1 : s3.HasLC xt := (e2.trans e3).hasLC hr1
  have hR2 : s3.HasLC yt := (e2.trans e3).hasLC hr2
  have ext' : s3.assignment.eval xt = t.x (Fin.ofNat 8 k) := by rw [(e2.trans e3).eval hr1, hr3]
  have eyt' : s3.assignment.eval yt = t.y (Fin.ofNat 8 k) := by rw [(e2.trans e3).eval hr2, hr4]
  refine Complete.bind (Q := fun _ _ => True) ?_ fun _ s4 g4 e4 _ => .pure g4 ?_
  · unfold rerandStepAdd
    simp only [gt_iff_lt, lt_irrefl, if_false]
    split
    · refine (complete_constrain g3 (hasLC_sub (hasLC_ofVar hX) hR1) (by
        rw [eval_sub, eval_ofVar, evx, ext', sub_self])).bind fun _ s4 g4 e4 _ => ?_
      exact complete_constrain g4 (e4.hasLC (hasLC_sub (hasLC_ofVar hvy.1) hR2)) (by
        rw [e4.eval (hasLC_sub (hasLC_ofVar hvy.1) hR2), eval_sub, eval_ofVar, hvy.2, eyt', sub_self])
    · exact .pure g3 trivial
  · refine PState.Rep.mk' (h := he) rfl (e4.hasLC (hasLC_ofVar hX)) (e4.hasLC (hasLC_ofVar hvy.1))
      ?_ ?_
    · rw [e4.eval (hasLC_ofVar hX), eval_ofVar, evx]
    · rw [e4.eval (hasLC_ofVar hvy.1), eval_ofVar, hvy.2]

/-- The honest witness of iteration `i > 1`. -/
theorem stepWitness_add {lambda m i r : Nat} (hi : 1 < i) {t : Table F}
    {ax ay : F} {ha : C.OnCurve ax ay}
    {he : C.OnCurve (t.x (Fin.ofNat 8 (windowIndex lambda r i)))
      (t.y (Fin.ofNat 8 (windowIndex lambda r i)))}
    (hne : ax ≠ t.x (Fin.ofNat 8 (windowIndex lambda r i))) {sx sy : F} {hsum : C.OnCurve sx sy}
    (hsm : C.pt ha + C.pt he = C.pt hsum) :
    rerandStepWitness C lambda m i r t (C.pt ha) = some
      { index := windowIndex lambda r i
        inv := if i = m then some (1 / (ax - t.x (Fin.ofNat 8 (windowIndex lambda r i)))) else none
        delta := some ((t.y (Fin.ofNat 8 (windowIndex lambda r i)) - ay) /
          (t.x (Fin.ofNat 8 (windowIndex lambda r i)) - ax))
        accX := sx, accY := sy, acc := C.pt hsum } := by
  unfold rerandStepWitness
  have h1 : i ≠ 1 := by omega
  have h2 : t.x (Fin.ofNat 8 (windowIndex lambda r i)) - ax ≠ 0 := sub_ne_zero.2 hne.symm
  have h3 : ax - t.x (Fin.ofNat 8 (windowIndex lambda r i)) ≠ 0 := sub_ne_zero.2 hne
  simp only [h1, if_false, SWCurve.x?_pt, SWCurve.y?_pt, ne_eq, not_false_eq_true, if_true, fdiv, h2, h3,
    Option.map_some, C.new?_pt he, Option.bind_eq_bind, Option.bind_some, hsm]
  split <;> rfl

theorem stepWitness_first {lambda m r : Nat} {t : Table F}
    (he : C.OnCurve (t.x (Fin.ofNat 8 (windowIndex lambda r 1)))
      (t.y (Fin.ofNat 8 (windowIndex lambda r 1))))
    (hm : m ≠ 1) :
    rerandStepWitness C lambda m 1 r t 0 = some
      { index := windowIndex lambda r 1
        inv := none
        delta := none
        accX := t.x (Fin.ofNat 8 (windowIndex lambda r 1))
        accY := t.y (Fin.ofNat 8 (windowIndex lambda r 1)), acc := C.pt he } := by
  unfold rerandStepWitness
  simp only [if_true, ne_eq, not_true_eq_false, if_false, Ne.symm hm, C.new?_pt he,
    Option.bind_eq_bind, Option.bind_some, zero_add, SWCurve.x?_pt, SWCurve.y?_pt]

theorem complete_rerandStep (hs : s.Good) {fx : Bool} {lambda m i r : Nat} (hi : 1 < i)
    {t : Table F} {A E : C.Pt} {st : LC F × LC F} (hst : s.Rep C A st)
    (hE : C.new? (t.x (Fin.ofNat 8 (windowIndex lambda r i)))
      (t.y (Fin.ofNat 8 (windowIndex lambda r i))) = some E) (hd : C.DiffX A E) :
    Complete o (rerandStep C fx lambda m (some r) i t (A, st)) s
      fun q s' => q.1 = A + E ∧ s'.Rep C (A + E) q.2 := by
  obtain ⟨he, rfl⟩ := new?_some hE
  obtain ⟨ax, ay, ex, ey, ha, he', rfl, e', hne⟩ := hd.coords
  obtain ⟨rfl, rfl⟩ := C.pt_inj.1 e'
  obtain ⟨sx, sy, hsum, hsm, -⟩ := C.chord_of_add ha he hne
  unfold rerandStep rerandStepMatch
  simp only
  rw [stepWitness_add hi hne hsm, hsm]
  have := complete_body_add (o := o) (fx := fx) (m := m) hs hi (windowIndex_lt lambda r i) hst hne hsm
    (v := if i = m then some (1 / (ax - t.x (Fin.ofNat 8 (windowIndex lambda r i)))) else none)
    (fun h => by rw [if_pos h])
  refine Complete.bind (Q := fun a s' => a = some _ ∧ s' = s) (.pure hs ⟨rfl, rfl⟩)
    fun a s1 g1 e1 h1 => ?_
  obtain ⟨rfl, rfl⟩ := h1
  simp only [Option.map_some, Option.bind_some, Option.getD_some]
  exact this.bind fun l s2 g2 e2 h2 => .pure g2 ⟨rfl, h2⟩

/-- The loop from iteration `i > 1`, starting with any accumulator point. -/
theorem complete_rerandLoop {fx : Bool} {lambda m r : Nat} {ts : List (Table F)} :
    ∀ {s : PState F G X} (_ : s.Good) {i : Nat} (_ : 1 < i) {E : Nat → C.Pt} {A : C.Pt}
      {st : LC F × LC F} (_ : s.Rep C A st)
      (_ : ∀ (k : Nat) (t : Table F), ts[k]? = some t →
        C.new? (t.x (Fin.ofNat 8 (windowIndex lambda r (i + k))))
          (t.y (Fin.ofNat 8 (windowIndex lambda r (i + k)))) = some (E k))
      (_ : ∀ k < ts.length, C.DiffX (A + ((List.range k).map E).sum) (E k)),
    Complete o (rerandLoop C fx lambda m (some r) i ts (A, st)) s
      fun q s' => q.1 = A + ((List.range ts.length).map E).sum ∧ s'.Rep C q.1 q.2 := by
  induction ts with
  | nil =>
    intro s hs i hi E A st hst hE hd
    exact .pure hs ⟨by simp, hst⟩
  | cons t ts ih =>
    intro s hs i hi E A st hst hE hd
    unfold rerandLoop
    refine (complete_rerandStep hs hi hst (hE 0 t rfl) (by simpa using hd 0 (by simp))).bind
      fun q s1 g1 e1 hq => ?_
    obtain ⟨A', st'⟩ := q
    obtain ⟨rfl, hq⟩ := hq
    have hsum : ∀ k, A + E 0 + ((List.range k).map fun k => E (k + 1)).sum =
        A + ((List.range (k + 1)).map E).sum := by
      intro k
      rw [List.range_succ_eq_map]
      simp [add_assoc, Function.comp_def]
    refine (ih g1 (by omega : 1 < i + 1) (E := fun k => E (k + 1)) hq ?_ ?_).mono
      fun q s2 g2 e2 h => ⟨?_, h.2⟩
    · intro k t' hk
      have := hE (k + 1) t' (by simpa using hk)
      rwa [show i + (k + 1) = i + 1 + k by omega] at this
    · intro k hk
      rw [hsum]
      exact hd (k + 1) (by simpa using hk)
    · rw [h.1, hsum]; rfl

/-- The final addition. -/
theorem complete_final (hs : s.Good) {c : LC F × LC F} {P A Q : C.Pt} {l q : LC F × LC F}
    (hc : s.Rep C P c) (hA : s.Rep C A l) (hQ : s.Rep C Q q) (hsum : Q = P + A)
    (hd : C.DiffX P A) :
    Complete o (do
      let (delta, inv) ← rerandFinalMatch C A (some P)
      checkedCurveAddition ⟨c.1, c.2, l.1, l.2, q.1, q.2, delta⟩ inv) s fun _ _ => True := by
  obtain ⟨px, py, ax, ay, hp, ha, rfl, rfl, hne⟩ := hd.coords
  obtain ⟨ox, oy, ho, e, c1, c2, c3⟩ := C.chord_of_add hp ha hne
  rw [← hsum] at e
  subst e
  obtain ⟨c1', c2', hc', ec⟩ := hc
  obtain ⟨l1', l2', hl', el⟩ := hA
  obtain ⟨q1', q2', hq', eq⟩ := hQ
  obtain ⟨e1, e2⟩ := C.pt_inj.1 ec
  obtain ⟨e3, e4⟩ := C.pt_inj.1 el
  obtain ⟨e5, e6⟩ := C.pt_inj.1 eq
  have n1 : ax - px ≠ 0 := sub_ne_zero.2 hne.symm
  have n2 : px - ax ≠ 0 := sub_ne_zero.2 hne
  have hw : rerandFinalWitness C (C.pt hp) (C.pt ha) =
      some ((ay - py) / (ax - px), 1 / (px - ax)) := by
    simp [rerandFinalWitness, fdiv, n1, n2]
  refine Complete.bind (Q := fun a s' =>
    a = (some ((ay - py) / (ax - px)), some (1 / (px - ax))) ∧ s' = s) ?_ fun a s1 g1 _ h1 => ?_
  · unfold rerandFinalMatch
    simp only
    rw [hw]
    exact .pure hs ⟨rfl, rfl⟩
  · obtain ⟨rfl, rfl⟩ := h1
    refine (complete_checked g1 (p := ⟨c.1, c.2, l.1, l.2, q.1, q.2, _⟩)
      ⟨c1', c2', l1', l2', q1', q2'⟩ rfl ?_ ?_ ?_ ?_).mono fun _ _ _ _ _ => trivial
    · simp only; rw [← e1, ← e3]; field_simp
    · simp only; rw [← e1, ← e2, ← e3, ← e4]; exact c1
    · simp only; rw [← e1, ← e2, ← e5, ← e6]; exact c2
    · simp only; rw [← e1, ← e3, ← e5]; exact c3

end CT

namespace CT
set_option linter.unusedSectionVars false
variable {F G X : Type} [Field F] [DecidableEq F] {o : Oracle F G X} {s : PState F G X}
variable {C : SWCurve F}
open PState

/-- The point looked up in table `k + 1`. -/
def entryAt (C : SWCurve F) (lambda r : Nat) (h : C.Pt) (k : Nat) : C.Pt :=
  tableScalar (windows lambda) (k + 1) (windowIndex lambda r (k + 1)) • h

theorem entry_spec {lambda r : Nat} {h : C.Pt} {ts : List (Table F)}
    (hts : buildTables C (windows lambda) h = some ts) {k : Nat} {t : Table F}
    (hk : ts[k]? = some t) :
    C.new? (t.x (Fin.ofNat 8 (windowIndex lambda r (k + 1))))
      (t.y (Fin.ofNat 8 (windowIndex lambda r (k + 1)))) = some (entryAt C lambda r h k) := by
  have := (buildTables_spec hts).2 k t hk (Fin.ofNat 8 (windowIndex lambda r (k + 1)))
  rw [this]
  unfold entryAt
  rw [Fin.val_ofNat, Nat.mod_eq_of_lt (windowIndex_lt _ _ _)]

theorem entries_sum (lambda r : Nat) (h : C.Pt) (k : Nat) :
    ((List.range k).map (entryAt C lambda r h)).sum =
      partialScalar (windows lambda) (fun i => windowIndex lambda r (i + 1)) k • h := by
  induction k with
  | zero => simp [partialScalar]
  | succ k ih =>
    rw [List.range_succ, List.map_append, List.sum_append, ih, partialScalar_succ, add_smul]
    simp [entryAt]

theorem entries_sum_all {lambda r : Nat} (hr : r < 2 ^ lambda) (h : C.Pt) :
    ((List.range (windows lambda)).map (entryAt C lambda r h)).sum = r • h := by
  rw [entries_sum]
  have : (fun i => windowIndex lambda r (i + 1)) = fun i => r / 8 ^ i % 8 :=
    funext fun i => windowIndex_eq hr i
  rw [this, partialScalar_digits _ _ (lt_windows hr), natCast_zsmul]

/-- First iteration of a Prover that puts a point `P` of its choice in the first accumulator (which
the code leaves unconstrained). -/
def cheatFirst (C : SWCurve F) (lambda : Nat) (t : Table F) (r : Nat) (P : C.Pt) :
    Prog F G X (C.Pt × LC F × LC F) := do
  let lcs ← rerandStepBody false (windows lambda) 1 t (LC.ofVar .one, LC.ofVar .one)
    (some (windowIndex lambda r 1)) (some (C.xField P)) (some (C.yField P)) none none
  pure (P, lcs)

/-- That Prover's loop: it follows the code from the second iteration on. -/
def cheatLoop (C : SWCurve F) (lambda : Nat) (ts : List (Table F)) (r : Nat) (P : C.Pt) :
    Prog F G X (C.Pt × LC F × LC F) :=
  match ts with
  | [] => panic "no tables"
  | t :: ts => do
    let st ← cheatFirst C lambda t r P
    rerandLoop C false lambda (windows lambda) (some r) 2 ts st

/-- The cheating Prover's version of `re_randomize`. -/
def cheatRerandomize (C : SWCurve F) (lambda : Nat) (ts : List (Table F))
    (cx cy : LC F) (c : C.Pt) (xTilde yTilde : LC F) (r : Nat) (P : C.Pt) : Prog F G X Unit := do
  let (acc, accX, accY) ← cheatLoop C lambda ts r P
  let (delta, inv) ← rerandFinalMatch C acc (some c)
  checkedCurveAddition ⟨cx, cy, accX, accY, xTilde, yTilde, delta⟩ inv

theorem complete_cheat (hs : s.Good) {lambda r : Nat} {h : C.Pt} {t : Table F} {ts : List (Table F)}
    (hts : buildTables C (windows lambda) h = some (t :: ts)) {cx cy xT yT : LC F} {c P Q : C.Pt}
    (hc : s.Rep C c (cx, cy)) (hQ : s.Rep C Q (xT, yT)) (hP : P ≠ 0)
    (hd : ∀ k < ts.length,
      C.DiffX (P + ((List.range k).map fun l => entryAt C lambda r h (l + 1)).sum)
        (entryAt C lambda r h (k + 1)))
    (hsum : Q = c + (P + ((List.range ts.length).map fun l => entryAt C lambda r h (l + 1)).sum))
    (hfin : C.DiffX c (P + ((List.range ts.length).map fun l => entryAt C lambda r h (l + 1)).sum)) :
    Complete o (cheatRerandomize C lambda (t :: ts) cx cy c xT yT r P) s fun _ _ => True := by
  unfold cheatRerandomize
  rcases C.cases_pt P with rfl | ⟨px, py, hp, rfl⟩
  · exact absurd rfl hP
  refine Complete.bind (Q := fun q s' => q.1 = C.pt hp + ((List.range ts.length).map
    fun l => entryAt C lambda r h (l + 1)).sum ∧ s'.Rep C q.1 q.2) ?_ fun q s2 g2 e2 h2 => ?_
  · unfold cheatLoop
    refine Complete.bind (Q := fun q s' => q.1 = C.pt hp ∧ s'.Rep C q.1 q.2) ?_
      fun q s1 g1 e1 h1 => ?_
    · unfold cheatFirst
      exact (complete_body_first hs (windowIndex_lt _ _ _) hp).bind fun lcs s1 g1 e1 h1 =>
        .pure g1 ⟨rfl, h1⟩
    · obtain ⟨A, l⟩ := q
      obtain ⟨rfl, h1⟩ := h1
      refine complete_rerandLoop g1 (by omega : 1 < 2) h1
        (E := fun l => entryAt C lambda r h (l + 1)) ?_ hd
      intro k t' hk
      have := entry_spec (r := r) hts (k := k + 1) (t := t') (by simpa using hk)
      rwa [show k + 1 + 1 = 2 + k by omega] at this
  · obtain ⟨acc, ax, ay⟩ := q
    obtain ⟨rfl, h2⟩ := h2
    exact complete_final (c := (cx, cy)) (l := (ax, ay)) (q := (xT, yT)) g2 (hc.ext e2) h2
      (hQ.ext e2) hsum hfin

theorem complete_reRandomize (hs : s.Good) {fx : Bool} {lambda r : Nat} (hm : windows lambda ≠ 1)
    {h : C.Pt} {ts : List (Table F)} (hts : buildTables C (windows lambda) h = some ts)
    {c : PointRep C} {xT yT : LC F} {P : C.Pt} (hcw : c.witness = some P)
    (hc : s.Rep C P (c.x, c.y))
    (hQ : s.Rep C (P + ((List.range (windows lambda)).map (entryAt C lambda r h)).sum) (xT, yT))
    (hd : ∀ k, 1 ≤ k → k < windows lambda →
      C.DiffX ((List.range k).map (entryAt C lambda r h)).sum (entryAt C lambda r h k))
    (hfin : C.DiffX P ((List.range (windows lambda)).map (entryAt C lambda r h)).sum) :
    Complete o (reRandomize C fx lambda ts c xT yT (some r)) s fun _ _ => True := by
  have hl := (buildTables_spec hts).1
  unfold reRandomize
  rw [if_neg (by omega), List.take_of_length_le (by omega)]
  cases ts with
  | nil => simp [windows] at hl
  | cons t ts =>
    have hlen : windows lambda = ts.length + 1 := by simpa using hl.symm
    obtain ⟨he, e0⟩ := new?_some (entry_spec (r := r) hts (k := 0) (t := t) rfl)
    have hsum : ∀ k, entryAt C lambda r h 0 + ((List.range k).map
        fun l => entryAt C lambda r h (l + 1)).sum =
        ((List.range (k + 1)).map (entryAt C lambda r h)).sum := by
      intro k
      rw [List.range_succ_eq_map]
      simp [Function.comp_def]
    unfold rerandLoop
    have hstep : Complete o (rerandStep C fx lambda (windows lambda) (some r) 1 t
        (0, LC.ofVar .one, LC.ofVar .one)) s fun q s' => q.1 = entryAt C lambda r h 0 ∧
          s'.Rep C (entryAt C lambda r h 0) q.2 := by
      unfold rerandStep rerandStepMatch
      simp only
      rw [stepWitness_first he hm, e0]
      refine Complete.bind (Q := fun a s' => a = some _ ∧ s' = s) (.pure hs ⟨rfl, rfl⟩)
        fun a s1 g1 e1 h1 => ?_
      obtain ⟨rfl, rfl⟩ := h1
      simp only [Option.map_some, Option.bind_some, Option.getD_some]
      exact (complete_body_first_honest hs (windowIndex_lt _ _ _) he).bind
        fun l s2 g2 e2 h2 => .pure g2 ⟨rfl, h2⟩
    refine Complete.bind (Q := fun q s' => q.1 =
      ((List.range (windows lambda)).map (entryAt C lambda r h)).sum ∧ s'.Rep C q.1 q.2) ?_
      fun q s2 g2 e2 h2 => ?_
    · refine hstep.bind fun q s1 g1 e1 h1 => ?_
      obtain ⟨A, st⟩ := q
      obtain ⟨rfl, h1⟩ := h1
      refine (complete_rerandLoop g1 (by omega : 1 < 2) h1
        (E := fun l => entryAt C lambda r h (l + 1)) ?_ ?_).mono fun q s2 g2 e2 h2 => ⟨?_, h2.2⟩
      · intro k t' hk
        have := entry_spec (r := r) hts (k := k + 1) (t := t') (by simpa using hk)
        rwa [show k + 1 + 1 = 2 + k by omega] at this
      · intro k hk
        rw [hsum]
        exact hd (k + 1) (by omega) (by omega)
      · rw [h2.1, hsum, hlen]
    · obtain ⟨acc, ax, ay⟩ := q
      obtain ⟨rfl, h2⟩ := h2
      simp only [hcw]
      exact complete_final (c := (c.x, c.y)) (l := (ax, ay)) (q := (xT, yT)) g2 (hc.ext e2) h2
        (hQ.ext e2) rfl hfin

/-! The honest Prover panics in every exceptional case. -/

theorem diffX_of_witness {lambda m i r : Nat} (hi : 1 < i) {t : Table F} {A E : C.Pt}
    {sw : StepWitness C} (hE : C.new? (t.x (Fin.ofNat 8 (windowIndex lambda r i)))
      (t.y (Fin.ofNat 8 (windowIndex lambda r i))) = some E)
    (h : rerandStepWitness C lambda m i r t A = some sw) : C.DiffX A E ∧ sw.acc = A + E := by
  obtain ⟨he, rfl⟩ := new?_some hE
  have h1 : i ≠ 1 := by omega
  rcases C.cases_pt A with rfl | ⟨ax, ay, ha, rfl⟩
  · simp [rerandStepWitness, h1] at h
  · by_cases hne : ax = t.x (Fin.ofNat 8 (windowIndex lambda r i))
    · simp [rerandStepWitness, h1, fdiv, hne] at h
    · have hd : C.DiffX (C.pt ha) (C.pt he) := SWCurve.diffX_pt hne
      refine ⟨hd, ?_⟩
      obtain ⟨sx, sy, hsum, hsm, -⟩ := C.chord_of_add ha he hne
      rw [stepWitness_add hi hne hsm] at h
      rw [← Option.some.inj h, hsm]

theorem runP_orPanic {α : Type} {m : String} {p : Option α} {s s' : PState F G X} {a : α}
    (h : runP o (orPanic m p) s = .ok (a, s')) : p = some a ∧ s = s' := by
  cases p with
  | none => simp [orPanic, panic, runP] at h
  | some b => simpa [orPanic, runP] using h

theorem runP_pure {α : Type} {s s' : PState F G X} {a b : α}
    (h : runP o (pure a : Prog F G X α) s = .ok (b, s')) : b = a ∧ s' = s := by
  have : Except.ok (a, s) = (.ok (b, s') : Except Err _) := h
  simp only [Except.ok.injEq, Prod.mk.injEq] at this
  exact ⟨this.1.symm, this.2.symm⟩

theorem rerandStep_runP {fx : Bool} {lambda m i r : Nat} {t : Table F}
    {A : C.Pt} {st : LC F × LC F} {q : C.Pt × LC F × LC F} {s s' : PState F G X}
    (h : runP o (rerandStep C fx lambda m (some r) i t (A, st)) s = .ok (q, s')) :
    ∃ sw, rerandStepWitness C lambda m i r t A = some sw ∧ q.1 = sw.acc := by
  unfold rerandStep at h
  obtain ⟨sw, s1, h1, h5⟩ := (runP_bind_ok o).1 h
  obtain ⟨l, s3, h3, h6⟩ := (runP_bind_ok o).1 h5
  unfold rerandStepMatch at h1
  obtain ⟨sw', s2, h2, h7⟩ := (runP_bind_ok o).1 h1
  have hw := (runP_orPanic h2).1
  have e1 := (runP_pure h7).1
  have e2 := (runP_pure h6).1
  exact ⟨sw', hw, by rw [e2, e1]; rfl⟩

theorem rerandLoop_runP {fx : Bool} {lambda m r : Nat} {ts : List (Table F)} :
    ∀ {i : Nat} (_ : 1 < i) {E : Nat → C.Pt} {A : C.Pt} {st : LC F × LC F}
      (_ : ∀ (k : Nat) (t : Table F), ts[k]? = some t →
        C.new? (t.x (Fin.ofNat 8 (windowIndex lambda r (i + k))))
          (t.y (Fin.ofNat 8 (windowIndex lambda r (i + k)))) = some (E k))
      {q : C.Pt × LC F × LC F} {s s' : PState F G X}
      (_ : runP o (rerandLoop C fx lambda m (some r) i ts (A, st)) s = .ok (q, s')),
    q.1 = A + ((List.range ts.length).map E).sum ∧
      ∀ k < ts.length, C.DiffX (A + ((List.range k).map E).sum) (E k) := by
  induction ts with
  | nil =>
    intro i hi E A st hE q s s' h
    obtain ⟨rfl, -⟩ := runP_pure h
    simp
  | cons t ts ih =>
    intro i hi E A st hE q s s' h
    unfold rerandLoop at h
    obtain ⟨⟨A', st'⟩, s1, h1, h⟩ := (runP_bind_ok o).1 h
    obtain ⟨sw, hw, hq⟩ := rerandStep_runP h1
    obtain ⟨hd, hacc⟩ := diffX_of_witness hi (hE 0 t rfl) hw
    simp only at hq
    rw [hacc] at hq
    subst hq
    have hsum : ∀ k, A + E 0 + ((List.range k).map fun k => E (k + 1)).sum =
        A + ((List.range (k + 1)).map E).sum := by
      intro k
      rw [List.range_succ_eq_map]
      simp [add_assoc, Function.comp_def]
    obtain ⟨e1, e2⟩ := ih (by omega : 1 < i + 1) (E := fun k => E (k + 1)) (fun k t' hk => by
      have := hE (k + 1) t' (by simpa using hk)
      rwa [show i + (k + 1) = i + 1 + k by omega] at this) h
    refine ⟨by rw [e1, hsum]; rfl, fun k hk => ?_⟩
    cases k with
    | zero => simpa using hd
    | succ k =>
      have := e2 k (by simpa using hk)
      rwa [hsum] at this

theorem final_diffX {P A : C.Pt} {d : F × F} (h : rerandFinalWitness C P A = some d) :
    C.DiffX P A := by
  rcases C.cases_pt P with rfl | ⟨px, py, hp, rfl⟩
  · simp [rerandFinalWitness] at h
  rcases C.cases_pt A with rfl | ⟨ax, ay, ha, rfl⟩
  · simp [rerandFinalWitness] at h
  refine SWCurve.diffX_pt fun hne => ?_
  simp [rerandFinalWitness, fdiv, hne] at h

theorem reRandomize_runP {fx : Bool} {lambda r : Nat} (hm : windows lambda ≠ 1)
    {h : C.Pt} {ts : List (Table F)} (hts : buildTables C (windows lambda) h = some ts)
    {c : PointRep C} {xT yT : LC F} {P : C.Pt} (hcw : c.witness = some P) {s s' : PState F G X}
    (hrun : runP o (reRandomize C fx lambda ts c xT yT (some r)) s = .ok ((), s')) :
    (∀ k, 1 ≤ k → k < windows lambda →
      C.DiffX ((List.range k).map (entryAt C lambda r h)).sum (entryAt C lambda r h k)) ∧
    C.DiffX P ((List.range (windows lambda)).map (entryAt C lambda r h)).sum := by
  have hl := (buildTables_spec hts).1
  unfold reRandomize at hrun
  rw [if_neg (by omega), List.take_of_length_le (by omega)] at hrun
  cases ts with
  | nil => simp [windows] at hl
  | cons t ts =>
    have hlen : windows lambda = ts.length + 1 := by simpa using hl.symm
    obtain ⟨he, e0⟩ := new?_some (entry_spec (r := r) hts (k := 0) (t := t) rfl)
    have hsum : ∀ k, entryAt C lambda r h 0 + ((List.range k).map
        fun l => entryAt C lambda r h (l + 1)).sum =
        ((List.range (k + 1)).map (entryAt C lambda r h)).sum := by
      intro k
      rw [List.range_succ_eq_map]
      simp [Function.comp_def]
    obtain ⟨⟨acc, ax, ay⟩, s1, h1, hrun⟩ := (runP_bind_ok o).1 hrun
    unfold rerandLoop at h1
    obtain ⟨⟨A', st'⟩, s2, h2, h1⟩ := (runP_bind_ok o).1 h1
    obtain ⟨sw, hw, hq⟩ := rerandStep_runP h2
    rw [stepWitness_first he hm] at hw
    simp only at hq
    rw [← Option.some.inj hw] at hq
    simp only at hq
    rw [← e0] at hq
    subst hq
    obtain ⟨e1, e2⟩ := rerandLoop_runP (by omega : 1 < 2)
      (E := fun l => entryAt C lambda r h (l + 1)) (fun k t' hk => by
        have := entry_spec (r := r) hts (k := k + 1) (t := t') (by simpa using hk)
        rwa [show k + 1 + 1 = 2 + k by omega] at this) h1
    obtain ⟨⟨d, i⟩, s3, h3, -⟩ := (runP_bind_ok o).1 hrun
    rw [hcw] at h3
    unfold rerandFinalMatch at h3
    obtain ⟨di, s4, h4, -⟩ := (runP_bind_ok o).1 h3
    have hf := final_diffX (runP_orPanic h4).1
    simp only at e1
    rw [hsum] at e1
    refine ⟨fun k hk1 hk2 => ?_, by rw [hlen, ← e1]; exact hf⟩
    obtain ⟨k, rfl⟩ : ∃ j, k = j + 1 := ⟨k - 1, by omega⟩
    have := e2 k (by omega)
    rwa [hsum] at this

end CT
