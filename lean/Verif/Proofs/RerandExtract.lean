import Verif.Proofs.GadgetSound
import Verif.Proofs.CurveAdd
import Verif.Proofs.Tables
import Verif.Spec.Extract

/-! Soundness of the re-randomisation chain with extraction of the scalar, exceptional cases
included. -/

namespace CT
set_option linter.unusedSectionVars false

variable {F G X : Type} [Field F] [DecidableEq F] (o : Oracle F G X)
variable {C : SWCurve F}

/-- The bits used by a lookup. -/
theorem lookup_extract {tx ty : Row F} {i : Option Nat} {r : LC F × LC F} {s s' : VState F G X}
    (h : runV o (lookup tx ty i) s = .ok (r, s')) :
    ∃ b0 b1 b2 : Variable, ∀ (a : LC F) (w : Assignment F), s'.SatisfiedBy w →
      (Window.mk b0 b1 b2 a).digit w < 8 ∧
      w.eval r.1 = tx (Fin.ofNat 8 ((Window.mk b0 b1 b2 a).digit w)) ∧
      w.eval r.2 = ty (Fin.ofNat 8 ((Window.mk b0 b1 b2 a).digit w)) := by
  unfold lookup at h
  obtain ⟨v, s1, h1, g1⟩ := (runV_bind_ok o).1 h
  obtain ⟨v0, s2, h2, g2⟩ := (runV_bind_ok o).1 g1
  refine ⟨v0, v.1, v.2.1, fun a w hs => ?_⟩
  have hs2 := SatisfiedBy_of_run o g2 hs
  have hs1 := SatisfiedBy_of_run o g1 hs
  obtain ⟨_, s3, h3, hs3, h⟩ := runV_step o g2 hs
  obtain ⟨_, s4, h4, hs4, h⟩ := runV_step o h hs
  obtain ⟨x, s5, h5, hs5, h⟩ := runV_step o h hs
  obtain ⟨y, s6, h6, hs6, h⟩ := runV_step o h hs
  obtain ⟨rfl, rfl⟩ := (runV_pure o).1 h
  have e1 := allocateMultiplier_sound o h1 hs1
  obtain ⟨b0, hb0⟩ := exists_bool (bit_sound o h2 hs2)
  obtain ⟨b1, hb1⟩ := exists_bool (isBit_sound o h3 hs3)
  obtain ⟨b2, hb2⟩ := exists_bool (isBit_sound o h4 hs4)
  rw [← eval_ofVar] at hb0
  have hd : (Window.mk v0 v.1 v.2.1 a).digit w = b0.toNat + 2 * b1.toNat + 4 * b2.toNat := by
    rw [eval_ofVar] at hb0 hb1 hb2
    unfold Window.digit
    simp only [hb0, hb1, hb2]
    cases b0 <;> cases b1 <;> cases b2 <;> simp [b2f]
  rw [hd]
  refine ⟨by cases b0 <;> cases b1 <;> cases b2 <;> decide, ?_⟩
  exact ⟨singleMembership_sound o h5 hs5 hb0 hb1 hb2 (by simp [e1]),
    singleMembership_sound o h6 hs6 hb0 hb1 hb2 (by simp [e1])⟩

/-- If these linear combinations evaluate to a curve point, the point is `z·h`. -/
def IsMul (h : C.Pt) (w : Assignment F) (l : LC F × LC F) (z : Int) : Prop :=
  ∀ hc : C.OnCurve (w.eval l.1) (w.eval l.2), C.pt hc = z • h

theorem isMul_of_chord {h : C.Pt} {xr yr xt yt xo yo d : F} {τ z : Int}
    (hPt : C.new? xt yt = some (τ • h))
    (h1 : d * (xt - xr) = yt - yr) (h2 : d * (xo - xr) = -yo - yr) (h3 : d * d = xo + xt + xr)
    (hprev : ∀ hc : C.OnCurve xr yr, C.pt hc = z • h) :
    ∀ hc : C.OnCurve xo yo, C.pt hc = (if xo = xt then -τ else z + τ) • h := by
  intro ho
  unfold SWCurve.new? at hPt
  split at hPt
  · next ht =>
    simp only [Option.some.injEq] at hPt
    split
    · next hx =>
      rcases C.chord_back ht ho h1 h2 h3 with e | ⟨hr, e⟩
      · rw [e, hPt, neg_smul]
      · obtain ⟨h', e'⟩ := C.neg_pt ht
        rw [neg_smul, ← hPt, ← e', C.pt_inj]
        exact ⟨hx, by rw [hx] at h2; linear_combination h2 - h1⟩
    · next hx =>
      rcases C.chord_back ht ho h1 h2 h3 with e | ⟨hr, e⟩
      · obtain ⟨h', e'⟩ := C.neg_pt ht
        rw [← e', C.pt_inj] at e
        exact absurd e.1 hx
      · rw [e, hprev hr, hPt, add_smul]
  · simp at hPt

theorem rerandStepBody_extract {fx : Bool} {m i : Nat} {t : Table F} {st r : LC F × LC F}
    {ix : Option Nat} {ax ay d v : Option F} {s s' : VState F G X} {h : C.Pt}
    (ht : ∀ j : Fin 8, C.new? (t.x j) (t.y j) = some (tableScalar m i j • h))
    (hrun : runV o (rerandStepBody fx m i t st ix ax ay d v) s = .ok (r, s')) :
    ∃ vw : Window F, vw.accX = r.1 ∧ ∀ (w : Assignment F) (z : Int), s'.SatisfiedBy w →
      ((1 < i ∧ IsMul h w st z) ∨ (i = 1 ∧ fx = true)) →
      IsMul h w r (if i = 1 then tableScalar m i (vw.digit w)
        else if w.eval vw.accX = t.x (Fin.ofNat 8 (vw.digit w)) then -tableScalar m i (vw.digit w)
        else z + tableScalar m i (vw.digit w)) := by
  unfold rerandStepBody at hrun
  obtain ⟨⟨xt, yt⟩, s1, h1, g1⟩ := (runV_bind_ok o).1 hrun
  obtain ⟨vx, s2, h2, g2⟩ := (runV_bind_ok o).1 g1
  obtain ⟨vy, s3, h3, g3⟩ := (runV_bind_ok o).1 g2
  obtain ⟨⟨⟩, s4, h4, g4⟩ := (runV_bind_ok o).1 g3
  obtain ⟨rfl, rfl⟩ := (runV_pure o).1 g4
  obtain ⟨b0, b1, b2, hl⟩ := lookup_extract o h1
  refine ⟨⟨b0, b1, b2, LC.ofVar vx⟩, rfl, fun w z hs hprev => ?_⟩
  obtain ⟨hlt, ex, ey⟩ := hl (LC.ofVar vx) w (SatisfiedBy_of_run o g1 hs)
  generalize (Window.mk b0 b1 b2 (LC.ofVar vx : LC F)).digit w = k at *
  simp only at ex ey
  have hnew := ht (Fin.ofNat 8 k)
  rw [Fin.val_ofNat, Nat.mod_eq_of_lt hlt, ← ex, ← ey] at hnew
  unfold rerandStepAdd at h4
  have hs4 := SatisfiedBy_of_run o g4 hs
  rcases hprev with ⟨hi, hst⟩ | ⟨hi, rfl⟩
  · rw [if_pos hi] at h4
    rw [if_neg (by omega), ← ex]
    split at h4
    · obtain ⟨-, dd, e1, e2, e3⟩ := checked_sound o h4 hs4
      exact isMul_of_chord hnew e1 e2 e3 hst
    · obtain ⟨dd, e1, e2, e3⟩ := incomplete_sound o h4 hs4
      exact isMul_of_chord hnew e1 e2 e3 hst
  · rw [if_neg (by omega), if_pos rfl] at h4
    rw [if_pos hi]
    obtain ⟨⟨⟩, s5, h5, hs5, h4⟩ := runV_step o h4 hs4
    have c1 := constrain_sound o h5 hs5
    have c2 := constrain_sound o h4 hs4
    simp only [eval_sub, sub_eq_zero] at c1 c2
    intro hc
    simp only at hc
    have := C.new?_pt hc
    have e : some (C.pt hc) = some (tableScalar m i k • h) := by rw [← this, ← hnew, c1, c2]
    exact Option.some.inj e

theorem rerandLoop_extract {fx : Bool} {lambda m : Nat} {ro : Option Nat} {h : C.Pt}
    {ts : List (Table F)} {i : Nat}
    (ht : ∀ (k : Nat) (t : Table F), ts[k]? = some t → ∀ j : Fin 8,
      C.new? (t.x j) (t.y j) = some (tableScalar m (i + k) j • h))
    {st r : C.Pt × LC F × LC F} {s s' : VState F G X} (hi : 1 ≤ i)
    (hrun : runV o (rerandLoop C fx lambda m ro i ts st) s = .ok (r, s')) :
    ∃ vs : List (Window F), vs.length = ts.length ∧ ∀ (w : Assignment F) (z : Int),
      s'.SatisfiedBy w → ((1 < i ∧ IsMul h w st.2 z) ∨ (i = 1 ∧ fx = true ∧ ts ≠ [])) →
      IsMul h w r.2 (extractFrom m w i z ts vs) := by
  induction ts generalizing i st s with
  | nil =>
    obtain ⟨rfl, rfl⟩ := (runV_pure o).1 hrun
    refine ⟨[], rfl, fun w z hs hprev => ?_⟩
    rcases hprev with ⟨-, h⟩ | ⟨-, -, h⟩
    · exact h
    · exact absurd rfl h
  | cons t ts ih =>
    unfold rerandLoop at hrun
    obtain ⟨st', s1, h1, g1⟩ := (runV_bind_ok o).1 hrun
    unfold rerandStep at h1
    obtain ⟨sw, s2, h2, g2⟩ := (runV_bind_ok o).1 h1
    obtain ⟨l, s3, h3, g3⟩ := (runV_bind_ok o).1 g2
    obtain ⟨rfl, rfl⟩ := (runV_pure o).1 g3
    obtain ⟨vw, -, hv⟩ := rerandStepBody_extract (h := h) (m := m) o
      (fun j => by simpa using ht 0 t rfl j) h3
    obtain ⟨vs, hvs, hih⟩ := ih (i := i + 1)
      (fun k t' hk j => by
        have := ht (k + 1) t' (by simpa using hk) j
        rwa [show i + (k + 1) = i + 1 + k by omega] at this) (by omega) g1
    refine ⟨vw :: vs, by simp [hvs], fun w z hs hprev => ?_⟩
    refine hih w _ hs (.inl ⟨by omega, ?_⟩)
    refine hv w z (SatisfiedBy_of_run o g1 hs) ?_
    rcases hprev with h | ⟨h, h', -⟩
    · exact .inl h
    · exact .inr ⟨h, h'⟩

theorem reRandomize_extract {lambda : Nat} {ro : Option Nat} {h : C.Pt} {ts : List (Table F)}
    (hts : buildTables C (windows lambda) h = some ts)
    {c : PointRep C} {xt yt : LC F} {s s' : VState F G X}
    (hrun : runV o (reRandomize C true lambda ts c xt yt ro) s = .ok ((), s')) :
    ∃ vs : List (Window F), vs.length = windows lambda ∧ ∀ w : Assignment F, s'.SatisfiedBy w →
    ∀ (hc : C.OnCurve (w.eval c.x) (w.eval c.y)) (ho : C.OnCurve (w.eval xt) (w.eval yt)),
      C.pt ho = - C.pt hc ∨
        C.pt ho = C.pt hc + extractScalar (windows lambda) ts vs w • h := by
  obtain ⟨hl, ht⟩ := buildTables_spec hts
  unfold reRandomize at hrun
  rw [if_neg (by omega), List.take_of_length_le (by omega)] at hrun
  obtain ⟨⟨acc, ax, ay⟩, s1, h1, g1⟩ := (runV_bind_ok o).1 hrun
  obtain ⟨vs, hvs, hin⟩ := rerandLoop_extract (h := h) o
    (fun k t hk j => by rw [Nat.add_comm 1 k]; exact ht k t hk j) (le_refl 1) h1
  refine ⟨vs, by rw [hvs, hl], fun w hs hc ho => ?_⟩
  obtain ⟨⟨d, i⟩, s2, h2, hs2, h⟩ := runV_step o g1 hs
  obtain ⟨-, d, e1, e2, e3⟩ := checked_sound o h hs
  simp only at e1 e2 e3
  have hin := hin w 0 (SatisfiedBy_of_run o g1 hs) (.inr ⟨rfl, rfl, by
    intro h0
    rw [h0] at hl
    simp [windows] at hl⟩)
  rcases C.chord_back (xr := w.eval ax) (yr := w.eval ay) hc ho (d := d)
      (by linear_combination -e1) (by linear_combination e2 - e1) (by linear_combination e3) with
    e | ⟨hr, e⟩
  · exact .inl e
  · right
    rw [e, hin hr, add_comm]
    rfl

end CT
