import Verif.Model.Gadgets
import Verif.Proofs.Sync

/-! Every gadget, run with a witness and run without, makes the same calls. -/

namespace CT
set_option linter.unusedSectionVars false

variable {F G X α : Type} [Field F] [DecidableEq F]

theorem sync_orPanic {m : String} {R : α → β → Prop} {p : Option α} {q : Prog F G X β}
    (h : ∀ a, p = some a → SameCalls R (.pure a) q) : SameCalls R (orPanic m p) q := by
  cases p with
  | none => exact .fail
  | some a => exact h a rfl

theorem sync_rangeLoop (q : Option Nat) (k i : Nat) (e : F) (v : LC F) :
    SameCalls (G := G) (X := X) Eq (rangeLoop q k i e v) (rangeLoop none k i e v) := by
  induction k generalizing i e v with
  | zero => exact .pure rfl
  | succ k ih =>
    unfold rangeLoop
    refine SameCalls.bind (R := fun _ b => b = none)
      (sync_orPanic fun a _ => .pure rfl) fun a b hb => ?_
    refine (SameCalls.allocateMultiplier' _ _).bind fun v1 v2 hv => ?_
    subst hv
    refine (SameCalls.refl (fun _ => rfl) _).bind fun _ _ (_ : _ = _) => ?_
    refine (SameCalls.refl (fun _ => rfl) _).bind fun _ _ (_ : _ = _) => ?_
    exact ih _ _ _

theorem sync_rangeProof (v : LC F) (q : Option Nat) (n : Nat) :
    SameCalls (G := G) (X := X) Eq (rangeProof v q n) (rangeProof v none n) := by
  unfold rangeProof
  refine (sync_rangeLoop _ _ _ _ _).bind fun a b h => ?_
  subst h
  exact .refl (fun _ => rfl) _

theorem sync_bit (b : Option Bool) :
    SameCalls (F := F) (G := G) (X := X) Eq (bit b) (bit none) := by
  unfold bit
  refine (SameCalls.allocateMultiplier' _ _).bind fun v1 v2 hv => ?_
  subst hv
  exact .refl (fun _ => rfl) _

theorem sync_lookup (tx ty : Row F) (i : Option Nat) :
    SameCalls (G := G) (X := X) Eq (lookup tx ty i) (lookup tx ty none) := by
  unfold lookup
  refine (SameCalls.allocateMultiplier' _ _).bind fun v1 v2 hv => ?_
  subst hv
  refine (sync_bit _).bind fun b b' hb => ?_
  subst hb
  exact .refl (fun _ => rfl) _

theorem sync_incomplete {p q : CurveAddition F} (h : { p with delta := none } = { q with delta := none }) :
    SameCalls (G := G) (X := X) Eq (incompleteCurveAddition p) (incompleteCurveAddition q) := by
  obtain ⟨a, b, c, d, e, f, g⟩ := p
  obtain ⟨a', b', c', d', e', f', g'⟩ := q
  simp only [CurveAddition.mk.injEq, and_true] at h
  obtain ⟨rfl, rfl, rfl, rfl, rfl, rfl⟩ := h
  unfold incompleteCurveAddition
  refine (SameCalls.allocate' _ _).bind fun v1 v2 hv => ?_
  subst hv
  exact .refl (fun _ => rfl) _

theorem sync_checked {p q : CurveAddition F} (h : { p with delta := none } = { q with delta := none })
    (i j : Option F) :
    SameCalls (G := G) (X := X) Eq (checkedCurveAddition p i) (checkedCurveAddition q j) := by
  unfold checkedCurveAddition
  have h' := h
  obtain ⟨a, b, c, d, e, f, g⟩ := p
  obtain ⟨a', b', c', d', e', f', g'⟩ := q
  simp only [CurveAddition.mk.injEq, and_true] at h
  obtain ⟨rfl, rfl, rfl, rfl, rfl, rfl⟩ := h
  refine (SameCalls.allocate' _ _).bind fun v1 v2 hv => ?_
  subst hv
  refine (SameCalls.refl (fun _ => rfl) _).bind fun _ _ (_ : _ = _) => ?_
  exact sync_incomplete h'

variable {C : SWCurve F}

/-- Two point representations over the same linear combinations. -/
def PointRep.Same (p q : PointRep C) : Prop := p.x = q.x ∧ p.y = q.y

theorem sync_checkedHelper {l l' r r' : PointRep C} (hl : l.Same l') (hr : r.Same r')
    (hw : l'.witness = none ∨ r'.witness = none) :
    SameCalls (G := G) (X := X) (fun a b => a.Same b ∧ b.witness = none)
      (checkedCurveAdditionHelper C l r) (checkedCurveAdditionHelper C l' r') := by
  unfold checkedCurveAdditionHelper
  refine SameCalls.bind (R := fun _ b => b = (none, none, none)) ?_ fun a b hb => ?_
  · have : helperWitness (G := G) (X := X) C l'.witness r'.witness = pure (none, none, none) := by
      rcases hw with h | h
      · rw [h]; rfl
      · rw [h]; cases l'.witness <;> rfl
    rw [this]
    rcases hlw : l.witness with _ | lp
    · exact .pure rfl
    · rcases hrw : r.witness with _ | rp
      · exact .pure rfl
      · simp only [helperWitness]
        cases ha : addWitness C lp rp with
        | none => exact .fail
        | some a => exact .pure rfl
  obtain ⟨out, delta, inv⟩ := a
  subst hb
  refine SameCalls.bind (R := fun _ b => b = (none, none))
    (sync_orPanic fun a _ => .pure rfl) fun a b hb => ?_
  subst hb
  refine (SameCalls.allocate' _ _).bind fun v1 v2 hv => ?_
  subst hv
  refine (SameCalls.allocate' _ _).bind fun v3 v4 hv => ?_
  subst hv
  refine (sync_checked ?_ _ _).bind fun _ _ _ => ?_
  · simp [hl.1, hl.2, hr.1, hr.2]
  · exact .pure ⟨⟨rfl, rfl⟩, rfl⟩

theorem sync_rerandStepBody (fx : Bool) (m i : Nat) (t : Table F) (st : LC F × LC F)
    (index : Option Nat) (x y d v : Option F) :
    SameCalls (G := G) (X := X) Eq (rerandStepBody fx m i t st index x y d v)
      (rerandStepBody fx m i t st none none none none none) := by
  unfold rerandStepBody
  refine (sync_lookup _ _ _).bind fun v1 v2 hv => ?_
  subst hv
  refine (SameCalls.allocate' _ _).bind fun v3 v4 hv => ?_
  subst hv
  refine (SameCalls.allocate' _ _).bind fun v5 v6 hv => ?_
  subst hv
  refine SameCalls.bind (R := Eq) ?_ fun _ _ _ => .pure rfl
  unfold rerandStepAdd
  split
  · split
    · apply sync_checked; rfl
    · apply sync_incomplete; rfl
  · exact .refl (fun _ => rfl) _

theorem sync_rerandStep (fx : Bool) (lambda m : Nat) (r : Option Nat) (i : Nat) (t : Table F)
    {a b : C.Pt × LC F × LC F} (h : a.2 = b.2) :
    SameCalls (G := G) (X := X) (fun a b => a.2 = b.2) (rerandStep C fx lambda m r i t a)
      (rerandStep C fx lambda m none i t b) := by
  obtain ⟨acc, x, y⟩ := a
  obtain ⟨acc', x', y'⟩ := b
  simp only [Prod.mk.injEq] at h
  obtain ⟨rfl, rfl⟩ := h
  unfold rerandStep
  refine SameCalls.bind (R := fun _ b => b = none) ?_ fun sw b hb => ?_
  · cases r with
    | none => exact .pure rfl
    | some r =>
      simp only [rerandStepMatch]
      cases hw : rerandStepWitness C lambda m i r t acc with
      | none => exact .fail
      | some w => exact .pure rfl
  subst hb
  refine (sync_rerandStepBody fx m i t (x, y) _ _ _ _ _).bind fun v1 v2 hv => ?_
  subst hv
  exact .pure rfl

theorem sync_rerandLoop (fx : Bool) (lambda m : Nat) (r : Option Nat) (i : Nat) (ts : List (Table F))
    {a b : C.Pt × LC F × LC F} (h : a.2 = b.2) :
    SameCalls (G := G) (X := X) (fun a b => a.2 = b.2) (rerandLoop C fx lambda m r i ts a)
      (rerandLoop C fx lambda m none i ts b) := by
  induction ts generalizing i a b with
  | nil => exact .pure h
  | cons t ts ih =>
    unfold rerandLoop
    exact (sync_rerandStep fx lambda m r i t h).bind fun _ _ h => ih _ h

theorem sync_reRandomize (fx : Bool) (lambda : Nat) (ts : List (Table F)) {c c' : PointRep C} (hc : c.Same c')
    (hw : c'.witness = none) (x y : LC F) (r : Option Nat) :
    SameCalls (G := G) (X := X) Eq (reRandomize C fx lambda ts c x y r)
      (reRandomize C fx lambda ts c' x y none) := by
  unfold reRandomize
  split
  · exact .fail
  refine (sync_rerandLoop _ _ _ _ _ _ rfl).bind fun a b hab => ?_
  obtain ⟨acc, ax, ay⟩ := a
  obtain ⟨acc', ax', ay'⟩ := b
  simp only [Prod.mk.injEq] at hab
  obtain ⟨rfl, rfl⟩ := hab
  rw [hw]
  refine SameCalls.bind (R := fun _ b => b = (none, none)) ?_ fun a b hb => ?_
  · cases hcw : c.witness with
    | none => exact .pure rfl
    | some p =>
      simp only [rerandFinalMatch]
      cases hf : rerandFinalWitness C p acc with
      | none => exact .fail
      | some f => exact .pure rfl
  subst hb
  apply sync_checked; simp [hc.1, hc.2]

theorem sync_singleLevel (fx : Bool) (prm : LayerParams C) (rc : C.Pt) (children : List (LC F))
    (w : Option C.Pt) (r : Option Nat) :
    SameCalls (G := G) Eq (singleLevel C fx prm rc children w r)
      (singleLevel C fx prm rc children none none) := by
  unfold singleLevel
  refine (SameCalls.refl (fun _ => rfl) _).bind fun _ _ (_ : _ = _) => ?_
  refine (SameCalls.allocate' _ _).bind fun v3 v4 hv => ?_
  subst hv
  refine (SameCalls.refl (fun _ => rfl) _).bind fun _ _ (_ : _ = _) => ?_
  refine (SameCalls.allocate' _ _).bind fun v3 v4 hv => ?_
  subst hv
  refine (SameCalls.refl (fun _ => rfl) _).bind fun _ _ (_ : _ = _) => ?_
  exact sync_reRandomize _ _ _ (by exact ⟨rfl, rfl⟩) rfl _ _ _

theorem sync_batchedLoop (first : Bool) (chunks : List (List (LC F))) (w : Option (List C.Pt))
    {sum sum' : PointRep C} (h : sum.Same sum') (hw : sum'.witness = none) :
    SameCalls (G := G) (X := X) (fun a b => a.Same b ∧ b.witness = none)
      (batchedLoop C first chunks w sum) (batchedLoop C first chunks none sum') := by
  induction chunks generalizing first w sum sum' with
  | nil => exact .pure ⟨h, hw⟩
  | cons c cs ih =>
    unfold batchedLoop
    refine SameCalls.bind (R := fun _ b => b = (none, none)) ?_ fun a b hb => ?_
    · rcases w with _ | _ | ⟨p, ps⟩
      · exact .pure rfl
      · exact .fail
      · exact .pure rfl
    obtain ⟨w1, rest⟩ := a
    subst hb
    refine (SameCalls.allocate' _ _).bind fun v3 v4 hv => ?_
    subst hv
    refine (SameCalls.allocate' _ _).bind fun v3 v4 hv => ?_
    subst hv
    refine (SameCalls.refl (fun _ => rfl) _).bind fun _ _ (_ : _ = _) => ?_
    refine (SameCalls.refl (fun _ => rfl) _).bind fun _ _ (_ : _ = _) => ?_
    refine SameCalls.bind (R := fun a b => a.Same b ∧ b.witness = none) ?_
      fun a b hab => ih _ _ hab.1 hab.2
    unfold batchedSum
    split
    · exact .pure ⟨⟨rfl, rfl⟩, rfl⟩
    · exact sync_checkedHelper h ⟨rfl, rfl⟩ (.inr rfl)

theorem sync_singleLevelBatched (fx : Bool) (M : Nat) (prm : LayerParams C) (rc : C.Pt) (children : List (LC F))
    (w : Option (List C.Pt)) (r : Option Nat) :
    SameCalls (G := G) (X := X) Eq (singleLevelBatched C fx M prm rc children w r)
      (singleLevelBatched C fx M prm rc children none none) := by
  unfold singleLevelBatched
  split
  · exact .fail
  refine (sync_batchedLoop _ _ _ (by exact ⟨rfl, rfl⟩) rfl).bind fun a b hab => ?_
  exact sync_reRandomize _ _ _ hab.1 hab.2 _ _ _

end CT
