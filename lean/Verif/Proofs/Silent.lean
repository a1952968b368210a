import Verif.Proofs.Transcript
import Verif.Model.Gadgets

/-! # Gadgets that do not touch the transcript -/

namespace CT
set_option linter.unusedSectionVars false
variable {F G X : Type}

/-- The program neither absorbs a message nor asks for a challenge. -/
def Prog.Silent {α : Type} : Prog F G X α → Prop
  | .pure _ => True
  | .fail _ => True
  | .multiply _ _ k => ∀ v, (k v).Silent
  | .allocate _ k => ∀ v, (k v).Silent
  | .allocateMultiplier _ k => ∀ v, (k v).Silent
  | .constrain _ k => k.Silent
  | .append _ _ => False
  | .challenge _ _ => False

theorem Prog.Silent.bind {α β : Type} {p : Prog F G X α} {f : α → Prog F G X β} (hp : p.Silent) (hf : ∀ a, (f a).Silent) :
    (p >>= f).Silent := by
  change (p.bind f).Silent
  induction p with
  | pure a => exact hf a
  | fail e => trivial
  | multiply l r k ih => exact fun v => ih v (hp v)
  | allocate a k ih => exact fun v => ih v (hp v)
  | allocateMultiplier a k ih => exact fun v => ih v (hp v)
  | constrain lc k ih => exact ih hp
  | append m k ih => exact hp.elim
  | challenge l k ih => exact hp.elim

variable [Field F] [AddCommGroup G] [Module F G] [DecidableEq F] [DecidableEq G]

theorem Prog.Silent.runV {α : Type} {p : Prog F G X α} (hp : p.Silent) (o : Oracle F G X) : ∀ (t : VState F G X) (a : α) (t' : VState F G X),
    CT.runV o p t = .ok (a, t') → t'.transcript = t.transcript := by
  induction p with
  | pure a => intro t b t' h; simp only [CT.runV, Except.ok.injEq, Prod.mk.injEq] at h; rw [← h.2]
  | fail e => intro t b t' h; simp [CT.runV] at h
  | multiply l r k ih => intro t b t' h; rw [CT.runV] at h; rw [ih _ (hp _) _ _ _ h, multiply_transcript]
  | allocate a k ih => intro t b t' h; rw [CT.runV] at h; rw [ih _ (hp _) _ _ _ h, allocate_transcript]
  | allocateMultiplier a k ih => intro t b t' h; rw [CT.runV] at h; rw [ih _ (hp _) _ _ _ h, allocateMultiplier_transcript]
  | constrain lc k ih => intro t b t' h; rw [CT.runV] at h; rw [ih hp _ _ _ h]; rfl
  | append m k ih => exact hp.elim
  | challenge l k ih => exact hp.elim

section
omit [AddCommGroup G] [Module F G] [DecidableEq F] [DecidableEq G]

theorem silent_pure {α : Type} (a : α) : (pure a : Prog F G X α).Silent := trivial
theorem silent_multiply (l r : LC F) : (multiply l r : Prog F G X _).Silent := fun _ => trivial
theorem silent_allocate (a : Option F) : (allocate a : Prog F G X _).Silent := fun _ => trivial
theorem silent_allocateMultiplier (a : Option (F × F)) : (allocateMultiplier a : Prog F G X _).Silent := fun _ => trivial
theorem silent_constrain (l : LC F) : (constrain l : Prog F G X _).Silent := trivial
theorem silent_panic {α : Type} (m : String) : (panic m : Prog F G X α).Silent := trivial
theorem silent_orPanic {α : Type} (m : String) (a : Option α) : (orPanic m a : Prog F G X α).Silent := by
  cases a <;> trivial
end

/-- Closes goals about programs made of silent steps. -/
macro "silent" : tactic => `(tactic| (
  repeat' first
    | exact silent_pure _ | exact silent_multiply _ _ | exact silent_allocate _ | exact silent_allocateMultiplier _
    | exact silent_constrain _ | exact silent_panic _ | exact silent_orPanic _ _
    | assumption
    | (apply Prog.Silent.bind)
    | (intro _)
    | split))

theorem silent_selectLoop (x : LC F) : ∀ (xs : List (LC F)) (p : LC F), (selectLoop x xs p : Prog F G X _).Silent
  | [], p => trivial
  | xi :: xs, p => (silent_multiply _ _).bind fun _ => silent_selectLoop x xs _

theorem silent_select (x : LC F) (xs : List (LC F)) : (select x xs : Prog F G X _).Silent := by
  cases xs with
  | nil => trivial
  | cons a l => exact (silent_selectLoop _ _ _).bind fun _ => silent_constrain _

theorem silent_bit (v : Option Bool) : (bit v : Prog F G X _).Silent := by unfold bit; silent
theorem silent_isBit (v : LC F) : (isBit v : Prog F G X _).Silent := by unfold isBit; silent
theorem silent_singleMembership (u : Row F) (a b c d : LC F) : (singleMembership u a b c d : Prog F G X _).Silent := by
  unfold singleMembership; silent
theorem silent_lookup (tx ty : Row F) (i : Option Nat) : (lookup tx ty i : Prog F G X _).Silent := by
  unfold lookup
  refine (silent_allocateMultiplier _).bind fun _ => (silent_bit _).bind fun _ => (silent_isBit _).bind fun _ => (silent_isBit _).bind fun _ =>
    (silent_singleMembership _ _ _ _ _).bind fun _ => (silent_singleMembership _ _ _ _ _).bind fun _ => silent_pure _
theorem silent_curveCheck (x y : LC F) (a b : F) : (curveCheck x y a b : Prog F G X _).Silent := by unfold curveCheck; silent
theorem silent_incompleteCurveAddition (p : CurveAddition F) : (incompleteCurveAddition p : Prog F G X _).Silent := by
  unfold incompleteCurveAddition; silent
theorem silent_checkedCurveAddition (p : CurveAddition F) (i : Option F) : (checkedCurveAddition p i : Prog F G X _).Silent := by
  unfold checkedCurveAddition
  refine (silent_allocate _).bind fun _ => Prog.Silent.bind ?_ fun _ => silent_incompleteCurveAddition _
  unfold notZero; silent

theorem silent_helperWitness (C : SWCurve F) (l r : Option C.Pt) : (helperWitness C l r : Prog F G X _).Silent := by
  cases l <;> cases r <;> simp only [helperWitness]
  all_goals silent

theorem silent_checkedCurveAdditionHelper (C : SWCurve F) (l r : PointRep C) : (checkedCurveAdditionHelper C l r : Prog F G X _).Silent := by
  unfold checkedCurveAdditionHelper
  refine (silent_helperWitness _ _ _).bind fun _ => (silent_orPanic _ _).bind fun _ => (silent_allocate _).bind fun _ =>
    (silent_allocate _).bind fun _ => (silent_checkedCurveAddition _ _).bind fun _ => silent_pure _

theorem silent_rerandStep (C : SWCurve F) (fx : Bool) (lambda m : Nat) (r : Option Nat) (i : Nat) (t : Table F) (st : C.Pt × LC F × LC F) :
    (rerandStep C fx lambda m r i t st : Prog F G X _).Silent := by
  unfold rerandStep
  refine Prog.Silent.bind ?_ fun _ => Prog.Silent.bind ?_ fun _ => silent_pure _
  · cases r <;> simp only [rerandStepMatch] <;> silent
  · unfold rerandStepBody
    refine (silent_lookup _ _ _).bind fun _ => (silent_allocate _).bind fun _ => (silent_allocate _).bind fun _ => Prog.Silent.bind ?_ fun _ => silent_pure _
    unfold rerandStepAdd
    split
    · split
      · exact silent_checkedCurveAddition _ _
      · exact silent_incompleteCurveAddition _
    · silent

theorem silent_rerandLoop (C : SWCurve F) (fx : Bool) (lambda m : Nat) (r : Option Nat) : ∀ (ts : List (Table F)) (i : Nat) (st : C.Pt × LC F × LC F),
    (rerandLoop C fx lambda m r i ts st : Prog F G X _).Silent
  | [], i, st => trivial
  | t :: ts, i, st => (silent_rerandStep C fx lambda m r i t st).bind fun _ => silent_rerandLoop C fx lambda m r ts _ _

theorem silent_reRandomize (C : SWCurve F) (fx : Bool) (lambda : Nat) (tables : List (Table F)) (c : PointRep C) (x y : LC F) (r : Option Nat) :
    (reRandomize C fx lambda tables c x y r : Prog F G X _).Silent := by
  unfold reRandomize
  split
  · trivial
  refine (silent_rerandLoop _ _ _ _ _ _ _ _).bind fun _ => Prog.Silent.bind ?_ fun _ => silent_checkedCurveAddition _ _
  cases c.witness <;> simp only [rerandFinalMatch] <;> silent

theorem silent_batchedLoop (C : SWCurve F) : ∀ (cs : List (List (LC F))) (first : Bool) (w : Option (List C.Pt)) (sum : PointRep C),
    (batchedLoop C first cs w sum : Prog F G X _).Silent
  | [], first, w, sum => by unfold batchedLoop; trivial
  | c :: cs, first, w, sum => by
    unfold batchedLoop
    refine Prog.Silent.bind ?_ fun a => ?_
    · rcases w with _ | (_ | ⟨a, l⟩) <;> simp only [nextWitness] <;> silent
    refine (silent_allocate _).bind fun _ => (silent_allocate _).bind fun _ => (silent_select _ _).bind fun _ => (silent_curveCheck _ _ _ _).bind fun _ =>
      Prog.Silent.bind ?_ fun _ => silent_batchedLoop C cs _ _ _
    unfold batchedSum
    split
    · trivial
    · exact silent_checkedCurveAdditionHelper _ _ _

theorem silent_singleLevelBatched (C : SWCurve F) (fx : Bool) (M : Nat) (prm : LayerParams C) (rc : C.Pt) (children : List (LC F))
    (w : Option (List C.Pt)) (r : Option Nat) : (singleLevelBatched C fx M prm rc children w r : Prog F G X _).Silent := by
  unfold singleLevelBatched
  split
  · trivial
  · exact (silent_batchedLoop _ _ _ _ _).bind fun _ => silent_reRandomize _ _ _ _ _ _ _ _

end CT
