import Verif.Spec.Cost
import Verif.Model.Gadgets
import Mathlib.Tactic.Ring

namespace CT
set_option linter.unusedSectionVars false
variable {F G X α β : Type} [Field F]

/-- Syntactic cost of a program. -/
inductive Costs : Prog F G X α → Nat → Nat → Nat → Prop
  | pure (x : α) : Costs (.pure x) 0 0 0
  | fail (e : Err) (m a c : Nat) : Costs (.fail e) m a c
  | multiply {l r k m a c} (h : ∀ v, Costs (k v) m a c) : Costs (.multiply l r k) (m + 1) a (c + 2)
  | allocate {x k m a c} (h : ∀ v, Costs (k v) m a c) : Costs (.allocate x k) m (a + 1) c
  | allocateMultiplier {x k m a c} (h : ∀ v, Costs (k v) m a c) : Costs (.allocateMultiplier x k) (m + 1) a c
  | constrain {lc k m a c} (h : Costs k m a c) : Costs (.constrain lc k) m a (c + 1)
  | append {msg k m a c} (h : Costs k m a c) : Costs (.append msg k) m a c
  | challenge {l k m a c} (h : ∀ v, Costs (k v) m a c) : Costs (.challenge l k) m a c

omit [Field F] in
theorem Costs.cast {p : Prog F G X α} {m a c m' a' c' : Nat} (h : Costs p m a c) (hm : m = m') (ha : a = a') (hc : c = c') :
    Costs p m' a' c' := by subst hm ha hc; exact h

omit [Field F] in
theorem Costs.bind {p : Prog F G X α} {f : α → Prog F G X β} {m a c m' a' c' : Nat} (h : Costs p m a c)
    (hf : ∀ x, Costs (f x) m' a' c') : Costs (p.bind f) (m + m') (a + a') (c + c') := by
  induction h with
  | pure x => exact Costs.cast (p := f x) (hf x) (by omega) (by omega) (by omega)
  | fail e m a c => exact .fail ..
  | multiply _ ih => exact (Costs.multiply ih).cast (by omega) rfl (by omega)
  | allocate _ ih => exact (Costs.allocate ih).cast rfl (by omega) rfl
  | allocateMultiplier _ ih => exact (Costs.allocateMultiplier ih).cast (by omega) rfl rfl
  | constrain _ ih => exact (Costs.constrain ih).cast rfl rfl (by omega)
  | append _ ih => exact .append ih
  | challenge _ ih => exact .challenge ih

omit [Field F] in
theorem Costs.bind' {p : Prog F G X α} {f : α → Prog F G X β} {m a c m' a' c' : Nat} (h : Costs p m a c)
    (hf : ∀ x, Costs (f x) m' a' c') : Costs (p >>= f) (m + m') (a + a') (c + c') := h.bind hf

theorem Costs.runP {p : Prog F G X α} {m a c : Nat} (h : Costs p m a c) (o : Oracle F G X) :
    ∀ {s : PState F G X} {x : α} {s' : PState F G X}, CT.runP o p s = .ok (x, s') →
      s.metrics.Grows s'.metrics (spare s.pending) m a c := by
  induction h with
  | pure x =>
    intro s y s' h
    simp only [CT.runP, Except.ok.injEq, Prod.mk.injEq] at h
    obtain ⟨-, rfl⟩ := h
    refine ⟨?_, rfl, rfl⟩
    unfold spare; split <;> simp
  | fail e m a c => intro s y s' h; simp [CT.runP] at h
  | multiply _ ih =>
    intro s y s' h
    simp only [CT.runP] at h
    split at h
    case h_2 => cases h
    rename_i v s1 hs
    have := ih v h
    unfold PState.multiply at hs
    split at hs
    case h_2 => cases hs
    simp only [Except.ok.injEq, Prod.mk.injEq] at hs
    obtain ⟨-, rfl⟩ := hs
    obtain ⟨h1, h2, h3⟩ := this
    simp only [PState.metrics, PState.constrain, List.length_append, List.length_singleton] at h1 h2 h3
    exact ⟨by simp only [PState.metrics]; omega, by simp only [PState.metrics]; omega, by simp only [PState.metrics]; omega⟩
  | allocate _ ih =>
    intro s y s' h
    simp only [CT.runP] at h
    split at h
    case h_2 => cases h
    rename_i v s1 hs
    have := ih v h
    unfold PState.allocate at hs
    split at hs
    · cases hs
    split at hs
    · rename_i hp
      simp only [Except.ok.injEq, Prod.mk.injEq] at hs
      obtain ⟨-, rfl⟩ := hs
      obtain ⟨h1, h2, h3⟩ := this
      simp only [PState.metrics, List.length_append, List.length_singleton, spare, Option.isSome_some, if_true] at h1 h2 h3
      refine ⟨?_, by simp only [PState.metrics]; omega, by simp only [PState.metrics]; omega⟩
      simp only [PState.metrics, hp, spare, Option.isSome_none, Bool.false_eq_true, if_false]
      omega
    · rename_i i hp
      split at hs
      · cases hs
      simp only [Except.ok.injEq, Prod.mk.injEq] at hs
      obtain ⟨-, rfl⟩ := hs
      obtain ⟨h1, h2, h3⟩ := this
      simp only [PState.metrics, spare, Option.isSome_none, Bool.false_eq_true, if_false] at h1 h2 h3
      refine ⟨?_, by simp only [PState.metrics]; omega, by simp only [PState.metrics]; omega⟩
      simp only [PState.metrics, hp, spare, Option.isSome_some, if_true]
      omega
  | allocateMultiplier _ ih =>
    intro s y s' h
    simp only [CT.runP] at h
    split at h
    case h_2 => cases h
    rename_i v s1 hs
    have := ih v h
    unfold PState.allocateMultiplier at hs
    split at hs
    · cases hs
    simp only [Except.ok.injEq, Prod.mk.injEq] at hs
    obtain ⟨-, rfl⟩ := hs
    obtain ⟨h1, h2, h3⟩ := this
    simp only [PState.metrics, List.length_append, List.length_singleton] at h1 h2 h3
    exact ⟨by simp only [PState.metrics]; omega, by simp only [PState.metrics]; omega, by simp only [PState.metrics]; omega⟩
  | constrain _ ih =>
    intro s y s' h
    simp only [CT.runP] at h
    obtain ⟨h1, h2, h3⟩ := ih h
    simp only [PState.metrics, PState.constrain, List.length_append, List.length_singleton] at h1 h2 h3
    exact ⟨h1, by simp only [PState.metrics]; omega, h3⟩
  | append _ ih =>
    intro s y s' h
    simp only [CT.runP] at h
    exact (ih h :)
  | challenge _ ih =>
    intro s y s' h
    simp only [CT.runP] at h
    exact (ih _ h :)

theorem Costs.runV {p : Prog F G X α} {m a c : Nat} (h : Costs p m a c) (o : Oracle F G X) :
    ∀ {s : VState F G X} {x : α} {s' : VState F G X}, CT.runV o p s = .ok (x, s') →
      s.metrics.Grows s'.metrics (spare s.pending) m a c := by
  induction h with
  | pure x =>
    intro s y s' h
    simp only [CT.runV, Except.ok.injEq, Prod.mk.injEq] at h
    obtain ⟨-, rfl⟩ := h
    refine ⟨?_, rfl, rfl⟩
    unfold spare; split <;> simp
  | fail e m a c => intro s y s' h; simp [CT.runV] at h
  | multiply _ ih =>
    intro s y s' h
    simp only [CT.runV] at h
    obtain ⟨h1, h2, h3⟩ := ih _ h
    simp only [VState.multiply, VState.metrics, VState.constrain, List.length_append, List.length_singleton] at h1 h2 h3
    exact ⟨by simp only [VState.metrics]; omega, by simp only [VState.metrics]; omega, by simp only [VState.metrics]; omega⟩
  | allocate _ ih =>
    intro s y s' h
    simp only [CT.runV] at h
    obtain ⟨h1, h2, h3⟩ := ih _ h
    unfold VState.allocate at h1 h2 h3
    cases hp : s.pending with
    | none =>
      simp only [hp, VState.metrics, spare, Option.isSome_some, if_true] at h1 h2 h3
      refine ⟨?_, by simp only [VState.metrics]; omega, by simp only [VState.metrics]; omega⟩
      simp only [VState.metrics, spare, Option.isSome_none, Bool.false_eq_true, if_false]
      omega
    | some i =>
      simp only [hp, VState.metrics, spare, Option.isSome_none, Bool.false_eq_true, if_false] at h1 h2 h3
      refine ⟨?_, by simp only [VState.metrics]; omega, by simp only [VState.metrics]; omega⟩
      simp only [VState.metrics, spare, Option.isSome_some, if_true]
      omega
  | allocateMultiplier _ ih =>
    intro s y s' h
    simp only [CT.runV] at h
    obtain ⟨h1, h2, h3⟩ := ih _ h
    simp only [VState.allocateMultiplier, VState.metrics] at h1 h2 h3
    exact ⟨by simp only [VState.metrics]; omega, by simp only [VState.metrics]; omega, by simp only [VState.metrics]; omega⟩
  | constrain _ ih =>
    intro s y s' h
    simp only [CT.runV] at h
    obtain ⟨h1, h2, h3⟩ := ih h
    simp only [VState.metrics, VState.constrain, List.length_append, List.length_singleton] at h1 h2 h3
    exact ⟨h1, by simp only [VState.metrics]; omega, h3⟩
  | append _ ih =>
    intro s y s' h
    simp only [CT.runV] at h
    exact (ih h :)
  | challenge _ ih =>
    intro s y s' h
    simp only [CT.runV] at h
    exact (ih _ h :)

theorem Costs.fixed {p : Prog F G X α} {m a c : Nat} (h : Costs p m a c) : FixedCost p m a c :=
  ⟨fun o _ _ _ hr => h.runP o hr, fun o _ _ _ hr => h.runV o hr⟩

theorem Costs.runV_spare {p : Prog F G X α} {m a c : Nat} (h : Costs p m a c) (o : Oracle F G X) :
    ∀ {s : VState F G X} {x : α} {s' : VState F G X}, CT.runV o p s = .ok (x, s') →
      spare s'.pending = (spare s.pending + a) % 2 := by
  induction h with
  | pure x =>
    intro s y s' h
    simp only [CT.runV, Except.ok.injEq, Prod.mk.injEq] at h
    obtain ⟨-, rfl⟩ := h
    unfold spare; split <;> simp
  | fail e m a c => intro s y s' h; simp [CT.runV] at h
  | allocate _ ih =>
    intro s y s' h
    simp only [CT.runV] at h
    have := ih _ h
    unfold VState.allocate at this
    cases hp : s.pending with
    | none =>
      simp only [hp, spare, Option.isSome_some, if_true] at this
      simp only [spare, Option.isSome_none, Bool.false_eq_true, if_false]
      omega
    | some i =>
      simp only [hp, spare, Option.isSome_none, Bool.false_eq_true, if_false] at this
      simp only [spare, Option.isSome_some, if_true]
      omega
  | constrain _ ih =>
    intro s y s' h
    simp only [CT.runV] at h
    exact (ih h :)
  | append _ ih =>
    intro s y s' h
    simp only [CT.runV] at h
    exact (ih h :)
  | multiply _ ih | allocateMultiplier _ ih | challenge _ ih =>
    intro s y s' h
    simp only [CT.runV] at h
    exact (ih _ h :)

/-- `Grows` together with the parity of half-used multipliers, for a Verifier. -/
def VState.Grows (s t : VState F G X) (m a c : Nat) : Prop :=
  s.metrics.Grows t.metrics (spare s.pending) m a c ∧ spare t.pending = (spare s.pending + a) % 2

theorem spare_le (p : Option Nat) : spare p ≤ 1 := by unfold spare; split <;> simp

theorem VState.Grows.refl (s : VState F G X) : s.Grows s 0 0 0 := by
  have := spare_le s.pending
  exact ⟨⟨by omega, by omega, rfl⟩, by omega⟩

theorem VState.Grows.trans {s t u : VState F G X} {m a c m' a' c' : Nat} (h : s.Grows t m a c) (h' : t.Grows u m' a' c') :
    s.Grows u (m + m') (a + a') (c + c') := by
  have := spare_le s.pending
  obtain ⟨⟨h1, h2, h3⟩, h4⟩ := h
  obtain ⟨⟨k1, k2, k3⟩, k4⟩ := h'
  rw [h4] at k1 k4
  refine ⟨⟨?_, by omega, by omega⟩, by omega⟩
  rw [k1, h1]
  omega

theorem Costs.growsV {p : Prog F G X α} {m a c : Nat} (h : Costs p m a c) {o : Oracle F G X} {s : VState F G X} {x : α}
    {s' : VState F G X} (hr : CT.runV o p s = .ok (x, s')) : s.Grows s' m a c := ⟨h.runV o hr, h.runV_spare o hr⟩

/-! ## Gadgets -/

theorem costs_orPanic {β : Type} (msg : String) (x : Option β) : Costs (orPanic msg x : Prog F G X β) 0 0 0 := by
  cases x with
  | none => exact .fail ..
  | some x => exact .pure x

theorem costs_selectLoop (x : LC F) (xs : List (LC F)) (p : LC F) :
    Costs (selectLoop x xs p : Prog F G X (LC F)) xs.length 0 (2 * xs.length) := by
  induction xs generalizing p with
  | nil => exact .pure _
  | cons y ys ih => exact (Costs.multiply fun v => ih _).cast rfl rfl rfl

theorem costs_select (x : LC F) (xs : List (LC F)) :
    Costs (select x xs : Prog F G X Unit) (xs.length - 1) 0 (2 * (xs.length - 1) + 1) := by
  cases xs with
  | nil => exact .fail ..
  | cons y ys => exact ((costs_selectLoop x ys _).bind' fun p => .constrain (.pure ())).cast rfl rfl rfl

theorem costs_rangeLoop (q : Option Nat) (k i : Nat) (e : F) (v : LC F) :
    Costs (rangeLoop q k i e v : Prog F G X (LC F)) k 0 (2 * k) := by
  induction k generalizing i e v with
  | zero => exact .pure _
  | succ k ih =>
    exact ((costs_orPanic _ _).bind' fun b => .allocateMultiplier fun v => .constrain (.constrain (ih _ _ _))).cast
      (by omega) rfl (by omega)

theorem costs_rangeProof (v : LC F) (q : Option Nat) (n : Nat) :
    Costs (rangeProof v q n : Prog F G X Unit) n 0 (2 * n + 1) :=
  ((costs_rangeLoop q n 0 1 v).bind' fun _ => .constrain (.pure ())).cast rfl rfl rfl

theorem costs_bit (b : Option Bool) : Costs (bit b : Prog F G X Variable) 1 0 2 :=
  .allocateMultiplier fun _ => .constrain (.constrain (.pure _))

theorem costs_isBit (v : LC F) : Costs (isBit v : Prog F G X Unit) 1 0 3 :=
  .multiply fun _ => .constrain (.pure _)

theorem costs_singleMembership (u : Row F) (sa s0 s1 s2 : LC F) :
    Costs (singleMembership u sa s0 s1 s2 : Prog F G X (LC F)) 1 0 2 :=
  .multiply fun _ => .pure _

theorem costs_lookup (tx ty : Row F) (i : Option Nat) : Costs (lookup tx ty i : Prog F G X (LC F × LC F)) 6 0 12 :=
  (Costs.allocateMultiplier fun _ => (costs_bit _).bind fun _ => (costs_isBit _).bind fun _ => (costs_isBit _).bind fun _ =>
    (costs_singleMembership ..).bind fun _ => (costs_singleMembership ..).bind fun _ => .pure _)

theorem costs_curveCheck (x y : LC F) (a b : F) : Costs (curveCheck x y a b : Prog F G X Unit) 3 0 7 :=
  .multiply fun _ => .multiply fun _ => .multiply fun _ => .constrain (.pure _)

theorem costs_incomplete (p : CurveAddition F) : Costs (incompleteCurveAddition p : Prog F G X Unit) 3 1 9 :=
  .allocate fun _ => .multiply fun _ => .constrain (.multiply fun _ => .constrain (.multiply fun _ => .constrain (.pure _)))

theorem costs_checked (p : CurveAddition F) (i : Option F) : Costs (checkedCurveAddition p i : Prog F G X Unit) 4 2 12 :=
  .allocate fun _ => .multiply fun _ => .constrain (costs_incomplete p)

variable [DecidableEq F]

theorem costs_helperWitness (C : SWCurve F) (l r : Option C.Pt) :
    Costs (helperWitness C l r : Prog F G X _) 0 0 0 := by
  unfold helperWitness
  split
  · exact (costs_orPanic _ _).bind' fun _ => .pure _
  · exact .pure _

theorem costs_incompleteHelper (C : SWCurve F) (l r : PointRep C) :
    Costs (incompleteCurveAdditionHelper C l r : Prog F G X _) 3 3 9 :=
  ((costs_helperWitness C _ _).bind fun _ => (costs_orPanic _ _).bind fun _ =>
    .allocate fun _ => .allocate fun _ => (costs_incomplete _).bind fun _ => .pure _)

theorem costs_checkedHelper (C : SWCurve F) (l r : PointRep C) :
    Costs (checkedCurveAdditionHelper C l r : Prog F G X _) 4 4 12 :=
  ((costs_helperWitness C _ _).bind fun _ => (costs_orPanic _ _).bind fun _ =>
    .allocate fun _ => .allocate fun _ => (costs_checked _ _).bind fun _ => .pure _)

theorem costs_rerandStepMatch (C : SWCurve F) (lambda m i : Nat) (t : Table F) (acc : C.Pt) (r : Option Nat) :
    Costs (rerandStepMatch C lambda m i t acc r : Prog F G X _) 0 0 0 := by
  cases r with
  | none => exact .pure _
  | some r => exact (costs_orPanic _ _).bind' fun _ => .pure _

theorem costs_stepFirst (C : SWCurve F) (fx : Bool) (lambda m : Nat) (r : Option Nat) (t : Table F) (st : C.Pt × LC F × LC F) :
    Costs (rerandStep C fx lambda m r 1 t st : Prog F G X _) 6 2 (12 + if fx then 2 else 0) := by
  have h : ∀ (p : CurveAddition F) inv, Costs (rerandStepAdd fx m 1 p inv : Prog F G X Unit) 0 0 (if fx then 2 else 0) := by
    intro p inv
    unfold rerandStepAdd
    cases fx
    · exact .pure _
    · exact .constrain (.constrain (.pure _))
  refine Costs.cast (m := _) (a := _) (c := _) ((costs_rerandStepMatch ..).bind fun _ => Costs.bind ((costs_lookup ..).bind fun _ => .allocate fun _ =>
    .allocate fun _ => (h _ _).bind fun _ => .pure _) fun _ => .pure _) rfl rfl ?_
  omega

theorem costs_stepMiddle (C : SWCurve F) (fx : Bool) (lambda m : Nat) (r : Option Nat) {i : Nat} (hi : 1 < i) (hm : i ≠ m) (t : Table F)
    (st : C.Pt × LC F × LC F) :
    Costs (rerandStep C fx lambda m r i t st : Prog F G X _) 9 3 21 := by
  have h : ∀ (p : CurveAddition F) inv, Costs (rerandStepAdd fx m i p inv : Prog F G X Unit) 3 1 9 := by
    intro p inv
    unfold rerandStepAdd
    rw [if_pos hi, if_neg hm]
    exact costs_incomplete _
  exact ((costs_rerandStepMatch ..).bind fun _ => Costs.bind ((costs_lookup ..).bind fun _ => .allocate fun _ =>
    .allocate fun _ => (h _ _).bind fun _ => .pure _) fun _ => .pure _)

theorem costs_stepLast (C : SWCurve F) (fx : Bool) (lambda m : Nat) (r : Option Nat) (hm : 1 < m) (t : Table F)
    (st : C.Pt × LC F × LC F) :
    Costs (rerandStep C fx lambda m r m t st : Prog F G X _) 10 4 24 := by
  have h : ∀ (p : CurveAddition F) inv, Costs (rerandStepAdd fx m m p inv : Prog F G X Unit) 4 2 12 := by
    intro p inv
    unfold rerandStepAdd
    rw [if_pos hm, if_pos rfl]
    exact costs_checked _ _
  exact ((costs_rerandStepMatch ..).bind fun _ => Costs.bind ((costs_lookup ..).bind fun _ => .allocate fun _ =>
    .allocate fun _ => (h _ _).bind fun _ => .pure _) fun _ => .pure _)

/-- From window `i > 1` on, with the tables of the remaining windows. -/
theorem costs_loop (C : SWCurve F) (fx : Bool) (lambda m : Nat) (r : Option Nat) (k : Nat) :
    ∀ (i : Nat) (ts : List (Table F)) (st : C.Pt × LC F × LC F), 1 < i → ts.length = k + 1 → i + k = m →
    Costs (rerandLoop C fx lambda m r i ts st : Prog F G X _) (9 * k + 10) (3 * k + 4) (21 * k + 24) := by
  induction k with
  | zero =>
    intro i ts st hi hl hm
    obtain ⟨t, rfl⟩ := List.length_eq_one_iff.1 hl
    obtain rfl : i = m := by omega
    exact ((costs_stepLast C fx lambda i r hi t st).bind fun _ => .pure _)
  | succ k ih =>
    intro i ts st hi hl hm
    cases ts with
    | nil => simp at hl
    | cons t ts =>
      exact ((costs_stepMiddle C fx lambda m r hi (by omega) t st).bind fun st' =>
        ih (i + 1) ts st' (by omega) (by simpa using hl) (by omega)).cast (by omega) (by omega) (by omega)

theorem costs_reRandomize (C : SWCurve F) (fx : Bool) (lambda : Nat) (h3 : 3 ≤ lambda) (tables : List (Table F)) (c : PointRep C) (xT yT : LC F)
    (r : Option Nat) :
    Costs (reRandomize C fx lambda tables c xT yT r : Prog F G X Unit) (9 * (lambda / 3) + 11) (3 * (lambda / 3) + 5)
      (21 * (lambda / 3) + 27 + if fx then 2 else 0) := by
  unfold reRandomize
  split
  · exact .fail ..
  rename_i hl
  have hw : windows lambda = lambda / 3 - 1 + 2 := by unfold windows; omega
  have hlen : (tables.take (windows lambda)).length = lambda / 3 - 1 + 2 := by rw [List.length_take]; omega
  have h2 : ∀ acc w, Costs (rerandFinalMatch C acc w : Prog F G X _) 0 0 0 := by
    intro acc w
    cases w with
    | none => exact .pure _
    | some w => exact (costs_orPanic _ _).bind' fun _ => .pure _
  have h1 : ∀ st, Costs (rerandLoop C fx lambda (windows lambda) r 1 (tables.take (windows lambda)) st : Prog F G X _)
      (6 + (9 * (lambda / 3 - 1) + 10)) (2 + (3 * (lambda / 3 - 1) + 4)) ((12 + if fx then 2 else 0) + (21 * (lambda / 3 - 1) + 24)) := by
    intro st
    cases ht : tables.take (windows lambda) with
    | nil => rw [ht] at hlen; simp at hlen
    | cons t ts =>
      rw [ht] at hlen
      exact ((costs_stepFirst C fx lambda _ r t st).bind fun st' =>
        costs_loop C fx lambda _ r (lambda / 3 - 1) 2 ts st' (by omega) (by simpa using hlen) (by omega))
  exact ((h1 _).bind fun _ => (h2 _ _).bind fun _ => costs_checked _ _).cast (by omega) (by omega) (by omega)

theorem costs_singleLevel (C : SWCurve F) (fx : Bool) (prm : LayerParams C) (h3 : 3 ≤ prm.lambda) (rc : C.Pt) (children : List (LC F))
    (w : Option C.Pt) (r : Option Nat) :
    Costs (singleLevel C fx prm rc children w r : Prog F G C.Pt Unit)
      (children.length - 1 + 9 * (prm.lambda / 3) + 14) (3 * (prm.lambda / 3) + 7)
      (2 * (children.length - 1) + 21 * (prm.lambda / 3) + 35 + if fx then 2 else 0) :=
  (Costs.append (.allocate fun _ => (costs_select _ _).bind fun _ => .allocate fun _ => (costs_curveCheck ..).bind fun _ =>
    costs_reRandomize C fx prm.lambda h3 prm.tables _ _ _ r)).cast (by omega) (by omega) (by omega)

theorem costs_nextWitness {β : Type} (w : Option (List β)) : Costs (nextWitness w : Prog F G X _) 0 0 0 := by
  unfold nextWitness
  split
  · exact .pure _
  · exact .fail ..
  · exact .pure _

theorem costs_batchedLoop (C : SWCurve F) (n : Nat) (chunks : List (List (LC F))) (hn : ∀ ch ∈ chunks, ch.length = n) :
    ∀ (first : Bool) w (sum : PointRep C), (first = true → chunks ≠ []) →
    Costs (batchedLoop C first chunks w sum : Prog F G X _) ((n - 1 + 7) * chunks.length - if first then 4 else 0)
      (6 * chunks.length - if first then 4 else 0) ((2 * (n - 1) + 20) * chunks.length - if first then 12 else 0) := by
  induction chunks with
  | nil =>
    intro first w sum hf
    cases first with
    | true => exact absurd rfl (hf rfl)
    | false => exact .pure _
  | cons ch chunks ih =>
    intro first w sum _
    have ih' := ih (fun x hx => hn x (List.mem_cons_of_mem _ hx)) false
    have hs : ∀ a b : PointRep C, Costs (batchedSum C first a b : Prog F G X _) (if first then 0 else 4) (if first then 0 else 4)
        (if first then 0 else 12) := by
      intro a b
      unfold batchedSum
      cases first
      · exact costs_checkedHelper C a b
      · exact .pure _
    have key := (costs_nextWitness (F := F) (G := G) (X := X) w).bind' fun wr => Costs.allocate (x := wr.1.map C.xField) fun x => Costs.allocate (x := wr.1.map C.yField) fun y =>
      (costs_select (LC.ofVar x) ch).bind fun _ => (costs_curveCheck (LC.ofVar x) (LC.ofVar y) C.a C.b).bind fun _ =>
        (hs sum ⟨LC.ofVar x, LC.ofVar y, wr.1⟩).bind fun s' => ih' wr.2 s' (by simp)
    refine Costs.cast (p := batchedLoop C first (ch :: chunks) w sum) key ?_ ?_ ?_
    · rw [hn ch (by simp), List.length_cons, Nat.mul_succ]
      cases first <;> simp <;> omega
    · rw [List.length_cons]
      cases first <;> simp <;> omega
    · rw [hn ch (by simp), List.length_cons, Nat.mul_succ]
      cases first <;> simp <;> omega

theorem costs_singleLevelBatched (C : SWCurve F) (fx : Bool) (M n : Nat) (hM : M ≠ 0) (hn : n ≠ 0) (prm : LayerParams C) (h3 : 3 ≤ prm.lambda) (rc : C.Pt)
    (children : List (LC F)) (hl : children.length = M * n) (w : Option (List C.Pt)) (r : Option Nat) :
    Costs (singleLevelBatched C fx M prm rc children w r : Prog F G X Unit)
      ((n - 1 + 7) * M + 9 * (prm.lambda / 3) + 7) (6 * M + 3 * (prm.lambda / 3) + 1)
      ((2 * (n - 1) + 20) * M + 21 * (prm.lambda / 3) + 15 + if fx then 2 else 0) := by
  have hd : children.length / M = n := by rw [hl]; exact Nat.mul_div_cancel_left n (Nat.pos_of_ne_zero hM)
  have hc : (chunksExact n children).length = M := by
    simp only [chunksExact, List.length_map, List.length_range, hl]
    exact Nat.mul_div_cancel M (Nat.pos_of_ne_zero hn)
  have hch : ∀ ch ∈ chunksExact n children, ch.length = n := by
    intro ch h
    simp only [chunksExact, List.mem_map, List.mem_range, hl] at h
    obtain ⟨i, hi, rfl⟩ := h
    rw [Nat.mul_div_cancel M (Nat.pos_of_ne_zero hn)] at hi
    rw [List.length_take, List.length_drop, hl]
    have : (i + 1) * n ≤ M * n := Nat.mul_le_mul_right n hi
    rw [Nat.succ_mul] at this
    omega
  unfold singleLevelBatched
  rw [hd]
  split
  · exact .fail ..
  have h1 := costs_batchedLoop (G := G) (X := X) C n (chunksExact n children) hch true w ⟨LC.ofVar .one, LC.ofVar .one, w.map fun _ => 0⟩
    (fun _ h => hM (by rw [← hc, h]; rfl))
  rw [hc] at h1
  have h5 : n - 1 + 7 ≤ (n - 1 + 7) * M := Nat.le_mul_of_pos_right _ (Nat.pos_of_ne_zero hM)
  have h6 : 2 * (n - 1) + 20 ≤ (2 * (n - 1) + 20) * M := Nat.le_mul_of_pos_right _ (Nat.pos_of_ne_zero hM)
  exact (h1.bind fun _ => costs_reRandomize C fx prm.lambda h3 prm.tables _ _ _ r).cast
    (by simp only [if_true]; omega) (by simp only [if_true]; omega) (by simp only [if_true]; omega)

end CT
