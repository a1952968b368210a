import Verif.Spec.Satisfaction
import Mathlib.Tactic.Ring
import Mathlib.Tactic.LinearCombination

/-! Helper lemmas about evaluation and about running gadget programs. -/

namespace CT
open Assignment

variable {F G X α β γ : Type}

section Eval
variable [Field F] (w : Assignment F)

@[simp] theorem val_one : w.val .one = 1 := rfl

@[simp] theorem eval_mk_append (a b : List (Variable × F)) :
    w.eval ⟨a ++ b⟩ = w.eval ⟨a⟩ + w.eval ⟨b⟩ := by simp [Assignment.eval]

@[simp] theorem eval_nil : w.eval ⟨[]⟩ = 0 := by simp [Assignment.eval]

@[simp] theorem eval_mk_cons (t : Variable × F) (a : List (Variable × F)) :
    w.eval ⟨t :: a⟩ = t.2 * w.val t.1 + w.eval ⟨a⟩ := by simp [Assignment.eval]

@[simp] theorem eval_add (a b : LC F) : w.eval (a + b) = w.eval a + w.eval b := by
  show w.eval ⟨a.terms ++ b.terms⟩ = _
  simp only [eval_mk_append]

theorem eval_map_neg (l : List (Variable × F)) :
    w.eval ⟨l.map fun t => (t.1, -t.2)⟩ = - w.eval ⟨l⟩ := by
  induction l with
  | nil => simp
  | cons t l ih => simp [ih]; ring

@[simp] theorem eval_neg (a : LC F) : w.eval (-a) = - w.eval a := eval_map_neg w a.terms

@[simp] theorem eval_sub (a b : LC F) : w.eval (a - b) = w.eval a - w.eval b := by
  show w.eval ⟨a.terms ++ b.terms.map fun t => (t.1, -t.2)⟩ = _
  rw [eval_mk_append, eval_map_neg, sub_eq_add_neg]

@[simp] theorem eval_smul (a : LC F) (s : F) : w.eval (a.smul s) = w.eval a * s := by
  obtain ⟨l⟩ := a
  induction l with
  | nil => simp [LC.smul]
  | cons t l ih =>
    simp only [LC.smul, List.map_cons, eval_mk_cons] at ih ⊢
    rw [ih]; ring

@[simp] theorem eval_ofVar (v : Variable) : w.eval (LC.ofVar v) = w.val v := by
  simp [LC.ofVar]

@[simp] theorem eval_const (c : F) : w.eval (LC.const c) = c := by
  simp [LC.const, Assignment.val]

@[simp] theorem eval_empty : w.eval LC.empty = 0 := by simp [LC.empty]

end Eval

section Monad

@[simp] theorem Prog.pure_bind' (a : α) (f : α → Prog F G X β) :
    (Prog.pure a : Prog F G X α).bind f = f a := rfl

theorem Prog.bind_pure' (p : Prog F G X α) : p.bind .pure = p := by
  induction p with
  | pure a => rfl
  | fail e => rfl
  | multiply l r k ih => simp [Prog.bind, ih]
  | allocate a k ih => simp [Prog.bind, ih]
  | allocateMultiplier a k ih => simp [Prog.bind, ih]
  | constrain lc k ih => simp [Prog.bind, ih]
  | append m k ih => simp [Prog.bind, ih]
  | challenge l k ih => simp [Prog.bind, ih]

theorem Prog.bind_assoc' (p : Prog F G X α) (f : α → Prog F G X β) (g : β → Prog F G X γ) :
    (p.bind f).bind g = p.bind fun a => (f a).bind g := by
  induction p with
  | pure a => rfl
  | fail e => rfl
  | multiply l r k ih => simp [Prog.bind, ih]
  | allocate a k ih => simp [Prog.bind, ih]
  | allocateMultiplier a k ih => simp [Prog.bind, ih]
  | constrain lc k ih => simp [Prog.bind, ih]
  | append m k ih => simp [Prog.bind, ih]
  | challenge l k ih => simp [Prog.bind, ih]

instance : LawfulMonad (Prog F G X) := LawfulMonad.mk'
  (id_map := fun x => Prog.bind_pure' x)
  (pure_bind := fun _ _ => rfl)
  (bind_assoc := fun x f g => Prog.bind_assoc' x f g)

end Monad

section RunV
variable [Field F] (o : Oracle F G X)

/-- Running a sequence: run the first part, then the rest. -/
theorem runV_bind' (p : Prog F G X α) (f : α → Prog F G X β) (s : VState F G X) :
    runV o (p.bind f) s = match runV o p s with
      | .ok (a, s') => runV o (f a) s'
      | .error e => .error e := by
  induction p generalizing s with
  | pure a => rfl
  | fail e => rfl
  | multiply l r k ih => simp only [Prog.bind, runV]; exact ih _ _
  | allocate a k ih => simp only [Prog.bind, runV]; exact ih _ _
  | allocateMultiplier a k ih => simp only [Prog.bind, runV]; exact ih _ _
  | constrain lc k ih => simp only [Prog.bind, runV]; exact ih _
  | append m k ih => simp only [Prog.bind, runV]; exact ih _
  | challenge l k ih => simp only [Prog.bind, runV]; exact ih _ _

theorem runV_bind (p : Prog F G X α) (f : α → Prog F G X β) (s : VState F G X) :
    runV o (p >>= f) s = match runV o p s with
      | .ok (a, s') => runV o (f a) s'
      | .error e => .error e := runV_bind' o p f s

theorem runV_bind_ok {p : Prog F G X α} {f : α → Prog F G X β} {s s' : VState F G X} {b : β} :
    runV o (p >>= f) s = .ok (b, s') ↔
      ∃ a s1, runV o p s = .ok (a, s1) ∧ runV o (f a) s1 = .ok (b, s') := by
  rw [runV_bind]
  cases h : runV o p s with
  | error e => simp
  | ok r => obtain ⟨a, s1⟩ := r; simp

/-- Constraints and gates are only ever added. -/
theorem runV_mono {p : Prog F G X α} {s s' : VState F G X} {a : α}
    (h : runV o p s = .ok (a, s')) :
    s.numVars ≤ s'.numVars ∧ ∃ cs, s'.constraints = s.constraints ++ cs := by
  induction p generalizing s with
  | pure a => simp only [runV, Except.ok.injEq, Prod.mk.injEq] at h; obtain ⟨_, rfl⟩ := h; exact ⟨le_refl _, [], by simp⟩
  | fail e => simp [runV] at h
  | multiply l r k ih =>
    obtain ⟨h1, cs, h2⟩ := ih _ h
    simp only [VState.multiply, VState.constrain] at h1 h2
    exact ⟨by omega, _, by rw [h2, List.append_assoc, List.append_assoc]⟩
  | allocate a k ih =>
    obtain ⟨h1, cs, h2⟩ := ih _ h
    cases hp : s.pending <;> simp only [VState.allocate, hp] at h1 h2 <;>
      exact ⟨by omega, cs, h2⟩
  | allocateMultiplier a k ih =>
    obtain ⟨h1, cs, h2⟩ := ih _ h
    simp only [VState.allocateMultiplier] at h1 h2
    exact ⟨by omega, cs, h2⟩
  | constrain lc k ih =>
    obtain ⟨h1, cs, h2⟩ := ih h
    simp only [VState.constrain] at h1 h2
    exact ⟨h1, _, by rw [h2, List.append_assoc]⟩
  | append m k ih => simp only [runV] at h; have := ih h; simpa using this
  | challenge l k ih => simp only [runV, challengeScalar] at h; have := ih _ h; simpa using this

theorem SatisfiedBy_of_run {p : Prog F G X α} {s s' : VState F G X} {a : α} {w : Assignment F}
    (h : runV o p s = .ok (a, s')) (hs : s'.SatisfiedBy w) : s.SatisfiedBy w := by
  obtain ⟨hn, cs, hc⟩ := runV_mono o h
  exact ⟨fun i hi => hs.1 i (by omega), fun c hcm => hs.2 c (by rw [hc]; simp [hcm])⟩

/-- What a satisfying assignment knows after `multiply`. -/
theorem multiply_sound {l r : LC F} {s s' : VState F G X} {v : Variable × Variable × Variable}
    {w : Assignment F} (h : runV o (multiply l r) s = .ok (v, s')) (hs : s'.SatisfiedBy w) :
    w.val v.1 = w.eval l ∧ w.val v.2.1 = w.eval r ∧ w.val v.2.2 = w.eval l * w.eval r := by
  simp only [multiply, runV, VState.multiply, VState.constrain, Except.ok.injEq, Prod.mk.injEq] at h
  obtain ⟨rfl, rfl⟩ := h
  obtain ⟨hg, hc⟩ := hs
  have h1 := hc ⟨l.terms ++ [(.multiplierLeft s.numVars, -1)]⟩ (by simp)
  have h2 := hc ⟨r.terms ++ [(.multiplierRight s.numVars, -1)]⟩ (by simp)
  simp only [eval_mk_append, eval_mk_cons, eval_nil] at h1 h2
  have h3 := hg s.numVars (by simp)
  have e1 : w.val (.multiplierLeft s.numVars) = w.eval l := by linear_combination -h1
  have e2 : w.val (.multiplierRight s.numVars) = w.eval r := by linear_combination -h2
  refine ⟨e1, e2, ?_⟩
  rw [← e1, ← e2]; exact h3.symm

theorem allocateMultiplier_sound {a : Option (F × F)} {s s' : VState F G X}
    {v : Variable × Variable × Variable}
    {w : Assignment F} (h : runV o (allocateMultiplier a) s = .ok (v, s')) (hs : s'.SatisfiedBy w) :
    w.val v.2.2 = w.val v.1 * w.val v.2.1 := by
  simp only [allocateMultiplier, runV, VState.allocateMultiplier, Except.ok.injEq, Prod.mk.injEq] at h
  obtain ⟨rfl, rfl⟩ := h
  exact (hs.1 s.numVars (by simp)).symm

theorem constrain_sound {lc : LC F} {s s' : VState F G X} {u : Unit}
    {w : Assignment F} (h : runV o (constrain lc) s = .ok (u, s')) (hs : s'.SatisfiedBy w) :
    w.eval lc = 0 := by
  simp only [constrain, runV, VState.constrain, Except.ok.injEq, Prod.mk.injEq] at h
  obtain ⟨-, rfl⟩ := h
  exact hs.2 lc (by simp)

theorem runV_pure {a b : α} {s s' : VState F G X} :
    runV o (pure a) s = .ok (b, s') ↔ a = b ∧ s = s' := by
  show (Except.ok (a, s) : Except Err _) = _ ↔ _
  simp

theorem runV_panic {b : α} {m : String} {s s' : VState F G X} :
    ¬ runV o (panic m) s = .ok (b, s') := by simp [panic, runV]

end RunV

end CT
