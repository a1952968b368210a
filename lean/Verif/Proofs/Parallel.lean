import Mathlib.Logic.Relation
import Mathlib.Order.WellFounded
import Mathlib.Data.Set.Disjoint
import Verif.Model.Parallel

/-!
# Executions of programs with fork and join

When tasks that run at the same time use different cells, every execution gives what the sequential program gives.
-/

namespace CT.Proc
variable {ι : Type} {σ : ι → Type} {α β γ : Type} [DecidableEq ι]

/-- Two memories have the same content in the cells of `I`. -/
def Agree (I : Set ι) (m m' : ∀ i, σ i) : Prop := ∀ i ∈ I, m i = m' i

omit [DecidableEq ι] in
theorem Uses.mono {I J : Set ι} (h : I ⊆ J) : ∀ {α : Type} (c : Proc σ α), c.Uses I → c.Uses J
  | _, .ret _, _ => trivial
  | _, .act _ _ _, hc => ⟨h hc.1, fun s => Uses.mono h _ (hc.2 s)⟩
  | _, .join a b _, hc => ⟨Uses.mono h a hc.1, Uses.mono h b hc.2.1, fun xy => Uses.mono h _ (hc.2.2 xy)⟩

/-- What a program does depends on its own cells only, and it leaves the others alone. -/
theorem run_frame {I : Set ι} : ∀ {α : Type} (c : Proc σ α), c.Uses I → ∀ m m', Agree I m m' →
    (c.run m).1 = (c.run m').1 ∧ Agree I (c.run m).2 (c.run m').2 ∧ ∀ i, i ∉ I → (c.run m).2 i = m i
  | _, .ret _, _, m, m', h => ⟨rfl, h, fun _ _ => rfl⟩
  | _, .act i f k, hc, m, m', h => by
    have hi := h i hc.1
    simp only [run, hi]
    have h1 := run_frame (k (m' i)) (hc.2 _) (Function.update m i (f (m' i))) (Function.update m' i (f (m' i))) (by
      intro j hj
      by_cases hji : j = i
      · subst hji; simp
      · simp [hji, h j hj])
    refine ⟨h1.1, h1.2.1, fun j hj => ?_⟩
    have hji : j ≠ i := fun e => hj (by rw [e]; exact hc.1)
    rw [h1.2.2 j hj, Function.update_of_ne hji]
  | _, .join a b k, hc, m, m', h => by
    have ha := run_frame a hc.1 m m' h
    rcases hra : a.run m with ⟨ra, ma⟩
    rcases hra' : a.run m' with ⟨ra', ma'⟩
    rw [hra, hra'] at ha
    obtain ⟨h1, h2, h3⟩ := ha
    simp only at h1 h2 h3
    subst h1
    cases ra with
    | error e => simp only [run, hra, hra']; exact ⟨trivial, h2, h3⟩
    | ok x =>
      have hb := run_frame b hc.2.1 ma ma' h2
      rcases hrb : b.run ma with ⟨rb, mb⟩
      rcases hrb' : b.run ma' with ⟨rb', mb'⟩
      rw [hrb, hrb'] at hb
      obtain ⟨g1, g2, g3⟩ := hb
      simp only at g1 g2 g3
      subst g1
      cases rb with
      | error e =>
        simp only [run, hra, hra', hrb, hrb']
        exact ⟨trivial, g2, fun i hi => (g3 i hi).trans (h3 i hi)⟩
      | ok y =>
        have hk := run_frame (k (x, y)) (hc.2.2 _) mb mb' g2
        simp only [run, hra, hra', hrb, hrb']
        exact ⟨hk.1, hk.2.1, fun i hi => (hk.2.2 i hi).trans ((g3 i hi).trans (h3 i hi))⟩

/-- A step can be made in any memory with the same content in the program's own cells. -/
theorem step_frame {I : Set ι} {x y : Proc σ α × (∀ i, σ i)} (h : Step x y) : x.1.Uses I → ∀ m', Agree I x.2 m' →
    ∃ n', Step (x.1, m') (y.1, n') ∧ Agree I y.2 n' ∧ (∀ i, i ∉ I → n' i = m' i) ∧ (∀ i, i ∉ I → y.2 i = x.2 i) := by
  induction h with
  | act i f k m =>
    intro hc m' h
    replace h : Agree I m m' := h
    have hne : ∀ j, j ∉ I → j ≠ i := fun j hj e => hj (by rw [e]; exact hc.1)
    refine ⟨Function.update m' i (f (m' i)), ?_, ?_, ?_, ?_⟩
    · have := Step.act i f k m'
      rwa [← h i hc.1] at this ⊢
    · intro j hj
      by_cases hji : j = i
      · subst hji; simp [h j hj]
      · simp [hji, h j hj]
    · intro j hj; rw [Function.update_of_ne (hne j hj)]
    · intro j hj
      show Function.update m i _ j = m j
      rw [Function.update_of_ne (hne j hj)]
  | left b k _ ih =>
    intro hc m' h
    obtain ⟨n', h1, h2, h3, h4⟩ := ih hc.1 m' h
    exact ⟨n', .left b k h1, h2, h3, h4⟩
  | right a k _ ih =>
    intro hc m' h
    obtain ⟨n', h1, h2, h3, h4⟩ := ih hc.2.1 m' h
    exact ⟨n', .right a k h1, h2, h3, h4⟩
  | joined ra rb k m =>
    intro _ m' h
    exact ⟨m', .joined ra rb k m', h, fun _ _ => rfl, fun _ _ => rfl⟩

theorem uses_step {I : Set ι} {x y : Proc σ α × (∀ i, σ i)} (h : Step x y) : x.1.Uses I → y.1.Uses I := by
  induction h with
  | act i f k m => exact fun hc => hc.2 _
  | left b k _ ih => exact fun hc => ⟨ih hc.1, hc.2⟩
  | right a k _ ih => exact fun hc => ⟨hc.1, ih hc.2.1, hc.2.2⟩
  | joined ra rb k m =>
    intro hc
    cases ra <;> cases rb <;> simp [joined, Uses]
    exact hc.2.2 _

theorem separated_step {x y : Proc σ α × (∀ i, σ i)} (h : Step x y) : x.1.Separated → y.1.Separated := by
  induction h with
  | act i f k m => exact fun hc => hc _
  | left b k h ih =>
    rintro ⟨h1, h2, ⟨I, J, h3, h4, h5⟩, h6⟩
    exact ⟨ih h1, h2, ⟨I, J, h3, uses_step h h4, h5⟩, h6⟩
  | right a k h ih =>
    rintro ⟨h1, h2, ⟨I, J, h3, h4, h5⟩, h6⟩
    exact ⟨h1, ih h2, ⟨I, J, h3, h4, uses_step h h5⟩, h6⟩
  | joined ra rb k m =>
    intro hc
    cases ra <;> cases rb <;> simp [joined, Separated]
    exact hc.2.2.2 _

/-- The same result, and the same memory unless the result is a panic. -/
def Same (x y : Except Err α × (∀ i, σ i)) : Prop := x.1 = y.1 ∧ ∀ a, x.1 = .ok a → x.2 = y.2

/-- A step does not change what the rest of the sequential program gives. -/
theorem run_step : ∀ {α : Type} (c : Proc σ α) (m : ∀ i, σ i) (y : Proc σ α × (∀ i, σ i)), Step (c, m) y → c.Separated →
    Same (c.run m) (y.1.run y.2)
  | _, .ret _, _, _, h, _ => nomatch h
  | _, .act _ _ _, _, _, .act _ _ _ _, _ => ⟨rfl, fun _ _ => rfl⟩
  | _, .join a b k, m, _, .left (a' := a') (m' := m') _ _ h, hc => by
    obtain ⟨h1, h2⟩ := run_step a m _ h hc.1
    simp only at h1 h2
    rcases hr : a.run m with ⟨r, n⟩
    rcases hr' : a'.run m' with ⟨r', n'⟩
    rw [hr, hr'] at h1 h2
    simp only at h1 h2
    subst h1
    simp only [run, hr, hr']
    cases r with
    | error e => exact ⟨rfl, fun _ h => by cases h⟩
    | ok x => rw [h2 x rfl]; exact ⟨rfl, fun _ _ => rfl⟩
  | _, .join a b k, m, _, .right (b' := b') (m' := m') _ _ h, hc => by
    obtain ⟨_, hb, ⟨I, J, hIJ, hI, hJ⟩, _⟩ := hc
    obtain ⟨_, _, _, _, h4⟩ := step_frame h hJ m (fun _ _ => rfl)
    simp only at h4
    obtain ⟨e1, e2, e3⟩ := run_frame a hI m m' fun i hi => (h4 i (Set.disjoint_left.1 hIJ hi)).symm
    have e4 := (run_frame a hI m' m' (fun _ _ => rfl)).2.2
    rcases hr : a.run m with ⟨r, n⟩
    rcases hr' : a.run m' with ⟨r', n'⟩
    rw [hr, hr'] at e1 e2
    rw [hr] at e3
    rw [hr'] at e4
    simp only at e1 e2 e3 e4
    subst e1
    simp only [run, hr, hr']
    cases r with
    | error e => exact ⟨rfl, fun _ h => by cases h⟩
    | ok x =>
      obtain ⟨n'', g1, g2, g3, _⟩ := step_frame h hJ n (fun i hi => (e3 i (Set.disjoint_right.1 hIJ hi)).symm)
      simp only at g1 g2 g3
      have hn : n'' = n' := by
        funext i
        by_cases hi : i ∈ J
        · rw [← g2 i hi, e4 i (Set.disjoint_right.1 hIJ hi)]
        · rw [g3 i hi]
          by_cases hi' : i ∈ I
          · exact e2 i hi'
          · rw [e3 i hi', e4 i hi']
            exact (h4 i hi).symm
      subst hn
      obtain ⟨f1, f2⟩ := run_step b n _ g1 hb
      simp only at f1 f2
      rcases hq : b.run n with ⟨q, l⟩
      rcases hq' : b'.run n'' with ⟨q', l'⟩
      rw [hq, hq'] at f1 f2
      simp only at f1 f2
      subst f1
      simp only [hq, hq']
      cases q with
      | error e => exact ⟨rfl, fun _ h => by cases h⟩
      | ok y => rw [f2 y rfl]; exact ⟨rfl, fun _ _ => rfl⟩
  | _, .join _ _ _, _, _, .joined ra rb k m, _ => by
    cases ra with
    | error e => exact ⟨rfl, fun _ _ => rfl⟩
    | ok x =>
      cases rb with
      | error e => exact ⟨rfl, fun _ _ => rfl⟩
      | ok y => exact ⟨rfl, fun _ _ => rfl⟩

/-- Any number of steps. -/
theorem run_steps {x y : Proc σ α × (∀ i, σ i)} (h : Relation.ReflTransGen Step x y) (hc : x.1.Separated) :
    y.1.Separated ∧ Same (x.1.run x.2) (y.1.run y.2) := by
  induction h with
  | refl => exact ⟨hc, rfl, fun _ _ => rfl⟩
  | tail _ h ih =>
    obtain ⟨h1, h2, h3⟩ := ih
    obtain ⟨h4, h5⟩ := run_step _ _ _ h h1
    exact ⟨separated_step h h1, h2.trans h4, fun a ha => (h3 a ha).trans (h5 a (h2 ▸ ha))⟩

/-- A program that is not finished can make a step. -/
theorem progress : ∀ {α : Type} (c : Proc σ α) (m : ∀ i, σ i), (∃ r, c = .ret r) ∨ ∃ y, Step (c, m) y
  | _, .ret r, _ => .inl ⟨r, rfl⟩
  | _, .act i f k, m => .inr ⟨_, .act i f k m⟩
  | _, .join a b k, m => by
    right
    rcases progress a m with ⟨ra, rfl⟩ | ⟨y, h⟩
    · rcases progress b m with ⟨rb, rfl⟩ | ⟨y, h⟩
      · exact ⟨_, .joined ra rb k m⟩
      · exact ⟨(.join _ y.1 k, y.2), .right _ k h⟩
    · exact ⟨(.join y.1 b k, y.2), .left b k h⟩

/-- The steps of a program, whatever the memory. -/
def Res (c' c : Proc σ α) : Prop := ∃ m m', Step (c, m) (c', m')

theorem acc_ret (r : Except Err α) : Acc Res (Proc.ret (σ := σ) r) := ⟨_, fun _ ⟨_, _, h⟩ => nomatch h⟩

theorem acc_join (a : Proc σ β) (b : Proc σ γ) (k : β × γ → Proc σ α) (ha : Acc Res a) (hb : Acc Res b)
    (hk : ∀ xy, Acc Res (k xy)) : Acc Res (Proc.join a b k) := by
  induction ha generalizing b with
  | intro a _ iha =>
    induction hb with
    | intro b hb ihb =>
      refine ⟨_, fun c' ⟨m, m', h⟩ => ?_⟩
      cases h with
      | left _ _ h => exact iha _ ⟨_, _, h⟩ b ⟨_, hb⟩
      | right _ _ h => exact ihb _ ⟨_, _, h⟩
      | joined ra rb =>
        cases ra <;> cases rb <;> simp only [joined]
        · exact acc_ret _
        · exact acc_ret _
        · exact acc_ret _
        · exact hk _

theorem acc_res : ∀ {α : Type} (c : Proc σ α), Acc Res c
  | _, .ret r => acc_ret r
  | _, .act i f k => ⟨_, fun c' ⟨m, m', h⟩ => by cases h; exact acc_res _⟩
  | _, .join a b k => acc_join a b k (acc_res a) (acc_res b) fun xy => acc_res _

/-- Every execution is finite. -/
theorem terminates (x : ℕ → Proc σ α × (∀ i, σ i)) : ¬ ∀ n, Step (x n) (x (n + 1)) := by
  intro h
  have : ∀ c : Proc σ α, Acc Res c → ∀ n, (x n).1 ≠ c := by
    intro c hc
    induction hc with
    | intro c _ ih =>
      intro n hn
      exact ih (x (n + 1)).1 ⟨(x n).2, (x (n + 1)).2, by rw [← hn]; exact h n⟩ (n + 1) rfl
  exact this _ (acc_res (x 0).1) 0 rfl

/-- Some execution reaches an end. -/
theorem finishes (c : Proc σ α) (m : ∀ i, σ i) : ∃ r m', Relation.ReflTransGen Step (c, m) (.ret r, m') := by
  have hc := acc_res c
  induction hc generalizing m with
  | intro c _ ih =>
    rcases progress c m with ⟨r, rfl⟩ | ⟨y, h⟩
    · exact ⟨r, m, .refl⟩
    · obtain ⟨r, m', h'⟩ := ih y.1 ⟨_, _, h⟩ y.2
      exact ⟨r, m', .head h h'⟩

/-! ## Sequencing -/

theorem run_bind : ∀ {α : Type} (c : Proc σ α) (f : α → Proc σ β) (m : ∀ i, σ i),
    (c.bind f).run m = match c.run m with
      | (.ok a, m') => (f a).run m'
      | (.error e, m') => (.error e, m')
  | _, .ret (.ok _), _, _ => rfl
  | _, .ret (.error _), _, _ => rfl
  | _, .act i g k, f, m => by simp only [bind, run]; exact run_bind (k (m i)) f _
  | _, .join a b k, f, m => by
    simp only [bind, run]
    rcases a.run m with ⟨ra, ma⟩
    cases ra with
    | error e => rfl
    | ok x =>
      simp only
      rcases b.run ma with ⟨rb, mb⟩
      cases rb with
      | error e => rfl
      | ok y => exact run_bind (k (x, y)) f mb

omit [DecidableEq ι] in
theorem Uses.bind {I : Set ι} : ∀ {α : Type} (c : Proc σ α) (f : α → Proc σ β), c.Uses I → (∀ a, (f a).Uses I) → (c.bind f).Uses I
  | _, .ret (.ok a), _, _, hf => hf a
  | _, .ret (.error _), _, _, _ => trivial
  | _, .act _ _ _, f, hc, hf => ⟨hc.1, fun s => Uses.bind _ f (hc.2 s) hf⟩
  | _, .join _ _ _, f, hc, hf => ⟨hc.1, hc.2.1, fun xy => Uses.bind _ f (hc.2.2 xy) hf⟩

omit [DecidableEq ι] in
theorem Separated.bind : ∀ {α : Type} (c : Proc σ α) (f : α → Proc σ β), c.Separated → (∀ a, (f a).Separated) →
    (c.bind f).Separated
  | _, .ret (.ok a), _, _, hf => hf a
  | _, .ret (.error _), _, _, _ => trivial
  | _, .act _ _ _, f, hc, hf => fun s => Separated.bind _ f (hc s) hf
  | _, .join _ _ _, f, hc, hf => ⟨hc.1, hc.2.1, hc.2.2.1, fun xy => Separated.bind _ f (hc.2.2.2 xy) hf⟩

omit [DecidableEq ι] in
theorem uses_call (i : ι) (g : σ i → Except Err (α × σ i)) : (call i g).Uses {i} := ⟨rfl, fun _ => trivial⟩

omit [DecidableEq ι] in
theorem separated_call (i : ι) (g : σ i → Except Err (α × σ i)) : (call i g).Separated := fun _ => trivial

/-- The sequential program does to cell `i` what `g` does, and nothing else. -/
def Does (c : Proc σ α) (i : ι) (g : σ i → Except Err (α × σ i)) : Prop :=
  ∀ m, match g (m i) with
    | .ok (a, s) => c.run m = (.ok a, Function.update m i s)
    | .error e => (c.run m).1 = .error e

theorem does_call (i : ι) (g : σ i → Except Err (α × σ i)) : Does (call i g) i g := by
  intro m
  simp only [call, run]
  rcases g (m i) with e | ⟨a, s⟩ <;> rfl

theorem does_ret (i : ι) (r : Except Err α) : Does (.ret (σ := σ) r) i fun s => r.map fun a => (a, s) := by
  intro m
  cases r <;> simp [run, Except.map]

theorem Does.bind {c : Proc σ α} {f : α → Proc σ β} {i : ι} {g : σ i → Except Err (α × σ i)}
    {h : α → σ i → Except Err (β × σ i)} (hc : Does c i g) (hf : ∀ a, Does (f a) i (h a)) :
    Does (c.bind f) i fun s => match g s with
      | .error e => .error e
      | .ok (a, s) => h a s := by
  intro m
  have h1 := hc m
  rw [run_bind]
  rcases hg : g (m i) with e | ⟨a, s⟩
  · rw [hg] at h1
    simp only at h1
    rcases hr : c.run m with ⟨r, m'⟩
    rw [hr] at h1
    simp only at h1
    subst h1
    simp only [hg]
  · rw [hg] at h1
    simp only at h1
    have h2 := hf a (Function.update m i s)
    simp only [Function.update_self] at h2
    simp only [h1, hg]
    rcases hh : h a s with e | ⟨b, s'⟩
    · rw [hh] at h2
      exact h2
    · rw [hh] at h2
      simpa using h2

theorem Does.congr {c : Proc σ α} {i : ι} {g g' : σ i → Except Err (α × σ i)} (hc : Does c i g) (h : ∀ s, g s = g' s) : Does c i g' := by
  have : g = g' := funext h
  exact this ▸ hc

end CT.Proc
