import Verif.Spec.Metrics
import Verif.Spec.Cost
import Verif.Proofs.Transcript
import Verif.Proofs.Concrete

/-!
# C62: what `metrics()` reports
-/

namespace CT
variable {F G X α : Type} [Field F]

theorem Calls.add_def (a b : Calls) : a + b = ⟨a.lin + b.lin, a.mul + b.mul, a.half + b.half⟩ := rfl
theorem Calls.zero_def : (0 : Calls) = ⟨0, 0, 0⟩ := rfl

theorem calls_grow (o : Oracle F G X) (p : Prog F G X α) : ∀ {s : PState F G X} {x : α} {s' : PState F G X}, runP o p s = .ok (x, s') →
    s'.aL.length = s.aL.length + (calls o p s).mul + ((calls o p s).half + 1 - spare s.pending) / 2 ∧
    s'.constraints.length = s.constraints.length + (calls o p s).lin ∧ s'.deferred = s.deferred ∧
    (spare s'.pending + (calls o p s).half + spare s.pending) % 2 = 0 := by
  induction p with
  | pure x =>
    intro s y s' h
    simp only [runP, Except.ok.injEq, Prod.mk.injEq] at h
    obtain ⟨-, rfl⟩ := h
    refine ⟨?_, rfl, rfl, ?_⟩ <;> (simp only [calls, Calls.zero_def, spare]; split <;> simp)
  | fail e => intro s y s' h; simp [runP] at h
  | multiply l r k ih =>
    intro s y s' h
    simp only [runP] at h
    split at h
    case h_2 => cases h
    rename_i v s1 hs
    obtain ⟨h1, h2, h3, h4⟩ := ih v h
    simp only [calls, hs, Calls.add_def]
    generalize calls o (k v) s1 = cc at *
    unfold PState.multiply at hs
    split at hs
    case h_2 => cases hs
    simp only [Except.ok.injEq, Prod.mk.injEq] at hs
    obtain ⟨-, rfl⟩ := hs
    simp only [PState.constrain, List.length_append, List.length_singleton] at h1 h2 h3 h4 ⊢
    exact ⟨by omega, by omega, h3, by omega⟩
  | allocate a k ih =>
    intro s y s' h
    simp only [runP] at h
    split at h
    case h_2 => cases h
    rename_i v s1 hs
    obtain ⟨h1, h2, h3, h4⟩ := ih v h
    simp only [calls, hs, Calls.add_def]
    generalize calls o (k v) s1 = cc at *
    unfold PState.allocate at hs
    split at hs
    · cases hs
    split at hs
    · rename_i hp
      simp only [Except.ok.injEq, Prod.mk.injEq] at hs
      obtain ⟨-, rfl⟩ := hs
      simp only [List.length_append, List.length_singleton, spare, Option.isSome_some, if_true] at h1 h2 h3 h4
      simp only [hp, spare, Option.isSome_none, Bool.false_eq_true, if_false]
      exact ⟨by omega, by omega, h3, by omega⟩
    · rename_i i hp
      split at hs
      · cases hs
      simp only [Except.ok.injEq, Prod.mk.injEq] at hs
      obtain ⟨-, rfl⟩ := hs
      simp only [spare, Option.isSome_none, Bool.false_eq_true, if_false] at h1 h2 h3 h4
      simp only [hp, spare, Option.isSome_some, if_true]
      exact ⟨by omega, by omega, h3, by omega⟩
  | allocateMultiplier a k ih =>
    intro s y s' h
    simp only [runP] at h
    split at h
    case h_2 => cases h
    rename_i v s1 hs
    obtain ⟨h1, h2, h3, h4⟩ := ih v h
    simp only [calls, hs, Calls.add_def]
    generalize calls o (k v) s1 = cc at *
    unfold PState.allocateMultiplier at hs
    split at hs
    · cases hs
    simp only [Except.ok.injEq, Prod.mk.injEq] at hs
    obtain ⟨-, rfl⟩ := hs
    simp only [List.length_append, List.length_singleton] at h1 h2 h3 h4 ⊢
    exact ⟨by omega, by omega, h3, by omega⟩
  | constrain lc k ih =>
    intro s y s' h
    simp only [runP] at h
    obtain ⟨h1, h2, h3, h4⟩ := ih h
    simp only [calls, Calls.add_def]
    generalize calls o k (s.constrain lc) = cc at *
    simp only [PState.constrain, List.length_append, List.length_singleton] at h1 h2 h3 h4 ⊢
    exact ⟨by omega, by omega, h3, by omega⟩
  | append m k ih =>
    intro s y s' h
    simp only [runP] at h
    exact (ih h :)
  | challenge l k ih =>
    intro s y s' h
    simp only [runP] at h
    exact (ih _ h :)

theorem callbacks_grow (o : Oracle F G X) (ps : List (Prog F G X Unit)) : ∀ {s s' : PState F G X}, runCallbacksP o ps s = .ok s' →
    s'.constraints.length = s.constraints.length + (callbackCalls o ps s).lin ∧ s'.deferred = s.deferred ∧
    (s.pending = none → s'.aL.length = s.aL.length + (callbackCalls o ps s).mul + ((callbackCalls o ps s).half + 1) / 2) := by
  suffices H : ∀ {s s' : PState F G X}, runCallbacksP o ps s = .ok s' →
      s'.constraints.length = s.constraints.length + (callbackCalls o ps s).lin ∧ s'.deferred = s.deferred ∧
      s'.aL.length = s.aL.length + (callbackCalls o ps s).mul + ((callbackCalls o ps s).half + 1 - spare s.pending) / 2 by
    intro s s' h
    obtain ⟨h1, h2, h3⟩ := H h
    exact ⟨h1, h2, fun hp => by simpa [hp, spare] using h3⟩
  induction ps with
  | nil =>
    intro s s' h
    simp only [runCallbacksP, Except.ok.injEq] at h
    subst h
    refine ⟨rfl, rfl, ?_⟩
    simp only [callbackCalls, Calls.zero_def, spare]; split <;> simp
  | cons p ps ih =>
    intro s s' h
    unfold runCallbacksP at h
    split at h
    · cases h
    rename_i u s1 hs
    obtain ⟨h1, h2, h3⟩ := ih h
    obtain ⟨g1, g2, g3, g4⟩ := calls_grow o p hs
    simp only [callbackCalls, hs, Calls.add_def]
    refine ⟨by omega, h2.trans g3, ?_⟩
    have : spare s1.pending ≤ 1 := by unfold spare; split <;> omega
    have : spare s.pending ≤ 1 := by unfold spare; split <;> omega
    omega

theorem runV_deferred (o : Oracle F G X) (p : Prog F G X α) : ∀ {t : VState F G X} {x : α} {t' : VState F G X}, runV o p t = .ok (x, t') →
    t'.deferred = t.deferred := by
  induction p with
  | pure x => intro t y t' h; simp only [runV, Except.ok.injEq, Prod.mk.injEq] at h; rw [h.2]
  | fail e => intro t y t' h; simp [runV] at h
  | multiply l r k ih => intro t y t' h; simp only [runV] at h; exact (ih _ h :)
  | allocate a k ih =>
    intro t y t' h
    refine (ih _ h).trans ?_
    unfold VState.allocate; split <;> rfl
  | allocateMultiplier a k ih => intro t y t' h; simp only [runV] at h; exact (ih _ h :)
  | constrain lc k ih => intro t y t' h; simp only [runV] at h; exact (ih h :)
  | append m k ih => intro t y t' h; simp only [runV] at h; exact (ih h :)
  | challenge l k ih => intro t y t' h; simp only [runV] at h; exact (ih _ h :)

theorem runCallbacksV_deferred (o : Oracle F G X) (ps : List (Prog F G X Unit)) : ∀ {t t' : VState F G X}, runCallbacksV o ps t = .ok t' →
    t'.deferred = t.deferred := by
  induction ps with
  | nil => intro t t' h; simp only [runCallbacksV, Except.ok.injEq] at h; rw [h]
  | cons p ps ih =>
    intro t t' h
    unfold runCallbacksV at h
    split at h
    · cases h
    rename_i hr
    exact (ih h).trans (runV_deferred o p hr)

variable [DecidableEq F] [AddCommGroup G] [Module F G] [DecidableEq G]

omit [DecidableEq F] [AddCommGroup G] [Module F G] [DecidableEq G] in
theorem VState.AfterCallbacks.deferred {o : Oracle F G X} {p : R1CSProof F G} {t t2 : VState F G X} (h : t.AfterCallbacks o p t2) : t2.deferred = [] := by
  unfold VState.AfterCallbacks VState.createRandomized at h
  simp only at h
  split at h
  · rename_i h0
    simp only [Except.ok.injEq] at h
    subst h
    exact h0
  · exact (runCallbacksV_deferred o _ h).trans rfl

omit [DecidableEq F] [DecidableEq G] in
theorem Counted.session {o : Oracle F G X} {g : Gens G} {c : Calls} {n : Nat} {s : PState F G X} {t : VState F G X} (h : Counted o g c n s t) :
    Session o g s t := by
  induction h with
  | new tr => exact .new tr
  | commit v bl _ ih => exact .commit v bl ih
  | commitVec _ hc ih => exact .commitVec ih hc
  | gadget _ h1 h2 h3 ih => exact .gadget ih h1 h2 h3
  | randomized _ h1 ih => exact .randomized ih h1

omit [DecidableEq F] [DecidableEq G] in
theorem Counted.exact {o : Oracle F G X} {g : Gens G} {c : Calls} {n : Nat} {s : PState F G X} {t : VState F G X} (h : Counted o g c n s t) :
    s.aL.length = c.mul + (c.half + 1) / 2 ∧ s.constraints.length = c.lin ∧ s.deferred.length = n ∧
      (spare s.pending + c.half) % 2 = 0 := by
  induction h with
  | new tr => exact ⟨rfl, rfl, rfl, rfl⟩
  | commit v bl _ ih => exact ih
  | commitVec _ hc ih =>
    unfold PState.commitVec at hc
    simp only at hc
    split at hc
    · cases hc
    simp only [Except.ok.injEq, Prod.mk.injEq] at hc
    obtain ⟨-, rfl⟩ := hc
    exact ih
  | @gadget c n s t s' t' α β R p q a b _ _ hp _ ih =>
    obtain ⟨h1, h2, h3, h4⟩ := ih
    obtain ⟨g1, g2, g3, g4⟩ := calls_grow o p hp
    simp only [Calls.add_def]
    have : spare s'.pending ≤ 1 := by unfold spare; split <;> omega
    have : spare s.pending ≤ 1 := by unfold spare; split <;> omega
    exact ⟨by omega, by omega, by rw [g3]; exact h3, by omega⟩
  | randomized _ h1 ih =>
    obtain ⟨h1, h2, h3, h4⟩ := ih
    exact ⟨h1, h2, by simp [PState.specifyRandomized, h3], h4⟩

omit [DecidableEq F] [DecidableEq G] in
/-- **C62**, in the first phase. At every moment of every session Prover and Verifier report the same, and it is: the number of multipliers (two
calls of `allocate` share one), and as `phase_one_constraints` the number of linear constraints. Before the second phase
`phase_two_constraints` is the number of callbacks (not of the constraints they will add, which cannot be known), and `constraints` the sum.
Partial: see `C62_second_phase`. -/
theorem C62_metrics_partial {o : Oracle F G X} {g : Gens G} {c : Calls} {n : Nat} {s : PState F G X} {t : VState F G X} (h : Counted o g c n s t) :
    s.metrics = ⟨c.mul + (c.half + 1) / 2, c.lin + n, c.lin, n⟩ ∧ t.metrics = s.metrics := by
  obtain ⟨h1, h2, h3, -⟩ := h.exact
  obtain ⟨hs, -, hd⟩ := h.session.inv
  refine ⟨by simp [PState.metrics, h1, h2, h3], ?_⟩
  simp [PState.metrics, VState.metrics, hs.stmt.constraints, hs.stmt.left, hd.length_eq]

omit [DecidableEq F] [DecidableEq G] in
/-- C62, the same from any session without callbacks: exactly what is documented. -/
theorem C62_one_phase {o : Oracle F G X} {g : Gens G} {c : Calls} {s : PState F G X} {t : VState F G X} (h : Counted o g c 0 s t) :
    s.metrics = ⟨c.mul + (c.half + 1) / 2, c.lin, c.lin, 0⟩ ∧ t.metrics = s.metrics := C62_metrics_partial h

/-- **C62**, in the second phase. When the callbacks have been run, both report the same, but not what is documented: the constraints added by the
callbacks are reported under `phase_one_constraints`, and `phase_two_constraints` is `0` (also in the callbacks: the list of callbacks is
taken out of the Prover and the Verifier before the first is called). The total is right. -/
theorem C62_second_phase {o : Oracle F G X} {g : Gens G} {c : Calls} {n : Nat} {s s2 : PState F G X} {t : VState F G X} (h : Counted o g c (n + 1) s t)
    {p : R1CSProof F G} (h2 : s.secondPhase o ⟨p.AI1, p.AO1, p.S1⟩ = .ok s2) :
    (∃ t2, t.AfterCallbacks o p t2 ∧ t2.metrics = s2.metrics) ∧
    s2.metrics.phaseTwoConstraints = 0 ∧
    s2.metrics.phaseOneConstraints = c.lin + (callbackCalls o s.deferred (s.callbackStart ⟨p.AI1, p.AO1, p.S1⟩)).lin ∧
    s2.metrics.constraints = c.lin + (callbackCalls o s.deferred (s.callbackStart ⟨p.AI1, p.AO1, p.S1⟩)).lin := by
  obtain ⟨e1, e2, e3, e4⟩ := h.exact
  have hI := h.session.inv
  have hd : s.pad.deferred = s.deferred := by rw [PState.pad_eq]
  have hcs : s.pad.constraints = s.constraints := by rw [PState.pad_eq]
  have hne : s.pad.deferred ≠ [] := by
    rw [hd]; intro h0; rw [h0] at e3; simp at e3
  obtain ⟨t2, a1, a2⟩ := hI.second h2
  have h3 : runCallbacksP o s.deferred (s.callbackStart ⟨p.AI1, p.AO1, p.S1⟩) = .ok s2 := by
    unfold PState.secondPhase PState.createRandomized at h2
    simp only at h2
    rw [if_neg hne, hd] at h2
    exact h2
  obtain ⟨g1, g2, -⟩ := callbacks_grow o _ h3
  have z : s2.deferred = [] := g2
  have l : s2.constraints.length = c.lin + (callbackCalls o s.deferred (s.callbackStart ⟨p.AI1, p.AO1, p.S1⟩)).lin := by
    rw [g1, ← e2, ← hcs]; rfl
  refine ⟨⟨t2, a1, ?_⟩, by simp [PState.metrics, z], by simp [PState.metrics, l], by simp [PState.metrics, l, z]⟩
  simp [PState.metrics, VState.metrics, a2.stmt.constraints, a2.stmt.left, z, VState.AfterCallbacks.deferred a1]

/-! A client over the rationals: a multiplication and two allocated variables in the first phase, a callback that adds three linear constraints. -/

def metricsGadget : Prog ℚ ℚ Unit Unit := do
  let (l, _, o) ← multiply (LC.const 2) (LC.const 3)
  let a ← allocate (some 5)
  let b ← allocate (some 7)
  let _ ← allocate (some 1)
  constrain (LC.ofVar o - LC.ofVar l - LC.ofVar l - LC.ofVar l)
  constrain (LC.ofVar b - LC.ofVar a - LC.const 2)

def metricsCallback : Prog ℚ ℚ Unit Unit := do
  let z ← challenge "z"
  let (_, _, o) ← multiply (LC.const z) (LC.const 0)
  constrain (LC.ofVar o)

/-- The Prover of this client, and its state when the callback has been run. -/
theorem metrics_client : ∃ s t s2, Counted (X := Unit) exOracle exGens ⟨4, 1, 3⟩ 1 s t ∧ s.secondPhase exOracle ⟨1, 1, 1⟩ = .ok s2 ∧
    callbackCalls exOracle s.deferred (s.callbackStart ⟨1, 1, 1⟩) = ⟨3, 1, 0⟩ := by
  exact ⟨_, _, _, .randomized (p := metricsCallback) (.gadget (.new []) (SameCalls.refl (fun _ => rfl) metricsGadget) rfl rfl)
    (SameCalls.refl (fun _ => trivial) _), rfl, rfl⟩

/-- **C62** is false as documented: a session with no linear constraint of the second phase counted as such. One callback adds three linear
constraints. Before it is called both report one constraint of the second phase and five in all; afterwards they report none, and seven of
the first phase, although four were added there. -/
theorem C62_phase_two_not_counted : ∃ (s s2 : PState ℚ ℚ Unit) (t : VState ℚ ℚ Unit), Counted exOracle exGens ⟨4, 1, 3⟩ 1 s t ∧
    callbackCalls exOracle s.deferred (s.callbackStart ⟨1, 1, 1⟩) = ⟨3, 1, 0⟩ ∧ s.secondPhase exOracle ⟨1, 1, 1⟩ = .ok s2 ∧
    s.metrics.phaseTwoConstraints = 1 ∧ s.metrics.constraints = 5 ∧
    s2.metrics.phaseTwoConstraints = 0 ∧ s2.metrics.phaseOneConstraints = 7 := by
  obtain ⟨s, t, s2, h1, h2, h3⟩ := metrics_client
  obtain ⟨e, -⟩ := C62_metrics_partial h1
  obtain ⟨-, e2, e3, -⟩ := C62_second_phase h1 (p := ⟨1, 1, 1, 0, 0, 0, [], 0, 0, 0, ⟨[], [], 0, 0⟩⟩) h2
  exact ⟨s, s2, t, h1, h3, h2, by rw [e], by rw [e], e2, e3.trans (by rw [h3]; rfl)⟩

/-- Non-vacuity of `C62_one_phase`: the same client without the callback reports three multipliers and four linear constraints. -/
example : ∃ (s : PState ℚ ℚ Unit) (t : VState ℚ ℚ Unit), Counted exOracle exGens ⟨4, 1, 3⟩ 0 s t ∧ t.metrics = ⟨3, 4, 4, 0⟩ := by
  have h : Counted (X := Unit) exOracle exGens ⟨4, 1, 3⟩ 0 _ _ := .gadget (.new []) (SameCalls.refl (fun _ => rfl) metricsGadget) rfl rfl
  exact ⟨_, _, h, (C62_one_phase h).2.trans (C62_one_phase h).1⟩

end CT
