import Verif.Spec.Sync
import Verif.Proofs.RunP

/-! Helper lemmas for `SameCalls` and for the Prover invariant. -/

namespace CT
variable {F G X α β γ δ : Type}

namespace SameCalls

theorem refl {R : α → α → Prop} (hR : ∀ a, R a a) (p : Prog F G X α) : SameCalls R p p := by
  induction p with
  | pure a => exact .pure (hR a)
  | fail e => exact .fail
  | multiply l r k ih => exact .multiply ih
  | allocate a k ih => exact .allocate ih
  | allocateMultiplier a k ih => exact .allocateMultiplier ih
  | constrain lc k ih => exact .constrain ih
  | append m k ih => exact .append ih
  | challenge l k ih => exact .challenge ih

theorem bind {R : α → β → Prop} {S : γ → δ → Prop} {p : Prog F G X α} {q : Prog F G X β}
    (h : SameCalls R p q) {f : α → Prog F G X γ} {g : β → Prog F G X δ}
    (hf : ∀ a b, R a b → SameCalls S (f a) (g b)) : SameCalls S (p >>= f) (q >>= g) := by
  show SameCalls S (p.bind f) (q.bind g)
  induction h with
  | pure h => exact hf _ _ h
  | fail => exact .fail
  | multiply _ ih => exact .multiply ih
  | allocate _ ih => exact .allocate ih
  | allocateMultiplier _ ih => exact .allocateMultiplier ih
  | constrain _ ih => exact .constrain ih
  | append _ ih => exact .append ih
  | challenge _ ih => exact .challenge ih

theorem multiply' (l r : LC F) :
    SameCalls (G := G) (X := X) Eq (CT.multiply l r) (CT.multiply l r) := .refl (fun _ => rfl) _

theorem allocate' (a b : Option F) :
    SameCalls (G := G) (X := X) Eq (CT.allocate a) (CT.allocate b) :=
  .allocate fun _ => .pure rfl

theorem allocateMultiplier' (a b : Option (F × F)) :
    SameCalls (G := G) (X := X) Eq (CT.allocateMultiplier a) (CT.allocateMultiplier b) :=
  .allocateMultiplier fun _ => .pure rfl

theorem mono {R S : α → β → Prop} {p : Prog F G X α} {q : Prog F G X β}
    (h : SameCalls R p q) (hRS : ∀ a b, R a b → S a b) : SameCalls S p q := by
  induction h with
  | pure h => exact .pure (hRS _ _ h)
  | fail => exact .fail
  | multiply _ ih => exact .multiply ih
  | allocate _ ih => exact .allocate ih
  | allocateMultiplier _ ih => exact .allocateMultiplier ih
  | constrain _ ih => exact .constrain ih
  | append _ ih => exact .append ih
  | challenge _ ih => exact .challenge ih

end SameCalls

variable [Field F] (o : Oracle F G X)

theorem sameCalls_run {R : α → β → Prop} {p : Prog F G X α} {q : Prog F G X β}
    (h : SameCalls R p q) {s s' : PState F G X} {t : VState F G X} (hst : SameStatement s t)
    {a : α} (hp : runP o p s = .ok (a, s')) :
    ∃ b t', runV o q t = .ok (b, t') ∧ R a b ∧ SameStatement s' t' ∧
      t'.vecComms = t.vecComms ∧ t'.V = t.V ∧ t'.deferred = t.deferred := by
  induction h generalizing s t with
  | pure h =>
    simp only [runP, Except.ok.injEq, Prod.mk.injEq] at hp
    obtain ⟨rfl, rfl⟩ := hp
    exact ⟨_, t, rfl, h, hst, rfl, rfl, rfl⟩
  | fail => simp [runP] at hp
  | @multiply l r k k' _ ih =>
    simp only [runP] at hp
    cases hm : s.multiply l r with
    | error e => simp [hm] at hp
    | ok x =>
      obtain ⟨v, s1⟩ := x
      simp only [hm] at hp
      obtain ⟨h1, h2, h3, h4, h5, h6⟩ := hst
      simp only [PState.multiply] at hm
      split at hm
      · simp only [Except.ok.injEq, Prod.mk.injEq] at hm
        obtain ⟨rfl, rfl⟩ := hm
        have := fun hst1 => ih _ (t := (t.multiply l r).2) hst1 hp
        simp only [runV]
        have hv : (t.multiply l r).1 = (Variable.multiplierLeft s.aL.length,
          Variable.multiplierRight s.aR.length, Variable.multiplierOutput s.aO.length) := by
          simp [VState.multiply, h2, h3, h4]
        rw [hv]
        apply this
        refine ⟨?_, ?_, ?_, ?_, h5, h6⟩ <;>
          simp [VState.multiply, VState.constrain, PState.constrain, h1, h2, h3, h4]
      · simp at hm
  | @allocate a a' k k' _ ih =>
    simp only [runP] at hp
    cases a with
    | none => simp [PState.allocate] at hp
    | some x =>
      obtain ⟨h1, h2, h3, h4, h5, h6⟩ := hst
      cases hpend : s.pending with
      | none =>
        simp only [PState.allocate, hpend] at hp
        simp only [runV, VState.allocate, h5, hpend]
        rw [← h2]
        refine ih _ ?_ hp
        refine ⟨h1, ?_, ?_, ?_, rfl, h6⟩ <;> simp [h2, h3, h4]
      | some i =>
        simp only [PState.allocate, hpend] at hp
        simp only [runV, VState.allocate, h5, hpend]
        cases hl : s.aL[i]? with
        | none => simp [hl] at hp
        | some l =>
          simp only [hl] at hp
          refine ih _ ?_ hp
          refine ⟨h1, ?_, ?_, ?_, rfl, h6⟩ <;> simp [h2, h3, h4]
  | @allocateMultiplier a a' k k' _ ih =>
    simp only [runP] at hp
    cases a with
    | none => simp [PState.allocateMultiplier] at hp
    | some x =>
      obtain ⟨h1, h2, h3, h4, h5, h6⟩ := hst
      simp only [PState.allocateMultiplier] at hp
      simp only [runV, VState.allocateMultiplier]
      rw [h2, h3, h4] at hp
      refine ih _ ?_ hp
      refine ⟨h1, ?_, ?_, ?_, h5, h6⟩ <;> simp [h2, h3, h4]
  | constrain _ ih =>
    obtain ⟨h1, h2, h3, h4, h5, h6⟩ := hst
    simp only [runP, runV] at hp ⊢
    refine ih ?_ hp
    exact ⟨by simp [VState.constrain, PState.constrain, h1], h2, h3, h4, h5, h6⟩
  | append _ ih =>
    obtain ⟨h1, h2, h3, h4, h5, h6⟩ := hst
    simp only [runP, runV] at hp ⊢
    refine ih ?_ hp
    exact ⟨h1, h2, h3, h4, h5, by simp [h6]⟩
  | challenge _ ih =>
    obtain ⟨h1, h2, h3, h4, h5, h6⟩ := hst
    simp only [runP, runV, challengeScalar] at hp ⊢
    rw [h6]
    refine ih _ ?_ hp
    exact ⟨h1, h2, h3, h4, h5, rfl⟩

/-- Invariant and preservation of satisfied in-scope constraints, for all programs. -/
theorem runP_inv {p : Prog F G X α} {s s' : PState F G X} {a : α} (hs : s.Inv)
    (hp : runP o p s = .ok (a, s')) : s'.Inv ∧ s.Ext s' := by
  induction p generalizing s with
  | pure a =>
    simp only [runP, Except.ok.injEq, Prod.mk.injEq] at hp
    obtain ⟨_, rfl⟩ := hp; exact ⟨hs, .refl _⟩
  | fail e => simp [runP] at hp
  | multiply l r k ih =>
    simp only [runP] at hp
    cases hm : s.multiply l r with
    | error e => simp [hm] at hp
    | ok x =>
      obtain ⟨v, s1⟩ := x
      simp only [hm] at hp
      simp only [PState.multiply] at hm
      split at hm
      · rename_i lv rv _ _
        simp only [Except.ok.injEq, Prod.mk.injEq] at hm
        obtain ⟨rfl, rfl⟩ := hm
        have h1 := push_inv hs lv rv s.transcript
          [⟨l.terms ++ [(.multiplierLeft s.aL.length, -1)]⟩,
            ⟨r.terms ++ [(.multiplierRight s.aR.length, -1)]⟩]
        have h2 := push_ext hs lv rv s.transcript
          [⟨l.terms ++ [(.multiplierLeft s.aL.length, -1)]⟩,
            ⟨r.terms ++ [(.multiplierRight s.aR.length, -1)]⟩]
        have := ih _ h1 (by simpa [PState.push, PState.constrain] using hp)
        exact ⟨this.1, h2.trans this.2⟩
      · simp at hm
  | allocate a k ih =>
    simp only [runP] at hp
    cases a with
    | none => simp [PState.allocate] at hp
    | some x =>
      -- reuse the lemmas about good states by forgetting the constraints
      have hg : PState.Good { s with constraints := [] } :=
        ⟨⟨hs.lenR, hs.lenO, hs.gates, hs.pend⟩, by simp, by simp⟩
      have key : ∀ v s1, s.allocate (some x) = .ok (v, s1) → s1.Inv ∧ s.Ext s1 := by
        intro v s1 h
        cases hpend : s.pending with
        | none =>
          simp only [PState.allocate, hpend, Except.ok.injEq, Prod.mk.injEq] at h
          obtain ⟨_, rfl⟩ := h
          obtain ⟨g1, g2, -, -⟩ := alloc_left_good hg hpend x
          refine ⟨⟨g1.toInv.lenR, g1.toInv.lenO, g1.toInv.gates, g1.toInv.pend⟩, ?_⟩
          exact ⟨fun v hv => by
              have := g2.ext v (by cases v <;> exact hv)
              exact ⟨by cases v <;> exact this.1, by cases v <;> exact this.2⟩,
            rfl, rfl, rfl, rfl, g2.len, [], by simp⟩
        | some i =>
          have hi := hs.pend i hpend
          simp only [PState.allocate, hpend, List.getElem?_eq_getElem hi, Except.ok.injEq,
            Prod.mk.injEq] at h
          obtain ⟨_, rfl⟩ := h
          obtain ⟨g1, g2, -, -⟩ := alloc_right_good hg hpend (List.getElem?_eq_getElem hi) x
          refine ⟨⟨g1.toInv.lenR, g1.toInv.lenO, g1.toInv.gates, g1.toInv.pend⟩, ?_⟩
          exact ⟨fun v hv => by
              have := g2.ext v (by cases v <;> exact hv)
              exact ⟨by cases v <;> exact this.1, by cases v <;> exact this.2⟩,
            rfl, rfl, rfl, rfl, g2.len, [], by simp⟩
      cases hm : s.allocate (some x) with
      | error e => simp [hm] at hp
      | ok y =>
        obtain ⟨v, s1⟩ := y
        simp only [hm] at hp
        obtain ⟨h1, h2⟩ := key v s1 hm
        have := ih _ h1 hp
        exact ⟨this.1, h2.trans this.2⟩
  | allocateMultiplier a k ih =>
    simp only [runP] at hp
    cases a with
    | none => simp [PState.allocateMultiplier] at hp
    | some x =>
      simp only [PState.allocateMultiplier] at hp
      have h1 := push_inv hs x.1 x.2 s.transcript []
      have h2 := push_ext hs x.1 x.2 s.transcript []
      have := ih _ h1 (by simpa [PState.push] using hp)
      exact ⟨this.1, h2.trans this.2⟩
  | constrain lc k ih =>
    simp only [runP] at hp
    have := ih (s := s.constrain lc) ⟨hs.lenR, hs.lenO, hs.gates, hs.pend⟩ hp
    refine ⟨this.1, .trans ?_ this.2⟩
    exact ⟨fun v hv => ⟨by cases v <;> exact hv, by cases v <;> rfl⟩, rfl, rfl, rfl,
      rfl, le_refl _, [lc], rfl⟩
  | append m k ih =>
    simp only [runP] at hp
    have := ih (s := { s with transcript := s.transcript ++ [m] })
      ⟨hs.lenR, hs.lenO, hs.gates, hs.pend⟩ hp
    refine ⟨this.1, .trans ?_ this.2⟩
    exact ⟨fun v hv => ⟨by cases v <;> exact hv, by cases v <;> rfl⟩, rfl, rfl, rfl,
      rfl, le_refl _, [], by simp⟩
  | challenge label k ih =>
    simp only [runP] at hp
    have := ih _ (s := { s with transcript := (challengeScalar o s.transcript label).2 })
      ⟨hs.lenR, hs.lenO, hs.gates, hs.pend⟩ hp
    refine ⟨this.1, .trans ?_ this.2⟩
    exact ⟨fun v hv => ⟨by cases v <;> exact hv, by cases v <;> rfl⟩, rfl, rfl, rfl,
      rfl, le_refl _, [], by simp⟩

/-- Every constraint in the final state was there before, was passed to `constrain`, or holds. -/
theorem runP_constraints {p : Prog F G X α} {s s' : PState F G X} {a : α} (hs : s.Inv)
    (hw : WellScoped o p s) (hp : runP o p s = .ok (a, s')) :
    ∀ c ∈ s'.constraints, c ∈ s.constraints ∨ c ∈ explicitConstraints o p s ∨
      s'.assignment.eval c = 0 := by
  induction p generalizing s with
  | pure a =>
    simp only [runP, Except.ok.injEq, Prod.mk.injEq] at hp
    obtain ⟨_, rfl⟩ := hp; exact fun c hc => .inl hc
  | fail e => simp [runP] at hp
  | multiply l r k ih =>
    simp only [runP] at hp
    simp only [WellScoped] at hw
    simp only [explicitConstraints]
    obtain ⟨hl, hr, hw⟩ := hw
    cases hm : s.multiply l r with
    | error e => simp [hm] at hp
    | ok x =>
      obtain ⟨v, s1⟩ := x
      simp only [hm] at hp ⊢
      have hw := hw v s1 hm
      simp only [PState.multiply, PState.eval?_eq hs hl, PState.eval?_eq hs hr, Except.ok.injEq,
        Prod.mk.injEq] at hm
      obtain ⟨rfl, rfl⟩ := hm
      let lv := s.assignment.eval l
      let rv := s.assignment.eval r
      let cs : List (LC F) := [⟨l.terms ++ [(.multiplierLeft s.aL.length, -1)]⟩,
        ⟨r.terms ++ [(.multiplierRight s.aR.length, -1)]⟩]
      have h1 := push_inv hs lv rv s.transcript cs
      have h2 := push_ext hs lv rv s.transcript cs
      have hv := push_vars hs lv rv s.transcript cs
      have e : s.push lv rv s.transcript cs = (PState.constrain (PState.constrain
        { s with aL := s.aL ++ [s.assignment.eval l], aR := s.aR ++ [s.assignment.eval r], aO := s.aO ++ [s.assignment.eval l * s.assignment.eval r] }
        ⟨l.terms ++ [(.multiplierLeft s.aL.length, -1)]⟩)
        ⟨r.terms ++ [(.multiplierRight s.aR.length, -1)]⟩) := by
        simp [PState.push, PState.constrain, lv, rv, cs]
      rw [← e] at hp hw ⊢
      have h3 := (runP_inv o h1 hp).2
      intro c hc
      rcases ih _ h1 hw hp c hc with h | h | h
      · rcases List.mem_append.1 h with h | h
        · exact .inl h
        · refine .inr (.inr ?_)
          simp only [cs, List.mem_cons, List.not_mem_nil, or_false] at h
          rcases h with rfl | rfl
          · rw [h3.eval (by
              intro t ht
              rcases List.mem_append.1 ht with h | h
              · exact h2.hasLC hl t h
              · rw [List.mem_singleton] at h; subst h; exact hv.1.1), eval_mk_append, h2.eval hl]
            simp only [eval_mk_cons, eval_nil]
            rw [hv.1.2]; simp only [lv]; ring
          · rw [h3.eval (by
              intro t ht
              rcases List.mem_append.1 ht with h | h
              · exact h2.hasLC hr t h
              · rw [List.mem_singleton] at h; subst h; exact hv.2.1.1), eval_mk_append, h2.eval hr]
            simp only [eval_mk_cons, eval_nil]
            rw [hv.2.1.2]; simp only [rv]; ring
      · exact .inr (.inl h)
      · exact .inr (.inr h)
  | allocate a k ih =>
    simp only [runP] at hp
    simp only [WellScoped] at hw
    simp only [explicitConstraints]
    cases hm : s.allocate a with
    | error e => simp [hm] at hp
    | ok x =>
      obtain ⟨v, s1⟩ := x
      simp only [hm] at hp ⊢
      have h1 : s1.Inv := (runP_inv o (p := CT.allocate a) hs
        (by simp [CT.allocate, runP, hm]; rfl)).1
      have hc1 : s1.constraints = s.constraints := by
        cases a with
        | none => simp [PState.allocate] at hm
        | some y =>
          simp only [PState.allocate] at hm
          split at hm
          · simp only [Except.ok.injEq, Prod.mk.injEq] at hm
            obtain ⟨_, rfl⟩ := hm; rfl
          · split at hm
            · simp at hm
            · simp only [Except.ok.injEq, Prod.mk.injEq] at hm
              obtain ⟨_, rfl⟩ := hm; rfl
      rw [← hc1]
      exact ih _ h1 (hw v s1 hm) hp
  | allocateMultiplier a k ih =>
    simp only [runP] at hp
    simp only [WellScoped] at hw
    simp only [explicitConstraints]
    cases hm : s.allocateMultiplier a with
    | error e => simp [hm] at hp
    | ok x =>
      obtain ⟨v, s1⟩ := x
      simp only [hm] at hp ⊢
      have h1 : s1.Inv := (runP_inv o (p := CT.allocateMultiplier a) hs
        (by simp [CT.allocateMultiplier, runP, hm]; rfl)).1
      have hc1 : s1.constraints = s.constraints := by
        cases a with
        | none => simp [PState.allocateMultiplier] at hm
        | some y =>
          simp only [PState.allocateMultiplier, Except.ok.injEq, Prod.mk.injEq] at hm
          obtain ⟨_, rfl⟩ := hm; rfl
      rw [← hc1]
      exact ih _ h1 (hw v s1 hm) hp
  | constrain lc k ih =>
    simp only [runP] at hp
    simp only [WellScoped] at hw
    simp only [explicitConstraints]
    intro c hc
    rcases ih (s := s.constrain lc) ⟨hs.lenR, hs.lenO, hs.gates, hs.pend⟩ hw hp c hc with h | h | h
    · rcases List.mem_append.1 h with h | h
      · exact .inl h
      · rw [List.mem_singleton] at h; subst h; exact .inr (.inl (by simp))
    · exact .inr (.inl (by simp [h]))
    · exact .inr (.inr h)
  | append m k ih =>
    simp only [runP] at hp
    simp only [WellScoped] at hw
    simp only [explicitConstraints]
    exact ih (s := { s with transcript := s.transcript ++ [m] })
      ⟨hs.lenR, hs.lenO, hs.gates, hs.pend⟩ hw hp
  | challenge label k ih =>
    simp only [runP] at hp
    simp only [WellScoped] at hw
    simp only [explicitConstraints]
    exact ih _ (s := { s with transcript := (challengeScalar o s.transcript label).2 })
      ⟨hs.lenR, hs.lenO, hs.gates, hs.pend⟩ hw hp

end CT
