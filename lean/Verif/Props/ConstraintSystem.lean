import Verif.Proofs.GadgetSync
import Mathlib.Algebra.Field.Rat
import Mathlib.Tactic.NormNum

/-! # C02 and C03: constraint systems built by gadgets -/

namespace CT
variable {F G X α β : Type} [Field F] (o : Oracle F G X)

/-- **C02.** A gadget run by the Prover and the same gadget run by the Verifier (the two programs make
the same calls and may differ only in the witnesses), starting from the same statement, end with the
same statement and return related results, whenever the Prover run succeeds. -/
theorem C02_same_statement {R : α → β → Prop} {p : Prog F G X α} {q : Prog F G X β}
    (h : SameCalls R p q) {s s' : PState F G X} {t : VState F G X} (hst : SameStatement s t)
    {a : α} (hp : runP o p s = .ok (a, s')) :
    ∃ b t', runV o q t = .ok (b, t') ∧ R a b ∧ SameStatement s' t' := by
  obtain ⟨b, t', h1, h2, h3, -⟩ := sameCalls_run o h hst hp
  exact ⟨b, t', h1, h2, h3⟩

/-- **C02**, literally the same program on both sides: the returned value is equal too. -/
theorem C02_same_program (p : Prog F G X α) {s s' : PState F G X} {t : VState F G X}
    (hst : SameStatement s t) {a : α} (hp : runP o p s = .ok (a, s')) :
    ∃ t', runV o p t = .ok (a, t') ∧ SameStatement s' t' := by
  obtain ⟨b, t', h1, rfl, h3⟩ := C02_same_statement o (SameCalls.refl (fun _ => rfl) p) hst hp
  exact ⟨t', h1, h3⟩

/-- **C02** for the gadgets of the `relations` crate that take a witness: with any witness on the
Prover side and none on the Verifier side they make the same calls. (`select`, `is_bit` and
`curve_check` take no witness, so `C02_same_program` applies.) -/
theorem C02_gadgets [DecidableEq F] (C : SWCurve F) :
    (∀ (v : LC F) (q : Option Nat) n,
      SameCalls (G := G) (X := X) Eq (rangeProof v q n) (rangeProof v none n)) ∧
    (∀ (tx ty : Row F) (i : Option Nat),
      SameCalls (G := G) (X := X) Eq (lookup tx ty i) (lookup tx ty none)) ∧
    (∀ fx (prm : LayerParams C) rc children w r,
      SameCalls (G := G) Eq (singleLevel C fx prm rc children w r)
        (singleLevel C fx prm rc children none none)) ∧
    (∀ fx M (prm : LayerParams C) rc children w r,
      SameCalls (G := G) (X := X) Eq (singleLevelBatched C fx M prm rc children w r)
        (singleLevelBatched C fx M prm rc children none none)) :=
  ⟨sync_rangeProof, sync_lookup, sync_singleLevel, sync_singleLevelBatched⟩

/-- Non-vacuity of C02: a two-bit range proof of 3 succeeds for the Prover. -/
example : ∃ s', runP (F := ℚ) (G := Unit) (X := Unit) (fun _ => 0)
    (rangeProof (LC.ofVar (.committed 0)) (some 3) 2) { v := [3], vBlinding := [5] } =
      .ok ((), s') ∧ SameStatement (F := ℚ) (G := Unit) (X := Unit)
        { v := [3], vBlinding := [5] } { V := [()] } := by
  refine ⟨_, rfl, rfl, rfl, rfl, rfl, rfl, rfl⟩

/-- **C03.** After any program (any sequence of calls, with any arguments) started in a consistent
Prover state: the three vectors have equal length and every gate satisfies `output = left * right`.
The half-open multiplier, if any, exists. -/
theorem C03_gates_consistent (p : Prog F G X α) {s s' : PState F G X} {a : α}
    (hR : s.aR.length = s.aL.length) (hO : s.aO.length = s.aL.length)
    (hg : ∀ i < s.aL.length, s.assignment.left i * s.assignment.right i = s.assignment.out i)
    (hpend : ∀ i, s.pending = some i → i < s.aL.length)
    (hp : runP o p s = .ok (a, s')) :
    s'.aR.length = s'.aL.length ∧ s'.aO.length = s'.aL.length ∧
    (∀ i < s'.aL.length, s'.assignment.left i * s'.assignment.right i = s'.assignment.out i) ∧
    (∀ i, s'.pending = some i → i < s'.aL.length) := by
  obtain ⟨h, -⟩ := runP_inv o ⟨hR, hO, hg, hpend⟩ hp
  exact ⟨h.lenR, h.lenO, h.gates, h.pend⟩

/-- **C03**, implicit constraints: a Prover started from scratch that runs any program using only
variables it was given holds an assignment that satisfies the whole system as soon as it satisfies
the constraints passed explicitly to `constrain`; those added by `multiply` always hold. -/
theorem C03_implicit_constraints (p : Prog F G X α) {s s' : PState F G X} {a : α}
    (h0 : s.aL = [] ∧ s.aR = [] ∧ s.aO = [] ∧ s.pending = none ∧ s.constraints = [])
    (hw : WellScoped o p s) (hp : runP o p s = .ok (a, s'))
    (hc : ∀ c ∈ explicitConstraints o p s, s'.assignment.eval c = 0) : s'.Satisfied := by
  obtain ⟨h1, h2, h3, h4, h5⟩ := h0
  have hi : s.Inv := ⟨by simp [h1, h2], by simp [h1, h3], by intro i hi; simp [h1] at hi,
    by simp [h4]⟩
  refine ⟨(runP_inv o hi hp).1.gates, fun c hcm => ?_⟩
  rcases runP_constraints o hi hw hp c hcm with h | h | h
  · simp [h5] at h
  · exact hc c h
  · exact h

/-- A program with an odd number of `allocate` calls mixed with `multiply`. -/
def oddProgram : Prog ℚ Unit Unit Unit := do
  let a ← allocate (some 2)
  let b ← allocate (some 3)
  let (_, _, c) ← multiply (LC.ofVar a) (LC.ofVar b + LC.const 1)
  let d ← allocate (some 8)
  constrain (LC.ofVar c - LC.ofVar d)

/-- Non-vacuity of C03: `oddProgram` meets the hypotheses and its explicit constraint holds. -/
example : ∃ s', WellScoped (fun _ => 0) oddProgram ({} : PState ℚ Unit Unit) ∧
    runP (fun _ => 0) oddProgram ({} : PState ℚ Unit Unit) = .ok ((), s') ∧
    s'.pending = some 2 ∧
    ∀ c ∈ explicitConstraints (fun _ => 0) oddProgram ({} : PState ℚ Unit Unit),
      s'.assignment.eval c = 0 := by
  refine ⟨_, ?_, rfl, rfl, ?_⟩
  · refine fun v s h => ?_
    obtain ⟨rfl, rfl⟩ : Variable.multiplierLeft 0 = v ∧ _ = s := by simpa [PState.allocate] using h
    refine fun v s h => ?_
    obtain ⟨rfl, rfl⟩ : Variable.multiplierRight 0 = v ∧ _ = s := by simpa [PState.allocate] using h
    refine ⟨PState.hasLC_ofVar (by simp [PState.Has]), PState.hasLC_add (PState.hasLC_ofVar (by simp [PState.Has]))
      PState.hasLC_const, fun v s h => fun v s h => ?_⟩
    trivial
  · intro c hc
    have : c ∈ [LC.ofVar (F := ℚ) (.multiplierOutput 1) - LC.ofVar (.multiplierLeft 2)] := hc
    rw [List.mem_singleton] at this
    subst this
    simp [Assignment.val, PState.assignment, PState.constrain]
    norm_num

/-- Why C03 asks for variables that were handed out: `multiply` on the not yet allocated right wire
of a half-open multiplier, then allocating that wire, leaves an implicit constraint unsatisfied. -/
theorem C03_forged_variable_breaks :
    ∃ (p : Prog ℚ Unit Unit Unit) (s' : PState ℚ Unit Unit),
      runP (fun _ => 0) p {} = .ok ((), s') ∧ explicitConstraints (fun _ => 0) p {} = [] ∧
      ¬ s'.Satisfied := by
  refine ⟨(do
    let _ ← allocate (some 1)
    let _ ← multiply (LC.ofVar (.multiplierRight 0)) (LC.const 1)
    let _ ← allocate (some 5)
    pure ()), _, rfl, rfl, ?_⟩
  rintro ⟨-, h⟩
  have := h ⟨[(.multiplierRight 0, 1), (.multiplierLeft 1, -1)]⟩ (by
    simp [PState.constrain, LC.ofVar])
  simp [Assignment.val, PState.assignment, PState.constrain] at this

end CT
