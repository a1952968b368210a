import Verif.Spec.Session
import Mathlib.Data.Rat.Defs
import Mathlib.Algebra.Field.Rat

/-! Helpers for running the model on concrete inputs (examples only). -/

namespace CT

instance {F G X : Type} : Inhabited (PState F G X) := ⟨{}⟩
instance {F G X : Type} : Inhabited (VState F G X) := ⟨{}⟩
instance {F G : Type} [Inhabited F] [Inhabited G] : Inhabited (R1CSProof F G) :=
  ⟨⟨default, default, default, default, default, default, [], default, default, default, ⟨[], [], default, default⟩⟩⟩

/-- The value of a successful computation. -/
def okOr {α : Type} [Inhabited α] : Except Err α → α
  | .ok a => a
  | .error _ => default

/-- Did the computation succeed? -/
def isOk {α : Type} : Except Err α → Bool
  | .ok _ => true
  | .error _ => false

theorem eq_ok {α : Type} [Inhabited α] {x : Except Err α} (h : isOk x = true) : x = .ok (okOr x) := by
  cases x with
  | ok a => rfl
  | error e => simp [isOk] at h

/-- All constraints hold? -/
def allZero {F G X : Type} [Field F] [DecidableEq F] (s : PState F G X) : Bool :=
  s.constraints.all fun c => decide (s.assignment.eval c = 0)

theorem allZero_iff {F G X : Type} [Field F] [DecidableEq F] {s : PState F G X} (h : allZero s = true) :
    ∀ c ∈ s.constraints, s.assignment.eval c = 0 := by
  intro c hc
  simp only [allZero, List.all_eq_true, decide_eq_true_eq] at h
  exact h c hc

instance {F G : Type} [AddCommGroup G] [DecidableEq G] (p : R1CSProof F G) (n : Nat) : Decidable (p.NoIdentity n) :=
  decidable_of_iff (p.AI1 ≠ 0 ∧ p.AO1 ≠ 0 ∧ p.S1 ≠ 0 ∧ (∀ d < p.T.length, d ≠ opDegree n → p.T.getD d 0 ≠ 0) ∧
      (∀ P ∈ p.ipp.L, P ≠ 0) ∧ (∀ P ∈ p.ipp.R, P ≠ 0))
    ⟨fun ⟨a, b, c, d, e, f⟩ => ⟨a, b, c, d, e, f⟩, fun ⟨a, b, c, d, e, f⟩ => ⟨a, b, c, d, e, f⟩⟩

/-- Challenges of the examples. -/
def exOracle : Oracle ℚ ℚ Unit := fun t => t.length + 2
/-- Generators of the examples. -/
def exGens : Gens ℚ := ⟨⟨1, 10⟩, 4, [2, 3, 5, 7], [11, 13, 17, 19]⟩
/-- Prover randomness of the examples. -/
def exRand : PRand ℚ :=
  ⟨1, 2, 3, fun i => i + 1, fun i => 2 * i + 1, 4, 5, 6, fun i => i + 3, fun i => i + 7, fun i => i + 1000⟩

end CT
