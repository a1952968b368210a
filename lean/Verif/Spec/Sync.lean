import Verif.Spec.Satisfaction

/-! Specification of "the same gadget run by two parties". -/

namespace CT

/-- Two programs make the same calls; they may differ only in the witness assignments they pass and
in that the left one may stop early. `R` relates the results. -/
inductive SameCalls {F G X α β : Type} (R : α → β → Prop) : Prog F G X α → Prog F G X β → Prop
  | pure {a b} : R a b → SameCalls R (.pure a) (.pure b)
  | fail {e v} : SameCalls R (.fail e) v
  | multiply {l r k k'} : (∀ v, SameCalls R (k v) (k' v)) →
      SameCalls R (.multiply l r k) (.multiply l r k')
  | allocate {a a' k k'} : (∀ v, SameCalls R (k v) (k' v)) →
      SameCalls R (.allocate a k) (.allocate a' k')
  | allocateMultiplier {a a' k k'} : (∀ v, SameCalls R (k v) (k' v)) →
      SameCalls R (.allocateMultiplier a k) (.allocateMultiplier a' k')
  | constrain {lc k k'} : SameCalls R k k' → SameCalls R (.constrain lc k) (.constrain lc k')
  | append {m k k'} : SameCalls R k k' → SameCalls R (.append m k) (.append m k')
  | challenge {l k k'} : (∀ c, SameCalls R (k c) (k' c)) →
      SameCalls R (.challenge l k) (.challenge l k')

/-- Prover and Verifier hold the same statement: same constraints in the same order, same number of
multipliers (in each of the Prover's three assignment vectors), same half-open multiplier, same
transcript. -/
structure SameStatement {F G X : Type} (s : PState F G X) (t : VState F G X) : Prop where
  constraints : t.constraints = s.constraints
  left : s.aL.length = t.numVars
  right : s.aR.length = t.numVars
  out : s.aO.length = t.numVars
  pending : t.pending = s.pending
  transcript : t.transcript = s.transcript

/-- The linear combinations a program passes to `constrain` when run by the Prover. -/
def explicitConstraints {F G X α : Type} [Field F] (o : Oracle F G X) :
    Prog F G X α → PState F G X → List (LC F)
  | .pure _, _ => []
  | .fail _, _ => []
  | .multiply l r k, s =>
      match s.multiply l r with
      | .ok (v, s') => explicitConstraints o (k v) s'
      | .error _ => []
  | .allocate a k, s =>
      match s.allocate a with
      | .ok (v, s') => explicitConstraints o (k v) s'
      | .error _ => []
  | .allocateMultiplier a k, s =>
      match s.allocateMultiplier a with
      | .ok (v, s') => explicitConstraints o (k v) s'
      | .error _ => []
  | .constrain lc k, s => lc :: explicitConstraints o k (s.constrain lc)
  | .append m k, s => explicitConstraints o k { s with transcript := s.transcript ++ [m] }
  | .challenge label k, s =>
      explicitConstraints o (k (challengeScalar o s.transcript label).1)
        { s with transcript := (challengeScalar o s.transcript label).2 }

/-- Whenever the program calls `multiply`, its arguments only mention variables that have been handed
out (no made-up `Variable` values). -/
def WellScoped {F G X α : Type} [Field F] (o : Oracle F G X) :
    Prog F G X α → PState F G X → Prop
  | .pure _, _ => True
  | .fail _, _ => True
  | .multiply l r k, s => s.HasLC l ∧ s.HasLC r ∧
      ∀ v s', s.multiply l r = .ok (v, s') → WellScoped o (k v) s'
  | .allocate a k, s => ∀ v s', s.allocate a = .ok (v, s') → WellScoped o (k v) s'
  | .allocateMultiplier a k, s =>
      ∀ v s', s.allocateMultiplier a = .ok (v, s') → WellScoped o (k v) s'
  | .constrain lc k, s => WellScoped o k (s.constrain lc)
  | .append m k, s => WellScoped o k { s with transcript := s.transcript ++ [m] }
  | .challenge label k, s =>
      WellScoped o (k (challengeScalar o s.transcript label).1)
        { s with transcript := (challengeScalar o s.transcript label).2 }

/-- The values of the variables existing in `s` can be extended to an assignment satisfying the
system `t'` (which was built on top of the same variables): "the constraints are satisfiable by
multiplier values". -/
def Extendable {F G X : Type} [Field F] (s : PState F G X) (t' : VState F G X) : Prop :=
  ∃ w : Assignment F, t'.SatisfiedBy w ∧ ∀ v, s.Has v → w.val v = s.assignment.val v

end CT
