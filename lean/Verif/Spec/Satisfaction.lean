import Mathlib.Algebra.Field.Basic
import Mathlib.Algebra.BigOperators.Group.List.Basic
import Verif.Model.R1CS

/-!
# What it means to satisfy a constraint system

Independent of how Prover and Verifier store things: an assignment gives a value to every variable,
a linear combination evaluates to the sum of coefficient times value, a system with `n` multipliers
and a list of constraints is satisfied when every multiplier gate holds and every constraint
evaluates to zero.
-/

namespace CT

/-- Values for all variables. -/
structure Assignment (F : Type) where
  left : Nat → F
  right : Nat → F
  out : Nat → F
  committed : Nat → F
  vec : Nat → Nat → F

namespace Assignment
variable {F : Type} [Field F]

/-- The value of a variable. -/
def val (w : Assignment F) : Variable → F
  | .vectorCommit j i => w.vec j i
  | .committed i => w.committed i
  | .multiplierLeft i => w.left i
  | .multiplierRight i => w.right i
  | .multiplierOutput i => w.out i
  | .one => 1

/-- The value of a linear combination. -/
def eval (w : Assignment F) (lc : LC F) : F := (lc.terms.map fun t => t.2 * w.val t.1).sum

/-- All `n` multiplication gates hold. -/
def Gates (w : Assignment F) (n : Nat) : Prop := ∀ i < n, w.left i * w.right i = w.out i

/-- The assignment satisfies `n` gates and the constraints `cs`. -/
def Satisfies (w : Assignment F) (n : Nat) (cs : List (LC F)) : Prop :=
  w.Gates n ∧ ∀ c ∈ cs, w.eval c = 0

end Assignment

/-- The assignment held by a Prover (variables that do not exist get 0). -/
def PState.assignment {F G X : Type} [Field F] (s : PState F G X) : Assignment F where
  left i := s.aL.getD i 0
  right i := s.aR.getD i 0
  out i := s.aO.getD i 0
  committed i := s.v.getD i 0
  vec j i := (s.vecOpen.getD j (0, [])).2.getD i 0

/-- The variable exists (has been handed out) in a Prover state. The right and output wires of a
half-open multiplier do not exist yet. -/
def PState.Has {F G X : Type} (s : PState F G X) : Variable → Prop
  | .vectorCommit j i => ∃ o, s.vecOpen[j]? = some o ∧ i < o.2.length
  | .committed i => i < s.v.length
  | .multiplierLeft i => i < s.aL.length
  | .multiplierRight i => i < s.aR.length ∧ s.pending ≠ some i
  | .multiplierOutput i => i < s.aO.length ∧ s.pending ≠ some i
  | .one => True

/-- Every variable of the linear combination exists. -/
def PState.HasLC {F G X : Type} (s : PState F G X) (lc : LC F) : Prop :=
  ∀ t ∈ lc.terms, s.Has t.1

/-- The Prover's assignment satisfies everything that has been added so far. -/
def PState.Satisfied {F G X : Type} [Field F] (s : PState F G X) : Prop :=
  s.assignment.Satisfies s.aL.length s.constraints

/-- An assignment satisfies everything a Verifier has been given so far. -/
def VState.SatisfiedBy {F G X : Type} [Field F] (s : VState F G X) (w : Assignment F) : Prop :=
  w.Satisfies s.numVars s.constraints

section
variable {F G X : Type} [Field F]

namespace PState

/-- Representation invariant of a Prover. -/
structure Inv (s : PState F G X) : Prop where
  lenR : s.aR.length = s.aL.length
  lenO : s.aO.length = s.aL.length
  gates : s.assignment.Gates s.aL.length
  pend : ∀ i, s.pending = some i → i < s.aL.length

/-- Invariant plus: every constraint is over existing variables and is satisfied. -/
structure Good (s : PState F G X) : Prop where
  toInv : s.Inv
  hasC : ∀ c ∈ s.constraints, s.HasLC c
  sat : ∀ c ∈ s.constraints, s.assignment.eval c = 0

/-- `s'` extends `s`: every variable that existed keeps its value. -/
structure Ext (s s' : PState F G X) : Prop where
  ext : ∀ v, s.Has v → s'.Has v ∧ s'.assignment.val v = s.assignment.val v
  v : s'.v = s.v
  vBlinding : s'.vBlinding = s.vBlinding
  vecOpen : s'.vecOpen = s.vecOpen
  deferred : s'.deferred = s.deferred
  len : s.aL.length ≤ s'.aL.length
  cs : ∃ l, s'.constraints = s.constraints ++ l

end PState
end

end CT
