import Verif.Spec.Flatten

/-! # Constraints over the variables of the circuit; panics; generators that agree -/

namespace CT

/-- All variables of all constraints held by a Verifier are variables of its circuit. -/
def VState.InCircuit {F G X : Type} (t : VState F G X) : Prop :=
  ∀ c ∈ t.constraints, ∀ term ∈ c.terms, term.1.InRange t.numVars t.V.length (t.vecComms.map (·.2))

/-- All variables of all constraints held by a Prover are variables of its circuit. -/
def PState.InCircuit {F G X : Type} (s : PState F G X) : Prop :=
  ∀ c ∈ s.constraints, ∀ term ∈ c.terms,
    term.1.InRange s.aL.length s.v.length (s.vecOpen.map (·.2.length))

/-- The call panicked. -/
def isPanic {α : Type} : Except Err α → Prop
  | .error (.panic _) => True
  | _ => False

/-- Two sets of generators with the same first `n` generators. -/
structure Gens.Agree {G : Type} (n : Nat) (g g' : Gens G) : Prop where
  pc : g.pc = g'.pc
  Gs : g.Gs.take n = g'.Gs.take n
  Hs : g.Hs.take n = g'.Hs.take n

end CT
