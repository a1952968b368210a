import Mathlib.Algebra.Field.Basic
import Verif.Model.Transcript

/-!
# R1CS constraint systems

Models `bulletproofs/src/r1cs/linear_combination.rs`, `constraint_system.rs` and the
`ConstraintSystem` implementations of `Prover` (`prover.rs`) and `Verifier` (`verifier.rs`).

Gadgets are written once against the `ConstraintSystem` trait and run by both parties. The model of
a gadget is a program `Prog` (a free monad over the trait's methods); `runP` interprets it as the
Prover does, `runV` as the Verifier does.
-/

namespace CT

/-- `enum Variable`, `linear_combination.rs:8-23` (the `PhantomData` of `One` is dropped). -/
inductive Variable where
  | vectorCommit (j i : Nat)
  | committed (i : Nat)
  | multiplierLeft (i : Nat)
  | multiplierRight (i : Nat)
  | multiplierOutput (i : Nat)
  | one
deriving DecidableEq, Repr

/-- `struct LinearCombination`, `linear_combination.rs:126-132`. -/
structure LC (F : Type) where
  terms : List (Variable × F)
deriving DecidableEq, Repr

namespace LC

variable {F : Type}

/-- `impl From<Variable> for LinearCombination`, `linear_combination.rs:25-31`. -/
def ofVar [One F] (v : Variable) : LC F := ⟨[(v, 1)]⟩

/-- `impl From<F> for LinearCombination` and `constant`, `linear_combination.rs:41-53`. -/
def const (c : F) : LC F := ⟨[(.one, c)]⟩

/-- `impl Default for LinearCombination`, `linear_combination.rs:134-138`. -/
def empty : LC F := ⟨[]⟩

/-- `impl Add for LinearCombination`, `linear_combination.rs:164-171`. -/
instance : Add (LC F) := ⟨fun a b => ⟨a.terms ++ b.terms⟩⟩

/-- `impl Sub for LinearCombination`, `linear_combination.rs:173-185`. -/
instance [Neg F] : Sub (LC F) := ⟨fun a b => ⟨a.terms ++ b.terms.map fun t => (t.1, -t.2)⟩⟩

/-- `impl Neg for LinearCombination`, `linear_combination.rs:211-219`. -/
instance [Neg F] : Neg (LC F) := ⟨fun a => ⟨a.terms.map fun t => (t.1, -t.2)⟩⟩

/-- `LinearCombination::scalar_mul` (`linear_combination.rs:200-209`) and `impl Mul`
(`linear_combination.rs:222-231`), which compute the same list. -/
def smul [Mul F] (a : LC F) (s : F) : LC F := ⟨a.terms.map fun t => (t.1, t.2 * s)⟩

end LC

/-- A gadget: a program over the `ConstraintSystem` trait, `constraint_system.rs:20-80`, plus
`challenge_scalar` of `RandomizedConstraintSystem`, `constraint_system.rs:120-138` (only available in
second-phase callbacks). `append` models `cs.transcript().append_point(..)`. `fail` is an error
return or a panic raised by the gadget itself.

Simplification: a failing `allocate` aborts the whole program; every gadget in the repository
unwraps it or propagates it with `?`. `metrics` is not available to programs (no gadget calls it). -/
inductive Prog (F G X : Type) (α : Type) where
  | pure (a : α)
  | fail (e : Err)
  | multiply (l r : LC F) (k : Variable × Variable × Variable → Prog F G X α)
  | allocate (a : Option F) (k : Variable → Prog F G X α)
  | allocateMultiplier (a : Option (F × F)) (k : Variable × Variable × Variable → Prog F G X α)
  | constrain (lc : LC F) (k : Prog F G X α)
  | append (m : Msg F G X) (k : Prog F G X α)
  | challenge (label : String) (k : F → Prog F G X α)

namespace Prog

variable {F G X α β : Type}

/-- Sequencing of gadget code. -/
def bind : Prog F G X α → (α → Prog F G X β) → Prog F G X β
  | .pure a, f => f a
  | .fail e, _ => .fail e
  | .multiply l r k, f => .multiply l r fun v => (k v).bind f
  | .allocate a k, f => .allocate a fun v => (k v).bind f
  | .allocateMultiplier a k, f => .allocateMultiplier a fun v => (k v).bind f
  | .constrain lc k, f => .constrain lc (k.bind f)
  | .append m k, f => .append m (k.bind f)
  | .challenge l k, f => .challenge l fun c => (k c).bind f

instance : Monad (Prog F G X) where
  pure := .pure
  bind := .bind

end Prog

section Ops
variable {F G X : Type}

/-- `cs.multiply(left, right)` as an action. -/
def multiply (l r : LC F) : Prog F G X (Variable × Variable × Variable) := .multiply l r .pure
/-- `cs.allocate(assignment)` as an action. -/
def allocate (a : Option F) : Prog F G X Variable := .allocate a .pure
/-- `cs.allocate_multiplier(assignments)` as an action. -/
def allocateMultiplier (a : Option (F × F)) : Prog F G X (Variable × Variable × Variable) :=
  .allocateMultiplier a .pure
/-- `cs.constrain(lc)` as an action. -/
def constrain (lc : LC F) : Prog F G X Unit := .constrain lc (.pure ())
/-- `cs.transcript().append_point(..)` as an action. -/
def appendMsg (m : Msg F G X) : Prog F G X Unit := .append m (.pure ())
/-- `cs.challenge_scalar(label)` as an action. -/
def challenge (label : String) : Prog F G X F := .challenge label .pure
/-- A panic raised by gadget code. -/
def panic {α : Type} (msg : String) : Prog F G X α := .fail (.panic msg)

end Ops

/-- `struct Prover` with `struct Secrets`, `prover.rs:33-71`. `pc_gens` is passed separately where
needed. A deferred callback is a program. -/
structure PState (F G X : Type) where
  transcript : Transcript F G X := []
  constraints : List (LC F) := []
  aL : List F := []
  aR : List F := []
  aO : List F := []
  v : List F := []
  vBlinding : List F := []
  /-- `(blinding, values)` -/
  vecOpen : List (F × List F) := []
  deferred : List (Prog F G X Unit) := []
  pending : Option Nat := none

/-- `struct Verifier`, `verifier.rs:31-55`. -/
structure VState (F G X : Type) where
  transcript : Transcript F G X := []
  constraints : List (LC F) := []
  /-- `(commitment, dimension)` -/
  vecComms : List (G × Nat) := []
  numVars : Nat := 0
  V : List G := []
  deferred : List (Prog F G X Unit) := []
  pending : Option Nat := none

namespace PState
variable {F G X : Type} [Field F]

/-- The value stored for a variable; `none` is the index-out-of-range panic.
The `match` inside `Prover::eval`, `prover.rs:448-455`. -/
def val? (s : PState F G X) : Variable → Option F
  | .vectorCommit j i => do (← s.vecOpen[j]?).2[i]?
  | .multiplierLeft i => s.aL[i]?
  | .multiplierRight i => s.aR[i]?
  | .multiplierOutput i => s.aO[i]?
  | .committed i => s.v[i]?
  | .one => some 1

/-- `Prover::eval` on a list of terms; `none` is a panic. `prover.rs:443-458`. -/
def evalTerms? (s : PState F G X) : List (Variable × F) → Option F
  | [] => some 0
  | t :: ts => do
      let x ← s.val? t.1
      let r ← s.evalTerms? ts
      return t.2 * x + r

/-- `Prover::eval`, `prover.rs:443-458`; `none` is a panic. -/
def eval? (s : PState F G X) (lc : LC F) : Option F := s.evalTerms? lc.terms

/-- `constrain`, `prover.rs:180-184`. -/
def constrain (s : PState F G X) (lc : LC F) : PState F G X :=
  { s with constraints := s.constraints ++ [lc] }

/-- `multiply`, `prover.rs:89-119`. -/
def multiply (s : PState F G X) (l r : LC F) :
    Except Err ((Variable × Variable × Variable) × PState F G X) :=
  match s.eval? l, s.eval? r with
  | some lv, some rv =>
      let lVar := Variable.multiplierLeft s.aL.length
      let rVar := Variable.multiplierRight s.aR.length
      let oVar := Variable.multiplierOutput s.aO.length
      let s := { s with aL := s.aL ++ [lv], aR := s.aR ++ [rv], aO := s.aO ++ [lv * rv] }
      let s := s.constrain ⟨l.terms ++ [(lVar, -1)]⟩
      let s := s.constrain ⟨r.terms ++ [(rVar, -1)]⟩
      .ok ((lVar, rVar, oVar), s)
  | _, _ => .error (.panic "eval: index out of range")

/-- `allocate`, `prover.rs:121-143`. The reads/writes at index `i` of the pending multiplier are in
range in every reachable state (`Prover` invariant). -/
def allocate (s : PState F G X) (a : Option F) : Except Err (Variable × PState F G X) :=
  match a with
  | none => .error .missingAssignment
  | some scalar =>
    match s.pending with
    | none =>
        let i := s.aL.length
        .ok (.multiplierLeft i,
          { s with pending := some i, aL := s.aL ++ [scalar], aR := s.aR ++ [0], aO := s.aO ++ [0] })
    | some i =>
        match s.aL[i]? with
        | none => .error (.panic "allocate: index out of range")
        | some l =>
          .ok (.multiplierRight i,
            { s with pending := none, aR := s.aR.set i scalar, aO := s.aO.set i (l * scalar) })

/-- `allocate_multiplier`, `prover.rs:145-169`. -/
def allocateMultiplier (s : PState F G X) (a : Option (F × F)) :
    Except Err ((Variable × Variable × Variable) × PState F G X) :=
  match a with
  | none => .error .missingAssignment
  | some (l, r) =>
      .ok ((.multiplierLeft s.aL.length, .multiplierRight s.aR.length,
            .multiplierOutput s.aO.length),
        { s with aL := s.aL ++ [l], aR := s.aR ++ [r], aO := s.aO ++ [l * r] })

/-- `specify_randomized_constraints`, `prover.rs:187-198`. -/
def specifyRandomized (s : PState F G X) (cb : Prog F G X Unit) : PState F G X :=
  { s with deferred := s.deferred ++ [cb] }

/-- `Prover::size`, `prover.rs:489-495`. -/
def size (s : PState F G X) : Nat := s.vecOpen.foldl (fun n v => max n v.2.length) s.aL.length

end PState

namespace VState
variable {F G X : Type} [Field F]

/-- `constrain`, `verifier.rs:150-155`. -/
def constrain (s : VState F G X) (lc : LC F) : VState F G X :=
  { s with constraints := s.constraints ++ [lc] }

/-- `multiply`, `verifier.rs:75-99`. -/
def multiply (s : VState F G X) (l r : LC F) :
    (Variable × Variable × Variable) × VState F G X :=
  let var := s.numVars
  let s := { s with numVars := s.numVars + 1 }
  let s := s.constrain ⟨l.terms ++ [(.multiplierLeft var, -1)]⟩
  let s := s.constrain ⟨r.terms ++ [(.multiplierRight var, -1)]⟩
  ((.multiplierLeft var, .multiplierRight var, .multiplierOutput var), s)

/-- `allocate`, `verifier.rs:101-117`. -/
def allocate (s : VState F G X) : Variable × VState F G X :=
  match s.pending with
  | none =>
      (.multiplierLeft s.numVars,
        { s with numVars := s.numVars + 1, pending := some s.numVars })
  | some i => (.multiplierRight i, { s with pending := none })

/-- `allocate_multiplier`, `verifier.rs:119-139`. -/
def allocateMultiplier (s : VState F G X) : (Variable × Variable × Variable) × VState F G X :=
  ((.multiplierLeft s.numVars, .multiplierRight s.numVars, .multiplierOutput s.numVars),
    { s with numVars := s.numVars + 1 })

/-- `specify_randomized_constraints`, `verifier.rs:158-169`. -/
def specifyRandomized (s : VState F G X) (cb : Prog F G X Unit) : VState F G X :=
  { s with deferred := s.deferred ++ [cb] }

/-- `Verifier::size`, `verifier.rs:272-278`. -/
def size (s : VState F G X) : Nat := s.vecComms.foldl (fun n v => max v.2 n) s.numVars

end VState

/-- A gadget run by the Prover: `impl ConstraintSystem for Prover` (`prover.rs:82-185`) and for
`RandomizingProver` (`prover.rs:200-257`), which forwards to it. -/
def runP {F G X α : Type} [Field F] (o : Oracle F G X) :
    Prog F G X α → PState F G X → Except Err (α × PState F G X)
  | .pure a, s => .ok (a, s)
  | .fail e, _ => .error e
  | .multiply l r k, s =>
      match s.multiply l r with
      | .ok (v, s') => runP o (k v) s'
      | .error e => .error e
  | .allocate a k, s =>
      match s.allocate a with
      | .ok (v, s') => runP o (k v) s'
      | .error e => .error e
  | .allocateMultiplier a k, s =>
      match s.allocateMultiplier a with
      | .ok (v, s') => runP o (k v) s'
      | .error e => .error e
  | .constrain lc k, s => runP o k (s.constrain lc)
  | .append m k, s => runP o k { s with transcript := s.transcript ++ [m] }
  | .challenge label k, s =>
      let (c, t) := challengeScalar o s.transcript label
      runP o (k c) { s with transcript := t }

/-- A gadget run by the Verifier: `impl ConstraintSystem for Verifier` (`verifier.rs:69-156`) and for
`RandomizingVerifier` (`verifier.rs:171-228`), which forwards to it. Assignments are ignored. -/
def runV {F G X α : Type} [Field F] (o : Oracle F G X) :
    Prog F G X α → VState F G X → Except Err (α × VState F G X)
  | .pure a, s => .ok (a, s)
  | .fail e, _ => .error e
  | .multiply l r k, s => runV o (k (s.multiply l r).1) (s.multiply l r).2
  | .allocate _ k, s => runV o (k s.allocate.1) s.allocate.2
  | .allocateMultiplier _ k, s => runV o (k s.allocateMultiplier.1) s.allocateMultiplier.2
  | .constrain lc k, s => runV o k (s.constrain lc)
  | .append m k, s => runV o k { s with transcript := s.transcript ++ [m] }
  | .challenge label k, s =>
      let (c, t) := challengeScalar o s.transcript label
      runV o (k c) { s with transcript := t }

end CT
