import Verif.Model.Metrics
import Verif.Spec.Session

/-!
# What the fields of `Metrics` should count

The documentation of `Metrics` (`metrics.rs:5-13`) promises the number of multiplicative constraints, the number of linear constraints, and of
these the ones added before and in the second phase. The counts here are taken from the calls a client makes, not from the state.
-/

namespace CT
variable {F G X α : Type} [Field F]

/-- Linear constraints, whole multipliers, and halves of multipliers that were asked for. -/
structure Calls where
  lin : Nat
  mul : Nat
  half : Nat
  deriving DecidableEq

instance : Add Calls := ⟨fun a b => ⟨a.lin + b.lin, a.mul + b.mul, a.half + b.half⟩⟩
instance : Zero Calls := ⟨⟨0, 0, 0⟩⟩

/-- The calls made by a gadget run by the Prover: `constrain` adds a linear constraint, `multiply` a multiplier and two linear constraints,
`allocate_multiplier` a multiplier, `allocate` half of one. -/
def calls (o : Oracle F G X) : Prog F G X α → PState F G X → Calls
  | .pure _, _ => 0
  | .fail _, _ => 0
  | .multiply l r k, s =>
      match s.multiply l r with
      | .ok (v, s') => ⟨2, 1, 0⟩ + calls o (k v) s'
      | .error _ => 0
  | .allocate a k, s =>
      match s.allocate a with
      | .ok (v, s') => ⟨0, 0, 1⟩ + calls o (k v) s'
      | .error _ => 0
  | .allocateMultiplier a k, s =>
      match s.allocateMultiplier a with
      | .ok (v, s') => ⟨0, 1, 0⟩ + calls o (k v) s'
      | .error _ => 0
  | .constrain lc k, s => ⟨1, 0, 0⟩ + calls o k (s.constrain lc)
  | .append m k, s => calls o k { s with transcript := s.transcript ++ [m] }
  | .challenge label k, s =>
      calls o (k (challengeScalar o s.transcript label).1) { s with transcript := (challengeScalar o s.transcript label).2 }

/-- The calls made by callbacks run one after the other. -/
def callbackCalls (o : Oracle F G X) : List (Prog F G X Unit) → PState F G X → Calls
  | [], _ => 0
  | p :: ps, s =>
    match runP o p s with
    | .error _ => 0
    | .ok (_, s') => calls o p s + callbackCalls o ps s'

variable [DecidableEq F] [AddCommGroup G] [Module F G] [DecidableEq G]

/-- A session (see `Session`) together with the calls made in it and the number of callbacks registered. -/
inductive Counted (o : Oracle F G X) (g : Gens G) : Calls → Nat → PState F G X → VState F G X → Prop
  | new (tr : Transcript F G X) : Counted o g 0 0 (.new tr) (.new tr)
  | commit {c n s t} (v bl : F) : Counted o g c n s t → Counted o g c n (s.commit g v bl).2 (t.commit (s.commit g v bl).1.1).2
  | commitVec {c n s t s'} {v : List F} {bl : F} {V : G} {vars : List Variable} : Counted o g c n s t →
      s.commitVec g v bl = .ok ((V, vars), s') → Counted o g c n s' (t.commitVec v.length V).2
  | gadget {c n s t s' t'} {α β : Type} {R : α → β → Prop} {p : Prog F G X α} {q : Prog F G X β} {a : α} {b : β} :
      Counted o g c n s t → SameCalls R p q → runP o p s = .ok (a, s') → runV o q t = .ok (b, t') →
      Counted o g (c + calls o p s) n s' t'
  | randomized {c n s t} {p q : Prog F G X Unit} : Counted o g c n s t → SameCalls (fun _ _ => True) p q →
      Counted o g c (n + 1) (s.specifyRandomized p) (t.specifyRandomized q)

/-- The Prover in the moment before the first callback is called, the first-phase commitments being `c`. -/
def PState.callbackStart (s : PState F G X) (c : Com G) : PState F G X :=
  { s.pad with
    pending := none, deferred := []
    transcript := s.pad.transcript ++ [.num "m" s.v.length, .point "A_I1" c.AI, .point "A_O1" c.AO, .point "S1" c.S] ++ [.sep "r1cs-2phase"] }

end CT
