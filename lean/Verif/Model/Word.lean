import Verif.Model.Tree

/-!
# The index of a child, with machine integers

`Model/Tree.lean` computes `child_index` (`curve_tree.rs:346-350`) with unbounded numbers. Here it is done as on a machine: `usize` has a
number of bits, and integer overflow either panics (the debug profile, or `overflow-checks = true`) or wraps around (the release profile).
-/

namespace CT

/-- A target and a profile: the number of bits of `usize`, and whether overflow is checked. -/
structure Machine where
  bits : Nat
  checks : Bool

/-- The number of values of `usize`. -/
def Machine.size (m : Machine) : Nat := 2 ^ m.bits

/-- `L.pow(e)`, `curve_tree.rs:347-348`. -/
def Machine.pow (m : Machine) (L e : Nat) : Except Err Nat :=
  if L ^ e < m.size then .ok (L ^ e)
  else if m.checks then .error (.panic "attempt to multiply with overflow")
  else .ok (L ^ e % m.size)

/-- `CurveTreeNode::child_index`, `curve_tree.rs:346-350`. `height` is positive (the function is only called on branches); it is far below
`2^32`, so that `as u32` keeps it. -/
def Machine.childIndex (m : Machine) (L height index : Nat) : Except Err Nat :=
  match m.pow L height with
  | .error e => .error e
  | .ok capacity =>
    match m.pow L (height - 1) with
    | .error e => .error e
    | .ok childCapacity =>
      if capacity = 0 then .error (.panic "attempt to calculate the remainder with a divisor of zero")
      else if childCapacity = 0 then .error (.panic "attempt to divide by zero")
      else .ok (index % capacity / childCapacity)

mutual
/-- `CurveTreeNode::select_and_rerandomize_prover_witness`, `curve_tree_prover.rs:25-63`, with the machine's `child_index`. -/
def Node.machineWitness {L M : Nat} {B P : Bool → Type} [∀ p, Field (B p)] [∀ p, AddCommGroup (P p)]
    (m : Machine) (prm : TreeParams B P) (index : Nat) (i : Fin M) :
    {p : Bool} → Node L M P p → WitPath B P → Except Err (WitPath B P)
  | _, .leaf _, acc => .ok acc
  | p, .branch _ children height _, acc =>
    match m.childIndex L height index with
    | .error e => .error e
    | .ok k =>
      if h : k < L then
        (children ⟨k, h⟩).machineWitness m prm index i fun c => Function.update acc p (acc p ++ [⟨xCoordinates prm children i, c⟩])
      else .error (.panic "index out of bounds: children")
/-- The `match` on the child and the recursive call, `curve_tree_prover.rs:42-61`. -/
def Slot.machineWitness {L M : Nat} {B P : Bool → Type} [∀ p, Field (B p)] [∀ p, AddCommGroup (P p)]
    (m : Machine) (prm : TreeParams B P) (index : Nat) (i : Fin M) : {p : Bool} → Slot L M P p → (P p → WitPath B P) →
    Except Err (WitPath B P)
  | _, .empty, _ => .error (.panic "Child index out of bounds")
  | _, .node n, push => n.machineWitness m prm index i (push (n.commitment i))
end

variable {L M : Nat} {B P : Bool → Type} [∀ p, Field (B p)] [∀ p, AddCommGroup (P p)]

/-- The `match self` of `CurveTree::select_and_rerandomize_prover_witness`, `curve_tree_prover.rs:86-103`. -/
def CurveTree.machineNodes (m : Machine) (prm : TreeParams B P) (index : Nat) (i : Fin M) : CurveTree L M P → Except Err (WitPath B P)
  | .even n => n.machineWitness m prm index i fun _ => []
  | .odd n => n.machineWitness m prm index i fun _ => []

/-- `CurveTree::select_and_rerandomize_prover_witness`, `curve_tree_prover.rs:76-113`, on a machine. -/
def CurveTree.machineWitness (m : Machine) (prm : TreeParams B P) (index : Nat) (i : Fin M) (t : CurveTree L M P) :
    Except Err (WitPath B P) := do
  let nodes ← t.machineNodes m prm index i
  if t.height = (nodes false).length + (nodes true).length then .ok nodes
  else .error (.panic "assertion failed: height")

end CT
