import Verif.Model.Tree
import Mathlib.Algebra.BigOperators.Fin

/-! # What a tree stores

Independent of how trees are built: the leaves from left to right, the leaf reached by following child
positions, and what it means that every commitment in the tree commits to its children. -/

namespace CT
variable {L M : Nat} {B P : Bool → Type} {p : Bool}

mutual
/-- The leaves from left to right, with the curve they are on. -/
def Node.leaves {L M : Nat} {P : Bool → Type} : {p : Bool} → Node L M P p → List (Σ p, P p)
  | p, .leaf c => [⟨p, c⟩]
  | _, .branch _ children _ _ => (List.ofFn fun k => (children k).leaves).flatten
def Slot.leaves {L M : Nat} {P : Bool → Type} : {p : Bool} → Slot L M P p → List (Σ p, P p)
  | _, .empty => []
  | _, .node n => n.leaves
end

mutual
/-- The leaf reached by following a list of child positions from the node. -/
def Node.follow {L M : Nat} {P : Bool → Type} : {p : Bool} → Node L M P p → List Nat → Option (Σ p, P p)
  | p, .leaf c, ds => if ds = [] then some ⟨p, c⟩ else none
  | _, .branch _ children _ _, ds =>
    match ds with
    | [] => none
    | d :: ds => if h : d < L then (children ⟨d, h⟩).follow ds else none
def Slot.follow {L M : Nat} {P : Bool → Type} : {p : Bool} → Slot L M P p → List Nat → Option (Σ p, P p)
  | _, .empty, _ => none
  | _, .node n, ds => n.follow ds
end

/-- The `h` lowest base-`L` digits of `i`, the most significant one first. -/
def digits (L : Nat) : Nat → Nat → List Nat
  | 0, _ => []
  | h + 1, i => i / L ^ h % L :: digits L h i

def CurveTree.leaves : CurveTree L M P → List (Σ p, P p)
  | .even n => n.leaves
  | .odd n => n.leaves

def CurveTree.follow : CurveTree L M P → List Nat → Option (Σ p, P p)
  | .even n => n.follow
  | .odd n => n.follow

def CurveTree.elements : CurveTree L M P → Nat
  | .even n => n.elements
  | .odd n => n.elements

section
variable [∀ p, Field (B p)] [∀ p, AddCommGroup (P p)] [∀ p, Module (B (!p)) (P p)]

mutual
/-- Every commitment in the tree is the commitment, with the generators of its tree index and without
blinding, to the x-coordinates of the children shifted by delta (0 for an empty slot). -/
def Node.Committed {L M : Nat} {B P : Bool → Type} [∀ p, Field (B p)] [∀ p, AddCommGroup (P p)]
    [∀ p, Module (B (!p)) (P p)] (prm : TreeParams B P) : {p : Bool} → Node L M P p → Prop
  | _, .leaf _ => True
  | p, .branch comm children _ _ =>
    (∀ i : Fin M, comm i = ∑ k : Fin L, (children k).x prm i • (prm.gens p).Gs.getD (i * L + k) 0) ∧
      ∀ k, (children k).Committed prm
def Slot.Committed {L M : Nat} {B P : Bool → Type} [∀ p, Field (B p)] [∀ p, AddCommGroup (P p)]
    [∀ p, Module (B (!p)) (P p)] (prm : TreeParams B P) : {p : Bool} → Slot L M P p → Prop
  | _, .empty => True
  | _, .node n => n.Committed prm
end

def CurveTree.Committed (prm : TreeParams B P) : CurveTree L M P → Prop
  | .even n => n.Committed prm
  | .odd n => n.Committed prm

/-- There are enough generators to commit to a node. -/
def TreeParams.EnoughGens (prm : TreeParams B P) (L M : Nat) : Prop := ∀ p, L * M ≤ (prm.gens p).Gs.length

/-! ## Paths from the root to a leaf -/

/-- A path: the witnesses of the nodes from the root downwards, the curves alternating. -/
inductive WPath (B P : Bool → Type) : Bool → Type
  | nil {p : Bool} : WPath B P p
  | cons {p : Bool} (w : Wit B P p) (rest : WPath B P (!p)) : WPath B P p

/-- The number of nodes on a path. -/
def WPath.length {B P : Bool → Type} : {p : Bool} → WPath B P p → Nat
  | _, .nil => 0
  | _, .cons _ rest => rest.length + 1

/-- The nodes of a path on each of the two curves, in order. -/
def WPath.nodes {B P : Bool → Type} : {p : Bool} → WPath B P p → WitPath B P
  | _, .nil => fun _ => []
  | p, .cons w rest => Function.update rest.nodes p (w :: rest.nodes p)

/-- The first `d` nodes. -/
def WPath.take {B P : Bool → Type} : Nat → {p : Bool} → WPath B P p → WPath B P p
  | 0, _, _ => .nil
  | _ + 1, _, .nil => .nil
  | d + 1, _, .cons w rest => .cons w (rest.take d)

/-- A path ending on curve `false`, continued by another one. -/
def WPath.graft {B P : Bool → Type} : {p : Bool} → WPath B P p → WPath B P false → WPath B P p
  | false, .nil, w2 => w2
  | true, .nil, _ => .nil
  | _, .cons w rest, w2 => .cons w (rest.graft w2)

/-- The path starts at the commitment `c` and ends in `leaf`: on every level the parent is the commitment (with
the generators of the tree index and without blinding) to `L` siblings, and the x-coordinate of the child shifted by delta is one of
them. -/
def WPath.From {B P : Bool → Type} [∀ p, Field (B p)] [∀ p, AddCommGroup (P p)] [∀ p, Module (B (!p)) (P p)]
    (prm : TreeParams B P) (L idx : Nat) (leaf : Σ p, P p) : {p : Bool} → P p → WPath B P p → Prop
  | p, c, .nil => (⟨p, c⟩ : Σ p, P p) = leaf
  | p, c, .cons w rest =>
    w.siblings.length = L ∧
      c = ∑ k : Fin L, w.siblings.getD k 0 • (prm.gens p).Gs.getD (idx * L + k) 0 ∧
      prm.xc (!p) (w.child + prm.delta (!p)) ∈ w.siblings ∧ rest.From prm L idx leaf w.child

/-- The path goes along the tree: on every level the siblings are the x-coordinates of the children of the node
and the child is the commitment of one of them; it ends in `leaf`. -/
def WPath.Along {L M : Nat} {B P : Bool → Type} [∀ p, Field (B p)] [∀ p, AddCommGroup (P p)]
    (prm : TreeParams B P) (idx : Fin M) (leaf : Σ p, P p) : {p : Bool} → Node L M P p → WPath B P p → Prop
  | p, .leaf c, .nil => (⟨p, c⟩ : Σ p, P p) = leaf
  | _, .branch _ children _ _, .cons w rest =>
    w.siblings = xCoordinates prm children idx ∧
      ∃ k n, children k = .node n ∧ w.child = n.commitment idx ∧ rest.Along prm idx leaf n
  | _, _, _ => False

/-- `nodes` are the witnesses on a path in the tree from the root to `leaf`, one for each level. -/
def CurveTree.PathTo (prm : TreeParams B P) (idx : Fin M) (nodes : WitPath B P) (leaf : Σ p, P p) :
    CurveTree L M P → Prop
  | .even n => ∃ w : WPath B P false, w.nodes = nodes ∧ w.Along prm idx leaf n ∧
      w.From prm L idx leaf (n.commitment idx) ∧ w.length = n.height
  | .odd n => ∃ w : WPath B P true, w.nodes = nodes ∧ w.Along prm idx leaf n ∧
      w.From prm L idx leaf (n.commitment idx) ∧ w.length = n.height

end

end CT
