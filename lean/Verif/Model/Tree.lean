import Verif.Model.Serialize
import Verif.Model.Verify
import Verif.Model.Gadgets

/-!
# Curve trees: `relations/src/curve_tree.rs`, `curve_tree_prover.rs`, `curve_tree_verifier.rs`

The two curves of the cycle are indexed by a `Bool`: `false` is the even curve (`P0`), `true` the odd one
(`P1`). `P p` are the points of curve `p`, `B p` its base field; its scalar field is `B (!p)`.

Simplifications: machine integers do not overflow (`L.pow(height)`, `forest_length + L - 1`); `tree_index`
is a number below `M` (otherwise the code panics).
-/

namespace CT

/-! ## `SingleLayerParameters::commit` -/

/-- The generators used by `SingleLayerParameters::commit` for a vector of length `n`,
`single_level_select_and_rerandomize.rs:48-52`. -/
def layerGens {G : Type} (g : Gens G) (n idx : Nat) : List G := (g.Gs.take (n * (idx + 1))).drop (n * idx)

/-- `SingleLayerParameters::commit`, `single_level_select_and_rerandomize.rs:42-70`. `none` is the panic of
`msm(..).unwrap()` when there are not enough generators. -/
def layerCommit? {F G : Type} [Field F] [AddCommGroup G] [Module F G] (g : Gens G) (v : List F) (bl : F)
    (idx : Nat) : Option G :=
  if (layerGens g v.length idx).length ≠ v.length then none
  else some (msm (g.pc.Bbl :: layerGens g v.length idx) (bl :: v))

/-! ## The tree -/

/-- The part of `SelRerandParameters` used to build trees, `curve_tree.rs:12-24`: for both curves the
generators, `delta`, and the map to the stored x-coordinate of a point (`.into_affine().x`). -/
structure TreeParams (B P : Bool → Type) where
  gens : ∀ p, Gens (P p)
  delta : ∀ p, P p
  xc : ∀ p, P p → B p

mutual
/-- `enum CurveTreeNode`, `curve_tree.rs:284-293`. -/
inductive Node (L M : Nat) (P : Bool → Type) : Bool → Type
  | leaf {p : Bool} (c : P p) : Node L M P p
  | branch {p : Bool} (comm : Fin M → P p) (children : Fin L → Slot L M P (!p)) (height elements : Nat) : Node L M P p
/-- `Option<CurveTreeNode>`, an entry of `Children`, `curve_tree.rs:260`. -/
inductive Slot (L M : Nat) (P : Bool → Type) : Bool → Type
  | empty {p : Bool} : Slot L M P p
  | node {p : Bool} (n : Node L M P p) : Slot L M P p
end

variable {L M : Nat} {B P : Bool → Type} {p : Bool}

/-- `CurveTreeNode::commitment`, `curve_tree.rs:310-320`. -/
def Node.commitment : Node L M P p → Fin M → P p
  | .leaf c, _ => c
  | .branch comm _ _ _, i => comm i

/-- `CurveTreeNode::height`, `curve_tree.rs:322-332`. -/
def Node.height : Node L M P p → Nat
  | .leaf _ => 0
  | .branch _ _ h _ => h

/-- `CurveTreeNode::elements`, `curve_tree.rs:334-344`. -/
def Node.elements : Node L M P p → Nat
  | .leaf _ => 1
  | .branch _ _ _ e => e

/-- `CurveTreeNode::child_index`, `curve_tree.rs:346-350` (only called on branches, whose height is positive). -/
def childIndex (L height index : Nat) : Nat := (index % L ^ height) / L ^ (height - 1)

section
variable [∀ p, Field (B p)] [∀ p, AddCommGroup (P p)] [∀ p, Module (B (!p)) (P p)]

/-- The x-coordinate of an entry, `curve_tree.rs:275-278`. -/
def Slot.x (prm : TreeParams B P) (i : Fin M) : {p : Bool} → Slot L M P p → B p
  | _, .empty => 0
  | p, .node n => prm.xc p (n.commitment i + prm.delta p)

/-- `x_coordinates`, `curve_tree.rs:263-282`. -/
def xCoordinates (prm : TreeParams B P) {p : Bool} (children : Fin L → Slot L M P p) (i : Fin M) : List (B p) :=
  List.ofFn fun k => (children k).x prm i

/-- The array of children made by `combine`, `curve_tree.rs:368-378`. -/
def childSlots (cs : List (Node L M P p)) (k : Fin L) : Slot L M P p :=
  match cs[k.val]? with
  | some n => .node n
  | none => .empty

/-- `CurveTreeNode::combine`, `curve_tree.rs:352-398`. -/
def combine (prm : TreeParams B P) (p : Bool) (cs : List (Node L M P (!p))) : Except Err (Node L M P p) :=
  if L < cs.length then .error (.panic "Cannot combine more than the branching factor")
  else if L = 0 then .error (.panic "index out of bounds: children[0]")
  else
    let height := match cs.head? with
      | some c => c.height + 1
      | none => 1
    let commit (i : Fin M) : Option (P p) := layerCommit? (prm.gens p) (xCoordinates prm (childSlots (L := L) cs) i) 0 i
    if ∀ i, (commit i).isSome then
      .ok (.branch (fun i => (commit i).getD 0) (childSlots cs) height (cs.map Node.elements).sum)
    else .error (.panic "msm(..).unwrap()")

/-- `enum CurveTree`, `curve_tree.rs:26-34`. -/
inductive CurveTree (L M : Nat) (P : Bool → Type)
  | even (n : Node L M P false)
  | odd (n : Node L M P true)

/-- `CurveTree::height`, `curve_tree.rs:143-148`. -/
def CurveTree.height : CurveTree L M P → Nat
  | .even n => n.height
  | .odd n => n.height

/-- One pass of `from_set` over a forest: `(forest_length + L - 1) / L` groups of up to `L` trees,
`curve_tree.rs:63-80` and `89-103`. -/
def combineForest (prm : TreeParams B P) (p : Bool) (forest : List (Node L M P (!p))) : Except Err (List (Node L M P p)) :=
  (List.range ((forest.length + L - 1) / L)).mapM fun i =>
    combine prm p ((forest.take ((i + 1) * L)).drop (i * L))

/-- The body of the loop of `increase_height`, `curve_tree.rs:118-133`. -/
def CurveTree.grow (prm : TreeParams B P) : CurveTree L M P → Except Err (CurveTree L M P)
  | .even n => (combine prm true [n]).map .odd
  | .odd n => (combine prm false [n]).map .even

/-- The loop of `increase_height`, `curve_tree.rs:116-135`. `none`: still running after `fuel` iterations. -/
def CurveTree.growTo (prm : TreeParams B P) (height : Nat) :
    (fuel : Nat) → CurveTree L M P → Option (Except Err (CurveTree L M P))
  | fuel, t =>
    if t.height < height then
      match fuel with
      | 0 => none
      | fuel + 1 =>
        match t.grow prm with
        | .error e => some (.error e)
        | .ok t => CurveTree.growTo prm height fuel t
    else some (.ok t)

/-- `CurveTree::increase_height`, `curve_tree.rs:108-138`. -/
def CurveTree.increaseHeight (prm : TreeParams B P) (height : Option Nat) (fuel : Nat) (t : CurveTree L M P) :
    Option (Except Err (CurveTree L M P)) :=
  match height with
  | none => some (.ok t)
  | some h => t.growTo prm h fuel

/-- The loop of `from_set`, `curve_tree.rs:61-105`. `none`: still running after `fuel` iterations. -/
def fromForest (prm : TreeParams B P) (height : Option Nat) :
    (fuel : Nat) → List (Node L M P false) → Option (Except Err (CurveTree L M P))
  | fuel, evens =>
    match evens with
    | [] => some (.error (.panic "index out of bounds: even_forest[0]"))
    | [n] => (CurveTree.even n).increaseHeight prm height fuel
    | _ =>
      match fuel with
      | 0 => none
      | fuel + 1 =>
        match combineForest prm true evens with
        | .error e => some (.error e)
        | .ok [n] => (CurveTree.odd n).increaseHeight prm height fuel
        | .ok odds =>
          match combineForest prm false odds with
          | .error e => some (.error e)
          | .ok evens => fromForest prm height fuel evens

/-- `CurveTree::from_set`, `curve_tree.rs:47-106`. The loops may run forever (for `L = 1`), so they get a number
of iterations; `none` means that the loops are still running after `fuel` iterations. -/
def fromSet (prm : TreeParams B P) (set : List (P false)) (height : Option Nat) (fuel : Nat) :
    Option (Except Err (CurveTree L M P)) :=
  if set = [] then some (.error (.panic "The curve tree must have at least one leaf."))
  else if L = 0 then some (.error (.panic "attempt to divide by zero"))
  else fromForest prm height fuel (set.map .leaf)

/-! ## The witness of a path -/

/-- `CurveTreeWitness`, `curve_tree_prover.rs:133-139`, for a node of curve `p`. -/
structure Wit (B P : Bool → Type) (p : Bool) where
  siblings : List (B (!p))
  child : P (!p)

/-- `CurveTreeWitnessPath`, `curve_tree_prover.rs:153-161`: `nodes false` is `even_internal_nodes`,
`nodes true` is `odd_internal_nodes`. -/
abbrev WitPath (B P : Bool → Type) := ∀ p, List (Wit B P p)

mutual
/-- `CurveTreeNode::select_and_rerandomize_prover_witness`, `curve_tree_prover.rs:25-63`. `acc` are the two
vectors the function appends to. -/
def Node.witness {L M : Nat} {B P : Bool → Type} [∀ p, Field (B p)] [∀ p, AddCommGroup (P p)]
    (prm : TreeParams B P) (index : Nat) (i : Fin M) : {p : Bool} → Node L M P p → WitPath B P → Except Err (WitPath B P)
  | _, .leaf _, acc => .ok acc
  | p, .branch _ children height _, acc =>
    if h : childIndex L height index < L then
      (children ⟨childIndex L height index, h⟩).witness prm index i fun c =>
        Function.update acc p (acc p ++ [⟨xCoordinates prm children i, c⟩])
    else .error (.panic "index out of bounds: children")
/-- The `match` on the child and the recursive call, `curve_tree_prover.rs:42-61`; `push` appends the parent with
the given child to the vectors. -/
def Slot.witness {L M : Nat} {B P : Bool → Type} [∀ p, Field (B p)] [∀ p, AddCommGroup (P p)]
    (prm : TreeParams B P) (index : Nat) (i : Fin M) : {p : Bool} → Slot L M P p → (P p → WitPath B P) →
    Except Err (WitPath B P)
  | _, .empty, _ => .error (.panic "Child index out of bounds")
  | _, .node n, push => n.witness prm index i (push (n.commitment i))
end

/-- The `match self` of `CurveTree::select_and_rerandomize_prover_witness`, `curve_tree_prover.rs:86-103`. -/
def CurveTree.witnessNodes (prm : TreeParams B P) (index : Nat) (i : Fin M) : CurveTree L M P → Except Err (WitPath B P)
  | .even n => n.witness prm index i fun _ => []
  | .odd n => n.witness prm index i fun _ => []

/-- `CurveTree::select_and_rerandomize_prover_witness`, `curve_tree_prover.rs:76-113`. -/
def CurveTree.witness (prm : TreeParams B P) (index : Nat) (i : Fin M) (t : CurveTree L M P) :
    Except Err (WitPath B P) := do
  let nodes ← t.witnessNodes prm index i
  if t.height = (nodes false).length + (nodes true).length then .ok nodes
  else .error (.panic "assertion failed: height")

end

end CT
