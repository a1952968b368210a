import Verif.Spec.Tree

/-! # What two trees with the same root say about the generators -/

namespace CT

mutual
/-- The vectors committed to by the nodes of a tree: for each inner node on curve `p` the x-coordinates of its children. -/
def Node.vectors {L M : Nat} {B P : Bool → Type} [∀ p, Field (B p)] [∀ p, AddCommGroup (P p)] (prm : TreeParams B P) (i : Fin M) :
    {p : Bool} → Node L M P p → ∀ q : Bool, List (Fin L → B (!q))
  | _, .leaf _, _ => []
  | p, .branch _ children _ _, q =>
    Function.update (β := fun q => List (Fin L → B (!q))) (fun _ => []) p [fun k => (children k).x prm i] q ++ (List.ofFn fun k => (children k).vectors prm i q).flatten
def Slot.vectors {L M : Nat} {B P : Bool → Type} [∀ p, Field (B p)] [∀ p, AddCommGroup (P p)] (prm : TreeParams B P) (i : Fin M) :
    {p : Bool} → Slot L M P p → ∀ q : Bool, List (Fin L → B (!q))
  | _, .empty, _ => []
  | _, .node n, q => n.vectors prm i q
end

variable {L M : Nat} {B P : Bool → Type} [∀ p, Field (B p)] [∀ p, AddCommGroup (P p)] [∀ p, Module (B (!p)) (P p)]

def CurveTree.vectors (prm : TreeParams B P) (i : Fin M) : CurveTree L M P → ∀ q : Bool, List (Fin L → B (!q))
  | .even n => n.vectors prm i
  | .odd n => n.vectors prm i

/-- Commitment `i` of the root, with the curve it is on. -/
def CurveTree.root (i : Fin M) : CurveTree L M P → Σ p, P p
  | .even n => ⟨false, n.commitment i⟩
  | .odd n => ⟨true, n.commitment i⟩

/-- Two of the given vectors give a linear relation between the generators used for tree index `i`, with coefficients that are not all zero, or a linear
relation between these generators and `delta`, with coefficient two for `delta`. -/
def RelationIn (prm : TreeParams B P) (i : Fin M) (vs : ∀ q : Bool, List (Fin L → B (!q))) : Prop :=
  ∃ q, ∃ v ∈ vs q, ∃ w ∈ vs q,
    (v ≠ w ∧ ∑ k, (v k - w k) • (prm.gens q).Gs.getD (i * L + k) 0 = 0) ∨
    ∑ k, (v k + w k) • (prm.gens q).Gs.getD (i * L + k) 0 + (2 : Nat) • prm.delta q = 0

end CT
