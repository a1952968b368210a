import Verif.Spec.TreeGadgets

/-!
# Membership

What a satisfying assignment proves about the point returned by the path gadget, independent of the gadgets: the point
is a re-randomisation of a leaf, or the assignment contains a second opening of a commitment of the tree.
-/

namespace CT

/-- The assignment and the blinding factors `bl` open the vector commitments of a Verifier. -/
def VState.OpenedBy {F G X : Type} [Field F] [AddCommGroup G] [Module F G] (g : Gens G) (t : VState F G X)
    (w : Assignment F) (bl : Nat → F) : Prop :=
  ∀ j c d, t.vecComms[j]? = some (c, d) → c = ∑ k : Fin d, w.vec j k • g.Gs.getD k 0 + bl j • g.pc.Bbl

/-- `c` is a re-randomisation with the scalar `z` of `P`, up to the sign that x-coordinates do not determine:
`c + Δ = ±(P + Δ) + z·H`. -/
def RerandOf {P : Type} [AddCommGroup P] (delta h : P) (z : Int) (a c : P) : Prop :=
  c + delta = (a + delta) + z • h ∨ c + delta = -(a + delta) + z • h

/-- Two openings of the same commitment or of a commitment and its negative: `xs` are the children of a node of the tree (committed without blinding),
`vals` and `bl` the opening in the assignment, and `z` the scalar of the re-randomisation. Either way this is a
linear relation with known coefficients, not all zero, between the generators and `Δ`. -/
def SecondOpening {F G : Type} [Field F] [AddCommGroup G] [Module F G] (g : Gens G) (delta : G) (L : Nat) (xs vals : Nat → F)
    (bl : F) (z : Int) : Prop :=
  ((∃ k < L, vals k ≠ xs k) ∧
    ∑ k : Fin L, (vals k - xs k) • g.Gs.getD k 0 + (bl - z) • g.pc.Bbl = 0) ∨
  ∑ k : Fin L, (vals k + xs k) • g.Gs.getD k 0 + (bl - z) • g.pc.Bbl + (2 : Nat) • delta = 0

mutual
/-- The children's x-coordinates (for tree index `i`) of all branches. -/
def Node.branches {L M : Nat} {B P : Bool → Type} [∀ p, Field (B p)] [∀ p, AddCommGroup (P p)] (prm : TreeParams B P) (i : Fin M) :
    {p : Bool} → Node L M P p → List (Σ p, Nat → B (!p))
  | _, .leaf _ => []
  | p, .branch _ children _ _ => ⟨p, fun k => (xCoordinates prm children i).getD k 0⟩ ::
      (List.ofFn fun k => (children k).branches prm i).flatten
def Slot.branches {L M : Nat} {B P : Bool → Type} [∀ p, Field (B p)] [∀ p, AddCommGroup (P p)] (prm : TreeParams B P) (i : Fin M) :
    {p : Bool} → Slot L M P p → List (Σ p, Nat → B (!p))
  | _, .empty => []
  | _, .node n => n.branches prm i
end

def CurveTree.branches {L M : Nat} {B P : Bool → Type} [∀ p, Field (B p)] [∀ p, AddCommGroup (P p)] (prm : TreeParams B P) (i : Fin M) :
    CurveTree L M P → List (Σ p, Nat → B (!p))
  | .even n => n.branches prm i
  | .odd n => n.branches prm i

section
variable {B : Bool → Type} [∀ p, Field (B p)] [∀ p, DecidableEq (B p)] {C : ∀ p, SWCurve (B p)}
  [∀ p, Module (B (!p)) (C p).Pt]

/-- The scalars read off the witness on curve `p`: one for each level. -/
def SelRerand.scalars (prm : SelRerand C) (p : Bool) (vs : List (List (Window (B (!p))))) (w : Assignment (B (!p))) : List Int :=
  vs.map fun v => extractScalar (windows (prm.layer (!p)).lambda) (prm.layer (!p)).tables v w
end

end CT
