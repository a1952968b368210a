import Mathlib.Data.Finset.Card
import Mathlib.Data.Finset.Image
import Mathlib.Order.Interval.Finset.Nat
import Verif.Spec.Acceptance
import Verif.Spec.Flatten

/-!
# Rewindable provers and what can be extracted from them

Written from the definition of special soundness. A prover is a pair of next-message functions: `Messages` are
the points it sends and `Responses` the scalars it sends, each as a function of the challenges received so far.
It is run on a tree of challenges (`Forks`), and the Verifier accepts every run (`AcceptsTree`).

The extractor is given the circuit, the scalars the prover sent and the challenges, and nothing else: it does not see a
single point. Its output is a non-trivial relation between the generators (`Relation`) or a witness (`Extracted`).
-/

namespace CT
open Finset
variable {F G X : Type} [Field F] [AddCommGroup G] [Module F G]

/-! ## The statement -/

/-- The public circuit of a statement. -/
structure Circuit (F : Type) where
  /-- size when the first phase ends -/
  first : Nat
  /-- number of multipliers -/
  n : Nat
  /-- number of single-value commitments -/
  m : Nat
  /-- dimensions of the vector commitments -/
  dims : List Nat
  constraints : List (LC F)

/-- The circuit of the Verifier `t` which is `t2` after the second phase. -/
def VState.circuit (t t2 : VState F G X) : Circuit F where
  first := t.size
  n := t2.numVars
  m := t2.V.length
  dims := t2.vecComms.map (·.2)
  constraints := t2.constraints

/-! ## The prover -/

/-- The points a prover sends, as functions of the challenges `y z u x w` and the challenges of the inner product
argument received so far. -/
structure Messages (F G : Type) where
  AI1 : G
  AO1 : G
  S1 : G
  AI2 : G
  AO2 : G
  S2 : G
  T : (y z : F) → List G
  L : (y z u x w : F) → List F → G
  R : (y z u x w : F) → List F → G

/-- The scalars a prover sends. -/
structure Responses (F : Type) where
  tx : (y z u x : F) → F
  txBl : (y z u x : F) → F
  eBl : (y z u x : F) → F
  a : (y z u x w : F) → List F → F
  b : (y z u x w : F) → List F → F

/-- The proof that results when the challenges are `y z u x w` and `us`. -/
def strategyProof (M : Messages F G) (R : Responses F) (y z u x w : F) (us : List F) : R1CSProof F G where
  AI1 := M.AI1
  AO1 := M.AO1
  S1 := M.S1
  AI2 := M.AI2
  AO2 := M.AO2
  S2 := M.S2
  T := M.T y z
  tx := R.tx y z u x
  txBl := R.txBl y z u x
  eBl := R.eBl y z u x
  ipp :=
    { L := (List.range us.length).map fun i => M.L y z u x w (us.take i)
      R := (List.range us.length).map fun i => M.R y z u x w (us.take i)
      a := R.a y z u x w us
      b := R.b y z u x w us }

/-! ## The tree of challenges -/

/-- For every challenge the values it is given, after the challenges before it. -/
structure Forks (F : Type) where
  Y : Finset F
  Z : F → Finset F
  U : F → F → Finset F
  X : F → F → F → Finset F
  W : F → F → F → F → Finset F
  C : F → F → F → F → F → List F → Finset F

/-- The challenges `us` are allowed after `pre`. -/
def InPaths (Cs : List F → Finset F) : (pre us : List F) → Prop
  | _, [] => True
  | pre, u :: us => u ∈ Cs pre ∧ InPaths Cs (pre ++ [u]) us

/-- The challenges are a path through the tree. -/
structure Forks.Path (fk : Forks F) (y z u x w : F) (us : List F) : Prop where
  hy : y ∈ fk.Y
  hz : z ∈ fk.Z y
  hu : u ∈ fk.U y z
  hx : x ∈ fk.X y z u
  hw : w ∈ fk.W y z u x
  hus : InPaths (fk.C y z u x w) [] us

/-- Enough challenges in every round: non-zero, and at least four different squares. -/
def FourChallenges [DecidableEq F] (Cs : List F → Finset F) : Prop := ∀ pre, 0 ∉ Cs pre ∧ 4 ≤ ((Cs pre).image (· ^ 2)).card

/-- Enough challenges for a circuit, and `lg` rounds of the inner product argument. -/
structure Forks.Enough [DecidableEq F] (fk : Forks F) (c : Circuit F) (lg : Nat) : Prop where
  Y : 0 ∉ fk.Y ∧ 2 ^ lg ≤ fk.Y.card
  Z : ∀ y, c.constraints.length + 1 ≤ (fk.Z y).card
  U : ∀ y z, 0 ∉ fk.U y z ∧ 5 ≤ (fk.U y z).card
  X : ∀ y z u, 2 * (opDegree c.dims.length + 1) + 1 ≤ (fk.X y z u).card
  W : ∀ y z u x, 0 ∉ fk.W y z u x ∧ 2 ≤ (fk.W y z u x).card
  C : ∀ y z u x w, FourChallenges (fk.C y z u x w)

/-! ## Acceptance -/

/-- The challenges of an inner product argument. -/
def roundChallenges (o : Oracle F G X) : List (G × G) → Transcript F G X → List F
  | [], _ => []
  | (L, R) :: rest, t =>
    let t' := t ++ [.point "L" L, .point "R" R, .chal "u"]
    o t' :: roundChallenges o rest t'

/-- The challenges of a run with proof `p`, where `t2` is the Verifier after the second phase, are `y z u x w` and `us`. -/
structure HasChallenges (o : Oracle F G X) (p : R1CSProof F G) (t2 : VState F G X) (y z u x w : F) (us : List F) : Prop where
  y : o (absorbedA p t2 ++ [.chal "y"]) = y
  z : o (absorbedA p t2 ++ [.chal "y", .chal "z"]) = z
  u : o (absorbedT p t2 ++ [.chal "u"]) = u
  x : o (absorbedT p t2 ++ [.chal "u", .chal "x"]) = x
  w : o (absorbedW p t2) = w
  us : roundChallenges o (p.ipp.L.zip p.ipp.R) (absorbedW p t2 ++ [.sep "ipp v1", .num "n" (2 ^ p.ipp.L.length)]) = us

/-- The Verifier `t` accepts every run of the prover on the tree. In every run the oracle gives the challenges of a path of the tree and the
same second phase `t2`, and the proof is accepted for two values of the Verifier's own random scalar. -/
def AcceptsTree [DecidableEq F] [DecidableEq G] (g : Gens G) (t t2 : VState F G X) (M : Messages F G) (R : Responses F) (fk : Forks F)
    (lg : Nat) : Prop :=
  ∀ y z u x w us, fk.Path y z u x w us → us.length = lg →
    ∃ o : Oracle F G X, t.secondPhase o M.AI1 M.AO1 M.S1 = .ok t2 ∧
      HasChallenges o (strategyProof M R y z u x w us) t2 y z u x w us ∧
      ∃ r r', r ≠ r' ∧ verify o g r (strategyProof M R y z u x w us) t = .ok () ∧
        verify o g r' (strategyProof M R y z u x w us) t = .ok ()

/-! ## What is extracted -/

/-- Coefficients of a combination of the generators. -/
structure Relation (F : Type) where
  b : F
  bbl : F
  g : Nat → F
  h : Nat → F

/-- One of the coefficients of the first `N` generators is not zero. -/
def Relation.NonTrivial (r : Relation F) (N : Nat) : Prop :=
  r.b ≠ 0 ∨ r.bbl ≠ 0 ∨ ∃ i < N, r.g i ≠ 0 ∨ r.h i ≠ 0

/-- The combination of the first `N` generators is the identity. -/
def Relation.Holds (r : Relation F) (N : Nat) (g : Gens G) : Prop :=
  r.b • g.pc.B + r.bbl • g.pc.Bbl + ∑ i ∈ range N, r.g i • g.Gs.getD i 0 + ∑ i ∈ range N, r.h i • g.Hs.getD i 0 = 0

/-- An opening of a commitment to two vectors. -/
structure Opening (F : Type) where
  bl : F
  g : Nat → F
  h : Nat → F

/-- `A` is the commitment with this opening. -/
def Opening.Opens (op : Opening F) (N : Nat) (g : Gens G) (A : G) : Prop :=
  A = op.bl • g.pc.Bbl + ∑ i ∈ range N, op.g i • g.Gs.getD i 0 + ∑ i ∈ range N, op.h i • g.Hs.getD i 0

/-- Openings of everything. -/
structure Extracted (F : Type) where
  AI1 : Opening F
  AO1 : Opening F
  AI2 : Opening F
  AO2 : Opening F
  /-- the vector commitments -/
  comm : Nat → Opening F
  /-- values and blindings of the single-value commitments -/
  committed : Nat → F
  committedBl : Nat → F

namespace Extracted

/-- The assignment: the wires of the first phase are in `AI1`, `AO1`, the others in `AI2`, `AO2`. -/
def assignment (e : Extracted F) (c : Circuit F) : Assignment F where
  left i := if i < c.first then e.AI1.g i else e.AI2.g i
  right i := if i < c.first then e.AI1.h i else e.AI2.h i
  out i := if i < c.first then e.AO1.g i else e.AO2.g i
  committed := e.committed
  vec j i := if i < c.first then (e.comm j).g i else 0

/-- The opening of slot `s ≥ 1`: the outputs of the multipliers, then the vector commitments. -/
def slot (e : Extracted F) (s : Nat) : Opening F := if s = 1 then e.AO1 else e.comm (s - 2)

/-- What the vector commitments add to gate `i`: products of `G` components of one slot and `H` components of
another whose degrees add up to the degree of the circuit equation. -/
def cross (e : Extracted F) (c : Circuit F) (i : Nat) : F :=
  if i < c.first then
    ∑ s ∈ Ico 1 (c.dims.length + 2), ∑ s' ∈ Ico 1 (c.dims.length + 2),
      if lDeg (opDegree c.dims.length) s + lDeg (opDegree c.dims.length) s' = opDegree c.dims.length then
        (e.slot s).g i * (e.slot s').h i else 0
  else 0

end Extracted

/-- The single-value commitments in a constraint. -/
def committedPart (c : LC F) (V : Nat → G) : G :=
  (c.terms.map fun t => match t.1 with
    | .committed j => t.2 • V j
    | _ => 0).sum

/-- The extracted values open the commitments of the proof and of the statement, satisfy every constraint, and
satisfy every gate up to `cross`. -/
structure Extracted.Valid (e : Extracted F) (c : Circuit F) (N : Nat) (g : Gens G) (M : Messages F G) (comms V : List G) : Prop where
  AI1 : e.AI1.Opens N g M.AI1
  AO1 : e.AO1.Opens N g M.AO1
  AI2 : e.AI2.Opens N g M.AI2
  AO2 : e.AO2.Opens N g M.AO2
  comm : ∀ j < comms.length, (e.comm j).Opens N g (comms.getD j 0)
  /-- in every constraint, the single-value commitments can be replaced by commitments to the extracted values -/
  committed : ∀ q ∈ c.constraints, committedPart q (fun j => V.getD j 0) =
    committedPart q fun j => e.committed j • g.pc.B + e.committedBl j • g.pc.Bbl
  constraints : ∀ q ∈ c.constraints, (e.assignment c).eval q = 0
  gates : ∀ i < N, (e.assignment c).left i * (e.assignment c).right i + e.cross c i = (e.assignment c).out i

end CT
