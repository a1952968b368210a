import Verif.Model.TreeGadgets

/-!
# The accumulator

Models `relations/benches/accumulator.rs:52-305`: the leaves of a tree are commitments to vectors of field elements, and a proof shows that a
public element is an entry of one of the vectors without showing of which.

Generalisations: the benchmark has one leaf, proves for its first element and verifies copies of one proof; here the index, the
element and the proofs to be verified are arguments.
-/

namespace CT

variable {B : Bool → Type} [∀ p, Field (B p)] [∀ p, DecidableEq (B p)] {C : ∀ p, SWCurve (B p)}
  [∀ p, Module (B (!p)) (C p).Pt] {L M : Nat} [NeZero M]

/-- The leaf for a vector of elements, `accumulator.rs:81-84`. -/
def accLeaf (prm : SelRerand C) (elements : List (B (!false))) : Option (C false).Pt :=
  layerCommit? (prm.gens false) elements 0 0

/-- The closure `prove` up to the calls of `Prover::prove`, `accumulator.rs:90-118`: both Provers, for the leaf at `index` with the given
elements. `dom` is `Transcript::new(b"acc")` and `rnd` are the scalars drawn by the gadget. -/
def accProvers (o : ∀ p, SideO C p) (fx : Bool) (prm : SelRerand C) (T : CurveTree L M (Pts C))
    (dom : ∀ p, Transcript (B (!p)) (C p).Pt (C (!p)).Pt) (rnd : ∀ p, Nat → B (!p)) (index : Nat) (elements : List (B (!false)))
    (element : B (!false)) : Except Err (Path (C false).Pt (C true).Pt × SideP C false × SideP C true) :=
  match treeProverGadget (o false) (o true) fx prm rnd T index 0 (.new (dom false)) (.new (dom true)) with
  | .error e => .error e
  | .ok ((path, r), sE, sO) =>
    match sE.commitVec (prm.gens false) elements r with
    | .error e => .error e
    | .ok ((leaf, vars), sE) =>
      if leaf = path.selected then
        match runP (o false) (select (LC.const element) (vars.map LC.ofVar)) sE with
        | .error e => .error e
        | .ok (_, sE) => .ok (path, sE, sO)
      else .error (.panic "assertion failed: `(left == right)`")

/-- A path with the proofs on the two curves, as returned by `prove`, `accumulator.rs:148`. -/
structure AccProof (C : ∀ p, SWCurve (B p)) where
  path : Path (C false).Pt (C true).Pt
  even : R1CSProof (B (!false)) (C false).Pt
  odd : R1CSProof (B (!true)) (C true).Pt

/-- The closure `prove`, `accumulator.rs:89-149`. -/
def accProve (o : ∀ p, SideO C p) (fx : Bool) (prm : SelRerand C) (T : CurveTree L M (Pts C))
    (dom : ∀ p, Transcript (B (!p)) (C p).Pt (C (!p)).Pt) (rnd : ∀ p, Nat → B (!p)) (rndE : PRand (B (!false))) (rndO : PRand (B (!true)))
    (index : Nat) (elements : List (B (!false))) (element : B (!false)) : Except Err (AccProof C) :=
  match accProvers o fx prm T dom rnd index elements element with
  | .error e => .error e
  | .ok (path, sE, sO) =>
    match prove (o false) (prm.gens false) rndE sE with
    | .error e => .error e
    | .ok (even, _) =>
      match prove (o true) (prm.gens true) rndO sO with
      | .error e => .error e
      | .ok (odd, _) => .ok ⟨path, even, odd⟩

/-- The Verifier on the even curve, `accumulator.rs:253-267`, for a path to which the root has been added. -/
def accEvenVerifier (o : SideO C false) (fx : Bool) (prm : SelRerand C) (T : CurveTree L M (Pts C))
    (dom : Transcript (B (!false)) (C false).Pt (C (!false)).Pt) (width : Nat) (element : B (!false)) (path : Path (C false).Pt (C true).Pt) :
    Except Err (SideV C false) :=
  match evenVerifierGadget o fx prm T path (.new dom) with
  | .error e => .error e
  | .ok s =>
    (runV o (select (LC.const element) ((s.commitVec width path.selected).1.map LC.ofVar)) (s.commitVec width path.selected).2).map (·.2)

/-- Both Verifiers for a path, `accumulator.rs:245-267, 283-290`. -/
def accVerifiers (o : ∀ p, SideO C p) (fx : Bool) (prm : SelRerand C) (T : CurveTree L M (Pts C))
    (dom : ∀ p, Transcript (B (!p)) (C p).Pt (C (!p)).Pt) (width : Nat) (element : B (!false)) (path : Path (C false).Pt (C true).Pt) :
    Except Err (SideV C false × SideV C true) :=
  match addRoot T path with
  | .error e => .error e
  | .ok path =>
    match accEvenVerifier (o false) fx prm T (dom false) width element path with
    | .error e => .error e
    | .ok sE =>
      match oddVerifierGadget (o true) fx prm T path (.new (dom true)) with
      | .error e => .error e
      | .ok sO => .ok (sE, sO)

/-- The tuples for one proof, `accumulator.rs:245-271, 283-295`. `r` are the random scalars drawn by the Verifiers. -/
def accTuples (o : ∀ p, SideO C p) (fx : Bool) (prm : SelRerand C) (T : CurveTree L M (Pts C))
    (dom : ∀ p, Transcript (B (!p)) (C p).Pt (C (!p)).Pt) (width : Nat) (element : B (!false)) (r : ∀ p, B (!p)) (pf : AccProof C) :
    Except Err (Tuple (B (!false)) (C false).Pt × Tuple (B (!true)) (C true).Pt) :=
  match accVerifiers o fx prm T dom width element pf.path with
  | .error e => .error e
  | .ok (sE, sO) =>
    match verificationTuple (o false) (r false) pf.even sE with
    | .error e => .error e
    | .ok vE =>
      match verificationTuple (o true) (r true) pf.odd sO with
      | .error e => .error e
      | .ok vO => .ok (vE, vO)

/-- The verification of a list of proofs, `accumulator.rs:244-305`: all tuples on both curves, then `batch_verify` on both curves with the random
weights `rs`. (The code computes the tuples of the even curve and checks them before those of the odd one; the order matters only for
which of two errors is reported.) -/
def accVerify (o : ∀ p, SideO C p) (fx : Bool) (prm : SelRerand C) (T : CurveTree L M (Pts C))
    (dom : ∀ p, Transcript (B (!p)) (C p).Pt (C (!p)).Pt) (width : Nat) (element : B (!false)) (rs : ∀ p, List (B (!p)))
    (proofs : List ((∀ p, B (!p)) × AccProof C)) : Except Err Unit :=
  match proofs.mapM (fun x => accTuples o fx prm T dom width element x.1 x.2) with
  | .error e => .error e
  | .ok vs =>
    match batchVerify (prm.gens false) (rs false) (vs.map (·.1)) with
    | .error e => .error e
    | .ok () => batchVerify (prm.gens true) (rs true) (vs.map (·.2))

end CT
