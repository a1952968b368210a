import Verif.Model.Verify
import Verif.Spec.Sync

/-! # What it means that a Prover and a Verifier worked on the same statement

`Session o g s t`: the Prover state `s` and the Verifier state `t` were reached by making the same calls of
the public API on both sides: both were created from the same transcript, the Verifier was given the
commitments the Prover's `commit` / `commit_vec` returned (and the true dimension), both ran the same
gadgets and registered the same second-phase callbacks. Gadgets may differ only in the witness values
passed to `allocate` / `allocate_multiplier` (`SameCalls`). What is called next may depend on everything
that happened before, so any adaptive client is covered. -/

namespace CT

section
variable {F G X : Type} [Field F] [AddCommGroup G] [Module F G]

/-- Prover and Verifier agree on the statement and the Verifier holds the Prover's commitments. -/
structure Synced (g : Gens G) (s : PState F G X) (t : VState F G X) : Prop where
  stmt : SameStatement s t
  lenV : s.vBlinding.length = s.v.length
  V : t.V = List.zipWith g.pc.commit s.v s.vBlinding
  comms : t.vecComms = s.vecOpen.map fun c => (msm (g.pc.Bbl :: g.Gs.take c.2.length) (c.1 :: c.2), c.2.length)

end

variable {F G X : Type} [Field F] [DecidableEq F] [AddCommGroup G] [Module F G] [DecidableEq G]

inductive Session (o : Oracle F G X) (g : Gens G) : PState F G X → VState F G X → Prop
  | new (tr : Transcript F G X) : Session o g (.new tr) (.new tr)
  | commit {s t} (v bl : F) : Session o g s t →
      Session o g (s.commit g v bl).2 (t.commit (s.commit g v bl).1.1).2
  | commitVec {s t s'} {v : List F} {bl : F} {V : G} {vars : List Variable} : Session o g s t →
      s.commitVec g v bl = .ok ((V, vars), s') → Session o g s' (t.commitVec v.length V).2
  | gadget {s t s' t'} {α β : Type} {R : α → β → Prop} {p : Prog F G X α} {q : Prog F G X β} {a : α} {b : β} :
      Session o g s t → SameCalls R p q → runP o p s = .ok (a, s') → runV o q t = .ok (b, t') →
      Session o g s' t'
  | randomized {s t} {p q : Prog F G X Unit} : Session o g s t → SameCalls (fun _ _ => True) p q →
      Session o g (s.specifyRandomized p) (t.specifyRandomized q)

/-- The Prover state when the second-phase callbacks have been run, the first-phase commitments being `c`. -/
def PState.secondPhase (o : Oracle F G X) (s : PState F G X) (c : Com G) : Except Err (PState F G X) :=
  PState.createRandomized o { s.pad with transcript := s.pad.transcript ++ [.num "m" s.v.length,
    .point "A_I1" c.AI, .point "A_O1" c.AO, .point "S1" c.S] }

/-- The three points `prove` sends first. -/
def PState.firstCommitments (g : Gens G) (rnd : PRand F) (s : PState F G X) : Com G :=
  commit1 g rnd s.pad s.pad.size

/-- At the end, that is when also the second-phase callbacks have been run, every constraint evaluates
to zero on the Prover's values. -/
def PState.TrueStatement (o : Oracle F G X) (g : Gens G) (rnd : PRand F) (s : PState F G X) : Prop :=
  ∀ s2, s.secondPhase o (s.firstCommitments g rnd) = .ok s2 → ∀ c ∈ s2.constraints, s2.assignment.eval c = 0

/-- None of the points the Verifier refuses when they are the identity is the identity. -/
structure R1CSProof.NoIdentity (p : R1CSProof F G) (ncomm : Nat) : Prop where
  AI1 : p.AI1 ≠ 0
  AO1 : p.AO1 ≠ 0
  S1 : p.S1 ≠ 0
  T : ∀ d < p.T.length, d ≠ opDegree ncomm → p.T.getD d 0 ≠ 0
  L : ∀ P ∈ p.ipp.L, P ≠ 0
  R : ∀ P ∈ p.ipp.R, P ≠ 0

end CT
