import Verif.Proofs.Openings
import Verif.Proofs.Serialize
import Verif.Proofs.Complete
import Verif.Props.Completeness
import Verif.Props.Soundness
import Verif.Proofs.Knowledge
import Verif.Model.ExampleGadget

/-! # C67: an accepted proof shows that the prover can open every commitment -/

namespace CT
open Finset

section
variable {F : Type} [Field F] [DecidableEq F]

/-- **C67** (partial: for the commitments that the constraints determine). Let a prover be accepted on a tree of challenges as in C09. Then its scalars determine a
non-trivial relation between the generators, or values and blindings that open every commitment `j` that is determined by the constraints, and that satisfy every constraint. -/
theorem C67_determined_opened_partial (c : Circuit F) (R : Responses F) (fk : Forks F) (lg : Nat) (hE : fk.Enough c lg) :
    (∃ r : Relation F, r.NonTrivial (2 ^ lg) ∧ ∀ (G X : Type) [AddCommGroup G] [Module F G] [DecidableEq G] (g : Gens G)
      (t t2 : VState F G X) (M : Messages F G), t.circuit t2 = c → g.capacity ≤ g.Gs.length → g.capacity ≤ g.Hs.length →
      AcceptsTree g t t2 M R fk lg → r.Holds (2 ^ lg) g) ∨
    (∃ (w : Assignment F) (bl : Nat → F), ∀ (G X : Type) [AddCommGroup G] [Module F G] [DecidableEq G] (g : Gens G)
      (t t2 : VState F G X) (M : Messages F G), t.circuit t2 = c → g.capacity ≤ g.Gs.length → g.capacity ≤ g.Hs.length →
      AcceptsTree g t t2 M R fk lg →
        (∀ q ∈ c.constraints, w.eval q = 0) ∧ ∀ j, Determined c.constraints j → t2.V.getD j 0 = g.pc.commit (w.committed j) (bl j)) := by
  rcases C09_extraction_partial c R fk lg hE with h | ⟨e, he⟩
  · exact .inl h
  · refine .inr ⟨e.assignment c, e.committedBl, fun G X _ _ _ g t t2 M hc hG hH ha => ?_⟩
    have hv := he G X g t t2 M hc hG hH ha
    refine ⟨hv.constraints, fun j hj => ?_⟩
    obtain ⟨a, h⟩ := hj.combination
    rw [← h G (fun j => t2.V.getD j 0), sum_congr rfl fun i _ => by rw [show committedPart c.constraints[i] (fun j => t2.V.getD j 0) = _ from hv.committed _ (List.getElem_mem _)], h G]
    simp [PedersenGens.commit, Extracted.assignment]

end

variable {F G X : Type} [Field F] [DecidableEq F] [AddCommGroup G] [Module F G] [DecidableEq G]

omit [DecidableEq F] [DecidableEq G] in
theorem paperAccepts_shift {o : Oracle F G X} {g : Gens G} {p : R1CSProof F G} {t : VState F G X} (hd : t.deferred = []) {u : Nat → F}
    (hu : ∀ q ∈ t.constraints, committedPart q u = 0) (R : G) (h : PaperAccepts o g p t) :
    PaperAccepts o g p { t with V := t.V.mapIdx fun j V => V + u j • R } := by
  obtain ⟨t2, wt, hs, h1, h2⟩ := h
  have hV : (t.V.mapIdx fun j V => V + u j • R).length = t.V.length := by simp
  have e2 := hs.second
  unfold VState.secondPhase at e2
  rw [VState.pad_eq] at e2
  simp only [VState.createRandomized, hd, if_true, Except.ok.injEq] at e2
  have hw := hs.weights
  have hsh : wt.wV.length = t.V.length := by
    have := (flattenLoop_apply (Weights.zero_shape _ _ _) hw ⟨fun _ => 0, fun _ => 0, fun _ => 0, fun _ => 0, fun _ _ => 0⟩).1.wV
    rw [this, ← e2]
  have h0 := wV_shift t2 hw (u := u) (by rw [← e2]; exact hu)
  rw [hsh] at h0
  refine ⟨{ t2 with V := t.V.mapIdx fun j V => V + u j • R }, wt, ⟨hs.AI1, hs.AO1, hs.S1, ?_, hs.T, hs.y, ?_, hs.size, hs.sizeMin, hs.rounds, hs.capacity⟩, ?_, h2⟩
  · unfold VState.secondPhase
    rw [VState.pad_eq]
    simp only [VState.createRandomized, hd, if_true, Except.ok.injEq]
    rw [← e2]
    simp only [hV]
    rfl
  · rw [← hw]
    unfold VState.flattened
    simp only [hV]
    rw [← e2]
    rfl
  · rw [← h1]
    unfold Check.polyDefect paperCheck
    simp only [hV]
    have e3 : t2.V = t.V := by rw [← e2]
    rw [e3]
    have e4 : ∑ i ∈ range t.V.length, wt.wV.getD i 0 • (t.V.mapIdx fun j V => V + u j • R).getD i 0 =
        ∑ i ∈ range t.V.length, wt.wV.getD i 0 • t.V.getD i 0 := by
      have : ∀ i ∈ range t.V.length, wt.wV.getD i 0 • (t.V.mapIdx fun j V => V + u j • R).getD i 0 =
          wt.wV.getD i 0 • t.V.getD i 0 + (wt.wV.getD i 0 * u i) • R := by
        intro i hi
        have hi := mem_range.1 hi
        rw [getD_of_lt (t.V.mapIdx fun j V => V + u j • R) i 0 (by rw [hV]; exact hi), getD_of_lt t.V i 0 hi, List.getElem_mapIdx, smul_add, smul_smul]
      rw [sum_congr rfl this, sum_add_distrib, ← sum_smul, h0, zero_smul, add_zero]
    rw [e4]
    rfl

/-- C67 is false when the constraints do not determine a commitment. Take Prover `s` and Verifier `t` that worked on the same true statement without second phase, and a change `u` of
the committed variables that no constraint sees. For every point `R`, a Prover with the values of `s` makes proofs that are accepted for the commitments
`V_j + u_j R`, whatever the transcript. It need not know anything about `R`. -/
theorem C67_undetermined_accepted (o : Oracle F G X) (g : Gens G) (rnd : PRand F) {o' : Oracle F G X} {s : PState F G X} {t : VState F G X} (h : Session o' g s t)
    (hcG : g.capacity ≤ g.Gs.length) (hcH : g.capacity ≤ g.Hs.length) (hd : t.deferred = []) (htrue : s.Satisfied) (h32 : nextPow2 s.size < 2 ^ 32)
    {u : Nat → F} (hu : ∀ q ∈ t.constraints, committedPart q u = 0) (R : G) (tr tr' : Transcript F G X) {p : R1CSProof F G}
    (hp : prove o g rnd { s with transcript := tr } = .ok (p, tr')) (hne : p.NoIdentity s.vecOpen.length) (r : F) :
    verify o g r p { t with V := t.V.mapIdx fun j V => V + u j • R, transcript := tr } = .ok () := by
  have hds : s.deferred = [] := by
    have := h.inv.deferred
    rw [hd] at this
    cases hs : s.deferred with
    | nil => rfl
    | cons a l => rw [hs] at this; cases this
  have hi : SessionInv g { s with transcript := tr } { t with transcript := tr } :=
    ⟨⟨⟨h.inv.sync.stmt.constraints, h.inv.sync.stmt.left, h.inv.sync.stmt.right, h.inv.sync.stmt.out, h.inv.sync.stmt.pending, rfl⟩,
      h.inv.sync.lenV, h.inv.sync.V, h.inv.sync.comms⟩, ⟨h.inv.inv.lenR, h.inv.inv.lenO, h.inv.inv.gates, h.inv.inv.pend⟩, h.inv.deferred⟩
  have hpd : ({ s with transcript := tr } : PState F G X).pad.deferred = [] := by rw [PState.pad_eq]; exact hds
  have key : ∀ s2, ({ s with transcript := tr } : PState F G X).secondPhase o (({ s with transcript := tr } : PState F G X).firstCommitments g rnd) = .ok s2 →
      s2.constraints = s.constraints ∧ s2.assignment = s.assignment ∧ s2.size = s.size := by
    intro s2 h2
    unfold PState.secondPhase PState.createRandomized at h2
    simp only [hpd, if_true, Except.ok.injEq] at h2
    subst h2
    refine ⟨by rw [PState.pad_eq], ?_, ({ s with transcript := tr } : PState F G X).pad_size⟩
    exact ({ s with transcript := tr } : PState F G X).pad_assignment
  have hv : ∀ r, verify o g r p { t with transcript := tr } = .ok () := fun r =>
    complete_core o g rnd _ _ hi hcG hcH (fun s2 h2 c hc => by
      rw [(key s2 h2).2.1]; exact htrue.2 c (by rw [← (key s2 h2).1]; exact hc)) hp (fun s2 h2 => by rw [(key s2 h2).2.2]; exact h32) hne r
  have hLR : p.ipp.L.length = p.ipp.R.length := by
    rw [prove_eq] at hp
    split at hp
    · cases hp
    · split at hp
      · cases hp
      · rename_i s2 _
        obtain ⟨-, e1, e2⟩ := proveTail_lengths o g rnd _ _ _ hcG hp
        rw [e1, e2]
  exact C41_paper_proofs_accepted o g p _ hLR hcG hcH (paperAccepts_shift (t := { t with transcript := tr }) hd hu R
    ((C41_always_accepted_iff o g p _ hLR hcG hcH).1 hv)) r

/-! ## The example gadget of the tests -/

/-- The constraints of the example gadget: the inputs of the gate are `a1 + a2` and `b1 + b2`, the output is `c1 + c2`. -/
def exampleConstraints (c2 : F) : List (LC F) :=
  [⟨[(.committed 0, 1), (.committed 1, 1), (.multiplierLeft 0, -1)]⟩, ⟨[(.committed 2, 1), (.committed 3, 1), (.multiplierRight 0, -1)]⟩,
   ⟨[(.committed 4, 1), (.one, c2), (.multiplierOutput 0, -1)]⟩]

/-- The circuit of the example gadget. -/
def exampleCircuit (c2 : F) : Circuit F := ⟨1, 1, 5, [], exampleConstraints c2⟩

/-- The Verifier of the example gadget. -/
def exampleV (tr : Transcript F G X) (c2 : F) (V0 V1 V2 V3 V4 : G) : VState F G X where
  transcript := tr ++ [.sep "r1cs v1", .point "V" V0, .point "V" V1, .point "V" V2, .point "V" V3, .point "V" V4]
  V := [V0, V1, V2, V3, V4]
  numVars := 1
  constraints := exampleConstraints c2

/-- The Prover of the example gadget. -/
def exampleP (g : Gens G) (tr : Transcript F G X) (a1 a2 b1 b2 c1 : F × F) (c2 : F) : PState F G X where
  transcript := tr ++ [.sep "r1cs v1", .point "V" (g.pc.commit a1.1 a1.2), .point "V" (g.pc.commit a2.1 a2.2), .point "V" (g.pc.commit b1.1 b1.2),
    .point "V" (g.pc.commit b2.1 b2.2), .point "V" (g.pc.commit c1.1 c1.2)]
  v := [a1.1, a2.1, b1.1, b2.1, c1.1]
  vBlinding := [a1.2, a2.2, b1.2, b2.2, c1.2]
  aL := [a1.1 + a2.1]
  aR := [b1.1 + b2.1]
  aO := [(a1.1 + a2.1) * (b1.1 + b2.1)]
  constraints := exampleConstraints c2

omit [DecidableEq F] [AddCommGroup G] [Module F G] [DecidableEq G] in
theorem exampleRunV (o : Oracle F G X) (c2 : F) (t : VState F G X) (a1 a2 b1 b2 c1 : Variable) :
    runV o (exampleGadget (LC.ofVar a1) (LC.ofVar a2) (LC.ofVar b1) (LC.ofVar b2) (LC.ofVar c1) (LC.const c2)) t =
      .ok ((), { t with numVars := t.numVars + 1, constraints := t.constraints ++ [⟨[(a1, 1), (a2, 1), (.multiplierLeft t.numVars, -1)]⟩,
        ⟨[(b1, 1), (b2, 1), (.multiplierRight t.numVars, -1)]⟩, ⟨[(c1, 1), (.one, c2), (.multiplierOutput t.numVars, -1)]⟩] }) := by
  have h : runV o (exampleGadget (LC.ofVar a1) (LC.ofVar a2) (LC.ofVar b1) (LC.ofVar b2) (LC.ofVar c1) (LC.const c2)) t =
    .ok ((), { t with numVars := t.numVars + 1, constraints := t.constraints ++ [⟨[(a1, 1), (a2, 1), (.multiplierLeft t.numVars, -1)]⟩] ++
        [⟨[(b1, 1), (b2, 1), (.multiplierRight t.numVars, -1)]⟩] ++ [⟨[(c1, 1), (.one, c2), (.multiplierOutput t.numVars, -1)]⟩] }) := rfl
  rw [h]
  simp

omit [DecidableEq F] [AddCommGroup G] [Module F G] [DecidableEq G] in
theorem exampleVerifier_eq (o : Oracle F G X) (tr : Transcript F G X) (c2 : F) (V0 V1 V2 V3 V4 : G) :
    exampleVerifier o tr c2 [V0, V1, V2, V3, V4] = .ok (exampleV tr c2 V0 V1 V2 V3 V4) := by
  simp [exampleVerifier, exampleV, exampleCommitV, VState.commit, VState.new, exampleRunV, exampleConstraints]

omit [DecidableEq F] [DecidableEq G] in
theorem exampleProver_eq (o : Oracle F G X) (g : Gens G) (tr : Transcript F G X) (a1 a2 b1 b2 c1 : F × F) (c2 : F) :
    exampleProver o g tr a1 a2 b1 b2 c1 c2 = .ok ([a1, a2, b1, b2, c1].map (fun a => g.pc.commit a.1 a.2), exampleP g tr a1 a2 b1 b2 c1 c2) := by
  obtain ⟨a1, p1⟩ := a1
  obtain ⟨a2, p2⟩ := a2
  obtain ⟨b1, p3⟩ := b1
  obtain ⟨b2, p4⟩ := b2
  obtain ⟨c1, p5⟩ := c1
  have e : exampleProver o g tr (a1, p1) (a2, p2) (b1, p3) (b2, p4) (c1, p5) c2 = .ok ([(a1, p1), (a2, p2), (b1, p3), (b2, p4), (c1, p5)].map (fun a => g.pc.commit a.1 a.2),
    { exampleP g tr (a1, p1) (a2, p2) (b1, p3) (b2, p4) (c1, p5) c2 with
      transcript := tr ++ [.sep "r1cs v1"] ++ [.point "V" (g.pc.commit a1 p1)] ++ [.point "V" (g.pc.commit a2 p2)] ++ [.point "V" (g.pc.commit b1 p3)] ++
        [.point "V" (g.pc.commit b2 p4)] ++ [.point "V" (g.pc.commit c1 p5)]
      aL := [1 * a1 + (1 * a2 + 0)], aR := [1 * b1 + (1 * b2 + 0)], aO := [(1 * a1 + (1 * a2 + 0)) * (1 * b1 + (1 * b2 + 0))] }) := rfl
  rw [e]
  simp [exampleP]

omit [DecidableEq F] [DecidableEq G] in
theorem example_session (o : Oracle F G X) (g : Gens G) (tr : Transcript F G X) (a1 a2 b1 b2 c1 : F × F) (c2 : F) :
    Session o g (exampleP g tr a1 a2 b1 b2 c1 c2) (exampleV tr c2 (g.pc.commit a1.1 a1.2) (g.pc.commit a2.1 a2.2) (g.pc.commit b1.1 b1.2) (g.pc.commit b2.1 b2.2)
      (g.pc.commit c1.1 c1.2)) := by
  have h1 := exampleProver_eq o g tr a1 a2 b1 b2 c1 c2
  have h2 := exampleVerifier_eq o tr c2 (g.pc.commit a1.1 a1.2) (g.pc.commit a2.1 a2.2) (g.pc.commit b1.1 b1.2) (g.pc.commit b2.1 b2.2) (g.pc.commit c1.1 c1.2)
  have hs := Session.commit c1.1 c1.2 (.commit b2.1 b2.2 (.commit b1.1 b1.2 (.commit a2.1 a2.2 (.commit a1.1 a1.2 (Session.new (o := o) (g := g) tr)))))
  unfold exampleProver at h1
  unfold exampleVerifier at h2
  split at h1
  rename_i Vs xs s e1
  split at h2
  rename_i xs' t e2
  cases e1
  cases e2
  rw [if_neg (by simp)] at h2
  simp only at h1 h2
  split at h1
  · rename_i a s' e3
    split at h2
    · rename_i b t' e4
      simp only [Except.ok.injEq, Prod.mk.injEq] at h1 h2
      rw [← h1.2, ← h2]
      exact hs.gadget (.refl (R := Eq) (fun _ => rfl) _) e3 e4
    · cases h2
  · cases h1

omit [DecidableEq F] [DecidableEq G] in
theorem example_satisfied (o : Oracle F G X) (g : Gens G) (tr : Transcript F G X) {a1 a2 b1 b2 c1 : F × F} {c2 : F} (h : (a1.1 + a2.1) * (b1.1 + b2.1) = c1.1 + c2) :
    (exampleP g tr a1 a2 b1 b2 c1 c2).Satisfied := by
  refine ⟨(example_session o g tr a1 a2 b1 b2 c1 c2).inv.inv.gates, ?_⟩
  intro c hc
  simp only [exampleP, exampleConstraints, List.mem_cons, List.not_mem_nil, or_false] at hc
  rcases hc with rfl | rfl | rfl <;> simp only [Assignment.eval, Assignment.val, PState.assignment, exampleP, List.map_cons, List.map_nil, List.sum_cons, List.sum_nil,
    List.getD_cons_zero, List.getD_cons_succ]
  · ring
  · ring
  · rw [h]; ring

omit [DecidableEq F] [AddCommGroup G] [Module F G] [DecidableEq G] in
theorem exampleVerifier_length (o : Oracle F G X) (tr : Transcript F G X) (c2 : F) {Vs : List G} (h : Vs.length = 5) :
    ∃ V0 V1 V2 V3 V4, Vs = [V0, V1, V2, V3, V4] ∧ exampleVerifier o tr c2 Vs = .ok (exampleV tr c2 V0 V1 V2 V3 V4) := by
  match Vs, h with
  | [V0, V1, V2, V3, V4], _ => exact ⟨V0, V1, V2, V3, V4, rfl, exampleVerifier_eq o tr c2 V0 V1 V2 V3 V4⟩

/-- With less than five commitments `example_gadget_verify` panics, at the indexing of `vars`. -/
theorem C67_example_panics (o : Oracle F G X) (g : Gens G) (r : F) (tr : Transcript F G X) (c2 : F) (p : R1CSProof F G) (Vs : List G) (h : Vs.length < 5) :
    ∃ m, exampleVerify o g r tr c2 p Vs = .error (.panic m) := by
  match Vs, h with
  | [], _ => exact ⟨_, rfl⟩
  | [_], _ => exact ⟨_, rfl⟩
  | [_, _], _ => exact ⟨_, rfl⟩
  | [_, _, _], _ => exact ⟨_, rfl⟩
  | [_, _, _, _], _ => exact ⟨_, rfl⟩

/-- `example_gadget_verify` accepts what `verify` accepts for the Verifier of `C67_example_knowledge`, and nothing else. -/
theorem C67_example_verify_iff (o : Oracle F G X) (g : Gens G) (r : F) (tr : Transcript F G X) (c2 : F) (p : R1CSProof F G) (Vs : List G) :
    exampleVerify o g r tr c2 p Vs = .ok () ↔ ∃ t, exampleVerifier o tr c2 Vs = .ok t ∧ verify o g r p t = .ok () := by
  unfold exampleVerify
  cases h : exampleVerifier o tr c2 Vs with
  | error e => simp
  | ok t =>
    cases hv : verify o g r p t with
    | ok u => simp [hv]
    | error e => cases e <;> simp [hv]

/-- The example gadget is complete: if `(a1 + a2) (b1 + b2) = c1 + c2`, the proof is accepted. -/
theorem C67_example_complete (o : Oracle F G X) (g : Gens G) (rnd : PRand F) (tr : Transcript F G X) {a1 a2 b1 b2 c1 : F × F} {c2 : F}
    (h : (a1.1 + a2.1) * (b1.1 + b2.1) = c1.1 + c2) (hcG : g.capacity ≤ g.Gs.length) (hcH : g.capacity ≤ g.Hs.length) {p : R1CSProof F G} {Vs : List G}
    (hp : exampleProve o g rnd tr a1 a2 b1 b2 c1 c2 = .ok (p, Vs)) (hne : p.NoIdentity 0) (r : F) : exampleVerify o g r tr c2 p Vs = .ok () := by
  unfold exampleProve at hp
  rw [exampleProver_eq] at hp
  simp only at hp
  split at hp
  · cases hp
  · rename_i p' tr' e
    cases hp
    unfold exampleVerify
    simp only [List.map_cons, List.map_nil, exampleVerifier_eq]
    rw [C01_one_phase o g rnd _ _ (example_session o g tr a1 a2 b1 b2 c1 c2) hcG hcH rfl (example_satisfied o g tr h) e (by simp [exampleP, PState.size, nextPow2]) hne r]

/-- C67 is false for the example gadget: for every point `R`, proofs are accepted for the commitments `V0 + R`, `V1 - R`, `V2`, `V3`, `V4`. The Prover of the proof
uses the values of `V0` .. `V4` and nothing about `R`. -/
theorem C67_example_shifted (o : Oracle F G X) (g : Gens G) (rnd : PRand F) (tr : Transcript F G X) {a1 a2 b1 b2 c1 : F × F} {c2 : F}
    (h : (a1.1 + a2.1) * (b1.1 + b2.1) = c1.1 + c2) (hcG : g.capacity ≤ g.Gs.length) (hcH : g.capacity ≤ g.Hs.length) (R : G) {p : R1CSProof F G} {tr' : Transcript F G X}
    (hp : prove o g rnd { exampleP g tr a1 a2 b1 b2 c1 c2 with
      transcript := (exampleV tr c2 (g.pc.commit a1.1 a1.2 + R) (g.pc.commit a2.1 a2.2 - R) (g.pc.commit b1.1 b1.2) (g.pc.commit b2.1 b2.2)
        (g.pc.commit c1.1 c1.2)).transcript } = .ok (p, tr'))
    (hne : p.NoIdentity 0) (r : F) :
    exampleVerify o g r tr c2 p [g.pc.commit a1.1 a1.2 + R, g.pc.commit a2.1 a2.2 - R, g.pc.commit b1.1 b1.2, g.pc.commit b2.1 b2.2, g.pc.commit c1.1 c1.2] = .ok () := by
  have key := C67_undetermined_accepted o g rnd (example_session o g tr a1 a2 b1 b2 c1 c2) hcG hcH rfl (example_satisfied o g tr h) (by simp [exampleP, PState.size, nextPow2])
    (u := fun j => if j = 0 then 1 else if j = 1 then -1 else 0) (by
      intro q hq
      simp only [exampleV, exampleConstraints, List.mem_cons, List.not_mem_nil, or_false] at hq
      rcases hq with rfl | rfl | rfl <;> simp [committedPart]) R _ tr' hp hne r
  unfold exampleVerify
  rw [exampleVerifier_eq]
  have e : ({ exampleV tr c2 (g.pc.commit a1.1 a1.2) (g.pc.commit a2.1 a2.2) (g.pc.commit b1.1 b1.2) (g.pc.commit b2.1 b2.2) (g.pc.commit c1.1 c1.2) with
        V := (exampleV (X := X) tr c2 (g.pc.commit a1.1 a1.2) (g.pc.commit a2.1 a2.2) (g.pc.commit b1.1 b1.2) (g.pc.commit b2.1 b2.2) (g.pc.commit c1.1 c1.2)).V.mapIdx
          fun j V => V + (if j = 0 then 1 else if j = 1 then -1 else 0 : F) • R
        transcript := (exampleV tr c2 (g.pc.commit a1.1 a1.2 + R) (g.pc.commit a2.1 a2.2 - R) (g.pc.commit b1.1 b1.2) (g.pc.commit b2.1 b2.2)
          (g.pc.commit c1.1 c1.2)).transcript } : VState F G X) =
      exampleV tr c2 (g.pc.commit a1.1 a1.2 + R) (g.pc.commit a2.1 a2.2 - R) (g.pc.commit b1.1 b1.2) (g.pc.commit b2.1 b2.2) (g.pc.commit c1.1 c1.2) := by
    simp [exampleV, sub_eq_add_neg]
  rw [e] at key
  simp only [key]

/-- What an accepted proof of the example gadget shows: the sums of the first two and of the next two commitments and the last commitment open to values `a`, `b`, `c` with
`a b = c + c2`, or there is a relation between the generators. -/
theorem C67_example_knowledge {F : Type} [Field F] [DecidableEq F] (c2 : F) (R : Responses F) (fk : Forks F) (lg : Nat) (hE : fk.Enough (exampleCircuit c2) lg) :
    (∃ r : Relation F, r.NonTrivial (2 ^ lg) ∧ ∀ (G X : Type) [AddCommGroup G] [Module F G] [DecidableEq G] (g : Gens G)
      (tr : Transcript F G X) (Vs : List G) (o : Oracle F G X) (t t2 : VState F G X) (M : Messages F G), Vs.length = 5 → exampleVerifier o tr c2 Vs = .ok t →
      g.capacity ≤ g.Gs.length → g.capacity ≤ g.Hs.length → AcceptsTree g t t2 M R fk lg → r.Holds (2 ^ lg) g) ∨
    (∃ a b c ra rb rc : F, a * b = c + c2 ∧ ∀ (G X : Type) [AddCommGroup G] [Module F G] [DecidableEq G] (g : Gens G)
      (tr : Transcript F G X) (Vs : List G) (o : Oracle F G X) (t t2 : VState F G X) (M : Messages F G), Vs.length = 5 → exampleVerifier o tr c2 Vs = .ok t →
      g.capacity ≤ g.Gs.length → g.capacity ≤ g.Hs.length → AcceptsTree g t t2 M R fk lg →
      Vs.getD 0 0 + Vs.getD 1 0 = g.pc.commit a ra ∧ Vs.getD 2 0 + Vs.getD 3 0 = g.pc.commit b rb ∧ Vs.getD 4 0 = g.pc.commit c rc) := by
  have circ : ∀ (G X : Type) [AddCommGroup G] [Module F G] [DecidableEq G] (g : Gens G)
      (tr : Transcript F G X) (Vs : List G) (o : Oracle F G X) (t t2 : VState F G X) (M : Messages F G), Vs.length = 5 → exampleVerifier o tr c2 Vs = .ok t →
      AcceptsTree g t t2 M R fk lg → t.circuit t2 = exampleCircuit c2 ∧ t2.V = Vs := by
    intro G X _ _ _ g tr Vs o t t2 M hl hv ha
    obtain ⟨V0, V1, V2, V3, V4, rfl, e⟩ := exampleVerifier_length o tr c2 hl
    rw [hv] at e
    cases e
    obtain ⟨o', h2⟩ := ha.second hE
    exact onePhase_circuit rfl rfl h2
  rcases C09_no_vector_commitments_partial (exampleCircuit c2) R fk lg hE rfl with ⟨r, hr, h⟩ | ⟨e, he⟩
  · exact .inl ⟨r, hr, fun G X _ _ _ g tr Vs o t t2 M hl hv hG hH ha => h G X g t t2 M (circ G X g tr Vs o t t2 M hl hv ha).1 hG hH ha⟩
  · right
    by_cases hs : (e.assignment (exampleCircuit c2)).Satisfies 1 (exampleConstraints c2)
    · refine ⟨e.committed 0 + e.committed 1, e.committed 2 + e.committed 3, e.committed 4, e.committedBl 0 + e.committedBl 1, e.committedBl 2 + e.committedBl 3,
        e.committedBl 4, ?_, fun G X _ _ _ g tr Vs o t t2 M hl hv hG hH ha => ?_⟩
      · have hg := hs.1 0 (by decide)
        have h1 := hs.2 _ (List.mem_cons_self)
        have h2 := hs.2 _ (List.mem_cons_of_mem _ List.mem_cons_self)
        have h3 := hs.2 _ (List.mem_cons_of_mem _ (List.mem_cons_of_mem _ List.mem_cons_self))
        simp only [Assignment.eval, Assignment.val, List.map_cons, List.map_nil, List.sum_cons, List.sum_nil] at h1 h2 h3
        have e1 : (e.assignment (exampleCircuit c2)).left 0 = e.committed 0 + e.committed 1 := by
          have : (e.assignment (exampleCircuit c2)).committed = e.committed := rfl
          rw [this] at h1
          linear_combination -h1
        have e2 : (e.assignment (exampleCircuit c2)).right 0 = e.committed 2 + e.committed 3 := by
          have : (e.assignment (exampleCircuit c2)).committed = e.committed := rfl
          rw [this] at h2
          linear_combination -h2
        have e3 : (e.assignment (exampleCircuit c2)).out 0 = e.committed 4 + c2 := by
          have : (e.assignment (exampleCircuit c2)).committed = e.committed := rfl
          rw [this] at h3
          linear_combination -h3
        rw [e1, e2, e3] at hg
        exact hg
      · obtain ⟨hc, hV⟩ := circ G X g tr Vs o t t2 M hl hv ha
        have h3 := (he G X g t t2 M hc hG hH ha).2.2.2.2.2
        rw [hV] at h3
        have k1 := h3 _ (List.mem_cons_self)
        have k2 := h3 _ (List.mem_cons_of_mem _ List.mem_cons_self)
        have k3 := h3 _ (List.mem_cons_of_mem _ (List.mem_cons_of_mem _ List.mem_cons_self))
        simp only [committedPart, List.map_cons, List.map_nil, List.sum_cons, List.sum_nil, one_smul, add_zero] at k1 k2 k3
        rw [k1, k2, k3]
        simp only [PedersenGens.commit, msm_cons, msm_nil, add_smul, add_zero]
        refine ⟨?_, ?_, trivial⟩ <;> abel
    · refine ⟨0, 0, -c2, 0, 0, 0, by ring, fun G X _ _ _ g tr Vs o t t2 M hl hv hG hH ha => ?_⟩
      exact absurd (he G X g t t2 M (circ G X g tr Vs o t t2 M hl hv ha).1 hG hH ha).1 hs

end CT
