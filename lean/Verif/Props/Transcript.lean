import Verif.Proofs.Transcript
import Verif.Props.Hiding
import Verif.Proofs.Silent

/-! # Property C37: Prover and Verifier absorb the same transcript, and it determines what was sent -/

namespace CT
set_option linter.unusedSectionVars false
variable {F G X : Type} [Field F] [AddCommGroup G] [Module F G] [DecidableEq F] [DecidableEq G]

/-- C37, honest runs. The Prover's final transcript `tr` (every message absorbed and every challenge label, in order) is the transcript of
the Verifier at the end of verification. As the transcript records the place of every challenge, both have absorbed the same messages before
each challenge. Second-phase callbacks are included. -/
theorem C37_same_transcript (o : Oracle F G X) (g : Gens G) (hcG : g.capacity ≤ g.Gs.length)
    {s : PState F G X} {t : VState F G X} (h : Session o g s t) {rnd : PRand F} {p : R1CSProof F G} {tr : Transcript F G X}
    (hp : prove o g rnd s = .ok (p, tr)) : VerifierTranscript o t p tr :=
  (prove_transcript hcG h.inv hp).1

/-- C37: neither side ever asks for a challenge at a transcript that is not an initial part of `tr`: changing the challenge function
anywhere else changes nothing, for the Prover and for the Verifier. -/
theorem C37_same_challenges (o o' : Oracle F G X) (g : Gens G) (hcG : g.capacity ≤ g.Gs.length)
    {s : PState F G X} {t : VState F G X} (h : Session o g s t) {rnd : PRand F} {p : R1CSProof F G} {tr : Transcript F G X}
    (hp : prove o g rnd s = .ok (p, tr)) (ha : ∀ q, q <+: tr → o q = o' q) :
    prove o' g rnd s = .ok (p, tr) ∧ ∀ r, verify o' g r p t = verify o g r p t := by
  obtain ⟨h1, h2⟩ := prove_transcript hcG h.inv hp
  refine ⟨h2 o' ha, fun r => ?_⟩
  unfold verify
  rw [verificationTuple_local r p t tr h1 ha]

/-- C37 for proofs by anybody: the Verifier's decision depends on the challenge function only at initial parts of its transcript. -/
theorem C37_verifier_challenges (o o' : Oracle F G X) (g : Gens G) (t : VState F G X) (p : R1CSProof F G) (tr : Transcript F G X)
    (h : VerifierTranscript o t p tr) (ha : ∀ q, q <+: tr → o q = o' q) (r : F) : verify o' g r p t = verify o g r p t := by
  unfold verify
  rw [verificationTuple_local r p t tr h ha]

theorem head_inj {t : VState F G X} {o : Oracle F G X} {p p' : R1CSProof F G} {tr' : Transcript F G X}
    (h : VerifierTranscript o t p' tr') (hh : t.transcript ++ p.headMsgs t.V.length <+: tr') :
    p.AI1 = p'.AI1 ∧ p.AO1 = p'.AO1 ∧ p.S1 = p'.S1 := by
  obtain ⟨t2, h2, rfl⟩ := h
  obtain ⟨w, hw⟩ := createRandomizedV_prefix h2
  rw [← hw] at hh
  simp only [List.append_assoc] at hh
  replace hh := IsPrefix.cancel hh
  rw [← List.append_nil (p.headMsgs _)] at hh
  have := (prefix_of_length (by simp [R1CSProof.headMsgs]) hh).1
  simp only [R1CSProof.headMsgs, List.cons.injEq, Msg.point.injEq, true_and, and_true] at this
  exact this

/-- C37, binding. `tr'` is the Verifier's transcript for a proof `p'`. If the transcript of `p` at one of the challenges is an initial
part of it, then `p` and `p'` agree on everything sent before this challenge: the points of the first phase (at the end of the first phase,
so also at every challenge of a second-phase callback), those of the second phase (at `y`), the `T_d` (at `x`), the three scalars (at `w`),
and the points of the first `j` rounds of the inner product argument (at the challenge of round `j`). -/
theorem C37_binding_partial (o : Oracle F G X) (t : VState F G X) (p p' : R1CSProof F G) (tr' : Transcript F G X) (t2 : VState F G X)
    (h2 : t.AfterCallbacks o p t2) (h : VerifierTranscript o t p' tr') :
    (t.transcript ++ p.headMsgs t.V.length <+: tr' → p.AI1 = p'.AI1 ∧ p.AO1 = p'.AO1 ∧ p.S1 = p'.S1) ∧
    (t2.transcript ++ p.toY <+: tr' → p.AI2 = p'.AI2 ∧ p.AO2 = p'.AO2 ∧ p.S2 = p'.S2) ∧
    (t2.transcript ++ p.toX (opDegree t.vecComms.length) <+: tr' →
      ∀ d ≤ 2 * (opDegree t.vecComms.length + 1), d ≠ opDegree t.vecComms.length → p.T.getD d 0 = p'.T.getD d 0) ∧
    (t2.transcript ++ p.toW (opDegree t.vecComms.length) <+: tr' → p.tx = p'.tx ∧ p.txBl = p'.txBl ∧ p.eBl = p'.eBl) ∧
    (∀ j, t2.transcript ++ p.toRound (opDegree t.vecComms.length) (nextPow2 t2.size) j <+: tr' →
      (p.ipp.L.zip p.ipp.R).take j <+: p'.ipp.L.zip p'.ipp.R) := by
  have htr := h
  refine ⟨head_inj htr, ?_⟩
  obtain ⟨t2', h2', e⟩ := h
  have key : ∀ w, t2.transcript ++ w <+: tr' → w <+: p'.tailMsgs (opDegree t.vecComms.length) (nextPow2 t2.size) := by
    intro w hw
    have hpre : t.transcript ++ p.headMsgs t.V.length <+: tr' :=
      (createRandomizedV_prefix h2).trans (List.IsPrefix.trans (by simp) hw)
    obtain ⟨e1, e2, e3⟩ := head_inj htr hpre
    have : t2 = t2' := by
      unfold VState.AfterCallbacks R1CSProof.headMsgs at h2 h2'
      rw [e1, e2, e3, h2'] at h2
      simpa using h2.symm
    subst this
    rw [e] at hw
    exact IsPrefix.cancel hw
  have kY : t2.transcript ++ p.toY <+: tr' → (p.toY : Transcript F G X) = p'.toY := by
    intro hw
    have := key _ hw
    simp only [R1CSProof.tailMsgs, R1CSProof.toW, R1CSProof.toX, List.append_assoc] at this
    rw [← List.append_nil p.toY] at this
    exact (prefix_of_length (by simp [R1CSProof.toY]) this).1
  have kX : t2.transcript ++ p.toX (opDegree t.vecComms.length) <+: tr' →
      (p.toX (opDegree t.vecComms.length) : Transcript F G X) = p'.toX (opDegree t.vecComms.length) := by
    intro hw
    have := key _ hw
    simp only [R1CSProof.tailMsgs, R1CSProof.toW, List.append_assoc] at this
    rw [← List.append_nil (p.toX _)] at this
    exact (prefix_of_length (by simp [R1CSProof.toX, R1CSProof.toY, tMsgs]) this).1
  have kW : t2.transcript ++ p.toW (opDegree t.vecComms.length) <+: tr' →
      (p.toW (opDegree t.vecComms.length) : Transcript F G X) = p'.toW (opDegree t.vecComms.length) := by
    intro hw
    have := key _ hw
    simp only [R1CSProof.tailMsgs, List.append_assoc] at this
    rw [← List.append_nil (p.toW _)] at this
    exact (prefix_of_length (by simp [R1CSProof.toW, R1CSProof.toX, R1CSProof.toY, tMsgs]) this).1
  refine ⟨fun hw => ?_, fun hw d hd hne => ?_, fun hw => ?_, fun j hw => ?_⟩
  · simpa [R1CSProof.toY] using kY hw
  · have := kX hw
    simp only [R1CSProof.toX, List.append_assoc] at this
    have h1 := List.append_inj_right this (by simp [R1CSProof.toY])
    have h3 := List.append_inj_right h1 rfl
    exact tMsgs_inj _ p.T p'.T (List.append_inj_left h3 (by simp [tMsgs])) d (by omega) hne
  · have := List.append_inj_right (kW hw) (by simp [R1CSProof.toX, R1CSProof.toY, tMsgs])
    simpa using this
  · have := key _ hw
    simp only [R1CSProof.tailMsgs, R1CSProof.toRound, List.append_assoc] at this
    obtain ⟨-, this⟩ := prefix_of_length (by simp [R1CSProof.toW, R1CSProof.toX, R1CSProof.toY, tMsgs]) this
    obtain ⟨-, this⟩ := prefix_of_length rfl this
    exact roundMsgs_inj _ _ this

/-- Every commitment is in the transcript at the time of the calls: for the Prover and the Verifier the commitment is the last message. -/
theorem C37_commitments_absorbed (g : Gens G) (t : VState F G X) (s : PState F G X) (V : G) (n : Nat) (v bl : F) :
    (t.commit V).2.transcript = t.transcript ++ [.point "V" V] ∧ (t.commitVec n V).2.transcript = t.transcript ++ [.point "V" V] ∧
    (s.commit g v bl).2.transcript = s.transcript ++ [.point "V" (s.commit g v bl).1.1] ∧
    ∀ vs r, s.commitVec g vs bl = .ok r → r.2.transcript = s.transcript ++ [.point "V" r.1.1] := by
  refine ⟨rfl, rfl, rfl, fun vs r h => ?_⟩
  unfold PState.commitVec at h
  simp only at h
  split at h
  · simp at h
  · simp only [Except.ok.injEq] at h
    rw [← h]

/-- What the transcript does not determine (C37 does not hold for it): the length of a committed vector, and which of the commitments
are commitments to vectors. Both Verifiers below have the same transcript, whatever is verified afterwards. -/
theorem C37_roles_not_bound (t : VState F G X) (P Q : G) (n n' : Nat) :
    ((t.commit P).2.commitVec n Q).2.transcript = ((t.commitVec n' P).2.commit Q).2.transcript ∧
    ((t.commit P).2.commitVec n Q).2.V.length = ((t.commitVec n' P).2.commit Q).2.V.length ∧
    (t.commitVec n P).2.transcript = (t.commitVec n' P).2.transcript := by
  simp [VState.commit, VState.commitVec]

/-- The public point of the single level gadget is absorbed first, so every later challenge depends on it. -/
theorem C37_child_absorbed (C : SWCurve F) (o : Oracle F G C.Pt) (fx : Bool) (prm : LayerParams C) (rc : C.Pt) (children : List (LC F))
    (t t' : VState F G C.Pt) (h : runV o (singleLevel C fx prm rc children none none) t = .ok ((), t')) :
    t.transcript ++ [.foreign "rerandomized_child" rc] <+: t'.transcript := by
  unfold singleLevel at h
  exact runV_prefix o _ _ _ _ (show runV o _ { t with transcript := t.transcript ++ [.foreign "rerandomized_child" rc] } = _ from h)


/-- The public sum of the batched gadget (an internal level of a batched path) is not absorbed by the transcript of the proof it is used
in: the transcript is the same for every such sum, so no challenge of this proof depends on it. The other curve's transcript does
contain it, as a vector commitment. -/
theorem C37_batched_sum_not_absorbed (C : SWCurve F) (o : Oracle F G X) (fx : Bool) (M : Nat) (prm : LayerParams C) (rc rc' : C.Pt)
    (children : List (LC F)) (t t1 t2 : VState F G X)
    (h1 : runV o (singleLevelBatched C fx M prm rc children none none) t = .ok ((), t1))
    (h2 : runV o (singleLevelBatched C fx M prm rc' children none none) t = .ok ((), t2)) :
    t1.transcript = t.transcript ∧ t2.transcript = t1.transcript := by
  have e1 := (silent_singleLevelBatched C fx M prm rc children none none).runV o _ _ _ h1
  have e2 := (silent_singleLevelBatched C fx M prm rc' children none none).runV o _ _ _ h2
  exact ⟨e1, e2.trans e1.symm⟩

/-- Not vacuous: an honest run with commitments, a vector commitment and a multiplication (the session of the example of C40), its
transcript has 31 entries, and a different challenge function that agrees on its initial parts gives the same proof. -/
example : ∃ p tr, prove exOracle exGens exRand c40A = .ok (p, tr) ∧ tr.length = 31 ∧ VerifierTranscript exOracle c40T p tr ∧
    prove (fun q => if q.length ≤ 31 then exOracle q else 0) exGens exRand c40A = .ok (p, tr) := by
  have hs := c40_session
  have hp : prove exOracle exGens exRand c40A = .ok (okOr _) := eq_ok (by decide +kernel)
  have hl : (okOr (prove exOracle exGens exRand c40A)).2.length = 31 := by decide +kernel
  refine ⟨_, _, hp, hl, C37_same_transcript _ _ (by decide) hs hp, (C37_same_challenges _ _ _ (by decide) hs hp ?_).1⟩
  intro q hq
  have := hq.length_le.trans_eq hl
  simp [this]

end CT
