import Verif.Props.Openings
import Verif.Props.RangeKnowledge
import Verif.Props.SizesExample
import Verif.Props.HonestTree

/-! # C67: non-vacuity, and commitments that nobody can open -/

namespace CT

/-! The example of the tests, `(3 + 4) * (6 + 1) = 40 + 9`, over the rationals, with oracle, generators and randomness of the examples of C01. -/

def c67P : PState ℚ ℚ Unit := exampleP exGens [] (3, 1) (4, 2) (6, 3) (1, 4) (40, 5) 9
def c67Vs : List ℚ := [(3, 1), (4, 2), (6, 3), (1, 4), (40, 5)].map fun a : ℚ × ℚ => exGens.pc.commit a.1 a.2
def c67V : VState ℚ ℚ Unit := okOr (exampleVerifier exOracle [] 9 c67Vs)

example : ∃ p Vs, exampleProve exOracle exGens exRand [] (3, 1) (4, 2) (6, 3) (1, 4) (40, 5) 9 = .ok (p, Vs) ∧ p.NoIdentity 0 ∧
    ∀ r, exampleVerify exOracle exGens r [] 9 p Vs = .ok () := by
  have h : exampleProve exOracle exGens exRand [] (3, 1) (4, 2) (6, 3) (1, 4) (40, 5) 9 = .ok (_, _) := eq_ok (by decide +kernel)
  have h0 : (okOr (exampleProve exOracle exGens exRand [] (3, 1) (4, 2) (6, 3) (1, 4) (40, 5) 9)).1.NoIdentity 0 := by decide +kernel
  exact ⟨_, _, h, h0, fun r => C67_example_complete exOracle exGens exRand [] (by norm_num) (by decide) (by decide) h h0 r⟩

/-! Generators in the plane that are all on one line: points outside of the line are not commitments to anything. -/

def planeGens : Gens (ℚ × ℚ) := ⟨⟨(1, 0), (10, 0)⟩, 1, [(2, 0)], [(11, 0)]⟩
def planeOracle : Oracle ℚ (ℚ × ℚ) Unit := fun t => t.length + 2
def planeP : PState ℚ (ℚ × ℚ) Unit :=
  { exampleP planeGens [] (3, 1) (4, 2) (6, 3) (1, 4) (40, 5) 9 with
    transcript := (exampleV ([] : Transcript ℚ (ℚ × ℚ) Unit) (9 : ℚ) (planeGens.pc.commit (3 : ℚ) 1 + (0, 1)) (planeGens.pc.commit (4 : ℚ) 2 - (0, 1))
      (planeGens.pc.commit (6 : ℚ) 3) (planeGens.pc.commit (1 : ℚ) 4) (planeGens.pc.commit (40 : ℚ) 5)).transcript }

/-- C67 is false: a proof of the example gadget is accepted, whatever the random scalar of the Verifier, for five commitments of which the first two have no opening. -/
theorem C67_unopenable_accepted : ∃ (p : R1CSProof ℚ (ℚ × ℚ)) (V0 V1 V2 V3 V4 : ℚ × ℚ),
    (∀ r, exampleVerify planeOracle planeGens r [] 9 p [V0, V1, V2, V3, V4] = .ok ()) ∧
    (∀ v bl : ℚ, V0 ≠ planeGens.pc.commit v bl) ∧ ∀ v bl : ℚ, V1 ≠ planeGens.pc.commit v bl := by
  have hp : prove planeOracle planeGens exRand planeP = .ok (_, _) := eq_ok (by decide +kernel)
  have h0 : (okOr (prove planeOracle planeGens exRand planeP)).1.NoIdentity 0 := by decide +kernel
  refine ⟨(okOr (prove planeOracle planeGens exRand planeP)).1, _, _, _, _, _,
    fun r => C67_example_shifted planeOracle planeGens exRand [] (by norm_num) (by decide) (by decide) (0, 1) hp h0 r, ?_, ?_⟩
  · intro v bl h
    have := congrArg Prod.snd h
    simp [PedersenGens.commit, planeGens] at this
  · intro v bl h
    have := congrArg Prod.snd h
    simp [PedersenGens.commit, planeGens] at this

/-! The honest Prover of the example is accepted on a tree of challenges. -/

def c67P2 : PState ℚ ℚ Unit := okOr (c67P.secondPhase exOracle (c67P.firstCommitments exGens exRand))
def c67V2 : VState ℚ ℚ Unit :=
  okOr (c67V.secondPhase exOracle (c67P.firstCommitments exGens exRand).AI (c67P.firstCommitments exGens exRand).AO (c67P.firstCommitments exGens exRand).S)
def c67M : Messages ℚ ℚ := honestMessages exGens c67P.size c67P2 c67V2 exRand 0
def c67R : Responses ℚ := honestResponses exGens c67P.size c67P2 c67V2 exRand 0

theorem c67_enough : c49Forks.Enough (exampleCircuit (9 : ℚ)) 0 where
  Y := c49_enough.Y
  Z := c49_enough.Z
  U := c49_enough.U
  X := c49_enough.X
  W := c49_enough.W
  C := c49_enough.C

theorem c67_V : c67V = exampleV [] 9 (exGens.pc.commit (3 : ℚ) 1) (exGens.pc.commit (4 : ℚ) 2) (exGens.pc.commit (6 : ℚ) 3) (exGens.pc.commit (1 : ℚ) 4)
    (exGens.pc.commit (40 : ℚ) 5) := by
  unfold c67V c67Vs
  simp only [List.map_cons, List.map_nil, exampleVerifier_eq]
  rfl

theorem c67_accepts : AcceptsTree exGens c67V c67V2 c67M c67R c49Forks 0 := by
  have hs : Session exOracle exGens c67P c67V := by rw [c67_V]; exact example_session ..
  have e2 : c67P.secondPhase exOracle (c67P.firstCommitments exGens exRand) = .ok c67P2 := eq_ok (by decide +kernel)
  obtain ⟨t2, h2, key⟩ := honest_tree (lg := 0) (g := exGens) (by decide) (by decide) hs.inv exRand e2
    (allZero_iff (by decide +kernel)) (by decide +kernel) (by decide) (by decide) (by decide +kernel) (by decide +kernel)
    (fun z => by
      rw [← Option.isSome_iff_ne_none, PState.flattened_isSome, ← PState.flattened_isSome _ 0]
      decide +kernel)
  have et : c67V2 = t2 := by unfold c67V2; rw [h2]; rfl
  rw [← et] at key
  refine key c49Forks (by decide +kernel) (fun _ _ _ _ _ _ => by show 0 ∉ ({1, 2, 3, 4} : Finset ℚ); decide +kernel) ?_
  intro y z u x w us hp hl
  obtain rfl := List.length_eq_zero_iff.1 hl
  obtain rfl : y = 3 := by simpa [c49Forks] using hp.hy
  have hz : z = 1 ∨ z = 2 ∨ z = 3 ∨ z = 4 := by simpa [c49Forks] using hp.hz
  have hT : (c67M.T 3 z).length = 7 ∧ ∀ d < 7, d = 2 ∨ (c67M.T 3 z).getD d 0 ≠ 0 := by
    rcases hz with rfl | rfl | rfl | rfl <;> decide +kernel
  have hf : c67M.AI1 ≠ 0 ∧ c67M.AO1 ≠ 0 ∧ c67M.S1 ≠ 0 := by decide +kernel
  refine ⟨hf.1, hf.2.1, hf.2.2, fun d hd hne => (hT.2 d (hT.1 ▸ hd)).resolve_left hne, fun P hP => ?_, fun P hP => ?_⟩
  · simp [strategyProof] at hP
  · simp [strategyProof] at hP

/-- The hypotheses of `C67_example_knowledge` are met. -/
example : c49Forks.Enough (exampleCircuit (9 : ℚ)) 0 ∧ c67Vs.length = 5 ∧ exampleVerifier exOracle [] 9 c67Vs = .ok c67V ∧
    AcceptsTree exGens c67V c67V2 c67M c67R c49Forks 0 :=
  ⟨c67_enough, rfl, eq_ok (by decide +kernel), c67_accepts⟩

/-- The hypotheses of `C67_determined_opened_partial` are met, for the same prover, and the last of the five commitments is determined by the constraints. -/
example : c67V.circuit c67V2 = exampleCircuit 9 ∧ Determined (exampleCircuit (9 : ℚ)).constraints 4 ∧ ¬ Determined (exampleCircuit (9 : ℚ)).constraints 0 := by
  refine ⟨?_, fun u h => ?_, fun h => ?_⟩
  · obtain ⟨o, h2⟩ := c67_accepts.second c67_enough
    exact (onePhase_circuit (by rw [c67_V]; rfl) (by rw [c67_V]; rfl) h2).1.trans (by rw [c67_V]; rfl)
  · have := h _ (List.mem_cons_of_mem _ (List.mem_cons_of_mem _ List.mem_cons_self))
    simpa [committedPart] using this
  · have := h (fun j => if j = 0 then 1 else if j = 1 then -1 else 0) (by
      intro q hq
      simp only [exampleCircuit, exampleConstraints, List.mem_cons, List.not_mem_nil, or_false] at hq
      rcases hq with rfl | rfl | rfl <;> simp [committedPart])
    simp at this

end CT
