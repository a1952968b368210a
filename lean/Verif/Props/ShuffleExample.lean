-- `RepairedForgeryExample` is imported only so that the two are not built at the same time, which would need too much memory
import Verif.Props.RepairedForgeryExample
import Verif.Props.Shuffle
import Verif.Props.HonestTree
import Verif.Proofs.Total

/-! # C57: non-vacuity -/

namespace CT

/-! A shuffle of three values over the rationals, with oracle, generators and randomness of the examples of C01. -/

def c57In : List (ℚ × ℚ) := [(5, 1), (3, 2), (5, 4)]
def c57Out : List (ℚ × ℚ) := [(3, 7), (5, 8), (5, 9)]

example : ∃ p, shuffleProve exOracle exGens exRand [] c57In c57Out =
      .ok (p, c57In.map (fun a => exGens.pc.commit a.1 a.2), c57Out.map fun a => exGens.pc.commit a.1 a.2) ∧
    ∀ r, shuffleVerify exOracle exGens r [] p (c57In.map fun a => exGens.pc.commit a.1 a.2) (c57Out.map fun a => exGens.pc.commit a.1 a.2) = .ok () := by
  have hne : ∀ tr : Transcript ℚ ℚ Unit, exOracle tr ≠ 0 := fun tr => by
    show ((tr.length : ℚ) + 2) ≠ 0
    positivity
  obtain ⟨p, hp, h⟩ := C57_shuffle_complete exOracle exGens exRand [] c57In c57Out (by decide)
    (by show List.Perm [(5 : ℚ), 3, 5] [3, 5, 5]; exact List.Perm.swap ..) (by decide) (by decide) (by decide +kernel) (by decide +kernel) (fun tr => ⟨hne _, hne _⟩)
  refine ⟨p, hp, h ?_⟩
  have : p = (okOr (shuffleProve exOracle exGens exRand [] c57In c57Out)).1 := by rw [hp]; rfl
  rw [this]
  decide +kernel

/-! A prover accepted on trees of challenges for two values of the shuffle challenge, 1 and 2: the honest Prover of the shuffle of 5, 3. -/

/-- The oracle that answers `c` when the shuffle challenge is drawn. -/
def c57Oracle (c : ℚ) : Oracle ℚ ℚ Unit := fun t => match t.reverse with
  | .chal "shuffle challenge" :: _ => c
  | _ => t.length + 2

def c57In2 : List (ℚ × ℚ) := [(5, 1), (3, 2)]
def c57Out2 : List (ℚ × ℚ) := [(3, 7), (5, 8)]
def c57Vx : List ℚ := c57In2.map fun a => exGens.pc.commit a.1 a.2
def c57Vy : List ℚ := c57Out2.map fun a => exGens.pc.commit a.1 a.2

def c57P : PState ℚ ℚ Unit := (okOr (shuffleProver exGens [] c57In2 c57Out2)).2
def c57V : VState ℚ ℚ Unit := okOr (shuffleVerifier [] c57Vx c57Vy)
def c57P2 (c : ℚ) : PState ℚ ℚ Unit := okOr (c57P.secondPhase (c57Oracle c) (c57P.firstCommitments exGens exRand))
def c57V2 (c : ℚ) : VState ℚ ℚ Unit :=
  okOr (c57V.secondPhase (c57Oracle c) (c57P.firstCommitments exGens exRand).AI (c57P.firstCommitments exGens exRand).AO (c57P.firstCommitments exGens exRand).S)
def c57M (c : ℚ) : Messages ℚ ℚ := honestMessages exGens c57P.size (c57P2 c) (c57V2 c) exRand 1
def c57R (c : ℚ) : Responses ℚ := honestResponses exGens c57P.size (c57P2 c) (c57V2 c) exRand 1

def c57Forks : Forks ℚ where
  Y := {1, 2}
  Z _ := {1, 2, 3, 4, 5, 6}
  U _ _ := {1, 2, 3, 4, 5}
  X _ _ _ := {1, 2, 3, 4, 5, 6, 7}
  W _ _ _ _ := {1, 2}
  C _ _ _ _ _ _ := {1, 2, 3, 4}

/-- The points that depend on `y`, `z` only are not the identity. -/
def c57CheckT (c y z : ℚ) : Bool := ((c57M c).T y z).length == 7 && (List.range 7).all fun d => d == 2 || decide (((c57M c).T y z).getD d 0 ≠ 0)
/-- The points of the inner product argument are not the identity. -/
def c57CheckL (c y z u x w : ℚ) : Bool := decide ((c57M c).L y z u x w [] ≠ 0) && decide ((c57M c).R y z u x w [] ≠ 0)

/-- The paths with given `y` and `z`. -/
def c57All (c y z : ℚ) : Bool := c57CheckT c y z && ([1, 2, 3, 4, 5] : List ℚ).all fun u =>
  ([1, 2, 3, 4, 5, 6, 7] : List ℚ).all fun x => ([1, 2] : List ℚ).all fun w => c57CheckL c y z u x w

/-- All paths. -/
def c57Every (c : ℚ) : Bool := ([1, 2] : List ℚ).all fun y => ([1, 2, 3, 4, 5, 6] : List ℚ).all fun z => c57All c y z

section
set_option maxRecDepth 4000
theorem c57_every_1 : c57Every 1 = true := by decide +kernel
theorem c57_every_2 : c57Every 2 = true := by decide +kernel
end

theorem c57_enough (c : ℚ) : c57Forks.Enough (shuffleCircuit 2 c) 1 where
  Y := ⟨by decide +kernel, by decide +kernel⟩
  Z := fun _ => by show 6 ≤ Finset.card ({1, 2, 3, 4, 5, 6} : Finset ℚ); decide +kernel
  U := fun _ _ => by
    show 0 ∉ ({1, 2, 3, 4, 5} : Finset ℚ) ∧ 5 ≤ Finset.card ({1, 2, 3, 4, 5} : Finset ℚ)
    decide +kernel
  X := fun _ _ _ => by
    show 2 * (opDegree 0 + 1) + 1 ≤ Finset.card ({1, 2, 3, 4, 5, 6, 7} : Finset ℚ)
    decide +kernel
  W := fun _ _ _ _ => by
    show 0 ∉ ({1, 2} : Finset ℚ) ∧ 2 ≤ Finset.card ({1, 2} : Finset ℚ)
    decide +kernel
  C := fun _ _ _ _ _ _ => by
    show 0 ∉ ({1, 2, 3, 4} : Finset ℚ) ∧ 4 ≤ Finset.card (({1, 2, 3, 4} : Finset ℚ).image (· ^ 2))
    decide +kernel

theorem c57_session (o : Oracle ℚ ℚ Unit) : Session o exGens c57P c57V := by
  obtain ⟨s, t, h1, h2, h⟩ := shuffle_session o exGens ([] : Transcript ℚ ℚ Unit) (input := c57In2) (output := c57Out2) (by decide) rfl
  have e1 : c57P = s := by unfold c57P; rw [h1]; rfl
  have e2 : c57V = t := by
    unfold c57V c57Vx c57Vy
    rw [h2]; rfl
  rw [e1, e2]
  exact h

/-- With one round, there are few points to look at. -/
theorem noIdentity_one (M : Messages ℚ ℚ) (R : Responses ℚ) (y z u x w v : ℚ) (h1 : M.AI1 ≠ 0 ∧ M.AO1 ≠ 0 ∧ M.S1 ≠ 0)
    (hT : (M.T y z).length = 7) (h2 : ∀ d < 7, d = 2 ∨ (M.T y z).getD d 0 ≠ 0) (h3 : M.L y z u x w [] ≠ 0) (h4 : M.R y z u x w [] ≠ 0) :
    (strategyProof M R y z u x w [v]).NoIdentity 0 := by
  refine ⟨h1.1, h1.2.1, h1.2.2, fun d hd hne => (h2 d (hT ▸ hd)).resolve_left hne, fun P hP => ?_, fun P hP => ?_⟩
  · obtain rfl : P = M.L y z u x w [] := by simpa [strategyProof] using hP
    exact h3
  · obtain rfl : P = M.R y z u x w [] := by simpa [strategyProof] using hP
    exact h4

theorem c57_accepts (c : ℚ) (hc : c = 1 ∨ c = 2) : AcceptsTree exGens c57V (c57V2 c) (c57M c) (c57R c) c57Forks 1 := by
  have e2 : c57P.secondPhase (c57Oracle c) (c57P.firstCommitments exGens exRand) = .ok (c57P2 c) := by
    rcases hc with rfl | rfl <;> exact eq_ok (by decide +kernel)
  obtain ⟨t2, h2, key⟩ := honest_tree (lg := 1) (g := exGens) (by decide) (by decide) (c57_session (c57Oracle c)).inv exRand e2
    (by rcases hc with rfl | rfl <;> exact allZero_iff (by decide +kernel)) (by rcases hc with rfl | rfl <;> decide +kernel) (by decide) (by decide)
    (by rcases hc with rfl | rfl <;> decide +kernel) (by rcases hc with rfl | rfl <;> decide +kernel)
    (fun z => by
      rw [← Option.isSome_iff_ne_none, PState.flattened_isSome, ← PState.flattened_isSome _ 0]
      rcases hc with rfl | rfl <;> decide +kernel)
  have et : c57V2 c = t2 := by unfold c57V2; rw [h2]; rfl
  rw [← et] at key
  refine key c57Forks (by decide +kernel) (fun _ _ _ _ _ _ => by show 0 ∉ ({1, 2, 3, 4} : Finset ℚ); decide +kernel) ?_
  intro y z u x w us hp hl
  obtain ⟨v, rfl⟩ := List.length_eq_one_iff.1 hl
  have hy : y ∈ ([1, 2] : List ℚ) := by simpa [c57Forks] using hp.hy
  have hz : z ∈ ([1, 2, 3, 4, 5, 6] : List ℚ) := by simpa [c57Forks] using hp.hz
  have hu : u ∈ ([1, 2, 3, 4, 5] : List ℚ) := by simpa [c57Forks] using hp.hu
  have hx : x ∈ ([1, 2, 3, 4, 5, 6, 7] : List ℚ) := by simpa [c57Forks] using hp.hx
  have hw : w ∈ ([1, 2] : List ℚ) := by simpa [c57Forks] using hp.hw
  have hev : c57Every c = true := by
    rcases hc with rfl | rfl
    exacts [c57_every_1, c57_every_2]
  have h := List.all_eq_true.1 (List.all_eq_true.1 hev y hy) z hz
  unfold c57All at h
  rw [Bool.and_eq_true] at h
  have h' := List.all_eq_true.1 (List.all_eq_true.1 (List.all_eq_true.1 h.2 u hu) x hx) w hw
  unfold c57CheckL at h'
  rw [Bool.and_eq_true, decide_eq_true_eq, decide_eq_true_eq] at h'
  have hfirst : (c57M c).AI1 ≠ 0 ∧ (c57M c).AO1 ≠ 0 ∧ (c57M c).S1 ≠ 0 := by
    rcases hc with rfl | rfl <;> decide +kernel
  have hT := h.1
  unfold c57CheckT at hT
  rw [Bool.and_eq_true, beq_iff_eq] at hT
  refine noIdentity_one (c57M c) (c57R c) y z u x w v hfirst hT.1 (fun d hd => ?_) h'.1 h'.2
  have := List.all_eq_true.1 hT.2 d (List.mem_range.2 hd)
  rwa [Bool.or_eq_true, beq_iff_eq, decide_eq_true_eq] at this

/-- The hypotheses of `C57_shuffle_knowledge` are met. -/
example : (2 : Nat) ≤ ({1, 2} : Finset ℚ).card ∧ (∀ c ∈ ({1, 2} : Finset ℚ), c57Forks.Enough (shuffleCircuit 2 c) 1) ∧
    c57Vx.length = 2 ∧ c57Vy.length = 2 ∧ c57Vx ≠ c57Vy ∧
    ∀ c ∈ ({1, 2} : Finset ℚ), ShuffleAccepted exGens ([] : Transcript ℚ ℚ Unit) c57Vx c57Vy c (c57R c) c57Forks 1 := by
  refine ⟨by decide +kernel, fun c _ => c57_enough c, rfl, rfl, by decide +kernel, fun c hc => ?_⟩
  have hc : c = 1 ∨ c = 2 := by simpa using hc
  refine ⟨c57Oracle c, c57V, c57V2 c, c57M c, eq_ok (by decide +kernel), ?_, ?_, c57_accepts c hc⟩
  · have : c57V.secondPhase (c57Oracle c) (c57M c).AI1 (c57M c).AO1 (c57M c).S1 =
        c57V.secondPhase (c57Oracle c) (c57P.firstCommitments exGens exRand).AI (c57P.firstCommitments exGens exRand).AO
          (c57P.firstCommitments exGens exRand).S := by
      rcases hc with rfl | rfl <;>
      · congr 1 <;> decide +kernel
    rw [this]
    rcases hc with rfl | rfl <;> exact eq_ok (by decide +kernel)
  · rfl

/-! The values 1, 2 and 3, 5: the challenge 13/5 leaves constraints that can be satisfied, the assignment being this one. -/

def c57Wrong : Assignment ℚ where
  left i := if i = 0 then -3/5 else 12/5
  right i := if i = 0 then -8/5 else 2/5
  out _ := 24/25
  committed i := [1, 2, 3, 5].getD i 0
  vec _ _ := 0

example : ¬ ((committedVars 0 2).map c57Wrong.val).Perm ((committedVars 2 2).map c57Wrong.val) ∧
    ∃ (o : Oracle ℚ ℚ Unit) (t t' : VState ℚ ℚ Unit), o (t.transcript ++ [.chal "shuffle challenge"]) = 13/5 ∧
      runV o (shuffleCallback (committedVars 0 2) (committedVars 2 2)) t = .ok ((), t') ∧ t'.SatisfiedBy c57Wrong := by
  refine ⟨by decide +kernel, fun _ => 13/5, VState.new [], _, rfl, shuffleCallback_run _ (le_refl _) _ rfl rfl, ?_⟩
  constructor
  · intro i hi
    have hi : i < 2 := hi
    interval_cases i <;> decide +kernel
  · intro c hc
    have : ∀ c ∈ (shuffleCircuit 2 (13/5 : ℚ)).constraints, c57Wrong.eval c = 0 := by
      have h : ((shuffleCircuit 2 (13/5 : ℚ)).constraints.all fun c => decide (c57Wrong.eval c = 0)) = true := by decide +kernel
      intro c hc
      simpa using List.all_eq_true.1 h c hc
    exact this c hc

/-! One value: the honest Prover is accepted on a tree with 2 * 5 * 7 * 2 paths. -/

def c57P1 : PState ℚ ℚ Unit := (okOr (shuffleProver exGens [] [(5, 1)] [(5, 3)])).2
def c57V1 : VState ℚ ℚ Unit := okOr (shuffleVerifier [] [exGens.pc.commit (5 : ℚ) 1] [exGens.pc.commit (5 : ℚ) 3])
def c57P1' : PState ℚ ℚ Unit := okOr (c57P1.secondPhase exOracle (c57P1.firstCommitments exGens exRand))
def c57V1' : VState ℚ ℚ Unit :=
  okOr (c57V1.secondPhase exOracle (c57P1.firstCommitments exGens exRand).AI (c57P1.firstCommitments exGens exRand).AO (c57P1.firstCommitments exGens exRand).S)
def c57M1 : Messages ℚ ℚ := honestMessages exGens c57P1.size c57P1' c57V1' exRand 0
def c57R1 : Responses ℚ := honestResponses exGens c57P1.size c57P1' c57V1' exRand 0

def c57Forks1 : Forks ℚ where
  Y := {1}
  Z _ := {1, 2}
  U _ _ := {1, 2, 3, 4, 5}
  X _ _ _ := {1, 2, 3, 4, 5, 6, 7}
  W _ _ _ _ := {1, 2}
  C _ _ _ _ _ _ := {1, 2, 3, 4}

theorem c57_enough1 : c57Forks1.Enough singleCircuit 0 where
  Y := ⟨by decide +kernel, by decide +kernel⟩
  Z := fun _ => by show 2 ≤ Finset.card ({1, 2} : Finset ℚ); decide +kernel
  U := fun _ _ => by
    show 0 ∉ ({1, 2, 3, 4, 5} : Finset ℚ) ∧ 5 ≤ Finset.card ({1, 2, 3, 4, 5} : Finset ℚ)
    decide +kernel
  X := fun _ _ _ => by
    show 2 * (opDegree 0 + 1) + 1 ≤ Finset.card ({1, 2, 3, 4, 5, 6, 7} : Finset ℚ)
    decide +kernel
  W := fun _ _ _ _ => by
    show 0 ∉ ({1, 2} : Finset ℚ) ∧ 2 ≤ Finset.card ({1, 2} : Finset ℚ)
    decide +kernel
  C := fun _ _ _ _ _ _ => by
    show 0 ∉ ({1, 2, 3, 4} : Finset ℚ) ∧ 4 ≤ Finset.card (({1, 2, 3, 4} : Finset ℚ).image (· ^ 2))
    decide +kernel

/-- Without rounds, there are few points to look at. -/
theorem noIdentity_zero (M : Messages ℚ ℚ) (R : Responses ℚ) (y z u x w : ℚ) (h1 : M.AI1 ≠ 0 ∧ M.AO1 ≠ 0 ∧ M.S1 ≠ 0)
    (hT : (M.T y z).length = 7) (h2 : ∀ d < 7, d = 2 ∨ (M.T y z).getD d 0 ≠ 0) : (strategyProof M R y z u x w []).NoIdentity 0 := by
  refine ⟨h1.1, h1.2.1, h1.2.2, fun d hd hne => (h2 d (hT ▸ hd)).resolve_left hne, fun P hP => ?_, fun P hP => ?_⟩ <;>
    simp [strategyProof] at hP

/-- The points that depend on `z` are not the identity. -/
def c57CheckT1 (z : ℚ) : Bool := (c57M1.T 1 z).length == 7 && (List.range 7).all fun d => d == 2 || decide ((c57M1.T 1 z).getD d 0 ≠ 0)

theorem c57_accepts1 : AcceptsTree exGens c57V1 c57V1' c57M1 c57R1 c57Forks1 0 := by
  have hS : Session exOracle exGens c57P1 c57V1 := by
    obtain ⟨s, t, h1, h2, h⟩ := shuffle_session exOracle exGens ([] : Transcript ℚ ℚ Unit) (input := [(5, 1)]) (output := [(5, 3)]) (by decide) rfl
    have e1 : c57P1 = s := by unfold c57P1; rw [h1]; rfl
    have e2 : c57V1 = t := by
      unfold c57V1
      simp only [List.map_cons, List.map_nil] at h2
      rw [h2]; rfl
    rw [e1, e2]
    exact h
  have e2 : c57P1.secondPhase exOracle (c57P1.firstCommitments exGens exRand) = .ok c57P1' := eq_ok (by decide +kernel)
  obtain ⟨t2, h2, key⟩ := honest_tree (lg := 0) (g := exGens) (by decide) (by decide) hS.inv exRand e2
    (allZero_iff (by decide +kernel)) (by decide +kernel) (by decide) (by decide) (by decide +kernel) (by decide +kernel)
    (fun z => by
      rw [← Option.isSome_iff_ne_none, PState.flattened_isSome, ← PState.flattened_isSome _ 0]
      decide +kernel)
  have et : c57V1' = t2 := by unfold c57V1'; rw [h2]; rfl
  rw [← et] at key
  refine key c57Forks1 (by decide +kernel) (fun _ _ _ _ _ _ => by show 0 ∉ ({1, 2, 3, 4} : Finset ℚ); decide +kernel) ?_
  intro y z u x w us hp hl
  obtain rfl := List.length_eq_zero_iff.1 hl
  obtain rfl : y = 1 := by simpa [c57Forks1] using hp.hy
  have hz : z = 1 ∨ z = 2 := by simpa [c57Forks1] using hp.hz
  have hT : c57CheckT1 z = true := by rcases hz with rfl | rfl <;> decide +kernel
  unfold c57CheckT1 at hT
  rw [Bool.and_eq_true, beq_iff_eq] at hT
  refine noIdentity_zero c57M1 c57R1 1 z u x w (by decide +kernel) hT.1 (fun d hd => ?_)
  have := List.all_eq_true.1 hT.2 d (List.mem_range.2 hd)
  rwa [Bool.or_eq_true, beq_iff_eq, decide_eq_true_eq] at this

/-- The hypotheses of `C57_single_knowledge` are met. -/
example : c57Forks1.Enough singleCircuit 0 ∧
    shuffleVerifier [] [exGens.pc.commit (5 : ℚ) 1] [exGens.pc.commit (5 : ℚ) 3] = .ok c57V1 ∧
    c57V1.secondPhase exOracle c57M1.AI1 c57M1.AO1 c57M1.S1 = .ok c57V1' ∧
    AcceptsTree exGens c57V1 c57V1' c57M1 c57R1 c57Forks1 0 := by
  refine ⟨c57_enough1, eq_ok (by decide +kernel), ?_, c57_accepts1⟩
  have : c57V1.secondPhase exOracle c57M1.AI1 c57M1.AO1 c57M1.S1 =
      c57V1.secondPhase exOracle (c57P1.firstCommitments exGens exRand).AI (c57P1.firstCommitments exGens exRand).AO
        (c57P1.firstCommitments exGens exRand).S := by
    congr 1 <;> decide +kernel
  rw [this]
  exact eq_ok (by decide +kernel)

end CT
