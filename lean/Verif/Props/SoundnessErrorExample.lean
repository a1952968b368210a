import Mathlib.Algebra.Field.ZMod
import Verif.Props.SoundnessError
import Verif.Props.CurveAdditionExample

/-! # C69: non-vacuity -/

namespace CT
open Finset

instance c69Prime : Fact (Nat.Prime 23) := ⟨by decide⟩

/-! The honest Prover of the example gadget, for `(3 + 4) (6 + 1) = 40 + 9` modulo 23. -/

abbrev F23 := ZMod 23
def c69Gens : Gens (F23 × F23) := ⟨⟨(1, 0), (0, 1)⟩, 1, [(2, 3)], [(5, 7)]⟩
def c69Rand : PRand F23 := ⟨1, 2, 3, fun i => i + 1, fun i => 2 * i + 1, 4, 5, 6, fun i => i + 3, fun i => i + 7, fun i => i + 11⟩
def c69Oracle : Oracle F23 (F23 × F23) Unit := fun t => t.length
def c69P : PState F23 (F23 × F23) Unit := exampleP c69Gens [] (3, 1) (4, 2) (6, 3) (1, 4) (40, 5) 9
def c69V : VState F23 (F23 × F23) Unit :=
  exampleV [] 9 (c69Gens.pc.commit (3 : F23) 1) (c69Gens.pc.commit (4 : F23) 2) (c69Gens.pc.commit (6 : F23) 3) (c69Gens.pc.commit (1 : F23) 4) (c69Gens.pc.commit (40 : F23) 5)
def c69P2 : PState F23 (F23 × F23) Unit := okOr (c69P.secondPhase c69Oracle (c69P.firstCommitments c69Gens c69Rand))
def c69V2 : VState F23 (F23 × F23) Unit :=
  okOr (c69V.secondPhase c69Oracle (c69P.firstCommitments c69Gens c69Rand).AI (c69P.firstCommitments c69Gens c69Rand).AO (c69P.firstCommitments c69Gens c69Rand).S)
def c69M : Messages F23 (F23 × F23) := honestMessages c69Gens c69P.size c69P2 c69V2 c69Rand 0
def c69R : Responses F23 := honestResponses c69Gens c69P.size c69P2 c69V2 c69Rand 0
def c69Coins (y z u x w : F23) (us : List F23) : Oracle F23 (F23 × F23) Unit := forkOracle c69Oracle (strategyProof c69M c69R y z u x w us) c69V2 y z u x w us

theorem c69_T : ∀ y z : F23, (c69M.T y z).length = 7 ∧ ∀ d < 7, d = 2 ∨ (c69M.T y z).getD d 0 ≠ 0 := by decide +kernel

theorem c69_second : c69V.secondPhase c69Oracle c69M.AI1 c69M.AO1 c69M.S1 = .ok c69V2 := eq_ok (by decide +kernel)

theorem c69_interactive : Interactive c69Coins c69V c69V2 c69M c69R 0 :=
  fun y z u x w us _ => forkOracle_interactive c69_second c69R y z u x w us

theorem c69_verify (y z u x w r : F23) (hy : y ≠ 0) : verify (c69Coins y z u x w []) c69Gens r (strategyProof c69M c69R y z u x w []) c69V = .ok () := by
  have hs : Session c69Oracle c69Gens c69P c69V := example_session ..
  have e2 : c69P.secondPhase c69Oracle (c69P.firstCommitments c69Gens c69Rand) = .ok c69P2 := eq_ok (by decide +kernel)
  obtain ⟨t2, h2, key⟩ := honest_run (lg := 0) (g := c69Gens) (by decide) (by decide) hs.inv c69Rand e2
    (allZero_iff (by decide +kernel)) (by decide +kernel) (by decide) (by decide) (by decide +kernel) (by decide +kernel)
    (fun z => by
      rw [← Option.isSome_iff_ne_none, PState.flattened_isSome, ← PState.flattened_isSome _ 0]
      decide +kernel)
  have et : c69V2 = t2 := by unfold c69V2; rw [h2]; rfl
  rw [← et] at key
  refine key y z u x w [] hy (by simp) rfl ?_ r
  have hT := c69_T y z
  have hf : c69M.AI1 ≠ 0 ∧ c69M.AO1 ≠ 0 ∧ c69M.S1 ≠ 0 := by decide +kernel
  refine ⟨hf.1, hf.2.1, hf.2.2, fun d hd hne => (hT.2 d (hT.1 ▸ hd)).resolve_left hne, fun P hP => ?_, fun P hP => ?_⟩
  · simp [strategyProof] at hP
  · simp [strategyProof] at hP

/-- The honest Prover is accepted for 22 of 23 challenges, and the bound is 18 of 23: the hypotheses of `C69_accepted_often` and `C69_knowledge_error` are met. -/
example : c69V.circuit c69V2 = exampleCircuit 9 ∧ Interactive c69Coins c69V c69V2 c69M c69R 0 ∧
    soundnessLoss (exampleCircuit (9 : F23)) 0 * Fintype.card F23 ^ (5 + 0) < acceptedChallenges c69Gens c69V c69M c69R 0 c69Coins := by
  refine ⟨?_, c69_interactive, ?_⟩
  · exact (onePhase_circuit rfl rfl c69_second).1.trans rfl
  · have hle : ∑ y : F23, (if y ≠ 0 then 23 ^ 5 else 0) ≤ acceptedChallenges c69Gens c69V c69M c69R 0 c69Coins := by
      unfold acceptedChallenges
      refine sum_le_sum fun y _ => ?_
      split
      · rename_i hy
        simp only [List.ofFn_zero, c69_verify _ _ _ _ _ _ hy, if_true]
        simp [ZMod.card]
      · exact Nat.zero_le _
    refine lt_of_lt_of_le ?_ hle
    rw [show soundnessLoss (exampleCircuit (9 : F23)) 0 = 18 from rfl, ZMod.card, ← sum_filter, sum_const, show #{y : F23 | y ≠ 0} = 22 by decide +kernel]
    norm_num

/-! A false statement: 5 is claimed to be a bit, with four independent generators. -/

abbrev G23 := F23 × F23 × F23 × F23
def c69Gens' : Gens G23 := ⟨⟨(1, 0, 0, 0), (0, 1, 0, 0)⟩, 1, [(0, 0, 1, 0)], [(0, 0, 0, 1)]⟩
def c69Oracle' : Oracle F23 G23 Unit := fun t => t.length
def c69V' : VState F23 G23 Unit := (okOr (rangeVerifier [] (c69Gens'.pc.commit (5 : F23) 7) 1 c69Oracle')).2

/-- The hypotheses of `C69_range_rejected` and `C69_false_rejected` are met, for every prover that does not send the identity in its first message. -/
example (M : Messages F23 G23) (R : Responses F23) : rangeVerifier [] (c69Gens'.pc.commit (5 : F23) 7) 1 c69Oracle' = .ok ((), c69V') ∧
    (∃ t2 coins, Interactive coins c69V' t2 M R 0 ∧ c69V'.circuit t2 = rangeCircuit 1 ∧
      ¬ ∃ (w : Assignment F23) (bl : Nat → F23), w.Satisfies 1 (rangeCircuit 1).constraints ∧
        ∀ q ∈ (rangeCircuit (F := F23) 1).constraints, committedPart q (fun j => t2.V.getD j 0) = committedPart q fun j => c69Gens'.pc.commit (w.committed j) (bl j)) ∧
    (∀ r : Relation F23, r.Holds (2 ^ 0) c69Gens' → ¬ r.NonTrivial (2 ^ 0)) ∧ ∀ k : Nat, k < 2 ^ 1 → ∀ bl : F23, c69Gens'.pc.commit (5 : F23) 7 ≠ c69Gens'.pc.commit (k : F23) bl := by
  have hne : ∀ k : Nat, k < 2 ^ 1 → ∀ bl : F23, c69Gens'.pc.commit (5 : F23) 7 ≠ c69Gens'.pc.commit (k : F23) bl := by
    intro k hk bl h
    rw [commit_eq, commit_eq] at h
    have := congrArg Prod.fst h
    simp [c69Gens'] at this
    have hk : k = 0 ∨ k = 1 := by omega
    rcases hk with rfl | rfl <;> revert this <;> decide
  have h1 : rangeVerifier [] (c69Gens'.pc.commit (5 : F23) 7) 1 c69Oracle' = .ok ((), c69V') := rfl
  refine ⟨h1, ?_, ?_, hne⟩
  · obtain ⟨t2, h2⟩ : ∃ t2, c69V'.secondPhase c69Oracle' M.AI1 M.AO1 M.S1 = .ok t2 := ⟨_, rfl⟩
    have hc := rangeVerifier_circuit h1 h2
    refine ⟨t2, _, fun y z u x w us _ => forkOracle_interactive h2 R y z u x w us, hc.1, ?_⟩
    rintro ⟨w, bl, ⟨hg, hl⟩, hq⟩
    have h0 := hg 0 (by decide)
    have h1 := hl (LC.ofVar (.multiplierOutput 0)) (by simp [rangeCircuit])
    have h2 := hl (LC.ofVar (.multiplierLeft 0) + (LC.ofVar (.multiplierRight 0) - LC.const 1)) (by simp [rangeCircuit])
    have hm : (⟨(.committed 0, 1) :: (List.range 1).map fun i => (.multiplierRight i, -2 ^ i)⟩ : LC F23) ∈ (rangeCircuit (F := F23) 1).constraints := by simp [rangeCircuit]
    have h3 := hl _ hm
    have h4 := hq _ hm
    rw [hc.2] at h4
    simp only [eval_add, eval_sub, eval_ofVar, eval_const, Assignment.val] at h1 h2
    simp [Assignment.eval, Assignment.val] at h3
    simp [committedPart] at h4
    have h5 : w.right 0 = 0 ∨ w.right 0 = 1 := by
      rw [h1] at h0
      rcases mul_eq_zero.1 h0 with h | h
      · right; linear_combination h2 - h
      · exact .inl h
    have h6 : w.committed 0 = w.right 0 := by linear_combination h3
    rw [h6] at h4
    rcases h5 with h5 | h5 <;> rw [h5] at h4
    · exact hne 0 (by decide) (bl 0) (by simpa using h4)
    · exact hne 1 (by decide) (bl 0) (by simpa using h4)
  · rintro ⟨rb, rbl, rg, rh⟩ h
    simp [Relation.Holds, c69Gens'] at h
    simp [Relation.NonTrivial, h]

/-! The same commitment to 5 is claimed to be one of 4 and 6. -/

/-- The hypotheses of `C69_select_rejected` are met, for every prover. -/
example (M : Messages F23 G23) (R : Responses F23) : ∃ t t2 coins, selectVerifier [] (c69Gens'.pc.commit (5 : F23) 7) [4, 6] c69Oracle' = .ok ((), t) ∧ Interactive coins t t2 M R 0 ∧
    ∀ v ∈ [(4 : F23), 6], ∀ bl : F23, c69Gens'.pc.commit (5 : F23) 7 ≠ c69Gens'.pc.commit v bl := by
  obtain ⟨t, h1, t2, h2⟩ : ∃ t, selectVerifier [] (c69Gens'.pc.commit (5 : F23) 7) [4, 6] c69Oracle' = .ok ((), t) ∧ ∃ t2, t.secondPhase c69Oracle' M.AI1 M.AO1 M.S1 = .ok t2 :=
    ⟨_, rfl, _, rfl⟩
  refine ⟨t, t2, _, h1, fun y z u x w us _ => forkOracle_interactive h2 R y z u x w us, fun v hv bl h => ?_⟩
  rw [commit_eq, commit_eq] at h
  have := congrArg Prod.fst h
  simp [c69Gens'] at this hv
  rcases hv with rfl | rfl <;> revert this <;> decide

/-! The outputs 3, 6 are claimed to be the inputs 3, 5 in some order. There are two gates, hence two generators on each side. -/

abbrev H23 := F23 × F23 × F23 × F23 × F23 × F23
def c69Gens2 : Gens H23 := ⟨⟨(1, 0, 0, 0, 0, 0), (0, 1, 0, 0, 0, 0)⟩, 2, [(0, 0, 1, 0, 0, 0), (0, 0, 0, 1, 0, 0)], [(0, 0, 0, 0, 1, 0), (0, 0, 0, 0, 0, 1)]⟩
def c69Vx : List H23 := [c69Gens2.pc.commit (3 : F23) 1, c69Gens2.pc.commit (5 : F23) 2]
def c69Vy : List H23 := [c69Gens2.pc.commit (6 : F23) 3, c69Gens2.pc.commit (3 : F23) 4]

/-- The hypotheses of `C69_shuffle_rejected` are met, for every prover. -/
example (M : F23 → Messages F23 H23) (R : F23 → Responses F23) : ∃ (t : VState F23 H23 Unit) (t2 : F23 → VState F23 H23 Unit) (o : F23 → Oracle F23 H23 Unit)
    (coins : F23 → (y z u x w : F23) → List F23 → Oracle F23 H23 Unit), shuffleVerifier [] c69Vx c69Vy = .ok t ∧
    (∀ c, t.secondPhase (o c) (M c).AI1 (M c).AO1 (M c).S1 = .ok (t2 c)) ∧
    (∀ c, o c (beforeShuffle t (M c).AI1 (M c).AO1 (M c).S1 ++ [.chal "shuffle challenge"]) = c) ∧ (∀ c, Interactive (coins c) t (t2 c) (M c) (R c) 1) ∧
    (∀ r : Relation F23, r.Holds (2 ^ 1) c69Gens2 → ¬ r.NonTrivial (2 ^ 1)) ∧
    ¬ ∃ x y : List (F23 × F23), (x.map Prod.fst).Perm (y.map Prod.fst) ∧
      c69Vx = x.map (fun a => c69Gens2.pc.commit a.1 a.2) ∧ c69Vy = y.map fun a => c69Gens2.pc.commit a.1 a.2 := by
  obtain ⟨t, h1, h2⟩ : ∃ t : VState F23 H23 Unit, shuffleVerifier [] c69Vx c69Vy = .ok t ∧ ∀ c, ∃ t2, t.secondPhase (fun _ => c) (M c).AI1 (M c).AO1 (M c).S1 = .ok t2 :=
    ⟨_, rfl, fun _ => ⟨_, rfl⟩⟩
  choose t2 h2 using h2
  refine ⟨t, t2, fun c _ => c, _, h1, h2, fun c => rfl, fun c y z u x w us _ => forkOracle_interactive (h2 c) (R c) y z u x w us, ?_, ?_⟩
  · rintro ⟨rb, rbl, rg, rh⟩ h
    simp [Relation.Holds, c69Gens2, sum_range_succ] at h
    obtain ⟨h1, h2, h3, h4, h5, h6⟩ := h
    rintro (hn | hn | ⟨i, hi, hn⟩)
    · exact hn h1
    · exact hn h2
    · have hi : i = 0 ∨ i = 1 := by simp at hi; omega
      rcases hi with rfl | rfl <;> simp_all
  · rintro ⟨x, y, hp, hx, hy⟩
    have ex := congrArg (List.map Prod.fst) hx
    have ey := congrArg (List.map Prod.fst) hy
    have e : ∀ l : List (F23 × F23), (l.map fun a => c69Gens2.pc.commit a.1 a.2).map Prod.fst = l.map Prod.fst := by
      intro l
      rw [List.map_map]
      refine List.map_congr_left fun a _ => ?_
      simp [commit_eq, c69Gens2]
    rw [e] at ex ey
    rw [← ex, ← ey] at hp
    simp [c69Vx, c69Vy, commit_eq, c69Gens2] at hp
    have := hp.mem_iff (a := 5)
    revert this
    decide

end CT
