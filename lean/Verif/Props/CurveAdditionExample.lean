import Verif.Props.CurveAddition
import Verif.Props.OpeningsExample
import Verif.Proofs.PositiveTree

/-! # C68: non-vacuity -/

namespace CT

/-! `(2, 3) + (0, 1) = (-1, 0)` on `y² = x³ + 1` over the rationals; points of the commitment group are pairs of rationals. -/

def c68Gens : Gens (ℚ × ℚ) := ⟨⟨(1, 0), (10, 0)⟩, 8, [(2, 1), (3, 1), (5, 1), (7, 1), (11, 1), (13, 1), (17, 1), (19, 1)],
  [(23, 0), (29, 0), (31, 0), (37, 0), (41, 0), (43, 0), (47, 0), (53, 0)]⟩
def c68Rand : PRand ℚ := { exRand with sL1 := fun i => 100000000000000000000 + i }
def c68P : PState ℚ (ℚ × ℚ) Unit := additionP c68Gens [] (2, 1) (3, 2) (0, 3) (1, 4) (-1, 5) (0, 6) 1 (1 / 2)
def c68V : VState ℚ (ℚ × ℚ) Unit :=
  additionV [] (c68Gens.pc.commit (2 : ℚ) 1) (c68Gens.pc.commit (3 : ℚ) 2) (c68Gens.pc.commit (0 : ℚ) 3) (c68Gens.pc.commit (1 : ℚ) 4) (c68Gens.pc.commit (-1 : ℚ) 5)
    (c68Gens.pc.commit (0 : ℚ) 6)
def c68Curve : SWCurve ℚ := ⟨0, 1, by norm_num⟩

/-- The hypotheses of `C68_addition_complete` are met. -/
example : ∃ (hl : c68Curve.OnCurve 2 3) (hr : c68Curve.OnCurve 0 1) (ho : c68Curve.OnCurve (-1) 0), c68Curve.pt ho = c68Curve.pt hl + c68Curve.pt hr ∧
    ∃ p Vs, additionProve planeOracle c68Gens c68Rand [] (2, 1) (3, 2) (0, 3) (1, 4) (-1, 5) (0, 6) = .ok (p, Vs) ∧ p.NoIdentity 0 := by
  have hl : c68Curve.OnCurve 2 3 := by norm_num [SWCurve.OnCurve, c68Curve]
  have hr : c68Curve.OnCurve 0 1 := by norm_num [SWCurve.OnCurve, c68Curve]
  obtain ⟨ho, e⟩ := c68Curve.add_of_chord (xo := -1) (yo := 0) (d := 1) hl hr (by norm_num) (by norm_num) (by norm_num) (by norm_num)
  have h : additionProve planeOracle c68Gens c68Rand [] (2, 1) (3, 2) (0, 3) (1, 4) (-1, 5) (0, 6) = .ok (_, _) := eq_ok (by decide +kernel)
  have h0 : (okOr (additionProve planeOracle c68Gens c68Rand [] (2, 1) (3, 2) (0, 3) (1, 4) (-1, 5) (0, 6))).1.NoIdentity 0 := by decide +kernel
  exact ⟨hl, hr, ho, e, _, _, h, h0⟩

/-- The Prover of `C68_y_not_opened` for `R = (0, 1)`, which is not a combination of the generators of the commitments. -/
def c68Shifted : PState ℚ (ℚ × ℚ) Unit :=
  { c68P with transcript := (additionV (X := Unit) [] (c68Gens.pc.commit (2 : ℚ) 1) (c68Gens.pc.commit (3 : ℚ) 2 + (0, 1)) (c68Gens.pc.commit (0 : ℚ) 3)
      (c68Gens.pc.commit (1 : ℚ) 4 + (0, 1)) (c68Gens.pc.commit (-1 : ℚ) 5) (c68Gens.pc.commit (0 : ℚ) 6 - (0, 1))).transcript }

theorem c68_shifted : ∃ p tr, prove planeOracle c68Gens c68Rand c68Shifted = .ok (p, tr) ∧ p.NoIdentity 0 := by
  have h : prove planeOracle c68Gens c68Rand c68Shifted = .ok (_, _) := eq_ok (by decide +kernel)
  have h0 : (okOr (prove planeOracle c68Gens c68Rand c68Shifted)).1.NoIdentity 0 := by decide +kernel
  exact ⟨_, _, h, h0⟩

/-- A proof is accepted although three of the commitments have no opening at all. Hence the hypotheses of `C68_y_not_opened` are met. -/
theorem C68_unopenable_accepted : ∃ p : R1CSProof ℚ (ℚ × ℚ), (∀ r, additionVerify planeOracle c68Gens r [] p (c68Gens.pc.commit (2 : ℚ) 1) (c68Gens.pc.commit (3 : ℚ) 2 + (0, 1))
      (c68Gens.pc.commit (0 : ℚ) 3) (c68Gens.pc.commit (1 : ℚ) 4 + (0, 1)) (c68Gens.pc.commit (-1 : ℚ) 5) (c68Gens.pc.commit (0 : ℚ) 6 - (0, 1)) = .ok ()) ∧
    ∀ y b : ℚ, c68Gens.pc.commit y b ≠ c68Gens.pc.commit (3 : ℚ) 2 + (0, 1) ∧ c68Gens.pc.commit y b ≠ c68Gens.pc.commit (1 : ℚ) 4 + (0, 1) ∧
      c68Gens.pc.commit y b ≠ c68Gens.pc.commit (0 : ℚ) 6 - (0, 1) := by
  obtain ⟨p, tr, h, h0⟩ := c68_shifted
  have es : c68Shifted = { additionP c68Gens [] ((2 : ℚ), (1 : ℚ)) (3, 2) (0, 3) (1, 4) (-1, 5) (0, 6) ((1 - 3) / (0 - 2)) (1 / (2 - 0)) with
      transcript := c68Shifted.transcript } := by
    rw [show ((1 : ℚ) - 3) / (0 - 2) = 1 by norm_num, show (1 : ℚ) / (2 - 0) = 1 / 2 by norm_num]
    rfl
  rw [es] at h
  refine ⟨p, fun r => C68_y_not_opened planeOracle c68Gens c68Rand [] (xl := (2, 1)) (yl := (3, 2)) (xr := (0, 3)) (yr := (1, 4)) (xo := (-1, 5)) (yo := (0, 6))
    (by norm_num) (by norm_num) (by norm_num) (by decide) (by decide) (0, 1) h h0 r, fun y b => ⟨?_, ?_, ?_⟩⟩
  all_goals
    intro h
    have := congrArg Prod.snd h
    simp [PedersenGens.commit, c68Gens] at this

/-- `(0, 5) + (1, 6) = (0, -5)`: a proof is accepted although the three pairs are not points of any curve `y² = x³ + b`. -/
theorem C68_off_curve_accepted : ∃ (p : R1CSProof ℚ (ℚ × ℚ)) (V0 V1 V2 V3 V4 V5 : ℚ × ℚ), additionProve planeOracle c68Gens c68Rand [] (0, 1) (5, 2) (1, 3) (6, 4) (0, 5) (-5, 6) =
      .ok (p, [V0, V1, V2, V3, V4, V5]) ∧ (∀ r, additionVerify planeOracle c68Gens r [] p V0 V1 V2 V3 V4 V5 = .ok ()) ∧
    ∀ C : SWCurve ℚ, C.a = 0 → ¬ (C.OnCurve 0 5 ∧ C.OnCurve 1 6) := by
  have h : additionProve planeOracle c68Gens c68Rand [] (0, 1) (5, 2) (1, 3) (6, 4) (0, 5) (-5, 6) = .ok (_, _) := eq_ok (by decide +kernel)
  have h0 : (okOr (additionProve planeOracle c68Gens c68Rand [] (0, 1) (5, 2) (1, 3) (6, 4) (0, 5) (-5, 6))).1.NoIdentity 0 := by decide +kernel
  obtain ⟨V0, V1, V2, V3, V4, V5, e, hv⟩ := C68_slope_suffices planeOracle c68Gens c68Rand [] (by norm_num) (by norm_num) (by norm_num) (by decide) (by decide) h h0
  refine ⟨_, V0, V1, V2, V3, V4, V5, ?_, hv, ?_⟩
  · rw [← e]; exact h
  · rintro C ha ⟨h1, h2⟩
    simp only [SWCurve.OnCurve, ha] at h1 h2
    have : (36 : ℚ) - 25 = 1 := by linear_combination h2 - h1
    norm_num at this

/-! The honest Prover is accepted on a tree of challenges. -/

def c68Forks : Forks ℚ where
  Y := {1, 2, 3, 4, 5, 6, 7, 8}
  Z _ := {1, 2, 3, 4, 5, 6, 7, 8, 9, 10, 11, 12, 13}
  U _ _ := {1, 2, 3, 4, 5}
  X _ _ _ := {1, 2, 3, 4, 5, 6, 7}
  W _ _ _ _ := {1, 2}
  C _ _ _ _ _ _ := {1, 2, 3, 4}

theorem c68_enough : c68Forks.Enough (additionCircuit (F := ℚ)) 3 where
  Y := ⟨by decide +kernel, by decide +kernel⟩
  Z := fun _ => by show _ ≤ Finset.card ({1, 2, 3, 4, 5, 6, 7, 8, 9, 10, 11, 12, 13} : Finset ℚ); decide +kernel
  U := c49_enough.U
  X := c49_enough.X
  W := c49_enough.W
  C := c49_enough.C

def c68P2 : PState ℚ (ℚ × ℚ) Unit := okOr (c68P.secondPhase planeOracle (c68P.firstCommitments c68Gens c68Rand))
def c68V2 : VState ℚ (ℚ × ℚ) Unit :=
  okOr (c68V.secondPhase planeOracle (c68P.firstCommitments c68Gens c68Rand).AI (c68P.firstCommitments c68Gens c68Rand).AO (c68P.firstCommitments c68Gens c68Rand).S)
def c68M : Messages ℚ (ℚ × ℚ) := honestMessages c68Gens c68P.size c68P2 c68V2 c68Rand 3
def c68R : Responses ℚ := honestResponses c68Gens c68P.size c68P2 c68V2 c68Rand 3

/-- The values of `T` and of the vector `l`, for one `y` and one `z`. -/
def c68Good (y z : ℚ) : Bool :=
  ((List.range 7).all fun d => decide (d = 2) || decide ((c68M.T y z).getD d 0 ≠ 0)) && decide ((c68M.T y z).length = 7) &&
  (([1, 2, 3, 4, 5, 6, 7] : List ℚ).all fun x => decide (((rpOf (honestCheck 5 c68V2 y z 0 x 0) c68P2 c68Rand 5).eval x).length = 5)) &&
  (([1, 2, 3, 4, 5, 6, 7] : List ℚ).all fun x => decide (((lpOf (honestCheck 5 c68V2 y z 0 x 0) c68P2 c68Rand 5).eval x).length = 5)) &&
  ([1, 2, 3, 4, 5, 6, 7] : List ℚ).all fun x => ((lpOf (honestCheck 5 c68V2 y z 0 x 0) c68P2 c68Rand 5).eval x).all fun a => decide (0 < a)

theorem c68_good_1 : (([1, 2, 3, 4, 5, 6, 7, 8, 9, 10, 11, 12, 13] : List ℚ).all fun z => c68Good 1 z) = true := by decide +kernel
theorem c68_good_2 : (([1, 2, 3, 4, 5, 6, 7, 8, 9, 10, 11, 12, 13] : List ℚ).all fun z => c68Good 2 z) = true := by decide +kernel
theorem c68_good_3 : (([1, 2, 3, 4, 5, 6, 7, 8, 9, 10, 11, 12, 13] : List ℚ).all fun z => c68Good 3 z) = true := by decide +kernel
theorem c68_good_4 : (([1, 2, 3, 4, 5, 6, 7, 8, 9, 10, 11, 12, 13] : List ℚ).all fun z => c68Good 4 z) = true := by decide +kernel
theorem c68_good_5 : (([1, 2, 3, 4, 5, 6, 7, 8, 9, 10, 11, 12, 13] : List ℚ).all fun z => c68Good 5 z) = true := by decide +kernel
theorem c68_good_6 : (([1, 2, 3, 4, 5, 6, 7, 8, 9, 10, 11, 12, 13] : List ℚ).all fun z => c68Good 6 z) = true := by decide +kernel
theorem c68_good_7 : (([1, 2, 3, 4, 5, 6, 7, 8, 9, 10, 11, 12, 13] : List ℚ).all fun z => c68Good 7 z) = true := by decide +kernel
theorem c68_good_8 : (([1, 2, 3, 4, 5, 6, 7, 8, 9, 10, 11, 12, 13] : List ℚ).all fun z => c68Good 8 z) = true := by decide +kernel

theorem c68_good {y z : ℚ} (hy : y ∈ c68Forks.Y) (hz : z ∈ c68Forks.Z y) : c68Good y z = true := by
  have hy' : y = 1 ∨ y = 2 ∨ y = 3 ∨ y = 4 ∨ y = 5 ∨ y = 6 ∨ y = 7 ∨ y = 8 := by simpa [c68Forks] using hy
  have hz' : z ∈ ([1, 2, 3, 4, 5, 6, 7, 8, 9, 10, 11, 12, 13] : List ℚ) := by simpa [c68Forks] using hz
  rcases hy' with rfl | rfl | rfl | rfl | rfl | rfl | rfl | rfl
  · exact List.all_eq_true.1 c68_good_1 z hz'
  · exact List.all_eq_true.1 c68_good_2 z hz'
  · exact List.all_eq_true.1 c68_good_3 z hz'
  · exact List.all_eq_true.1 c68_good_4 z hz'
  · exact List.all_eq_true.1 c68_good_5 z hz'
  · exact List.all_eq_true.1 c68_good_6 z hz'
  · exact List.all_eq_true.1 c68_good_7 z hz'
  · exact List.all_eq_true.1 c68_good_8 z hz'

theorem c68_positive {y z u x w : ℚ} (hy : y ∈ c68Forks.Y) (hz : z ∈ c68Forks.Z y) (hu : 0 < u) (hx : x ∈ ([1, 2, 3, 4, 5, 6, 7] : List ℚ)) :
    PositiveState (LinearMap.snd ℚ ℚ ℚ) (2 ^ 2) (honestStart c68Gens (honestCheck 5 c68V2 y z u x w) c68P2 c68Rand) := by
  have hpos : ∀ a ∈ (lpOf (honestCheck 5 c68V2 y z u x w) c68P2 c68Rand 5).eval x, 0 < a := by
    have h := c68_good hy hz
    simp only [c68Good, Bool.and_eq_true] at h
    have h1 := List.all_eq_true.1 (List.all_eq_true.1 h.2 x hx)
    intro a ha
    simpa using h1 a ha
  have hN : (honestCheck 5 c68V2 y z u x w).N = 8 := (show nextPow2 c68V2.size = 8 by decide +kernel)
  have hs : c68P2.size = 5 := by decide +kernel
  have hlen : ((lpOf (honestCheck 5 c68V2 y z u x w) c68P2 c68Rand 5).eval x).length = 5 := by
    have h := c68_good hy hz
    simp only [c68Good, Bool.and_eq_true] at h
    have e : lpOf (honestCheck 5 c68V2 y z u x w) c68P2 c68Rand 5 = lpOf (honestCheck 5 c68V2 y z 0 x 0) c68P2 c68Rand 5 := rfl
    rw [e]
    simpa using (List.all_eq_true.1 h.1.2 x hx)
  have hlen' : ((rpOf (honestCheck 5 c68V2 y z u x w) c68P2 c68Rand 5).eval x).length = 5 := by
    have h := c68_good hy hz
    simp only [c68Good, Bool.and_eq_true] at h
    have e : rpOf (honestCheck 5 c68V2 y z u x w) c68P2 c68Rand 5 = rpOf (honestCheck 5 c68V2 y z 0 x 0) c68P2 c68Rand 5 := rfl
    rw [e]
    simpa using (List.all_eq_true.1 h.1.1.2 x hx)
  have ha : (honestStart c68Gens (honestCheck 5 c68V2 y z u x w) c68P2 c68Rand).a = (lpOf (honestCheck 5 c68V2 y z u x w) c68P2 c68Rand 5).eval x ++ [0, 0, 0] := by
    show (lpOf _ c68P2 c68Rand c68P2.size).eval x ++ List.replicate ((honestCheck 5 c68V2 y z u x w).N - c68P2.size) 0 = _
    rw [hN, hs]; rfl
  have hf : ∀ i, 0 < (honestCheck 5 c68V2 y z u x w).factor i := by
    intro i
    show 0 < if i < 5 then 1 else u
    split
    · exact one_pos
    · exact hu
  refine ⟨⟨?_, ?_, ?_, ?_⟩, ?_, ?_, ?_, ?_, ?_⟩
  · simp [honestStart, hN, c68Gens]
  · simp [honestStart, hN, c68Gens]
  · rw [ha]; simp [hlen]
  · simp only [honestStart, hN, hs, List.length_append]
    have : (honestCheck 5 c68V2 y z u x w).x = x := rfl
    rw [this, hlen']; simp
  · intro P hP
    obtain ⟨f, hf', Q, hQ, rfl⟩ := mem_zipWith hP
    obtain ⟨i, -, rfl⟩ := List.mem_map.1 hf'
    have : Q.2 = 1 := by
      have hQ := List.mem_of_mem_take hQ
      clear hP
      revert Q
      exact fun Q _ hQ => (show ∀ Q ∈ c68Gens.Gs, Q.2 = 1 by decide +kernel) Q hQ
    rw [map_smul, smul_eq_mul]
    show 0 < _ * Q.2
    rw [this, mul_one]
    exact hf i
  · intro P hP
    obtain ⟨f, hf', Q, hQ, rfl⟩ := mem_zipWith hP
    have : Q.2 = 0 := by
      have hQ := List.mem_of_mem_take hQ
      clear hP
      revert Q
      exact fun Q _ hQ => (show ∀ Q ∈ c68Gens.Hs, Q.2 = 0 by decide +kernel) Q hQ
    rw [map_smul, smul_eq_mul]
    show _ * Q.2 = 0
    rw [this, mul_zero]
  · rw [ha]
    intro a h
    rcases List.mem_append.1 h with h | h
    · exact (hpos a h).le
    · simp at h; exact h.ge
  · rw [ha, List.take_append_of_le_length (by rw [hlen]; decide)]
    exact fun a h => hpos a (List.mem_of_mem_take h)
  · rw [ha, List.drop_append_of_le_length (by rw [hlen]; decide)]
    have hlt : 0 < (((lpOf (honestCheck 5 c68V2 y z u x w) c68P2 c68Rand 5).eval x).drop (2 ^ 2)).length := by simp [hlen]
    exact ⟨_, List.mem_append_left _ (List.getElem_mem hlt), hpos _ (List.mem_of_mem_drop (List.getElem_mem hlt))⟩

theorem c68_accepts : AcceptsTree c68Gens c68V c68V2 c68M c68R c68Forks 3 := by
  have hs : Session planeOracle c68Gens c68P c68V := addition_session ..
  have e2 : c68P.secondPhase planeOracle (c68P.firstCommitments c68Gens c68Rand) = .ok c68P2 := eq_ok (by decide +kernel)
  obtain ⟨t2, h2, key⟩ := honest_tree (lg := 3) (g := c68Gens) (by decide) (by decide) hs.inv c68Rand e2
    (allZero_iff (by decide +kernel)) (by decide +kernel) (by decide) (by decide) (by decide +kernel) (by decide +kernel)
    (fun z => by
      rw [← Option.isSome_iff_ne_none, PState.flattened_isSome, ← PState.flattened_isSome _ 0]
      decide +kernel)
  have et : c68V2 = t2 := by unfold c68V2; rw [h2]; rfl
  rw [← et] at key
  refine key c68Forks (by decide +kernel) (fun _ _ _ _ _ _ => by show 0 ∉ ({1, 2, 3, 4} : Finset ℚ); decide +kernel) ?_
  intro y z u x w us hp hl
  have hu : 0 < u := by
    have := hp.hu
    simp only [c68Forks, Finset.mem_insert, Finset.mem_singleton] at this
    rcases this with rfl | rfl | rfl | rfl | rfl <;> norm_num
  have hx : x ∈ ([1, 2, 3, 4, 5, 6, 7] : List ℚ) := by simpa [c68Forks] using hp.hx
  have hus : ∀ v ∈ us, 0 < v := by
    intro v hv
    have := hp.hus.mem (S := {1, 2, 3, 4}) (fun _ => rfl) v hv
    simp only [Finset.mem_insert, Finset.mem_singleton] at this
    rcases this with rfl | rfl | rfl | rfl <;> norm_num
  have hg := c68_good hp.hy hp.hz
  simp only [c68Good, Bool.and_eq_true, decide_eq_true_eq] at hg
  have hf : c68M.AI1 ≠ 0 ∧ c68M.AO1 ≠ 0 ∧ c68M.S1 ≠ 0 := by decide +kernel
  have hI := (c68_positive (w := w) hp.hy hp.hz hu hx).honest (Q := w • c68Gens.pc.B) (by simp [c68Gens]) 2 hl hus
  refine ⟨hf.1, hf.2.1, hf.2.2, fun d hd hne => ?_, hI.1, hI.2⟩
  have hd : d < (c68M.T y z).length := hd
  rw [hg.1.1.1.2] at hd
  have := List.all_eq_true.1 hg.1.1.1.1 d (List.mem_range.2 hd)
  rw [Bool.or_eq_true, decide_eq_true_eq, decide_eq_true_eq] at this
  exact this.resolve_left hne

/-- The hypotheses of `C68_addition_knowledge_partial` are met. -/
example : c68Forks.Enough (additionCircuit (F := ℚ)) 3 ∧
    additionVerifier planeOracle [] (c68Gens.pc.commit (2 : ℚ) 1) (c68Gens.pc.commit (3 : ℚ) 2) (c68Gens.pc.commit (0 : ℚ) 3) (c68Gens.pc.commit (1 : ℚ) 4)
      (c68Gens.pc.commit (-1 : ℚ) 5) (c68Gens.pc.commit (0 : ℚ) 6) = .ok c68V ∧ AcceptsTree c68Gens c68V c68V2 c68M c68R c68Forks 3 :=
  ⟨c68_enough, additionVerifier_eq .., c68_accepts⟩

end CT
