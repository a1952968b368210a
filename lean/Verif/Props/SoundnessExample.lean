import Verif.Props.Soundness
import Verif.Proofs.Concrete

/-!
# C09: the hypotheses of the extraction theorems hold in a concrete case

A prover for two gates and the constraint that the sum of their outputs is the committed value, over the rationals, run on a tree
with 2 * 2 * 5 * 7 * 2 * 4 = 1120 paths.
-/

namespace CT

/-- The oracle that answers with given challenges. -/
def pathOracle (y z u x w c : ℚ) : Oracle ℚ ℚ Unit := fun t => match t.reverse with
  | .chal _ :: .point "R" _ :: _ => c
  | .chal l :: _ => if l = "y" then y else if l = "z" then z else if l = "u" then u else if l = "x" then x else w
  | _ => 0

def c09Prog : Prog ℚ ℚ Unit Unit := do
  let (_, _, o) ← allocateMultiplier (some (2, 3))
  let (_, _, o') ← allocateMultiplier (some (4, 5))
  constrain (LC.ofVar o + LC.ofVar o' - LC.ofVar (.committed 0))

def c09P : PState ℚ ℚ Unit := (okOr (runP exOracle c09Prog ((PState.new []).commit exGens 26 7).2)).2
def c09V : VState ℚ ℚ Unit := (okOr (runV exOracle c09Prog ((VState.new []).commit (exGens.pc.commit (26 : ℚ) 7)).2)).2

/-- A strategy of the prover, written out: the messages of an honest prover whose blinding vectors are zero. -/
def c09Messages : Messages ℚ ℚ where
  AI1 := 10 + 2 * 2 + 4 * 3 + 3 * 11 + 5 * 13
  AO1 := 2 * 10 + 6 * 2 + 20 * 3
  S1 := 3 * 10
  AI2 := 0
  AO2 := 0
  S2 := 0
  T y z := [10 * 1000, 2 * (z - 1) + 4 * (z - y) + 10 * 1001, 0, 18 + 100 * y + 10 * 1003, 10 * 1004, 10 * 1005, 10 * 1006]
  L y z _ x w _ := (2 * x + 6 * x ^ 2) * 3 + (5 * y * x - y + z) * 11 + (2 * x + 6 * x ^ 2) * (5 * y * x - y + z) * w
  R y z _ x w _ := (4 * x + 20 * x ^ 2) * 2 + (3 * x - 1 + z) * y⁻¹ * 13 + (4 * x + 20 * x ^ 2) * (3 * x - 1 + z) * w

def c09Responses : Responses ℚ where
  tx y z _ x := (2 * x + 6 * x ^ 2) * (3 * x - 1 + z) + (4 * x + 20 * x ^ 2) * (5 * y * x - y + z)
  txBl _ z _ x := 1000 + 1001 * x + 7 * z * x ^ 2 + 1003 * x ^ 3 + 1004 * x ^ 4 + 1005 * x ^ 5 + 1006 * x ^ 6
  eBl _ _ _ x := x + 2 * x ^ 2 + 3 * x ^ 3
  a _ _ _ x _ us := (2 * x + 6 * x ^ 2) * us.headD 0 + (4 * x + 20 * x ^ 2) * (us.headD 0)⁻¹
  b y z _ x _ us := (3 * x - 1 + z) * (us.headD 0)⁻¹ + (5 * y * x - y + z) * us.headD 0

def c09Forks : Forks ℚ where
  Y := {3, 5}
  Z _ := {1, 2}
  U _ _ := {1, 2, 3, 4, 5}
  X _ _ _ := {1, 2, 3, 4, 5, 6, 7}
  W _ _ _ _ := {1, 2}
  C _ _ _ _ _ _ := {1, 2, 3, 4}

/-- The Verifier after the (empty) second phase. -/
def c09V2 : VState ℚ ℚ Unit := okOr (c09V.secondPhase exOracle c09Messages.AI1 c09Messages.AO1 c09Messages.S1)

/-- One path is accepted. -/
def c09Check (y z u x w c : ℚ) : Bool :=
  isOk (verify (pathOracle y z u x w c) exGens 0 (strategyProof c09Messages c09Responses y z u x w [c]) c09V) &&
  isOk (verify (pathOracle y z u x w c) exGens 1 (strategyProof c09Messages c09Responses y z u x w [c]) c09V)

/-- The paths of the tree with given first challenges are accepted. -/
def c09All (y z u : ℚ) : Bool := ([1, 2, 3, 4, 5, 6, 7] : List ℚ).all fun x =>
  ([1, 2] : List ℚ).all fun w => ([1, 2, 3, 4] : List ℚ).all fun c => c09Check y z u x w c

section
set_option maxRecDepth 4000
theorem c09_all_311 : c09All 3 1 1 = true := by decide +kernel
theorem c09_all_312 : c09All 3 1 2 = true := by decide +kernel
theorem c09_all_313 : c09All 3 1 3 = true := by decide +kernel
theorem c09_all_314 : c09All 3 1 4 = true := by decide +kernel
theorem c09_all_315 : c09All 3 1 5 = true := by decide +kernel
theorem c09_all_321 : c09All 3 2 1 = true := by decide +kernel
theorem c09_all_322 : c09All 3 2 2 = true := by decide +kernel
theorem c09_all_323 : c09All 3 2 3 = true := by decide +kernel
theorem c09_all_324 : c09All 3 2 4 = true := by decide +kernel
theorem c09_all_325 : c09All 3 2 5 = true := by decide +kernel
theorem c09_all_511 : c09All 5 1 1 = true := by decide +kernel
theorem c09_all_512 : c09All 5 1 2 = true := by decide +kernel
theorem c09_all_513 : c09All 5 1 3 = true := by decide +kernel
theorem c09_all_514 : c09All 5 1 4 = true := by decide +kernel
theorem c09_all_515 : c09All 5 1 5 = true := by decide +kernel
theorem c09_all_521 : c09All 5 2 1 = true := by decide +kernel
theorem c09_all_522 : c09All 5 2 2 = true := by decide +kernel
theorem c09_all_523 : c09All 5 2 3 = true := by decide +kernel
theorem c09_all_524 : c09All 5 2 4 = true := by decide +kernel
theorem c09_all_525 : c09All 5 2 5 = true := by decide +kernel
end

theorem c09_check {y z u x w c : ℚ} (hy : y = 3 ∨ y = 5) (hz : z = 1 ∨ z = 2) (hu : u = 1 ∨ u = 2 ∨ u = 3 ∨ u = 4 ∨ u = 5)
    (hx : x ∈ ([1, 2, 3, 4, 5, 6, 7] : List ℚ)) (hw : w ∈ ([1, 2] : List ℚ)) (hc : c ∈ ([1, 2, 3, 4] : List ℚ)) :
    c09Check y z u x w c = true := by
  have key : c09All y z u = true := by
    rcases hy with rfl | rfl <;> rcases hz with rfl | rfl <;> rcases hu with rfl | rfl | rfl | rfl | rfl
    · exact c09_all_311
    · exact c09_all_312
    · exact c09_all_313
    · exact c09_all_314
    · exact c09_all_315
    · exact c09_all_321
    · exact c09_all_322
    · exact c09_all_323
    · exact c09_all_324
    · exact c09_all_325
    · exact c09_all_511
    · exact c09_all_512
    · exact c09_all_513
    · exact c09_all_514
    · exact c09_all_515
    · exact c09_all_521
    · exact c09_all_522
    · exact c09_all_523
    · exact c09_all_524
    · exact c09_all_525
  unfold c09All at key
  exact List.all_eq_true.1 (List.all_eq_true.1 (List.all_eq_true.1 key x hx) w hw) c hc

theorem c09_enough : c09Forks.Enough (c09V.circuit c09V2) 1 where
  Y := ⟨by decide +kernel, by decide +kernel⟩
  Z := fun _ => by show _ ≤ Finset.card ({1, 2} : Finset ℚ); decide +kernel
  U := fun _ _ => by
    show 0 ∉ ({1, 2, 3, 4, 5} : Finset ℚ) ∧ 5 ≤ Finset.card ({1, 2, 3, 4, 5} : Finset ℚ)
    decide +kernel
  X := fun _ _ _ => by show _ ≤ Finset.card ({1, 2, 3, 4, 5, 6, 7} : Finset ℚ); decide +kernel
  W := fun _ _ _ _ => by
    show 0 ∉ ({1, 2} : Finset ℚ) ∧ 2 ≤ Finset.card ({1, 2} : Finset ℚ)
    decide +kernel
  C := fun _ _ _ _ _ _ => by
    show 0 ∉ ({1, 2, 3, 4} : Finset ℚ) ∧ 4 ≤ Finset.card (({1, 2, 3, 4} : Finset ℚ).image (· ^ 2))
    decide +kernel

theorem c09_accepts : AcceptsTree exGens c09V c09V2 c09Messages c09Responses c09Forks 1 := by
  intro y z u x w us hp hl
  obtain ⟨c, rfl⟩ := List.length_eq_one_iff.1 hl
  have hy : y = 3 ∨ y = 5 := by simpa [c09Forks] using hp.hy
  have hz : z = 1 ∨ z = 2 := by simpa [c09Forks] using hp.hz
  have hu : u = 1 ∨ u = 2 ∨ u = 3 ∨ u = 4 ∨ u = 5 := by simpa [c09Forks] using hp.hu
  have hx : x ∈ ([1, 2, 3, 4, 5, 6, 7] : List ℚ) := by simpa [c09Forks] using hp.hx
  have hw : w ∈ ([1, 2] : List ℚ) := by simpa [c09Forks] using hp.hw
  have hc : c ∈ ([1, 2, 3, 4] : List ℚ) := by simpa [c09Forks, InPaths] using hp.hus
  have h := c09_check hy hz hu hx hw hc
  unfold c09Check at h
  rw [Bool.and_eq_true] at h
  refine ⟨pathOracle y z u x w c, rfl, ⟨?_, ?_, ?_, ?_, ?_, ?_⟩, 0, 1, by decide +kernel, eq_ok h.1, eq_ok h.2⟩
  all_goals rfl

example : (∃ r : Relation ℚ, r.NonTrivial 2 ∧ r.Holds 2 exGens) ∨
    ∃ e : Extracted ℚ, (e.assignment (c09V.circuit c09V2)).Satisfies 2 (c09V.circuit c09V2).constraints ∧
      e.AI1.Opens 2 exGens c09Messages.AI1 := by
  rcases C09_no_vector_commitments_partial (c09V.circuit c09V2) c09Responses c09Forks 1 c09_enough (by decide +kernel) with
    ⟨r, hr, h⟩ | ⟨e, h⟩
  · exact .inl ⟨r, hr, h ℚ Unit exGens c09V c09V2 c09Messages rfl (by decide) (by decide) c09_accepts⟩
  · have := h ℚ Unit exGens c09V c09V2 c09Messages rfl (by decide) (by decide) c09_accepts
    exact .inr ⟨e, this.1, this.2.1⟩

end CT
