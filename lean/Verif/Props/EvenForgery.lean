import Verif.Props.OddForgery
import Verif.Props.Verification

/-! # C09 fails for an even number of vector commitments, if the prover chooses them

With two vector commitments (`op_degree = 4`) the first is used with degree 3 and the second with degree 1 in `l(X)`
(`op_splits`, `bulletproofs/src/r1cs/mod.rs:19-39`). A component of the second one on the `H` generators appears with degree 1 in
`r(X)`, and is multiplied with the first one at degree 4, where the gates are checked: gate `i` is only checked as
`aL_i * aR_i + c_i * d_i = aO_i`, with `c` the vector in the first commitment and `d` the `H` part of the second one. `Verifier::commit_vec`
takes any point. -/

namespace CT
variable {F G X : Type} [Field F] [AddCommGroup G] [Module F G] [DecidableEq F] [DecidableEq G]

/-- The Verifier of `2 * 3 = 7` with two vector commitments `V`, `V'` of dimension 1. -/
def absurdV2 (o : Oracle F G X) (V V' : G) : Except Err (Unit × VState F G X) :=
  runV o absurdGadget (((VState.new []).commitVec 1 V).2.commitVec 1 V').2

/-- The forged commitments to the wires: `2`, `3`, `7`. -/
def crossAI (g : Gens G) (rnd : PRand F) : G := rnd.i1 • g.pc.Bbl + (2 : F) • g.Gs.getD 0 0 + (3 : F) • g.Hs.getD 0 0
/-- The forged commitments to the wires: `2`, `3`, `7`. -/
def crossAO (g : Gens G) (rnd : PRand F) : G := rnd.o1 • g.pc.Bbl + (7 : F) • g.Gs.getD 0 0

/-- Everything absorbed before the challenge `y`. -/
def crossStart (g : Gens G) (rnd : PRand F) (V V' : G) : Transcript F G X :=
  [.sep "r1cs v1", .point "V" V, .point "V" V', .num "m" 0, .point "A_I1" (crossAI g rnd), .point "A_O1" (crossAO g rnd),
    .point "S1" (rnd.s1 • g.pc.Bbl), .sep "r1cs-1phase", .point "A_I2" 0, .point "A_O2" 0, .point "S2" 0]

/-- The commitments to the coefficients of `t(X) = (c X^3 + (2 + z^2) X^2 + 7 X^4) * (c^-1 X + (3 + z) X^2 + z^3 - 1)`. -/
def crossT (g : Gens G) (rnd : PRand F) (c z : F) : List G :=
  (List.range 11).map fun d => if d = 4 then 0 else
    g.pc.commit (([0, 0, (2 + z ^ 2) * (z ^ 3 - 1), (2 + z ^ 2) * c⁻¹ + c * (z ^ 3 - 1), 0, c * (3 + z) + 7 * c⁻¹, 7 * (3 + z)] : List F).getD d 0) (rnd.tau d)

/-- The forger: it only knows `c`, the blindings `bl`, `bl'` of the two commitments and its own randomness. -/
def crossForge (o : Oracle F G X) (g : Gens G) (rnd : PRand F) (c bl bl' : F) (V V' : G) : R1CSProof F G :=
  let tA := crossStart g rnd V V' ++ [.chal "y", .chal "z"]
  let z := o tA
  let T := crossT g rnd c z
  let tT := tA ++ (tDegrees (opDegree 2)).map fun d => .point ("T_" ++ toString d) (T.getD d 0)
  let x := o (tT ++ [.chal "u", .chal "x"])
  let l := c * x ^ 3 + (2 + z ^ 2) * x ^ 2 + 7 * x ^ 4
  let r := c⁻¹ * x + (3 + z) * x ^ 2 + z ^ 3 - 1
  { AI1 := crossAI g rnd
    AO1 := crossAO g rnd
    S1 := rnd.s1 • g.pc.Bbl
    AI2 := 0
    AO2 := 0
    S2 := 0
    T := T
    tx := l * r
    txBl := ∑ d ∈ (Finset.range 11).erase 4, rnd.tau d * x ^ d
    eBl := x ^ 3 * bl + x * bl' + x ^ 2 * rnd.i1 + x ^ 4 * rnd.o1 + x ^ 5 * rnd.s1
    ipp := ⟨[], [], l, r⟩ }

/-- The weights of the constraints of `absurdGadget`. -/
def crossWeights (z : F) : Weights F :=
  ⟨[0 + z * 1], [0 + z * z * 1], [0 + z * z * z * 1], [], [[0], [0]], 0 - z * -2 - z * z * -3 - z * z * z * -7⟩

omit [DecidableEq F] [DecidableEq G] in
/-- The first equation of the paper. -/
theorem cross_poly (g : Gens G) (rnd : PRand F) (c z y u x w : F) (hc : c ≠ 0) (V V' : G) :
    (⟨[V, V'], [], crossWeights z, 1, 1, y, u, x, w⟩ : Check F G).polyDefect g (crossT g rnd c z)
      ((c * x ^ 3 + (2 + z ^ 2) * x ^ 2 + 7 * x ^ 4) * (c⁻¹ * x + (3 + z) * x ^ 2 + z ^ 3 - 1))
      (∑ d ∈ (Finset.range 11).erase 4, rnd.tau d * x ^ d) = 0 := by
  have hd : (Finset.range 11).erase 4 = {0, 1, 2, 3, 5, 6, 7, 8, 9, 10} := by decide
  have hop : (⟨[V, V'], [], crossWeights z, 1, 1, y, u, x, w⟩ : Check F G).op = 4 := by simp [Check.op, opDegree]
  unfold Check.polyDefect Check.delta
  rw [hop]
  simp only [hd, crossT, crossWeights, PedersenGens.commit, Finset.sum_range_succ, Finset.sum_range_zero, List.length_nil]
  simp
  have key : (c * x ^ 3 + (2 + z ^ 2) * x ^ 2 + 7 * x ^ 4) * (c⁻¹ * x + (3 + z) * x ^ 2 + z ^ 3 - 1) =
      x ^ 4 * (z * 2 + z * z * 3 + z * z * z * 7 + z * z * z) + x ^ 2 * ((2 + z ^ 2) * (z ^ 3 - 1)) +
      x ^ 3 * ((2 + z ^ 2) * c⁻¹ + c * (z ^ 3 - 1)) + x ^ 5 * (c * (3 + z) + 7 * c⁻¹) + x ^ 6 * (7 * (3 + z)) := by
    linear_combination x ^ 4 * mul_inv_cancel₀ hc
  rw [key]
  module

omit [DecidableEq F] [DecidableEq G] in
/-- The second equation of the paper. -/
theorem cross_open (g : Gens G) (rnd : PRand F) (c bl bl' z y u x w : F) (V V' : G)
    (hV : V = bl • g.pc.Bbl + c • g.Gs.getD 0 0) (hV' : V' = bl' • g.pc.Bbl + c⁻¹ • g.Hs.getD 0 0) (a b : F)
    (ha : a = c * x ^ 3 + (2 + z ^ 2) * x ^ 2 + 7 * x ^ 4) (hb : b = c⁻¹ * x + (3 + z) * x ^ 2 + z ^ 3 - 1) :
    let ch : Check F G := ⟨[V, V'], [], crossWeights z, 1, 1, y, u, x, w⟩
    ch.opened g (crossAI g rnd) (crossAO g rnd) (rnd.s1 • g.pc.Bbl) 0 0 0
      (x ^ 3 * bl + x * bl' + x ^ 2 * rnd.i1 + x ^ 4 * rnd.o1 + x ^ 5 * rnd.s1) + (a * b) • (w • g.pc.B) =
    a • (ch.ippG g).getD 0 0 + b • (ch.ippH g).getD 0 0 + (a * b) • (w • g.pc.B) := by
  intro ch
  have hop : ch.op = 4 := by simp [ch, Check.op, opDegree]
  unfold Check.opened Check.ippG Check.ippH Check.rPublic Check.factor
  rw [hop]
  simp only [ch, crossAI, crossAO, crossWeights, Finset.sum_range_succ, Finset.sum_range_zero, List.length_cons, List.length_nil, lDeg, rDeg]
  rw [ha, hb, hV, hV']
  simp
  module

/-- **C09 is false of the code for an even number of vector commitments too**, when the prover supplies the points: the first is an ordinary
commitment to the vector `(c)`, the second has the component `c^-1` on the first `H` generator. The statement `2 * 3 = 7` is
accepted in every group, for every oracle (that does not answer `y = 0`) and all generators. -/
theorem C09_even_commitments_forgery (h7 : (2 * 3 : F) ≠ 7) (o : Oracle F G X) (g : Gens G) (rnd : PRand F)
    (c bl bl' : F) (hc : c ≠ 0) (hcap : 1 ≤ g.capacity) (hcG : g.capacity ≤ g.Gs.length) (hcH : g.capacity ≤ g.Hs.length)
    (V V' : G) (hV : V = bl • g.pc.Bbl + c • g.Gs.getD 0 0) (hV' : V' = bl' • g.pc.Bbl + c⁻¹ • g.Hs.getD 0 0)
    (hy : o (crossStart g rnd V V' ++ [.chal "y"]) ≠ 0) (hne : (crossForge o g rnd c bl bl' V V').NoIdentity 2) :
    ∃ t, absurdV2 o V V' = .ok ((), t) ∧ (∀ w, ¬ t.SatisfiedBy w) ∧
      ∀ r, verify o g r (crossForge o g rnd c bl bl' V V') t = .ok () := by
  refine ⟨_, rfl, ?_, fun r => ?_⟩
  · rintro w ⟨hg, hc⟩
    replace hc : ∀ c ∈ [(LC.ofVar (.multiplierLeft 0) - LC.const 2 : LC F), LC.ofVar (.multiplierRight 0) - LC.const 3,
        LC.ofVar (.multiplierOutput 0) - LC.const 7], w.eval c = 0 := hc
    replace hg : w.Gates 1 := hg
    have hl := hc (LC.ofVar (.multiplierLeft 0) - LC.const 2) (by simp)
    have hr := hc (LC.ofVar (.multiplierRight 0) - LC.const 3) (by simp)
    have ho := hc (LC.ofVar (.multiplierOutput 0) - LC.const 7) (by simp)
    have hg := hg 0 (by simp)
    simp only [eval_sub, eval_ofVar, eval_const, Assignment.val] at hl hr ho
    rw [sub_eq_zero.1 hl, sub_eq_zero.1 hr, sub_eq_zero.1 ho] at hg
    exact h7 hg
  · refine C41_paper_proofs_accepted o g _ _ rfl hcG hcH ?_ r
    refine ⟨_, crossWeights (o (crossStart g rnd V V' ++ [.chal "y", .chal "z"])),
      ⟨hne.AI1, hne.AO1, hne.S1, rfl, ?_, hy, rfl, ?_, ?_, ?_, ?_⟩, ?_, ?_⟩
    · intro d hd
      have hd : d ∈ tDegrees (opDegree 2) := hd
      have hd' : d < 11 ∧ d ≠ 4 := by simpa [tDegrees, opDegree, Nat.lt_succ_iff] using hd
      have hl : (crossForge o g rnd c bl bl' V V').T.length = 11 := by simp [crossForge, crossT]
      exact ⟨by unfold tLabelCount; omega, by omega, hne.T d (by omega) hd'.2⟩
    · exact le_refl 1
    · exact fun h => absurd rfl h
    · exact (by decide : 0 < 32)
    · exact hcap
    · exact cross_poly g rnd c _ _ _ _ _ hc V V'
    · exact cross_open g rnd c bl bl' _ _ _ _ _ V V' hV hV' _ _ rfl rfl

/-- The hypotheses are met over ℚ. -/
example : (crossForge exOracle exGens exRand 5 1 2 20 (10 * 2 + 11 / 5)).NoIdentity 2 ∧
    exOracle (crossStart exGens exRand 20 (10 * 2 + 11 / 5) ++ [.chal "y"]) ≠ 0 ∧
    (20 : ℚ) = (1 : ℚ) • exGens.pc.Bbl + (5 : ℚ) • exGens.Gs.getD 0 0 ∧
    (10 * 2 + 11 / 5 : ℚ) = (2 : ℚ) • exGens.pc.Bbl + (5 : ℚ)⁻¹ • exGens.Hs.getD 0 0 := by
  decide +kernel

end CT
