import Verif.Proofs.Schedule
import Verif.Proofs.Flatten
import Verif.Props.Flatten

/-! # Property C05: the degree schedule isolates the circuit equation -/

namespace CT
open Finset
variable {F G X : Type} [Field F]

/-- **C05**, the schedule: for every number `k` of vector commitments there are at least `k + 2` slots
(multiplication inputs, multiplication outputs, `k` commitments), the two degrees of every slot sum to
`op_degree`, and all left degrees, and all right degrees, are pairwise different. -/
theorem C05_schedule (k : Nat) :
    k + 2 ≤ (opSplits (opDegree k)).length ∧
    (∀ s ∈ opSplits (opDegree k), s.1 + s.2 = opDegree k) ∧
    ((opSplits (opDegree k)).map (·.1)).Nodup ∧ ((opSplits (opDegree k)).map (·.2)).Nodup := by
  obtain ⟨m, hm, hop, hk⟩ := opDegree_pos k
  rw [hop] at hk ⊢
  have hlen := opSplits_length m hm
  have hget : ∀ j (hj : j < (opSplits (2 * m)).length),
      (opSplits (2 * m))[j] = (2 * m - slotR (2 * m) j, slotR (2 * m) j) := by
    intro j hj
    rw [← getD_of_lt _ _ (0, 0) hj, opSplits_getD m hm j (by omega)]
  refine ⟨by omega, ?_, ?_, ?_⟩
  · intro s hs
    obtain ⟨j, hj, rfl⟩ := List.mem_iff_getElem.1 hs
    have := slotR_le m j hm (by omega)
    rw [hget]; simp only; omega
  · rw [List.nodup_iff_injective_getElem]
    rintro ⟨i, hi⟩ ⟨j, hj⟩ h
    simp only [List.length_map] at hi hj
    simp only [List.getElem_map, hget] at h
    have := slotR_le m i hm (by omega)
    have := slotR_le m j hm (by omega)
    exact Fin.ext (slotR_inj m i j hm (by omega))
  · rw [List.nodup_iff_injective_getElem]
    rintro ⟨i, hi⟩ ⟨j, hj⟩ h
    simp only [List.length_map] at hi hj
    simp only [List.getElem_map, hget] at h
    exact Fin.ext (slotR_inj m i j hm h)

/-- **C05**, the coefficient: for the polynomials the Prover builds from any witness, any weights and any
blinding vectors `sL`, `sR`, the coefficient of degree `op_degree` in `t(X) = <l(X), r(X)>` is
`sum_i y^i (aL_i aR_i - aO_i)` plus the flattened circuit expression
`<wL,aL> + <wR,aR> + <wO,aO> + sum_j <wVC_j,v_j>` plus `delta = sum_i y^-i wR_i wL_i`. -/
theorem C05_coefficient (s : PState F G X) (wt : Weights F) (y : F) (hy : y ≠ 0) (n N : Nat) (hN : n ≤ N)
    (sL sR : List F) (hs : sL.length ≤ n) (hv : ∀ v ∈ s.vecOpen, v.2.length ≤ n)
    (hw : wt.wVC.map List.length = s.vecOpen.map fun v => v.2.length) :
    let op := opDegree s.vecOpen.length
    (VecPoly.innerProduct (lPoly s wt (expIter y⁻¹ N) n op (opSplits op) sL)
        (rPoly s wt (expIter y N) n op (opSplits op) sR)).getD op 0 =
      ∑ i ∈ range n, y ^ i * (s.aL.getD i 0 * s.aR.getD i 0 - s.aO.getD i 0) +
      (∑ i ∈ range n, wt.wL.getD i 0 * s.aL.getD i 0 + ∑ i ∈ range n, wt.wR.getD i 0 * s.aR.getD i 0 +
        ∑ i ∈ range n, wt.wO.getD i 0 * s.aO.getD i 0 +
        ∑ j ∈ range s.vecOpen.length,
          ∑ i ∈ range n, (wt.wVC.getD j []).getD i 0 * (s.vecOpen.getD j (0, [])).2.getD i 0) +
      ∑ i ∈ range n, y⁻¹ ^ i * (wt.wR.getD i 0 * wt.wL.getD i 0) := by
  intro op
  have hlen : s.vecOpen.length = wt.wVC.length := by
    have := congrArg List.length hw
    simpa using this.symm
  have hvc : ∀ v ∈ wt.wVC, v.length ≤ n := by
    intro v hv'
    have : v.length ∈ wt.wVC.map List.length := List.mem_map_of_mem hv'
    rw [hw] at this
    obtain ⟨u, hu, e⟩ := List.mem_map.1 this
    rw [← e]; exact hv u hu
  have hl := lPoly_rep s wt (expIter y⁻¹ N) n sL hs hv
  have hr := rPoly_rep s wt (expIter y N) n sR hvc hlen
  rw [coeff_op s.vecOpen.length n _ _ _ _ hl hr]
  rw [Finset.sum_comm (s := range s.vecOpen.length)]
  simp only [← Finset.sum_add_distrib]
  refine Finset.sum_congr rfl fun i hi => ?_
  have hi := mem_range.1 hi
  rw [sum_slots]
  have hsum : ∑ j ∈ range s.vecOpen.length, lSlot s wt (expIter y⁻¹ N) (j + 2) i * rSlot s wt (expIter y N) (j + 2) i =
      ∑ j ∈ range s.vecOpen.length, (wt.wVC.getD j []).getD i 0 * (s.vecOpen.getD j (0, [])).2.getD i 0 := by
    refine Finset.sum_congr rfl fun j _ => ?_
    simp only [lSlot, rSlot, if_neg (by omega : ¬ j + 2 = 0), if_neg (by omega : ¬ j + 2 = 1),
      Nat.add_sub_cancel]
    ring
  rw [hsum]
  simp only [lSlot, rSlot, if_true, if_neg (by omega : ¬ (1 : Nat) = 0)]
  rw [expIter_getD, expIter_getD, if_pos (by omega), if_pos (by omega)]
  have hyi : y⁻¹ ^ i * y ^ i = 1 := by rw [← mul_pow, inv_mul_cancel₀ hy, one_pow]
  linear_combination (wt.wR.getD i 0 * s.aR.getD i 0) * hyi

/-- **C05**, the circuit equation: with the weights the Verifier computes for the same constraints, the
coefficient is the gate defects plus the `z`-weighted sum of the values of all constraints, plus the part
the Verifier computes from the commitments and by itself: `<wV, v> + wc + delta`. -/
theorem C05_circuit_equation (s : PState F G X) (t : VState F G X) (z y : F) (hy : y ≠ 0) (N : Nat)
    (hN : s.aL.length ≤ N) (sL sR : List F) (hs : sL.length ≤ s.aL.length)
    (hn : t.numVars = s.aL.length) (hV : t.V.length = s.v.length)
    (hd : t.vecComms.map (·.2) = s.vecOpen.map fun v => v.2.length)
    (hv : ∀ v ∈ s.vecOpen, v.2.length ≤ s.aL.length) (wt : Weights F) (hw : t.flattened z = some wt) :
    let op := opDegree s.vecOpen.length
    let n := s.aL.length
    (VecPoly.innerProduct (lPoly s wt (expIter y⁻¹ N) n op (opSplits op) sL)
        (rPoly s wt (expIter y N) n op (opSplits op) sR)).getD op 0 =
      ∑ i ∈ range n, y ^ i * (s.aL.getD i 0 * s.aR.getD i 0 - s.aO.getD i 0) +
      weightedConstraints t.constraints z s.assignment +
      (∑ i ∈ range s.v.length, wt.wV.getD i 0 * s.v.getD i 0 + wt.wc +
        ∑ i ∈ range n, y⁻¹ ^ i * (wt.wR.getD i 0 * wt.wL.getD i 0)) := by
  intro op n
  obtain ⟨hsh, -⟩ := flattenLoop_apply (Weights.zero_shape _ _ _) hw s.assignment
  rw [C05_coefficient s wt y hy n N hN sL sR hs hv (hsh.wVC.trans hd),
    ← C04_verifier_weights t z wt hw s.assignment]
  unfold Weights.apply
  have hlen : wt.wVC.length = s.vecOpen.length := by
    have := congrArg List.length (hsh.wVC.trans hd)
    simpa using this
  rw [hsh.wL, hsh.wR, hsh.wO, hsh.wV, hn, hV, hlen]
  have hvec : ∀ j ∈ range s.vecOpen.length,
      ∑ i ∈ range n, (wt.wVC.getD j []).getD i 0 * (s.vecOpen.getD j (0, [])).2.getD i 0 =
      ∑ i ∈ range (wt.wVC.getD j []).length, (wt.wVC.getD j []).getD i 0 * s.assignment.vec j i := by
    intro j hj
    have hj := mem_range.1 hj
    apply sum_getD_extend
    have h1 : (wt.wVC.map List.length)[j]'(by simpa using hlen ▸ hj) =
        (s.vecOpen.map fun v => v.2.length)[j]'(by simpa using hj) := by
      congr 1; exact hsh.wVC.trans hd
    simp only [List.getElem_map] at h1
    rw [getD_of_lt _ _ _ (by omega), h1]
    exact hv _ (List.getElem_mem _)
  rw [Finset.sum_congr rfl hvec]
  simp only [PState.assignment, n]
  ring

/-- A concrete case with an odd number of vector commitments: one gate, one commitment of dimension one,
the constraint `left = v_0`. -/
def scheduleProver : PState ℚ Unit Unit :=
  { aL := [2], aR := [3], aO := [6], vecOpen := [(1, [2])] }

/-- The Verifier's side of it. -/
def scheduleVerifier : VState ℚ Unit Unit :=
  { numVars := 1, vecComms := [((), 1)]
    constraints := [⟨[(.multiplierLeft 0, 1), (.vectorCommit 0 0, -1)]⟩] }

example : ∃ wt, scheduleVerifier.flattened 5 = some wt ∧
    (VecPoly.innerProduct (lPoly scheduleProver wt (expIter 7⁻¹ 1) 1 2 (opSplits 2) [11])
        (rPoly scheduleProver wt (expIter 7 1) 1 2 (opSplits 2) [13])).getD 2 0 = 0 := by
  have hw : scheduleVerifier.flattened 5 = some ⟨[5], [0], [0], [], [[-5]], 0⟩ := by
    simp [VState.flattened, scheduleVerifier, flattenLoop, flattenTerms, flattenTerm, addAt?, Weights.zero]
  refine ⟨_, hw, ?_⟩
  have := C05_circuit_equation scheduleProver scheduleVerifier 5 7 (by norm_num) 1 (by decide) [11] [13]
    (by decide) rfl rfl rfl (by decide) _ hw
  refine this.trans ?_
  simp [scheduleProver, scheduleVerifier, weightedConstraints, Assignment.eval, Assignment.val,
    PState.assignment]
  norm_num

end CT
