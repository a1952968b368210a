import Verif.Proofs.Flatten
import Mathlib.Algebra.Polynomial.Roots
import Mathlib.Algebra.Field.Rat
import Mathlib.Tactic.NormNum

/-! # C04: flattening of constraints -/

namespace CT
open Finset
variable {F G X : Type} [Field F]

/-- **C04**, Verifier: for every assignment the flattened weights give the sum of the constraints
weighted with `z, z^2, z^3, ...`. -/
theorem C04_verifier_weights (s : VState F G X) (z : F) (wt : Weights F) (h : s.flattened z = some wt)
    (w : Assignment F) : wt.apply w = weightedConstraints s.constraints z w := by
  obtain ⟨-, e⟩ := flattenLoop_apply (Weights.zero_shape _ _ _) h w
  rw [e, Weights.zero_apply, zero_add]
  refine Finset.sum_congr rfl fun q _ => ?_
  simp only [counted, if_true]
  ring

/-- **C04**, Prover: the same, except that constants are left out. -/
theorem C04_prover_weights (s : PState F G X) (z : F) (wt : Weights F) (h : s.flattened z = some wt)
    (w : Assignment F) :
    wt.wc = 0 ∧ wt.apply w = weightedConstraints (s.constraints.map nonConstPart) z w := by
  obtain ⟨-, e⟩ := flattenLoop_apply (Weights.zero_shape _ _ _) h w
  refine ⟨(flattenLoop_wc h).trans rfl, ?_⟩
  rw [e, Weights.zero_apply, zero_add, weightedConstraints, List.length_map]
  refine Finset.sum_congr rfl fun q _ => ?_
  have : (s.constraints.map nonConstPart).getD q ⟨[]⟩ = nonConstPart (s.constraints.getD q ⟨[]⟩) := by
    rw [← getD_map nonConstPart]; rfl
  rw [this]
  simp only [counted, Bool.false_eq_true, if_false]
  ring

/-- **C04**, agreement: a Prover and a Verifier holding the same constraints over the same numbers of
variables compute the same weights (up to the constant, which the Prover does not compute), and one
of them stops on an unknown variable exactly when the other does. -/
theorem C04_same_weights (s : PState F G X) (t : VState F G X) (z : F)
    (hc : t.constraints = s.constraints) (hn : t.numVars = s.aL.length)
    (hV : t.V.length = s.v.length)
    (hd : t.vecComms.map (·.2) = s.vecOpen.map fun v => v.2.length) :
    s.flattened z = (t.flattened z).map fun wt => { wt with wc := 0 } := by
  have h := flattenLoop_same z z s.constraints
    (Weights.zero s.aL.length s.v.length (s.vecOpen.map fun v => v.2.length)) _ rfl
  unfold VState.flattened
  rw [hc, hn, hV, hd, h]
  have hw := @flattenLoop_wc F _ z z s.constraints
    (Weights.zero s.aL.length s.v.length (s.vecOpen.map fun v => v.2.length))
  unfold PState.flattened
  cases hf : flattenLoop false z s.constraints z
    (Weights.zero s.aL.length s.v.length (s.vecOpen.map fun v => v.2.length)) with
  | none => rfl
  | some wt =>
    have := hw hf
    simp only [Option.map_some, Option.some.injEq]
    obtain ⟨a, b, c, d, e, f⟩ := wt
    simp only at this
    rw [this]; rfl

/-- Flattening succeeds exactly when every variable used in a constraint exists. -/
theorem C04_flattening_total (s : VState F G X) (z : F) :
    (s.flattened z).isSome ↔ ∀ c ∈ s.constraints, ∀ t ∈ c.terms,
      t.1.InRange s.numVars s.V.length (s.vecComms.map (·.2)) :=
  flattenLoop_isSome true z z s.constraints (Weights.zero_shape _ _ _)

/-- **C04**, nothing is lost: if an assignment violates some constraint, fewer than `Q` non-zero
challenges `z` make the flattened sum vanish, `Q` the number of constraints. -/
theorem C04_few_bad_challenges (cs : List (LC F)) (w : Assignment F) (c : LC F) (hc : c ∈ cs)
    (hv : w.eval c ≠ 0) :
    ∃ S : Finset F, S.card < cs.length ∧
      ∀ z, z ≠ 0 → weightedConstraints cs z w = 0 → z ∈ S := by
  classical
  obtain ⟨q, hq, rfl⟩ := List.mem_iff_getElem.1 hc
  let p : Polynomial F := ∑ i ∈ range cs.length, Polynomial.monomial i (w.eval (cs.getD i ⟨[]⟩))
  have hcoeff : p.coeff q ≠ 0 := by
    simp only [p, Polynomial.finsetSum_coeff, Polynomial.coeff_monomial]
    rw [Finset.sum_ite_eq', if_pos (by simpa using hq), getD_of_lt _ _ _ hq]
    exact hv
  have hp : p ≠ 0 := fun h => hcoeff (by rw [h]; simp)
  have hdeg : p.natDegree < cs.length := by
    rw [Polynomial.natDegree_lt_iff_degree_lt hp]
    refine lt_of_le_of_lt (Polynomial.degree_sum_le _ _) ?_
    rw [Finset.sup_lt_iff (by exact WithBot.bot_lt_coe _)]
    intro i hi
    refine lt_of_le_of_lt (Polynomial.degree_monomial_le _ _) ?_
    exact_mod_cast Finset.mem_range.1 hi
  refine ⟨p.roots.toFinset, ?_, ?_⟩
  · calc p.roots.toFinset.card ≤ p.roots.card := Multiset.toFinset_card_le _
      _ ≤ p.natDegree := Polynomial.card_roots' p
      _ < cs.length := hdeg
  · intro z hz h
    rw [Multiset.mem_toFinset, Polynomial.mem_roots hp, Polynomial.IsRoot]
    simp only [p, Polynomial.eval_finsetSum, Polynomial.eval_monomial]
    have : z * ∑ i ∈ range cs.length, w.eval (cs.getD i ⟨[]⟩) * z ^ i = 0 := by
      rw [Finset.mul_sum, ← h]
      refine Finset.sum_congr rfl fun i _ => ?_
      ring
    exact (mul_eq_zero.1 this).resolve_left hz

/-- A satisfied system flattens to zero for every challenge. -/
theorem C04_satisfied_vanishes (cs : List (LC F)) (w : Assignment F) (h : ∀ c ∈ cs, w.eval c = 0) (z : F) :
    weightedConstraints cs z w = 0 := by
  apply Finset.sum_eq_zero
  intro q hq
  have hq := Finset.mem_range.1 hq
  rw [getD_of_lt _ _ _ hq, h _ (List.getElem_mem _), mul_zero]

/-- A concrete system with all kinds of variables: one multiplier, one committed value, one vector
commitment of dimension 2, two constraints; flattened with `z = 2`. -/
def flattenExample : VState ℚ Unit Unit :=
  { numVars := 1, V := [()], vecComms := [((), 2)]
    constraints := [⟨[(.multiplierLeft 0, 3), (.one, 5), (.vectorCommit 0 1, 7)]⟩,
      ⟨[(.committed 0, 1), (.multiplierOutput 0, -1)]⟩] }

example : flattenExample.flattened 2 = some ⟨[6], [0], [-4], [-4], [[0, 14]], -10⟩ := by
  simp [VState.flattened, flattenExample, flattenLoop, flattenTerms, flattenTerm, addAt?, Weights.zero]
  norm_num

/-- The hypotheses of `C04_few_bad_challenges` hold for it with the all-zero assignment, and the bound
is tight enough to be interesting: `z = 2` is not bad. -/
example : ∃ c ∈ flattenExample.constraints, (⟨0, 0, 0, 0, 0⟩ : Assignment ℚ).eval c ≠ 0 := by
  refine ⟨_, List.mem_cons_self .., ?_⟩
  simp [Assignment.val]

end CT
