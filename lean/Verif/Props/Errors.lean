import Verif.Proofs.Total
import Verif.Props.Completeness

/-!
# C35, C36, C38, C42: which calls of `prove` and `verify` fail, and how
-/

namespace CT
variable {F G X : Type} [Field F] [DecidableEq F] [AddCommGroup G] [Module F G] [DecidableEq G]

/-! ## C38: generators -/

omit [DecidableEq G] in
/-- **C38**, Prover. `s2` is the Prover once the second-phase callbacks have run. `prove` reports
`InvalidGeneratorsLength` exactly when the capacity is below the circuit size rounded up to a power of two. -/
theorem C38_prove_reports_iff (o : Oracle F G X) (g : Gens G) (rnd : PRand F) (s s2 : PState F G X)
    (t : VState F G X) (h : Session o g s t) (hcG : g.capacity ≤ g.Gs.length) (hcH : g.capacity ≤ g.Hs.length)
    (h2 : s.secondPhase o (s.firstCommitments g rnd) = .ok s2) :
    prove o g rnd s = .error .invalidGeneratorsLength ↔ g.capacity < nextPow2 s2.size := by
  obtain ⟨-, hn1, -, -, -⟩ := secondPhase_facts o h.inv.inv h2
  obtain ⟨k, hNk, hnN, -⟩ := nextPow2_eq s2.size
  rw [prove_eq, h2]
  by_cases hc1 : g.capacity < s.size
  · rw [if_pos hc1]
    simp only [true_iff]
    omega
  rw [if_neg hc1]
  simp only
  have := proveTail_cases o g rnd s.size (s.firstCommitments g rnd) s2 hn1 hcG hcH
  by_cases hc : g.capacity < nextPow2 s2.size
  · rw [if_pos hc] at this
    simp [this, hc]
  · rw [if_neg hc] at this
    simp only [hc, iff_false]
    split at this
    · obtain ⟨m, e⟩ := this; rw [e]; simp
    · obtain ⟨tr, h1, h3, h4, h5⟩ := this
      by_cases hi : s2.InCircuit
      · by_cases hy : o (tr ++ [.chal "y"]) = 0
        · obtain ⟨m, e⟩ := h5 hy; rw [e]; simp
        by_cases hk : s2.vecOpen.length ≤ 17
        · rcases h1 hi hy hk with ⟨r, e⟩ | ⟨e, -⟩ <;> rw [e] <;> simp
        · obtain ⟨m, e⟩ := h4 (by omega); rw [e]; simp
      · obtain ⟨m, e⟩ := h3 hi; rw [e]; simp

omit [DecidableEq G] in
/-- **C38**, Prover: too few generators for the first phase are reported before any callback runs. -/
theorem C38_prove_reports_first_phase (o : Oracle F G X) (g : Gens G) (rnd : PRand F) (s : PState F G X)
    (h : g.capacity < s.size) : prove o g rnd s = .error .invalidGeneratorsLength := by
  rw [prove_eq, if_pos h]

omit [DecidableEq G] in
/-- **C38**, Prover: with enough generators `prove` returns a proof, provided every constraint is over
variables of the circuit, no multiplier is added after the first phase when there are vector commitments
(the code asserts this), there are at most 17 vector commitments (see C35), and the challenges that are
inverted are not zero. -/
theorem C38_prove_succeeds (o : Oracle F G X) (g : Gens G) (rnd : PRand F) (s s2 : PState F G X)
    (t : VState F G X) (h : Session o g s t) (hcG : g.capacity ≤ g.Gs.length) (hcH : g.capacity ≤ g.Hs.length)
    (h2 : s.secondPhase o (s.firstCommitments g rnd) = .ok s2)
    (hcap : nextPow2 s2.size ≤ g.capacity) (hin : s2.InCircuit)
    (hlate : s.vecOpen = [] ∨ s2.size = s.size) (h17 : s.vecOpen.length ≤ 17)
    (hch : ∀ tr, o (tr ++ [.chal "y"]) ≠ 0 ∧ o (tr ++ [.chal "u"]) ≠ 0) :
    ∃ p tr, prove o g rnd s = .ok (p, tr) := by
  obtain ⟨-, hn1, -, hvo, -⟩ := secondPhase_facts o h.inv.inv h2
  obtain ⟨k, hNk, hnN, -⟩ := nextPow2_eq s2.size
  rw [prove_eq, h2, if_neg (by omega)]
  simp only
  have := proveTail_cases o g rnd s.size (s.firstCommitments g rnd) s2 hn1 hcG hcH
  rw [if_neg (by omega), if_neg (by
    rintro ⟨h1, h3⟩
    rcases hlate with h | h
    · exact h3 (hvo.trans h)
    · omega)] at this
  obtain ⟨tr, h1, -⟩ := this
  rcases h1 hin (hch tr).1 (by rw [hvo]; exact h17) with ⟨⟨p, tr'⟩, e⟩ | e
  · exact ⟨p, tr', e⟩
  · obtain ⟨-, tr', h0⟩ := e
    exact absurd h0 (hch tr').2

/-- **C38**, Verifier: `InvalidGeneratorsLength` is reported only when the capacity is too small. -/
theorem C38_verify_reports_only (o : Oracle F G X) (g : Gens G) (r : F) (p : R1CSProof F G) (t t2 : VState F G X)
    (h2 : t.secondPhase o p.AI1 p.AO1 p.S1 = .ok t2)
    (h : verify o g r p t = .error .invalidGeneratorsLength) : g.capacity < nextPow2 t2.size :=
  verify_capacity o g r p t t2 h2 h

/-- **C38**, Verifier: a proof that is accepted with some generators is, with any other generators, reported
as `InvalidGeneratorsLength` exactly when their capacity is too small. -/
theorem C38_verify_reports_iff (o : Oracle F G X) (g g' : Gens G) (r : F) (p : R1CSProof F G) (t t2 : VState F G X)
    (h2 : t.secondPhase o p.AI1 p.AO1 p.S1 = .ok t2) (h : verify o g r p t = .ok ()) :
    verify o g' r p t = .error .invalidGeneratorsLength ↔ g'.capacity < nextPow2 t2.size :=
  ⟨C38_verify_reports_only o g' r p t t2 h2, verify_capacity' o g g' r p t t2 h2 h⟩

/-! ## C42: generators beyond the padded size play no role -/

omit [DecidableEq G] in
/-- **C42**, Prover: enlarging the generators does not change the proof. -/
theorem C42_prove_larger_generators (o : Oracle F G X) (g g' : Gens G) (rnd : PRand F) (s : PState F G X)
    (hle : g.capacity ≤ g'.capacity) (ha : g.Agree g.capacity g')
    {p : R1CSProof F G} {tr : Transcript F G X} (h : prove o g rnd s = .ok (p, tr)) :
    prove o g' rnd s = .ok (p, tr) := by
  rw [prove_eq] at h
  by_cases hc1 : g.capacity < s.size
  · rw [if_pos hc1] at h; simp at h
  rw [if_neg hc1] at h
  have hfc : s.firstCommitments g' rnd = s.firstCommitments g rnd :=
    (commit1_agree rnd s.pad s.pad.size (ha.mono (by rw [s.pad_size]; omega))).symm
  rw [prove_eq, if_neg (by omega), hfc]
  cases h2 : s.secondPhase o (s.firstCommitments g rnd) with
  | error e => rw [h2] at h; simp at h
  | ok s2 =>
    rw [h2] at h
    simp only at h ⊢
    exact proveTail_agree o rnd _ _ _ hle ha h

/-- **C42**, Verifier: enlarging the generators does not change the verdict, once they are large enough. -/
theorem C42_verify_larger_generators (o : Oracle F G X) (g g' : Gens G) (r : F) (p : R1CSProof F G)
    (t : VState F G X) (hle : g.capacity ≤ g'.capacity) (ha : g.Agree g.capacity g')
    (h : verify o g r p t ≠ .error .invalidGeneratorsLength) : verify o g' r p t = verify o g r p t := by
  unfold verify at h ⊢
  cases hv : verificationTuple o r p t with
  | error e => rfl
  | ok v =>
    rw [hv] at h
    simp only at h ⊢
    unfold checkTuple at h ⊢
    simp only at h ⊢
    by_cases hc : g.capacity < (v.fixed.length - 2) / 2
    · rw [if_pos hc] at h; exact absurd rfl h
    · rw [if_neg hc, if_neg (by omega)]
      obtain ⟨h1, h2, h3⟩ := ha.mono (show (v.fixed.length - 2) / 2 ≤ g.capacity by omega)
      rw [h1, h2, h3]

/-! ## C35: the number of vector commitments -/

omit [DecidableEq G] in
/-- **C35 is false** for 18 and more vector commitments: with enough generators, whatever the statement,
`prove` panics (it runs out of transcript labels, `util.rs:13-20`). -/
theorem C35_eighteen_commitments_panic (o : Oracle F G X) (g : Gens G) (rnd : PRand F) (s s2 : PState F G X)
    (t : VState F G X) (h : Session o g s t) (hcG : g.capacity ≤ g.Gs.length) (hcH : g.capacity ≤ g.Hs.length)
    (h2 : s.secondPhase o (s.firstCommitments g rnd) = .ok s2) (hcap : nextPow2 s2.size ≤ g.capacity)
    (h18 : 18 ≤ s.vecOpen.length) : isPanic (prove o g rnd s) := by
  obtain ⟨-, hn1, -, hvo, -⟩ := secondPhase_facts o h.inv.inv h2
  obtain ⟨k, hNk, hnN, -⟩ := nextPow2_eq s2.size
  rw [prove_eq, h2, if_neg (by omega)]
  simp only
  have := proveTail_cases o g rnd s.size (s.firstCommitments g rnd) s2 hn1 hcG hcH
  rw [if_neg (by omega)] at this
  split at this
  · obtain ⟨m, e⟩ := this; rw [e]; trivial
  · obtain ⟨tr, -, -, h4, -⟩ := this
    obtain ⟨m, e⟩ := h4 (by rw [hvo]; exact h18)
    rw [e]; trivial

/-- No proof at all verifies for a statement with 18 or more vector commitments. -/
theorem C35_eighteen_commitments_never_verified (o : Oracle F G X) (g : Gens G) (r : F) (p : R1CSProof F G)
    (t : VState F G X) (h18 : 18 ≤ t.vecComms.length) : verify o g r p t ≠ .ok () := by
  intro h
  obtain ⟨t2, wt, hsh, -⟩ := accepted_shape h
  have hc := (createRandomized_mono hsh.second).2.1
  rw [VState.pad_eq] at hc
  simp only at hc
  have := (hsh.T (2 * (opDegree t2.vecComms.length + 1)) (by
    rw [tDegrees, List.mem_filter]
    simp only [List.mem_range, decide_eq_true_eq]
    constructor <;> omega)).1
  rw [hc] at this
  simp only [opDegree, tLabelCount] at this
  omega

omit [DecidableEq G] in
/-- **C35**, partial: up to 17 vector commitments `prove` returns a proof. Missing: more than 17, for which it
is false. -/
theorem C35_up_to_seventeen_partial (o : Oracle F G X) (g : Gens G) (rnd : PRand F) (s s2 : PState F G X)
    (t : VState F G X) (h : Session o g s t) (hcG : g.capacity ≤ g.Gs.length) (hcH : g.capacity ≤ g.Hs.length)
    (h2 : s.secondPhase o (s.firstCommitments g rnd) = .ok s2)
    (hcap : nextPow2 s2.size ≤ g.capacity) (hin : s2.InCircuit) (hlate : s2.size = s.size)
    (h17 : s.vecOpen.length ≤ 17)
    (hch : ∀ tr, o (tr ++ [.chal "y"]) ≠ 0 ∧ o (tr ++ [.chal "u"]) ≠ 0) :
    ∃ p tr, prove o g rnd s = .ok (p, tr) :=
  C38_prove_succeeds o g rnd s s2 t h hcG hcH h2 hcap hin (.inr hlate) h17 hch

/-! ## C36: panics of the Verifier -/

/-- **C36 is false**: a proof with too few points `T` makes `verify` panic. -/
theorem C36_short_T_panics (o : Oracle F G X) (g : Gens G) (r : F) (p : R1CSProof F G) (t t2 : VState F G X)
    (hA : p.AI1 ≠ 0 ∧ p.AO1 ≠ 0 ∧ p.S1 ≠ 0) (h2 : t.secondPhase o p.AI1 p.AO1 p.S1 = .ok t2)
    (hT : p.T.length < 2 * (opDegree t.vecComms.length + 1) + 1) (hne : ∀ P ∈ p.T, P ≠ 0) :
    isPanic (verify o g r p t) := by
  have hc := (createRandomized_mono h2).2.1
  rw [VState.pad_eq] at hc
  simp only at hc
  have hp := validateT_panics (opDegree t2.vecComms.length) p.T
    (List.range (2 * (opDegree t2.vecComms.length + 1) + 1)) (tailT p t2 ++ [.chal "y"] ++ [.chal "z"]) hne (by
      rw [hc]
      by_cases hop : p.T.length = opDegree t.vecComms.length
      · exact ⟨opDegree t.vecComms.length + 1, by simp, by omega, by omega⟩
      · exact ⟨p.T.length, by simpa using hT, hop, by omega⟩)
  have e0 : (t2.transcript ++ [Msg.point "A_I2" p.AI2, .point "A_O2" p.AO2, .point "S2" p.S2]) = tailT p t2 := rfl
  unfold verify
  rw [verificationTuple_eq, verifyHead_eq, if_neg (by tauto), h2]
  simp only [verifyTail, challengeScalar]
  rw [e0]
  cases hv : validateT (opDegree t2.vecComms.length) p.T
    (List.range (2 * (opDegree t2.vecComms.length + 1) + 1)) (tailT p t2 ++ [.chal "y"] ++ [.chal "z"]) with
  | error e => rw [hv] at hp; cases e <;> simp_all [isPanic]
  | ok tr => rw [hv] at hp; simp [isPanic] at hp

/-- **C36 is false**: a proof with fewer `R` than `L` points makes `verify` panic. -/
theorem C36_short_R_panics (o : Oracle F G X) (g : Gens G) (r : F) (p : R1CSProof F G) (t t2 : VState F G X)
    (hA : p.AI1 ≠ 0 ∧ p.AO1 ≠ 0 ∧ p.S1 ≠ 0) (h2 : t.secondPhase o p.AI1 p.AO1 p.S1 = .ok t2)
    (hin : t2.InCircuit) (h17 : t.vecComms.length ≤ 17)
    (hT : p.T.length = 2 * (opDegree t.vecComms.length + 1) + 1)
    (hne : ∀ d < p.T.length, d ≠ opDegree t.vecComms.length → p.T.getD d 0 ≠ 0)
    (hN : nextPow2 t2.size = 2 ^ p.ipp.L.length) (h32 : p.ipp.L.length < 32)
    (hR : p.ipp.R.length < p.ipp.L.length) (hL0 : ∀ P ∈ p.ipp.L, P ≠ 0) (hR0 : ∀ P ∈ p.ipp.R, P ≠ 0) :
    isPanic (verify o g r p t) := by
  have hc := (createRandomized_mono h2).2.1
  rw [VState.pad_eq] at hc
  simp only at hc
  have hv := (validateT_iff (opDegree t2.vecComms.length) p.T
    (List.range (2 * (opDegree t2.vecComms.length + 1) + 1)) (tailT p t2 ++ [.chal "y"] ++ [.chal "z"]) _).2
    ⟨by
      intro d hd
      rw [hc] at hd
      simp only [List.mem_filter, List.mem_range, decide_eq_true_eq] at hd
      refine ⟨?_, by omega, hne d (by omega) hd.2⟩
      have := hd.1
      simp only [opDegree, tLabelCount] at this ⊢
      omega, rfl⟩
  have e0 : (t2.transcript ++ [Msg.point "A_I2" p.AI2, .point "A_O2" p.AO2, .point "S2" p.S2]) = tailT p t2 := rfl
  unfold verify
  rw [verificationTuple_eq, verifyHead_eq, if_neg (by tauto), h2]
  simp only [verifyTail, challengeScalar]
  rw [e0, hv]
  simp only
  have hf := (t2.flattened_isSome (o (tailT p t2 ++ [.chal "y"] ++ [.chal "z"]))).2 hin
  obtain ⟨wt, hw⟩ := Option.isSome_iff_exists.1 hf
  rw [hw]
  simp only
  have hs := fun tr => verificationScalars_panics o p.ipp (nextPow2 t2.size) tr hR h32 hN hL0 hR0
  generalize hgen : (tailT p t2 ++ [Msg.chal "y"] ++ [Msg.chal "z"] ++ _ ++ [Msg.chal "u"] ++ [Msg.chal "x"] ++ _ ++
    [Msg.chal "w"] : Transcript F G X) = tr
  have := hs tr
  cases hvs : verificationScalars o p.ipp (nextPow2 t2.size) tr with
  | error e => rw [hvs] at this; cases e <;> simp_all [isPanic]
  | ok v => rw [hvs] at this; simp [isPanic] at this

/-- **C36**, partial: `verify` does not panic when the proof has enough points `T` and at least as many `R` as
`L` points, the challenge `y` is not zero, and the statement is one the code supports: at most 17 vector
commitments, constraints over variables of the circuit, callbacks that do not panic themselves. Missing: the
first two conditions are not checked by the code, so an attacker can violate them; see
`C36_short_T_panics`, `C36_short_R_panics`. -/
theorem C36_no_panic_partial (o : Oracle F G X) (g : Gens G) (r : F) (p : R1CSProof F G) (t : VState F G X)
    (hcb : ¬ isPanic (t.secondPhase o p.AI1 p.AO1 p.S1))
    (hin : ∀ t2, t.secondPhase o p.AI1 p.AO1 p.S1 = .ok t2 → t2.InCircuit) (h17 : t.vecComms.length ≤ 17)
    (hT : 2 * (opDegree t.vecComms.length + 1) + 1 ≤ p.T.length)
    (hR : p.ipp.L.length ≤ p.ipp.R.length)
    (hy : ∀ t2, t.secondPhase o p.AI1 p.AO1 p.S1 = .ok t2 → o (absorbedA p t2 ++ [.chal "y"]) ≠ 0) :
    ¬ isPanic (verify o g r p t) := by
  unfold verify
  rw [verificationTuple_eq, verifyHead_eq]
  by_cases h0 : p.AI1 = 0 ∨ p.AO1 = 0 ∨ p.S1 = 0
  · rw [if_pos h0]; simp [isPanic]
  rw [if_neg h0]
  cases h2 : t.secondPhase o p.AI1 p.AO1 p.S1 with
  | error e => rw [h2] at hcb; cases e <;> simp_all [isPanic]
  | ok t2 =>
    have hc := (createRandomized_mono h2).2.1
    rw [VState.pad_eq] at hc
    simp only at hc
    have := verifyTail_noPanic o r p t.pad.size t2 (hin t2 h2) (by rw [hc]; exact h17) (by rw [hc]; exact hT) hR
      (hy t2 h2)
    simp only
    cases hv : verifyTail o r p t.pad.size t2 with
    | error e => rw [hv] at this; cases e <;> simp_all [isPanic]
    | ok v =>
      simp only [checkTuple]
      split
      · simp [isPanic]
      · split <;> simp [isPanic]

/-! Non-vacuity. The statement of the first example of C01 over ℚ has size 2, so capacity 4 is enough and
capacity 1 is not; `verify` of its proof with the points `T`, or the points `R`, removed panics; a session with
18 vector commitments exists. -/
section Example

instance (n m : Nat) (dims : List Nat) : (v : Variable) → Decidable (v.InRange n m dims)
  | .vectorCommit j i => decidable_of_iff ((dims[j]?).any (i < ·) = true) (by
      cases h : dims[j]? <;> simp [Variable.InRange, h])
  | .committed i => inferInstanceAs (Decidable (i < m))
  | .multiplierLeft i => inferInstanceAs (Decidable (i < n))
  | .multiplierRight i => inferInstanceAs (Decidable (i < n))
  | .multiplierOutput i => inferInstanceAs (Decidable (i < n))
  | .one => inferInstanceAs (Decidable True)

instance {F G X : Type} (t : VState F G X) : Decidable t.InCircuit := by
  unfold VState.InCircuit; infer_instance
instance {F G X : Type} (s : PState F G X) : Decidable s.InCircuit := by
  unfold PState.InCircuit; infer_instance
instance {α : Type} : (r : Except Err α) → Decidable (isPanic r)
  | .error (.panic _) => inferInstanceAs (Decidable True)
  | .error .invalidGeneratorsLength => inferInstanceAs (Decidable False)
  | .error .verificationError => inferInstanceAs (Decidable False)
  | .error .missingAssignment => inferInstanceAs (Decidable False)
  | .error .formatError => inferInstanceAs (Decidable False)
  | .ok _ => inferInstanceAs (Decidable False)

def errS2 : PState ℚ ℚ Unit :=
  okOr (c01P3.2.secondPhase exOracle (c01P3.2.firstCommitments exGens exRand))

theorem errSession : Session exOracle exGens c01P3.2 c01V3.2 := by
  have h1 : Session exOracle exGens c01P1 c01V1 := .commit 3 8 (.commit 2 7 (.new []))
  have h2 : Session exOracle exGens c01P2.2 c01V2 := 
    .commitVec (v := [6, 1]) (bl := 9) h1 (eq_ok (x := c01P1.commitVec exGens [6, 1] 9) (by decide +kernel))
  exact .gadget h2 (.refl (R := Eq) (fun _ => rfl) c01Prog) (eq_ok (by decide +kernel)) (eq_ok (by decide +kernel))

example : c01P3.2.secondPhase exOracle (c01P3.2.firstCommitments exGens exRand) = .ok errS2 ∧
    nextPow2 errS2.size = 2 ∧ exGens.capacity = 4 ∧ errS2.InCircuit ∧ errS2.size = c01P3.2.size ∧
    c01P3.2.vecOpen.length = 1 ∧
    (∀ tr, exOracle (tr ++ [.chal "y"]) ≠ 0 ∧ exOracle (tr ++ [.chal "u"]) ≠ 0) := by
  refine ⟨eq_ok (by decide +kernel), by decide +kernel, rfl, by decide +kernel, by decide +kernel, by decide +kernel,
    fun tr => ?_⟩
  simp only [exOracle]
  constructor <;> positivity

/-- Generators of capacity 1. -/
def smallGens : Gens ℚ := { exGens with capacity := 1 }

example : prove exOracle smallGens exRand c01P3.2 = .error .invalidGeneratorsLength := by decide +kernel

def errProof : R1CSProof ℚ ℚ := (okOr (prove exOracle exGens exRand c01P3.2)).1

def errT2 : VState ℚ ℚ Unit := okOr (c01V3.2.secondPhase exOracle errProof.AI1 errProof.AO1 errProof.S1)

example : c01V3.2.secondPhase exOracle errProof.AI1 errProof.AO1 errProof.S1 = .ok errT2 ∧
    verify exOracle exGens 3 errProof c01V3.2 = .ok () ∧
    verify exOracle smallGens 3 errProof c01V3.2 = .error .invalidGeneratorsLength :=
  ⟨eq_ok (by decide +kernel), by decide +kernel, by decide +kernel⟩

/-- The hypotheses of `C36_no_panic_partial`. -/
example : ¬ isPanic (c01V3.2.secondPhase exOracle errProof.AI1 errProof.AO1 errProof.S1) ∧ errT2.InCircuit ∧
    2 * (opDegree c01V3.2.vecComms.length + 1) + 1 ≤ errProof.T.length ∧
    errProof.ipp.L.length ≤ errProof.ipp.R.length ∧ exOracle (absorbedA errProof errT2 ++ [.chal "y"]) ≠ 0 := by
  refine ⟨by decide +kernel, by decide +kernel, by decide +kernel, by decide +kernel, ?_⟩
  simp only [exOracle]; positivity

example : isPanic (verify exOracle exGens 3 { errProof with T := [] } c01V3.2) :=
  C36_short_T_panics exOracle exGens 3 _ _ errT2
    (show errProof.AI1 ≠ 0 ∧ errProof.AO1 ≠ 0 ∧ errProof.S1 ≠ 0 by decide +kernel) (eq_ok (by decide +kernel))
    (by simp) (by simp)

example : isPanic (verify exOracle exGens 3 { errProof with ipp := { errProof.ipp with R := [] } } c01V3.2) :=
  C36_short_R_panics exOracle exGens 3 _ _ errT2
    (show errProof.AI1 ≠ 0 ∧ errProof.AO1 ≠ 0 ∧ errProof.S1 ≠ 0 by decide +kernel) (eq_ok (by decide +kernel))
    (by decide +kernel) (by decide +kernel) (by decide +kernel) (by decide +kernel) (by decide +kernel)
    (by decide +kernel) (by decide +kernel) (by decide +kernel) (by decide +kernel)

def manyP : Nat → PState ℚ ℚ Unit
  | 0 => .new []
  | n + 1 => (okOr ((manyP n).commitVec exGens [5] 2)).2
def manyV : Nat → VState ℚ ℚ Unit
  | 0 => .new []
  | n + 1 => ((manyV n).commitVec 1 (okOr ((manyP n).commitVec exGens [5] 2)).1.1).2

theorem many_session (n : Nat) : Session exOracle exGens (manyP n) (manyV n) := by
  induction n with
  | zero => exact .new []
  | succ n ih =>
    refine .commitVec (v := [5]) (bl := 2) ih (eq_ok (x := (manyP n).commitVec exGens [5] 2) ?_)
    simp [PState.commitVec, exGens, isOk]

theorem many_length (n : Nat) : (manyP n).vecOpen.length = n ∧ (manyP n).vecOpen.all (·.2.length = 1) ∧
    (manyP n).aL = [] ∧ (manyP n).deferred = [] := by
  induction n with
  | zero => exact ⟨rfl, rfl, rfl, rfl⟩
  | succ n ih =>
    have : (manyP (n + 1)).vecOpen = (manyP n).vecOpen ++ [(2, [5])] ∧ (manyP (n + 1)).aL = (manyP n).aL ∧
        (manyP (n + 1)).deferred = (manyP n).deferred := by
      simp [manyP, PState.commitVec, exGens, okOr]
    rw [this.1, this.2.1, this.2.2]
    simp [ih]

example (n : Nat) (hn : 18 ≤ n) : ∃ s2, (manyP n).secondPhase exOracle ((manyP n).firstCommitments exGens exRand) = .ok s2 ∧
    nextPow2 s2.size ≤ exGens.capacity ∧ 18 ≤ (manyP n).vecOpen.length ∧
    isPanic (prove exOracle exGens exRand (manyP n)) := by
  obtain ⟨h1, h2, h3, h4⟩ := many_length n
  have hd : (manyP n).pad.deferred = [] := by rw [PState.pad_eq]; exact h4
  have hsz : (manyP n).size ≤ 1 := by
    unfold PState.size
    simp only [max_comm _ (List.length _)]
    apply foldl_max_le (fun v : ℚ × List ℚ => v.2.length)
    · rw [h3]; simp
    · intro v hv
      have := List.all_eq_true.1 h2 v hv
      simp at this; omega
  obtain ⟨s2, hs2⟩ : ∃ s2, (manyP n).secondPhase exOracle ((manyP n).firstCommitments exGens exRand) = .ok s2 := by
    unfold PState.secondPhase PState.createRandomized
    simp only
    rw [if_pos hd]
    exact ⟨_, rfl⟩
  have hs2' := hs2
  unfold PState.secondPhase PState.createRandomized at hs2'
  simp only [if_pos hd, Except.ok.injEq] at hs2'
  have hsz2 : s2.size = (manyP n).size := by
    rw [← hs2']; exact (manyP n).pad_size
  have hcap : nextPow2 s2.size ≤ exGens.capacity := by
    rw [hsz2]; unfold nextPow2; rw [if_pos hsz]; decide
  exact ⟨s2, hs2, hcap, (by omega), C35_eighteen_commitments_panic exOracle exGens exRand (manyP n) s2 _
    (many_session n) (by decide) (by decide) hs2 hcap (by omega)⟩

/-- Capacity 8 instead of 4, with the same first four generators. -/
def bigGens : Gens ℚ := { exGens with capacity := 8, Gs := exGens.Gs ++ [3, 5, 7, 9], Hs := exGens.Hs ++ [2, 4, 6, 8] }

example : exGens.capacity ≤ bigGens.capacity ∧ exGens.Agree exGens.capacity bigGens ∧
    (∃ p tr, prove exOracle exGens exRand c01P3.2 = .ok (p, tr)) ∧
    verify exOracle exGens 3 errProof c01V3.2 ≠ .error .invalidGeneratorsLength :=
  ⟨by decide, ⟨rfl, by decide +kernel, by decide +kernel⟩,
    ⟨_, _, eq_ok (x := prove exOracle exGens exRand c01P3.2) (by decide +kernel)⟩, by decide +kernel⟩

end Example

end CT
