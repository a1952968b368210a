-- `SoundnessExample` is imported only so that the two are not built at the same time, which would need too much memory
import Verif.Props.SoundnessExample
import Verif.Props.Soundness
import Verif.Props.Gadgets
import Verif.Proofs.Concrete

/-!
# C49: an accepted range proof shows that the committed value is in the range

The composition of C09 and C14 for the statement "`V` is a commitment to a number below `2^n`": `Verifier::commit` of one point, then
`range_proof` on the returned variable. No vector commitments are involved, so nothing is missing.
-/

namespace CT
open Finset
variable {F : Type} [Field F]

/-- The circuit of a range proof of one committed value: bit `i` is the right wire of gate `i`, its complement the left wire, the
output is zero, and the bits add up to the value. -/
def rangeCircuit (n : Nat) : Circuit F where
  first := n
  n := n
  m := 1
  dims := []
  constraints := ((List.range n).flatMap fun i =>
      [LC.ofVar (.multiplierOutput i), LC.ofVar (.multiplierLeft i) + (LC.ofVar (.multiplierRight i) - LC.const 1)]) ++
    [⟨(.committed 0, 1) :: (List.range n).map fun i => (.multiplierRight i, -2 ^ i)⟩]

theorem rangeLoop_run {G X : Type} (o : Oracle F G X) (k i : Nat) (e : F) (v : LC F) (t : VState F G X) :
    runV o (rangeLoop none k i e v) t = .ok (⟨v.terms ++ (List.range k).map fun j => (.multiplierRight (t.numVars + j), -(e * 2 ^ j))⟩,
      { t with numVars := t.numVars + k
               constraints := t.constraints ++ (List.range k).flatMap fun j =>
                [LC.ofVar (.multiplierOutput (t.numVars + j)),
                 LC.ofVar (.multiplierLeft (t.numVars + j)) + (LC.ofVar (.multiplierRight (t.numVars + j)) - LC.const 1)] }) := by
  induction k generalizing i e v t with
  | zero => simp [rangeLoop, runV, pure]
  | succ k ih =>
    have h1 : runV o (rangeLoop none (k + 1) i e v) t =
      runV o (rangeLoop none k (i + 1) (e + e) (v - (⟨[(.multiplierRight t.numVars, e)]⟩ : LC F)))
        { t with numVars := t.numVars + 1
                 constraints := t.constraints ++ [LC.ofVar (.multiplierOutput t.numVars)] ++
                  [LC.ofVar (.multiplierLeft t.numVars) + (LC.ofVar (.multiplierRight t.numVars) - LC.const 1)] } := rfl
    rw [h1, ih]
    have hv : (v - (⟨[(.multiplierRight t.numVars, e)]⟩ : LC F)).terms = v.terms ++ [(.multiplierRight t.numVars, -e)] := rfl
    have h2 : ∀ j : Nat, (e + e) * 2 ^ j = e * 2 ^ (j + 1) := fun j => by ring
    simp only [hv, List.range_succ_eq_map, List.map_cons, List.map_map, List.flatMap_cons, List.flatMap_map, h2, pow_zero, mul_one,
      Nat.add_zero, List.append_assoc, List.cons_append, List.nil_append, Function.comp_def, Nat.succ_eq_add_one,
      Nat.add_assoc, Nat.add_comm 1]

/-- The Verifier of a range proof. -/
def rangeVerifier {G X : Type} (tr : Transcript F G X) (V : G) (n : Nat) (o : Oracle F G X) : Except Err (Unit × VState F G X) :=
  runV o (rangeProof (LC.ofVar (.committed 0)) none n) ((VState.new tr).commit V).2

theorem rangeVerifier_eq {G X : Type} (tr : Transcript F G X) (V : G) (n : Nat) (o : Oracle F G X) :
    rangeVerifier tr V n o = .ok ((), { ((VState.new tr).commit V).2 with numVars := n, constraints := (rangeCircuit n).constraints }) := by
  unfold rangeVerifier rangeProof
  rw [runV_bind, rangeLoop_run]
  show Except.ok _ = Except.ok _
  simp [VState.commit, VState.new, rangeCircuit, VState.constrain, LC.ofVar]

theorem rangeVerifier_circuit {G X : Type} [AddCommGroup G] [Module F G] {tr : Transcript F G X} {V : G} {n : Nat} {o o' : Oracle F G X}
    {t t2 : VState F G X} {AI AO S : G}
    (h : rangeVerifier tr V n o = .ok ((), t)) (h2 : t.secondPhase o' AI AO S = .ok t2) :
    t.circuit t2 = rangeCircuit n ∧ t2.V = [V] := by
  rw [rangeVerifier_eq] at h
  simp only [Except.ok.injEq, Prod.mk.injEq, true_and] at h
  subst h
  unfold VState.secondPhase at h2
  rw [VState.pad_eq] at h2
  simp only [VState.createRandomized, VState.commit, VState.new, if_pos, Except.ok.injEq] at h2
  subst h2
  simp [VState.circuit, VState.size, rangeCircuit, VState.commit, VState.new]

theorem rangeCircuit_opens {G : Type} [AddCommGroup G] [Module F G] (n : Nat) (V : Nat → G) :
    committedPart ((⟨(.committed 0, 1) :: (List.range n).map fun i => (.multiplierRight i, -2 ^ i)⟩ : LC F)) V = V 0 := by
  simp [committedPart, Function.comp_def]

variable [DecidableEq F]

/-- **C49**: let a prover be accepted on a tree of challenges as in C09 (for a circuit of `n` gates and `2n + 1` constraints). Then its scalars
determine a non-trivial relation between the generators, or a number `k < 2^n` and a blinding such that `V` is
the commitment to `k`. The output does not depend on the group, the generators or the points. -/
theorem C49_range_knowledge (n lg : Nat) (R : Responses F) (fk : Forks F) (hE : fk.Enough (rangeCircuit n) lg) :
    (∃ r : Relation F, r.NonTrivial (2 ^ lg) ∧ ∀ (G X : Type) [AddCommGroup G] [Module F G] [DecidableEq G] (g : Gens G)
      (tr : Transcript F G X) (V : G) (o : Oracle F G X) (t t2 : VState F G X) (M : Messages F G),
      rangeVerifier tr V n o = .ok ((), t) → g.capacity ≤ g.Gs.length → g.capacity ≤ g.Hs.length →
      AcceptsTree g t t2 M R fk lg → r.Holds (2 ^ lg) g) ∨
    (∃ k : Nat, k < 2 ^ n ∧ ∃ bl : F, ∀ (G X : Type) [AddCommGroup G] [Module F G] [DecidableEq G] (g : Gens G)
      (tr : Transcript F G X) (V : G) (o : Oracle F G X) (t t2 : VState F G X) (M : Messages F G),
      rangeVerifier tr V n o = .ok ((), t) → g.capacity ≤ g.Gs.length → g.capacity ≤ g.Hs.length →
      AcceptsTree g t t2 M R fk lg → V = g.pc.commit (k : F) bl) := by
  have second : ∀ (G X : Type) [AddCommGroup G] [Module F G] [DecidableEq G] (g : Gens G)
      (t t2 : VState F G X) (M : Messages F G), AcceptsTree g t t2 M R fk lg → ∃ o', t.secondPhase o' M.AI1 M.AO1 M.S1 = .ok t2 := by
    intro G X _ _ _ g t t2 M ha
    obtain ⟨y, hy⟩ := Finset.card_pos.1 (lt_of_lt_of_le (by positivity) hE.Y.2)
    obtain ⟨z, hz⟩ := Finset.card_pos.1 (lt_of_lt_of_le (by positivity) (hE.Z y))
    obtain ⟨u, hu⟩ := Finset.card_pos.1 (lt_of_lt_of_le (by positivity) (hE.U y z).2)
    obtain ⟨x, hx⟩ := Finset.card_pos.1 (lt_of_lt_of_le (by positivity) (hE.X y z u))
    obtain ⟨w, hw⟩ := Finset.card_pos.1 (lt_of_lt_of_le (by positivity) (hE.W y z u x).2)
    obtain ⟨us, hl, hus⟩ := exists_path (hE.C y z u x w) lg []
    obtain ⟨o', h, -⟩ := ha y z u x w us ⟨hy, hz, hu, hx, hw, hus⟩ hl
    exact ⟨o', h⟩
  rcases C09_no_vector_commitments_partial (rangeCircuit n) R fk lg hE rfl with ⟨r, hr, h⟩ | ⟨e, he⟩
  · refine .inl ⟨r, hr, fun G X _ _ _ g tr V o t t2 M hv hG hH ha => ?_⟩
    obtain ⟨o', h2⟩ := second G X g t t2 M ha
    exact h G X g t t2 M (rangeVerifier_circuit hv h2).1 hG hH ha
  · right
    by_cases hs : (e.assignment (rangeCircuit n)).Satisfies n (rangeCircuit n).constraints
    · obtain ⟨k, hk, hval⟩ := C14_range_sound (fun _ => 0) (rangeVerifier_eq ([] : Transcript F Unit Unit) () n fun _ => 0) (w := e.assignment (rangeCircuit n)) hs
      refine ⟨k, hk, e.committedBl 0, fun G X _ _ _ g tr V o t t2 M hv hG hH ha => ?_⟩
      obtain ⟨o', h2⟩ := second G X g t t2 M ha
      obtain ⟨hc, hV⟩ := rangeVerifier_circuit hv h2
      have h3 := (he G X g t t2 M hc hG hH ha).2.2.2.2.2 _ (List.mem_append_right _ (List.mem_singleton.2 rfl))
      rw [rangeCircuit_opens, rangeCircuit_opens, hV] at h3
      have h4 : e.committed 0 = (k : F) := by simpa [Assignment.val, Extracted.assignment] using hval
      rw [h4] at h3
      simpa [PedersenGens.commit] using h3
    · refine ⟨0, by positivity, 0, fun G X _ _ _ g tr V o t t2 M hv hG hH ha => ?_⟩
      obtain ⟨o', h2⟩ := second G X g t t2 M ha
      exact absurd (he G X g t t2 M (rangeVerifier_circuit hv h2).1 hG hH ha).1 hs

/-! Non-vacuity: a prover for the bit 1 over the rationals, on a tree with 4 * 5 * 7 * 2 = 280 paths. -/

/-- The oracle that answers with given challenges. -/
def c49Oracle (y z u x w : ℚ) : Oracle ℚ ℚ Unit := fun t => match t.reverse with
  | .chal l :: _ => if l = "y" then y else if l = "z" then z else if l = "u" then u else if l = "x" then x else w
  | _ => 0

def c49Messages : Messages ℚ ℚ where
  AI1 := 10 + 11
  AO1 := 2 * 10
  S1 := 3 * 10
  AI2 := 0
  AO2 := 0
  S2 := 0
  T _ z := [10 * 1000, (z ^ 2 - z ^ 3) * (z - 1) + 10 * 1001, 0, 10 * 1003, 10 * 1004, 10 * 1005, 10 * 1006]
  L _ _ _ _ _ _ := 0
  R _ _ _ _ _ _ := 0

def c49Responses : Responses ℚ where
  tx _ z _ x := (z ^ 2 - z ^ 3) * x * (x * (1 + z ^ 2) + (z - 1))
  txBl _ z _ x := 1000 + 1001 * x - 7 * z ^ 3 * x ^ 2 + 1003 * x ^ 3 + 1004 * x ^ 4 + 1005 * x ^ 5 + 1006 * x ^ 6
  eBl _ _ _ x := x + 2 * x ^ 2 + 3 * x ^ 3
  a _ z _ x _ _ := (z ^ 2 - z ^ 3) * x
  b _ z _ x _ _ := x * (1 + z ^ 2) + (z - 1)

def c49Forks : Forks ℚ where
  Y := {3}
  Z _ := {1, 2, 3, 4}
  U _ _ := {1, 2, 3, 4, 5}
  X _ _ _ := {1, 2, 3, 4, 5, 6, 7}
  W _ _ _ _ := {1, 2}
  C _ _ _ _ _ _ := {1, 2, 3, 4}

/-- The Verifier of the range proof for `V = 1 * B + 7 * B_blinding`. -/
def c49V : VState ℚ ℚ Unit := (okOr (rangeVerifier [] (exGens.pc.commit (1 : ℚ) 7) 1 exOracle)).2
/-- The Verifier after the (empty) second phase. -/
def c49V2 : VState ℚ ℚ Unit := okOr (c49V.secondPhase exOracle c49Messages.AI1 c49Messages.AO1 c49Messages.S1)

/-- One path is accepted. -/
def c49Check (z u x w : ℚ) : Bool :=
  isOk (verify (c49Oracle 3 z u x w) exGens 0 (strategyProof c49Messages c49Responses 3 z u x w []) c49V) &&
  isOk (verify (c49Oracle 3 z u x w) exGens 1 (strategyProof c49Messages c49Responses 3 z u x w []) c49V)

/-- The paths with a given `z` are accepted. -/
def c49All (z : ℚ) : Bool := ([1, 2, 3, 4, 5] : List ℚ).all fun u =>
  ([1, 2, 3, 4, 5, 6, 7] : List ℚ).all fun x => ([1, 2] : List ℚ).all fun w => c49Check z u x w

section
set_option maxRecDepth 4000
theorem c49_all_1 : c49All 1 = true := by decide +kernel
theorem c49_all_2 : c49All 2 = true := by decide +kernel
theorem c49_all_3 : c49All 3 = true := by decide +kernel
theorem c49_all_4 : c49All 4 = true := by decide +kernel
end

theorem c49_enough : c49Forks.Enough (rangeCircuit 1) 0 where
  Y := ⟨by decide +kernel, by decide +kernel⟩
  Z := fun _ => by show _ ≤ Finset.card ({1, 2, 3, 4} : Finset ℚ); decide +kernel
  U := fun _ _ => by
    show 0 ∉ ({1, 2, 3, 4, 5} : Finset ℚ) ∧ 5 ≤ Finset.card ({1, 2, 3, 4, 5} : Finset ℚ)
    decide +kernel
  X := fun _ _ _ => by show _ ≤ Finset.card ({1, 2, 3, 4, 5, 6, 7} : Finset ℚ); decide +kernel
  W := fun _ _ _ _ => by
    show 0 ∉ ({1, 2} : Finset ℚ) ∧ 2 ≤ Finset.card ({1, 2} : Finset ℚ)
    decide +kernel
  C := fun _ _ _ _ _ _ => by
    show 0 ∉ ({1, 2, 3, 4} : Finset ℚ) ∧ 4 ≤ Finset.card (({1, 2, 3, 4} : Finset ℚ).image (· ^ 2))
    decide +kernel

theorem c49_accepts : AcceptsTree exGens c49V c49V2 c49Messages c49Responses c49Forks 0 := by
  intro y z u x w us hp hl
  obtain rfl := List.length_eq_zero_iff.1 hl
  obtain rfl : y = 3 := by simpa [c49Forks] using hp.hy
  have hz : z = 1 ∨ z = 2 ∨ z = 3 ∨ z = 4 := by simpa [c49Forks] using hp.hz
  have hu : u ∈ ([1, 2, 3, 4, 5] : List ℚ) := by simpa [c49Forks] using hp.hu
  have hx : x ∈ ([1, 2, 3, 4, 5, 6, 7] : List ℚ) := by simpa [c49Forks] using hp.hx
  have hw : w ∈ ([1, 2] : List ℚ) := by simpa [c49Forks] using hp.hw
  have key : c49All z = true := by
    rcases hz with rfl | rfl | rfl | rfl
    exacts [c49_all_1, c49_all_2, c49_all_3, c49_all_4]
  have h := List.all_eq_true.1 (List.all_eq_true.1 (List.all_eq_true.1 key u hu) x hx) w hw
  unfold c49Check at h
  rw [Bool.and_eq_true] at h
  refine ⟨c49Oracle 3 z u x w, rfl, ⟨?_, ?_, ?_, ?_, ?_, ?_⟩, 0, 1, by decide +kernel, eq_ok h.1, eq_ok h.2⟩
  all_goals rfl

example : c49Forks.Enough (rangeCircuit 1) 0 ∧
    rangeVerifier [] (exGens.pc.commit (1 : ℚ) 7) 1 exOracle = .ok ((), c49V) ∧
    AcceptsTree exGens c49V c49V2 c49Messages c49Responses c49Forks 0 :=
  ⟨c49_enough, rfl, c49_accepts⟩

end CT
