-- `RangeKnowledge` is imported also so that the two are not built at the same time, which would need too much memory
import Verif.Props.RangeKnowledge
import Verif.Proofs.Knowledge

/-!
# C56: an accepted membership proof shows that the committed value is in the set

The composition of C09 and C13 for the statement "`V` is a commitment to an element of the public set `xs`": `Verifier::commit` of one
point, then `select` on the returned variable with the elements as constants. No vector commitments are involved, so nothing is missing.
-/

namespace CT
open Finset
variable {F : Type} [Field F]

/-- The constraints `select` adds when `product` has been accumulated and the next gate is `i`: the inputs of the gates are the
accumulated product and the next difference, and the last product is zero. -/
def selectConstraints (x : LC F) : List (LC F) → LC F → Nat → List (LC F)
  | [], product, _ => [product]
  | xi :: xs, product, i => ⟨product.terms ++ [(.multiplierLeft i, -1)]⟩ :: ⟨(xi - x).terms ++ [(.multiplierRight i, -1)]⟩ ::
      selectConstraints x xs (LC.ofVar (.multiplierOutput i)) (i + 1)

/-- The circuit of a membership proof of one committed value. -/
def selectCircuit (x1 : F) (xs : List F) : Circuit F where
  first := xs.length
  n := xs.length
  m := 1
  dims := []
  constraints := selectConstraints (LC.ofVar (.committed 0)) (xs.map LC.const) (LC.const x1 - LC.ofVar (.committed 0)) 0

theorem selectLoop_run {G X : Type} (o : Oracle F G X) (x : LC F) (xs : List (LC F)) (p : LC F) (t : VState F G X) :
    ∃ q c, runV o (selectLoop x xs p) t = .ok (q, { t with numVars := t.numVars + xs.length, constraints := t.constraints ++ c }) ∧
      selectConstraints x xs p t.numVars = c ++ [q] := by
  induction xs generalizing p t with
  | nil => exact ⟨p, [], by simp [selectLoop, runV, pure], rfl⟩
  | cons xi xs ih =>
    obtain ⟨q, c, h1, h2⟩ := ih (LC.ofVar (.multiplierOutput t.numVars)) (t.multiply p (xi - x)).2
    refine ⟨q, ⟨p.terms ++ [(.multiplierLeft t.numVars, -1)]⟩ :: ⟨(xi - x).terms ++ [(.multiplierRight t.numVars, -1)]⟩ :: c, ?_, ?_⟩
    · have h3 : runV o (selectLoop x (xi :: xs) p) t =
        runV o (selectLoop x xs (LC.ofVar (.multiplierOutput t.numVars))) (t.multiply p (xi - x)).2 := rfl
      rw [h3, h1]
      simp [VState.multiply, VState.constrain, Nat.add_assoc, Nat.add_comm 1]
    · have h4 : (t.multiply p (xi - x)).2.numVars = t.numVars + 1 := rfl
      rw [h4] at h2
      simp [selectConstraints, h2]

/-- The Verifier of a membership proof. -/
def selectVerifier {G X : Type} (tr : Transcript F G X) (V : G) (xs : List F) (o : Oracle F G X) : Except Err (Unit × VState F G X) :=
  runV o (select (LC.ofVar (.committed 0)) (xs.map LC.const)) ((VState.new tr).commit V).2

theorem selectVerifier_eq {G X : Type} (tr : Transcript F G X) (V : G) (x1 : F) (xs : List F) (o : Oracle F G X) :
    selectVerifier tr V (x1 :: xs) o =
      .ok ((), { ((VState.new tr).commit V).2 with numVars := xs.length, constraints := (selectCircuit x1 xs).constraints }) := by
  obtain ⟨q, c, h1, h2⟩ := selectLoop_run o (LC.ofVar (.committed 0)) (xs.map LC.const) (LC.const x1 - LC.ofVar (.committed 0))
    ((VState.new tr).commit V).2
  unfold selectVerifier
  rw [List.map_cons]
  unfold select
  rw [runV_bind, h1]
  show Except.ok _ = Except.ok _
  have h3 : (selectCircuit x1 xs).constraints = c ++ [q] := h2
  rw [h3]
  simp [VState.commit, VState.new, VState.constrain]

theorem selectVerifier_circuit {G X : Type} [AddCommGroup G] [Module F G] {tr : Transcript F G X} {V : G} {x1 : F} {xs : List F}
    {o o' : Oracle F G X} {t t2 : VState F G X} {AI AO S : G}
    (h : selectVerifier tr V (x1 :: xs) o = .ok ((), t)) (h2 : t.secondPhase o' AI AO S = .ok t2) :
    t.circuit t2 = selectCircuit x1 xs ∧ t2.V = [V] := by
  rw [selectVerifier_eq] at h
  simp only [Except.ok.injEq, Prod.mk.injEq, true_and] at h
  subst h
  have := onePhase_circuit (by rfl) (by rfl) h2
  exact this

/-- In one constraint the committed variable has the coefficient -1. -/
theorem selectCircuit_opens (x1 : F) (xs : List F) : ∃ q ∈ (selectCircuit x1 xs).constraints,
    ∀ (G : Type) [AddCommGroup G] [Module F G] (V : Nat → G), committedPart q V = - V 0 := by
  cases xs with
  | nil =>
    refine ⟨_, List.mem_singleton.2 rfl, fun G _ _ V => ?_⟩
    simp [committedPart, LC.ofVar, LC.const, Sub.sub, HSub.hSub]
  | cons x2 xs =>
    refine ⟨_, List.mem_cons_self, fun G _ _ V => ?_⟩
    simp [committedPart, LC.ofVar, LC.const, Sub.sub, HSub.hSub]

variable [DecidableEq F]

/-- **C56**: let a prover be accepted on a tree of challenges as in C09 (for a circuit of `|xs| - 1` gates). Then its scalars
determine a non-trivial relation between the generators, or an element of the set and a blinding such that `V` is
the commitment to that element. The output does not depend on the group, the generators or the points. -/
theorem C56_select_knowledge (x1 : F) (xs : List F) (lg : Nat) (R : Responses F) (fk : Forks F) (hE : fk.Enough (selectCircuit x1 xs) lg) :
    (∃ r : Relation F, r.NonTrivial (2 ^ lg) ∧ ∀ (G X : Type) [AddCommGroup G] [Module F G] [DecidableEq G] (g : Gens G)
      (tr : Transcript F G X) (V : G) (o : Oracle F G X) (t t2 : VState F G X) (M : Messages F G),
      selectVerifier tr V (x1 :: xs) o = .ok ((), t) → g.capacity ≤ g.Gs.length → g.capacity ≤ g.Hs.length →
      AcceptsTree g t t2 M R fk lg → r.Holds (2 ^ lg) g) ∨
    (∃ v ∈ x1 :: xs, ∃ bl : F, ∀ (G X : Type) [AddCommGroup G] [Module F G] [DecidableEq G] (g : Gens G)
      (tr : Transcript F G X) (V : G) (o : Oracle F G X) (t t2 : VState F G X) (M : Messages F G),
      selectVerifier tr V (x1 :: xs) o = .ok ((), t) → g.capacity ≤ g.Gs.length → g.capacity ≤ g.Hs.length →
      AcceptsTree g t t2 M R fk lg → V = g.pc.commit v bl) := by
  rcases C09_no_vector_commitments_partial (selectCircuit x1 xs) R fk lg hE rfl with ⟨r, hr, h⟩ | ⟨e, he⟩
  · refine .inl ⟨r, hr, fun G X _ _ _ g tr V o t t2 M hv hG hH ha => ?_⟩
    obtain ⟨o', h2⟩ := ha.second hE
    exact h G X g t t2 M (selectVerifier_circuit hv h2).1 hG hH ha
  · right
    by_cases hs : (e.assignment (selectCircuit x1 xs)).Satisfies xs.length (selectCircuit x1 xs).constraints
    · obtain ⟨xi, hxi, hval⟩ := C13_select_sound (fun _ => 0)
        (selectVerifier_eq ([] : Transcript F Unit Unit) () x1 xs fun _ => 0) (w := e.assignment (selectCircuit x1 xs)) hs
      rw [List.mem_map] at hxi
      obtain ⟨v, hv, rfl⟩ := hxi
      refine ⟨v, hv, e.committedBl 0, fun G X _ _ _ g tr V o t t2 M hv hG hH ha => ?_⟩
      obtain ⟨o', h2⟩ := ha.second hE
      obtain ⟨hc, hV⟩ := selectVerifier_circuit hv h2
      obtain ⟨q, hq, hop⟩ := selectCircuit_opens x1 xs
      have h3 := (he G X g t t2 M hc hG hH ha).2.2.2.2.2 q hq
      rw [hop, hop, hV, neg_inj] at h3
      have h4 : v = e.committed 0 := by simpa [Assignment.val, Extracted.assignment, eval_const] using hval
      rw [← h4] at h3
      simpa [PedersenGens.commit] using h3
    · refine ⟨x1, List.mem_cons_self, 0, fun G X _ _ _ g tr V o t t2 M hv hG hH ha => ?_⟩
      obtain ⟨o', h2⟩ := ha.second hE
      exact absurd (he G X g t t2 M (selectVerifier_circuit hv h2).1 hG hH ha).1 hs

/-! Non-vacuity: a prover for the element 8 of the set {5, 8} over the rationals, on a tree with 4 * 5 * 7 * 2 = 280 paths. -/

def c56Messages : Messages ℚ ℚ where
  AI1 := 10 + 2 * -3
  AO1 := 2 * 10
  S1 := 3 * 10
  AI2 := 0
  AO2 := 0
  S2 := 0
  T _ z := [10 * 1000, (-3 - z ^ 2) * (z ^ 3 - 1) + 10 * 1001, 0, 10 * 1003, 10 * 1004, 10 * 1005, 10 * 1006]
  L _ _ _ _ _ _ := 0
  R _ _ _ _ _ _ := 0

def c56Responses : Responses ℚ where
  tx _ z _ x := (-3 - z ^ 2) * x * (-z * x + (z ^ 3 - 1))
  txBl _ z _ x := 1000 + 1001 * x + 7 * (z + z ^ 2) * x ^ 2 + 1003 * x ^ 3 + 1004 * x ^ 4 + 1005 * x ^ 5 + 1006 * x ^ 6
  eBl _ _ _ x := x + 2 * x ^ 2 + 3 * x ^ 3
  a _ z _ x _ _ := (-3 - z ^ 2) * x
  b _ z _ x _ _ := -z * x + (z ^ 3 - 1)

/-- The Verifier of the membership proof for `V = 8 * B + 7 * B_blinding`. -/
def c56V : VState ℚ ℚ Unit := (okOr (selectVerifier [] (exGens.pc.commit (8 : ℚ) 7) [5, 8] exOracle)).2
/-- The Verifier after the (empty) second phase. -/
def c56V2 : VState ℚ ℚ Unit := okOr (c56V.secondPhase exOracle c56Messages.AI1 c56Messages.AO1 c56Messages.S1)

/-- One path is accepted. -/
def c56Check (z u x w : ℚ) : Bool :=
  isOk (verify (c49Oracle 3 z u x w) exGens 0 (strategyProof c56Messages c56Responses 3 z u x w []) c56V) &&
  isOk (verify (c49Oracle 3 z u x w) exGens 1 (strategyProof c56Messages c56Responses 3 z u x w []) c56V)

/-- The paths with a given `z` are accepted. -/
def c56All (z : ℚ) : Bool := ([1, 2, 3, 4, 5] : List ℚ).all fun u =>
  ([1, 2, 3, 4, 5, 6, 7] : List ℚ).all fun x => ([1, 2] : List ℚ).all fun w => c56Check z u x w

section
set_option maxRecDepth 4000
theorem c56_all_1 : c56All 1 = true := by decide +kernel
theorem c56_all_2 : c56All 2 = true := by decide +kernel
theorem c56_all_3 : c56All 3 = true := by decide +kernel
theorem c56_all_4 : c56All 4 = true := by decide +kernel
end

theorem c56_enough : c49Forks.Enough (selectCircuit 5 [8]) 0 where
  Y := c49_enough.Y
  Z := c49_enough.Z
  U := c49_enough.U
  X := c49_enough.X
  W := c49_enough.W
  C := c49_enough.C

theorem c56_accepts : AcceptsTree exGens c56V c56V2 c56Messages c56Responses c49Forks 0 := by
  intro y z u x w us hp hl
  obtain rfl := List.length_eq_zero_iff.1 hl
  obtain rfl : y = 3 := by simpa [c49Forks] using hp.hy
  have hz : z = 1 ∨ z = 2 ∨ z = 3 ∨ z = 4 := by simpa [c49Forks] using hp.hz
  have hu : u ∈ ([1, 2, 3, 4, 5] : List ℚ) := by simpa [c49Forks] using hp.hu
  have hx : x ∈ ([1, 2, 3, 4, 5, 6, 7] : List ℚ) := by simpa [c49Forks] using hp.hx
  have hw : w ∈ ([1, 2] : List ℚ) := by simpa [c49Forks] using hp.hw
  have key : c56All z = true := by
    rcases hz with rfl | rfl | rfl | rfl
    exacts [c56_all_1, c56_all_2, c56_all_3, c56_all_4]
  have h := List.all_eq_true.1 (List.all_eq_true.1 (List.all_eq_true.1 key u hu) x hx) w hw
  unfold c56Check at h
  rw [Bool.and_eq_true] at h
  refine ⟨c49Oracle 3 z u x w, rfl, ⟨?_, ?_, ?_, ?_, ?_, ?_⟩, 0, 1, by decide +kernel, eq_ok h.1, eq_ok h.2⟩
  all_goals rfl

example : c49Forks.Enough (selectCircuit 5 [8]) 0 ∧
    selectVerifier [] (exGens.pc.commit (8 : ℚ) 7) [5, 8] exOracle = .ok ((), c56V) ∧
    AcceptsTree exGens c56V c56V2 c56Messages c56Responses c49Forks 0 :=
  ⟨c56_enough, rfl, c56_accepts⟩

end CT
