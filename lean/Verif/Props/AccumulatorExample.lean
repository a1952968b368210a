-- `ShuffleExample` is imported only so that the two are not built at the same time, which would need too much memory
import Verif.Props.ShuffleExample
import Verif.Props.Accumulator

/-! Non-vacuity of C58: the tree with leaves `3h, 5h, 11h` of C22, as commitments to the vectors `(2, 6)`, `(12)` and `(1, 3)`. -/

namespace CT
section Example
open Curve19

def accSets : List (List (ZMod 19)) := [[2, 6], [12], [1, 3]]

set_option maxRecDepth 4000 in
theorem accSets_leaves : accSets.map (accLeaf prm) = Curve19.set.map some := by decide +kernel

set_option maxRecDepth 4000 in
theorem acc_hyps : accLeaf prm [1, 3] = some (Curve19.set[2]'(by decide)) ∧ accLeaf prm [15] = some (Curve19.set[2]'(by decide)) := by decide +kernel

theorem avoids_2 : ∀ nodes', T.witness prm.tree 2 0 = .ok nodes' → ∀ p (k : Nat) w, (nodes' p)[k]? = some w → prm.Avoids (!p) w.child (rnd (!p) k) := by
  intro nodes' hw
  rw [← Except.ok.inj (witness_T.symm.trans hw)]
  exact avoids_T

/-- The run of the Prover for the element 3 makes a proof without identity points, of a size that the Verifier handles. -/
def accRun (a b : Nat) (ys : List (ZMod 19)) (e : ZMod 19) : Bool :=
  match accProvers o false prm T (fun _ => []) rnd 2 ys e with
  | .error _ => false
  | .ok (_, sE, sO) =>
    match accProve o false prm T (fun _ => []) rnd (pr a) (pr b) 2 ys e with
    | .error _ => false
    | .ok pf => decide (pf.even.NoIdentity sE.vecOpen.length) && decide (pf.odd.NoIdentity sO.vecOpen.length) &&
      decide (nextPow2 sE.size < 2 ^ 32) && decide (nextPow2 sO.size < 2 ^ 32)

set_option maxRecDepth 4000 in
theorem accRun_13 : accRun 2 2 [1, 3] 3 = true := by decide +kernel

set_option maxRecDepth 10000 in
/-- Non-vacuity of `C58_honest_accepted`, up to a batch of two copies of a proof that was made. -/
example : ∃ pf : AccProof Cs, accVerify o false prm T (fun _ => []) 2 (3 : ZMod 19) (fun p => match p with | false => [(5 : ZMod 19)] | true => [(6 : ZMod 19)])
    ([fun p => match p with | false => (7 : ZMod 19) | true => (8 : ZMod 19), fun p => match p with | false => (2 : ZMod 19) | true => (9 : ZMod 19)].map (·, pf)) = .ok () := by
  obtain ⟨path, sE, sO, h1, -, h2⟩ := C58_honest_accepted valid tree_gens le_rfl fromSet_T (by decide) (by rw [height_T]; decide) o false (fun _ => [])
    (rnd := rnd) (i := 2) (by decide) (by rw [height_T]; intro j hj; omega) (by intro j _; change (2 : ZMod 19) ≠ 0; decide) avoids_2
    acc_hyps.1 (element := (3 : ZMod 19)) (by decide)
  have h3 := accRun_13
  unfold accRun at h3
  rw [h1] at h3
  simp only at h3
  split at h3
  · cases h3
  rename_i pf hpf
  simp only [Bool.and_eq_true, decide_eq_true_eq] at h3
  obtain ⟨⟨⟨a1, a2⟩, a3⟩, a4⟩ := h3
  refine ⟨pf, h2 _ _ pf hpf ⟨?_, ?_, a3, a1⟩ ⟨?_, ?_, a4, a2⟩ _ _ (by simp)⟩
  all_goals simp [gens_length]

set_option maxRecDepth 10000 in
/-- Non-vacuity of `C58_zero_accepted`: the same leaf as a commitment to the vector `(15)`, of width 2. -/
example : ∃ ys path sE sO, accProvers o false prm T (fun _ => []) rnd 2 ys (0 : ZMod 19) = .ok (path, sE, sO) ∧
    ∃ t, accVerifiers o false prm T (fun _ => []) 2 (0 : ZMod 19) path = .ok t := by
  obtain ⟨ys, path, sE, sO, h1, h2, -⟩ := C58_zero_accepted valid tree_gens le_rfl fromSet_T (by decide) (by rw [height_T]; decide) o false (fun _ => [])
    (rnd := rnd) (i := 2) (by decide) (by rw [height_T]; intro j hj; omega) (by intro j _; change (2 : ZMod 19) ≠ 0; decide) avoids_2
    acc_hyps.2 (width := 2) (by decide) (by rw [(gens_length false).1]; decide)
  exact ⟨ys, path, sE, sO, h1, h2⟩

set_option maxRecDepth 10000 in
/-- Non-vacuity of `C58_member_partial`: the honest Prover for leaf 2 and the element 3, with the repaired `re_randomize`. Both Verifiers build their circuits, and the
Prover's assignments and openings satisfy the hypotheses about `w` and `bl`. -/
example : ∃ (path : Path Curve19.C.Pt Curve19.C.Pt) (t : ∀ p, SideV Cs p) (w : Assignment (ZMod 19)) (w' : Assignment (ZMod 19)) (bl bl' : Nat → ZMod 19),
    accVerifiers o true prm T (fun _ => []) 2 (3 : ZMod 19) path = .ok (t false, t true) ∧
    path.even.length + path.odd.length + 1 = T.height ∧
    (∀ c ∈ path.even, c + (prm.layer false).delta ≠ 0) ∧ (∀ c ∈ path.odd, c + (prm.layer true).delta ≠ 0) ∧
    path.selected + (prm.layer false).delta ≠ 0 ∧ (t false).SatisfiedBy w ∧ (t true).SatisfiedBy w' ∧
    (t false).OpenedBy (prm.gens false) w bl ∧ (t true).OpenedBy (prm.gens true) w' bl' ∧
    accSets.map (accLeaf prm) = Curve19.set.map some ∧ ∀ xs ∈ accSets, xs.length ≤ 2 := by
  have hp := pathTo_T
  obtain ⟨path, r, sE1, sO, k1, k2, k3, k4, k5, -⟩ := path_complete (o false) (o true) true valid gens_enough (T := T) (nodes := nodes) hp
    (rnd := rnd) avoids_T (new_good _) (new_good _)
  have hl : (nodes true).length = 1 ∧ (nodes false).length = 1 := by decide +kernel
  obtain ⟨tE1, tO, v1, v2, v3⟩ := path_session (T := T) (nodes := nodes) hp (by rw [height_T]; decide) (rnd := rnd)
    (by intro j hj; omega) (by intro j _; change (2 : ZMod 19) ≠ 0; decide) (.new []) (.new []) k1
  have hpath : path = proverPath prm nodes rnd ∧
      r = if nodes true = [] then 0 else rnd false ((nodes true).length - 1) := by
    unfold pathProverGadget at k1
    split at k1
    · cases k1
    · split at k1
      · cases k1
      · simp only [Except.ok.injEq, Prod.mk.injEq] at k1
        exact ⟨k1.1.1.symm, k1.1.2.symm⟩
  have hr : r = (5 : ZMod 19) := by
    rw [hpath.2, if_neg (by intro e; rw [e] at hl; simp at hl)]
    rfl
  obtain rfl := hpath.1
  subst hr
  rw [← selected_of_verifier v1] at v1
  obtain ⟨vars, s1, sE, tE, -, -, c2, c3, c4, -⟩ := acc_finish (dom := fun _ => []) v1 v2 v3 k2 k3 k4 k5 (ys := [1, 3]) (by rw [(gens_length false).1]; decide)
    (element := (3 : ZMod 19)) (by decide) (r := (5 : ZMod 19)) (by decide +kernel)
  obtain ⟨a1, a2⟩ := honest_opens c3.inv.sync c2.satisfied
  obtain ⟨b1, b2⟩ := honest_opens v3.inv.sync k3.satisfied
  refine ⟨_, fun p => match p with | false => tE | true => tO, _, _, _, _, c4, ?_, ?_, ?_, ?_, a1, b1, a2, b2, accSets_leaves, by decide⟩
  · simp [proverPath, rerandomized_length, hl, height_T]
  · decide +kernel
  · decide +kernel
  · decide +kernel

set_option maxRecDepth 10000 in
/-- Non-vacuity of `C58_forgery`: the element 17, which is in none of the vectors, with `Q = 8h` as the commitment to `(17, 2)` with the blinding 6, starting from the leaf `11h`. -/
example : (∀ xs ∈ accSets, (17 : ZMod 19) ∉ xs) ∧ ∃ (path : Path Curve19.C.Pt Curve19.C.Pt) (sE : SideP Cs false) (sO : SideP Cs true), sE.Good ∧ sO.Good ∧
    ∃ t, accVerifiers o false prm T (fun _ => []) 2 (17 : ZMod 19) path = .ok t := by
  refine ⟨by decide, ?_⟩
  obtain ⟨path, sE, sO, h1, h2, h3, -⟩ := C58_forgery valid tree_gens le_rfl fromSet_T (by decide) (by rw [height_T]; decide)
    o (fun _ => []) (rnd := rnd) (i := 2) (by decide)
    (by rw [height_T]; intro j hj; omega) (by intro j _; change (2 : ZMod 19) ≠ 0; decide)
    (fun nodes' hw p k w hk _ => avoids_2 nodes' hw p k w hk)
    (element := (17 : ZMod 19)) (ys := [17, 2]) (by decide) (by rw [(gens_length false).1]; decide) (r := (6 : ZMod 19))
    (Q := 8 • h) (by decide +kernel) (by change 8 • h + h ≠ 0; decide +kernel) (by change 11 • h + h ≠ 0; decide +kernel) (n := 0)
    attackable_8h
  exact ⟨path, sE, sO, h1, h2, h3⟩

end Example
end CT
