import Verif.Props.CompletenessError
import Verif.Props.CurveAddition
import Verif.Props.Pasta

/-!
# C72 for the two circuits that the repository proves in its tests

How often `example_gadget` and `test_curve_addition` fail although what is proved is true.
-/

namespace CT

section
variable {F G X : Type} [Field F] [Fintype F] [DecidableEq F] [AddCommGroup G] [Module F G] [DecidableEq G]

theorem rejectedAtMost_of_satisfied {o : Oracle F G X} {g : Gens G} (hcG : g.capacity ≤ g.Gs.length) (hcH : g.capacity ≤ g.Hs.length) (hB : g.pc.B ≠ 0) (hb : g.pc.Bbl ≠ 0)
    {s : PState F G X} {t : VState F G X} (h : Session o g s t) (hd : s.deferred = []) (htrue : s.Satisfied) (hin : s.InCircuit) (h17 : s.vecOpen.length ≤ 17) {lg : Nat}
    (hlg : nextPow2 s.size = 2 ^ lg) (hcap : 2 ^ lg ≤ g.capacity) (h32 : lg < 32) {N : Nat} (hN : completenessLoss s.vecOpen.length lg = N) :
    RejectedAtMost g s t N (Fintype.card F) := by
  subst hN
  exact ⟨s.transcript.length + (2 * (opDegree s.vecOpen.length + 1) + 1) + 18 + 3 * lg + 1, fun _ hM =>
    C72_completeness_error hcG hcH hB hb h hd htrue hin hlg hcap h32 h17 rfl hM⟩

/-- **C72** for `example_gadget_proof`: if `(a1 + a2) (b1 + b2) = c1 + c2`, the proof is rejected with probability at most `13 / q`. -/
theorem C72_example {g : Gens G} (hcG : g.capacity ≤ g.Gs.length) (hcH : g.capacity ≤ g.Hs.length) (hB : g.pc.B ≠ 0) (hb : g.pc.Bbl ≠ 0) (hcap : 1 ≤ g.capacity)
    (o : Oracle F G X) (tr : Transcript F G X) {a1 a2 b1 b2 c1 : F × F} {c2 : F} (h : (a1.1 + a2.1) * (b1.1 + b2.1) = c1.1 + c2) :
    ∃ Vs s t, exampleProver o g tr a1 a2 b1 b2 c1 c2 = .ok (Vs, s) ∧ exampleVerifier o tr c2 Vs = .ok t ∧ RejectedAtMost g s t 13 (Fintype.card F) := by
  refine ⟨_, _, _, exampleProver_eq o g tr a1 a2 b1 b2 c1 c2, exampleVerifier_eq o tr c2 _ _ _ _ _, ?_⟩
  refine rejectedAtMost_of_satisfied (lg := 0) hcG hcH hB hb (example_session o g tr a1 a2 b1 b2 c1 c2) rfl (example_satisfied o g tr h) ?_ (Nat.zero_le _)
    (show nextPow2 1 = 2 ^ 0 by decide) hcap (by norm_num) (show completenessLoss 0 0 = _ by decide)
  intro c hc term ht
  simp only [exampleP, exampleConstraints, List.mem_cons, List.not_mem_nil, or_false] at hc
  rcases hc with rfl | rfl | rfl <;> simp only [List.mem_cons, List.not_mem_nil, or_false] at ht <;> rcases ht with rfl | rfl | rfl <;> simp [Variable.InRange, exampleP]

/-- **C72** for `test_curve_addition`: for two points of a curve with different x-coordinates and their sum, the proof is rejected with probability at most `28 / q`. -/
theorem C72_addition (C : SWCurve F) {g : Gens G} (hcG : g.capacity ≤ g.Gs.length) (hcH : g.capacity ≤ g.Hs.length) (hB : g.pc.B ≠ 0) (hb : g.pc.Bbl ≠ 0) (hcap : 8 ≤ g.capacity)
    (o : Oracle F G X) (tr : Transcript F G X) {xl yl xr yr xo yo : F × F} (hl : C.OnCurve xl.1 yl.1) (hr : C.OnCurve xr.1 yr.1) (ho : C.OnCurve xo.1 yo.1) (hx : xl.1 ≠ xr.1)
    (hsum : C.pt ho = C.pt hl + C.pt hr) :
    ∃ V0 V1 V2 V3 V4 V5 s t, additionProver o g tr xl yl xr yr xo yo = .ok ([V0, V1, V2, V3, V4, V5], s) ∧ additionVerifier o tr V0 V1 V2 V3 V4 V5 = .ok t ∧
      RejectedAtMost g s t 28 (Fintype.card F) := by
  obtain ⟨x, y, ho', e, h1, h2, h3⟩ := C.chord_of_add hl hr hx
  rw [← hsum, C.pt_inj] at e
  obtain ⟨rfl, rfl⟩ := e
  have hx' : xr.1 - xl.1 ≠ 0 := sub_ne_zero.2 (Ne.symm hx)
  have hx'' : xl.1 - xr.1 ≠ 0 := sub_ne_zero.2 hx
  refine ⟨_, _, _, _, _, _, _, _, additionProver_eq o g tr xl yl xr yr xo yo hx, additionVerifier_eq .., ?_⟩
  refine rejectedAtMost_of_satisfied (lg := 3) hcG hcH hB hb (addition_session o g tr xl yl xr yr xo yo _ _) rfl
    (addition_satisfied g tr (i := 1 / (xl.1 - xr.1)) (by field_simp) h1 h2 h3) ?_ (Nat.zero_le _) (show nextPow2 5 = 2 ^ 3 by decide) hcap (by norm_num) (show completenessLoss 0 3 = _ by decide)
  intro c hc term ht
  simp only [additionP, additionConstraints, List.mem_cons, List.not_mem_nil, or_false] at hc
  rcases hc with rfl | rfl | rfl | rfl | rfl | rfl | rfl | rfl | rfl | rfl | rfl | rfl <;> simp only [List.mem_cons, List.not_mem_nil, or_false] at ht <;>
    rcases ht with rfl | rfl | rfl | rfl <;> simp [Variable.InRange, additionP]

end

/-- Eight generators in a group of prime order. -/
def eightGens : Gens (ZMod 101) := ⟨⟨1, 10⟩, 8, [2, 3, 5, 7, 23, 29, 31, 37], [11, 13, 17, 19, 41, 43, 47, 53]⟩

/-- Non-vacuity of `C72_example`: (1 + 2) (3 + 4) = 15 + 6. -/
example (o : Oracle (ZMod 101) (ZMod 101) Unit) : ∃ Vs s t, exampleProver o eightGens [] (1, 2) (2, 3) (3, 5) (4, 7) (15, 8) 6 = .ok (Vs, s) ∧
    exampleVerifier o [] 6 Vs = .ok t ∧ RejectedAtMost eightGens s t 13 (Fintype.card (ZMod 101)) :=
  C72_example (by decide) (by decide) (by decide) (by decide) (by decide) o [] (by decide)

/-- The curve `y ^ 2 = x ^ 3 + 1` over `ZMod 101`. -/
def curve101 : SWCurve (ZMod 101) := ⟨0, 1, by decide⟩

/-- Non-vacuity of `C72_addition`: (2, 3) + (0, 1) = (-1, 0). -/
example (o : Oracle (ZMod 101) (ZMod 101) Unit) : ∃ V0 V1 V2 V3 V4 V5 s t,
    additionProver o eightGens [] (2, 1) (3, 2) (0, 3) (1, 4) (-1, 5) (0, 6) = .ok ([V0, V1, V2, V3, V4, V5], s) ∧
      additionVerifier o [] V0 V1 V2 V3 V4 V5 = .ok t ∧ RejectedAtMost eightGens s t 28 (Fintype.card (ZMod 101)) := by
  have hl : curve101.OnCurve 2 3 := by unfold SWCurve.OnCurve curve101; decide
  have hr : curve101.OnCurve 0 1 := by unfold SWCurve.OnCurve curve101; decide
  obtain ⟨ho, e⟩ := curve101.add_of_chord (xo := -1) (yo := 0) (d := 1) hl hr (by decide) (by decide) (by decide) (by decide)
  exact C72_addition curve101 (by decide) (by decide) (by decide) (by decide) (by decide) o [] hl hr ho (by decide) e

end CT
