import Verif.Props.Openings
import Verif.Model.AdditionTest
import Verif.Props.Gadgets

/-! # C68: an accepted proof of a curve addition shows that the third point is the sum of the first two -/

namespace CT
open Finset

section
variable {F G X : Type} [Field F] [DecidableEq F] [AddCommGroup G] [Module F G] [DecidableEq G]

/-- The constraints of `checked_curve_addition` on six committed coordinates. The allocated gate 0 holds the inverse of `xl - xr` and the slope. -/
def additionConstraints : List (LC F) :=
  [⟨[(.committed 0, 1), (.committed 2, -1), (.multiplierLeft 1, -1)]⟩, ⟨[(.multiplierLeft 0, 1), (.multiplierRight 1, -1)]⟩,
   ⟨[(.multiplierOutput 1, 1), (.one, -1)]⟩,
   ⟨[(.multiplierRight 0, 1), (.multiplierLeft 2, -1)]⟩, ⟨[(.committed 2, 1), (.committed 0, -1), (.multiplierRight 2, -1)]⟩,
   ⟨[(.multiplierOutput 2, 1), (.committed 3, -1), (.committed 1, - -1)]⟩,
   ⟨[(.multiplierRight 0, 1), (.multiplierLeft 3, -1)]⟩, ⟨[(.committed 4, 1), (.committed 0, -1), (.multiplierRight 3, -1)]⟩,
   ⟨[(.multiplierOutput 3, 1), (.committed 5, - -1), (.committed 1, - -1)]⟩,
   ⟨[(.multiplierRight 0, 1), (.multiplierLeft 4, -1)]⟩, ⟨[(.multiplierRight 0, 1), (.multiplierRight 4, -1)]⟩,
   ⟨[(.committed 4, 1), (.committed 2, 1), (.committed 0, 1), (.multiplierOutput 4, -1)]⟩]

/-- The circuit of `checked_curve_addition` on six committed coordinates. -/
def additionCircuit : Circuit F := ⟨5, 5, 6, [], additionConstraints⟩

/-- The Verifier of a curve addition. -/
def additionV (tr : Transcript F G X) (V0 V1 V2 V3 V4 V5 : G) : VState F G X where
  transcript := tr ++ [.sep "r1cs v1", .point "V" V0, .point "V" V1, .point "V" V2, .point "V" V3, .point "V" V4, .point "V" V5]
  V := [V0, V1, V2, V3, V4, V5]
  numVars := 5
  constraints := additionConstraints

/-- The Prover of a curve addition with slope `d` and inverse `i`. -/
def additionP (g : Gens G) (tr : Transcript F G X) (xl yl xr yr xo yo : F × F) (d i : F) : PState F G X where
  transcript := tr ++ [.sep "r1cs v1", .point "V" (g.pc.commit xl.1 xl.2), .point "V" (g.pc.commit yl.1 yl.2), .point "V" (g.pc.commit xr.1 xr.2),
    .point "V" (g.pc.commit yr.1 yr.2), .point "V" (g.pc.commit xo.1 xo.2), .point "V" (g.pc.commit yo.1 yo.2)]
  v := [xl.1, yl.1, xr.1, yr.1, xo.1, yo.1]
  vBlinding := [xl.2, yl.2, xr.2, yr.2, xo.2, yo.2]
  aL := [i, xl.1 - xr.1, d, d, d]
  aR := [d, i, xr.1 - xl.1, xo.1 - xl.1, d]
  aO := [i * d, (xl.1 - xr.1) * i, d * (xr.1 - xl.1), d * (xo.1 - xl.1), d * d]
  constraints := additionConstraints

omit [DecidableEq F] [AddCommGroup G] [Module F G] [DecidableEq G] in
theorem additionVerifier_eq (o : Oracle F G X) (tr : Transcript F G X) (V0 V1 V2 V3 V4 V5 : G) :
    additionVerifier o tr V0 V1 V2 V3 V4 V5 = .ok (additionV tr V0 V1 V2 V3 V4 V5) := by
  have e : additionVerifier o tr V0 V1 V2 V3 V4 V5 = .ok { additionV tr V0 V1 V2 V3 V4 V5 with
      transcript := tr ++ [.sep "r1cs v1"] ++ [.point "V" V0] ++ [.point "V" V1] ++ [.point "V" V2] ++ [.point "V" V3] ++ [.point "V" V4] ++ [.point "V" V5]
      constraints := [] ++ [(LC.ofVar (.committed 0) - LC.ofVar (.committed 2)) - LC.ofVar (.multiplierLeft 1)] ++ [LC.ofVar (.multiplierLeft 0) - LC.ofVar (.multiplierRight 1)] ++
        [LC.ofVar (.multiplierOutput 1) - LC.ofVar .one] ++ [LC.ofVar (.multiplierRight 0) - LC.ofVar (.multiplierLeft 2)] ++
        [(LC.ofVar (.committed 2) - LC.ofVar (.committed 0)) - LC.ofVar (.multiplierRight 2)] ++ [LC.ofVar (.multiplierOutput 2) - (LC.ofVar (.committed 3) - LC.ofVar (.committed 1))] ++
        [LC.ofVar (.multiplierRight 0) - LC.ofVar (.multiplierLeft 3)] ++ [(LC.ofVar (.committed 4) - LC.ofVar (.committed 0)) - LC.ofVar (.multiplierRight 3)] ++
        [LC.ofVar (.multiplierOutput 3) - (-LC.ofVar (.committed 5) - LC.ofVar (.committed 1))] ++ [LC.ofVar (.multiplierRight 0) - LC.ofVar (.multiplierLeft 4)] ++
        [LC.ofVar (.multiplierRight 0) - LC.ofVar (.multiplierRight 4)] ++
        [LC.ofVar (.committed 4) + LC.ofVar (.committed 2) + LC.ofVar (.committed 0) - LC.ofVar (.multiplierOutput 4)] } := rfl
  rw [e]
  congr 1
  simp only [additionV, additionConstraints]
  congr 1
  simp

omit [DecidableEq F] [DecidableEq G] in
theorem addition_runP (o : Oracle F G X) (g : Gens G) (tr : Transcript F G X) (xl yl xr yr xo yo : F × F) (d i : F) :
    runP o (checkedCurveAddition (additionPrms (exampleCommit (X := X) g [xl, yl, xr, yr, xo, yo] (.new tr)).2.1 (some d)) (some i))
      (exampleCommit (X := X) g [xl, yl, xr, yr, xo, yo] (.new tr)).2.2 = .ok ((), additionP g tr xl yl xr yr xo yo d i) := by
  obtain ⟨xl, p1⟩ := xl
  obtain ⟨yl, p2⟩ := yl
  obtain ⟨xr, p3⟩ := xr
  obtain ⟨yr, p4⟩ := yr
  obtain ⟨xo, p5⟩ := xo
  obtain ⟨yo, p6⟩ := yo
  have e : runP o (checkedCurveAddition (additionPrms (exampleCommit (X := X) g [(xl, p1), (yl, p2), (xr, p3), (yr, p4), (xo, p5), (yo, p6)] (.new tr)).2.1 (some d)) (some i))
      (exampleCommit (X := X) g [(xl, p1), (yl, p2), (xr, p3), (yr, p4), (xo, p5), (yo, p6)] (.new tr)).2.2 =
      .ok ((), { additionP g tr (xl, p1) (yl, p2) (xr, p3) (yr, p4) (xo, p5) (yo, p6) d i with
        transcript := tr ++ [.sep "r1cs v1"] ++ [.point "V" (g.pc.commit xl p1)] ++ [.point "V" (g.pc.commit yl p2)] ++ [.point "V" (g.pc.commit xr p3)] ++
          [.point "V" (g.pc.commit yr p4)] ++ [.point "V" (g.pc.commit xo p5)] ++ [.point "V" (g.pc.commit yo p6)]
        aL := [i, 1 * xl + (-1 * xr + 0), 1 * d + 0, 1 * d + 0, 1 * d + 0]
        aR := [d, 1 * i + 0, 1 * xr + (-1 * xl + 0), 1 * xo + (-1 * xl + 0), 1 * d + 0]
        aO := [i * d, (1 * xl + (-1 * xr + 0)) * (1 * i + 0), (1 * d + 0) * (1 * xr + (-1 * xl + 0)), (1 * d + 0) * (1 * xo + (-1 * xl + 0)),
          (1 * d + 0) * (1 * d + 0)] }) := rfl
  rw [e]
  simp [additionP, sub_eq_add_neg]

omit [DecidableEq G] in
theorem additionProver_eq (o : Oracle F G X) (g : Gens G) (tr : Transcript F G X) (xl yl xr yr xo yo : F × F) (hx : xl.1 ≠ xr.1) :
    additionProver o g tr xl yl xr yr xo yo = .ok ([xl, yl, xr, yr, xo, yo].map (fun a => g.pc.commit a.1 a.2),
      additionP g tr xl yl xr yr xo yo ((yr.1 - yl.1) / (xr.1 - xl.1)) (1 / (xl.1 - xr.1))) := by
  have hd : fdiv (yr.1 - yl.1) (xr.1 - xl.1) = some ((yr.1 - yl.1) / (xr.1 - xl.1)) := if_neg (sub_ne_zero.2 (Ne.symm hx))
  unfold additionProver
  rw [hd]
  simp only
  rw [addition_runP]
  rfl

omit [DecidableEq F] [AddCommGroup G] [Module F G] [DecidableEq G] in
theorem additionCalls (xs : List Variable) (d i : Option F) :
    SameCalls (fun _ _ => True) (checkedCurveAddition (additionPrms xs d) i : Prog F G X Unit) (checkedCurveAddition (additionPrms xs none) none) :=
  .allocate fun _ => .multiply fun _ => .constrain (.allocate fun _ => .multiply fun _ => .constrain (.multiply fun _ => .constrain (.multiply fun _ => .constrain
    (.pure trivial))))

omit [DecidableEq F] [DecidableEq G] in
theorem addition_session (o : Oracle F G X) (g : Gens G) (tr : Transcript F G X) (xl yl xr yr xo yo : F × F) (d i : F) :
    Session o g (additionP g tr xl yl xr yr xo yo d i)
      (additionV tr (g.pc.commit xl.1 xl.2) (g.pc.commit yl.1 yl.2) (g.pc.commit xr.1 xr.2) (g.pc.commit yr.1 yr.2) (g.pc.commit xo.1 xo.2) (g.pc.commit yo.1 yo.2)) := by
  have hs := Session.commit yo.1 yo.2 (.commit xo.1 xo.2 (.commit yr.1 yr.2 (.commit xr.1 xr.2 (.commit yl.1 yl.2 (.commit xl.1 xl.2 (Session.new (o := o) (g := g) tr))))))
  have h2 := additionVerifier_eq o tr (g.pc.commit xl.1 xl.2) (g.pc.commit yl.1 yl.2) (g.pc.commit xr.1 xr.2) (g.pc.commit yr.1 yr.2) (g.pc.commit xo.1 xo.2)
    (g.pc.commit yo.1 yo.2)
  unfold additionVerifier at h2
  split at h2
  rename_i xs' t e2
  cases e2
  split at h2
  · rename_i b t' e4
    cases h2
    exact hs.gadget (additionCalls _ (some d) (some i)) (addition_runP o g tr xl yl xr yr xo yo d i) e4
  · cases h2

omit [DecidableEq F] [DecidableEq G] in
/-- The equations of the slope, for the committed values. -/
theorem addition_satisfied (g : Gens G) (tr : Transcript F G X) {xl yl xr yr xo yo : F × F} {d i : F} (hi : (xl.1 - xr.1) * i = 1) (h1 : d * (xr.1 - xl.1) = yr.1 - yl.1)
    (h2 : d * (xo.1 - xl.1) = - yo.1 - yl.1) (h3 : d * d = xo.1 + xr.1 + xl.1) : (additionP g tr xl yl xr yr xo yo d i).Satisfied := by
  refine ⟨?_, ?_⟩
  · intro k hk
    match k with
    | 0 | 1 | 2 | 3 | 4 => rfl
    | k + 5 => simp [additionP] at hk
  · intro c hc
    simp only [additionP, additionConstraints, List.mem_cons, List.not_mem_nil, or_false] at hc
    rcases hc with rfl | rfl | rfl | rfl | rfl | rfl | rfl | rfl | rfl | rfl | rfl | rfl <;>
      simp only [Assignment.eval, Assignment.val, PState.assignment, additionP, List.map_cons, List.map_nil, List.sum_cons, List.sum_nil,
        List.getD_cons_zero, List.getD_cons_succ]
    · ring
    · ring
    · linear_combination hi
    · ring
    · ring
    · linear_combination h1
    · ring
    · ring
    · linear_combination h2
    · ring
    · ring
    · linear_combination - h3

/-- Only the equations of the slope are shown: the proof is accepted whenever the committed values satisfy them, on the curve or not. -/
theorem C68_slope_suffices (o : Oracle F G X) (g : Gens G) (rnd : PRand F) (tr : Transcript F G X) {xl yl xr yr xo yo : F × F} (hx : xl.1 ≠ xr.1)
    (h2 : (yr.1 - yl.1) / (xr.1 - xl.1) * (xo.1 - xl.1) = - yo.1 - yl.1) (h3 : ((yr.1 - yl.1) / (xr.1 - xl.1)) ^ 2 = xo.1 + xr.1 + xl.1) (hcG : g.capacity ≤ g.Gs.length)
    (hcH : g.capacity ≤ g.Hs.length) {p : R1CSProof F G} {Vs : List G} (hp : additionProve o g rnd tr xl yl xr yr xo yo = .ok (p, Vs)) (hne : p.NoIdentity 0) :
    ∃ V0 V1 V2 V3 V4 V5, Vs = [V0, V1, V2, V3, V4, V5] ∧ ∀ r, additionVerify o g r tr p V0 V1 V2 V3 V4 V5 = .ok () := by
  have hx' : xr.1 - xl.1 ≠ 0 := sub_ne_zero.2 (Ne.symm hx)
  have hx'' : xl.1 - xr.1 ≠ 0 := sub_ne_zero.2 hx
  unfold additionProve at hp
  rw [additionProver_eq o g tr xl yl xr yr xo yo hx] at hp
  simp only at hp
  split at hp
  · cases hp
  · rename_i p' tr' e
    cases hp
    refine ⟨_, _, _, _, _, _, rfl, fun r => ?_⟩
    unfold additionVerify
    rw [additionVerifier_eq]
    exact C01_one_phase o g rnd _ _ (addition_session o g tr xl yl xr yr xo yo _ _) hcG hcH rfl
      (addition_satisfied g tr (by field_simp) (by field_simp) h2 (by rw [← h3]; ring)) e (show nextPow2 5 < 2 ^ 32 by decide) hne r

/-- What is accepted is what `verify` accepts for the Verifier of `C68_addition_knowledge_partial`. -/
theorem C68_verify_iff (o : Oracle F G X) (g : Gens G) (r : F) (tr : Transcript F G X) (p : R1CSProof F G) (V0 V1 V2 V3 V4 V5 : G) :
    additionVerify o g r tr p V0 V1 V2 V3 V4 V5 = .ok () ↔ ∃ t, additionVerifier o tr V0 V1 V2 V3 V4 V5 = .ok t ∧ verify o g r p t = .ok () := by
  unfold additionVerify
  cases h : additionVerifier o tr V0 V1 V2 V3 V4 V5 <;> simp

/-- The proof of a curve addition is accepted when the committed points are two points of a curve with different x-coordinates and their sum. -/
theorem C68_addition_complete (C : SWCurve F) (o : Oracle F G X) (g : Gens G) (rnd : PRand F) (tr : Transcript F G X) {xl yl xr yr xo yo : F × F} (hl : C.OnCurve xl.1 yl.1)
    (hr : C.OnCurve xr.1 yr.1) (ho : C.OnCurve xo.1 yo.1) (hx : xl.1 ≠ xr.1) (hsum : C.pt ho = C.pt hl + C.pt hr) (hcG : g.capacity ≤ g.Gs.length)
    (hcH : g.capacity ≤ g.Hs.length) {p : R1CSProof F G} {Vs : List G} (hp : additionProve o g rnd tr xl yl xr yr xo yo = .ok (p, Vs)) (hne : p.NoIdentity 0) :
    ∃ V0 V1 V2 V3 V4 V5, Vs = [V0, V1, V2, V3, V4, V5] ∧ ∀ r, additionVerify o g r tr p V0 V1 V2 V3 V4 V5 = .ok () := by
  obtain ⟨x, y, ho', e, h1, h2, h3⟩ := C.chord_of_add hl hr hx
  rw [← hsum, C.pt_inj] at e
  obtain ⟨rfl, rfl⟩ := e
  exact C68_slope_suffices o g rnd tr hx h2 (by rw [← h3]; ring) hcG hcH hp hne

/-- Nor are the y-coordinates opened: for every point `R` proofs are accepted for the commitments of the y-coordinates shifted by `R`, `R` and `-R`. The Prover of the proof knows
nothing about `R`. -/
theorem C68_y_not_opened (o : Oracle F G X) (g : Gens G) (rnd : PRand F) (tr : Transcript F G X) {xl yl xr yr xo yo : F × F} (hx : xl.1 ≠ xr.1)
    (h2 : (yr.1 - yl.1) / (xr.1 - xl.1) * (xo.1 - xl.1) = - yo.1 - yl.1) (h3 : ((yr.1 - yl.1) / (xr.1 - xl.1)) ^ 2 = xo.1 + xr.1 + xl.1) (hcG : g.capacity ≤ g.Gs.length)
    (hcH : g.capacity ≤ g.Hs.length) (R : G) {p : R1CSProof F G} {tr' : Transcript F G X}
    (hp : prove o g rnd { additionP g tr xl yl xr yr xo yo ((yr.1 - yl.1) / (xr.1 - xl.1)) (1 / (xl.1 - xr.1)) with
      transcript := (additionV tr (g.pc.commit xl.1 xl.2) (g.pc.commit yl.1 yl.2 + R) (g.pc.commit xr.1 xr.2) (g.pc.commit yr.1 yr.2 + R)
        (g.pc.commit xo.1 xo.2) (g.pc.commit yo.1 yo.2 - R)).transcript } = .ok (p, tr'))
    (hne : p.NoIdentity 0) (r : F) :
    additionVerify o g r tr p (g.pc.commit xl.1 xl.2) (g.pc.commit yl.1 yl.2 + R) (g.pc.commit xr.1 xr.2) (g.pc.commit yr.1 yr.2 + R) (g.pc.commit xo.1 xo.2)
      (g.pc.commit yo.1 yo.2 - R) = .ok () := by
  have hx' : xr.1 - xl.1 ≠ 0 := sub_ne_zero.2 (Ne.symm hx)
  have hx'' : xl.1 - xr.1 ≠ 0 := sub_ne_zero.2 hx
  have key := C67_undetermined_accepted o g rnd (addition_session o g tr xl yl xr yr xo yo _ _) hcG hcH rfl
    (addition_satisfied g tr (by field_simp) (by field_simp) h2 (by rw [← h3]; ring)) (show nextPow2 5 < 2 ^ 32 by decide)
    (u := fun j => if j = 1 then 1 else if j = 3 then 1 else if j = 5 then -1 else 0) (by
      intro q hq
      simp only [additionV, additionConstraints, List.mem_cons, List.not_mem_nil, or_false] at hq
      rcases hq with rfl | rfl | rfl | rfl | rfl | rfl | rfl | rfl | rfl | rfl | rfl | rfl <;> simp [committedPart]) R _ tr' hp hne r
  unfold additionVerify
  rw [additionVerifier_eq]
  have e : ({ additionV tr (g.pc.commit xl.1 xl.2) (g.pc.commit yl.1 yl.2) (g.pc.commit xr.1 xr.2) (g.pc.commit yr.1 yr.2) (g.pc.commit xo.1 xo.2) (g.pc.commit yo.1 yo.2) with
        V := (additionV (X := X) tr (g.pc.commit xl.1 xl.2) (g.pc.commit yl.1 yl.2) (g.pc.commit xr.1 xr.2) (g.pc.commit yr.1 yr.2) (g.pc.commit xo.1 xo.2)
          (g.pc.commit yo.1 yo.2)).V.mapIdx fun j V => V + (if j = 1 then 1 else if j = 3 then 1 else if j = 5 then -1 else 0 : F) • R
        transcript := (additionV tr (g.pc.commit xl.1 xl.2) (g.pc.commit yl.1 yl.2 + R) (g.pc.commit xr.1 xr.2) (g.pc.commit yr.1 yr.2 + R) (g.pc.commit xo.1 xo.2)
          (g.pc.commit yo.1 yo.2 - R)).transcript } : VState F G X) =
      additionV tr (g.pc.commit xl.1 xl.2) (g.pc.commit yl.1 yl.2 + R) (g.pc.commit xr.1 xr.2) (g.pc.commit yr.1 yr.2 + R) (g.pc.commit xo.1 xo.2) (g.pc.commit yo.1 yo.2 - R) := by
    simp [additionV, sub_eq_add_neg]
  rw [e] at key
  exact key

end

/-- **C68** (partial: the y-coordinates are opened only if one of them is, and the points are on the curve only if the first two are). What an accepted proof of a curve addition
shows, or else there is a relation between the generators: the commitments of the x-coordinates open to `xl ≠ xr` and `xo`, the difference of the commitments of `yr` and `yl` to `d`,
the sum of those of `yo` and `yl` to `s`, and these satisfy the equations of the slope. If the commitment of `yl` opens to `yl`, then the others open to `yl + d` and
`s - yl`, and if `(xl, yl)` and `(xr, yl + d)` are points of a curve, `(xo, s - yl)` is their sum. -/
theorem C68_addition_knowledge_partial {F : Type} [Field F] [DecidableEq F] (hthree : (3 : F) ≠ 0) (R : Responses F) (fk : Forks F) (lg : Nat)
    (hE : fk.Enough additionCircuit lg) :
    (∃ r : Relation F, r.NonTrivial (2 ^ lg) ∧ ∀ (G X : Type) [AddCommGroup G] [Module F G] [DecidableEq G] (g : Gens G)
      (tr : Transcript F G X) (V0 V1 V2 V3 V4 V5 : G) (o : Oracle F G X) (t t2 : VState F G X) (M : Messages F G), additionVerifier o tr V0 V1 V2 V3 V4 V5 = .ok t →
      g.capacity ≤ g.Gs.length → g.capacity ≤ g.Hs.length → AcceptsTree g t t2 M R fk lg → r.Holds (2 ^ lg) g) ∨
    (∃ xl xr xo d s bxl bxr bxo bd bs : F,
      ∀ (G X : Type) [AddCommGroup G] [Module F G] [DecidableEq G] (g : Gens G)
        (tr : Transcript F G X) (V0 V1 V2 V3 V4 V5 : G) (o : Oracle F G X) (t t2 : VState F G X) (M : Messages F G), additionVerifier o tr V0 V1 V2 V3 V4 V5 = .ok t →
        g.capacity ≤ g.Gs.length → g.capacity ≤ g.Hs.length → AcceptsTree g t t2 M R fk lg →
        V0 = g.pc.commit xl bxl ∧ V2 = g.pc.commit xr bxr ∧ V4 = g.pc.commit xo bxo ∧ V3 - V1 = g.pc.commit d bd ∧ V5 + V1 = g.pc.commit s bs ∧
        xl ≠ xr ∧ d / (xr - xl) * (xo - xl) = - s ∧ (d / (xr - xl)) ^ 2 = xo + xr + xl ∧
        ∀ yl b, V1 = g.pc.commit yl b → V3 = g.pc.commit (yl + d) (b + bd) ∧ V5 = g.pc.commit (s - yl) (bs - b) ∧
          ∀ (C : SWCurve F) (hl : C.OnCurve xl yl) (hr : C.OnCurve xr (yl + d)), ∃ ho : C.OnCurve xo (s - yl), C.pt ho = C.pt hl + C.pt hr) := by
  have circ : ∀ (G X : Type) [AddCommGroup G] [Module F G] [DecidableEq G] (g : Gens G)
      (tr : Transcript F G X) (V0 V1 V2 V3 V4 V5 : G) (o : Oracle F G X) (t t2 : VState F G X) (M : Messages F G), additionVerifier o tr V0 V1 V2 V3 V4 V5 = .ok t →
      AcceptsTree g t t2 M R fk lg → t.circuit t2 = additionCircuit ∧ t2.V = [V0, V1, V2, V3, V4, V5] := by
    intro G X _ _ _ g tr V0 V1 V2 V3 V4 V5 o t t2 M hv ha
    rw [additionVerifier_eq] at hv
    cases hv
    obtain ⟨o', h2⟩ := ha.second hE
    exact onePhase_circuit rfl rfl h2
  rcases C09_no_vector_commitments_partial additionCircuit R fk lg hE rfl with ⟨r, hr, h⟩ | ⟨e, he⟩
  · exact .inl ⟨r, hr, fun G X _ _ _ g tr V0 V1 V2 V3 V4 V5 o t t2 M hv hG hH ha => h G X g t t2 M (circ G X g tr V0 V1 V2 V3 V4 V5 o t t2 M hv ha).1 hG hH ha⟩
  · right
    refine ⟨e.committed 0, e.committed 2, e.committed 4, e.committed 3 - e.committed 1, e.committed 5 + e.committed 1, e.committedBl 0, e.committedBl 2, e.committedBl 4,
      e.committedBl 3 - e.committedBl 1, e.committedBl 5 + e.committedBl 1, fun G X _ _ _ g tr V0 V1 V2 V3 V4 V5 o t t2 M hv hG hH ha => ?_⟩
    · obtain ⟨hc, hV⟩ := circ G X g tr V0 V1 V2 V3 V4 V5 o t t2 M hv ha
      have hval := he G X g t t2 M hc hG hH ha
      have hs := hval.1
      have h3 := hval.2.2.2.2.2
      rw [hV] at h3
      have hcm : (e.assignment additionCircuit).committed = e.committed := rfl
      have rows : ∀ (k : Nat) (hk : k < 12), (additionConstraints (F := F))[k]'hk ∈ (additionCircuit (F := F)).constraints := fun k hk => List.getElem_mem _
      have E0 := hs.2 _ (rows 0 (by decide))
      have E1 := hs.2 _ (rows 1 (by decide))
      have E2 := hs.2 _ (rows 2 (by decide))
      have E3 := hs.2 _ (rows 3 (by decide))
      have E4 := hs.2 _ (rows 4 (by decide))
      have E5 := hs.2 _ (rows 5 (by decide))
      have E6 := hs.2 _ (rows 6 (by decide))
      have E7 := hs.2 _ (rows 7 (by decide))
      have E8 := hs.2 _ (rows 8 (by decide))
      have E9 := hs.2 _ (rows 9 (by decide))
      have E10 := hs.2 _ (rows 10 (by decide))
      have E11 := hs.2 _ (rows 11 (by decide))
      have g1 := hs.1 1 (show 1 < 5 by decide)
      have g2 := hs.1 2 (show 2 < 5 by decide)
      have g3 := hs.1 3 (show 3 < 5 by decide)
      have g4 := hs.1 4 (show 4 < 5 by decide)
      simp only [additionConstraints, List.getElem_cons_zero, List.getElem_cons_succ, Assignment.eval, Assignment.val, List.map_cons, List.map_nil, List.sum_cons, List.sum_nil, hcm]
        at E0 E1 E2 E3 E4 E5 E6 E7 E8 E9 E10 E11
      have K0 := h3 _ (rows 0 (by decide))
      have K5 := h3 _ (rows 5 (by decide))
      have K7 := h3 _ (rows 7 (by decide))
      have K8 := h3 _ (rows 8 (by decide))
      have K11 := h3 _ (rows 11 (by decide))
      simp only [additionConstraints, List.getElem_cons_zero, List.getElem_cons_succ, committedPart, List.map_cons, List.map_nil, List.sum_cons, List.sum_nil, one_smul, add_zero,
        List.getD_cons_zero, List.getD_cons_succ, neg_neg, neg_smul, zero_add] at K0 K5 K7 K8 K11
      generalize hw : e.assignment additionCircuit = w at *
      have e1 : w.left 1 = e.committed 0 - e.committed 2 := by linear_combination -E0
      have e2 : w.out 1 = 1 := by linear_combination E2
      have e3 : w.left 2 = w.right 0 := by linear_combination -E3
      have e4 : w.right 2 = e.committed 2 - e.committed 0 := by linear_combination -E4
      have e5 : w.out 2 = e.committed 3 - e.committed 1 := by linear_combination E5
      have e6 : w.left 3 = w.right 0 := by linear_combination -E6
      have e7 : w.right 3 = e.committed 4 - e.committed 0 := by linear_combination -E7
      have e8 : w.out 3 = - e.committed 5 - e.committed 1 := by linear_combination E8
      have e9 : w.left 4 = w.right 0 := by linear_combination -E9
      have e10 : w.right 4 = w.right 0 := by linear_combination -E10
      have e11 : w.out 4 = e.committed 4 + e.committed 2 + e.committed 0 := by linear_combination -E11
      rw [e1, e2] at g1
      rw [e3, e4, e5] at g2
      rw [e6, e7, e8] at g3
      rw [e9, e10, e11] at g4
      have hne : e.committed 0 ≠ e.committed 2 := by
        intro h
        rw [h, sub_self, zero_mul] at g1
        exact zero_ne_one g1
      have h0 : e.committed 2 - e.committed 0 ≠ 0 := sub_ne_zero.2 (Ne.symm hne)
      have hd : (e.committed 3 - e.committed 1) / (e.committed 2 - e.committed 0) = w.right 0 := by
        rw [div_eq_iff h0, g2]
      have k0 : V0 = g.pc.commit (e.committed 0) (e.committedBl 0) := by
        have : (3 : F) • V0 = (3 : F) • g.pc.commit (e.committed 0) (e.committedBl 0) := by
          simp only [PedersenGens.commit, msm_cons, msm_nil, add_zero]
          linear_combination (norm := module) K11 - K7 + K0
        have := congrArg ((3 : F)⁻¹ • ·) this
        simpa only [smul_smul, inv_mul_cancel₀ hthree, one_smul] using this
      have k2 : V2 = g.pc.commit (e.committed 2) (e.committedBl 2) := by
        rw [k0] at K0
        simp only [PedersenGens.commit, msm_cons, msm_nil, add_zero] at *
        linear_combination (norm := module) -K0
      have k4 : V4 = g.pc.commit (e.committed 4) (e.committedBl 4) := by
        rw [k0] at K7
        simp only [PedersenGens.commit, msm_cons, msm_nil, add_zero] at *
        linear_combination (norm := module) K7
      have k3 : V3 - V1 = g.pc.commit (e.committed 3 - e.committed 1) (e.committedBl 3 - e.committedBl 1) := by
        simp only [PedersenGens.commit, msm_cons, msm_nil, add_zero]
        linear_combination (norm := module) -K5
      have k5 : V5 + V1 = g.pc.commit (e.committed 5 + e.committed 1) (e.committedBl 5 + e.committedBl 1) := by
        simp only [PedersenGens.commit, msm_cons, msm_nil, add_zero]
        linear_combination (norm := module) K8
      have q2 : (e.committed 3 - e.committed 1) / (e.committed 2 - e.committed 0) * (e.committed 4 - e.committed 0) = - (e.committed 5 + e.committed 1) := by
        rw [hd, g3]; ring
      have q3 : ((e.committed 3 - e.committed 1) / (e.committed 2 - e.committed 0)) ^ 2 = e.committed 4 + e.committed 2 + e.committed 0 := by
        rw [hd, ← g4]; ring
      refine ⟨k0, k2, k4, k3, k5, hne, q2, q3, fun yl b h1 => ⟨?_, ?_, fun C hl hr => ?_⟩⟩
      · rw [h1] at k3
        simp only [PedersenGens.commit, msm_cons, msm_nil, add_zero] at *
        linear_combination (norm := module) k3
      · rw [h1] at k5
        simp only [PedersenGens.commit, msm_cons, msm_nil, add_zero] at *
        linear_combination (norm := module) k5
      · exact C.add_of_chord (d := (e.committed 3 - e.committed 1) / (e.committed 2 - e.committed 0)) hl hr hne (by field_simp; ring) (by rw [q2]; ring) (by rw [← q3]; ring)

end CT
