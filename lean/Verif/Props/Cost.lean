import Verif.Proofs.Cost
import Verif.Model.TreeGadgets
import Verif.Proofs.Concrete
import Verif.Proofs.Curve19

/-! # Property C39: the cost of the gadgets is fixed

For each gadget the number of multipliers and constraints added, as reported by `metrics()`, is a formula in public sizes; it is the same for the
Prover and the Verifier, for all witnesses and states. See `FixedCost` in `Verif/Spec/Cost.lean`. -/

namespace CT

section
variable {F G X : Type} [Field F]

/-- C39: selecting from `n` elements. -/
theorem C39_select (x : LC F) (xs : List (LC F)) :
    FixedCost (select x xs : Prog F G X Unit) (xs.length - 1) 0 (2 * (xs.length - 1) + 1) := (costs_select x xs).fixed

/-- C39: a range proof of `n` bits. -/
theorem C39_range_proof (v : LC F) (q : Option Nat) (n : Nat) :
    FixedCost (rangeProof v q n : Prog F G X Unit) n 0 (2 * n + 1) := (costs_rangeProof v q n).fixed

/-- C39: a lookup in a table with 3-bit index. -/
theorem C39_lookup (tx ty : Row F) (i : Option Nat) : FixedCost (lookup tx ty i : Prog F G X (LC F × LC F)) 6 0 12 :=
  (costs_lookup tx ty i).fixed

/-- C39: the curve equation. -/
theorem C39_curve_check (x y : LC F) (a b : F) : FixedCost (curveCheck x y a b : Prog F G X Unit) 3 0 7 := (costs_curveCheck x y a b).fixed

/-- C39: the two additions of points. -/
theorem C39_additions [DecidableEq F] (C : SWCurve F) (l r : PointRep C) :
    FixedCost (incompleteCurveAdditionHelper C l r : Prog F G X _) 3 3 9 ∧
    FixedCost (checkedCurveAdditionHelper C l r : Prog F G X _) 4 4 12 :=
  ⟨(costs_incompleteHelper C l r).fixed, (costs_checkedHelper C l r).fixed⟩

variable [DecidableEq F]

/-- C39: re-randomisation for scalars of `lambda` bits. -/
theorem C39_re_randomize (C : SWCurve F) (lambda : Nat) (h3 : 3 ≤ lambda) (tables : List (Table F)) (c : PointRep C) (xT yT : LC F)
    (r : Option Nat) :
    FixedCost (reRandomize C false lambda tables c xT yT r : Prog F G X Unit) (9 * (lambda / 3) + 11) (3 * (lambda / 3) + 5)
      (21 * (lambda / 3) + 27) := (costs_reRandomize C false lambda h3 tables c xT yT r).fixed

/-- C39: one level of the path. -/
theorem C39_single_level (C : SWCurve F) (prm : LayerParams C) (h3 : 3 ≤ prm.lambda) (rc : C.Pt) (children : List (LC F))
    (w : Option C.Pt) (r : Option Nat) :
    FixedCost (singleLevel C false prm rc children w r : Prog F G C.Pt Unit)
      (children.length - 1 + 9 * (prm.lambda / 3) + 14) (3 * (prm.lambda / 3) + 7)
      (2 * (children.length - 1) + 21 * (prm.lambda / 3) + 35) := (costs_singleLevel C false prm h3 rc children w r).fixed

/-- C39: one level of a batched path, with `M` trees of branching factor `n`. -/
theorem C39_single_level_batched (C : SWCurve F) {M n : Nat} (hM : M ≠ 0) (hn : n ≠ 0) (prm : LayerParams C) (h3 : 3 ≤ prm.lambda)
    (rc : C.Pt) (children : List (LC F)) (hl : children.length = M * n) (w : Option (List C.Pt)) (r : Option Nat) :
    FixedCost (singleLevelBatched C false M prm rc children w r : Prog F G X Unit)
      ((n - 1 + 7) * M + 9 * (prm.lambda / 3) + 7) (6 * M + 3 * (prm.lambda / 3) + 1)
      ((2 * (n - 1) + 20) * M + 21 * (prm.lambda / 3) + 15) :=
  (costs_singleLevelBatched C false M n hM hn prm h3 rc children hl w r).fixed

/-- With 255-bit scalars (the Pasta curves) and no half-used multiplier, a level with `L` children takes `L + 909` multipliers and
`2 L + 1818` constraints. -/
theorem C39_single_level_255 (C : SWCurve F) (prm : LayerParams C) (h : prm.lambda = 255) (rc : C.Pt) (children : List (LC F))
    (hc : children ≠ []) (o : Oracle F G C.Pt) (s s' : VState F G C.Pt) (hs : s.pending = none)
    (hr : runV o (singleLevel C false prm rc children none none) s = .ok ((), s')) :
    s'.metrics.multipliers = s.metrics.multipliers + children.length + 909 ∧
    s'.metrics.constraints = s.metrics.constraints + 2 * children.length + 1818 := by
  have hpos := List.length_pos_iff.2 hc
  obtain ⟨h1, h2, -⟩ := (C39_single_level (G := G) C prm (by omega) rc children none none).verifier o s () s' hr
  rw [hs] at h1
  rw [h, show 255 / 3 = 85 from rfl] at h1 h2
  simp only [spare, Option.isSome_none, Bool.false_eq_true, if_false] at h1
  norm_num at h1 h2
  constructor
  · rw [h1]; clear * - hpos; omega
  · rw [h2]; clear * - hpos; omega

end

section
variable {B : Bool → Type} [∀ p, Field (B p)] [∀ p, DecidableEq (B p)] {C : ∀ p, SWCurve (B p)} {L M : Nat} [NeZero M]

theorem rootSiblings_length {prm : SelRerand C} {p : Bool} {T : CurveTree L M (Pts C)} {xs : List (B (!p))}
    (h : rootSiblings prm p T = .ok xs) : xs.length = L := by
  unfold rootSiblings at h
  split at h
  · cases h; exact List.length_ofFn
  · cases h; exact List.length_ofFn
  · cases h

theorem verifierLoop_grows {p : Bool} {o : SideO C p} {prm : SelRerand C} (h3 : 3 ≤ (prm.layer (!p)).lambda) {T : CurveTree L M (Pts C)}
    {rootHere : Bool} {child : Nat → Option (C (!p)).Pt} (ps : List (C p).Pt) :
    ∀ {i : Nat} {s s' : SideV C p}, verifierLoop o false prm T rootHere child i ps s = .ok s' →
      s.Grows s' ((L - 1 + 9 * ((prm.layer (!p)).lambda / 3) + 14) * ps.length) ((3 * ((prm.layer (!p)).lambda / 3) + 7) * ps.length)
        ((2 * (L - 1) + 21 * ((prm.layer (!p)).lambda / 3) + 35) * ps.length) := by
  induction ps with
  | nil =>
    intro i s s' h
    simp only [verifierLoop, Except.ok.injEq] at h
    subst h
    exact .refl s
  | cons P ps ih =>
    intro i s s' h
    simp only [verifierLoop] at h
    split at h
    · cases h
    split at h
    · cases h
    rename_i children s1 hc
    split at h
    · cases h
    rename_i x s2 hr
    have h1 := (costs_singleLevel (C (!p)) false (prm.layer (!p)) h3 _ children none none).growsV hr
    have h2 := ih h
    have h0 : children.length = L ∧ s.Grows s1 0 0 0 := by
      unfold verifierChildren at hc
      split at hc
      · cases hx : rootSiblings prm p T with
        | error e => rw [hx] at hc; cases hc
        | ok xs =>
          rw [hx] at hc
          cases hc
          exact ⟨by rw [List.length_map]; exact rootSiblings_length hx, .refl _⟩
      · cases hc
        exact ⟨by simp [VState.commitVec], .refl _⟩
    rw [h0.1] at h1
    have h4 := (h0.2.trans h1).trans h2
    simp only [zero_add, Bool.false_eq_true, if_false, add_zero] at h4
    have e : ∀ a n : Nat, a + a * n = a * (n + 1) := fun a n => by rw [Nat.mul_succ, Nat.add_comm]
    rw [e, e, e] at h4
    exact h4

/-- C39: the path gadget of the Verifier. On each curve the cost is that of one level times the number of parents of that curve on the path
(the root included). -/
theorem C39_path {oE : SideO C false} {oO : SideO C true} {prm : SelRerand C} (h3 : ∀ p, 3 ≤ (prm.layer p).lambda) {T : CurveTree L M (Pts C)}
    {path : Path (C false).Pt (C true).Pt} {sE sE' : SideV C false} {sO sO' : SideV C true} {sel : (C false).Pt}
    (h : treeVerifierGadget oE oO false prm T path sE sO = .ok (sel, sE', sO')) :
    ∃ nE nO, (match T with
      | .even _ => nE = path.even.length + 1 ∧ nO = path.odd.length
      | .odd _ => nE = path.even.length ∧ nO = path.odd.length + 1) ∧
      sE.metrics.Grows sE'.metrics (spare sE.pending) ((L - 1 + 9 * ((prm.layer true).lambda / 3) + 14) * nE)
        ((3 * ((prm.layer true).lambda / 3) + 7) * nE) ((2 * (L - 1) + 21 * ((prm.layer true).lambda / 3) + 35) * nE) ∧
      sO.metrics.Grows sO'.metrics (spare sO.pending) ((L - 1 + 9 * ((prm.layer false).lambda / 3) + 14) * nO)
        ((3 * ((prm.layer false).lambda / 3) + 7) * nO) ((2 * (L - 1) + 21 * ((prm.layer false).lambda / 3) + 35) * nO) := by
  unfold treeVerifierGadget at h
  split at h
  · cases h
  rename_i path' hp
  split at h
  · cases h
  rename_i s1 hE
  split at h
  · cases h
  rename_i s2 hO
  simp only [Except.ok.injEq, Prod.mk.injEq] at h
  obtain ⟨-, rfl, rfl⟩ := h
  refine ⟨path'.even.length, path'.odd.length, ?_, ?_, ?_⟩
  · unfold addRoot at hp
    cases T with
    | even n => simp only at hp ⊢; split at hp <;> cases hp; exact ⟨rfl, rfl⟩
    | odd n => simp only at hp ⊢; split at hp <;> cases hp; exact ⟨rfl, rfl⟩
  · unfold evenVerifierGadget at hE
    split at hE
    · cases hE
    exact (verifierLoop_grows (h3 true) _ hE).1
  · unfold oddVerifierGadget at hO
    split at hO
    · cases hO
    exact (verifierLoop_grows (h3 false) _ hO).1

end

section Example
open Curve19

/-- Non-vacuity of `C39_single_level` and `FixedCost` in general: a Prover's run that returns, with a half-used multiplier before it. The metrics computed
by the kernel agree with the formula. -/
example : ∃ s', runP (o true) (do let _ ← allocate (some 1); select (LC.const 5) [LC.const 2, LC.const 5, LC.const 7]
                                  let _ ← allocate (some 2); rangeProof (LC.const 5) (some 5) 3)
      ({} : PState (ZMod 19) C.Pt C.Pt) = .ok ((), s') ∧
    s'.metrics = ⟨0 + (2 + 3) + (2 + 1 - 0) / 2, 0 + (2 * 2 + 1) + (2 * 3 + 1), 12, 0⟩ := by
  refine ⟨okOr (runP (o true) (do let _ ← allocate (some 1); select (LC.const 5) [LC.const 2, LC.const 5, LC.const 7]
                                  let _ ← allocate (some 2); rangeProof (LC.const 5) (some 5) 3)
      ({} : PState (ZMod 19) C.Pt C.Pt)) |>.2, eq_ok ?_, ?_⟩ <;> decide +kernel

/-- Non-vacuity of `C39_path`: the run of `C23_honest_path_accepted` on the tree of height 2 returns (see `accepted`). -/
example : ∃ path sel sE sO, treeVerifierGadget (o false) (o true) false prm T path (.new []) (.new []) = .ok (sel, sE, sO) := by
  obtain ⟨path, r, sE, sO, x, tE, tO, pE, trE, pO, trO, h1, h2, h3⟩ :=
    accepted_iff (rnd := rnd) (T := T) (nodes := nodes) (a := 1) (b := 1) (by decide +kernel)
  exact ⟨path, x, tE, tO, h2⟩

end Example
end CT
