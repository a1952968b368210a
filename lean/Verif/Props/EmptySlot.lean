import Verif.Proofs.SingleLevel
import Verif.Proofs.Curve19
import Verif.Proofs.Concrete
import Mathlib.Tactic.NormNum.LegendreSymbol

/-! # Property C33: an empty slot of the tree cannot be selected -/

namespace CT

/-- Base field of Pallas. -/
abbrev pallasP : Nat := 0x40000000000000000000000000000000224698fc094cf91b992d30ed00000001
/-- Base field of Vesta. -/
abbrev vestaP : Nat := 0x40000000000000000000000000000000224698fc0994a8dd8c46eb2100000001
/-- Base field of secp256k1. -/
abbrev secpP : Nat := 0xfffffffffffffffffffffffffffffffffffffffffffffffffffffffefffffc2f
/-- Base field of secq256k1. -/
abbrev secqP : Nat := 0xfffffffffffffffffffffffffffffffebaaedce6af48a03bbfd25e8cd0364141

theorem ne_of_not_isSquare {p : Nat} {b : Int} (h : ¬ IsSquare ((b : Int) : ZMod p)) (y : ZMod p) : y ^ 2 ≠ 0 ^ 3 + 0 * 0 + (b : Int) := by
  intro e
  exact h ⟨y, by rw [← sq, e]; ring⟩

/-- C33: no point of Pallas (`y² = x³ + 5`) has `x = 0`. -/
theorem C33_pallas (y : ZMod pallasP) : y ^ 2 ≠ 0 ^ 3 + 0 * 0 + 5 := by
  have := ne_of_not_isSquare (p := pallasP) (b := 5) (ZMod.nonsquare_of_jacobiSym_eq_neg_one (by norm_num)) y
  exact_mod_cast this

/-- C33: no point of Vesta (`y² = x³ + 5`) has `x = 0`. -/
theorem C33_vesta (y : ZMod vestaP) : y ^ 2 ≠ 0 ^ 3 + 0 * 0 + 5 := by
  have := ne_of_not_isSquare (p := vestaP) (b := 5) (ZMod.nonsquare_of_jacobiSym_eq_neg_one (by norm_num)) y
  exact_mod_cast this

/-- C33: no point of secp256k1 (`y² = x³ + 7`) has `x = 0`. -/
theorem C33_secp256k1 (y : ZMod secpP) : y ^ 2 ≠ 0 ^ 3 + 0 * 0 + 7 := by
  have := ne_of_not_isSquare (p := secpP) (b := 7) (ZMod.nonsquare_of_jacobiSym_eq_neg_one (by norm_num)) y
  exact_mod_cast this

/-- C33: no point of secq256k1 (`y² = x³ + 7`) has `x = 0`. -/
theorem C33_secq256k1 (y : ZMod secqP) : y ^ 2 ≠ 0 ^ 3 + 0 * 0 + 7 := by
  have := ne_of_not_isSquare (p := secqP) (b := 7) (ZMod.nonsquare_of_jacobiSym_eq_neg_one (by norm_num)) y
  exact_mod_cast this

section
variable {F : Type} [Field F] [DecidableEq F] {C : SWCurve F} {G X : Type}

/-- C33: on a curve with no point with `x = 0`, a satisfying assignment of one level of the path (the code, `fx = false`, as well as the repaired one) selects a child with an
x-coordinate that is not 0: `xv` is the variable holding the selected x-coordinate. So a slot that is empty, which is committed as 0, is never selected. -/
theorem C33_empty_slot (hx0 : ∀ y, ¬ C.OnCurve 0 y) (o : Oracle F G C.Pt) (fx : Bool) {prm : LayerParams C} {rc : C.Pt} {children : List (LC F)}
    {t t' : VState F G C.Pt} (hrun : runV o (singleLevel C fx prm rc children none none) t = .ok ((), t')) :
    ∃ xv : Variable, ∀ w : Assignment F, t'.SatisfiedBy w → (∃ lc ∈ children, w.eval lc = w.val xv) ∧ w.val xv ≠ 0 := by
  unfold singleLevel at hrun
  obtain ⟨_, s1, h1, g1⟩ := (runV_bind_ok o).1 hrun
  obtain ⟨xv, s2, h2, g2⟩ := (runV_bind_ok o).1 g1
  obtain ⟨⟨⟩, s3, h3, g3⟩ := (runV_bind_ok o).1 g2
  obtain ⟨yv, s4, h4, g4⟩ := (runV_bind_ok o).1 g3
  obtain ⟨⟨⟩, s5, h5, g5⟩ := (runV_bind_ok o).1 g4
  refine ⟨xv, fun w hs => ?_⟩
  obtain ⟨lc, hlc, e⟩ := select_sound o h3 (SatisfiedBy_of_run o g3 hs)
  rw [eval_ofVar] at e
  refine ⟨⟨lc, hlc, e⟩, fun h0 => hx0 (w.val yv) ?_⟩
  have hcc := curveCheck_sound o h5 (SatisfiedBy_of_run o g5 hs)
  rw [eval_ofVar, eval_ofVar, h0] at hcc
  unfold SWCurve.OnCurve
  rw [hcc]
  ring

/-- C33: the same for the batched level: none of the `M` selected x-coordinates is 0. -/
theorem C33_empty_slot_batched (hx0 : ∀ y, ¬ C.OnCurve 0 y) (o : Oracle F G X) (fx : Bool) (M : Nat) {prm : LayerParams C} {rc : C.Pt}
    {children : List (LC F)} {t t' : VState F G X}
    (hrun : runV o (singleLevelBatched C fx M prm rc children none none) t = .ok ((), t')) :
    ∃ xs : List Variable, xs.length = (chunksExact (children.length / M) children).length ∧ ∀ w : Assignment F, t'.SatisfiedBy w →
      ∀ (i : Nat) (xv : Variable) (ch : List (LC F)), xs[i]? = some xv → (chunksExact (children.length / M) children)[i]? = some ch →
        (∃ lc ∈ ch, w.eval lc = w.val xv) ∧ w.val xv ≠ 0 := by
  unfold singleLevelBatched at hrun
  split at hrun
  · exact absurd hrun (runV_panic o)
  obtain ⟨sum, s1, h1, g1⟩ := (runV_bind_ok o).1 hrun
  have key : ∀ (chunks : List (List (LC F))) (first : Bool) (ws : Option (List C.Pt)) (acc : PointRep C) (s s' : VState F G X) (r : PointRep C),
      runV o (batchedLoop C first chunks ws acc) s = .ok (r, s') →
      ∃ xs : List Variable, xs.length = chunks.length ∧ ∀ w : Assignment F, s'.SatisfiedBy w →
        ∀ (i : Nat) (xv : Variable) (ch : List (LC F)), xs[i]? = some xv → chunks[i]? = some ch →
          (∃ lc ∈ ch, w.eval lc = w.val xv) ∧ w.val xv ≠ 0 := by
    intro chunks
    induction chunks with
    | nil => intro first ws acc s s' r _; exact ⟨[], rfl, fun w _ i xv ch h => by simp at h⟩
    | cons ch chunks ih =>
      intro first ws acc s s' r hr
      simp only [batchedLoop] at hr
      obtain ⟨wr, a1, b1, hr⟩ := (runV_bind_ok o).1 hr
      obtain ⟨xv, a2, b2, hr⟩ := (runV_bind_ok o).1 hr
      obtain ⟨yv, a3, b3, hr⟩ := (runV_bind_ok o).1 hr
      obtain ⟨⟨⟩, a4, b4, hr4⟩ := (runV_bind_ok o).1 hr
      obtain ⟨⟨⟩, a5, b5, hr5⟩ := (runV_bind_ok o).1 hr4
      obtain ⟨sm, a6, b6, hr6⟩ := (runV_bind_ok o).1 hr5
      obtain ⟨xs, l1, l2⟩ := ih _ _ _ _ _ _ hr6
      refine ⟨xv :: xs, by simp [l1], fun w hw i xv' ch' hx hc => ?_⟩
      cases i with
      | succ i => exact l2 w hw i xv' ch' (by simpa using hx) (by simpa using hc)
      | zero =>
        simp only [List.getElem?_cons_zero, Option.some.injEq] at hx hc
        subst hx hc
        obtain ⟨lc, hlc, e⟩ := select_sound o b4 (SatisfiedBy_of_run o hr4 hw)
        rw [eval_ofVar] at e
        refine ⟨⟨lc, hlc, e⟩, fun h0 => hx0 (w.val yv) ?_⟩
        have hcc := curveCheck_sound o b5 (SatisfiedBy_of_run o hr5 hw)
        rw [eval_ofVar, eval_ofVar, h0] at hcc
        unfold SWCurve.OnCurve
        rw [hcc]
        ring
  obtain ⟨xs, l1, l2⟩ := key _ _ _ _ _ _ _ h1
  exact ⟨xs, l1, fun w hw => l2 w (SatisfiedBy_of_run o g1 hw)⟩

end

section
open Curve19

theorem curve19_no_zero_x : ∀ y, ¬ C.OnCurve 0 y := by decide +kernel

/-- Non-vacuity of `C33_empty_slot`: curve with 19 points, none with `x = 0`; a level with one empty slot (committed as 0). -/
example : ∃ (t' : VState (ZMod 19) Unit C.Pt) (xv : Variable),
    runV (fun _ => 0) (singleLevel C false (prm.layer false) (8 • h) [LC.const (C.xField (3 • h)), LC.const 0] none none) {} = .ok ((), t') ∧
    ∀ w : Assignment (ZMod 19), t'.SatisfiedBy w → w.val xv ≠ 0 := by
  have hok : isOk (runV (X := C.Pt) (G := Unit) (fun _ => 0)
      (singleLevel C false (prm.layer false) (8 • h) [LC.const (C.xField (3 • h)), LC.const 0] none none) {}) = true := by decide +kernel
  cases e : runV (X := C.Pt) (G := Unit) (fun _ => 0)
      (singleLevel C false (prm.layer false) (8 • h) [LC.const (C.xField (3 • h)), LC.const 0] none none) {} with
  | error e' => rw [e] at hok; simp [isOk] at hok
  | ok r =>
    obtain ⟨⟨⟩, t'⟩ := r
    obtain ⟨xv, hxv⟩ := C33_empty_slot curve19_no_zero_x _ _ e
    exact ⟨t', xv, rfl, fun w hw => (hxv w hw).2⟩

/-- Non-vacuity of `C33_empty_slot_batched`: two children per level, of which one is an empty slot. -/
example : ∃ (t' : VState (ZMod 19) Unit Unit),
    runV (fun _ => 0) (singleLevelBatched C false 2 (prm.layer false) (8 • h)
      [LC.const (C.xField (3 • h)), LC.const 0, LC.const 0, LC.const (C.xField (5 • h))] none none) {} = .ok ((), t') := by
  have hok : isOk (runV (X := Unit) (G := Unit) (fun _ => 0) (singleLevelBatched C false 2 (prm.layer false) (8 • h)
      [LC.const (C.xField (3 • h)), LC.const 0, LC.const 0, LC.const (C.xField (5 • h))] none none) {}) = true := by decide +kernel
  cases e : runV (X := Unit) (G := Unit) (fun _ => 0) (singleLevelBatched C false 2 (prm.layer false) (8 • h)
      [LC.const (C.xField (3 • h)), LC.const 0, LC.const 0, LC.const (C.xField (5 • h))] none none) {} with
  | error e' => rw [e] at hok; simp [isOk] at hok
  | ok r => exact ⟨r.2, rfl⟩

end

end CT
