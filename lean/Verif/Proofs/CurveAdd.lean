import Verif.Model.Curve

/-! The chord equations and Mathlib's group law. -/

namespace CT
namespace SWCurve
open WeierstrassCurve.Affine

set_option linter.unusedSectionVars false

variable {F : Type} [Field F] [DecidableEq F] (C : SWCurve F)

theorem pt_inj {x y x' y' : F} {h : C.OnCurve x y} {h' : C.OnCurve x' y'} :
    C.pt h = C.pt h' ↔ x = x' ∧ y = y' := by
  unfold pt
  constructor
  · intro e; cases e; exact ⟨rfl, rfl⟩
  · rintro ⟨rfl, rfl⟩; rfl

/-- The chord slope equations determine the sum. -/
theorem add_of_chord {xl yl xr yr xo yo d : F} (hl : C.OnCurve xl yl) (hr : C.OnCurve xr yr)
    (hne : xl ≠ xr) (h1 : d * (xr - xl) = yr - yl) (h2 : d * (xo - xl) = -yo - yl)
    (h3 : d * d = xo + xr + xl) : ∃ ho : C.OnCurve xo yo, C.pt ho = C.pt hl + C.pt hr := by
  have hs : C.W.slope xl xr yl yr = d := by
    rw [slope_of_X_ne hne]
    have : xl - xr ≠ 0 := sub_ne_zero.2 hne
    field_simp
    linear_combination h1
  have e := Point.add_of_X_ne (h₁ := C.nonsingular hl) (h₂ := C.nonsingular hr) hne
  have ex : C.W.addX xl xr (C.W.slope xl xr yl yr) = xo := by
    rw [hs]; simp only [addX, W]; linear_combination h3
  have ey : C.W.addY xl xr yl (C.W.slope xl xr yl yr) = yo := by
    rw [addY, negAddY, ex, hs]; simp only [negY, W]; linear_combination -h2
  have key : ∀ (x y : F) (h : C.W.Nonsingular x y), x = xo → y = yo →
      ∃ ho : C.OnCurve xo yo, C.pt ho = Point.some x y h := by
    rintro x y h rfl rfl
    exact ⟨(C.equation_iff _ _).1 h.1, rfl⟩
  obtain ⟨ho, h⟩ := key _ _ _ ex ey
  exact ⟨ho, h.trans e.symm⟩

/-- The tangent equations determine the double. -/
theorem double_of_tangent {x y xo yo d : F} (h : C.OnCurve x y) (hy : y + y ≠ 0)
    (h1 : d * (y + y) = 3 * x ^ 2 + C.a) (h2 : d * (xo - x) = -yo - y)
    (h3 : d * d = xo + x + x) : ∃ ho : C.OnCurve xo yo, C.pt ho = C.pt h + C.pt h := by
  have hy' : y ≠ C.W.negY x y := by
    simp only [negY, W]; intro e; apply hy; linear_combination e
  have hs : C.W.slope x x y y = d := by
    rw [slope_of_Y_ne rfl hy']
    simp only [negY, W]
    have : y - (-y - 0 * x - 0) ≠ 0 := by intro e; apply hy; linear_combination e
    rw [div_eq_iff this]
    linear_combination -h1
  have e := Point.add_self_of_Y_ne (h₁ := C.nonsingular h) hy'
  have ex : C.W.addX x x (C.W.slope x x y y) = xo := by
    rw [hs]; simp only [addX, W]; linear_combination h3
  have ey : C.W.addY x x y (C.W.slope x x y y) = yo := by
    rw [addY, negAddY, ex, hs]; simp only [negY, W]; linear_combination -h2
  have key : ∀ (x y : F) (h : C.W.Nonsingular x y), x = xo → y = yo →
      ∃ ho : C.OnCurve xo yo, C.pt ho = Point.some x y h := by
    rintro x y h rfl rfl
    exact ⟨(C.equation_iff _ _).1 h.1, rfl⟩
  obtain ⟨ho, h'⟩ := key _ _ _ ex ey
  exact ⟨ho, h'.trans e.symm⟩

/-- The sum of two points with different x satisfies the chord equations. -/
theorem chord_of_add {xl yl xr yr : F} (hl : C.OnCurve xl yl) (hr : C.OnCurve xr yr)
    (hne : xl ≠ xr) : ∃ xo yo, ∃ ho : C.OnCurve xo yo, C.pt hl + C.pt hr = C.pt ho ∧
      (yr - yl) / (xr - xl) * (xr - xl) = yr - yl ∧
      (yr - yl) / (xr - xl) * (xo - xl) = -yo - yl ∧
      (yr - yl) / (xr - xl) * ((yr - yl) / (xr - xl)) = xo + xr + xl := by
  let d := (yr - yl) / (xr - xl)
  have h0 : xr - xl ≠ 0 := sub_ne_zero.2 hne.symm
  have h1 : d * (xr - xl) = yr - yl := by simp only [d]; field_simp
  obtain ⟨ho, e⟩ := C.add_of_chord (xo := d * d - xr - xl) (yo := -yl - d * (d * d - xr - xl - xl))
    hl hr hne h1 (by ring) (by ring)
  exact ⟨_, _, ho, e.symm, h1, by simp only [d]; ring, by simp only [d]; ring⟩

theorem neg_pt {x y : F} (h : C.OnCurve x y) :
    ∃ h' : C.OnCurve x (-y), C.pt h' = - C.pt h := by
  refine ⟨by unfold OnCurve at *; linear_combination h, ?_⟩
  unfold pt
  rw [Point.neg_some]
  have key : ∀ (y1 y2 : F) (h1 : C.W.Nonsingular x y1) (h2 : C.W.Nonsingular x y2), y1 = y2 →
      (Point.some x y1 h1 : C.Pt) = Point.some x y2 h2 := by rintro _ _ _ _ rfl; rfl
  exact key _ _ _ _ (by simp [negY, W])

/-- Two points with the same x are equal or opposite. -/
theorem eq_or_neg_of_x {x y y' : F} (h : C.OnCurve x y) (h' : C.OnCurve x y') :
    C.pt h' = C.pt h ∨ C.pt h' = - C.pt h := by
  have : (y' - y) * (y' + y) = 0 := by
    unfold OnCurve at h h'; linear_combination h' - h
  rcases mul_eq_zero.1 this with e | e
  · left; rw [pt_inj]; exact ⟨rfl, by linear_combination e⟩
  · right
    obtain ⟨h'', e'⟩ := C.neg_pt h
    rw [← e', pt_inj]; exact ⟨rfl, by linear_combination e⟩

/-- The chord equations read backwards: if the known operand `t` and the output `o` are on the curve,
then the other operand is too, and `o` is the sum, unless `o = -t`. No assumption on the slope. -/
theorem chord_back {xr yr xt yt xo yo d : F} (ht : C.OnCurve xt yt) (ho : C.OnCurve xo yo)
    (h1 : d * (xt - xr) = yt - yr) (h2 : d * (xo - xr) = -yo - yr)
    (h3 : d * d = xo + xt + xr) :
    C.pt ho = - C.pt ht ∨ ∃ hr : C.OnCurve xr yr, C.pt ho = C.pt hr + C.pt ht := by
  by_cases hx : xo = xt
  · left
    obtain ⟨h', e⟩ := C.neg_pt ht
    rw [← e, pt_inj]
    exact ⟨hx, by rw [hx] at h2; linear_combination h2 - h1⟩
  · right
    obtain ⟨hn, en⟩ := C.neg_pt ho
    obtain ⟨h', e⟩ := C.add_of_chord (xo := xr) (yo := -yr) (d := d) ht hn (Ne.symm hx)
      (by linear_combination h2 - h1) (by linear_combination -h1) (by linear_combination h3)
    obtain ⟨h'', e'⟩ := C.neg_pt h'
    rw [neg_neg] at h''
    refine ⟨h'', ?_⟩
    have : C.pt h'' = - C.pt h' := by
      rw [← e', C.pt_inj]; exact ⟨rfl, by ring⟩
    rw [this, e, en]
    abel

@[simp] theorem x?_pt {x y : F} (h : C.OnCurve x y) : C.x? (C.pt h) = some x := rfl
@[simp] theorem y?_pt {x y : F} (h : C.OnCurve x y) : C.y? (C.pt h) = some y := rfl
@[simp] theorem xField_pt {x y : F} (h : C.OnCurve x y) : C.xField (C.pt h) = x := rfl
@[simp] theorem yField_pt {x y : F} (h : C.OnCurve x y) : C.yField (C.pt h) = y := rfl
@[simp] theorem new?_pt {x y : F} (h : C.OnCurve x y) : C.new? x y = some (C.pt h) := by
  simp [new?, h]

/-- Every point other than infinity has coordinates. -/
theorem cases_pt (P : C.Pt) : P = 0 ∨ ∃ x y, ∃ h : C.OnCurve x y, P = C.pt h := by
  cases P with
  | zero => exact .inl rfl
  | some x y h => exact .inr ⟨x, y, (C.equation_iff _ _).1 h.1, rfl⟩

theorem pt_ne_zero {x y : F} (h : C.OnCurve x y) : C.pt h ≠ 0 := by
  intro e; cases e

@[simp] theorem x?_zero : C.x? 0 = none := rfl
@[simp] theorem y?_zero : C.y? 0 = none := rfl
@[simp] theorem xField_zero : C.xField 0 = 0 := rfl
@[simp] theorem yField_zero : C.yField 0 = 0 := rfl

end SWCurve
end CT
