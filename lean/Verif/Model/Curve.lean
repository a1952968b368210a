import Mathlib.AlgebraicGeometry.EllipticCurve.Affine.Point
import Mathlib.Tactic.Ring
import Mathlib.Tactic.LinearCombination
import Mathlib.Tactic.FieldSimp

/-!
# Short Weierstrass curves

`SWCurveConfig` / `Affine<P>` of ark-ec (external crate). A curve is given by its two coefficients;
the points are Mathlib's nonsingular affine points together with the point at infinity, with
Mathlib's group law.
-/

namespace CT

/-- A short Weierstrass curve `y² = x³ + a x + b` over `F` (ark-ec `SWCurveConfig`: `COEFF_A`,
`COEFF_B`), with non-zero discriminant. -/
structure SWCurve (F : Type) [Field F] where
  a : F
  b : F
  disc : -16 * (4 * a ^ 3 + 27 * b ^ 2) ≠ 0

namespace SWCurve
variable {F : Type} [Field F] (C : SWCurve F)

/-- The Mathlib curve. -/
def W : WeierstrassCurve.Affine F := ⟨0, 0, 0, C.a, C.b⟩

/-- Points of the curve (ark-ec `Affine<P>`). -/
abbrev Pt := C.W.Point

/-- The curve equation (ark-ec `is_on_curve`). -/
def OnCurve (x y : F) : Prop := y ^ 2 = x ^ 3 + C.a * x + C.b

instance [DecidableEq F] (x y : F) : Decidable (C.OnCurve x y) := by
  unfold OnCurve; infer_instance

theorem equation_iff (x y : F) : C.W.Equation x y ↔ C.OnCurve x y := by
  rw [WeierstrassCurve.Affine.equation_iff]
  simp [W, OnCurve]

theorem nonsingular {x y : F} (h : C.OnCurve x y) : C.W.Nonsingular x y := by
  refine (WeierstrassCurve.Affine.equation_iff_nonsingular_of_Δ_ne_zero ?_).1
    ((C.equation_iff x y).2 h)
  have := C.disc
  simp only [W, WeierstrassCurve.Δ, WeierstrassCurve.b₂, WeierstrassCurve.b₄, WeierstrassCurve.b₆,
    WeierstrassCurve.b₈]
  intro h0
  apply this
  linear_combination h0

/-- `Affine::new_unchecked` on coordinates known to be on the curve. -/
def pt {x y : F} (h : C.OnCurve x y) : C.Pt := .some x y (C.nonsingular h)

/-- `P.x().unwrap()`: `none` (a panic) for the point at infinity. -/
def x? : C.Pt → Option F
  | .zero => none
  | .some x _ _ => some x

/-- `P.y().unwrap()`: `none` (a panic) for the point at infinity. -/
def y? : C.Pt → Option F
  | .zero => none
  | .some _ y _ => some y

/-- The raw struct field `P.x`; ark-ec stores `0` for the point at infinity. -/
def xField : C.Pt → F
  | .zero => 0
  | .some x _ _ => x

/-- The raw struct field `P.y`; ark-ec stores `0` for the point at infinity. -/
def yField : C.Pt → F
  | .zero => 0
  | .some _ y _ => y

/-- `Affine::new(x, y)`: panics (`none`) unless the coordinates are on the curve. (The subgroup check
of ark-ec is trivial for the prime order curves used.) -/
def new? [DecidableEq F] (x y : F) : Option C.Pt :=
  if h : C.OnCurve x y then some (C.pt h) else none

end SWCurve

end CT
