import Verif.Proofs.CurveAdd
import Verif.Proofs.Tables
import Mathlib.Data.ZMod.Basic
import Mathlib.Algebra.Field.ZMod
import Mathlib.GroupTheory.OrderOfElement
import Mathlib.Tactic.NormNum.Prime

/-! A concrete curve for non-vacuity examples and counterexamples: `y² = x³ + 8` over `F_61`, of order
76, with the point `(1, 3)` of order 19 and the 2-torsion point `(28, 0)`. -/

namespace CT.Curve61

instance : Fact (Nat.Prime 61) := ⟨by norm_num⟩

/-- `y² = x³ + 8` over `F_61`. -/
def C : SWCurve (ZMod 61) := ⟨0, 8, by decide⟩

theorem on (x y : ZMod 61) (h : y ^ 2 = x ^ 3 + 0 * x + 8) : C.OnCurve x y := h

/-- The base point. -/
def h : C.Pt := C.pt (on 1 3 (by decide))
/-- A point of order two. -/
def d2 : C.Pt := C.pt (on 28 0 (by decide))

theorem on2 : C.OnCurve 44 6 := on _ _ (by decide)
theorem on3 : C.OnCurve 55 6 := on _ _ (by decide)
theorem on4 : C.OnCurve 50 18 := on _ _ (by decide)
theorem on8 : C.OnCurve 47 58 := on _ _ (by decide)
theorem on16 : C.OnCurve 55 55 := on _ _ (by decide)

theorem e2 : C.pt on2 = h + h := by
  obtain ⟨_, e⟩ := C.double_of_tangent (d := 31) (xo := 44) (yo := 6) (on 1 3 (by decide)) (by decide) (by decide) (by decide) (by decide)
  exact e
theorem e3 : C.pt on3 = C.pt on2 + h := by
  obtain ⟨_, e⟩ := C.add_of_chord (d := 10) (xo := 55) (yo := 6) on2 (on 1 3 (by decide)) (by decide) (by decide) (by decide) (by decide)
  exact e
theorem e4 : C.pt on4 = (C.pt on2) + (C.pt on2) := by
  obtain ⟨_, e⟩ := C.double_of_tangent (d := 57) (xo := 50) (yo := 18) (on 44 6 (by decide)) (by decide) (by decide) (by decide) (by decide)
  exact e
theorem e8 : C.pt on8 = (C.pt on4) + (C.pt on4) := by
  obtain ⟨_, e⟩ := C.double_of_tangent (d := 5) (xo := 47) (yo := 58) (on 50 18 (by decide)) (by decide) (by decide) (by decide) (by decide)
  exact e
theorem e16 : C.pt on16 = (C.pt on8) + (C.pt on8) := by
  obtain ⟨_, e⟩ := C.double_of_tangent (d := 24) (xo := 55) (yo := 55) (on 47 58 (by decide)) (by decide) (by decide) (by decide) (by decide)
  exact e

theorem h19 : (19 : ℤ) • h = 0 := by
  have e : C.pt on16 + C.pt on3 = 0 := by
    obtain ⟨h', e⟩ := C.neg_pt on3
    have : C.pt on16 = - C.pt on3 := by rw [← e, C.pt_inj]; exact ⟨rfl, by decide⟩
    rw [this, neg_add_cancel]
  rw [e16, e8, e4, e3, e2] at e
  rw [← e]
  abel

theorem order_h : addOrderOf h = 19 :=
  haveI : Fact (Nat.Prime 19) := ⟨by norm_num⟩
  addOrderOf_eq_prime (by rw [← natCast_zsmul]; exact h19) (C.pt_ne_zero _)

theorem smul_h_eq_zero {z : ℤ} : z • h = 0 ↔ (19 : ℤ) ∣ z := by
  rw [← addOrderOf_dvd_iff_zsmul_eq_zero, order_h]; rfl

theorem d2_add : d2 + d2 = 0 := by
  have : d2 = - d2 := by
    obtain ⟨h', e⟩ := C.neg_pt (on 28 0 (by decide))
    exact Eq.trans (C.pt_inj.2 ⟨rfl, by decide⟩) e
  rw [add_eq_zero_iff_eq_neg]; exact this

theorem d2_notin : d2 ∉ AddSubgroup.zmultiples h := by
  intro hm
  obtain ⟨z, hz⟩ := AddSubgroup.mem_zmultiples_iff.1 hm
  have h1 : (19 : ℤ) • d2 = 0 := by rw [← hz, smul_smul, mul_comm, mul_smul, h19, smul_zero]
  have h2 : (19 : ℤ) • d2 = d2 := by
    have : (19 : ℤ) • d2 = (9 : ℤ) • (d2 + d2) + d2 := by abel
    rw [this, d2_add, smul_zero, zero_add]
  rw [h2] at h1
  exact C.pt_ne_zero _ h1

/-- Tables for `λ = 6` exist. -/
theorem tables : ∃ ts, buildTables C (windows 6) h = some ts :=
  buildTables_isSome fun k hk j hj => by
    rw [ne_eq, smul_h_eq_zero]
    have : ∀ k < 3, ∀ j < 8, ¬ (19 : ℤ) ∣ tableScalar 3 (k + 1) j := by decide
    exact this k hk j hj

end CT.Curve61
