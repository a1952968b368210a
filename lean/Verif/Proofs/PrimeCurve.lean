import Mathlib.Algebra.Field.ZMod
import Mathlib.Algebra.Module.ZMod
import Mathlib.FieldTheory.Finite.Basic
import Mathlib.GroupTheory.OrderOfElement
import Mathlib.GroupTheory.Perm.Cycle.Type
import Mathlib.NumberTheory.LucasPrimality
import Mathlib.SetTheory.Cardinal.Finite
import Verif.Model.Curve

/-!
# Curves of prime order

How to check that a curve `y² = x³ + b` over a prime field has a given prime order: a chain of doublings and additions shows that a point `G` has this order, there are at most two
points for every x-coordinate, and there is no point of order two.
-/

namespace CT

/-- Lucas' test with a list of the prime factors of `p - 1`. -/
theorem prime_of_factors {p : Nat} (a : ZMod p) (fs : List Nat) (hf : ∀ f ∈ fs, f.Prime) (hp : p - 1 = fs.prod) (h1 : a ^ (p - 1) = 1)
    (h2 : ∀ f ∈ fs, a ^ ((p - 1) / f) ≠ 1) : p.Prime := by
  refine lucas_primality p a h1 fun q hq hd => ?_
  rw [hp] at hd
  obtain ⟨f, hm, hqf⟩ := (Prime.dvd_prod_iff hq.prime).1 hd
  have := (Nat.prime_dvd_prime_iff_eq hq (hf f hm)).1 hqf
  subst this
  exact h2 _ hm

section Chain
variable {F : Type} [Field F] [DecidableEq F] (C : SWCurve F)

/-- `P` has the coordinates `x`, `y`. -/
def SWCurve.At (P : C.Pt) (x y : F) : Prop := ∃ h : C.W.Nonsingular x y, P = .some x y h

variable {C}

theorem SWCurve.At.add {P Q : C.Pt} {x y gx gy x3 y3 : F} (hP : C.At P x y) (hQ : C.At Q gx gy) (hx : x ≠ gx)
    (h1 : (x - gx) * (y3 + y) = (y - gy) * (x - x3)) (h2 : (x - gx) ^ 2 * (x3 + x + gx) = (y - gy) ^ 2) : C.At (P + Q) x3 y3 := by
  obtain ⟨hp, rfl⟩ := hP
  obtain ⟨hq, rfl⟩ := hQ
  have hne : ¬ (x = gx ∧ y = C.W.negY gx gy) := fun h => hx h.1
  have hd : x - gx ≠ 0 := sub_ne_zero.2 hx
  rw [WeierstrassCurve.Affine.Point.add_some hne]
  have ex : C.W.addX x gx (C.W.slope x gx y gy) = x3 := by
    rw [WeierstrassCurve.Affine.slope_of_X_ne hx]
    simp only [WeierstrassCurve.Affine.addX, SWCurve.W]
    field_simp
    linear_combination -h2
  have ey : C.W.addY x gx y (C.W.slope x gx y gy) = y3 := by
    simp only [WeierstrassCurve.Affine.addY, WeierstrassCurve.Affine.negAddY, WeierstrassCurve.Affine.negY, ex]
    rw [WeierstrassCurve.Affine.slope_of_X_ne hx]
    simp only [SWCurve.W]
    field_simp
    linear_combination -h1
  have key : ∀ (u v : F) (h : C.W.Nonsingular u v), u = x3 → v = y3 → C.At (.some u v h) x3 y3 := by
    rintro u v h rfl rfl; exact ⟨h, rfl⟩
  exact key _ _ _ ex ey

theorem SWCurve.At.double (ha : C.a = 0) {P : C.Pt} {x y x3 y3 : F} (hP : C.At P x y) (hy : 2 * y ≠ 0)
    (h1 : 2 * y * (y3 + y) = 3 * x ^ 2 * (x - x3)) (h2 : (2 * y) ^ 2 * (x3 + 2 * x) = (3 * x ^ 2) ^ 2) : C.At (P + P) x3 y3 := by
  obtain ⟨hp, rfl⟩ := hP
  have hneg : y ≠ C.W.negY x y := by
    simp only [WeierstrassCurve.Affine.negY, SWCurve.W]
    intro h
    exact hy (by linear_combination h)
  have hne : ¬ (x = x ∧ y = C.W.negY x y) := fun h => hneg h.2
  rw [WeierstrassCurve.Affine.Point.add_some hne]
  have hs : C.W.slope x x y y = 3 * x ^ 2 / (2 * y) := by
    rw [WeierstrassCurve.Affine.slope_of_Y_ne rfl hneg]
    simp only [WeierstrassCurve.Affine.negY, SWCurve.W, ha]
    congr 1 <;> ring
  have ex : C.W.addX x x (C.W.slope x x y y) = x3 := by
    rw [hs]
    simp only [WeierstrassCurve.Affine.addX, SWCurve.W]
    have hy0 : y ≠ 0 := right_ne_zero_of_mul hy
    have h20 : (2 : F) ≠ 0 := left_ne_zero_of_mul hy
    field_simp
    linear_combination -h2
  have ey : C.W.addY x x y (C.W.slope x x y y) = y3 := by
    simp only [WeierstrassCurve.Affine.addY, WeierstrassCurve.Affine.negAddY, WeierstrassCurve.Affine.negY, ex]
    rw [hs]
    simp only [SWCurve.W]
    have hy0 : y ≠ 0 := right_ne_zero_of_mul hy
    have h20 : (2 : F) ≠ 0 := left_ne_zero_of_mul hy
    field_simp
    linear_combination -h1
  have key : ∀ (u v : F) (h : C.W.Nonsingular u v), u = x3 → v = y3 → C.At (.some u v h) x3 y3 := by
    rintro u v h rfl rfl; exact ⟨h, rfl⟩
  exact key _ _ _ ex ey

end Chain

/-- A chain of points with integer coordinates modulo `p`: from `(x, y)`, each next point is the previous one doubled (`false`) or with `(gx, gy)` added (`true`). -/
def chainOk (p gx gy : Nat) : Nat → Nat → List (Bool × Nat × Nat) → Bool
  | _, _, [] => true
  | x, y, (false, x3, y3) :: l =>
    ((2 * y) % p != 0) && ((2 * y * (y3 + y) + 3 * x * x * x3) % p == (3 * x * x * x) % p) &&
      ((4 * y * y * (x3 + 2 * x)) % p == (9 * x * x * x * x) % p) && chainOk p gx gy x3 y3 l
  | x, y, (true, x3, y3) :: l =>
    (x % p != gx % p) && ((x * (y3 + y) + y * x3 + gy * x) % p == (gx * (y3 + y) + y * x + gy * x3) % p) &&
      (((x * x + gx * gx) * (x3 + x + gx) + 2 * y * gy) % p == (2 * x * gx * (x3 + x + gx) + y * y + gy * gy) % p) && chainOk p gx gy x3 y3 l

/-- The multiple of `G` at the end of the chain. -/
def chainScalar : Nat → List (Bool × Nat × Nat) → Nat
  | n, [] => n
  | n, (false, _) :: l => chainScalar (2 * n) l
  | n, (true, _) :: l => chainScalar (n + 1) l

/-- The point at the end of the chain. -/
def chainEnd : Nat × Nat → List (Bool × Nat × Nat) → Nat × Nat
  | e, [] => e
  | _, (_, e) :: l => chainEnd e l

/-- The denominators of the chain are coprime to `p`. -/
def chainCoprime (p gx : Nat) : Nat → Nat → List (Bool × Nat × Nat) → Bool
  | _, _, [] => true
  | _, y, (false, x3, y3) :: l => (Nat.gcd (2 * y) p == 1) && chainCoprime p gx x3 y3 l
  | x, _, (true, x3, y3) :: l => (Nat.gcd (x + (p - gx)) p == 1) && chainCoprime p gx x3 y3 l

/-- Such a chain is a chain modulo every divisor of `p`. -/
theorem chainOk_of_dvd {p f gx gy : Nat} (hf : f ∣ p) (h1 : f ≠ 1) (hgx : gx ≤ p) (l : List (Bool × Nat × Nat)) {x y : Nat} (h : chainOk p gx gy x y l = true)
    (hc : chainCoprime p gx x y l = true) : chainOk f gx gy x y l = true := by
  have e : ∀ a b : Nat, a % p = b % p → a % f = b % f := fun a b h => Nat.ModEq.of_dvd hf h
  have c : ∀ a : Nat, Nat.gcd a p = 1 → ¬ f ∣ a := fun a h hd => h1 (Nat.dvd_one.1 (h ▸ Nat.dvd_gcd hd hf))
  induction l generalizing x y with
  | nil => rfl
  | cons s l ih =>
    obtain ⟨b, x3, y3⟩ := s
    cases b
    · simp only [chainOk, chainCoprime, Bool.and_eq_true, bne_iff_ne, ne_eq, beq_iff_eq] at h hc ⊢
      exact ⟨⟨⟨fun h0 => c _ hc.1 (Nat.dvd_of_mod_eq_zero h0), e _ _ h.1.1.2⟩, e _ _ h.1.2⟩, ih h.2 hc.2⟩
    · simp only [chainOk, chainCoprime, Bool.and_eq_true, bne_iff_ne, ne_eq, beq_iff_eq] at h hc ⊢
      refine ⟨⟨⟨fun h0 => c _ hc.1 ?_, e _ _ h.1.1.2⟩, e _ _ h.1.2⟩, ih h.2 hc.2⟩
      have h2 : x + (p - gx) ≡ gx + (p - gx) [MOD f] := Nat.ModEq.add_right _ h0
      rw [Nat.add_sub_cancel' hgx] at h2
      exact (Nat.modEq_zero_iff_dvd.1 (h2.trans (Nat.modEq_zero_iff_dvd.2 hf)))

section Order
variable {p : Nat} [Fact p.Prime] {C : SWCurve (ZMod p)}

theorem chain_at (ha : C.a = 0) {G : C.Pt} {gx gy : Nat} (hG : C.At G gx gy) (l : List (Bool × Nat × Nat)) {n x y : Nat}
    (h : C.At (n • G) x y) (hok : chainOk p gx gy x y l = true) :
    C.At (chainScalar n l • G) (chainEnd (x, y) l).1 (chainEnd (x, y) l).2 := by
  have e : ∀ a b : Nat, a % p = b % p → (a : ZMod p) = b := fun a b h => (ZMod.natCast_eq_natCast_iff a b p).2 h
  induction l generalizing n x y with
  | nil => exact h
  | cons s l ih =>
    obtain ⟨b, x3, y3⟩ := s
    cases b
    · simp only [chainOk, Bool.and_eq_true, bne_iff_ne, ne_eq, beq_iff_eq] at hok
      obtain ⟨⟨⟨h1, h2⟩, h3⟩, h4⟩ := hok
      have h2 := e _ _ h2
      have h3 := e _ _ h3
      push_cast at h2 h3
      have hy : (2 : ZMod p) * y ≠ 0 := by
        intro h0
        have : ((2 * y : Nat) : ZMod p) = 0 := by push_cast; exact h0
        exact h1 (Nat.mod_eq_zero_of_dvd ((ZMod.natCast_eq_zero_iff _ _).1 this))
      have := h.double ha hy (x3 := (x3 : ZMod p)) (y3 := y3) (by linear_combination h2) (by linear_combination h3)
      rw [← two_smul Nat, smul_smul] at this
      exact ih this h4
    · simp only [chainOk, Bool.and_eq_true, bne_iff_ne, ne_eq, beq_iff_eq] at hok
      obtain ⟨⟨⟨h1, h2⟩, h3⟩, h4⟩ := hok
      have h2 := e _ _ h2
      have h3 := e _ _ h3
      push_cast at h2 h3
      have hx : (x : ZMod p) ≠ gx := fun h0 => h1 ((ZMod.natCast_eq_natCast_iff _ _ _).1 h0)
      have := h.add hG hx (x3 := (x3 : ZMod p)) (y3 := y3) (by linear_combination h2) (by linear_combination h3)
      rw [← succ_nsmul] at this
      exact ih this h4

/-- `order_of_chain` below, with the end of the chain given modulo `p`. -/
theorem order_of_chain_dvd (ha : C.a = 0) {q : Nat} (hq : q.Prime) {G : C.Pt} {gx gy : Nat} (hG : C.At G gx gy) {l : List (Bool × Nat × Nat)} (hok : chainOk p gx gy gx gy l = true)
    (hn : chainScalar 1 l + 1 = q) (hx : (chainEnd (gx, gy) l).1 = gx) (hy : p ∣ (chainEnd (gx, gy) l).2 + gy) : addOrderOf G = q := by
  have := chain_at ha hG l (n := 1) (by rwa [one_smul]) hok
  rw [hx] at this
  have h0 : q • G = 0 := by
    rw [← hn, succ_nsmul]
    obtain ⟨h1, e1⟩ := this
    obtain ⟨h2, rfl⟩ := hG
    rw [e1]
    refine WeierstrassCurve.Affine.Point.add_of_Y_eq rfl ?_
    simp only [WeierstrassCurve.Affine.negY, SWCurve.W]
    have h3 : (((chainEnd (gx, gy) l).2 : Nat) : ZMod p) + gy = 0 := by
      rw [← Nat.cast_add, (ZMod.natCast_eq_zero_iff _ _).2 hy]
    linear_combination h3
  have := Fact.mk hq
  refine addOrderOf_eq_prime h0 ?_
  obtain ⟨h2, rfl⟩ := hG
  exact WeierstrassCurve.Affine.Point.some_ne_zero h2

/-- The chain ends at `-G` after `q - 1` steps of addition, so `G` has order `q`. -/
theorem order_of_chain (ha : C.a = 0) {q : Nat} (hq : q.Prime) {G : C.Pt} {gx gy : Nat} (hG : C.At G gx gy) {l : List (Bool × Nat × Nat)} (hok : chainOk p gx gy gx gy l = true)
    (hn : chainScalar 1 l + 1 = q) (hx : (chainEnd (gx, gy) l).1 = gx) (hy : (chainEnd (gx, gy) l).2 + gy = p) : addOrderOf G = q :=
  order_of_chain_dvd ha hq hG hok hn hx (by rw [hy])

instance : Finite C.Pt := by
  refine Finite.of_injective (fun P : C.Pt => (C.x? P, C.y? P)) ?_
  rintro (_ | ⟨x, y, h⟩) (_ | ⟨x', y', h'⟩) e
  · rfl
  · simp [SWCurve.x?] at e
  · simp [SWCurve.x?] at e
  · simp only [SWCurve.x?, SWCurve.y?, Prod.mk.injEq, Option.some.injEq] at e
    obtain ⟨rfl, rfl⟩ := e
    rfl

/-- There are at most two points for every x-coordinate. -/
theorem card_points_le : Nat.card C.Pt ≤ 2 * (p + 1) := by
  classical
  have := Fintype.ofFinite C.Pt
  have h := Finset.card_le_mul_card_image (f := C.x?) (Finset.univ : Finset C.Pt) 2 (by
    intro a ha
    obtain ⟨Q, -, rfl⟩ := Finset.mem_image.1 ha
    refine (Finset.card_le_card (t := {Q, -Q}) ?_).trans Finset.card_le_two
    intro P hP
    simp only [Finset.mem_filter, Finset.mem_univ, true_and] at hP
    simp only [Finset.mem_insert, Finset.mem_singleton]
    rcases P with _ | ⟨x, y, h⟩
    · rcases Q with _ | ⟨x', y', h'⟩
      · left; rfl
      · simp [SWCurve.x?] at hP
    · rcases Q with _ | ⟨x', y', h'⟩
      · simp [SWCurve.x?] at hP
      · simp only [SWCurve.x?, Option.some.injEq] at hP
        subst hP
        rcases WeierstrassCurve.Affine.Y_eq_of_X_eq h.1 h'.1 rfl with e | e
        · left; subst e; rfl
        · right; subst e; rfl)
  rw [Nat.card_eq_fintype_card, ← Finset.card_univ]
  refine h.trans (Nat.mul_le_mul_left _ ?_)
  refine (Finset.card_le_univ _).trans ?_
  rw [Fintype.card_option, ZMod.card]

/-- A point of order two has y-coordinate zero, and its x-coordinate is a cube root of `-b`. -/
theorem no_two_torsion (ha : C.a = 0) (h2 : (2 : ZMod p) ≠ 0) (h3 : 3 ∣ p - 1) (hc : (-C.b) ^ ((p - 1) / 3) ≠ 1) (hb : C.b ≠ 0) (P : C.Pt) (hP : P + P = 0) : P = 0 := by
  rcases P with _ | ⟨x, y, h⟩
  · rfl
  · exfalso
    have hy : y = 0 := by
      have e := add_eq_zero_iff_eq_neg.1 hP
      rw [WeierstrassCurve.Affine.Point.neg_some] at e
      have e := congrArg C.y? e
      simp only [SWCurve.y?, WeierstrassCurve.Affine.negY, SWCurve.W, Option.some.injEq] at e
      have : (2 : ZMod p) * y = 0 := by linear_combination e
      exact (mul_eq_zero.1 this).resolve_left h2
    have he := (C.equation_iff x y).1 h.1
    unfold SWCurve.OnCurve at he
    rw [hy, ha] at he
    have hx : x ^ 3 = -C.b := by linear_combination -he
    have hx0 : x ≠ 0 := by
      rintro rfl
      apply hb
      linear_combination -he
    apply hc
    rw [← hx, ← pow_mul, Nat.mul_div_cancel' h3]
    exact ZMod.pow_card_sub_one_eq_one hx0

/-- The curve has prime order `q`. -/
theorem card_points (ha : C.a = 0) {q : Nat} {G : C.Pt} (hG : addOrderOf G = q) (h2 : (2 : ZMod p) ≠ 0) (h3 : 3 ∣ p - 1)
    (hc : (-C.b) ^ ((p - 1) / 3) ≠ 1) (hb : C.b ≠ 0) (hlt : 2 * (p + 1) < 3 * q) : Nat.card C.Pt = q := by
  obtain ⟨k, hk⟩ : q ∣ Nat.card C.Pt := hG ▸ addOrderOf_dvd_natCard G
  have h1 := card_points_le (C := C)
  have hk3 : k < 3 := by
    rw [hk] at h1
    by_contra hge
    have : q * 3 ≤ q * k := Nat.mul_le_mul_left _ (by omega)
    omega
  have hpos : 0 < Nat.card C.Pt := Nat.card_pos
  have hcase : k = 0 ∨ k = 1 ∨ k = 2 := by omega
  rcases hcase with rfl | rfl | rfl
  · omega
  · omega
  · exfalso
    have : Fact (Nat.Prime 2) := ⟨Nat.prime_two⟩
    have := Fintype.ofFinite C.Pt
    obtain ⟨P, hP⟩ := exists_prime_addOrderOf_dvd_card (G := C.Pt) 2 (by rw [← Nat.card_eq_fintype_card, hk]; exact Dvd.intro_left q rfl)
    have h0 : P + P = 0 := by rw [← two_smul Nat, ← hP]; exact addOrderOf_nsmul_eq_zero P
    have := no_two_torsion ha h2 h3 hc hb P h0
    rw [this, addOrderOf_zero] at hP
    omega

end Order

/-- Goldwasser and Kilian's test: if a curve modulo `p` has a point whose order is a prime `q` close to `p`, then `p` is prime, for a prime factor at most the square root of `p` would leave room for
too few points. -/
theorem prime_of_chain {p q b gx gy : Nat} (hq : q.Prime) (hp : 1 < p) (hb : Nat.gcd (432 * b ^ 2) p = 1) (hgx : gx ≤ p) (hG : gy ^ 2 % p = (gx ^ 3 + b) % p)
    {l : List (Bool × Nat × Nat)} (hok : chainOk p gx gy gx gy l = true) (hc : chainCoprime p gx gx gy l = true) (hn : chainScalar 1 l + 1 = q)
    (hx : (chainEnd (gx, gy) l).1 = gx) (hy : p ∣ (chainEnd (gx, gy) l).2 + gy) (hlt : 4 * p < (q - 2) ^ 2) : p.Prime := by
  by_contra hcomp
  have hf : (Nat.minFac p).Prime := Nat.minFac_prime (by omega)
  have hfd := Nat.minFac_dvd p
  have hsq := Nat.minFac_sq_le_self (by omega) hcomp
  generalize Nat.minFac p = f at *
  have := Fact.mk hf
  have hdisc : -16 * (4 * (0 : ZMod f) ^ 3 + 27 * (b : ZMod f) ^ 2) ≠ 0 := by
    intro h0
    have : ((432 * b ^ 2 : Nat) : ZMod f) = 0 := by push_cast; linear_combination -h0
    have hd := (ZMod.natCast_eq_zero_iff _ _).1 this
    exact hf.one_lt.ne' (Nat.dvd_one.1 (hb ▸ Nat.dvd_gcd hd hfd))
  let C : SWCurve (ZMod f) := ⟨0, b, hdisc⟩
  have hon : C.OnCurve gx gy := by
    have h1 : ((gy ^ 2 : Nat) : ZMod f) = ((gx ^ 3 + b : Nat) : ZMod f) := (ZMod.natCast_eq_natCast_iff _ _ _).2 (Nat.ModEq.of_dvd hfd hG)
    push_cast at h1
    show (gy : ZMod f) ^ 2 = (gx : ZMod f) ^ 3 + 0 * gx + b
    rw [h1]; ring
  have ho : addOrderOf (C.pt hon) = q :=
    order_of_chain_dvd (C := C) rfl hq ⟨_, rfl⟩ (chainOk_of_dvd hfd hf.ne_one hgx l hok hc) hn hx (hfd.trans hy)
  have h1 : q ≤ 2 * (f + 1) := ho ▸ (Nat.le_of_dvd Nat.card_pos (addOrderOf_dvd_natCard _)).trans card_points_le
  have h2 : (q - 2) ^ 2 ≤ (2 * f) ^ 2 := Nat.pow_le_pow_left (by omega) 2
  rw [mul_pow] at h2
  omega

end CT
