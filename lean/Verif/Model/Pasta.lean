import Verif.Proofs.PastaPrimes
import Verif.Proofs.PastaChains

/-!
# The Pasta curves

The curves of the crates ark-pallas and ark-vesta, which the tests and benches instantiate the code with (relations/benches/coin.rs:20-21,
relations/benches/accumulator.rs:12-13, relations/benches/batched_select_rerandomize.rs:12-13).
-/

namespace CT

instance : Fact vestaOrder.Prime := ⟨prime_28948022309329048855892746252171976963363056481941560715954676764349967630337⟩
instance : Fact pallasOrder.Prime := ⟨prime_28948022309329048855892746252171976963363056481941647379679742748393362948097⟩

theorem disc_of_lt {p : Nat} [Fact p.Prime] (h : 10800 < p) : -16 * (4 * (0 : ZMod p) ^ 3 + 27 * 5 ^ 2) ≠ 0 := by
  intro h0
  have : ((10800 : Nat) : ZMod p) = 0 := by push_cast; linear_combination -h0
  exact absurd (Nat.le_of_dvd (by norm_num) ((ZMod.natCast_eq_zero_iff _ _).1 this)) (by omega)

/-- `PallasConfig` (relations/benches/coin.rs:20, relations/src/coin.rs:775): `y² = x³ + 5` over the field with `vestaOrder` elements. -/
def pallas : SWCurve (ZMod vestaOrder) := ⟨0, 5, disc_of_lt (by norm_num [vestaOrder])⟩

/-- `VestaConfig` (relations/benches/coin.rs:21, relations/src/coin.rs:776): `y² = x³ + 5` over the field with `pallasOrder` elements. -/
def vesta : SWCurve (ZMod pallasOrder) := ⟨0, 5, disc_of_lt (by norm_num [pallasOrder])⟩

/-- `PallasConfig::GENERATOR` (of the config in relations/src/coin.rs:775): `(-1, 2)`. -/
def pallasG : pallas.Pt := pallas.pt (x := -1) (y := 2) (by show (2 : ZMod vestaOrder) ^ 2 = (-1) ^ 3 + 0 * (-1) + 5; ring)

/-- `VestaConfig::GENERATOR` (of the config in relations/src/coin.rs:776): `(-1, 2)`. -/
def vestaG : vesta.Pt := vesta.pt (x := -1) (y := 2) (by show (2 : ZMod pallasOrder) ^ 2 = (-1) ^ 3 + 0 * (-1) + 5; ring)

theorem generator_at {p : Nat} [Fact p.Prime] {C : SWCurve (ZMod p)} {G : C.Pt} (h : C.At G (-1) 2) : C.At G ((p - 1 : Nat) : ZMod p) ((2 : Nat) : ZMod p) := by
  have e : ((p - 1 : Nat) : ZMod p) = -1 := by
    rw [Nat.cast_sub (Nat.Prime.one_lt Fact.out).le, ZMod.natCast_self, Nat.cast_one, zero_sub]
  rw [e]
  exact_mod_cast h

theorem pallasG_order : addOrderOf pallasG = pallasOrder :=
  order_of_chain rfl Fact.out (generator_at ⟨_, rfl⟩) pallasChain_ok pallasChain_scalar (by rw [pallasChain_end]) (by rw [pallasChain_end]; rfl)

theorem vestaG_order : addOrderOf vestaG = vestaOrder :=
  order_of_chain rfl Fact.out (generator_at ⟨_, rfl⟩) vestaChain_ok vestaChain_scalar (by rw [vestaChain_end]) (by rw [vestaChain_end]; rfl)

theorem two_ne_zero_of_lt {p : Nat} (h : 2 < p) : (2 : ZMod p) ≠ 0 := by
  intro h0
  have : ((2 : Nat) : ZMod p) = 0 := by exact_mod_cast h0
  exact absurd (Nat.le_of_dvd (by norm_num) ((ZMod.natCast_eq_zero_iff _ _).1 this)) (by omega)

theorem five_ne_zero_of_lt {p : Nat} (h : 5 < p) : (5 : ZMod p) ≠ 0 := by
  intro h0
  have : ((5 : Nat) : ZMod p) = 0 := by exact_mod_cast h0
  exact absurd (Nat.le_of_dvd (by norm_num) ((ZMod.natCast_eq_zero_iff _ _).1 this)) (by omega)

theorem pallas_cube_literal : (-5 : ZMod 28948022309329048855892746252171976963363056481941560715954676764349967630337) ^ 9649340769776349618630915417390658987787685493980520238651558921449989210112 ≠ 1 := by
  reduce_mod_char
  decide

theorem pallas_cube : (-5 : ZMod vestaOrder) ^ ((vestaOrder - 1) / 3) ≠ 1 := by
  rw [show (vestaOrder - 1) / 3 = 9649340769776349618630915417390658987787685493980520238651558921449989210112 by norm_num [vestaOrder]]
  exact pallas_cube_literal

theorem vesta_cube_literal : (-5 : ZMod 28948022309329048855892746252171976963363056481941647379679742748393362948097) ^ 9649340769776349618630915417390658987787685493980549126559914249464454316032 ≠ 1 := by
  reduce_mod_char
  decide

theorem vesta_cube : (-5 : ZMod pallasOrder) ^ ((pallasOrder - 1) / 3) ≠ 1 := by
  rw [show (pallasOrder - 1) / 3 = 9649340769776349618630915417390658987787685493980549126559914249464454316032 by norm_num [pallasOrder]]
  exact vesta_cube_literal

theorem pallas_card : Nat.card pallas.Pt = pallasOrder :=
  card_points rfl pallasG_order (two_ne_zero_of_lt (by norm_num [vestaOrder])) (by norm_num [vestaOrder]) pallas_cube
    (five_ne_zero_of_lt (by norm_num [vestaOrder])) (by norm_num [vestaOrder, pallasOrder])

theorem vesta_card : Nat.card vesta.Pt = vestaOrder :=
  card_points rfl vestaG_order (two_ne_zero_of_lt (by norm_num [pallasOrder])) (by norm_num [pallasOrder]) vesta_cube
    (five_ne_zero_of_lt (by norm_num [pallasOrder])) (by norm_num [vestaOrder, pallasOrder])

/-- The scalar field of Pallas. -/
instance : Module (ZMod pallasOrder) pallas.Pt := AddCommGroup.zmodModule fun P => by rw [← pallas_card]; exact card_nsmul_eq_zero'
/-- The scalar field of Vesta. -/
instance : Module (ZMod vestaOrder) vesta.Pt := AddCommGroup.zmodModule fun P => by rw [← vesta_card]; exact card_nsmul_eq_zero'

/-! The pair of curves, even (`false`) and odd (`true`), as the type parameters `P0`, `P1` of the code. -/

/-- The base fields (`P0::BaseField`, `P1::BaseField`, relations/src/coin.rs:775-776). -/
def PastaB : Bool → Type
  | false => ZMod vestaOrder
  | true => ZMod pallasOrder

instance : ∀ p, Field (PastaB p)
  | false => inferInstanceAs (Field (ZMod vestaOrder))
  | true => inferInstanceAs (Field (ZMod pallasOrder))

instance : ∀ p, DecidableEq (PastaB p)
  | false => inferInstanceAs (DecidableEq (ZMod vestaOrder))
  | true => inferInstanceAs (DecidableEq (ZMod pallasOrder))

instance : ∀ p, Fintype (PastaB p)
  | false => inferInstanceAs (Fintype (ZMod vestaOrder))
  | true => inferInstanceAs (Fintype (ZMod pallasOrder))

/-- `P0 = PallasConfig`, `P1 = VestaConfig` (relations/src/single_level_select_and_rerandomize.rs:218). -/
def PastaC : ∀ p, SWCurve (PastaB p)
  | false => pallas
  | true => vesta

/-- The base field of each curve is the scalar field of the other one (`SWCurveConfig<BaseField = P1::ScalarField>` in curve_tree.rs). -/
instance : ∀ p, Module (PastaB (!p)) (PastaC p).Pt
  | false => inferInstanceAs (Module (ZMod pallasOrder) pallas.Pt)
  | true => inferInstanceAs (Module (ZMod vestaOrder) vesta.Pt)

end CT
