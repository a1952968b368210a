import Verif.Proofs.SecpPrimes
import Verif.Proofs.SecpChains

/-!
# secp256k1 and secq256k1

The curves of the crates ark-secp256k1 and ark-secq256k1, the other cycle of the benches (relations/benches/coin.rs:23-24,
relations/benches/accumulator.rs:15-16, relations/benches/select_rerandomize.rs:15-16, relations/benches/batched_select_rerandomize.rs:15-16).
-/

namespace CT

instance : Fact secpOrder.Prime := ⟨prime_115792089237316195423570985008687907852837564279074904382605163141518161494337⟩

/-- A prime by the points of secp256k1. -/
instance : Fact secqOrder.Prime := ⟨prime_of_chain (b := 7) (Fact.out : secpOrder.Prime) (by norm_num [secqOrder]) (by decide +kernel) (by decide +kernel) (by decide +kernel)
  secpChain_ok secpChain_coprime secpChain_scalar (by rw [secpChain_end]) (by rw [secpChain_end]; decide +kernel) (by decide +kernel)⟩

theorem secp_ne_zero {p : Nat} (k : Nat) (h : k < p) (h0 : k ≠ 0) : ((k : Nat) : ZMod p) ≠ 0 := fun e =>
  absurd (Nat.le_of_dvd (by omega) ((ZMod.natCast_eq_zero_iff _ _).1 e)) (by omega)

theorem secp_disc {p : Nat} (h : 21168 < p) : -16 * (4 * (0 : ZMod p) ^ 3 + 27 * 7 ^ 2) ≠ 0 := by
  intro h0
  exact secp_ne_zero 21168 h (by norm_num) (by push_cast; linear_combination -h0)

/-- `ark_secp256k1::Config` (relations/benches/coin.rs:23): `y² = x³ + 7` over the field with `secqOrder` elements. -/
def secp : SWCurve (ZMod secqOrder) := ⟨0, 7, secp_disc (by norm_num [secqOrder])⟩

/-- `ark_secq256k1::Config` (relations/benches/coin.rs:24): `y² = x³ + 7` over the field with `secpOrder` elements. -/
def secq : SWCurve (ZMod secpOrder) := ⟨0, 7, secp_disc (by norm_num [secpOrder])⟩

theorem on_of_mod {p : Nat} [Fact p.Prime] {C : SWCurve (ZMod p)} (ha : C.a = 0) (hb : C.b = 7) {x y : Nat} (h : y ^ 2 % p = (x ^ 3 + 7) % p) : C.OnCurve x y := by
  have h1 : ((y ^ 2 : Nat) : ZMod p) = ((x ^ 3 + 7 : Nat) : ZMod p) := (ZMod.natCast_eq_natCast_iff _ _ _).2 h
  push_cast at h1
  show (y : ZMod p) ^ 2 = (x : ZMod p) ^ 3 + C.a * x + C.b
  rw [h1, ha, hb]; ring

/-- `GENERATOR` of secp256k1 (the config in relations/benches/coin.rs:23). -/
def secpG : secp.Pt := secp.pt (x := (secpX : ZMod secqOrder)) (y := (secpY : ZMod secqOrder)) (on_of_mod rfl rfl (by decide +kernel))

/-- `GENERATOR` of secq256k1 (the config in relations/benches/coin.rs:24). -/
def secqG : secq.Pt := secq.pt (x := (secqX : ZMod secpOrder)) (y := (secqY : ZMod secpOrder)) (on_of_mod rfl rfl (by decide +kernel))

theorem secpG_order : addOrderOf secpG = secpOrder :=
  order_of_chain_dvd rfl Fact.out ⟨_, rfl⟩ secpChain_ok secpChain_scalar (by rw [secpChain_end]) (by rw [secpChain_end]; decide +kernel)

theorem secqG_order : addOrderOf secqG = secqOrder :=
  order_of_chain_dvd rfl Fact.out ⟨_, rfl⟩ secqChain_ok secqChain_scalar (by rw [secqChain_end]) (by rw [secqChain_end]; decide +kernel)

theorem secp_cube_literal : (-7 : ZMod 115792089237316195423570985008687907853269984665640564039457584007908834671663) ^ 38597363079105398474523661669562635951089994888546854679819194669302944890554 ≠ 1 := by
  reduce_mod_char
  decide

theorem secp_cube : (-7 : ZMod secqOrder) ^ ((secqOrder - 1) / 3) ≠ 1 := by
  rw [show (secqOrder - 1) / 3 = 38597363079105398474523661669562635951089994888546854679819194669302944890554 by norm_num [secqOrder]]
  exact secp_cube_literal

theorem secq_cube_literal : (-7 : ZMod 115792089237316195423570985008687907852837564279074904382605163141518161494337) ^ 38597363079105398474523661669562635950945854759691634794201721047172720498112 ≠ 1 := by
  reduce_mod_char
  decide

theorem secq_cube : (-7 : ZMod secpOrder) ^ ((secpOrder - 1) / 3) ≠ 1 := by
  rw [show (secpOrder - 1) / 3 = 38597363079105398474523661669562635950945854759691634794201721047172720498112 by norm_num [secpOrder]]
  exact secq_cube_literal

theorem secp_card : Nat.card secp.Pt = secpOrder :=
  card_points rfl secpG_order (by exact_mod_cast secp_ne_zero (p := secqOrder) 2 (by norm_num [secqOrder]) (by norm_num)) (by norm_num [secqOrder]) secp_cube
    (by exact_mod_cast secp_ne_zero (p := secqOrder) 7 (by norm_num [secqOrder]) (by norm_num)) (by norm_num [secqOrder, secpOrder])

theorem secq_card : Nat.card secq.Pt = secqOrder :=
  card_points rfl secqG_order (by exact_mod_cast secp_ne_zero (p := secpOrder) 2 (by norm_num [secpOrder]) (by norm_num)) (by norm_num [secpOrder]) secq_cube
    (by exact_mod_cast secp_ne_zero (p := secpOrder) 7 (by norm_num [secpOrder]) (by norm_num)) (by norm_num [secqOrder, secpOrder])

/-- The scalar field of secp256k1. -/
instance : Module (ZMod secpOrder) secp.Pt := AddCommGroup.zmodModule fun P => by rw [← secp_card]; exact card_nsmul_eq_zero'
/-- The scalar field of secq256k1. -/
instance : Module (ZMod secqOrder) secq.Pt := AddCommGroup.zmodModule fun P => by rw [← secq_card]; exact card_nsmul_eq_zero'

/-! The pair of curves, even (`false`) and odd (`true`), as the type parameters `P0`, `P1` of the code. -/

/-- The base fields (`P0::BaseField`, `P1::BaseField` in relations/benches/coin.rs:57). -/
def SecpB : Bool → Type
  | false => ZMod secqOrder
  | true => ZMod secpOrder

instance : ∀ p, Field (SecpB p)
  | false => inferInstanceAs (Field (ZMod secqOrder))
  | true => inferInstanceAs (Field (ZMod secpOrder))

instance : ∀ p, DecidableEq (SecpB p)
  | false => inferInstanceAs (DecidableEq (ZMod secqOrder))
  | true => inferInstanceAs (DecidableEq (ZMod secpOrder))

instance : ∀ p, Fintype (SecpB p)
  | false => inferInstanceAs (Fintype (ZMod secqOrder))
  | true => inferInstanceAs (Fintype (ZMod secpOrder))

/-- `P0 = SecpConfig`, `P1 = SecqConfig` (relations/benches/coin.rs:57). -/
def SecpC : ∀ p, SWCurve (SecpB p)
  | false => secp
  | true => secq

/-- The base field of each curve is the scalar field of the other one (relations/src/curve_tree.rs:267). -/
instance : ∀ p, Module (SecpB (!p)) (SecpC p).Pt
  | false => inferInstanceAs (Module (ZMod secpOrder) secp.Pt)
  | true => inferInstanceAs (Module (ZMod secqOrder) secq.Pt)

end CT
