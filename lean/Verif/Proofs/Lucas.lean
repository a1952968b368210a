import Mathlib.NumberTheory.LucasPrimality
import Mathlib.Data.ZMod.Basic

/-! Primality certificates checked by the kernel (Lucas' test). Used only to show that the moduli of the four curves are prime. -/

namespace CT

/-- `acc · a^e mod m` by repeated squaring, for `e < 2^fuel`. -/
def powMod : (fuel : Nat) → (a e m acc : Nat) → Nat
  | 0, _, _, _, acc => acc
  | f + 1, a, e, m, acc => powMod f (a * a % m) (e / 2) m (if e % 2 = 1 then acc * a % m else acc)

theorem powMod_eq (m fuel : Nat) : ∀ a e acc : Nat, e < 2 ^ fuel →
    ((powMod fuel a e m acc : Nat) : ZMod m) = (acc : ZMod m) * (a : ZMod m) ^ e := by
  induction fuel with
  | zero =>
    intro a e acc h
    obtain rfl : e = 0 := (by omega)
    simp [powMod]
  | succ f ih =>
    intro a e acc h
    rw [powMod, ih _ _ _ (by rw [pow_succ] at h; omega)]
    have he : e = 2 * (e / 2) + e % 2 := (Nat.div_add_mod e 2).symm
    rw [ZMod.natCast_mod, Nat.cast_mul, ← sq, ← pow_mul]
    rcases Nat.mod_two_eq_zero_or_one e with h0 | h1
    · rw [if_neg (by omega)]
      conv_rhs => rw [he, h0, add_zero]
    · rw [if_pos h1, ZMod.natCast_mod, Nat.cast_mul]
      conv_rhs => rw [he, h1, pow_succ]
      ring

/-- `a` generates the units modulo `p`, where `fs` are the prime factors of `p - 1` with multiplicity. -/
def checkLucas (p a : Nat) (fs : List Nat) : Bool :=
  decide (1 < p) && decide (p < 2 ^ 256) && decide (fs.prod = p - 1) && decide (powMod 256 a (p - 1) p 1 = 1) &&
    fs.all fun q => decide (powMod 256 a ((p - 1) / q) p 1 % p ≠ 1)

theorem prime_of_checkLucas {p a : Nat} {fs : List Nat} (h : checkLucas p a fs = true) (hf : ∀ q ∈ fs, q.Prime) : p.Prime := by
  simp only [checkLucas, Bool.and_eq_true, decide_eq_true_eq, List.all_eq_true] at h
  obtain ⟨⟨⟨⟨h1, hp⟩, h2⟩, h3⟩, h4⟩ := h
  refine lucas_primality p (a : ZMod p) ?_ ?_
  · have := powMod_eq p 256 a (p - 1) 1 (by omega)
    rw [h3] at this
    simpa using this.symm
  · intro q hq hd
    rw [← h2] at hd
    obtain ⟨r, hr, hqr⟩ := (Prime.dvd_prod_iff hq.prime).1 hd
    obtain rfl : q = r := (Nat.prime_dvd_prime_iff_eq hq (hf r hr)).1 hqr
    have h5 := powMod_eq p 256 a ((p - 1) / q) 1 (lt_of_le_of_lt (Nat.div_le_self _ _) (by omega))
    intro h6
    rw [h6, Nat.cast_one, one_mul] at h5
    have : powMod 256 a ((p - 1) / q) p 1 % p = 1 % p := (ZMod.natCast_eq_natCast_iff' _ _ _).1 (by rw [h5, Nat.cast_one])
    rw [Nat.mod_eq_of_lt h1] at this
    exact h4 q hr this

end CT
