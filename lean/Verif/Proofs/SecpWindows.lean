import Verif.Proofs.Pasta
import Verif.Spec.Secp

/-! Which scalars make the re-randomisation chain collide, for a base point of an order just
below `2^256` (secp256k1 and secq256k1). -/

namespace CT

/-- Window 85: the sum of the first 85 windows. Here `U = 8^84`, `S = offs 84`, `S' = offs 85` and `N = J U + L` the low 85 digits. -/
theorem secp84_aux {U q S S' : Int} (hU : 1000 ≤ U) (hq : 1000 * q > 15999 * U) (o84 : 7 * S = 8 * U - 8) (o85 : 7 * S' = 64 * U - 8) {N J L : Int}
    (hd : N = U * J + L) (hJ : 0 ≤ J) (hJ7 : J ≤ 7) (hL0 : 0 ≤ L) (hL : L < U) (h1 : N ≠ q - S') :
    ¬ q ∣ L + S ∧ ¬ q ∣ J * U + 8 * U ∧ ¬ q ∣ L + S - (J * U + 8 * U) ∧ ¬ q ∣ L + S + (J * U + 8 * U) := by
  have hJU : J * U ≤ 7 * U := by nlinarith
  have hJU0 : 0 ≤ J * U := by nlinarith
  have hd' : N = J * U + L := by rw [hd]; ring
  generalize J * U = V at *
  refine ⟨not_dvd_between (by omega) (by omega), not_dvd_between (by omega) (by omega), ?_, fun h => ?_⟩
  · rw [← Int.dvd_neg]
    exact not_dvd_between (by omega) (by omega)
  · obtain ⟨k, k1, k2, e⟩ := dvd_range (by omega) h 0 2 (by omega) (by omega)
    obtain rfl : k = 1 := by omega
    omega

/-- Window 86, with top digit 0 or 1. `N` are the low 85 digits. -/
theorem secp85_aux {U q S S' : Int} (hU : 1000 ≤ U) (hq : 1000 * q > 15999 * U) (hq2 : q < 16 * U) (o84 : 7 * S = 8 * U - 8) (o85 : 7 * S' = 64 * U - 8) {r N D : Int}
    (hr : r < q) (hr0 : 0 < r) (hd : r = 8 * U * D + N) (hD : D = 0 ∨ D = 1) (hN0 : 0 ≤ N) (hN : N < 8 * U) (h1 : N ≠ q - S') (h2 : r ≠ q - S' - S + 8 * U) :
    ¬ q ∣ N + S' ∧ ¬ q ∣ D * (8 * U) - S' ∧ ¬ q ∣ N + S' - (D * (8 * U) - S') ∧ ¬ q ∣ N + S' + (D * (8 * U) - S') := by
  refine ⟨fun h => ?_, ?_, ?_, ?_⟩
  · obtain ⟨k, k1, k2, e⟩ := dvd_range (by omega) h 0 2 (by omega) (by omega)
    obtain rfl : k = 1 := by omega
    omega
  · rw [← Int.dvd_neg]
    rcases hD with rfl | rfl <;> exact not_dvd_between (by omega) (by omega)
  · rcases hD with rfl | rfl
    · intro h
      obtain ⟨k, k1, k2, e⟩ := dvd_range (by omega) h 1 2 (by omega) (by omega)
      omega
    · intro h
      obtain ⟨k, k1, k2, e⟩ := dvd_range (by omega) h 0 2 (by omega) (by omega)
      obtain rfl : k = 1 := by omega
      omega
  · rcases hD with rfl | rfl <;> exact not_dvd_between (by omega) (by omega)

theorem secp_windows {q r : Nat} (hq : (15999 : Int) * 8 ^ 84 < 1000 * q) (hq2 : (q : Int) < 16 * 8 ^ 84)
    (hr : r < q) (hex : (r : Int) ∉ secpExceptional q) {k : Nat} (hk1 : 1 ≤ k) (hk : k < 86) :
    let σ : Int := partialScalar 86 (fun i => r / 8 ^ i % 8) k
    let τ : Int := tableScalar 86 (k + 1) (r / 8 ^ k % 8)
    ¬ (q : Int) ∣ σ ∧ ¬ (q : Int) ∣ τ ∧ ¬ (q : Int) ∣ σ - τ ∧ ¬ (q : Int) ∣ σ + τ := by
  intro σ τ
  simp only [secpExceptional, List.mem_cons, List.not_mem_nil, or_false, not_or] at hex
  obtain ⟨e0, e1, e2, e3⟩ := hex
  have h85 : (8 : Int) ^ 85 = 8 * 8 ^ 84 := by rw [pow_succ]; ring
  rw [h85] at e2 e3
  have o84 : 7 * offs 84 = 8 * (8 : Int) ^ 84 - 8 := by
    rw [offs_eq, pow_succ]; ring
  have o85 : 7 * offs 85 = 64 * (8 : Int) ^ 84 - 8 := by
    rw [offs_eq, pow_succ, pow_succ]; ring
  have hU : (1000 : Int) ≤ 8 ^ 84 := by
    calc (1000 : Int) ≤ 8 ^ 4 := by norm_num
      _ ≤ 8 ^ 84 := pow_le_pow_right₀ (by norm_num) (by norm_num)
  have hrq : (r : Int) < q := by exact_mod_cast hr
  have hr0 : (0 : Int) ≤ r := Int.natCast_nonneg r
  have hσ : σ = ((r % 8 ^ k : Nat) : Int) + offs k := partialScalar_mod 86 r k hk
  -- the low 85 digits and the top one
  have hdiv : (r : Int) = 8 * 8 ^ 84 * ((r / 8 ^ 85 : Nat) : Int) + ((r % 8 ^ 85 : Nat) : Int) := by
    have := (Nat.div_add_mod r (8 ^ 85)).symm
    have h2 : (r : Int) = (8 : Int) ^ 85 * ((r / 8 ^ 85 : Nat) : Int) + ((r % 8 ^ 85 : Nat) : Int) := by exact_mod_cast this
    rw [h85] at h2
    exact h2
  have hN := low_lt r 85
  have hN0 : (0 : Int) ≤ ((r % 8 ^ 85 : Nat) : Int) := Int.natCast_nonneg _
  rw [h85] at hN
  have hD : r / 8 ^ 85 = 0 ∨ r / 8 ^ 85 = 1 := by
    have h1 : ((r / 8 ^ 85 : Nat) : Int) < 2 := by
      generalize (8 : Int) ^ 84 = U at *
      nlinarith
    have : r / 8 ^ 85 < 2 := by exact_mod_cast h1
    omega
  have hDi : ((r / 8 ^ 85 : Nat) : Int) = 0 ∨ ((r / 8 ^ 85 : Nat) : Int) = 1 := by
    rcases hD with h | h <;> rw [h] <;> simp
  have hNe : ((r % 8 ^ 85 : Nat) : Int) ≠ q - offs 85 := by
    intro h
    rcases hDi with h' | h' <;> rw [h', h] at hdiv
    · exact e1 (by rw [hdiv]; ring)
    · exact e2 (by rw [hdiv]; ring)
  rcases Nat.lt_or_ge k 84 with hk84 | hk84
  · have hτ : τ = ((r / 8 ^ k % 8 : Nat) : Int) * 8 ^ k + 8 ^ (k + 1) :=
      tableScalar_lt 86 r k (by omega)
    rw [hσ, hτ]
    refine early_windows hk1 ?_
    have : (8 : Int) ^ k * 8 ≤ 8 ^ 84 := by
      rw [← pow_succ]; exact pow_le_pow_right₀ (by norm_num) (by omega)
    generalize (8 : Int) ^ 84 = U at *
    linarith
  · rcases Nat.lt_or_ge k 85 with hk85 | hk85
    · obtain rfl : k = 84 := by omega
      have hτ : τ = ((r / 8 ^ 84 % 8 : Nat) : Int) * 8 ^ 84 + 8 * 8 ^ 84 := by
        have := tableScalar_lt 86 r 84 (by omega)
        rw [h85] at this
        exact this
      have hJ : r / 8 ^ 84 % 8 < 8 := Nat.mod_lt _ (by norm_num)
      have hdN : ((r % 8 ^ 85 : Nat) : Int) = 8 ^ 84 * ((r / 8 ^ 84 % 8 : Nat) : Int) + ((r % 8 ^ 84 : Nat) : Int) := by
        have : r % 8 ^ 85 = 8 ^ 84 * (r / 8 ^ 84 % 8) + r % 8 ^ 84 := by
          rw [pow_succ, Nat.mod_mul]; ring
        exact_mod_cast this
      rw [hσ, hτ]
      exact secp84_aux hU hq o84 o85 hdN (Int.natCast_nonneg _) (by omega) (Int.natCast_nonneg _) (low_lt r 84) hNe
    · obtain rfl : k = 85 := by omega
      have hτ : τ = ((r / 8 ^ 85 : Nat) : Int) * (8 * 8 ^ 84) - offs 85 := by
        show tableScalar (85 + 1) (85 + 1) (r / 8 ^ 85 % 8) = _
        rw [tableScalar_last, Nat.mod_eq_of_lt (by omega), h85]
      rw [hσ, hτ]
      exact secp85_aux hU hq hq2 o84 o85 hrq (lt_of_le_of_ne hr0 (Ne.symm e0)) hdiv hDi hN0 hN hNe e3

variable {F : Type} [Field F] [DecidableEq F]

/-- The tables of such a base point exist. -/
theorem secp_tables {q : Nat} (hq : (15999 : Int) * 8 ^ 84 < 1000 * q) (hq2 : (q : Int) < 16 * 8 ^ 84)
    {C : SWCurve F} {h : C.Pt} (ho : addOrderOf h = q) {k j : Nat} (hk : k < 86) (hj : j < 8) :
    tableScalar 86 (k + 1) j • h ≠ 0 := by
  have key : ∀ z : Int, z • h = 0 ↔ (q : Int) ∣ z := fun z => by
    rw [← ho]; exact addOrderOf_dvd_iff_zsmul_eq_zero.symm
  rw [Ne, key]
  have o85 : 7 * offs 85 = 64 * (8 : Int) ^ 84 - 8 := by
    rw [offs_eq, pow_succ, pow_succ]; ring
  have hU : (1000 : Int) ≤ 8 ^ 84 := by
    calc (1000 : Int) ≤ 8 ^ 4 := by norm_num
      _ ≤ 8 ^ 84 := pow_le_pow_right₀ (by norm_num) (by norm_num)
  have hj' : (j : Int) ≤ 7 := by omega
  have hj0 : (0 : Int) ≤ j := Int.natCast_nonneg _
  rcases Nat.lt_or_ge k 85 with hk85 | hk85
  · have ht : tableScalar 86 (k + 1) j = (j : Int) * 8 ^ k + 8 * 8 ^ k := by
      unfold tableScalar
      rw [if_pos (by omega), Nat.add_sub_cancel, pow_mul, pow_mul]
      norm_num [pow_succ]
      ring
    rw [ht]
    have h1 : (8 : Int) ^ k ≤ 8 ^ 84 := pow_le_pow_right₀ (by norm_num) (by omega)
    have h2 : (0 : Int) < 8 ^ k := by positivity
    refine not_dvd_between (by nlinarith) ?_
    generalize (8 : Int) ^ 84 = U at *
    nlinarith
  · obtain rfl : k = 85 := by omega
    rw [show tableScalar 86 (85 + 1) j = tableScalar (85 + 1) (85 + 1) j from rfl, tableScalar_last,
      show (8 : Int) ^ 85 = 8 * 8 ^ 84 by rw [pow_succ]; ring]
    generalize offs 85 = S at *
    generalize (8 : Int) ^ 84 = U at *
    intro hd
    generalize (j : Int) = J at *
    obtain ⟨m, m1, m2, e⟩ := dvd_range (by omega) hd (-1) 4 (by nlinarith) (by nlinarith)
    interval_cases J <;> interval_cases m <;> omega

end CT
