import Verif.Proofs.RerandComplete
import Mathlib.GroupTheory.OrderOfElement
import Mathlib.Tactic.IntervalCases
import Mathlib.Tactic.NormNum

/-! Which scalars make the re-randomisation chain collide, for a base point of a 255-bit order just
above `2^254` (both Pasta curves). -/

namespace CT
set_option linter.unusedSectionVars false

theorem offs_eq (k : Nat) : 7 * offs k = 8 ^ (k + 1) - 8 := by
  induction k with
  | zero => simp [offs]
  | succ k ih =>
    have : offs (k + 1) = offs k + 2 ^ (3 * (k + 1)) := by simp [offs, List.range_succ]
    rw [this, mul_add, ih, pow_mul]
    norm_num [pow_succ]
    ring

theorem partialScalar_mod (m r k : Nat) (hk : k < m) :
    partialScalar m (fun i => r / 8 ^ i % 8) k = ((r % 8 ^ k : Nat) : Int) + offs k := by
  rw [partialScalar_lt m _ k hk]
  unfold offs
  congr 1
  rw [← digits_sum r k]
  simp [Nat.cast_list_sum, List.map_map, Function.comp_def]

theorem tableScalar_lt (m r k : Nat) (hk : k + 1 < m) :
    tableScalar m (k + 1) (r / 8 ^ k % 8) = ((r / 8 ^ k % 8 : Nat) : Int) * 8 ^ k + 8 ^ (k + 1) := by
  unfold tableScalar
  rw [if_pos hk, Nat.add_sub_cancel, pow_mul, pow_mul]
  norm_num

theorem tableScalar_last (k j : Nat) :
    tableScalar (k + 1) (k + 1) j = (j : Int) * 8 ^ k - offs k := by
  unfold tableScalar offs
  rw [if_neg (lt_irrefl _), Nat.add_sub_cancel, pow_mul]
  norm_num

/-- Not divisible because strictly between 0 and `q`. -/
theorem not_dvd_between {q z : Int} (h0 : 0 < z) (h1 : z < q) : ¬ q ∣ z :=
  fun h => absurd (Int.le_of_dvd h0 h) (by omega)

theorem early_aux {q U L J S : Int} (hU : 8 ≤ U) (hq : 18 * U ≤ q) (ho : 7 * S = 8 * U - 8)
    (hL0 : 0 ≤ L) (hL : L < U) (hJ0 : 0 ≤ J) (hJ : J ≤ 7 * U) :
    ¬ q ∣ L + S ∧ ¬ q ∣ J + 8 * U ∧ ¬ q ∣ L + S - (J + 8 * U) ∧ ¬ q ∣ L + S + (J + 8 * U) := by
  refine ⟨not_dvd_between (by omega) (by omega), not_dvd_between (by omega) (by omega), ?_,
    not_dvd_between (by omega) (by omega)⟩
  rw [← Int.dvd_neg]
  exact not_dvd_between (by omega) (by omega)

theorem pow8_ge {k : Nat} (hk1 : 1 ≤ k) : (8 : Int) ≤ 8 ^ k := by
  calc (8 : Int) = 8 ^ 1 := by norm_num
    _ ≤ 8 ^ k := pow_le_pow_right₀ (by norm_num) hk1

theorem low_lt (r k : Nat) : ((r % 8 ^ k : Nat) : Int) < 8 ^ k := by
  have := Nat.mod_lt r (pow_pos (by norm_num : 0 < 8) k)
  exact_mod_cast this

/-- The early windows never collide. -/
theorem early_windows {q : Int} {r k : Nat} (hk1 : 1 ≤ k) (hq : 18 * 8 ^ k ≤ q) :
    let σ : Int := ((r % 8 ^ k : Nat) : Int) + offs k
    let τ : Int := ((r / 8 ^ k % 8 : Nat) : Int) * 8 ^ k + 8 ^ (k + 1)
    ¬ q ∣ σ ∧ ¬ q ∣ τ ∧ ¬ q ∣ σ - τ ∧ ¬ q ∣ σ + τ := by
  intro σ τ
  have h8 : (8 : Int) ^ (k + 1) = 8 * 8 ^ k := by rw [pow_succ]; ring
  have ho := offs_eq k
  rw [h8] at ho
  have hpos := pow8_ge hk1
  have hj : ((r / 8 ^ k % 8 : Nat) : Int) ≤ 7 := by
    have := Nat.mod_lt (r / 8 ^ k) (by norm_num : 8 > 0)
    omega
  have hj0 : (0 : Int) ≤ ((r / 8 ^ k % 8 : Nat) : Int) := Int.natCast_nonneg _
  simp only [σ, τ, h8]
  exact early_aux hpos hq ho (Int.natCast_nonneg _) (low_lt r k)
    (mul_nonneg hj0 (by linarith)) (mul_le_mul_of_nonneg_right hj (by linarith))

/-- `q` divides `z` and `z` is in a range containing only the multiples `k·q`, `lo < k < hi`. -/
theorem dvd_range {q z : Int} (hq : 0 < q) (h : q ∣ z) (lo hi : Int) (h1 : lo * q < z)
    (h2 : z < hi * q) : ∃ k, lo < k ∧ k < hi ∧ z = k * q := by
  obtain ⟨k, rfl⟩ := h
  refine ⟨k, ?_, ?_, mul_comm _ _⟩
  · by_contra hk; nlinarith
  · by_contra hk; nlinarith

/-- Window 85: two exceptional scalars. Here `U = 8^84` and `S = offs 84`, `S' = offs 85`. -/
theorem window84_aux {U q S S' : Int} (hU : 1000 ≤ U) (hq : 4 * U < q) (hq2 : 1000 * q < 4001 * U)
    (o84 : 7 * S = 8 * U - 8) (o85 : 7 * S' = 64 * U - 8) {r J L : Int} (hr : r < q)
    (hd : r = U * J + L) (hJ : 0 ≤ J) (hL0 : 0 ≤ L) (hL : L < U)
    (h1 : r ≠ 3 * q - S') (h2 : r ≠ 12 * U - 2 * q - S) :
    ¬ q ∣ L + S ∧ ¬ q ∣ J * U + 8 * U ∧ ¬ q ∣ L + S - (J * U + 8 * U) ∧
      ¬ q ∣ L + S + (J * U + 8 * U) := by
  have hq0 : 0 < q := by omega
  have hJ4 : J ≤ 4 := by nlinarith
  refine ⟨not_dvd_between (by omega) (by omega), fun h => ?_, fun h => ?_, fun h => ?_⟩
  · obtain ⟨k, k1, k2, e⟩ := dvd_range hq0 h 0 4 (by nlinarith) (by nlinarith)
    interval_cases J <;> interval_cases k <;> omega
  · obtain ⟨k, k1, k2, e⟩ := dvd_range hq0 h (-3) (-1) (by interval_cases J <;> omega)
      (by interval_cases J <;> omega)
    interval_cases J <;> interval_cases k <;> omega
  · obtain ⟨k, k1, k2, e⟩ := dvd_range hq0 h 2 4 (by interval_cases J <;> omega)
      (by interval_cases J <;> omega)
    interval_cases J <;> interval_cases k <;> omega

/-- Window 86: two more. -/
theorem window85_aux {U q S' : Int} (hU : 1000 ≤ U) (hq : 4 * U < q) (hq2 : 1000 * q < 4001 * U)
    (o85 : 7 * S' = 64 * U - 8) {r : Int} (hr : r < q)
    (h0 : 0 < r) (h1 : r ≠ 3 * q - S') (h2 : r ≠ 5 * q - 2 * S') :
    ¬ q ∣ r + S' ∧ ¬ q ∣ - S' ∧ ¬ q ∣ r + S' - (- S') ∧ ¬ q ∣ r + S' + (- S') := by
  have hq0 : 0 < q := by omega
  refine ⟨fun h => ?_, fun h => ?_, fun h => ?_, not_dvd_between (by omega) (by omega)⟩
  · obtain ⟨k, k1, k2, e⟩ := dvd_range hq0 h 2 4 (by omega) (by omega)
    interval_cases k
    omega
  · obtain ⟨k, k1, k2, e⟩ := dvd_range hq0 h (-3) (-2) (by omega) (by omega)
    omega
  · obtain ⟨k, k1, k2, e⟩ := dvd_range hq0 h 4 6 (by omega) (by omega)
    interval_cases k
    omega

theorem pasta_windows {q r : Nat} (hq : (4 : Int) * 8 ^ 84 < q) (hq2 : 1000 * (q : Int) < 4001 * 8 ^ 84)
    (hr : r < q) (hex : (r : Int) ∉ pastaExceptional q) {k : Nat} (hk1 : 1 ≤ k) (hk : k < 86) :
    let σ : Int := partialScalar 86 (fun i => r / 8 ^ i % 8) k
    let τ : Int := tableScalar 86 (k + 1) (r / 8 ^ k % 8)
    ¬ (q : Int) ∣ σ ∧ ¬ (q : Int) ∣ τ ∧ ¬ (q : Int) ∣ σ - τ ∧ ¬ (q : Int) ∣ σ + τ := by
  intro σ τ
  simp only [pastaExceptional, List.mem_cons, List.not_mem_nil, or_false, not_or] at hex
  obtain ⟨e0, e1, e2, e3⟩ := hex
  have o84 : 7 * offs 84 = 8 * (8 : Int) ^ 84 - 8 := by
    rw [offs_eq, pow_succ]; ring
  have o85 : 7 * offs 85 = 64 * (8 : Int) ^ 84 - 8 := by
    rw [offs_eq, pow_succ, pow_succ]; ring
  have hU : (1000 : Int) ≤ 8 ^ 84 := by
    calc (1000 : Int) ≤ 8 ^ 4 := by norm_num
      _ ≤ 8 ^ 84 := pow_le_pow_right₀ (by norm_num) (by norm_num)
  have hrq : (r : Int) < q := by exact_mod_cast hr
  have hr0 : (0 : Int) ≤ r := Int.natCast_nonneg r
  have hσ : σ = ((r % 8 ^ k : Nat) : Int) + offs k := partialScalar_mod 86 r k hk
  have hdiv : (r : Int) = 8 ^ 84 * ((r / 8 ^ 84 : Nat) : Int) + ((r % 8 ^ 84 : Nat) : Int) := by
    have := (Nat.div_add_mod r (8 ^ 84)).symm
    exact_mod_cast this
  have hj84 : (r / 8 ^ 84 : Nat) < 8 := by
    have h1 : ((r / 8 ^ 84 : Nat) : Int) < 8 := by
      have := Int.natCast_nonneg (r % 8 ^ 84)
      generalize (8 : Int) ^ 84 = U at *
      nlinarith
    exact_mod_cast h1
  rcases Nat.lt_or_ge k 84 with hk84 | hk84
  · have hτ : τ = ((r / 8 ^ k % 8 : Nat) : Int) * 8 ^ k + 8 ^ (k + 1) :=
      tableScalar_lt 86 r k (by omega)
    rw [hσ, hτ]
    refine early_windows hk1 ?_
    have : (8 : Int) ^ k * 8 ≤ 8 ^ 84 := by
      rw [← pow_succ]; exact pow_le_pow_right₀ (by norm_num) (by omega)
    generalize (8 : Int) ^ 84 = U at *
    linarith
  · rcases Nat.lt_or_ge k 85 with hk85 | hk85
    · obtain rfl : k = 84 := by omega
      have hτ : τ = ((r / 8 ^ 84 : Nat) : Int) * 8 ^ 84 + 8 * 8 ^ 84 := by
        have := tableScalar_lt 86 r 84 (by omega)
        rw [Nat.mod_eq_of_lt hj84] at this
        show tableScalar 86 (84 + 1) (r / 8 ^ 84 % 8) = _
        rw [Nat.mod_eq_of_lt hj84, this, pow_succ]
        ring
      rw [hσ, hτ]
      exact window84_aux hU hq hq2 o84 o85 hrq hdiv (Int.natCast_nonneg _) (Int.natCast_nonneg _)
        (low_lt r 84) e1 e2
    · obtain rfl : k = 85 := by omega
      have hr85 : r < 8 ^ 85 := by
        have h1 : (r : Int) < 8 ^ 85 := by
          rw [pow_succ]
          generalize (8 : Int) ^ 84 = U at *
          linarith
        exact_mod_cast h1
      have hτ : τ = - offs 85 := by
        show tableScalar (85 + 1) (85 + 1) (r / 8 ^ 85 % 8) = _
        rw [tableScalar_last, Nat.div_eq_of_lt hr85]
        simp
      rw [hσ, hτ, Nat.mod_eq_of_lt hr85]
      exact window85_aux hU hq hq2 o85 hrq (lt_of_le_of_ne hr0 (Ne.symm e0)) e1 e3

variable {F : Type} [Field F] [DecidableEq F]

theorem diffX_of_not_dvd {C : SWCurve F} {h : C.Pt} {q : Nat} (hq : addOrderOf h = q) {σ τ : Int}
    (hd : ¬ (q : Int) ∣ σ ∧ ¬ (q : Int) ∣ τ ∧ ¬ (q : Int) ∣ σ - τ ∧ ¬ (q : Int) ∣ σ + τ) :
    C.DiffX (σ • h) (τ • h) := by
  have key : ∀ z : Int, z • h = 0 ↔ (q : Int) ∣ z := fun z => by
    rw [← hq]; exact addOrderOf_dvd_iff_zsmul_eq_zero.symm
  refine ⟨fun e => hd.1 ((key _).1 e), fun e => hd.2.1 ((key _).1 e), fun e => hd.2.2.1 ?_,
    fun e => hd.2.2.2 ?_⟩
  · rw [← key, sub_smul, e, sub_self]
  · rw [← key, add_smul, e, neg_add_cancel]

/-- The tables of a Pasta-like base point exist. -/
theorem pasta_tables {q : Nat} (hq : (4 : Int) * 8 ^ 84 < q) (hq2 : 1000 * (q : Int) < 4001 * 8 ^ 84)
    {C : SWCurve F} {h : C.Pt} (ho : addOrderOf h = q) {k j : Nat} (hk : k < 86) (hj : j < 8) :
    tableScalar 86 (k + 1) j • h ≠ 0 := by
  have key : ∀ z : Int, z • h = 0 ↔ (q : Int) ∣ z := fun z => by
    rw [← ho]; exact addOrderOf_dvd_iff_zsmul_eq_zero.symm
  rw [Ne, key]
  have o85 : 7 * offs 85 = 64 * (8 : Int) ^ 84 - 8 := by
    rw [offs_eq, pow_succ, pow_succ]; ring
  have hU : (1000 : Int) ≤ 8 ^ 84 := by
    calc (1000 : Int) ≤ 8 ^ 4 := by norm_num
      _ ≤ 8 ^ 84 := pow_le_pow_right₀ (by norm_num) (by norm_num)
  have hj' : (j : Int) ≤ 7 := by omega
  have hj0 : (0 : Int) ≤ j := Int.natCast_nonneg _
  rcases Nat.lt_or_ge k 85 with hk85 | hk85
  · have ht : tableScalar 86 (k + 1) j = (j : Int) * 8 ^ k + 8 * 8 ^ k := by
      unfold tableScalar
      rw [if_pos (by omega), Nat.add_sub_cancel, pow_mul, pow_mul]
      norm_num [pow_succ]
      ring
    rw [ht]
    rcases Nat.lt_or_ge k 84 with h84 | h84
    · have h1 : (8 : Int) ^ k * 8 ≤ 8 ^ 84 := by
        rw [← pow_succ]; exact pow_le_pow_right₀ (by norm_num) (by omega)
      have h2 : (0 : Int) < 8 ^ k := by positivity
      refine not_dvd_between (by nlinarith) ?_
      generalize (8 : Int) ^ 84 = U at *
      nlinarith
    · obtain rfl : k = 84 := by omega
      generalize (8 : Int) ^ 84 = U at *
      intro hd
      obtain ⟨m, m1, m2, e⟩ := dvd_range (by omega) hd 1 4 (by nlinarith) (by nlinarith)
      generalize (j : Int) = J at *
      interval_cases J <;> interval_cases m <;> omega
  · obtain rfl : k = 85 := by omega
    rw [show tableScalar 86 (85 + 1) j = tableScalar (85 + 1) (85 + 1) j from rfl, tableScalar_last,
      show (8 : Int) ^ 85 = 8 * 8 ^ 84 by rw [pow_succ]; ring]
    generalize offs 85 = S at *
    generalize (8 : Int) ^ 84 = U at *
    intro hd
    obtain ⟨m, m1, m2, e⟩ := dvd_range (by omega) hd (2 * j - 3) (2 * j - 2) (by nlinarith)
      (by nlinarith)
    omega

end CT
