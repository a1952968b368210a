import Verif.Proofs.ExtractSys

/-! What the equations of a tree say in the free module over the generators, and what they say when all generators are zero. -/

namespace CT
open Finset

section degrees
variable {F G : Type} [Field F] [AddCommGroup G] [Module F G]

theorem by_degree (D n : Nat) (e : Nat → Nat) (he : ∀ s < n, e s < D) (x : F) (P : Nat → G) :
    ∑ s ∈ range n, x ^ e s • P s = ∑ d ∈ range D, x ^ d • ∑ s ∈ range n, if e s = d then P s else 0 := by
  simp only [Finset.smul_sum]
  rw [Finset.sum_comm]
  refine Finset.sum_congr rfl fun s hs => ?_
  rw [Finset.sum_eq_single (e s)]
  · simp
  · intro d _ hd; rw [if_neg (Ne.symm hd), smul_zero]
  · intro h; exact absurd (mem_range.2 (he s (mem_range.1 hs))) h

theorem prod_by_degree (D n n' : Nat) (e e' : Nat → Nat) (he : ∀ s < n, ∀ s' < n', e s + e' s' < D) (x : F) (a b : Nat → F) :
    (∑ s ∈ range n, x ^ e s * a s) * (∑ s ∈ range n', x ^ e' s * b s) =
      ∑ d ∈ range D, x ^ d * ∑ s ∈ range n, ∑ s' ∈ range n', if e s + e' s' = d then a s * b s' else 0 := by
  simp only [Finset.mul_sum, Finset.sum_mul]
  rw [Finset.sum_comm (s := range D)]
  refine Eq.trans (Finset.sum_comm) (Finset.sum_congr rfl fun s hs => ?_)
  rw [Finset.sum_comm (s := range D)]
  refine Finset.sum_congr rfl fun s' hs' => ?_
  rw [Finset.sum_eq_single (e s + e' s')]
  · simp only [if_true]; ring
  · intro d _ hd; rw [if_neg (Ne.symm hd), mul_zero]
  · intro h; exact absurd (mem_range.2 (he s (mem_range.1 hs) s' (mem_range.1 hs'))) h

end degrees

namespace Sys
variable {F G : Type} [Field F] [AddCommGroup G] [Module F G] (S : Sys F)

omit [Field F] in
theorem e_zero : S.e 0 + S.e 0 = S.op ∧ S.e 0 < S.op := by
  obtain ⟨m, hm, hop, hk⟩ := opDegree_pos S.k
  unfold e lDeg rDeg op
  rw [hop]
  simp
  omega

omit [Field F] in
theorem e_one : S.e 1 = S.op := by unfold e lDeg rDeg; simp

omit [Field F] in
theorem rDeg_le {s : Nat} (hs : s < S.k + 2) : rDeg S.op s ≤ S.op := by
  obtain ⟨m, hm, hop, hk⟩ := opDegree_pos S.k
  rw [rDeg_eq]; unfold op; rw [hop]
  exact slotR_le m s hm (by omega)

omit [Field F] in
theorem rDeg_inj {s s' : Nat} (h : rDeg S.op s = rDeg S.op s') : s = s' := by
  obtain ⟨m, hm, hop, hk⟩ := opDegree_pos S.k
  rw [rDeg_eq, rDeg_eq] at h; unfold op at h; rw [hop] at h
  exact slotR_inj m s s' hm h

omit [Field F] in
theorem e_le (s : Nat) : S.e s ≤ S.op + 1 := by unfold e lDeg; split_ifs <;> omega

omit [Field F] in
theorem e_add {s : Nat} (hs : s < S.k + 2) : S.e s + rDeg S.op s = S.op := by
  have := S.rDeg_le hs
  unfold e lDeg; rw [if_pos hs]; omega

omit [Field F] in
theorem e_last : S.e (S.k + 2) = S.op + 1 := by unfold e; simp

omit [Field F] in
theorem e_inj {s s' : Nat} (hs : s < S.k + 3) (hs' : s' < S.k + 3) (h : S.e s = S.e s') : s = s' := by
  by_cases h1 : s < S.k + 2 <;> by_cases h2 : s' < S.k + 2
  · have := S.e_add h1; have := S.e_add h2; exact S.rDeg_inj (by omega)
  · have := S.e_add h1
    have : s' = S.k + 2 := by omega
    rw [this, e_last] at h; omega
  · have := S.e_add h2
    have : s = S.k + 2 := by omega
    rw [this, e_last] at h; omega
  · omega

/-- The slots of a polynomial that vanishes are zero. -/
theorem slots_zero {X : Finset F} (hX : 2 * (S.op + 1) + 1 ≤ X.card) (P : Nat → G)
    (h : ∀ x ∈ X, ∑ s ∈ range (S.k + 3), x ^ S.e s • P s = 0) : ∀ s < S.k + 3, P s = 0 := by
  intro s hs
  have h1 := vandermonde_zero (S.op + 2) _ X (by omega) (fun x hx => by
    rw [← by_degree (S.op + 2) (S.k + 3) S.e (fun s _ => by have := S.e_le s; omega) x P]; exact h x hx)
    (S.e s) (by have := S.e_le s; omega)
  rw [Finset.sum_eq_single s] at h1
  · simpa using h1
  · intro s' hs' hne
    rw [if_neg fun hh => hne (S.e_inj (mem_range.1 hs') hs hh)]
  · intro hh; exact absurd (mem_range.2 hs) hh

theorem two_zero {U : Finset F} (hU : 2 ≤ U.card) {A B : G} (h : ∀ u ∈ U, A + u • B = 0) : A = 0 ∧ B = 0 := by
  have := vandermonde_zero 2 (fun d => if d = 0 then A else B) U hU (fun u hu => by
    simp [Finset.sum_range_succ, h u hu])
  exact ⟨by simpa using this 0 (by norm_num), by simpa using this 1 (by norm_num)⟩

/-- The coefficient of the circuit equation. -/
theorem poly_coeff {X : Finset F} (hX : 2 * (S.op + 1) + 1 ≤ X.card) {A : G} {T : Nat → G}
    (h : ∀ x ∈ X, x ^ S.op • A + ∑ d ∈ (range (2 * (S.op + 1) + 1)).erase S.op, x ^ d • T d = 0) : A = 0 := by
  have := vandermonde_zero (2 * (S.op + 1) + 1) (fun d => if d = S.op then A else T d) X hX (fun x hx => by
    rw [← Finset.add_sum_erase _ _ (mem_range.2 (show S.op < _ by omega))]
    refine Eq.trans ?_ (h x hx)
    congr 1
    · simp
    · refine Finset.sum_congr rfl fun d hd => ?_
      rw [if_neg (Finset.ne_of_mem_erase hd)]) S.op (by omega)
  simpa using this

/-- Enough challenges, in terms of the scalars. -/
structure Enough [DecidableEq F] (fk : Forks F) (Q : Nat) : Prop where
  Y : 0 ∉ fk.Y ∧ S.N ≤ fk.Y.card
  Z : ∀ y, Q + 1 ≤ (fk.Z y).card
  U : ∀ y z, 0 ∉ fk.U y z ∧ 5 ≤ (fk.U y z).card
  X : ∀ y z u, 2 * (S.op + 1) + 1 ≤ (fk.X y z u).card
  W : ∀ y z u x, 0 ∉ fk.W y z u x ∧ 2 ≤ (fk.W y z u x).card
  C : ∀ y z u x w, FourChallenges (fk.C y z u x w)

variable [DecidableEq F]

theorem Enough.exY {fk : Forks F} {Q : Nat} (h : S.Enough fk Q) : ∃ y, y ∈ fk.Y := by
  have : 0 < fk.Y.card := lt_of_lt_of_le (Nat.two_pow_pos S.lg) h.Y.2
  exact Finset.card_pos.1 this

theorem Enough.exZ {fk : Forks F} {Q : Nat} (h : S.Enough fk Q) (y : F) : ∃ z, z ∈ fk.Z y :=
  Finset.card_pos.1 (by have := h.Z y; omega)

theorem Enough.exU {fk : Forks F} {Q : Nat} (h : S.Enough fk Q) (y z : F) : ∃ u, u ∈ fk.U y z :=
  Finset.card_pos.1 (by have := (h.U y z).2; omega)

theorem Enough.exX {fk : Forks F} {Q : Nat} (h : S.Enough fk Q) (y z u : F) : ∃ x, x ∈ fk.X y z u :=
  Finset.card_pos.1 (by have := h.X y z u; omega)

theorem Enough.exW {fk : Forks F} {Q : Nat} (h : S.Enough fk Q) (y z u x : F) : ∃ w, w ∈ fk.W y z u x :=
  Finset.card_pos.1 (by have := (h.W y z u x).2; omega)

/-! ### All generators zero -/

theorem zero_points {fk : Forks F} {Q : Nat} (hE : S.Enough fk Q) {pts : Sym F → G} (hB : pts .B = 0) (hBbl : pts .Bbl = 0)
    (hG : ∀ i < S.N, pts (.G i) = 0) (hH : ∀ i < S.N, pts (.H i) = 0) (hs : S.Solves fk pts) :
    (∀ s < S.k + 3, S.slotA pts s = 0 ∧ S.slotB pts s = 0) ∧
    ∀ y ∈ fk.Y, ∀ z ∈ fk.Z y, ∑ j ∈ range S.m, (S.wt z).wV.getD j 0 • pts (.V j) = 0 := by
  constructor
  · obtain ⟨y, hy⟩ := hE.exY
    obtain ⟨z, hz⟩ := hE.exZ S y
    have h1 : ∀ u ∈ fk.U y z, ∀ x ∈ fk.X y z u, S.openDef pts y z u x = 0 := by
      intro u hu x hx
      obtain ⟨w, hw⟩ := hE.exW S y z u x
      refine ipp_zero (hE.C y z u x w) (fun l => pts (.L y z u x w l)) (fun l => pts (.R y z u x w l)) (S.resp.a y z u x w)
        (S.resp.b y z u x w) S.lg [] _ fun us hl hp => ?_
      have h := hs.ipp y z u x w us ⟨hy, hz, hu, hx, hw, hp⟩ hl
      have e1 : (fun i => if i < S.N then S.fac u i • pts (.G i) else 0) = fun _ => 0 := by
        funext i; split_ifs with hi
        · rw [hG i hi, smul_zero]
        · rfl
      have e2 : (fun i => if i < S.N then (S.fac u i * y⁻¹ ^ i) • pts (.H i) else 0) = fun _ => 0 := by
        funext i; split_ifs with hi
        · rw [hH i hi, smul_zero]
        · rfl
      unfold ippEq at h
      rw [e1, e2, hB] at h
      simpa using h
    have h2 : ∀ u ∈ fk.U y z, ∀ s < S.k + 3, S.slotA pts s + u • S.slotB pts s = 0 := by
      intro u hu
      refine S.slots_zero (hE.X y z u) _ fun x hx => ?_
      have h := h1 u hu x hx
      unfold openDef at h
      have e1 : ∀ c : Nat → F, ∑ i ∈ range S.N, c i • pts (.G i) = 0 := fun c =>
        Finset.sum_eq_zero fun i hi => by rw [hG i (mem_range.1 hi), smul_zero]
      have e2 : ∀ c : Nat → F, ∑ i ∈ range S.N, c i • pts (.H i) = 0 := fun c =>
        Finset.sum_eq_zero fun i hi => by rw [hH i (mem_range.1 hi), smul_zero]
      rw [hBbl, e1, e2, smul_zero, sub_zero, add_zero, add_zero] at h
      exact h
    intro s hs
    exact two_zero (le_trans (by norm_num) (hE.U y z).2) fun u hu => h2 u hu s hs
  · intro y hy z hz
    obtain ⟨u, hu⟩ := hE.exU S y z
    refine S.poly_coeff (hE.X y z u) (T := fun d => pts (.T y z d)) fun x hx => ?_
    have h := hs.poly y hy z hz u hu x hx
    unfold polyDef at h
    rw [hB, hBbl] at h
    simpa using h

end Sys

end CT
