import Mathlib.Algebra.Order.BigOperators.Group.Finset
import Mathlib.Algebra.BigOperators.Fin
import Mathlib.Tactic.Ring
import Mathlib.Tactic.Linarith
import Verif.Spec.SoundnessError

/-! # A prover that is accepted often has a tree of accepted runs -/

namespace CT
open Finset

section
variable {F : Type} [Fintype F]

/-- The sum of `f` over all extensions of `pre` by `k` challenges. -/
def cnt (f : List F → Nat) : Nat → List F → Nat
  | 0, pre => f pre
  | k + 1, pre => ∑ u : F, cnt f k (pre ++ [u])

open Classical in
/-- There is a subtree of depth `k` below `pre` with more than `b i` branches at depth `i`. -/
noncomputable def GoodAt (f : List F → Nat) (b : Nat → Nat) : Nat → List F → Prop
  | 0, pre => 1 < f pre
  | k + 1, pre => b pre.length < (univ.filter fun u => GoodAt f b k (pre ++ [u])).card

theorem cnt_le {f : List F → Nat} (hf : ∀ l, f l ≤ Fintype.card F) (k : Nat) (pre : List F) : cnt f k pre ≤ Fintype.card F ^ (k + 1) := by
  induction k generalizing pre with
  | zero => simpa [cnt] using hf pre
  | succ k ih =>
    calc cnt f (k + 1) pre ≤ ∑ _u : F, Fintype.card F ^ (k + 1) := sum_le_sum fun u _ => ih _
      _ = _ := by simp [pow_succ]; ring

theorem goodAt_of_cnt {f : List F → Nat} (hf : ∀ l, f l ≤ Fintype.card F) (b : Nat → Nat) (k : Nat) (pre : List F)
    (h : (∑ i ∈ range k, b (pre.length + i) + 1) * Fintype.card F ^ k < cnt f k pre) : GoodAt f b k pre := by
  classical
  induction k generalizing pre with
  | zero => simpa [cnt, GoodAt] using h
  | succ k ih =>
    unfold GoodAt
    by_contra hn
    rw [not_lt] at hn
    apply absurd h
    rw [not_lt]
    set B := ∑ i ∈ range k, b (pre.length + 1 + i) + 1 with hB
    have hsum : ∑ i ∈ range (k + 1), b (pre.length + i) + 1 = b pre.length + B := by
      rw [sum_range_succ', hB]
      simp only [add_zero]
      rw [sum_congr rfl fun i _ => by rw [show pre.length + (i + 1) = pre.length + 1 + i by ring]]
      ring
    rw [hsum]
    set S := univ.filter fun u => GoodAt f b k (pre ++ [u])
    calc cnt f (k + 1) pre = ∑ u ∈ S, cnt f k (pre ++ [u]) + ∑ u ∈ univ.filter (fun u => ¬ GoodAt f b k (pre ++ [u])), cnt f k (pre ++ [u]) := by
          rw [cnt, sum_filter_add_sum_filter_not]
      _ ≤ ∑ _u ∈ S, Fintype.card F ^ (k + 1) + ∑ _u ∈ univ.filter (fun u => ¬ GoodAt f b k (pre ++ [u])), B * Fintype.card F ^ k := by
          refine add_le_add (sum_le_sum fun u _ => cnt_le hf _ _) (sum_le_sum fun u hu => ?_)
          by_contra hlt
          rw [not_le] at hlt
          exact (mem_filter.1 hu).2 (ih (pre ++ [u]) (by simpa [hB] using hlt))
      _ ≤ b pre.length * Fintype.card F ^ (k + 1) + Fintype.card F * (B * Fintype.card F ^ k) := by
          rw [sum_const, sum_const, smul_eq_mul, smul_eq_mul]
          exact add_le_add (Nat.mul_le_mul_right _ hn) (Nat.mul_le_mul_right _ (card_le_univ _))
      _ = (b pre.length + B) * Fintype.card F ^ (k + 1) := by rw [pow_succ]; ring

open Classical in
/-- The branches of the tree. -/
noncomputable def branches (f : List F → Nat) (b : Nat → Nat) (n : Nat) (pre : List F) : Finset F :=
  if b pre.length < (univ.filter fun u => GoodAt f b (n - pre.length - 1) (pre ++ [u])).card then univ.filter fun u => GoodAt f b (n - pre.length - 1) (pre ++ [u])
  else univ

theorem branches_card (f : List F → Nat) {b : Nat → Nat} (n : Nat) (pre : List F) (hb : b pre.length < Fintype.card F) : b pre.length < (branches f b n pre).card := by
  unfold branches
  split
  · assumption
  · rwa [card_univ]

theorem branches_leaf (f : List F → Nat) (b : Nat → Nat) {n : Nat} {Cs : List F → Finset F} (hC : ∀ pre, Cs pre ⊆ branches f b n pre) (us pre : List F)
    (hl : pre.length + us.length = n) (hg : GoodAt f b us.length pre) (hp : InPaths Cs pre us) : 1 < f (pre ++ us) := by
  classical
  induction us generalizing pre with
  | nil => simpa [GoodAt] using hg
  | cons u us ih =>
    obtain ⟨h1, h2⟩ := hp
    have hk : n - pre.length - 1 = us.length := by simp at hl; omega
    have h1 := hC pre h1
    have hg' : b pre.length < _ := hg
    unfold branches at h1
    rw [hk, if_pos (by convert hg'), mem_filter] at h1
    have := ih (pre ++ [u]) (by simp at hl ⊢; omega) h1.2 h2
    simpa using this

theorem cnt_ofFn (f : List F → Nat) (k : Nat) (pre : List F) : cnt f k pre = ∑ us : Fin k → F, f (pre ++ List.ofFn us) := by
  induction k generalizing pre with
  | zero => simp [cnt]
  | succ k ih =>
    rw [cnt, ← (Fin.consEquiv fun _ => F).sum_comp, Fintype.sum_prod_type]
    refine sum_congr rfl fun u _ => ?_
    rw [ih]
    refine sum_congr rfl fun us _ => ?_
    simp [Fin.consEquiv]

end

section
variable {F G X : Type} [Field F] [Fintype F] [DecidableEq F] [AddCommGroup G] [Module F G] [DecidableEq G]

/-- The branches needed at every depth. -/
def neededBranches (c : Circuit F) (lg : Nat) : Nat → Nat
  | 0 => 2 ^ lg
  | 1 => c.constraints.length
  | 2 => 5
  | 3 => 2 * (opDegree c.dims.length + 1)
  | 4 => 2
  | _ => 7

omit [Field F] [Fintype F] [DecidableEq F] in
theorem sum_needed (c : Circuit F) (lg : Nat) : ∑ i ∈ range (5 + lg), neededBranches c lg i + 1 = soundnessLoss c lg := by
  have : ∀ i, neededBranches c lg (5 + i) = 7 := by intro i; rw [Nat.add_comm]; rfl
  rw [sum_range_add, sum_congr rfl fun i _ => this i]
  simp only [sum_range_succ, sum_range_zero, neededBranches, soundnessLoss, sum_const, card_range, smul_eq_mul]
  ring

/-- Squaring maps at most two elements to one. -/
theorem four_squares {S : Finset F} (h : 7 ≤ S.card) : 4 ≤ (S.image (· ^ 2)).card := by
  by_contra hn
  have : S.card ≤ 2 * (S.image (· ^ 2)).card := by
    refine card_le_mul_card_image S 2 fun a _ => ?_
    by_cases hs : ∃ s, s ^ 2 = a
    · obtain ⟨s, rfl⟩ := hs
      refine le_trans (card_le_card (t := {s, -s}) ?_) (card_le_two)
      intro x hx
      simpa using sq_eq_sq_iff_eq_or_eq_neg.1 (mem_filter.1 hx).2
    · rw [filter_eq_empty_iff.2]
      · simp
      · exact fun x _ hx => hs ⟨x, hx⟩
  omega

omit [Fintype F] in
theorem card_erase_zero {S : Finset F} {k : Nat} (h : k < S.card) : k ≤ (S.erase 0).card := by
  have := pred_card_le_card_erase (s := S) (a := (0 : F))
  omega

/-- The leaves. -/
def leafCount (g : Gens G) (t : VState F G X) (M : Messages F G) (R : Responses F) (coins : (y z u x w : F) → List F → Oracle F G X) : List F → Nat
  | y :: z :: u :: x :: w :: us => ∑ r : F, if verify (coins y z u x w us) g r (strategyProof M R y z u x w us) t = .ok () then 1 else 0
  | _ => 0

theorem leafCount_le (g : Gens G) (t : VState F G X) (M : Messages F G) (R : Responses F) (coins : (y z u x w : F) → List F → Oracle F G X) (l : List F) :
    leafCount g t M R coins l ≤ Fintype.card F := by
  unfold leafCount
  split
  · refine le_trans (sum_le_sum (g := fun _ => 1) fun r _ => ?_) (by simp)
    split <;> simp
  · simp

/-- A prover that is accepted often has a tree of accepted runs. -/
theorem tree_of_often {c : Circuit F} {lg : Nat} {g : Gens G} {t t2 : VState F G X} {M : Messages F G} {R : Responses F}
    {coins : (y z u x w : F) → List F → Oracle F G X} (hI : Interactive coins t t2 M R lg)
    (h : soundnessLoss c lg * Fintype.card F ^ (5 + lg) < acceptedChallenges g t M R lg coins) :
    ∃ fk : Forks F, fk.Enough c lg ∧ AcceptsTree g t t2 M R fk lg := by
  set f := leafCount g t M R coins with hf
  set b := neededBranches c lg with hb
  have hle := leafCount_le g t M R coins
  have hcnt : acceptedChallenges g t M R lg coins = cnt f (5 + lg) [] := by
    rw [Nat.add_comm]
    simp only [cnt, cnt_ofFn]
    rfl
  have hq : soundnessLoss c lg < Fintype.card F := by
    have h1 := cnt_le hle (5 + lg) []
    rw [hcnt] at h
    have h2 := lt_of_lt_of_le h h1
    rw [pow_succ, mul_comm] at h2
    exact lt_of_mul_lt_mul_left h2 (Nat.zero_le _)
  have hbq : ∀ i, b i < Fintype.card F := by
    intro i
    refine lt_of_le_of_lt ?_ hq
    unfold soundnessLoss
    have h2 := Nat.one_le_two_pow (n := lg)
    match i with
    | 0 => simp only [hb, neededBranches]; omega
    | 1 => simp only [hb, neededBranches]; omega
    | 2 => simp only [hb, neededBranches]; omega
    | 3 => simp only [hb, neededBranches]; omega
    | 4 => simp only [hb, neededBranches]; omega
    | n + 5 =>
      simp only [hb, neededBranches]
      omega
  have hgood : GoodAt f b (5 + lg) [] := by
    refine goodAt_of_cnt hle b _ _ ?_
    rw [← hcnt]
    simpa [hb, sum_needed] using h
  have hcard : ∀ pre, b pre.length < (branches f b (5 + lg) pre).card := fun pre => branches_card f _ pre (hbq _)
  have hC : ∀ (y z u x w : F) pre, 7 < (branches f b (5 + lg) (y :: z :: u :: x :: w :: pre)).card := fun y z u x w pre => hcard (y :: z :: u :: x :: w :: pre)
  refine ⟨⟨(branches f b (5 + lg) []).erase 0, fun y => branches f b (5 + lg) [y], fun y z => (branches f b (5 + lg) [y, z]).erase 0,
    fun y z u => branches f b (5 + lg) [y, z, u], fun y z u x => (branches f b (5 + lg) [y, z, u, x]).erase 0,
    fun y z u x w pre => (branches f b (5 + lg) (y :: z :: u :: x :: w :: pre)).erase 0⟩, ?_, ?_⟩
  · refine ⟨⟨by simp, card_erase_zero (hcard [])⟩, fun y => hcard [y], fun y z => ⟨by simp, card_erase_zero (hcard [y, z])⟩, fun y z u => hcard [y, z, u],
      fun y z u x => ⟨by simp, card_erase_zero (hcard [y, z, u, x])⟩, fun y z u x w pre => ⟨by simp, ?_⟩⟩
    exact four_squares (card_erase_zero (hC y z u x w pre))
  · rintro y z u x w us ⟨h1, h2, h3, h4, h5, h6⟩ hl
    set Cs : List F → Finset F := fun pre => match pre with
      | [] => (branches f b (5 + lg) []).erase 0
      | [y] => branches f b (5 + lg) [y]
      | [y, z] => (branches f b (5 + lg) [y, z]).erase 0
      | [y, z, u] => branches f b (5 + lg) [y, z, u]
      | [y, z, u, x] => (branches f b (5 + lg) [y, z, u, x]).erase 0
      | y :: z :: u :: x :: w :: pre => (branches f b (5 + lg) (y :: z :: u :: x :: w :: pre)).erase 0 with hCs
    have hsub : ∀ pre, Cs pre ⊆ branches f b (5 + lg) pre := by
      intro pre
      simp only [hCs]
      split <;> first | exact erase_subset _ _ | exact subset_rfl
    have hin : ∀ us pre, InPaths (fun pre => (branches f b (5 + lg) (y :: z :: u :: x :: w :: pre)).erase 0) pre us → InPaths Cs (y :: z :: u :: x :: w :: pre) us := by
      intro us
      induction us with
      | nil => simp [InPaths]
      | cons v us ih => exact fun pre h => ⟨h.1, ih _ h.2⟩
    have hleaf := branches_leaf f b hsub (y :: z :: u :: x :: w :: us) [] (by simp [hl]; omega)
      (by rw [show (y :: z :: u :: x :: w :: us).length = 5 + lg by simp [hl]; omega]; exact hgood) ⟨h1, h2, h3, h4, h5, hin us [] h6⟩
    have hleaf : 1 < ∑ r : F, if verify (coins y z u x w us) g r (strategyProof M R y z u x w us) t = .ok () then 1 else 0 := hleaf
    rw [← card_filter, one_lt_card] at hleaf
    obtain ⟨r, hr, r', hr', hne⟩ := hleaf
    exact ⟨coins y z u x w us, (hI y z u x w us hl).1, (hI y z u x w us hl).2, r, r', hne, (mem_filter.1 hr).2, (mem_filter.1 hr').2⟩

end
/-- No more challenges are accepted than there are. -/
theorem acceptedChallenges_le {F G X : Type} [Field F] [Fintype F] [DecidableEq F] [AddCommGroup G] [Module F G] [DecidableEq G] (g : Gens G) (t : VState F G X) (M : Messages F G) (R : Responses F) (lg : Nat) (coins : (y z u x w : F) → List F → Oracle F G X) :
    acceptedChallenges g t M R lg coins ≤ Fintype.card F ^ (6 + lg) := by
  unfold acceptedChallenges
  have h1 : ∀ (y z u x w : F), ∑ us : Fin lg → F, ∑ r : F,
      (if verify (coins y z u x w (List.ofFn us)) g r (strategyProof M R y z u x w (List.ofFn us)) t = .ok () then 1 else 0) ≤ Fintype.card F ^ (lg + 1) := by
    intro y z u x w
    refine (sum_le_sum (g := fun _ => Fintype.card F) fun us _ => ?_).trans ?_
    · refine (sum_le_sum (g := fun _ => 1) fun r _ => ?_).trans (by simp)
      split <;> simp
    · simp [pow_succ]
  have hs : ∀ (f : F → Nat) (n : Nat), (∀ a, f a ≤ Fintype.card F ^ n) → ∑ a : F, f a ≤ Fintype.card F ^ (n + 1) := by
    intro f n hf
    refine (sum_le_sum fun a _ => hf a).trans ?_
    simp [pow_succ, mul_comm]
  rw [show 6 + lg = lg + 1 + 1 + 1 + 1 + 1 + 1 by ring]
  exact hs _ _ fun y => hs _ _ fun z => hs _ _ fun u => hs _ _ fun x => hs _ _ fun w => h1 y z u x w

end CT
