-- `SpendExample` is imported only so that the two are not built at the same time, which would need too much memory
import Verif.Props.SpendExample
import Verif.Props.PourHiding

/-!
# C51: two payments and one transaction
-/

namespace CT

section Example
open Curve19

/-- The coins `11h` (amount 1) and `3h` (amount 4) are spent, coins of 3 and 2 are minted for the key 9. -/
def payA : Payment Nat Nat Nat (ZMod 19) := ⟨coin11, coin3, 3, 9, 2, 9⟩
/-- The coins `3h` and `11h` are spent, coins of 1 and 4 are minted for the keys 7 and 8. -/
def payB : Payment Nat Nat Nat (ZMod 19) := ⟨coin3, coin11, 1, 7, 4, 8⟩

/-- The scalars 16 and 14 move leaf 2 of the tree and its parent to where 5 and 2 move leaf 0 and its parent. -/
theorem moved' : ∀ (p : Bool) (x : ZMod 19), childAt (C := Cs) nodes p 0 + (x • h : Curve19.C.Pt) = childAt (C := Cs) nodes_0 p 0 + (rnd p 0 : ZMod 19) • (h : Curve19.C.Pt) →
    x = if p then 14 else 16 := by decide +kernel

/-- Usable scalars for leaf 2. -/
theorem spendOk_moved' {r : ∀ p : Bool, Nat → Curve19.B (!p)} (h1 : r false 0 = (16 : ZMod 19)) (h2 : r true 0 = (14 : ZMod 19)) : SpendOk prm T 2 r where
  even := by rw [height_T]; intro j hj; omega
  odd := by
    rw [height_T]
    intro j hj
    obtain rfl : j = 0 := by omega
    rw [h2]
    change (14 : ZMod 19) ≠ 0
    decide
  avoids := by
    have key : ∀ p, ∀ w ∈ (nodes p).map (·.child), prm.Avoids (!p) w (if p then (16 : ZMod 19) else (14 : ZMod 19)) := by decide +kernel
    have hl : ∀ p, (nodes p).length = 1 := by decide +kernel
    intro nodes' hw p k w hk
    rw [← Except.ok.inj (witness_T.symm.trans hw)] at hk
    have hk0 : k = 0 := by
      have := (List.getElem?_eq_some_iff.1 hk).1
      rw [hl p] at this
      omega
    subst hk0
    have := key p _ (List.mem_map.2 ⟨w, List.mem_of_getElem? hk, rfl⟩)
    cases p
    · rw [show r (!false) 0 = (14 : ZMod 19) from h2]; exact this
    · rw [show r (!true) 0 = (16 : ZMod 19) from h1]; exact this

set_option maxRecDepth 4000 in
/-- Non-vacuity of `C51_pour_hides`: one transaction which is made by `payA` and, with other randomness, by `payB`. -/
example (fx : Bool) (cod : Codec (PourOf Cs Nat)) (hcod : ∀ pour : PourOf Cs Nat, pour.Fits → cod.dec (cod.enc pour) = some (pour, [])) :
    ∃ tx r, payA.run o fx prm anyScheme cod T (fun _ => []) prand1 = .ok tx ∧ payB.run o fx prm anyScheme cod T (fun _ => []) r = .ok tx := by
  have hcap : ∀ p, (prm.gens p).capacity ≤ (prm.gens p).Gs.length ∧ (prm.gens p).capacity ≤ (prm.gens p).Hs.length :=
    fun p => by obtain ⟨h1, h2, h3⟩ := gens_length p; rw [h1, h2, h3]; exact ⟨le_rfl, le_rfl⟩
  have hh : ∀ p, prm.h p ≠ 0 := by
    have : (h : Curve19.C.Pt) ≠ 0 := by decide +kernel
    exact fun _ => this
  have nz : ∀ n : Nat, ((n % 18 + 1 : Nat) : ZMod 19) ≠ 0 := by
    intro n hn
    have := (ZMod.natCast_eq_zero_iff _ 19).1 hn
    have := Nat.le_of_dvd (by omega) this
    omega
  obtain ⟨path0, path1, c0, c1, sE, sO, h1, h2, -⟩ := C45_honest_pour_accepted_partial valid tree_gens le_rfl hcap fromSet_T (by decide) (by rw [height_T]; decide) (.inl (by decide))
    o fx anyScheme cod prand1 owned11 owned3 spendOk_2 spendOk_0 (val0 := 3) (val1 := 2) (by norm_num) (by norm_num) rfl 9 9 (fun _ => [])
  have hs := sizes fx
  rw [h1] at hs
  obtain ⟨s1, s2, s3, s4⟩ := of_decide_eq_true hs
  obtain ⟨tx, htx⟩ := h2 (s1.trans (gens_length false).2.2.ge) (s2.trans (gens_length true).2.2.ge) s3 s4 (fun p tr => ⟨nz _, nz _⟩)
  obtain ⟨φ, k1, k2⟩ := C51_pour_hides valid tree_gens le_rfl hcap hh
    (fun p P => ⟨(log P : ZMod 19), by
      have : (log P : ZMod 19).val • h = P := by
        rw [ZMod.val_natCast, mod_smul, log_spec]
      exact (this.symm.trans (mulPt_eq _ _).symm)⟩)
    fromSet_T (by decide) (by rw [height_T]; decide) (.inl (by decide)) o fx anyScheme cod hcod
    (fun p => by rw [(gens_length p).2.2]; norm_num) (fun p tr => ⟨nz _, nz _, nz _⟩) (a := payA) (b := payB)
    ⟨owned11, owned3, by norm_num [payA], by norm_num [payA], rfl⟩ ⟨owned3, owned11, by norm_num [payB], by norm_num [payB], rfl⟩ rfl rfl
    (fun _ => ⟨.refl _, fun _ => rfl⟩) (fun _ => ⟨.refl _, fun _ => rfl⟩) (fun _ => []) tx
  obtain ⟨-, -, -, m0, m1⟩ := k1 prand1
  have n0 := m0 nodes nodes_0 witness_T witness_0
  have n1 := m1 nodes_0 nodes witness_0 witness_T
  refine ⟨tx, φ prand1, htx, (k2 prand1 ⟨spendOk_2, spendOk_0⟩ ⟨?_, ?_⟩).1 htx⟩
  · exact spendOk_moved (moved false _ (n0 false 0)) (moved true _ (n0 true 0))
  · exact spendOk_moved' (moved' false _ (n1 false 0)) (moved' true _ (n1 true 0))

end Example

end CT
