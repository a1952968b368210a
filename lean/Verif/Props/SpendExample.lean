import Verif.Props.Spend
import Verif.Props.PourHonest

/-!
# C44, C46: an honest payment meets the hypotheses of the theorems on what a payment spends
-/

namespace CT

section Example
open Curve19

/-- The coin `3h`, of amount 4, opened by the tag 2 of a key and the blinding 8. -/
def coin3b : SpendingInfo Nat Nat Nat (ZMod 19) := ⟨0, ⟨4, 2, 8, 0⟩, 2, 0⟩

/-- The coins with the commitments `3h, 5h, 11h`. -/
def coins3 : List (Coin (ZMod 19) Nat) := [coin3b.coin, ⟨0, 0, 5, 0⟩, coin11.coin]

set_option maxRecDepth 4000 in
theorem coins3_set : (coins3.map fun a => Coin.commitment (F := Curve19.B (!false)) (G := (Cs false).Pt) (prm.gens false) a) = Curve19.set := by
  decide +kernel

/-- The two paths of the payment have the length of the tree, and avoid `-Δ`. -/
theorem spend_paths : (match pourProvers o true prm anyScheme T prand1 coin11 coin3b 3 9 2 9 (.new []) (.new []) with
    | .ok ((path0, path1, _, _), _, _) => decide (path0.even.length + path0.odd.length + 1 = 2 ∧ path1.even.length + path1.odd.length + 1 = 2 ∧
        (∀ c ∈ path0.even ++ path1.even, c + (prm.layer false).delta ≠ 0) ∧ (∀ c ∈ path0.odd ++ path1.odd, c + (prm.layer true).delta ≠ 0) ∧
        ∀ c ∈ [path0.selected, path1.selected], c + (prm.layer false).delta ≠ 0)
    | .error _ => false) = true := by
  decide +kernel

set_option maxRecDepth 4000 in
/-- Non-vacuity of `C44_pour_spends_partial` and `C46_different_tags_partial`: in the tree with leaves `3h, 5h, 11h` the owner of the coins `11h` (amount 1) and `3h` (amount 4) pays,
with coins of 3 and 2. The paths, the assignments and the openings of their Prover satisfy all hypotheses. -/
theorem honest_spend (pE : R1CSProof (ZMod 19) Curve19.C.Pt) (pO : R1CSProof (ZMod 19) Curve19.C.Pt) :
    ∃ (pour : PourOf Cs Nat) (t : ∀ p, SideV Cs p) (w w' : Assignment (ZMod 19)) (bl bl' : Nat → ZMod 19),
    (∀ a ∈ coins3, a.value < 2 ^ 64) ∧ anyScheme.tag pour.pk0 ≠ anyScheme.tag pour.pk1 ∧
    fromSet prm.tree (coins3.map fun a => Coin.commitment (F := Curve19.B (!false)) (G := (Cs false).Pt) (prm.gens false) a) none 10 = some (.ok T) ∧
    pourCircuits o true prm anyScheme.tag T (fun _ => []) pour = .ok (t false, t true) ∧
    pour.path0.even.length + pour.path0.odd.length + 1 = T.height ∧ pour.path1.even.length + pour.path1.odd.length + 1 = T.height ∧
    (∀ c ∈ pour.path0.even ++ pour.path1.even, c + (prm.layer false).delta ≠ 0) ∧
    (∀ c ∈ pour.path0.odd ++ pour.path1.odd, c + (prm.layer true).delta ≠ 0) ∧
    (∀ c ∈ [pour.path0.selected, pour.path1.selected], c + (prm.layer false).delta ≠ 0) ∧
    (t false).SatisfiedBy w ∧ (t true).SatisfiedBy w' ∧
    (t false).OpenedBy (prm.gens false) w bl ∧ (t true).OpenedBy (prm.gens true) w' bl' := by
  have ht0 := pathTo_T
  have ht1 : T.PathTo prm.tree 0 nodes_0 ⟨false, 3 • h⟩ := by
    obtain ⟨nodes', e, hp⟩ := C26_witness_partial (prm := prm.tree) tree_gens le_rfl fromSet_T (by decide) 0 (i := 0) (by decide)
    rw [← Except.ok.inj (witness_0.symm.trans e)] at hp
    exact hp
  have e11 : (11 • h : Curve19.C.Pt) = coin11.coin.commitment (F := Curve19.B (!false)) (prm.gens false) := by decide +kernel
  have e3 : (3 • h : Curve19.C.Pt) = coin3b.coin.commitment (F := Curve19.B (!false)) (prm.gens false) := by decide +kernel
  rw [e11] at ht0
  rw [e3] at ht1
  obtain ⟨path0, path1, c0, c1, sE, sO, tE, tO, ds, h1, h2, h3, h4, h5, h6, -⟩ := pourProvers_session (o := o) (fx := true) valid
    (fun p => by obtain ⟨h1, h2, h3⟩ := gens_length p; rw [h1]; decide) le_rfl (by rw [height_T]; decide) (sch := anyScheme) (rnd := prand1)
    (in0 := coin11) (in1 := coin3b) witness_T witness_0 ht0 ht1 spendOk_2 spendOk_0 owned11.2 (by decide) (val0 := 3) (val1 := 2)
    (by norm_num) (by norm_num) rfl 9 9 (fun _ => [])
  have hp := spend_paths
  rw [h1] at hp
  obtain ⟨k1, k2, k3, k4, k5⟩ := of_decide_eq_true hp
  obtain ⟨a1, a2⟩ := honest_opens h3.inv.sync (PState.widen_satisfied ds h5.satisfied)
  obtain ⟨b1, b2⟩ := honest_opens h4.inv.sync h6.satisfied
  exact ⟨⟨pE, pO, path0, path1, _, _, c0, c1⟩, fun p => match p with | false => tE | true => tO, _, _, _, _, by decide, by change (1 : ZMod 19) ≠ (2 : Nat); decide, by rw [coins3_set]; exact fromSet_T,
    h2 pE pO, by rw [height_T]; exact k1, by rw [height_T]; exact k2, k3, k4, k5, a1, b1, a2, b2⟩

end Example

end CT
