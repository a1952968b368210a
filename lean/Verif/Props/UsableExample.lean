import Verif.Props.SoundnessErrorExample
import Verif.Props.Usable

/-! # C70 for the tree of three leaves on the curve of 19 points -/

namespace CT
open Curve19

/-- Four of the 19 scalars cannot be used whatever the point is. -/
theorem exceptional_19 (p : Bool) : {r : Curve19.B (!p) | prm.Exceptional p r}.ncard ≤ 4 := by
  have key : ∀ r : ZMod 19, (r = 0 ∨ ¬ ChainOk Curve19.C 6 h r.val) → r ∈ ({0, 4, 8, 15} : Finset (ZMod 19)) := by decide +kernel
  have h1 : {r : Curve19.B (!p) | prm.Exceptional p r} ⊆ (({0, 4, 8, 15} : Finset (ZMod 19)) : Set (ZMod 19)) := fun r hr => key r hr
  refine (Set.ncard_le_ncard h1).trans ?_
  rw [Set.ncard_coe_finset]
  exact (show ({0, 4, 8, 15} : Finset (ZMod 19)).card ≤ 4 by decide)

theorem base_19 (p : Bool) : prm.h p ≠ 0 := by
  have : (h : Curve19.C.Pt) ≠ 0 := by decide +kernel
  exact this

theorem shifted_2 (nodes' : WitPath Curve19.B (Pts Cs)) (hw : T.witness prm.tree 2 0 = .ok nodes') (p : Bool) (k : Nat) (w) (hk : (nodes' p)[k]? = some w) :
    w.child + (prm.layer (!p)).delta ≠ 0 := by
  rw [← Except.ok.inj (witness_T.symm.trans hw)] at hk
  have key : ∀ p, ∀ w ∈ (nodes p).map (·.child), (w : Curve19.C.Pt) + h ≠ 0 := by decide +kernel
  exact key p _ (List.mem_map.2 ⟨w, List.mem_of_getElem? hk, rfl⟩)

theorem shifted_0 (nodes' : WitPath Curve19.B (Pts Cs)) (hw : T.witness prm.tree 0 0 = .ok nodes') (p : Bool) (k : Nat) (w) (hk : (nodes' p)[k]? = some w) :
    w.child + (prm.layer (!p)).delta ≠ 0 := by
  rw [← Except.ok.inj (witness_0.symm.trans hw)] at hk
  have key : ∀ p, ∀ w ∈ (nodes_0 p).map (·.child), (w : Curve19.C.Pt) + h ≠ 0 := by decide +kernel
  exact key p _ (List.mem_map.2 ⟨w, List.mem_of_getElem? hk, rfl⟩)

theorem scalars_19 : Fintype.card (PathScalars Curve19.B T.height) = 19 * 19 := by
  rw [height_T, Fintype.card_pi, Fintype.prod_bool]
  have h1 : Fintype.card (Fin 1 → ZMod 19) = 19 := by rw [Fintype.card_fun, Fintype.card_fin, ZMod.card, pow_one]
  exact congrArg₂ (· * ·) h1 h1

set_option maxRecDepth 10000 in
/-- Non-vacuity of `C70_usable`: of the 361 pairs of scalars for leaf 2 at most 228 are not usable. -/
theorem usable_19 : {ω : PathScalars Curve19.B T.height | ¬ SpendOk prm T 2 ω.stream}.ncard ≤ 228 := by
  have h1 := C70_usable tree_gens le_rfl base_19 fromSet_T (by decide) (i := 2) (by decide) shifted_2 exceptional_19 (Q := 19) (fun _ => le_rfl)
  rw [scalars_19, height_T] at h1
  exact Nat.le_of_mul_le_mul_left (h1.trans (show _ ≤ 19 * 228 by norm_num)) (show 0 < 19 by decide)

set_option maxRecDepth 10000 in
/-- Non-vacuity of `C70_honest_path_accepted`: some scalars lead to an accepted path, for a fresh pair of provers and verifiers. -/
example (fx : Bool) : ∃ ω : PathScalars Curve19.B T.height, ∃ path r sE' sO' tE' tO', treeProverGadget (o false) (o true) fx prm ω.stream T 2 0 (.new []) (.new []) = .ok ((path, r), sE', sO') ∧
    treeVerifierGadget (o false) (o true) fx prm T path (.new []) (.new []) = .ok ((11 • h + (show ZMod 19 from r) • h : Curve19.C.Pt), tE', tO') ∧ sE'.Satisfied ∧ sO'.Satisfied := by
  have gnew : ∀ p, PState.Good (PState.new [] : SideP Cs p) := fun p =>
    ⟨⟨rfl, rfl, by intro i hi; simp [PState.new] at hi, by simp [PState.new]⟩, by simp [PState.new], by simp [PState.new]⟩
  have h1 := C70_honest_path_accepted valid tree_gens le_rfl base_19 fromSet_T (by decide) (by rw [height_T]; decide) (i := 2) (by decide) shifted_2 exceptional_19 (Q := 19) (fun _ => le_rfl)
    (o false) (o true) fx (Session.new []) (Session.new []) (gnew false) (gnew true)
  by_contra hno
  have h2 := h1.trans (show _ ≤ 19 * 228 by rw [scalars_19, height_T])
  have h3 := Nat.le_of_mul_le_mul_left h2 (show 0 < 19 by decide)
  have h4 : (Set.univ : Set (PathScalars Curve19.B T.height)).ncard ≤ 228 := (Set.ncard_le_ncard fun ω _ hω => hno ⟨ω, hω⟩).trans h3
  rw [Set.ncard_univ, Nat.card_eq_fintype_card, scalars_19] at h4
  norm_num at h4

set_option maxRecDepth 10000 in
/-- Non-vacuity of `C70_payment`, for a payment that spends leaves 2 and 0. -/
example : {ω : PathScalars Curve19.B T.height × PathScalars Curve19.B T.height | ¬ (SpendOk prm T 2 ω.1.stream ∧ SpendOk prm T 0 ω.2.stream)}.ncard ≤ 24 * 19 * 19 * 19 := by
  have h1 := C70_payment tree_gens le_rfl base_19 fromSet_T (by decide) (i := 2) (i' := 0) (by decide) (by decide)
    (by rintro j (rfl | rfl); exacts [shifted_2, shifted_0]) exceptional_19 (Q := 19) (fun _ => le_rfl)
  rw [Fintype.card_prod, scalars_19, height_T] at h1
  exact Nat.le_of_mul_le_mul_left (h1.trans (show _ ≤ 19 * (24 * 19 * 19 * 19) by norm_num)) (show 0 < 19 by decide)

set_option maxRecDepth 10000 in
/-- Non-vacuity of `C70_anonymity_loss`, for the leaves 2 and 0 and a bijection as in C50. -/
example : ∃ φ : (∀ p, Nat → Curve19.B (!p)) ≃ (∀ p, Nat → Curve19.B (!p)),
    {ω : PathScalars Curve19.B T.height | ¬ (SpendOk prm T 2 ω.stream ∧ SpendOk prm T 0 (φ ω.stream))}.ncard ≤ 24 * 19 := by
  obtain ⟨φ, hφ⟩ := path_bijection (prm := prm) (fun p P => ⟨(log P : ZMod 19), by
      have : (log P : ZMod 19).val • h = P := by
        rw [ZMod.val_natCast, mod_smul, log_spec]
      exact (this.symm.trans (mulPt_eq _ _).symm)⟩) tree_gens le_rfl fromSet_T (by decide) (i := 2) (i' := 0) (by decide) (by decide)
  have h1 := C70_anonymity_loss tree_gens le_rfl base_19 fromSet_T (by decide) (i := 2) (i' := 0) (by decide) (by decide)
    (by rintro j (rfl | rfl); exacts [shifted_2, shifted_0]) exceptional_19 (Q := 19) (fun _ => le_rfl) φ hφ
  rw [scalars_19, height_T] at h1
  exact ⟨φ, Nat.le_of_mul_le_mul_left (h1.trans (show _ ≤ 19 * (24 * 19) by norm_num)) (show 0 < 19 by decide)⟩

end CT
