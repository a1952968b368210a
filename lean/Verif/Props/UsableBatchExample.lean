import Verif.Props.UsableExample
import Verif.Props.BatchSizes

/-! # C65, C70 and C72 for batches of two leaves of the tree on the curve of 19 points -/

namespace CT
open Curve19

instance (p : Bool) (c : Fin 2 → Curve19.C.Pt) : Decidable (prm.Summable p c) :=
  decidable_of_iff ((∀ j, c j + h ≠ 0) ∧ (∀ j : Fin 2, 0 < j.val → Curve19.C.DiffX (∑ i : Fin j.val, (c ⟨i, i.2.trans j.2⟩ + h)) (c j + h)) ∧ ∑ j, (c j + h) ≠ 0)
    ⟨fun h => ⟨h.1, h.2.1, h.2.2⟩, fun h => ⟨h.finite, h.sums, h.total⟩⟩

theorem ready_2 (nodes' : MultiWitPath 2 Curve19.B (Pts Cs)) (hw : T2.multiWitness prm.tree idx2 = .ok nodes') : prm.BatchReady nodes' := by
  rw [← Except.ok.inj (witness_T2.symm.trans hw)]
  have h1 : (nodes2 true).length = 1 := by decide +kernel
  refine ⟨fun p k f hf hk => ?_, fun f hf j => ?_⟩
  · cases p with
    | true => have := hk rfl; omega
    | false =>
      have key : ∀ c ∈ (nodes2 false).map fun (f : Fin 2 → Wit Curve19.B (Pts Cs) false) => fun j => (f j).child, prm.Summable true c := by decide +kernel
      exact key _ (List.mem_map.2 ⟨f, List.mem_of_getElem? hf, rfl⟩)
  · have key : ∀ c ∈ (nodes2 true).map fun (f : Fin 2 → Wit Curve19.B (Pts Cs) true) => fun j => (f j).child, ∀ j, ((c j : Curve19.C.Pt) + h) ≠ 0 := by decide +kernel
    exact key _ (List.mem_map.2 ⟨f, List.mem_of_getLast? hf, rfl⟩) j

theorem value_19 (p : Bool) : (prm.gens p).pc.B ≠ 0 := by
  have : ∀ p, (prm.gens p).pc.B ≠ (0 : Curve19.C.Pt) := by decide +kernel
  exact this p

set_option maxRecDepth 10000 in
theorem batch_scalars_19 : Fintype.card (BatchScalars Curve19.B T2.height 2) = 19 * 19 * 19 := by
  rw [height_T2, Fintype.card_pi, Fintype.prod_bool]
  have h1 : Fintype.card (Fin 1 → ZMod 19) = 19 := by rw [Fintype.card_fun, Fintype.card_fin, ZMod.card, pow_one]
  have h2 : Fintype.card (Fin 2 → ZMod 19) = 19 * 19 := by rw [Fintype.card_fun, Fintype.card_fin, ZMod.card, pow_two]
  have h3 := congrArg₂ (· * ·) h1 h2
  exact h3.trans (show (19 : Nat) * (19 * 19) = 19 * 19 * 19 by norm_num)

set_option maxRecDepth 10000 in
/-- Non-vacuity of `C70_batch_usable`: of the 6859 triples of scalars for leaves 2 and 0 at most 6498 are not usable. -/
theorem batch_usable_19 : {ω : BatchScalars Curve19.B T2.height 2 | ¬ MultiOk prm T2 idx2 ω.stream ω.leaves}.ncard ≤ 6498 := by
  have h1 := C70_batch_usable tree_gens2 le_rfl base_19 fromSet_T2 (by decide) (by rw [height_T2]; decide) (indices := idx2) (by decide) ready_2 exceptional_19 (Q := 19) (fun _ => le_rfl)
  rw [batch_scalars_19, height_T2] at h1
  exact Nat.le_of_mul_le_mul_left (h1.trans (show _ ≤ 19 * 6498 by norm_num)) (show 0 < 19 by decide)

set_option maxRecDepth 10000 in
/-- Non-vacuity of `C72_batched_membership`: some scalars are usable, and for them the gadgets accept the leaves 2 and 0. -/
example (fx : Bool) : ∃ ω : BatchScalars Curve19.B T2.height 2, ∃ path sE sO tE tO,
    multiTreeProverGadget (o false) (o true) fx prm ω.stream ω.leaves T2 idx2 (.new []) (.new []) = .ok ((path, ω.leaves), sE, sO) ∧
    multiTreeVerifierGadget (o false) (o true) fx prm T2 path (.new []) (.new []) =
      .ok (fun j => Curve19.set[idx2 j]'((by decide : ∀ j, idx2 j < Curve19.set.length) j) + ω.leaves j • prm.h false, tE, tO) := by
  have gnew : ∀ p, PState.Good (PState.new [] : SideP Cs p) := fun p =>
    ⟨⟨rfl, rfl, by intro i hi; simp [PState.new] at hi, by simp [PState.new]⟩, by simp [PState.new], by simp [PState.new]⟩
  by_contra hno
  have h4 : (Set.univ : Set (BatchScalars Curve19.B T2.height 2)).ncard ≤ 6498 := by
    refine (Set.ncard_le_ncard (t := {ω : BatchScalars Curve19.B T2.height 2 | ¬ MultiOk prm T2 idx2 ω.stream ω.leaves}) fun ω _ hs => hno ?_).trans batch_usable_19
    obtain ⟨path, sE, sO, tE, tO, h1, h2, -, -⟩ := C72_batched_membership valid tree_gens2 le_rfl fromSet_T2 (by decide) (by rw [height_T2]; decide) (o false) (o true) fx
      (indices := idx2) (by decide) hs (fun p => by rw [(gens_length p).1, (gens_length p).2.2]) (fun p => by rw [(gens_length p).2.1, (gens_length p).2.2]) value_19 base_19 (Session.new []) (Session.new []) (gnew false) (gnew true) rfl rfl
    exact ⟨ω, path, sE, sO, tE, tO, h1, h2⟩
  rw [Set.ncard_univ, Nat.card_eq_fintype_card, batch_scalars_19] at h4
  norm_num at h4

theorem batch_accepted {even : Bool} {rnd : ∀ p : Bool, Nat → Curve19.B (!p)} {leafR : Fin 2 → Curve19.B (!false)} {T : CurveTree 2 2 (Pts Cs)} {idx : Fin 2 → Nat} {a : Nat}
    (h : acceptedBatch even rnd leafR T idx a = true) : ∃ path r sE sO, multiTreeProverGadget (o false) (o true) false prm rnd leafR T idx (.new []) (.new []) = .ok ((path, r), sE, sO) ∧
      (even = true → ∃ p tr, prove (o false) (prm.gens false) (pr a) sE = .ok (p, tr)) ∧ (even = false → ∃ p tr, prove (o true) (prm.gens true) (pr a) sO = .ok (p, tr)) := by
  unfold acceptedBatch at h
  split at h
  swap
  · cases h
  rename_i sE sO tE tO hs
  unfold batchStates at hs
  split at hs
  swap
  · cases hs
  rename_i path r s hp
  split at hs
  swap
  · cases hs
  obtain ⟨h1, -⟩ := Prod.mk.inj (Option.some.inj hs)
  subst h1
  refine ⟨path, r, sE, sO, hp, fun he => ?_, fun he => ?_⟩
  · subst he
    rw [if_pos rfl] at h
    split at h
    · rename_i p tr hp; exact ⟨p, tr, hp⟩
    · cases h
  · subst he
    rw [if_neg (by decide)] at h
    split at h
    · rename_i p tr hp; exact ⟨p, tr, hp⟩
    · cases h

set_option maxRecDepth 10000 in
/-- Non-vacuity of `C65_batch_size`: the batched path and the proofs for leaves 2 and 0 take 223 bytes, with circuits of 51 and 79 multipliers. -/
example : ∃ path r sE sO pE trE pO trO, multiTreeProverGadget (o false) (o true) false prm rnd2 leafR2 T2 idx2 (.new []) (.new []) = .ok ((path, r), sE, sO) ∧
    prove (o false) (prm.gens false) (pr 4) sE = .ok (pE, trE) ∧ prove (o true) (prm.gens true) (pr 3) sO = .ok (pO, trO) ∧
    (path.encode (pcs false) (pcs true)).length + ((proofCodec (fcs false) (pcs false)).enc pE).length + ((proofCodec (fcs true) (pcs true)).enc pO).length =
      223 ∧ sE.numberOfConstraints = 51 ∧ sO.numberOfConstraints = 79 := by
  obtain ⟨path, r, sE, sO, hp, h1, -⟩ := batch_accepted batch19_even
  obtain ⟨path', r', sE', sO', hp', -, h2⟩ := batch_accepted batch19_odd
  rw [hp] at hp'
  cases hp'
  obtain ⟨pE, trE, h3⟩ := h1 rfl
  obtain ⟨pO, trO, h4⟩ := h2 rfl
  obtain ⟨k1, k2, k3⟩ := C65_batch_size (bits := 6) (fun _ => rfl) (by decide) tree_gens2 le_rfl
    (fun p => by rw [(gens_length p).1, (gens_length p).2.2]) fromSet_T2 (by decide) (by rw [height_T2]; decide)
    (by rw [height_T2]; intro j hj; omega) (by intro j _; change (3 : ZMod 19) ≠ 0; decide) (dom := fun _ => []) hp h3 h4 pcs_element fcs_element
  rw [height_T2] at k1 k2 k3
  exact ⟨path, r, sE, sO, pE, trE, pO, trO, hp, h3, h4, k1.trans (by decide +kernel), k2.trans (by decide), k3.trans (by decide)⟩

end CT
