import Verif.Props.AccumulatorExample
import Verif.Props.AccumulatorHiding

/-! Non-vacuity of C60: the tree with leaves `3h, 5h, 11h`, where `3h` is the commitment to `(16, 3)` and `11h` to `(1, 3)`. -/

namespace CT
section Example
open Curve19

set_option maxRecDepth 4000 in
theorem acc_hyps_0 : accLeaf prm [16, 3] = some (Curve19.set[0]'(by decide)) := by decide +kernel

set_option maxRecDepth 10000 in
/-- One proof that 3 is accumulated, which is made with leaf 2 and, with other randomness, with leaf 0. -/
example : ∃ (pf : AccProof Cs) (r : AccRand Curve19.B),
    accProveWith o false prm T (fun _ => []) 2 [1, 3] (3 : ZMod 19) (rnd, pr 2, pr 2) = .ok pf ∧
    accProveWith o false prm T (fun _ => []) 0 [16, 3] (3 : ZMod 19) r = .ok pf := by
  have hh : ∀ p, prm.h p ≠ 0 := by
    have : (h : Curve19.C.Pt) ≠ 0 := by decide +kernel
    exact fun _ => this
  have nz : ∀ n : Nat, ((n % 18 + 1 : Nat) : ZMod 19) ≠ 0 := by
    intro n hn
    have := (ZMod.natCast_eq_zero_iff _ 19).1 hn
    have := Nat.le_of_dvd (by omega) this
    omega
  have h3 := accRun_13
  unfold accRun at h3
  split at h3
  · cases h3
  split at h3
  · cases h3
  rename_i pf hpf
  obtain ⟨φ, k1, k2⟩ := C60_accumulator_hides valid tree_gens le_rfl
    (fun p => by obtain ⟨h1, h2, h3⟩ := gens_length p; rw [h1, h2, h3]; exact ⟨le_rfl, le_rfl⟩) hh
    (fun p P => ⟨(log P : ZMod 19), by
      have : (log P : ZMod 19).val • h = P := by
        rw [ZMod.val_natCast, mod_smul, log_spec]
      exact (this.symm.trans (mulPt_eq _ _).symm)⟩)
    fromSet_T (by decide) (by rw [height_T]; decide) o false (fun p tr => nz _) (fun _ => []) (i := 2) (i' := 0) (by decide) (by decide)
    acc_hyps.1 acc_hyps_0 rfl (element := (3 : ZMod 19)) (by decide) (by decide) pf
  have n0 := k1 (rnd, pr 2, pr 2) nodes nodes_0 witness_T witness_0
  exact ⟨pf, φ (rnd, pr 2, pr 2), hpf, (k2 (rnd, pr 2, pr 2) spendOk_rnd
    (spendOk_moved (moved false _ (n0 false 0)) (moved true _ (n0 true 0)))).1 hpf⟩

end Example
end CT
