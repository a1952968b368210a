import Verif.Props.Sizes
-- The last examples of both chains are imported only so that this one is not built at the same time
import Verif.Props.PourHidingExample
import Verif.Props.AccumulatorHidingExample

/-! Non-vacuity of C65, on the curve with 19 points. -/

namespace CT
section Example
open Curve19

/-- Every injection into byte strings of a fixed length is an encoding. -/
noncomputable def fixedCodec {α : Type} (n : Nat) (f : α → List UInt8) : Codec α where
  enc := f
  dec bs := open Classical in if h : ∃ a, f a = bs.take n then some (h.choose, bs.drop n) else none
  size _ := n

theorem fixedCodec_element {α : Type} {n : Nat} {f : α → List UInt8} (hl : ∀ a, (f a).length = n) (hf : f.Injective) : (fixedCodec n f).Element := by
  refine ⟨fun a rest => ?_, fun a => (hl a).symm, fun _ _ => rfl⟩
  have e : (f a ++ rest).take n = f a := by rw [← hl a, List.take_left]
  have h : ∃ b, f b = (f a ++ rest).take n := ⟨a, e.symm⟩
  simp only [fixedCodec]
  rw [dif_pos h, hf (h.choose_spec.trans e), ← hl a, List.drop_left]

/-- One byte for a scalar. -/
def scalarByte (x : ZMod 19) : List UInt8 := [.ofNat x.val]

theorem scalarByte_injective : scalarByte.Injective := by decide

/-- Three bytes for a point. -/
def pointBytes (P : Curve19.C.Pt) : List UInt8 :=
  match Curve19.C.x? P, Curve19.C.y? P with
  | some x, some y => 1 :: (scalarByte x ++ scalarByte y)
  | _, _ => [0, 0, 0]

theorem pointBytes_injective : pointBytes.Injective := by
  intro P Q h
  cases P <;> cases Q
  · rfl
  · simp [pointBytes, SWCurve.x?, SWCurve.y?] at h
  · simp [pointBytes, SWCurve.x?, SWCurve.y?] at h
  · simp only [pointBytes, SWCurve.x?, SWCurve.y?, scalarByte, List.cons_append, List.nil_append, List.cons.injEq, true_and, and_true] at h
    obtain ⟨h1, h2⟩ := h
    have a := scalarByte_injective (congrArg (fun b => [b]) h1)
    have b := scalarByte_injective (congrArg (fun b => [b]) h2)
    subst a b
    rfl

noncomputable def scalarCodec : Codec (ZMod 19) := fixedCodec 1 scalarByte
noncomputable def pointCodec : Codec Curve19.C.Pt := fixedCodec 3 pointBytes

theorem scalarCodec_element : scalarCodec.Element := fixedCodec_element (fun _ => rfl) scalarByte_injective
theorem pointCodec_element : pointCodec.Element := fixedCodec_element (fun P => by cases P <;> rfl) pointBytes_injective

noncomputable def pcs : ∀ p, Codec (Cs p).Pt := fun _ => pointCodec
noncomputable def fcs : ∀ p, Codec (Curve19.B (!p)) := fun _ => scalarCodec

theorem pcs_element (p : Bool) : (pcs p).Element := pointCodec_element
theorem fcs_element (p : Bool) : (fcs p).Element := scalarCodec_element

theorem accepted_T : accepted rnd T nodes 1 1 = true := by decide +kernel

/-- Non-vacuity of `C65_membership_size`: the path and the proofs for leaf 2 of the tree with three leaves take 214 bytes, with circuits of 40 multipliers. -/
example : ∃ path r sE sO pE trE pO trO, treeProverGadget (o false) (o true) false prm rnd T 2 0 (.new []) (.new []) = .ok ((path, r), sE, sO) ∧
    prove (o false) (prm.gens false) (pr 1) sE = .ok (pE, trE) ∧ prove (o true) (prm.gens true) (pr 1) sO = .ok (pO, trO) ∧
    ((pathCodec (pcs false) (pcs true)).enc path).length + ((proofCodec (fcs false) (pcs false)).enc pE).length +
        ((proofCodec (fcs true) (pcs true)).enc pO).length = 214 ∧ sE.numberOfConstraints = 40 ∧ sO.numberOfConstraints = 40 := by
  obtain ⟨path, r, sE, sO, x, tE, tO, pE, trE, pO, trO, h1, -, h3, h4, -⟩ := accepted_iff accepted_T
  have hp : treeProverGadget (o false) (o true) false prm rnd T 2 0 (.new []) (.new []) = .ok ((path, r), sE, sO) := by
    unfold treeProverGadget
    rw [witness_T]
    exact h1
  obtain ⟨k1, k2, k3⟩ := C65_membership_size (bits := 6) (fun _ => rfl) (by decide) tree_gens le_rfl
    (fun p => by rw [(gens_length p).1, (gens_length p).2.2]) fromSet_T (by decide) (by rw [height_T]; decide)
    (rnd := rnd) (by rw [height_T]; intro j hj; omega) (by intro j _; change (2 : ZMod 19) ≠ 0; decide) (dom := fun _ => []) hp h3 h4 pcs_element fcs_element
  rw [height_T] at k1 k2 k3
  exact ⟨path, r, sE, sO, pE, trE, pO, trO, hp, h3, h4, k1.trans (by decide +kernel), k2.trans (by decide), k3.trans (by decide)⟩

set_option maxRecDepth 10000 in
/-- Non-vacuity of `C65_accumulator_size`: the proof of C58's example. -/
example : ∃ pf : AccProof Cs, accProve o false prm T (fun _ => []) rnd (pr 2) (pr 2) 2 [1, 3] (3 : ZMod 19) = .ok pf ∧
    ((pathCodec (pcs false) (pcs true)).enc pf.path).length + ((proofCodec (fcs false) (pcs false)).enc pf.even).length +
        ((proofCodec (fcs true) (pcs true)).enc pf.odd).length = 214 := by
  have h3 := accRun_13
  unfold accRun at h3
  split at h3
  · cases h3
  split at h3
  · cases h3
  rename_i pf hpf
  have k := C65_accumulator_size (bits := 6) (fun _ => rfl) (by decide) tree_gens le_rfl
    (fun p => by rw [(gens_length p).1, (gens_length p).2.2]) fromSet_T (by decide) (by rw [height_T]; decide)
    (rnd := rnd) (by rw [height_T]; intro j hj; omega) (by intro j _; change (2 : ZMod 19) ≠ 0; decide) hpf pcs_element fcs_element
  rw [height_T] at k
  exact ⟨pf, hpf, k.trans (by decide +kernel)⟩

/-- The scheme of C44's example with bytes as keys. -/
def byteScheme : SigScheme UInt8 UInt8 UInt8 (ZMod 19) :=
  ⟨fun k => k.toNat, fun _ _ _ => .ok true, fun k _ r => ⟨k, r⟩, fun s _ => s, fun k r => k + r⟩

def byteCoin11 : SpendingInfo UInt8 UInt8 UInt8 (ZMod 19) := ⟨2, ⟨1, 1, 6, 0⟩, 1, 0⟩
def byteCoin3 : SpendingInfo UInt8 UInt8 UInt8 (ZMod 19) := ⟨0, ⟨4, 1, 11, 0⟩, 1, 0⟩

def byteRand : PourRand Cs UInt8 := { prand1 with pkr := fun _ => 1, sig := fun _ => 0 }

set_option maxRecDepth 4000 in
theorem byteOwned11 : byteCoin11.Owned prm byteScheme Curve19.set := by
  refine ⟨?_, by decide⟩
  have : (11 • h : Curve19.C.Pt) = (1 : ZMod 19) • (2 • h) + (1 : ZMod 19) • (3 • h) + (6 : ZMod 19) • h := by decide +kernel
  exact congrArg some this

set_option maxRecDepth 4000 in
theorem byteOwned3 : byteCoin3.Owned prm byteScheme Curve19.set := by
  refine ⟨?_, by decide⟩
  have : (3 • h : Curve19.C.Pt) = (4 : ZMod 19) • (2 • h) + (1 : ZMod 19) • (3 • h) + (11 : ZMod 19) • h := by decide +kernel
  exact congrArg some this

theorem byteSizes : (match pourProvers o false prm byteScheme T byteRand byteCoin11 byteCoin3 3 9 2 9 (.new []) (.new []) with
    | .ok (_, sE, sO) => decide (nextPow2 sE.size ≤ 512 ∧ nextPow2 sO.size ≤ 512 ∧ sE.vecOpen.length ≤ 17 ∧ sO.vecOpen.length ≤ 17)
    | .error _ => false) = true := by
  decide +kernel

/-- This encoding is one of those allowed in C45, C46 and C51. -/
example (pour : PourOf Cs UInt8) (h : pour.Fits) : (pourCodec (fcs false) (pcs false) (fcs true) (pcs true) byteCodec).dec
    ((pourCodec (fcs false) (pcs false) (fcs true) (pcs true) byteCodec).enc pour) = some (pour, []) := by
  simpa using C30_pour_round_trip (fcs_element false) (pcs_element false) (fcs_element true) (pcs_element true) byte_element pour h []

set_option maxRecDepth 4000 in
/-- Non-vacuity of `C65_transaction_size`: the payment of C45's example takes 310 bytes. -/
example : ∃ tx, provePour o false prm byteScheme (pourCodec (fcs false) (pcs false) (fcs true) (pcs true) byteCodec) T byteRand byteCoin11 byteCoin3 3 9 2 9
      (.new []) (.new []) = .ok tx ∧ ((signedTxCodec byteCodec).enc tx).length = 310 := by
  obtain ⟨path0, path1, c0, c1, sE, sO, h1, h2, h3⟩ := C45_honest_pour_accepted_partial valid tree_gens le_rfl
    (fun p => by obtain ⟨h1, h2, h3⟩ := gens_length p; rw [h1, h2, h3]; exact ⟨le_rfl, le_rfl⟩) fromSet_T (by decide) (by rw [height_T]; decide) (.inl (by decide))
    o false byteScheme (pourCodec (fcs false) (pcs false) (fcs true) (pcs true) byteCodec) byteRand byteOwned11 byteOwned3 spendOk_2 spendOk_0
    (val0 := 3) (val1 := 2) (by norm_num) (by norm_num) rfl 9 9 (fun _ => [])
  have hs := byteSizes
  rw [h1] at hs
  obtain ⟨s1, s2, s3, s4⟩ := of_decide_eq_true hs
  have nz : ∀ n : Nat, ((n % 18 + 1 : Nat) : ZMod 19) ≠ 0 := by
    intro n hn
    have := (ZMod.natCast_eq_zero_iff _ 19).1 hn
    have := Nat.le_of_dvd (by omega) this
    omega
  obtain ⟨tx, htx⟩ := h2 (s1.trans (gens_length false).2.2.ge) (s2.trans (gens_length true).2.2.ge) s3 s4 (fun p tr => ⟨nz _, nz _⟩)
  have k := C65_transaction_size (bits := 6) (fun _ => rfl) (by decide) tree_gens le_rfl
    (fun p => by rw [(gens_length p).1, (gens_length p).2.2]) fromSet_T (by decide) (by rw [height_T]; decide)
    (rnd := byteRand) (by rw [height_T]; intro _ j hj; omega) (by intro _ j _; change (2 : ZMod 19) ≠ 0; decide)
    (dom := fun _ => []) pcs_element fcs_element byte_element byte_element 0 0 htx
  rw [height_T] at k
  exact ⟨tx, htx, k.trans (by decide +kernel)⟩

end Example
end CT
