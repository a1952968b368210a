-- `Pour19` is imported only so that the two are not built at the same time, which would need too much memory
import Verif.Proofs.Pour19
import Verif.Props.BatchedTree

/-! Runs of the batched gadgets with both proofs, computed by the kernel. -/

-- one kernel run at a time, to save memory
set_option Elab.async false

namespace CT
open Curve19

/-- The two states of the Prover and of the Verifier, after the batched gadgets. -/
def batchStates (rnd : ∀ p : Bool, Nat → Curve19.B (!p)) (leafR : Fin 2 → Curve19.B (!false)) (T : CurveTree 2 2 (Pts Cs))
    (idx : Fin 2 → Nat) : Option ((SideP Cs false × SideP Cs true) × (SideV Cs false × SideV Cs true)) :=
  match multiTreeProverGadget (o false) (o true) false prm rnd leafR T idx (.new []) (.new []) with
  | .ok ((path, _), s) =>
    match multiTreeVerifierGadget (o false) (o true) false prm T path (.new []) (.new []) with
    | .ok (_, t) => some (s, t)
    | _ => none
  | _ => none

/-- One of the two proofs is made and accepted. -/
def acceptedBatch (even : Bool) (rnd : ∀ p : Bool, Nat → Curve19.B (!p)) (leafR : Fin 2 → Curve19.B (!false)) (T : CurveTree 2 2 (Pts Cs))
    (idx : Fin 2 → Nat) (a : Nat) : Bool :=
  match batchStates rnd leafR T idx with
  | some ((sE, sO), (tE, tO)) =>
    if even then
      match prove (o false) (prm.gens false) (pr a) sE with
      | .ok (p, _) => isOk (verify (o false) (prm.gens false) (7 : ZMod 19) p tE)
      | _ => false
    else
      match prove (o true) (prm.gens true) (pr a) sO with
      | .ok (p, _) => isOk (verify (o true) (prm.gens true) (7 : ZMod 19) p tO)
      | _ => false
  | _ => false

/-! The same run, with the two proofs, computed by the kernel: both are accepted. -/
theorem batch19_even : acceptedBatch true rnd2 leafR2 T2 idx2 4 = true := by decide +kernel
theorem batch19_odd : acceptedBatch false rnd2 leafR2 T2 idx2 3 = true := by decide +kernel

/-- A tree of height 3 with five leaves, whose root is on the odd curve. -/
def T2h3 : CurveTree 2 2 (Pts Cs) :=
  match fromSet prm.tree [3 • h, 5 • h, 11 • h, 7 • h, 2 • h] none 10 with
  | some (.ok t) => t
  | _ => default

/-- The gadgets accept leaves 2 and 4 of that tree, where two levels are batched, computed by the kernel. -/
example : T2h3.height = 3 ∧ (batchStates rnd2 leafR2 T2h3 (fun j => if j = 0 then 2 else 4)).isSome = true := by decide +kernel

end CT
