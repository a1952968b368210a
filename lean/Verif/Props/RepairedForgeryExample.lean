import Verif.Props.RepairedForgery
import Verif.Props.SelectKnowledge

/-! # A forged path that is accepted by the repaired code, run (imports `SelectKnowledge` only to be built after it) -/

namespace CT.Curve19

/-- Run the forger on `lonePath` and the Verifier on what it made, with repaired code. -/
def loneAccepted : Bool :=
  match pathProverGadget (o false) (o true) true prm rnd lonePath (.new []) (.new []) with
  | .error _ => false
  | .ok ((path, r), sE, sO) =>
    match treeVerifierGadget (o false) (o true) true prm T path (.new []) (.new []) with
    | .error _ => false
    | .ok (x, tE, tO) =>
      match forge (o false) (prm.gens false) (pr 3) sE, forge (o true) (prm.gens true) (pr 3) (sO.patch 2 true) with
      | .ok (pE, _), .ok (pO, _) =>
        decide (x = 8 • h + r • h) && isOk (verify (o false) (prm.gens false) (7 : ZMod 19) pE tE) &&
          isOk (verify (o true) (prm.gens true) (8 : ZMod 19) pO tO)
      | _, _ => false

-- the forged proofs exist and are accepted
example : loneAccepted = true := by decide +kernel

end CT.Curve19
