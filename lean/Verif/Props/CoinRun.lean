import Verif.Props.Coin
import Verif.Proofs.Pour19

/-!
# C29: a transaction with two invalid signatures is accepted
-/

namespace CT
open Curve19

/-- C29 is false of the code, computed by the kernel: a transaction spending coins of 5 and 7 is accepted although `Schnorr::verify` returns `false`
for both signatures. It also shows that the hypotheses of `C29_signatures_ignored` and `C29_checked_partial` can be met. -/
theorem C29_unsigned_accepted : ∃ (tx : SignedTx Nat) (pour : PourOf Cs Nat) (rest : List UInt8) (vE : Tuple (ZMod 19) Curve19.C.Pt) (vO : Tuple (ZMod 19) Curve19.C.Pt),
    signedTxVerification o false prm2 sch cod T1 (fun _ => []) (7 : ZMod 19) (8 : ZMod 19) tx = .ok (vE, vO) ∧
    checkTuple (prm2.gens false) vE = .ok () ∧ checkTuple (prm2.gens true) vO = .ok () ∧
    cod.dec tx.pourBytes = some (pour, rest) ∧
    sch.verify pour.pk0 tx.pourBytes ⟨tx.response0, tx.challenge0⟩ = .ok false ∧
    sch.verify pour.pk1 tx.pourBytes ⟨tx.response1, tx.challenge1⟩ = .ok false := by
  obtain ⟨tx, vE, vO, -, h1, h2, h3⟩ := tx_run
  obtain ⟨pour, rest, _, _, h4, -⟩ := C29_checked_partial h1
  exact ⟨tx, pour, rest, vE, vO, h1, h2, h3, h4, rfl, rfl⟩

end CT
