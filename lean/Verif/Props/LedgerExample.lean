import Verif.Props.Ledger
import Verif.Props.SpendExample

/-!
# C54: a ledger that takes an honest payment
-/

namespace CT
open Curve19

set_option maxRecDepth 4000 in
/-- Non-vacuity of `C54_ledger_partial`: the ledger starts with the coins `3h` (amount 4), `5h` (amount 0), `11h` (amount 1), and the owner of the first and the last pays with
coins of 3 and 2. -/
example (pE : R1CSProof (ZMod 19) Curve19.C.Pt) (pO : R1CSProof (ZMod 19) Curve19.C.Pt) :
    ∃ (pay : LedgerTx Cs 2 Nat) (w : ∀ p, Assignment (Curve19.B (!p))) (bl : ∀ p, Nat → Curve19.B (!p)),
      CoinsOf prm coins3 Curve19.set ∧ (∀ a ∈ coins3, a.value < 2 ^ 64) ∧ LedgerTakes true prm anyScheme.tag Curve19.set [] [pay] ∧ pay.Witness prm w bl := by
  obtain ⟨pour, t, w, w', bl, bl', h1, h2, -, h4, h5, h6, h7, h8, h9, s1, s2, o1, o2⟩ := honest_spend pE pO
  refine ⟨⟨none, 10, T, o, fun _ => [], pour, t⟩, fun p => match p with | false => w | true => w', fun p => match p with | false => bl | true => bl', coins3_set, h1,
    ⟨⟨fromSet_T, (show Curve19.set.length + 0 ≤ 10 by decide), (show T.height ≠ 0 by rw [height_T]; decide), h4, h5, h6, h7, h8, h9⟩, h2, by simp, by simp, trivial⟩, ?_⟩
  intro p
  cases p
  · exact ⟨s1, o1⟩
  · exact ⟨s2, o2⟩

end CT
