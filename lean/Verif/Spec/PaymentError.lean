import Verif.Spec.CompletenessError
import Verif.Spec.Usable
import Verif.Spec.Sizes
import Verif.Spec.Coin

/-!
# How often an honest payment fails

All random choices of a payment that can make it fail: the scalars of the two paths, and on each of the two curves the choices of the Prover and the challenges.
-/

namespace CT

variable {B : Bool → Type}

/-- The vector commitments of the Prover of a payment on the even curve, for a tree of height `D`: four coins and the even levels of the two paths. -/
def paymentEvenCommitments (D : Nat) : Nat := 2 * ((D - 1) / 2) + 4

/-- The vector commitments on the odd curve: the odd levels of the two paths. -/
def paymentOddCommitments (D : Nat) : Nat := 2 * (D / 2)

/-- The random choices of a payment out of a tree of height `D`, with tapes of `M` challenges. -/
abbrev PaymentDraw (B : Bool → Type) (L bits D M : Nat) : Type :=
  (PathScalars B D × PathScalars B D) ×
    (Draw (multipliersFor L bits (2 * (D / 2)) 128) (2 * (opDegree (paymentEvenCommitments D) + 1) + 1) M → B true) ×
    (Draw (multipliersFor L bits (2 * ((D + 1) / 2)) 0) (2 * (opDegree (paymentOddCommitments D) + 1) + 1) M → B false)

variable [∀ p, Field (B p)] [∀ p, DecidableEq (B p)] {C : ∀ p, SWCurve (B p)} {K SK S : Type} {L bits D M : Nat}

/-- The random choices of the payer. Those for the minted coins and for the signatures are in `base`. -/
def PaymentDraw.rand (ω : PaymentDraw B L bits D M) (base : PourRand C S) : PourRand C S :=
  { base with path := fun b => bif b then ω.1.2.stream else ω.1.1.stream, even := Draw.prover ω.2.1, odd := Draw.prover ω.2.2 }

/-- The challenges on the two curves. -/
def PaymentDraw.oracle (ω : PaymentDraw B L bits D M) : ∀ p, SideO C p
  | false => Draw.oracle (F := B (!false)) ω.2.1
  | true => Draw.oracle (F := B (!true)) ω.2.2

variable [∀ p, Module (B (!p)) (C p).Pt]

/-- The payment works: `prove_pour` returns a transaction and the Verifier accepts it. -/
def PaymentWorks (fx : Bool) (prm : SelRerand C) (sch : SigScheme K SK S (B true)) (cod : Codec (PourOf C K)) (T : CurveTree L 1 (Pts C)) (base : PourRand C S)
    (in0 in1 : SpendingInfo K SK S (B true)) (val0 : Nat) (pk0 : K) (val1 : Nat) (pk1 : K) (dom : ∀ p, Transcript (B (!p)) (C p).Pt (C (!p)).Pt)
    (ω : PaymentDraw B L bits T.height M) : Prop :=
  ∃ tx, provePour ω.oracle fx prm sch cod T (ω.rand base) in0 in1 val0 pk0 val1 pk1 (.new (dom false)) (.new (dom true)) = .ok tx ∧
    TxAccepted ω.oracle fx prm sch cod T dom tx

end CT
