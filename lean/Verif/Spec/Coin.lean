import Verif.Spec.Membership
import Verif.Model.Coin

/-!
# Coins

What a coin commits to, independent of the circuits.
-/

namespace CT

/-- The entries of the vector a coin commits to: the amount, the tag, and nothing else. -/
def Coin.entries {F S : Type} [Field F] (a : Coin F S) : Nat → F
  | 0 => (a.value : F)
  | 1 => a.tag
  | _ => 0

/-- The commitment to a coin. -/
def Coin.commitment {F G S : Type} [Field F] [AddCommGroup G] [Module F G] (g : Gens G) (a : Coin F S) : G :=
  (a.value : F) • g.Gs.getD 0 0 + a.tag • g.Gs.getD 1 0 + a.blinding • g.pc.Bbl

/-- A commitment to an amount (as a field element) and a tag. -/
def coinPoint {F G : Type} [Field F] [AddCommGroup G] [Module F G] (g : Gens G) (v tag bl : F) : G :=
  v • g.Gs.getD 0 0 + tag • g.Gs.getD 1 0 + bl • g.pc.Bbl

/-- The vector `vals` with blinding `bl` opens a re-randomisation, with the scalar `z`, of the commitment to the coin `a` or of its
negative, and is not the vector of the coin. Either way this is a linear relation with known coefficients, not all zero, between the
generators and `Δ`. -/
def SecondCoinOpening {F G S : Type} [Field F] [AddCommGroup G] [Module F G] (g : Gens G) (delta : G) (L : Nat) (a : Coin F S)
    (vals : Nat → F) (bl : F) (z : Int) : Prop :=
  ((∃ k < L, vals k ≠ a.entries k) ∧
    ∑ k : Fin L, (vals k - a.entries k) • g.Gs.getD k 0 + (bl - a.blinding - z) • g.pc.Bbl = 0) ∨
  ∑ k : Fin L, (vals k + a.entries k) • g.Gs.getD k 0 + (bl + a.blinding - z) • g.pc.Bbl + (2 : Nat) • delta = 0

/-- The Verifier accepts the Pour, whatever random weights it draws: `verification_gadget` returns two tuples and both pass the final check. -/
def PourAccepted {B : Bool → Type} [∀ p, Field (B p)] [∀ p, DecidableEq (B p)] {C : ∀ p, SWCurve (B p)} [∀ p, Module (B (!p)) (C p).Pt]
    {L : Nat} {K : Type} (o : ∀ p, SideO C p) (fx : Bool) (prm : SelRerand C) (tag : K → B true) (T : CurveTree L 1 (Pts C))
    (dom : ∀ p, Transcript (B (!p)) (C p).Pt (C (!p)).Pt) (pour : PourOf C K) : Prop :=
  ∀ rE rO, ∃ vE vO, pourVerification o fx prm tag T dom rE rO pour = .ok (vE, vO) ∧
    checkTuple (F := B (!false)) (prm.gens false) vE = .ok () ∧ checkTuple (F := B (!true)) (prm.gens true) vO = .ok ()

section
variable {B : Bool → Type} [∀ p, Field (B p)] [∀ p, DecidableEq (B p)] {C : ∀ p, SWCurve (B p)} [∀ p, Module (B (!p)) (C p).Pt] {L : Nat} {K SK S : Type}

/-- The randomness for the path to leaf `i` is usable: the scalars that hide inner nodes are not zero (the Prover recognises the root by the
scalar zero), and no addition meets an exceptional case. -/
structure SpendOk {M : Nat} [NeZero M] (prm : SelRerand C) (T : CurveTree L M (Pts C)) (i : Nat) (rnd : ∀ p, Nat → B (!p)) : Prop where
  even : ∀ j, j + 1 < (T.height + 1) / 2 → rnd false j ≠ 0
  odd : ∀ j < T.height / 2, rnd true j ≠ 0
  avoids : ∀ nodes, T.witness prm.tree i 0 = .ok nodes → ∀ p (k : Nat) w, (nodes p)[k]? = some w → prm.Avoids (!p) w.child (rnd (!p) k)

/-- `inp` describes a coin among the leaves `set`, with the tag of the randomised key. -/
structure SpendingInfo.Owned (prm : SelRerand C) (sch : SigScheme K SK S (B true)) (set : List (C false).Pt) (inp : SpendingInfo K SK S (B true)) : Prop where
  leaf : set[inp.index]? = some (inp.coin.commitment (F := B (!false)) (prm.gens false))
  tag : inp.coin.tag = sch.tag inp.randomizedPk

/-- The Verifier accepts the transaction, whatever random weights it draws. -/
def TxAccepted (o : ∀ p, SideO C p) (fx : Bool) (prm : SelRerand C) (sch : SigScheme K SK S (B true)) (cod : Codec (PourOf C K)) (T : CurveTree L 1 (Pts C))
    (dom : ∀ p, Transcript (B (!p)) (C p).Pt (C (!p)).Pt) (tx : SignedTx S) : Prop :=
  ∀ rE rO, ∃ vE vO, signedTxVerification o fx prm sch cod T dom rE rO tx = .ok (vE, vO) ∧
    checkTuple (F := B (!false)) (prm.gens false) vE = .ok () ∧ checkTuple (F := B (!true)) (prm.gens true) vO = .ok ()

end

end CT
