import Mathlib.Data.Set.Card
import Verif.Spec.TreeGadgets

/-!
# The scalars drawn for one path

`single_level_select_and_rerandomize` draws one scalar per level. Some scalars cannot be used (C19): here is what they are, and the finite space of all choices.
-/

namespace CT
variable {B : Bool → Type} [∀ p, Field (B p)] [∀ p, DecidableEq (B p)] {C : ∀ p, SWCurve (B p)} [∀ p, Module (B (!p)) (C p).Pt]

/-- The number of scalars for points of curve `p` on a path in a tree of height `h`: the leaf is on the even curve (`false`), its parent on the odd one, and so on; the root is
not re-randomised. -/
def pathLen (h : Nat) : Bool → Nat
  | false => (h + 1) / 2
  | true => h / 2

/-- All scalars drawn for one path in a tree of height `h`. -/
abbrev PathScalars (B : Bool → Type) (h : Nat) := ∀ p, Fin (pathLen h p) → B (!p)

/-- The same scalars in the form the gadgets take them (they use no more than these). -/
def PathScalars.stream {h : Nat} (ω : PathScalars B h) : ∀ p, Nat → B (!p) :=
  fun p k => if hk : k < pathLen h p then ω p ⟨k, hk⟩ else 0

/-- Scalars for curve `p` with which `re_randomize` fails whatever the point is: zero, and those for which the sums of table entries meet an exceptional case. -/
def SelRerand.Exceptional (prm : SelRerand C) (p : Bool) (r : B (!p)) : Prop :=
  r = 0 ∨ ¬ ChainOk (C p) (prm.layer p).lambda (prm.h p) (prm.toNat (!p) r)

end CT
