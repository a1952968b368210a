import Verif.Model.TreeGadgets
import Verif.Spec.Tree
import Verif.Spec.Extract
import Verif.Spec.Satisfaction

/-! # Conditions under which an honest Prover on a path succeeds -/

namespace CT
variable {B : Bool → Type} [∀ p, Field (B p)] [∀ p, DecidableEq (B p)] {C : ∀ p, SWCurve (B p)}
  [∀ p, Module (B (!p)) (C p).Pt]

/-- The parameters are as `SelRerandParameters::new` makes them: the curves have `a = 0`, the tables are those of the
blinding base, `toNat` is the canonical representative of a scalar and has at most `lambda` bits. -/
structure SelRerand.Valid (prm : SelRerand C) : Prop where
  a : ∀ p, (C p).a = 0
  tables : ∀ p, buildTables (C p) (windows (prm.layer p).lambda) (prm.h p) = some (prm.layer p).tables
  windows : ∀ p, windows (prm.layer p).lambda ≠ 1
  cast : ∀ p (x : B p), ((prm.toNat p x : Nat) : B p) = x
  bits : ∀ p (x : B (!p)), prm.toNat (!p) x < 2 ^ (prm.layer p).lambda

/-- The scalar `r` re-randomises the point `c` of curve `p` without meeting an exceptional case of the incomplete
additions. -/
def SelRerand.Avoids (prm : SelRerand C) (p : Bool) (c : (C p).Pt) (r : B (!p)) : Prop :=
  ChainOk (C p) (prm.layer p).lambda (prm.h p) (prm.toNat (!p) r) ∧
    (C p).DiffX (c + (prm.layer p).delta) (r • prm.h p)

end CT
