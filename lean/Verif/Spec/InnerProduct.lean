import Mathlib.Algebra.Field.Basic
import Mathlib.Algebra.Module.Basic
import Mathlib.Algebra.BigOperators.Group.Finset.Basic
import Verif.Model.Transcript

/-!
# The inner product relation and its round-by-round verifier

Written from the paper (Bootle et al., Bulletproofs section 3), not from the code.
-/

namespace CT
variable {F G X : Type} [Field F] [AddCommGroup G] [Module F G]

/-- `P = <a, Gf∘G> + <b, Hf∘H> + <a,b> Q` for vectors of length `n`. -/
def InnerProductRelation (n : Nat) (P Q : G) (Gf Hf : List F) (Gs Hs : List G) (a b : List F) : Prop :=
  P = ∑ i ∈ Finset.range n, (a.getD i 0 * Gf.getD i 0) • Gs.getD i 0 +
    ∑ i ∈ Finset.range n, (b.getD i 0 * Hf.getD i 0) • Hs.getD i 0 +
    (∑ i ∈ Finset.range n, a.getD i 0 * b.getD i 0) • Q

/-- Halve a vector of generators: entry `i` is `p * g_i + q * g_(m+i)`, `m` half the length. -/
def halve (p q : F) (gs : List G) : List G :=
  (List.range (gs.length / 2)).map fun i => p • gs.getD i 0 + q • gs.getD (gs.length / 2 + i) 0

/-- The interactive verifier made non-interactive: in every round check that `L` and `R` are not the
identity, absorb them, derive `u`, and go on with `P + u^2 L + u^-2 R` and the halved generators; at
the end check the opening directly. -/
def RoundByRound (o : Oracle F G X) (Q : G) (a b : F) :
    List (G × G) → Transcript F G X → G → List G → List G → Prop
  | [], _, P, gs, hs => P = a • gs.getD 0 0 + b • hs.getD 0 0 + (a * b) • Q
  | (L, R) :: rest, t, P, gs, hs =>
    L ≠ 0 ∧ R ≠ 0 ∧
    let t' := t ++ [.point "L" L, .point "R" R, .chal "u"]
    let u := o t'
    RoundByRound o Q a b rest t' (P + (u ^ 2) • L + (u⁻¹ ^ 2) • R)
      (halve u⁻¹ u gs) (halve u u⁻¹ hs)

end CT
