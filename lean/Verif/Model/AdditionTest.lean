import Verif.Model.ExampleGadget
import Verif.Model.Gadgets

/-! # A proof of one curve addition, `relations/src/curve.rs:200-277` (`test_curve_addition`) -/

namespace CT
variable {F G X : Type} [Field F] [DecidableEq F] [AddCommGroup G] [Module F G] [DecidableEq G]

/-- `add_prms`, `curve.rs:235-243, 259-267`, for the variables of the six commitments. -/
def additionPrms (xs : List Variable) (delta : Option F) : CurveAddition F :=
  let x := fun i => LC.ofVar (xs.getD i .one)
  ⟨x 0, x 1, x 2, x 3, x 4, x 5, delta⟩

/-- The Prover of `test_curve_addition` up to the call of `prove`, `curve.rs:217-245`; `tr` is the new transcript. The arguments are pairs of a coordinate and the blinding drawn for
it; the coordinates are any field elements, where the test takes two random points and their sum. -/
def additionProver (o : Oracle F G X) (g : Gens G) (tr : Transcript F G X) (xl yl xr yr xo yo : F × F) : Except Err (List G × PState F G X) :=
  match fdiv (yr.1 - yl.1) (xr.1 - xl.1) with
  | none => .error (.panic "division by zero")
  | some delta =>
    match exampleCommit g [xl, yl, xr, yr, xo, yo] (.new tr) with
    | (Vs, xs, s) =>
      match runP o (checkedCurveAddition (additionPrms xs (some delta)) (some (1 / (xl.1 - xr.1)))) s with
      | .ok (_, s) => .ok (Vs, s)
      | .error e => .error e

/-- The Prover of `test_curve_addition`, `curve.rs:213-247`. -/
def additionProve (o : Oracle F G X) (g : Gens G) (rnd : PRand F) (tr : Transcript F G X) (xl yl xr yr xo yo : F × F) : Except Err (R1CSProof F G × List G) :=
  match additionProver o g tr xl yl xr yr xo yo with
  | .error e => .error e
  | .ok (Vs, s) =>
    match prove o g rnd s with
    | .error e => .error e
    | .ok (p, _) => .ok (p, Vs)

/-- The Verifier of `test_curve_addition` up to the call of `verify`, `curve.rs:249-269`. -/
def additionVerifier (o : Oracle F G X) (tr : Transcript F G X) (xl yl xr yr xo yo : G) : Except Err (VState F G X) :=
  match exampleCommitV [xl, yl, xr, yr, xo, yo] (.new tr) with
  | (xs, t) =>
    match runV o (checkedCurveAddition (additionPrms xs none) none) t with
    | .ok (_, t) => .ok t
    | .error e => .error e

/-- The Verifier of `test_curve_addition`, `curve.rs:249-271`. -/
def additionVerify (o : Oracle F G X) (g : Gens G) (r : F) (tr : Transcript F G X) (p : R1CSProof F G) (xl yl xr yr xo yo : G) : Except Err Unit :=
  match additionVerifier o tr xl yl xr yr xo yo with
  | .error e => .error e
  | .ok t => verify o g r p t

end CT
