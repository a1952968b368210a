import Verif.Model.Prove
import Verif.Model.Verify

/-! # The example gadget of the tests, `bulletproofs/tests/r1cs.rs:297-399` -/

namespace CT
variable {F G X : Type} [Field F] [DecidableEq F] [AddCommGroup G] [Module F G] [DecidableEq G]

/-- `example_gadget`, `tests/r1cs.rs:297-309`. -/
def exampleGadget (a1 a2 b1 b2 c1 c2 : LC F) : Prog F G X Unit := do
  let (_, _, c) ← multiply (a1 + a2) (b1 + b2)
  constrain (c1 + c2 - LC.ofVar c)

/-- The calls of `commit` of `example_gadget_proof`, `tests/r1cs.rs:327-331`, with the values and the blindings drawn. -/
def exampleCommit (g : Gens G) : List (F × F) → PState F G X → List G × List Variable × PState F G X
  | [], s => ([], [], s)
  | (v, bl) :: vs, s =>
    let ((V, x), s) := s.commit g v bl
    let (Vs, xs, s) := exampleCommit g vs s
    (V :: Vs, x :: xs, s)

/-- `example_gadget_proof` up to the call of `prove`, `tests/r1cs.rs:322-343`; `tr` is the new transcript. `a1 .. c1` are pairs of a value and the blinding drawn for it; the
values are field elements, not only images of `u64`. -/
def exampleProver (o : Oracle F G X) (g : Gens G) (tr : Transcript F G X) (a1 a2 b1 b2 c1 : F × F) (c2 : F) : Except Err (List G × PState F G X) :=
  match exampleCommit g [a1, a2, b1, b2, c1] (.new tr) with
  | (Vs, xs, s) =>
    let x := fun i => LC.ofVar (xs.getD i .one)
    match runP o (exampleGadget (x 0) (x 1) (x 2) (x 3) (x 4) (LC.const c2)) s with
    | .ok (_, s) => .ok (Vs, s)
    | .error e => .error e

/-- `example_gadget_proof`, `tests/r1cs.rs:312-349`. -/
def exampleProve (o : Oracle F G X) (g : Gens G) (rnd : PRand F) (tr : Transcript F G X) (a1 a2 b1 b2 c1 : F × F) (c2 : F) :
    Except Err (R1CSProof F G × List G) :=
  match exampleProver o g tr a1 a2 b1 b2 c1 c2 with
  | .error e => .error e
  | .ok (Vs, s) =>
    match prove o g rnd s with
    | .error e => .error e
    | .ok (p, _) => .ok (p, Vs)

/-- The calls of `commit` of `example_gadget_verify`, `tests/r1cs.rs:365`. -/
def exampleCommitV : List G → VState F G X → List Variable × VState F G X
  | [], t => ([], t)
  | V :: Vs, t =>
    let (x, t) := t.commit V
    let (xs, t) := exampleCommitV Vs t
    (x :: xs, t)

/-- `example_gadget_verify` up to the call of `verify`, `tests/r1cs.rs:359-376`. The indexing of `vars` panics when there are less than five commitments. -/
def exampleVerifier (o : Oracle F G X) (tr : Transcript F G X) (c2 : F) (Vs : List G) : Except Err (VState F G X) :=
  match exampleCommitV Vs (.new tr) with
  | (xs, t) =>
    if xs.length < 5 then .error (.panic "index out of bounds: vars") else
    let x := fun i => LC.ofVar (xs.getD i .one)
    match runV o (exampleGadget (x 0) (x 1) (x 2) (x 3) (x 4) (LC.const c2)) t with
    | .ok (_, t) => .ok t
    | .error e => .error e

/-- `example_gadget_verify`, `tests/r1cs.rs:352-382`; every error becomes `VerificationError`, a panic stays one. -/
def exampleVerify (o : Oracle F G X) (g : Gens G) (r : F) (tr : Transcript F G X) (c2 : F) (p : R1CSProof F G) (Vs : List G) : Except Err Unit :=
  match exampleVerifier o tr c2 Vs with
  | .error e => .error e
  | .ok t =>
    match verify o g r p t with
    | .ok () => .ok ()
    | .error (.panic m) => .error (.panic m)
    | .error _ => .error .verificationError

end CT
