import Verif.Model.Verify

/-!
# The shuffle proof

Models the proof of a shuffle in `bulletproofs/tests/r1cs.rs:18-165`, the repository's example of second-phase constraints
(`benches/r1cs.rs:18-150` is the same code for one curve): a gadget that draws a challenge, the function that makes a proof and the
function that verifies it.
-/

namespace CT
variable {F G X : Type} [Field F]

/-- `(0..k - 2).rev().fold(prev, |prev_out, i| cs.multiply(prev_out.into(), x[i] - z))`, `tests/r1cs.rs:44-47, 53-56`. The first argument lists
`x[k-3], .., x[0]`. -/
def productFold (z : F) : List Variable → Variable → Prog F G X Variable
  | [], prev => pure prev
  | v :: vs, prev => do
    let (_, _, o) ← multiply (LC.ofVar prev) (LC.ofVar v - LC.const z)
    productFold z vs o

/-- The multipliers for one of the two lists, `tests/r1cs.rs:40-47` and `49-56`. With fewer than two variables `x[k - 1]` or `x[k - 2]` panics. -/
def productGadget (z : F) (x : List Variable) : Prog F G X Variable :=
  match x.reverse with
  | a :: b :: rest => do
    let (_, _, o) ← multiply (LC.ofVar a - LC.const z) (LC.ofVar b - LC.const z)
    productFold z rest o
  | _ => panic "index out of range"

/-- The callback of the second phase, `tests/r1cs.rs:37-62`. -/
def shuffleCallback (x y : List Variable) : Prog F G X Unit := do
  let z ← challenge "shuffle challenge"
  let outX ← productGadget z x
  let outY ← productGadget z y
  constrain (LC.ofVar outX - LC.ofVar outY)

/-- `ShuffleProof::gadget` run by the Prover, `tests/r1cs.rs:24-63`. -/
def PState.shuffle (s : PState F G X) (x y : List Variable) : Except Err (PState F G X) :=
  if x.length ≠ y.length then .error (.panic "assertion failed: x.len() == y.len()")
  else match x, y with
    | [a], [b] => .ok (s.constrain (LC.ofVar b - LC.ofVar a))
    | x, y => .ok (s.specifyRandomized (shuffleCallback x y))

/-- `ShuffleProof::gadget` run by the Verifier, `tests/r1cs.rs:24-63`. -/
def VState.shuffle (s : VState F G X) (x y : List Variable) : Except Err (VState F G X) :=
  if x.length ≠ y.length then .error (.panic "assertion failed: x.len() == y.len()")
  else match x, y with
    | [a], [b] => .ok (s.constrain (LC.ofVar b - LC.ofVar a))
    | x, y => .ok (s.specifyRandomized (shuffleCallback x y))

/-- The transcript with the domain separator, `tests/r1cs.rs:79-81, 119-121`. -/
def shuffleTranscript (tr : Transcript F G X) (k : Nat) : Transcript F G X := tr ++ [.sep "ShuffleProof", .num "k" k]

variable [DecidableEq F] [AddCommGroup G] [Module F G] [DecidableEq G]

/-- `.map(|v| prover.commit(*v, ..)).unzip()`, `tests/r1cs.rs:89-97`. The blindings are given with the values. -/
def PState.commitAll (g : Gens G) (s : PState F G X) : List (F × F) → (List G × List Variable) × PState F G X
  | [] => (([], []), s)
  | (v, bl) :: rest =>
    let r := s.commit g v bl
    let r' := r.2.commitAll g rest
    ((r.1.1 :: r'.1.1, r.1.2 :: r'.1.2), r'.2)

/-- `.map(|V| verifier.commit(*V))`, `tests/r1cs.rs:125-133`. -/
def VState.commitAll (t : VState F G X) : List G → List Variable × VState F G X
  | [] => ([], t)
  | V :: rest =>
    let r := t.commit V
    let r' := r.2.commitAll rest
    (r.1 :: r'.1, r'.2)

/-- `ShuffleProof::prove` up to the call of `prove`, `tests/r1cs.rs:70-99`: the commitments and the Prover. `input` and `output` are values with
blindings. -/
def shuffleProver (g : Gens G) (tr : Transcript F G X) (input output : List (F × F)) :
    Except Err ((List G × List G) × PState F G X) :=
  let r := (PState.new (shuffleTranscript tr input.length)).commitAll g input
  let r' := r.2.commitAll g output
  match r'.2.shuffle r.1.2 r'.1.2 with
  | .error e => .error e
  | .ok s => .ok ((r.1.1, r'.1.1), s)

/-- `ShuffleProof::prove`, `tests/r1cs.rs:70-104`. -/
def shuffleProve (o : Oracle F G X) (g : Gens G) (rnd : PRand F) (tr : Transcript F G X) (input output : List (F × F)) :
    Except Err (R1CSProof F G × List G × List G) :=
  match shuffleProver g tr input output with
  | .error e => .error e
  | .ok (V, s) =>
    match prove o g rnd s with
    | .error e => .error e
    | .ok (p, _) => .ok (p, V)

/-- `ShuffleProof::verify` up to the call of `verify`, `tests/r1cs.rs:109-135`: the Verifier. -/
def shuffleVerifier (tr : Transcript F G X) (input output : List G) : Except Err (VState F G X) :=
  let r := (VState.new (shuffleTranscript tr input.length)).commitAll input
  let r' := r.2.commitAll output
  r'.2.shuffle r.1 r'.1

/-- `ShuffleProof::verify`, `tests/r1cs.rs:109-139`. -/
def shuffleVerify (o : Oracle F G X) (g : Gens G) (r : F) (tr : Transcript F G X) (p : R1CSProof F G) (input output : List G) :
    Except Err Unit :=
  match shuffleVerifier tr input output with
  | .error e => .error e
  | .ok t => verify o g r p t

end CT
