/-!
# Transcript, errors

Models `bulletproofs/src/transcript.rs` and `bulletproofs/src/errors.rs`.

A merlin transcript is modelled by the list of messages absorbed so far (newest last).
A challenge is an arbitrary function of that list: the random oracle. Deriving a challenge
also changes the transcript (merlin absorbs the label), modelled by the message `chal label`.

Simplifications: byte strings are kept as typed values instead of their canonical
serialisation (which is injective for canonical arkworks elements); labels are `String`s.
-/

namespace CT

/-- Messages absorbed by a transcript. `F` scalars, `G` points of the curve the proof is over,
`X` points of any other curve absorbed by a gadget.
`transcript.rs:44-78` (domain separators, `append_scalar`, `append_point`). -/
inductive Msg (F G X : Type) where
  | sep (label : String)
  | num (label : String) (n : Nat)
  | point (label : String) (p : G)
  | foreign (label : String) (p : X)
  | scalar (label : String) (x : F)
  | chal (label : String)
deriving DecidableEq

/-- A transcript: everything absorbed so far. -/
abbrev Transcript (F G X : Type) := List (Msg F G X)

/-- The challenge function (merlin + hash to field), an arbitrary function of the transcript.
`transcript.rs:97-117` (`challenge_scalar`; the 256-attempts-failed panic is not modelled). -/
abbrev Oracle (F G X : Type) := Transcript F G X → F

/-- Reasons why a run stops. The first four are the values of `R1CSError` / `ProofError` that the
code returns (`errors.rs`); `panic` is a Rust panic (failed assert, unwrap, index out of range). -/
inductive Err where
  | missingAssignment
  | invalidGeneratorsLength
  | verificationError
  | formatError
  | panic (msg : String)
deriving DecidableEq, Repr

instance {ε α : Type} [DecidableEq ε] [DecidableEq α] : DecidableEq (Except ε α)
  | .ok a, .ok b => if h : a = b then isTrue (by rw [h]) else isFalse (by simpa using h)
  | .error a, .error b => if h : a = b then isTrue (by rw [h]) else isFalse (by simpa using h)
  | .ok _, .error _ => isFalse (by simp)
  | .error _, .ok _ => isFalse (by simp)

/-- `challenge_scalar(label)`: absorb the label, then read the oracle. `transcript.rs:97-117`. -/
def challengeScalar {F G X : Type} (o : Oracle F G X) (t : Transcript F G X) (label : String) :
    F × Transcript F G X :=
  (o (t ++ [.chal label]), t ++ [.chal label])

/-- `validate_and_append_point`: refuse the identity, otherwise absorb the point.
`transcript.rs:80-95`. -/
def validateAndAppendPoint {F G X : Type} [Zero G] [DecidableEq G] (t : Transcript F G X)
    (label : String) (p : G) : Except Err (Transcript F G X) :=
  if p = 0 then .error .verificationError else .ok (t ++ [.point label p])

end CT
