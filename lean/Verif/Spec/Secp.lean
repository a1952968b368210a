import Verif.Spec.Points

/-! # The orders of secp256k1 and secq256k1, and the scalars that cannot be used with them -/

namespace CT

/-- The group order of secp256k1 (the field modulus of secq256k1). -/
def secpOrder : Nat := 0xfffffffffffffffffffffffffffffffebaaedce6af48a03bbfd25e8cd0364141

/-- The group order of secq256k1 (the field modulus of secp256k1). -/
def secqOrder : Nat := 0xfffffffffffffffffffffffffffffffffffffffffffffffffffffffefffffc2f

/-- The scalars below an order `q` (just below `16·8^84 = 2^256`) for which two points of the
chain of incomplete additions in `re_randomize` coincide up to sign. -/
def secpExceptional (q : Nat) : List Int :=
  [0, q - offs 85, q - offs 85 + 8 ^ 85, q - offs 85 - offs 84 + 8 ^ 85]

end CT
