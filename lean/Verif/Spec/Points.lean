import Verif.Model.Curve

/-! Specification vocabulary about curve points. -/

namespace CT
variable {F : Type} [Field F] [DecidableEq F]

/-- Two finite points with different x-coordinates: the case in which the chord formula applies. -/
def SWCurve.DiffX (C : SWCurve F) (P Q : C.Pt) : Prop := P ≠ 0 ∧ Q ≠ 0 ∧ P ≠ Q ∧ P ≠ -Q

/-- `8 + 8² + .. + 8^k`: the offsets accumulated after `k` windows. -/
def offs (k : Nat) : Int := ((List.range k).map fun i => (2 : Int) ^ (3 * (i + 1))).sum

/-- The scalars below a Pasta-like order `q` (just above `4·8^84 = 2^254`) for which two points of the
chain of incomplete additions in `re_randomize` coincide up to sign. -/
def pastaExceptional (q : Nat) : List Int :=
  [0, 3 * q - offs 85, 12 * 8 ^ 84 - 2 * q - offs 84, 5 * q - 2 * offs 85]

/-- The group order of the Pallas curve (the field modulus of Vesta). -/
def pallasOrder : Nat := 0x40000000000000000000000000000000224698fc0994a8dd8c46eb2100000001
/-- The group order of the Vesta curve (the field modulus of Pallas). -/
def vestaOrder : Nat := 0x40000000000000000000000000000000224698fc094cf91b992d30ed00000001

end CT
