import Verif.Model.Prove

/-!
# Sizes of what is sent

Points of the even curve take `pe` bytes, points of the odd curve `po`, scalars of the even curve `fe`, scalars of the odd curve `fo`. The
scalars of both curves have about the same number `bits` of bits (255 for the Pasta curves, 256 for secp256k1 and secq256k1).
-/

namespace CT

/-- Multipliers used for one level with branching factor `L`, apart from `allocate`. -/
def levelGates (L bits : Nat) : Nat := L + 13 + 9 * (bits / 3)

/-- Calls of `allocate` on one level. Two calls share a multiplier. -/
def levelAllocations (bits : Nat) : Nat := 7 + 3 * (bits / 3)

/-- Multipliers used for `k` levels and a circuit with `extra` multipliers. -/
def multipliersFor (L bits k extra : Nat) : Nat := levelGates L bits * k + extra + (levelAllocations bits * k + 1) / 2

/-- Points in an R1CS proof for `n` multipliers with `k` vector commitments: `A_I`, `A_O`, `S`, the `T`s, and twice the number of rounds
of the inner product proof. -/
def proofPoints (n k : Nat) : Nat := 3 + (2 * (2 + 2 * (k / 2)) + 3) + 2 * (nextPow2 n).log2

/-- Bytes of an R1CS proof: its points, five scalars, three vector lengths and a flag. -/
def proofSize (n k point scalar : Nat) : Nat := proofPoints n k * point + 5 * scalar + 3 * 8 + 1

/-- Bytes of a path in a tree of height `D`: one point for each level and two vector lengths. -/
def pathSize (D pe po : Nat) : Nat := (D + 1) / 2 * pe + D / 2 * po + 2 * 8

/-- Bytes of a path in a tree of height `D` with branching factor `L` and the two proofs for it. The even curve has `D / 2` levels (rounded
down) and a vector commitment for each that is not the root, the odd curve the rest. -/
def membershipSize (L bits D pe po fe fo : Nat) : Nat :=
  pathSize D pe po + proofSize (multipliersFor L bits (D / 2) 0) ((D - 1) / 2) pe fe +
    proofSize (multipliersFor L bits ((D + 1) / 2) 0) (D / 2) po fo

/-- The same for the accumulator with `width` elements in each leaf: the circuit on the even curve is also used for selecting one of
them, and there is a vector commitment for the leaf. -/
def accumulatorSize (L bits D width pe po fe fo : Nat) : Nat :=
  pathSize D pe po + proofSize (max width (multipliersFor L bits (D / 2) (width - 1))) ((D - 1) / 2 + 1) pe fe +
    proofSize (multipliersFor L bits ((D + 1) / 2) 0) (D / 2) po fo

/-- Bytes of a signed transaction: two paths, two proofs each for both paths, two public keys of `pk` bytes, two coins, two signatures with two
scalars of `sg` bytes each, and a vector length. The circuit on the even curve also has two range proofs of 64 bits, and vector commitments for four
coins. -/
def transactionSize (L bits D pe po fe fo pk sg : Nat) : Nat :=
  2 * pathSize D pe po + proofSize (multipliersFor L bits (2 * (D / 2)) 128) (2 * ((D - 1) / 2) + 4) pe fe +
    proofSize (multipliersFor L bits (2 * ((D + 1) / 2)) 0) (2 * (D / 2)) po fo + 2 * pk + 2 * pe + 4 * sg + 8

end CT
