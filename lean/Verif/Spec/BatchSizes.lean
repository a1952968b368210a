import Verif.Spec.Sizes

/-! # Sizes of batched paths, for `M` leaves of a tree -/

namespace CT

/-- Multipliers used for one level of inner nodes with branching factor `L`, apart from `allocate`. -/
def batchGates (L M bits : Nat) : Nat := (L + 6) * M + 9 * (bits / 3) + 7

/-- Calls of `allocate` on one level of inner nodes. -/
def batchAllocations (M bits : Nat) : Nat := 6 * M + 3 * (bits / 3) + 1

/-- Multipliers used for `k` levels of inner nodes and `leaves` leaves. Every leaf takes as much as a level of a single path. -/
def batchMultipliers (L M bits k leaves : Nat) : Nat :=
  batchGates L M bits * k + levelGates L bits * leaves + (batchAllocations M bits * k + levelAllocations bits * leaves + 1) / 2

/-- Bytes of a batched path in a tree of height `D`: one point for each level of inner nodes but the root, `M` leaves and two vector lengths. -/
def batchPathSize (D M pe po : Nat) : Nat := (M + (D - 1) / 2) * pe + D / 2 * po + 2 * 8

/-- Multipliers of the circuit of each curve for a tree of height `D`. The even circuit has the levels whose children are odd, the odd circuit the other levels and the leaves. -/
def batchCircuit (L M bits D : Nat) : Bool → Nat
  | false => batchMultipliers L M bits (D / 2) 0
  | true => batchMultipliers L M bits ((D - 1) / 2) M

/-- Bytes of a batched path and the two proofs for it. -/
def batchSize (L M bits D pe po fe fo : Nat) : Nat :=
  batchPathSize D M pe po + proofSize (batchCircuit L M bits D false) ((D - 1) / 2) pe fe + proofSize (batchCircuit L M bits D true) (D / 2) po fo

end CT
