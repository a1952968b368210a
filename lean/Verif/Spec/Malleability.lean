import Verif.Spec.Extraction

/-! # The part of a proof that the Verifier reads, and what two answers to the same challenges give (used by C64) -/

open Finset

namespace CT
variable {F G : Type}

/-- The two proofs have the same points and scalars, except that the lists `T` may differ at the degree `op` of the circuit equation
and beyond the degree `2 * (op + 1)` of the polynomial. -/
structure R1CSProof.SameButIgnored [Zero G] (op : Nat) (p p' : R1CSProof F G) : Prop where
  AI1 : p.AI1 = p'.AI1
  AO1 : p.AO1 = p'.AO1
  S1 : p.S1 = p'.S1
  AI2 : p.AI2 = p'.AI2
  AO2 : p.AO2 = p'.AO2
  S2 : p.S2 = p'.S2
  T : ∀ d ≤ 2 * (op + 1), d ≠ op → p.T.getD d 0 = p'.T.getD d 0
  tx : p.tx = p'.tx
  txBl : p.txBl = p'.txBl
  eBl : p.eBl = p'.eBl
  ipp : p.ipp = p'.ipp

variable [Field F]

/-- The product of the round challenges and their inverses that belongs to the `i`-th generator. -/
def roundFactor (us : List F) (i : Nat) : F :=
  ∏ j ∈ range us.length, if i.testBit (us.length - 1 - j) then us.getD j 0 else (us.getD j 0)⁻¹

/-- The relation between the generators that follows from two answers `(a, b)` and `(a', b')` at the end of the same inner product
argument: `n1` is the number of multipliers of the first phase, `y`, `u`, `w` and `us` are the challenges. -/
def answersRelation (n1 : Nat) (y u w : F) (us : List F) (a b a' b' : F) : Relation F where
  b := (a * b - a' * b') * w
  bbl := 0
  g i := (a - a') * roundFactor us i * if i < n1 then 1 else u
  h i := (b - b') * (roundFactor us i)⁻¹ * ((if i < n1 then 1 else u) * y⁻¹ ^ i)

end CT
