import Mathlib.Algebra.Field.Basic
import Mathlib.Algebra.Module.Defs
import Mathlib.Algebra.BigOperators.Group.List.Basic
import Verif.Model.Transcript

/-! # Helpers: `bulletproofs/src/util.rs`, multi-scalar multiplication, `op_splits`

Scalars are a field `F`, points an `F`-module `G`. -/

namespace CT

section
variable {F G : Type} [Field F] [AddCommGroup G] [Module F G]

/-- arkworks' `VariableBaseMSM::msm_unchecked(bases, scalars)`: the sum of the products, over the
shorter of the two slices. -/
def msm (gs : List G) (ss : List F) : G := (List.zipWith (fun g s => s • g) gs ss).sum

/-- `inner_product`, `inner_product_proof.rs:442-451`, when the lengths agree. -/
def innerProduct (a b : List F) : F := (List.zipWith (· * ·) a b).sum

/-- `inner_product`, `inner_product_proof.rs:442-451`, with its panic. -/
def innerProduct? (a b : List F) : Except Err F :=
  if a.length ≠ b.length then .error (.panic "inner_product(a,b): lengths of vectors do not match")
  else .ok (innerProduct a b)

/-- `exp_iter(x).take(n)`, `util.rs:139-162`: `acc` is `next_exp_x`. -/
def expIterFrom (x acc : F) : Nat → List F
  | 0 => []
  | n + 1 => acc :: expIterFrom x (acc * x) n

/-- `exp_iter(x).take(n)`, `util.rs:159-162`. -/
def expIter (x : F) (n : Nat) : List F := expIterFrom x 1 n

/-- `add_vec`, `util.rs:164-174`; the index panic for a longer `a` is modelled, a shorter `a` leaves
zeros. -/
def addVec (a b : List F) : Except Err (List F) :=
  if b.length < a.length then .error (.panic "index out of bounds")
  else .ok (List.zipWith (· + ·) a b ++ List.replicate (b.length - a.length) 0)

/-- `Poly::eval`, `util.rs:48-55`: Horner. -/
def polyEval (p : List F) (x : F) : F := p.reverse.foldl (fun out v => out * x + v) 0

/-- `VecPoly`, `util.rs:31`: coefficient vectors, lowest degree first. -/
abbrev VecPoly (F : Type) := List (List F)

/-- `VecPoly::zero(n, deg)`, `util.rs:77-79`. -/
def VecPoly.zero (n deg : Nat) : VecPoly F := List.replicate (deg + 1) (List.replicate n 0)

/-- Overwrites a prefix of a vector. -/
def overwrite (row v : List F) : List F := v.take row.length ++ row.drop v.length

/-- `p.coeff_mut(d)[i] = v[i]` for all `i < v.len()`. `util.rs:65-67`; an index beyond the row would
panic in Rust, here it is ignored (never the case where it is used: the rows have length `size()`). -/
def VecPoly.write (p : VecPoly F) (d : Nat) (v : List F) : VecPoly F :=
  p.modify d fun row => overwrite row v

/-- `VecPoly::eval`, `util.rs:81-91`. -/
def VecPoly.eval (p : VecPoly F) (x : F) : List F :=
  (List.range (p.headD []).length).map fun i =>
    p.reverse.foldl (fun out v => out * x + v.getD i 0) 0

/-- `VecPoly::inner_product`, `util.rs:98-118`. -/
def VecPoly.innerProduct (l r : VecPoly F) : List F :=
  (List.range (l.length - 1 + (r.length - 1) + 1)).map fun d =>
    ((List.range (d + 1)).map fun i =>
      if i ≤ l.length - 1 ∧ d - i ≤ r.length - 1 then
        CT.innerProduct (l.getD i []) (r.getD (d - i) [])
      else 0).sum

/-- Number of entries of `T_LABELS`, `util.rs:23-28`. -/
def tLabelCount : Nat := 41

/-- `T_LABELS[d]`, `util.rs:23-28`; out of range is a panic. -/
def tLabel (d : Nat) : Except Err String :=
  if d < tLabelCount then .ok ("T_" ++ toString d) else .error (.panic "index out of bounds")

end

/-- `op_splits`, `r1cs/mod.rs:19-39`. -/
def opSplits (opDeg : Nat) : List (Nat × Nat) :=
  let mid := opDeg / 2
  [(mid, mid), (opDeg, 0)] ++
    ((List.range opDeg).map (· + 1)).filterMap fun r =>
      if r = mid then none else some (opDeg - r, r)

/-- `op_degree = 2 + 2 * (ncomm / 2)`, `prover.rs:518`, `verifier.rs:490`. -/
def opDegree (ncomm : Nat) : Nat := 2 + 2 * (ncomm / 2)

section
variable {F : Type} [Field F]

/-- `scalar_exp_vartime`, `util.rs:267-279`. The loop `while n > 0` halves `n`. -/
def scalarExpLoop (result aux : F) (n : Nat) : F :=
  if _h : n = 0 then result
  else scalarExpLoop (if n % 2 = 1 then result * aux else result) (aux * aux) (n / 2)
termination_by n
decreasing_by omega

/-- `scalar_exp_vartime`, `util.rs:267-279`. -/
def scalarExpVartime (x : F) (n : Nat) : F := scalarExpLoop 1 x n

/-- The loop of `sum_of_powers`, `util.rs:295-300`. -/
def sumOfPowersLoop (result factor : F) (m : Nat) : F :=
  if _h : 2 < m then sumOfPowersLoop (result + factor * factor * result) (factor * factor) (m / 2)
  else result
termination_by m
decreasing_by omega

/-- `sum_of_powers_slow`, `util.rs:304-306`. -/
def sumOfPowersSlow (x : F) (n : Nat) : F := (expIter x n).sum

/-- `usize::is_power_of_two`. -/
def isPow2 (n : Nat) : Bool := n ≠ 0 && 2 ^ n.log2 = n

/-- `sum_of_powers`, `util.rs:285-302`. -/
def sumOfPowers (x : F) (n : Nat) : F :=
  if !isPow2 n then sumOfPowersSlow x n
  else if n = 0 ∨ n = 1 then (n : F)
  else sumOfPowersLoop (1 + x) x n

/-- `struct VecPoly1`, `util.rs:14-16`. -/
structure VecPoly1 (F : Type) where
  c0 : List F
  c1 : List F

/-- `VecPoly1::inner_product` (Karatsuba), `util.rs:181-195`. -/
def VecPoly1.innerProduct (l r : VecPoly1 F) : Except Err (F × F × F) := do
  let t0 ← innerProduct? l.c0 r.c0
  let t2 ← innerProduct? l.c1 r.c1
  let ls ← addVec l.c0 l.c1
  let rs ← addVec r.c0 r.c1
  let t1 ← innerProduct? ls rs
  return (t0, t1 - t0 - t2, t2)

/-- `VecPoly1::eval`, `util.rs:197-204`, for coefficient vectors of equal length. -/
def VecPoly1.eval (p : VecPoly1 F) (x : F) : List F := List.zipWith (fun a b => a + b * x) p.c0 p.c1

/-- `struct VecPoly3`, `util.rs:18-21`. -/
structure VecPoly3 (F : Type) where
  c0 : List F
  c1 : List F
  c2 : List F
  c3 : List F

/-- `VecPoly3::special_inner_product`, `util.rs:222-240`: the coefficients `t1..t6`. -/
def VecPoly3.specialInnerProduct (l r : VecPoly3 F) : Except Err (List F) := do
  let t1 ← innerProduct? l.c1 r.c0
  let t2 ← innerProduct? l.c1 r.c1
  let t2' ← innerProduct? l.c2 r.c0
  let t3 ← innerProduct? l.c2 r.c1
  let t3' ← innerProduct? l.c3 r.c0
  let t4 ← innerProduct? l.c1 r.c3
  let t4' ← innerProduct? l.c3 r.c1
  let t5 ← innerProduct? l.c2 r.c3
  let t6 ← innerProduct? l.c3 r.c3
  return [t1, t2 + t2', t3 + t3', t4 + t4', t5, t6]

/-- `VecPoly3::eval`, `util.rs:242-249`, at one coordinate. -/
def VecPoly3.evalAt (p : VecPoly3 F) (x : F) (i : Nat) : F :=
  p.c0.getD i 0 + x * (p.c1.getD i 0 + x * (p.c2.getD i 0 + x * p.c3.getD i 0))

/-- `VecPoly3::eval`, `util.rs:242-249`, for coefficient vectors of equal length. -/
def VecPoly3.eval (p : VecPoly3 F) (x : F) : List F :=
  (List.range p.c0.length).map (p.evalAt x)

/-- `Poly2::eval`, `util.rs:252-256`. -/
def poly2Eval (t : F × F × F) (x : F) : F := t.1 + x * (t.2.1 + x * t.2.2)

/-- `Poly6::eval`, `util.rs:258-262`, on `[t1, .., t6]`. -/
def poly6Eval (t : List F) (x : F) : F :=
  x * (t.getD 0 0 + x * (t.getD 1 0 + x * (t.getD 2 0 + x * (t.getD 3 0 + x * (t.getD 4 0 +
    x * t.getD 5 0)))))

end
end CT
