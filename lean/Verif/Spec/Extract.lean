import Verif.Spec.Satisfaction
import Verif.Model.Gadgets
import Verif.Spec.Points

/-!
# Reading the re-randomisation scalar off a witness

In a group of prime order every point is a multiple of every base, so "the two commitments differ by a
multiple of the base" says nothing. What matters is that the multiple is *known* to whoever knows the
witness: it is computed by the following function from the values of the variables of each window.
-/

namespace CT
variable {F : Type} [Field F] [DecidableEq F]

/-- The variables of one window of `re_randomize`: three index bits and the x-coordinate of the
accumulator after the window. -/
structure Window (F : Type) where
  b0 : Variable
  b1 : Variable
  b2 : Variable
  accX : LC F

/-- The base-8 digit given by the bits. -/
def Window.digit (v : Window F) (w : Assignment F) : Nat :=
  (if w.val v.b0 = 0 then 0 else 1) + 2 * (if w.val v.b1 = 0 then 0 else 1) +
    4 * (if w.val v.b2 = 0 then 0 else 1)

/-- The scalar of the accumulator after processing the windows `i, i+1, ..`, when it was `z` before.
Normally the table entry's scalar is added. If the accumulator has the x-coordinate of the table entry
(which an incomplete addition allows only when it is minus the entry), its scalar is read off
directly. -/
def extractFrom (m : Nat) (w : Assignment F) :
    (i : Nat) → (z : Int) → List (Table F) → List (Window F) → Int
  | i, z, t :: ts, v :: vs =>
      let d := v.digit w
      let τ := tableScalar m i d
      let z' := if i = 1 then τ else if w.eval v.accX = t.x (Fin.ofNat 8 d) then -τ else z + τ
      extractFrom m w (i + 1) z' ts vs
  | _, z, _, _ => z

/-- The re-randomisation scalar known to the owner of the witness `w`. -/
def extractScalar (m : Nat) (ts : List (Table F)) (vs : List (Window F)) (w : Assignment F) : Int :=
  extractFrom m w 1 0 ts vs

/-- `P` is a curve point whose x-coordinate is the value of one of the linear combinations, and whose
y-coordinate is `y`. -/
def Selected (C : SWCurve F) (w : Assignment F) (xs : List (LC F)) (y : F) (P : C.Pt) : Prop :=
  ∃ lc ∈ xs, ∃ h : C.OnCurve (w.eval lc) y, P = C.pt h

/-- The chain of incomplete additions for the scalar `r` avoids the exceptional cases: for each `k`, the
sum `(r mod 8^k + 8 + .. + 8^k)·h` of the first `k` table entries and the next entry are finite points
with different x-coordinates. -/
def ChainOk (C : SWCurve F) (lambda : Nat) (h : C.Pt) (r : Nat) : Prop :=
  ∀ k, 1 ≤ k → k < windows lambda →
    C.DiffX ((((r % 8 ^ k : Nat) : Int) + offs k) • h)
      (tableScalar (windows lambda) (k + 1) (r / 8 ^ k % 8) • h)

/-- Witnesses a Prover can use in the batched gadget: one finite point per chunk, with its x-coordinate
in the chunk, such that each partial sum and the next point have different x-coordinates. `S` is the
sum so far. -/
def BatchOk (C : SWCurve F) (w : Assignment F) : Bool → C.Pt → List (List (LC F)) → List C.Pt → Prop
  | _, _, [], [] => True
  | first, S, ch :: chunks, P :: pts =>
      P ≠ 0 ∧ (∃ lc ∈ ch, w.eval lc = C.xField P) ∧ (first = false → C.DiffX S P) ∧
        BatchOk C w false (S + P) chunks pts
  | _, _, _, _ => False

end CT
