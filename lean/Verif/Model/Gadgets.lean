import Verif.Model.R1CS
import Verif.Model.Curve

/-!
# Gadgets of the `relations` crate

`select.rs`, `range_proof.rs`, `lookup.rs`, `curve.rs`, `rerandomize.rs`,
`single_level_select_and_rerandomize.rs`. An `Option` argument is the witness: `some` for the
Prover, `none` for the Verifier.
-/

namespace CT

section Basic
variable {F G X : Type}

/-- Turn a computation that may panic into gadget code. -/
def orPanic {α : Type} (msg : String) : Option α → Prog F G X α
  | some a => .pure a
  | none => panic msg

variable [Field F]

/-- Loop of `select`, `select.rs:15-18`. -/
def selectLoop (x : LC F) : List (LC F) → LC F → Prog F G X (LC F)
  | [], product => pure product
  | xi :: xs, product => do
      let (_, _, next) ← multiply product (xi - x)
      selectLoop x xs (LC.ofVar next)

/-- `select`, `select.rs:5-20`. The iterator is the list of its items. -/
def select (x : LC F) : List (LC F) → Prog F G X Unit
  | [] => panic "Cannot select from empty list."
  | x1 :: xs => do
      let product ← selectLoop x xs (x1 - x)
      constrain product

/-- The assignment of one bit, `range_proof.rs:14-17`. Shifting a `u64` by 64 or more is an overflow
panic (debug profile). -/
def rangeBit (q : Option Nat) (i : Nat) : Option (Option (F × F)) :=
  match q with
  | none => some none
  | some q =>
      if i < 64 then
        let bit := (q / 2 ^ i) % 2
        some (some (((1 - bit : Nat) : F), ((bit : Nat) : F)))
      else none

/-- Loop of `range_proof`, `range_proof.rs:12-31`: `k` iterations left, starting with bit `i`. -/
def rangeLoop (q : Option Nat) : (k i : Nat) → (exp2 : F) → (v : LC F) → Prog F G X (LC F)
  | 0, _, _, v => pure v
  | k + 1, i, exp2, v => do
      let bits ← orPanic "attempt to shift right with overflow" (rangeBit q i)
      let (a, b, o) ← allocateMultiplier bits
      constrain (LC.ofVar o)
      constrain (LC.ofVar a + (LC.ofVar b - LC.const 1))
      rangeLoop q k (i + 1) (exp2 + exp2) (v - (⟨[(b, exp2)]⟩ : LC F))

/-- `range_proof`, `range_proof.rs:4-37`. The `u64` assignment is a `Nat`. -/
def rangeProof (v : LC F) (q : Option Nat) (n : Nat) : Prog F G X Unit := do
  let v ← rangeLoop q n 0 1 v
  constrain v

/-- `b2f`, `lookup.rs:13-19`. -/
def b2f (b : Bool) : F := if b then 1 else 0

/-- `is_bit`, `lookup.rs:21-24`. -/
def isBit (v : LC F) : Prog F G X Unit := do
  let (_, _, zero) ← multiply v (v - LC.const 1)
  constrain (LC.ofVar zero)

/-- `bit`, `lookup.rs:26-46`. -/
def bit (val : Option Bool) : Prog F G X Variable := do
  let (bit, bitInv, zero) ← allocateMultiplier (val.map fun b => (b2f b, b2f b - 1))
  constrain (LC.ofVar bitInv - (LC.ofVar bit - LC.const 1))
  constrain (LC.ofVar zero)
  pure bit

/-- One row of a lookup table: eight field elements (`[F; WINDOW_ELEMS]`, `lookup.rs:5-11`). -/
abbrev Row (F : Type) := Fin 8 → F

/-- `single_membership`, `lookup.rs:48-75`. -/
def singleMembership (u : Row F) (sa s0 s1 s2 : LC F) : Prog F G X (LC F) := do
  let f := -(sa.smul (u 0)) + s2.smul (u 0) + s1.smul (u 0) - LC.const (u 0) + sa.smul (u 2)
  let f := f - s1.smul (u 2) + sa.smul (u 4) - s2.smul (u 4) - sa.smul (u 6)
  let f := f + sa.smul (u 1) - s2.smul (u 1) - s1.smul (u 1) + LC.const (u 1) - sa.smul (u 3)
  let f := f + s1.smul (u 3) - sa.smul (u 5) + s2.smul (u 5) + sa.smul (u 7)
  let (_, _, left) ← multiply s0 f
  let right := -(sa.smul (u 0)) + s2.smul (u 0) + s1.smul (u 0) - LC.const (u 0) + sa.smul (u 2)
  let right := right - s1.smul (u 2) + sa.smul (u 4) - s2.smul (u 4) - sa.smul (u 6)
  pure (LC.ofVar left - right)

/-- `lookup` with `N = 2` rows (the only use), `lookup.rs:86-115`. -/
def lookup (tx ty : Row F) (index : Option Nat) : Prog F G X (LC F × LC F) := do
  let (b1, b2, ba) ← allocateMultiplier
    (index.map fun i => (b2f ((i / 2) % 2 == 1), b2f ((i / 4) % 2 == 1)))
  let b0 ← bit (index.map fun i => i % 2 == 1)
  isBit (LC.ofVar b1)
  isBit (LC.ofVar b2)
  let x ← singleMembership tx (LC.ofVar ba) (LC.ofVar b0) (LC.ofVar b1) (LC.ofVar b2)
  let y ← singleMembership ty (LC.ofVar ba) (LC.ofVar b0) (LC.ofVar b1) (LC.ofVar b2)
  pure (x, y)

/-- `curve_check`, `curve.rs:6-24`. The constraint is `x³ + a·x² + b - y² = 0` (sic). -/
def curveCheck (x y : LC F) (a b : F) : Prog F G X Unit := do
  let (_, _, xSq) ← multiply x x
  let (_, _, xCu) ← multiply x (LC.ofVar xSq)
  let (_, _, ySq) ← multiply y y
  constrain (LC.ofVar xCu + (LC.ofVar xSq).smul a + LC.const b - LC.ofVar ySq)

/-- `struct CurveAddition`, `curve.rs:121-130`. -/
structure CurveAddition (F : Type) where
  xl : LC F
  yl : LC F
  xr : LC F
  yr : LC F
  xo : LC F
  yo : LC F
  delta : Option F

/-- `incomplete_curve_addition`, `curve.rs:132-157`. -/
def incompleteCurveAddition (p : CurveAddition F) : Prog F G X Unit := do
  let delta ← allocate p.delta
  let (_, _, d1) ← multiply (LC.ofVar delta) (p.xr - p.xl)
  constrain (LC.ofVar d1 - (p.yr - p.yl))
  let (_, _, d2) ← multiply (LC.ofVar delta) (p.xo - p.xl)
  constrain (LC.ofVar d2 - (-p.yo - p.yl))
  let (_, _, d3) ← multiply (LC.ofVar delta) (LC.ofVar delta)
  constrain (p.xo + p.xr + p.xl - LC.ofVar d3)

/-- `not_zero`, `curve.rs:175-186`. -/
def notZero (v vInv : LC F) : Prog F G X Unit := do
  let (_, _, prod) ← multiply v vInv
  constrain (LC.ofVar prod - LC.ofVar .one)

/-- `checked_curve_addition`, `curve.rs:159-173`. -/
def checkedCurveAddition (p : CurveAddition F) (xInv : Option F) : Prog F G X Unit := do
  let inv ← allocate xInv
  notZero (p.xl - p.xr) (LC.ofVar inv)
  incompleteCurveAddition p

end Basic

section Curve
variable {F G X : Type} [Field F] [DecidableEq F]

/-- Field division as in ark-ff: dividing by zero panics (`none`). -/
def fdiv (a b : F) : Option F := if b = 0 then none else some (a / b)

/-- `struct PointRepresentation`, `curve.rs:26-33`. -/
structure PointRep (C : SWCurve F) where
  x : LC F
  y : LC F
  witness : Option C.Pt

/-- The witness computation of `checked_curve_addition_helper`, `curve.rs:88-98`:
sum, slope, inverse. -/
def addWitness (C : SWCurve F) (l r : C.Pt) : Option (C.Pt × F × F) := do
  let xl ← C.x? l
  let yl ← C.y? l
  let xr ← C.x? r
  let yr ← C.y? r
  let delta ← fdiv (yr - yl) (xr - xl)
  let inv ← fdiv 1 (xl - xr)
  some (l + r, delta, inv)

/-- `Option` of the coordinates to allocate, `curve.rs:99-100`; panics at infinity. -/
def coords? (C : SWCurve F) : Option C.Pt → Option (Option F × Option F)
  | none => some (none, none)
  | some p => do
      let x ← C.x? p
      let y ← C.y? p
      some (some x, some y)

/-- The `match` computing sum, slope and inverse in the two helpers, `curve.rs:46-54, 88-98`. -/
def helperWitness (C : SWCurve F) :
    Option C.Pt → Option C.Pt → Prog F G X (Option C.Pt × Option F × Option F)
  | some lp, some rp => do
      let (out, delta, inv) ← orPanic "slope" (addWitness C lp rp)
      pure (some out, some delta, some inv)
  | _, _ => pure (none, none, none)

/-- `incomplete_curve_addition_helper`, `curve.rs:35-74`. -/
def incompleteCurveAdditionHelper (C : SWCurve F) (l r : PointRep C) :
    Prog F G X (PointRep C) := do
  let (out, delta, _) ← helperWitness C l.witness r.witness
  let (xo, yo) ← orPanic "point at infinity" (coords? C out)
  let xOut ← allocate xo
  let yOut ← allocate yo
  incompleteCurveAddition
    ⟨l.x, l.y, r.x, r.y, LC.ofVar xOut, LC.ofVar yOut, delta⟩
  pure ⟨LC.ofVar xOut, LC.ofVar yOut, out⟩

/-- `checked_curve_addition_helper`, `curve.rs:76-119`. -/
def checkedCurveAdditionHelper (C : SWCurve F) (l r : PointRep C) :
    Prog F G X (PointRep C) := do
  let (out, delta, inv) ← helperWitness C l.witness r.witness
  let (xo, yo) ← orPanic "point at infinity" (coords? C out)
  let xOut ← allocate xo
  let yOut ← allocate yo
  checkedCurveAddition
    ⟨l.x, l.y, r.x, r.y, LC.ofVar xOut, LC.ofVar yOut, delta⟩ inv
  pure ⟨LC.ofVar xOut, LC.ofVar yOut, out⟩

/-- One window's table (`Lookup3Bit<2, F>`, `lookup.rs:8-11`): x row and y row. -/
structure Table (F : Type) where
  x : Row F
  y : Row F

/-- The window count `m = lambda / 3 + 1`, `rerandomize.rs:14-15, 63-64`. -/
def windows (lambda : Nat) : Nat := lambda / 3 + 1

/-- Scalar of entry `j` of table `i` (`1 ≤ i ≤ m`) in `build_tables`, as an integer,
`rerandomize.rs:19-38`: `j·2^(3(i-1)) + 2^(3i)` for `i < m`, and for `i = m` the sum of all earlier
right terms is subtracted. (In the code this is computed in the scalar field.) -/
def tableScalar (m i j : Nat) : Int :=
  if i < m then (j : Int) * 2 ^ (3 * (i - 1)) + 2 ^ (3 * i)
  else (j : Int) * 2 ^ (3 * (i - 1)) - ((List.range (m - 1)).map fun k => (2 : Int) ^ (3 * (k + 1))).sum

/-- `build_tables`, `rerandomize.rs:13-48`; `none` is the panic when an entry is the point at
infinity. Simplification: the scalar is reduced modulo the group order by the field in the code and
is an integer multiple here. -/
def buildTables (C : SWCurve F) (m : Nat) (h : C.Pt) : Option (List (Table F)) :=
  (List.range m).mapM fun k =>
    let entry (j : Fin 8) : C.Pt := tableScalar m (k + 1) j • h
    if ∀ j, (C.x? (entry j)).isSome then
      some ⟨fun j => C.xField (entry j), fun j => C.yField (entry j)⟩
    else none

/-- The 3-bit window `i` (`1 ≤ i`) of the randomness, `rerandomize.rs:84-91`. `r` is the canonical
integer of the scalar; bits at or above `lambda` count as zero. -/
def windowIndex (lambda r i : Nat) : Nat :=
  let bi := (i - 1) * 3
  let b (k : Nat) : Nat := if bi + k < lambda ∧ (r / 2 ^ (bi + k)) % 2 = 1 then 1 else 0
  b 0 + 2 * b 1 + 4 * b 2

/-- Witness values of one iteration of `re_randomize`. -/
structure StepWitness (C : SWCurve F) where
  index : Nat
  inv : Option F
  delta : Option F
  accX : F
  accY : F
  acc : C.Pt

/-- Prover computation in iteration `i` of `re_randomize`, `rerandomize.rs:83-128`;
`none` is a panic. -/
def rerandStepWitness (C : SWCurve F) (lambda m i r : Nat) (t : Table F) (acc : C.Pt) :
    Option (StepWitness C) := do
  let index := windowIndex lambda r i
  let k : Fin 8 := Fin.ofNat 8 index
  let xRight := t.x k
  let yRight := t.y k
  let xLeft ← if i = 1 then some 0 else C.x? acc
  let yLeft ← if i = 1 then some 0 else C.y? acc
  let delta ← if i ≠ 1 then (fdiv (yRight - yLeft) (xRight - xLeft)).map some else some none
  let inv ← if i = m then (fdiv 1 (xLeft - xRight)).map some else some none
  let entry ← C.new? xRight yRight
  let acc := acc + entry
  let accX ← C.x? acc
  let accY ← C.y? acc
  some ⟨index, inv, delta, accX, accY, acc⟩

/-- The `match &r_bits` of iteration `i`, `rerandomize.rs:81-129`. -/
def rerandStepMatch (C : SWCurve F) (lambda m i : Nat) (t : Table F) (acc : C.Pt) :
    Option Nat → Prog F G X (Option (StepWitness C))
  | none => pure none
  | some r => do
      let w ← orPanic "re_randomize step" (rerandStepWitness C lambda m i r t acc)
      pure (some w)

/-- The addition constraint of iteration `i`, `rerandomize.rs:136-155`.

`fx = false` is the code in `/repo`: in the first iteration the accumulator variables are allocated
but not constrained at all. `fx = true` is a repaired gadget (not in `/repo`) which constrains the
first accumulator to be the looked-up point; it is only used to state what the missing constraints
would give. -/
def rerandStepAdd (fx : Bool) (m i : Nat) (prms : CurveAddition F) (inv : Option F) :
    Prog F G X Unit :=
  if i > 1 then
    if i = m then checkedCurveAddition prms inv
    else incompleteCurveAddition prms
  else if fx then do
    constrain (prms.xo - prms.xr)
    constrain (prms.yo - prms.yr)
  else pure ()

/-- The constraints of one iteration of `re_randomize`, `rerandomize.rs:131-157`, for given witness
values; `st` are the linear combinations of the previous accumulator. -/
def rerandStepBody (fx : Bool) (m i : Nat) (t : Table F) (st : LC F × LC F)
    (index : Option Nat) (accX accY delta inv : Option F) : Prog F G X (LC F × LC F) := do
  let (xTable, yTable) ← lookup t.x t.y index
  let vx ← allocate accX
  let vy ← allocate accY
  rerandStepAdd fx m i ⟨st.1, st.2, xTable, yTable, LC.ofVar vx, LC.ofVar vy, delta⟩ inv
  pure (LC.ofVar vx, LC.ofVar vy)

/-- One iteration of `re_randomize`, `rerandomize.rs:78-158`. State: accumulator point (Prover only)
and the variables of its coordinates. -/
def rerandStep (C : SWCurve F) (fx : Bool) (lambda m : Nat) (r : Option Nat) (i : Nat) (t : Table F)
    (st : C.Pt × LC F × LC F) : Prog F G X (C.Pt × LC F × LC F) := do
  let sw ← rerandStepMatch C lambda m i t st.1 r
  let lcs ← rerandStepBody fx m i t st.2 (sw.map (·.index)) (sw.map (·.accX)) (sw.map (·.accY))
    (sw.bind (·.delta)) (sw.bind (·.inv))
  pure ((sw.map (·.acc)).getD st.1, lcs)

/-- Loop of `re_randomize` over windows `i, i+1, ..` with the remaining tables. -/
def rerandLoop (C : SWCurve F) (fx : Bool) (lambda m : Nat) (r : Option Nat) :
    (i : Nat) → List (Table F) → (C.Pt × LC F × LC F) → Prog F G X (C.Pt × LC F × LC F)
  | _, [], st => pure st
  | i, t :: ts, st => do
      let st ← rerandStep C fx lambda m r i t st
      rerandLoop C fx lambda m r (i + 1) ts st

/-- Witness of the final addition, `rerandomize.rs:161-171`; `none` is a panic. -/
def rerandFinalWitness (C : SWCurve F) (c acc : C.Pt) : Option (F × F) := do
  let xl ← C.x? c
  let yl ← C.y? c
  let xr ← C.x? acc
  let yr ← C.y? acc
  let delta ← fdiv (yr - yl) (xr - xl)
  let inv ← fdiv 1 (xl - xr)
  some (delta, inv)

/-- The `match commitment.witness` of the final addition, `rerandomize.rs:161-171`. -/
def rerandFinalMatch (C : SWCurve F) (acc : C.Pt) :
    Option C.Pt → Prog F G X (Option F × Option F)
  | some c => do
      let (d, i) ← orPanic "re_randomize final" (rerandFinalWitness C c acc)
      pure (some d, some i)
  | none => pure (none, none)

/-- `re_randomize`, `rerandomize.rs:50-182`. `lambda` is the bit size of the scalar field modulus.
`fx = false` is the code, see `rerandStepAdd`. Fewer tables than windows is an index panic. -/
def reRandomize (C : SWCurve F) (fx : Bool) (lambda : Nat) (tables : List (Table F))
    (commitment : PointRep C) (xTilde yTilde : LC F) (r : Option Nat) : Prog F G X Unit :=
  if tables.length < windows lambda then panic "index out of bounds"
  else do
  let (acc, accX, accY) ←
    rerandLoop C fx lambda (windows lambda) r 1 (tables.take (windows lambda))
      (0, LC.ofVar .one, LC.ofVar .one)
  let (delta, inv) ← rerandFinalMatch C acc commitment.witness
  checkedCurveAddition ⟨commitment.x, commitment.y, accX, accY, xTilde, yTilde, delta⟩ inv

/-- The part of `SingleLayerParameters` used by the circuits,
`single_level_select_and_rerandomize.rs:18-40`. `coeff_a`, `coeff_b` are those of the curve. -/
structure LayerParams (C : SWCurve F) where
  delta : C.Pt
  tables : List (Table F)
  lambda : Nat

/-- `single_level_select_and_rerandomize`,
`single_level_select_and_rerandomize.rs:72-126`. -/
def singleLevel (C : SWCurve F) (fx : Bool) (prm : LayerParams C) (rerandomizedChild : C.Pt)
    (children : List (LC F)) (childPlusDelta : Option C.Pt) (r : Option Nat) :
    Prog F G C.Pt Unit := do
  appendMsg (.foreign "rerandomized_child" rerandomizedChild)
  let xVar ← allocate (childPlusDelta.map C.xField)
  select (LC.ofVar xVar) children
  let yVar ← allocate (childPlusDelta.map C.yField)
  curveCheck (LC.ofVar xVar) (LC.ofVar yVar) C.a C.b
  reRandomize C fx prm.lambda prm.tables ⟨LC.ofVar xVar, LC.ofVar yVar, childPlusDelta⟩
    (LC.const (C.xField (rerandomizedChild + prm.delta)))
    (LC.const (C.yField (rerandomizedChild + prm.delta))) r

/-- `children_plus_delta.map(|xy| xy[i])`: the next witness and the remaining ones,
`single_level_select_and_rerandomize.rs:153`; running out of witnesses is an index panic. -/
def nextWitness {α : Type} : Option (List α) → Prog F G X (Option α × Option (List α))
  | none => pure (none, none)
  | some [] => panic "index out of bounds"
  | some (p :: ps) => pure (some p, some ps)

/-- Updating the accumulated sum, `single_level_select_and_rerandomize.rs:174-181`. -/
def batchedSum (C : SWCurve F) (first : Bool) (sum ith : PointRep C) : Prog F G X (PointRep C) :=
  if first then pure ith else checkedCurveAdditionHelper C sum ith

/-- Loop of `single_level_batched_select_and_rerandomize`,
`single_level_select_and_rerandomize.rs:151-182`, over the chunks with their witnesses. -/
def batchedLoop (C : SWCurve F) :
    (first : Bool) → List (List (LC F)) → Option (List C.Pt) → PointRep C →
    Prog F G X (PointRep C)
  | _, [], _, sum => pure sum
  | first, chunk :: chunks, wit, sum => do
      let (w, rest) ← nextWitness wit
      let xVar ← allocate (w.map C.xField)
      let yVar ← allocate (w.map C.yField)
      select (LC.ofVar xVar) chunk
      curveCheck (LC.ofVar xVar) (LC.ofVar yVar) C.a C.b
      let sum ← batchedSum C first sum ⟨LC.ofVar xVar, LC.ofVar yVar, w⟩
      batchedLoop C false chunks rest sum

/-- `chunks_exact(k)` of a list (`k > 0`): full chunks only, the remainder is dropped. -/
def chunksExact {α : Type} (k : Nat) (l : List α) : List (List α) :=
  (List.range (l.length / k)).map fun i => (l.drop (i * k)).take k

/-- `single_level_batched_select_and_rerandomize`,
`single_level_select_and_rerandomize.rs:128-195`. `M = 0` divides by zero, and a chunk size of zero
makes `chunks_exact` panic. -/
def singleLevelBatched (C : SWCurve F) (fx : Bool) (M : Nat) (prm : LayerParams C) (sumOfRerandomized : C.Pt)
    (children : List (LC F)) (childrenPlusDelta : Option (List C.Pt)) (r : Option Nat) :
    Prog F G X Unit :=
  if M = 0 ∨ children.length / M = 0 then panic "chunk size must be non-zero"
  else do
    let sum ← batchedLoop C true (chunksExact (children.length / M) children) childrenPlusDelta
      ⟨LC.ofVar .one, LC.ofVar .one, childrenPlusDelta.map fun _ => 0⟩
    reRandomize C fx prm.lambda prm.tables sum
      (LC.const (C.xField (sumOfRerandomized + M • prm.delta)))
      (LC.const (C.yField (sumOfRerandomized + M • prm.delta))) r

end Curve

end CT
