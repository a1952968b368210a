import Verif.Model.Generators

/-! # Inner product argument: `bulletproofs/src/inner_product_proof.rs` -/

namespace CT

variable {F G X : Type} [Field F] [DecidableEq F] [AddCommGroup G] [Module F G] [DecidableEq G]

/-- `struct InnerProductProof`, `inner_product_proof.rs:20-26`. -/
structure IPP (F G : Type) where
  L : List G
  R : List G
  a : F
  b : F
deriving DecidableEq

/-- The variables updated by the loop of `create`: slices `G, H, a, b` (`gs`, `hs`, `a`, `b`) and the transcript. -/
structure IPPState (F G X : Type) where
  gs : List G
  hs : List G
  a : List F
  b : List F
  t : Transcript F G X

/-- `L` and `R` of the first (unrolled) round of `create`, with the generator factors,
`inner_product_proof.rs:79-126`. `n` is half the current length. -/
def ippFirstCross (Q : G) (Gf Hf : List F) (n : Nat) (s : IPPState F G X) : G × G :=
  let aL := s.a.take n
  let aR := s.a.drop n
  let bL := s.b.take n
  let bR := s.b.drop n
  let cL := innerProduct aL bR
  let cR := innerProduct aR bL
  (msm (s.gs.drop n ++ s.hs.take n ++ [Q])
      (List.zipWith (· * ·) aL ((Gf.drop n).take n) ++ List.zipWith (· * ·) bR (Hf.take n) ++ [cL]),
    msm (s.gs.take n ++ s.hs.drop n ++ [Q])
      (List.zipWith (· * ·) aR (Gf.take n) ++ List.zipWith (· * ·) bL ((Hf.drop n).take n) ++ [cR]))

/-- The vectors after the first round, `inner_product_proof.rs:134-152`. -/
def ippFirstFold (Gf Hf : List F) (n : Nat) (u : F) (s : IPPState F G X) (t : Transcript F G X) :
    IPPState F G X :=
  let ui := u⁻¹
  { a := List.zipWith (fun l r => l * u + ui * r) (s.a.take n) (s.a.drop n)
    b := List.zipWith (fun l r => l * ui + u * r) (s.b.take n) (s.b.drop n)
    gs := List.zipWith (fun l r => msm [l.1, r.1] [ui * l.2, u * r.2])
      ((s.gs.take n).zip (Gf.take n)) ((s.gs.drop n).zip (Gf.drop n))
    hs := List.zipWith (fun l r => msm [l.1, r.1] [u * l.2, ui * r.2])
      ((s.hs.take n).zip (Hf.take n)) ((s.hs.drop n).zip (Hf.drop n))
    t := t }

/-- The first (unrolled) round of `create`, `inner_product_proof.rs:79-152`. A zero challenge is a
panic. -/
def ippFirstRound (o : Oracle F G X) (Q : G) (Gf Hf : List F) (n : Nat) (s : IPPState F G X) :
    Except Err ((G × G) × IPPState F G X) :=
  let LR := ippFirstCross Q Gf Hf n s
  let c := challengeScalar o (s.t ++ [.point "L" LR.1, .point "R" LR.2]) "u"
  if c.1 = 0 then .error (.panic "u challenge is zero")
  else .ok (LR, ippFirstFold Gf Hf n c.1 s c.2)

/-- `L` and `R` of a later round of `create`, `inner_product_proof.rs:154-195`. -/
def ippCross (Q : G) (n : Nat) (s : IPPState F G X) : G × G :=
  let aL := s.a.take n
  let aR := s.a.drop n
  let bL := s.b.take n
  let bR := s.b.drop n
  let cL := innerProduct aL bR
  let cR := innerProduct aR bL
  (msm (s.gs.drop n ++ s.hs.take n ++ [Q]) (aL ++ bR ++ [cL]),
    msm (s.gs.take n ++ s.hs.drop n ++ [Q]) (aR ++ bL ++ [cR]))

/-- The vectors after a later round, `inner_product_proof.rs:212-227`. -/
def ippFold (n : Nat) (u : F) (s : IPPState F G X) (t : Transcript F G X) : IPPState F G X :=
  let ui := u⁻¹
  { a := List.zipWith (fun l r => l * u + ui * r) (s.a.take n) (s.a.drop n)
    b := List.zipWith (fun l r => l * ui + u * r) (s.b.take n) (s.b.drop n)
    gs := List.zipWith (fun gl gr => msm [gl, gr] [ui, u]) (s.gs.take n) (s.gs.drop n)
    hs := List.zipWith (fun hl hr => msm [hl, hr] [u, ui]) (s.hs.take n) (s.hs.drop n)
    t := t }

/-- A later round of `create`, `inner_product_proof.rs:154-227`. -/
def ippRound (o : Oracle F G X) (Q : G) (n : Nat) (s : IPPState F G X) :
    Except Err ((G × G) × IPPState F G X) :=
  let LR := ippCross Q n s
  let c := challengeScalar o (s.t ++ [.point "L" LR.1, .point "R" LR.2]) "u"
  if c.1 = 0 then .error (.panic "u challenge is zero")
  else .ok (LR, ippFold n c.1 s c.2)

/-- The loop `while n != 1`, `inner_product_proof.rs:154-227`, for `n = 2^k`. Returns `L_vec`, `R_vec`,
the final `a[0]`, `b[0]` and the transcript. -/
def ippLoop (o : Oracle F G X) (Q : G) :
    Nat → IPPState F G X → Except Err (IPP F G × Transcript F G X)
  | 0, s =>
    match s.a, s.b with
    | a :: _, b :: _ => .ok (⟨[], [], a, b⟩, s.t)
    | _, _ => .error (.panic "index out of bounds")
  | k + 1, s =>
    match ippRound o Q (2 ^ k) s with
    | .error e => .error e
    | .ok ((L, R), s') =>
      match ippLoop o Q k s' with
      | .error e => .error e
      | .ok (p, t) => .ok ({ p with L := L :: p.L, R := R :: p.R }, t)

/-- `InnerProductProof::create`, `inner_product_proof.rs:40-236`. With a single element the factors are
not used at all. -/
def ippCreate (o : Oracle F G X) (Q : G) (Gf Hf : List F) (Gs Hs : List G) (a b : List F)
    (t : Transcript F G X) : Except Err (IPP F G × Transcript F G X) :=
  let n := Gs.length
  if Hs.length ≠ n ∨ a.length ≠ n ∨ b.length ≠ n ∨ Gf.length ≠ n ∨ Hf.length ≠ n then
    .error (.panic "assertion failed: lengths")
  else if !isPow2 n then .error (.panic "assertion failed: n.is_power_of_two()")
  else
    let t := t ++ [.sep "ipp v1", .num "n" n]
    let s : IPPState F G X := ⟨Gs, Hs, a, b, t⟩
    match n.log2 with
    | 0 => ippLoop o Q 0 s
    | k + 1 =>
      match ippFirstRound o Q Gf Hf (2 ^ k) s with
      | .error e => .error e
      | .ok ((L, R), s') =>
        match ippLoop o Q k s' with
        | .error e => .error e
        | .ok (p, t) => .ok ({ p with L := L :: p.L, R := R :: p.R }, t)

/-- Step 1 of `verification_scalars`: absorb the points pairwise and derive the challenges,
`inner_product_proof.rs:268-273`. The `zip` stops at the shorter vector. -/
def ippChallenges (o : Oracle F G X) :
    List (G × G) → Transcript F G X → Except Err (List F × Transcript F G X)
  | [], t => .ok ([], t)
  | (L, R) :: rest, t => do
    let t ← validateAndAppendPoint t "L" L
    let t ← validateAndAppendPoint t "R" R
    let (u, t) := challengeScalar o t "u"
    let (us, t) ← ippChallenges o rest t
    return (u :: us, t)

/-- Step 4 of `verification_scalars`, `inner_product_proof.rs:295-304`; all indices are in range when
`usq` has `lgN` entries and `n = 2^lgN`. -/
def ippS (lgN : Nat) (usq : List F) (allinv : F) (n : Nat) : List F :=
  (List.range' 1 (n - 1)).foldl
    (fun s i => s ++ [s.getD (i - 2 ^ i.log2) 0 * usq.getD (lgN - 1 - i.log2) 0]) [allinv]

/-- `verification_scalars`, `inner_product_proof.rs:241-307`. Returns `(u^2, u^-2, s)`.
`batch_inversion` leaves zeros unchanged, like `⁻¹` in Lean. -/
def verificationScalars (o : Oracle F G X) (p : IPP F G) (n : Nat) (t : Transcript F G X) :
    Except Err ((List F × List F × List F) × Transcript F G X) :=
  let lgN := p.L.length
  if lgN ≥ 32 then .error .verificationError
  else if n ≠ 2 ^ lgN then .error .verificationError
  else do
    let t := t ++ [.sep "ipp v1", .num "n" n]
    let (us, t) ← ippChallenges o (p.L.zip p.R) t
    if us.length < lgN then .error (.panic "index out of bounds: challenges_inv[i]")
    else
      let uis := us.map (·⁻¹)
      let allinv := (uis.take lgN).prod
      let usq := us.map fun u => u * u
      let uisq := uis.map fun u => u * u
      return ((usq, uisq, ippS lgN usq allinv n), t)

/-- `InnerProductProof::verify`, `inner_product_proof.rs:314-373`. -/
def ippVerify (o : Oracle F G X) (p : IPP F G) (n : Nat) (t : Transcript F G X) (Gf Hf : List F)
    (P Q : G) (Gs Hs : List G) : Except Err Unit := do
  let ((usq, uisq, s), _) ← verificationScalars o p n t
  let g := (List.zipWith (fun g s => p.a * s * g) Gf s).take Gs.length
  let h := List.zipWith (fun h s => p.b * s * h) Hf s.reverse
  let expectP := msm ([Q] ++ Gs ++ Hs ++ p.L ++ p.R)
    ([p.a * p.b] ++ g ++ h ++ usq.map (- ·) ++ uisq.map (- ·))
  if expectP = P then .ok () else .error .verificationError

end CT
