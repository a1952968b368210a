import Verif.Model.Prove

/-!
# Serialisation: `bulletproofs/src/r1cs/proof.rs`, `inner_product_proof.rs`, `relations/src/curve_tree.rs`,
`relations/src/coin.rs`

How single points and field elements are written is up to `ark-serialize` and is a parameter (`Codec`).
`Vec<T>` is written by `ark-serialize` as its length (8 bytes, little endian) followed by the elements; this
is modelled. Simplifications: the compression mode is fixed; decoding errors are not told apart (`none`);
`Vec` validates its elements one by one while decoding them instead of at the end; running out of memory on a
huge length prefix is not modelled.
-/

namespace CT

/-- `CanonicalSerialize` and `CanonicalDeserialize` of a type: `serialize_with_mode`,
`deserialize_with_mode` (the value and the rest of the input), `serialized_size`. -/
structure Codec (α : Type) where
  enc : α → List UInt8
  dec : List UInt8 → Option (α × List UInt8)
  size : α → Nat

/-- `u8` as written by `ark-serialize`. -/
def byteCodec : Codec UInt8 where
  enc b := [b]
  dec | [] => none
      | b :: bs => some (b, bs)
  size _ := 1

/-- The `k` low bytes of `n`, least significant first. -/
def leEnc : Nat → Nat → List UInt8
  | 0, _ => []
  | k + 1, n => .ofNat n :: leEnc k (n / 256)

/-- Read `k` bytes, least significant first. -/
def leDec : Nat → List UInt8 → Option (Nat × List UInt8)
  | 0, bs => some (0, bs)
  | _ + 1, [] => none
  | k + 1, b :: bs =>
    match leDec k bs with
    | none => none
    | some (n, bs) => some (b.toNat + 256 * n, bs)

/-- `u64` in little endian, as written by `ark-serialize`. -/
def u64Enc (n : Nat) : List UInt8 := leEnc 8 n

def u64Dec (bs : List UInt8) : Option (Nat × List UInt8) := leDec 8 bs

/-- Decode `n` elements. -/
def decN {α : Type} (c : Codec α) : Nat → List UInt8 → Option (List α × List UInt8)
  | 0, bs => some ([], bs)
  | n + 1, bs =>
    match c.dec bs with
    | none => none
    | some (a, bs) =>
      match decN c n bs with
      | none => none
      | some (as, bs) => some (a :: as, bs)

/-- `Vec<T>` as written by `ark-serialize`. -/
def vecCodec {α : Type} (c : Codec α) : Codec (List α) where
  enc l := u64Enc l.length ++ l.flatMap c.enc
  dec bs :=
    match u64Dec bs with
    | none => none
    | some (n, bs) => decN c n bs
  size l := 8 + (l.map c.size).sum

variable {F G : Type}

/-- `InnerProductProof`: `deserialize_with_mode`, `inner_product_proof.rs:391-404`; `serialize_with_mode`,
`424-434`; `serialized_size`, `412-418` (it counts `L_vec` twice). -/
def ippCodec (cF : Codec F) (cG : Codec G) : Codec (IPP F G) where
  enc p := (vecCodec cG).enc p.L ++ (vecCodec cG).enc p.R ++ cF.enc p.a ++ cF.enc p.b
  dec bs := do
    let (L, bs) ← (vecCodec cG).dec bs
    let (R, bs) ← (vecCodec cG).dec bs
    let (a, bs) ← cF.dec bs
    let (b, bs) ← cF.dec bs
    return (⟨L, R, a, b⟩, bs)
  size p := cF.size p.a * 2 + (vecCodec cG).size p.L * 2

variable [AddCommGroup G] [DecidableEq G]

/-- `R1CSProof::missing_phase2_commitments`, `proof.rs:59-61`. -/
def R1CSProof.missingPhase2 (p : R1CSProof F G) : Bool := p.AI2 = 0 && p.AO2 = 0 && p.S2 = 0

/-- The second-phase points following the flag byte, `proof.rs:144-152`. -/
def decPhase2 (cG : Codec G) (flag : UInt8) (bs : List UInt8) : Option ((G × G × G) × List UInt8) :=
  if flag = 1 then do
    let (AI2, bs) ← cG.dec bs
    let (AO2, bs) ← cG.dec bs
    let (S2, bs) ← cG.dec bs
    return ((AI2, AO2, S2), bs)
  else some ((0, 0, 0), bs)

/-- `R1CSProof`: `serialize_with_mode`, `proof.rs:95-126`; `deserialize_with_mode`, `proof.rs:134-171`;
`serialized_size`, `proof.rs:78-93`. -/
def proofCodec (cF : Codec F) (cG : Codec G) : Codec (R1CSProof F G) where
  enc p := cG.enc p.AI1 ++ cG.enc p.AO1 ++ cG.enc p.S1 ++
    (if p.missingPhase2 then byteCodec.enc 0
      else byteCodec.enc 1 ++ cG.enc p.AI2 ++ cG.enc p.AO2 ++ cG.enc p.S2) ++
    (vecCodec cG).enc p.T ++ cF.enc p.tx ++ cF.enc p.txBl ++ cF.enc p.eBl ++ (ippCodec cF cG).enc p.ipp
  dec bs := do
    let (AI1, bs) ← cG.dec bs
    let (AO1, bs) ← cG.dec bs
    let (S1, bs) ← cG.dec bs
    let (flag, bs) ← byteCodec.dec bs
    let ((AI2, AO2, S2), bs) ← decPhase2 cG flag bs
    let (T, bs) ← (vecCodec cG).dec bs
    let (tx, bs) ← cF.dec bs
    let (txBl, bs) ← cF.dec bs
    let (eBl, bs) ← cF.dec bs
    let (ipp, bs) ← (ippCodec cF cG).dec bs
    return (⟨AI1, AO1, S1, AI2, AO2, S2, T, tx, txBl, eBl, ipp⟩, bs)
  size p :=
    (if p.missingPhase2 then 3 else 6) * cG.size p.AI1 + (vecCodec cG).size p.T + 3 * cF.size p.tx +
      (ippCodec cF cG).size p.ipp + 1

/-- `R1CSProof::to_bytes`, `proof.rs:63-69`. -/
def R1CSProof.toBytes (cF : Codec F) (cG : Codec G) (p : R1CSProof F G) : List UInt8 := (proofCodec cF cG).enc p

/-- `R1CSProof::from_bytes`, `proof.rs:71-73`: what is left of the slice is ignored. -/
def R1CSProof.fromBytes (cF : Codec F) (cG : Codec G) (bs : List UInt8) : Except Err (R1CSProof F G) :=
  match (proofCodec cF cG).dec bs with
  | none => .error .formatError
  | some (p, _) => .ok p

/-- `struct SelectAndRerandomizePath`, `curve_tree.rs:204-208`; `P0` are the points of the even curve, `P1`
those of the odd curve. -/
structure Path (P0 P1 : Type) where
  selected : P0
  odd : List P1
  even : List P0
deriving DecidableEq

/-- `SelectAndRerandomizePath`: `serialized_size` and `serialize_with_mode`, `curve_tree.rs:177-197`;
`deserialize_with_mode`, `curve_tree.rs:236-258`. -/
def pathCodec {P0 P1 : Type} (c0 : Codec P0) (c1 : Codec P1) : Codec (Path P0 P1) where
  enc p := c0.enc p.selected ++ (vecCodec c1).enc p.odd ++ (vecCodec c0).enc p.even
  dec bs := do
    let (s, bs) ← c0.dec bs
    let (o, bs) ← (vecCodec c1).dec bs
    let (e, bs) ← (vecCodec c0).dec bs
    return (⟨s, o, e⟩, bs)
  size p := c0.size p.selected + (vecCodec c1).size p.odd + (vecCodec c0).size p.even

/-- `struct SelectAndRerandomizeMultiPath`, `curve_tree.rs:215-224`; the array has `M` entries. -/
structure MultiPath (P0 P1 : Type) (M : Nat) where
  selected : Fin M → P0
  odd : List P1
  even : List P0

/-- `SelectAndRerandomizeMultiPath`: `serialize_with_mode` and `serialized_size`, `curve_tree.rs:151-174`.
Arrays are written by `ark-serialize` without a length. There is no deserialisation. -/
def MultiPath.encode {P0 P1 : Type} {M : Nat} (c0 : Codec P0) (c1 : Codec P1) (p : MultiPath P0 P1 M) : List UInt8 :=
  (List.ofFn p.selected).flatMap c0.enc ++ (vecCodec c1).enc p.odd ++ (vecCodec c0).enc p.even

def MultiPath.size {P0 P1 : Type} {M : Nat} (c0 : Codec P0) (c1 : Codec P1) (p : MultiPath P0 P1 M) : Nat :=
  (vecCodec c0).size p.even + (vecCodec c1).size p.odd + ((List.ofFn p.selected).map c0.size).sum

/-- `struct Pour`, `coin.rs:296-310`. `F0`, `P0` are scalars and points of the even curve, `F1`, `P1` of the
odd curve, `K` public keys. -/
structure Pour (F0 P0 F1 P1 K : Type) where
  evenProof : R1CSProof F0 P0
  oddProof : R1CSProof F1 P1
  path0 : Path P0 P1
  path1 : Path P0 P1
  pk0 : K
  pk1 : K
  minted0 : P0
  minted1 : P0

/-- `Pour`: `serialized_size` and `serialize_with_mode`, `coin.rs:312-350`; `deserialize_with_mode`,
`coin.rs:363-409`. -/
def pourCodec {F0 P0 F1 P1 K : Type} [AddCommGroup P0] [DecidableEq P0] [AddCommGroup P1] [DecidableEq P1]
    (cF0 : Codec F0) (c0 : Codec P0) (cF1 : Codec F1) (c1 : Codec P1) (cK : Codec K) :
    Codec (Pour F0 P0 F1 P1 K) where
  enc p := (proofCodec cF0 c0).enc p.evenProof ++ (proofCodec cF1 c1).enc p.oddProof ++
    (pathCodec c0 c1).enc p.path0 ++ (pathCodec c0 c1).enc p.path1 ++ cK.enc p.pk0 ++ cK.enc p.pk1 ++
    c0.enc p.minted0 ++ c0.enc p.minted1
  dec bs := do
    let (ep, bs) ← (proofCodec cF0 c0).dec bs
    let (op, bs) ← (proofCodec cF1 c1).dec bs
    let (p0, bs) ← (pathCodec c0 c1).dec bs
    let (p1, bs) ← (pathCodec c0 c1).dec bs
    let (k0, bs) ← cK.dec bs
    let (k1, bs) ← cK.dec bs
    let (m0, bs) ← c0.dec bs
    let (m1, bs) ← c0.dec bs
    return (⟨ep, op, p0, p1, k0, k1, m0, m1⟩, bs)
  size p := (proofCodec cF0 c0).size p.evenProof + (proofCodec cF1 c1).size p.oddProof +
    (pathCodec c0 c1).size p.path0 + (pathCodec c0 c1).size p.path1 + cK.size p.pk0 + cK.size p.pk1 +
    c0.size p.minted0 + c0.size p.minted1

/-- `struct SignedTx`, `coin.rs:615-627`; `S` are the scalars of the signature scheme. -/
structure SignedTx (S : Type) where
  response0 : S
  challenge0 : S
  response1 : S
  challenge1 : S
  pourBytes : List UInt8
deriving DecidableEq

/-- `SignedTx`: `serialized_size` and `serialize_with_mode`, `coin.rs:690-721`; `deserialize_with_mode`,
`coin.rs:734-768`. -/
def signedTxCodec {S : Type} (cS : Codec S) : Codec (SignedTx S) where
  enc p := cS.enc p.response0 ++ cS.enc p.challenge0 ++ cS.enc p.response1 ++ cS.enc p.challenge1 ++
    (vecCodec byteCodec).enc p.pourBytes
  dec bs := do
    let (r0, bs) ← cS.dec bs
    let (c0, bs) ← cS.dec bs
    let (r1, bs) ← cS.dec bs
    let (c1, bs) ← cS.dec bs
    let (pb, bs) ← (vecCodec byteCodec).dec bs
    return (⟨r0, c0, r1, c1, pb⟩, bs)
  size p := (vecCodec byteCodec).size p.pourBytes + cS.size p.response0 + cS.size p.challenge0 +
    cS.size p.response1 + cS.size p.challenge1

end CT
