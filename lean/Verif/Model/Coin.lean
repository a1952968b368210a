import Verif.Model.TreeGadgets
import Verif.Model.Verify
import Verif.Model.Serialize

/-!
# Anonymous payments

`relations/src/coin.rs`. Trees have `M = 1`. The signature scheme and the hash are dependencies of the project: they are
parameters of the model (`SigScheme`), arbitrary functions. The feature `parallel` (which runs independent computations
concurrently) is modelled in `Parallel.lean`.
-/

namespace CT

/-- `.unwrap()` of a `Result`. -/
def unwrap {α : Type} : Except Err α → Except Err α
  | .ok a => .ok a
  | .error (.panic m) => .error (.panic m)
  | .error _ => .error (.panic "called `Result::unwrap()` on an `Err` value")

/-- `struct Signature` of `ark_crypto_primitives::signature::schnorr`. -/
structure Sig (S : Type) where
  response : S
  challenge : S
deriving DecidableEq

/-- What `coin.rs` uses of `ark_crypto_primitives::signature::schnorr::Schnorr` and of `pk_to_scalar` (`coin.rs:82-86`, SHA3-512 of
the encoded key reduced to a scalar). `K` are public keys, `SK` secret keys, `S` scalars of the signature group, `F` scalars
of the even curve. `verify` is `Schnorr::verify`, a `Result<bool, Error>`; the randomness of `sign` is its last argument. The
`unwrap`s of `sign`, `randomize_signature` and `randomize_public_key` are taken to succeed. -/
structure SigScheme (K SK S F : Type) where
  tag : K → F
  verify : K → List UInt8 → Sig S → Except Err Bool
  sign : SK → List UInt8 → S → Sig S
  randomizeSig : Sig S → S → Sig S
  randomizePk : K → S → K

/-- `struct Coin`, `coin.rs:22-27`. The `u64` value is a `Nat`. -/
structure Coin (F S : Type) where
  value : Nat
  tag : F
  blinding : F
  pkRandomness : S

section Mint
variable {F G X K SK S : Type} [Field F] [DecidableEq F] [AddCommGroup G] [Module F G] [DecidableEq G]

/-- `Coin::new`, `coin.rs:56-80`; `pkr` and `bl` are the two random scalars. -/
def coinNew (sch : SigScheme K SK S F) (g : Gens G) (value : Nat) (pk : K) (pkr : S) (bl : F) : Except Err (Coin F S × G) :=
  let tag := sch.tag (sch.randomizePk pk pkr)
  match layerCommit? g [(value : F), tag] bl 0 with
  | none => .error (.panic "called `Result::unwrap()` on an `Err` value")
  | some c => .ok (⟨value, tag, bl, pkr⟩, c)

/-- `Coin::mint`, `coin.rs:36-54`. -/
def mint (o : Oracle F G X) (sch : SigScheme K SK S F) (g : Gens G) (value : Nat) (pk : K) (pkr : S) (bl : F) (s : PState F G X) :
    Except Err ((Coin F S × G × Variable) × PState F G X) :=
  match coinNew sch g value pk pkr bl with
  | .error e => .error e
  | .ok (coin, _) =>
    match s.commitVec g [(value : F), coin.tag] coin.blinding with
    | .error e => .error e
    | .ok ((comm, vars), s) =>
      match vars[0]? with
      | none => .error (.panic "index out of bounds")
      | some v =>
        match unwrap (runP o (rangeProof (LC.ofVar v) (some value) 64) s) with
        | .error e => .error e
        | .ok (_, s) => .ok ((coin, comm, v), s)

/-- `verify_mint`, `coin.rs:138-145`. -/
def verifyMint (o : Oracle F G X) (comm : G) (s : VState F G X) : Except Err (Variable × VState F G X) :=
  match (s.commitVec 2 comm).1[0]? with
  | none => .error (.panic "index out of bounds")
  | some v =>
    match unwrap (runV o (rangeProof (LC.ofVar v) none 64) (s.commitVec 2 comm).2) with
    | .error e => .error e
    | .ok (_, s) => .ok (v, s)

/-- The balance constraint, `coin.rs:221-223` and `451-453`. -/
def balance (m0 m1 s0 s1 : Variable) : LC F := LC.ofVar m0 + LC.ofVar m1 - LC.ofVar s0 - LC.ofVar s1

end Mint

section
variable {B : Bool → Type} [∀ p, Field (B p)] [∀ p, DecidableEq (B p)] {C : ∀ p, SWCurve (B p)}
  [∀ p, Module (B (!p)) (C p).Pt] {L : Nat} {K SK S : Type}

/-- The `Pour` of two curves. -/
abbrev PourOf (C : ∀ p, SWCurve (B p)) (K : Type) := Pour (B true) (C false).Pt (B false) (C true).Pt K

/-! ## Verification -/

/-- `verify_spend_even`, `coin.rs:577-599`. -/
def verifySpendEven (o : SideO C false) (fx : Bool) (prm : SelRerand C) (tag : B true) (T : CurveTree L 1 (Pts C))
    (path : Path (C false).Pt (C true).Pt) (s : SideV C false) : Except Err (Variable × SideV C false) :=
  match evenVerifierGadget o fx prm T path s with
  | .error e => .error e
  | .ok s =>
    match (s.commitVec L path.selected).1[1]?, (s.commitVec L path.selected).1[0]? with
    | some v1, some v0 => .ok (v0, (s.commitVec L path.selected).2.constrain (LC.ofVar v1 - LC.const tag))
    | _, _ => .error (.panic "index out of bounds")

/-- The even Verifier of a Pour when the last constraint has been added, `coin.rs:429-453`. The arguments are those of
`even_verification_gadget` that matter: the two paths (with root) and the fields `pk0`, `pk1`, `minted_coin_commitment_0`,
`minted_coin_commitment_1` of the Pour. -/
def pourEvenCircuit (o : SideO C false) (fx : Bool) (prm : SelRerand C) (tag : K → B true) (T : CurveTree L 1 (Pts C)) (pk0 pk1 : K)
    (c0 c1 : (C false).Pt) (path0 path1 : Path (C false).Pt (C true).Pt) (s : SideV C false) : Except Err (SideV C false) :=
  match verifyMint o c0 s with
  | .error e => .error e
  | .ok (m0, s) =>
    match verifyMint o c1 s with
    | .error e => .error e
    | .ok (m1, s) =>
      match verifySpendEven o fx prm (tag pk0) T path0 s with
      | .error e => .error e
      | .ok (s0, s) =>
        match verifySpendEven o fx prm (tag pk1) T path1 s with
        | .error e => .error e
        | .ok (s1, s) => .ok (s.constrain (balance m0 m1 s0 s1))

/-- `verify_spend_odd` (`coin.rs:601-613`) for both paths: the odd Verifier of a Pour, `coin.rs:469-482`. -/
def pourOddCircuit (o : SideO C true) (fx : Bool) (prm : SelRerand C) (T : CurveTree L 1 (Pts C))
    (path0 path1 : Path (C false).Pt (C true).Pt) (s : SideV C true) : Except Err (SideV C true) :=
  match oddVerifierGadget o fx prm T path0 s with
  | .error e => .error e
  | .ok s => oddVerifierGadget o fx prm T path1 s

/-- The circuits of both curves, the part of `Pour::verification_gadget` (`coin.rs:490-574`) that does not depend on the proofs: the root
is added to both paths, then both circuits are built from fresh transcripts (`dom` is `Transcript::new(ro_domain)`). -/
def pourCircuits (o : ∀ p, SideO C p) (fx : Bool) (prm : SelRerand C) (tag : K → B true) (T : CurveTree L 1 (Pts C))
    (dom : ∀ p, Transcript (B (!p)) (C p).Pt (C (!p)).Pt) (pour : PourOf C K) : Except Err (SideV C false × SideV C true) :=
  match addRoot T pour.path0 with
  | .error e => .error e
  | .ok path0 =>
    match addRoot T pour.path1 with
    | .error e => .error e
    | .ok path1 =>
      match pourEvenCircuit (o false) fx prm tag T pour.pk0 pour.pk1 pour.minted0 pour.minted1 path0 path1 (.new (dom false)) with
      | .error e => .error e
      | .ok tE =>
        match pourOddCircuit (o true) fx prm T path0 path1 (.new (dom true)) with
        | .error e => .error e
        | .ok tO => .ok (tE, tO)

/-- `Pour::verification_gadget`, `coin.rs:490-574`, with `even_verification_gadget` (`coin.rs:421-458`) and `odd_verification_gadget`
(`coin.rs:461-487`); `rE`, `rO` are the random weights drawn by the two Verifiers.
Simplification: both circuits are built before the two proofs are looked at; in the code the odd circuit comes after the
even proof. Which of two panics comes first may differ. -/
def pourVerification (o : ∀ p, SideO C p) (fx : Bool) (prm : SelRerand C) (tag : K → B true) (T : CurveTree L 1 (Pts C))
    (dom : ∀ p, Transcript (B (!p)) (C p).Pt (C (!p)).Pt) (rE : B true) (rO : B false) (pour : PourOf C K) :
    Except Err (Tuple (B true) (C false).Pt × Tuple (B false) (C true).Pt) :=
  match pourCircuits o fx prm tag T dom pour with
  | .error e => .error e
  | .ok (tE, tO) =>
    match unwrap (verificationTuple (o false) rE pour.evenProof tE) with
    | .error e => .error e
    | .ok vE =>
      match unwrap (verificationTuple (o true) rO pour.oddProof tO) with
      | .error e => .error e
      | .ok vO => .ok (vE, vO)

/-- `SignedTx::verify_signatures`, `coin.rs:661-687`: the `bool` in the result of `Schnorr::verify` is dropped. -/
def verifySignatures (sch : SigScheme K SK S (B true)) (tx : SignedTx S) (pk0 pk1 : K) : Except Err Unit :=
  match unwrap (sch.verify pk0 tx.pourBytes ⟨tx.response0, tx.challenge0⟩) with
  | .error e => .error e
  | .ok _ =>
    match unwrap (sch.verify pk1 tx.pourBytes ⟨tx.response1, tx.challenge1⟩) with
    | .error e => .error e
    | .ok _ => .ok ()

/-- `SignedTx::verification_gadget`, `coin.rs:637-659`; `dec` is `Pour::deserialize_compressed`, which ignores bytes after
the Pour. -/
def signedTxVerification (o : ∀ p, SideO C p) (fx : Bool) (prm : SelRerand C) (sch : SigScheme K SK S (B true)) (cod : Codec (PourOf C K))
    (T : CurveTree L 1 (Pts C)) (dom : ∀ p, Transcript (B (!p)) (C p).Pt (C (!p)).Pt) (rE : B true) (rO : B false) (tx : SignedTx S) :
    Except Err (Tuple (B true) (C false).Pt × Tuple (B false) (C true).Pt) :=
  match cod.dec tx.pourBytes with
  | none => .error (.panic "called `Result::unwrap()` on an `Err` value")
  | some (pour, _) =>
    match verifySignatures sch tx pour.pk0 pour.pk1 with
    | .error e => .error e
    | .ok () => pourVerification o fx prm sch.tag T dom rE rO pour

/-! ## Proving -/

/-- `Coin::prove_spend`, `coin.rs:100-135`; `rnd` are the scalars drawn by the tree gadget. -/
def proveSpend (o : ∀ p, SideO C p) (fx : Bool) (prm : SelRerand C) (T : CurveTree L 1 (Pts C)) (rnd : ∀ p, Nat → B (!p))
    (coin : Coin (B true) S) (index : Nat) (sE : SideP C false) (sO : SideP C true) :
    Except Err ((Path (C false).Pt (C true).Pt × Variable) × SideP C false × SideP C true) :=
  match treeProverGadget (o false) (o true) fx prm rnd T index 0 sE sO with
  | .error e => .error e
  | .ok ((path, r), sE, sO) =>
    match sE.commitVec (prm.gens false) [(coin.value : B true), coin.tag] (coin.blinding + r) with
    | .error e => .error e
    | .ok ((point, vars), sE) =>
      if path.selected = point then
        match vars[1]?, vars[0]? with
        | some v1, some v0 => .ok ((path, v0), sE.constrain (LC.ofVar v1 - LC.const coin.tag), sO)
        | _, _ => .error (.panic "index out of bounds")
      else .error (.panic "assertion failed: `(left == right)`")

/-- `struct SpendingInfo`, `coin.rs:157-162`. -/
structure SpendingInfo (K SK S F : Type) where
  index : Nat
  coin : Coin F S
  randomizedPk : K
  sk : SK

/-- The randomness used by `prove_pour`: for the two minted coins, for the two paths, for the two proofs, and for the two signatures. -/
structure PourRand (C : ∀ p, SWCurve (B p)) (S : Type) where
  pkr : Bool → S
  bl : Bool → B true
  path : Bool → ∀ p, Nat → B (!p)
  even : PRand (B true)
  odd : PRand (B false)
  sig : Bool → S

/-- The two Provers of `prove_pour` when the last constraint has been added, `coin.rs:186-223`. -/
def pourProvers (o : ∀ p, SideO C p) (fx : Bool) (prm : SelRerand C) (sch : SigScheme K SK S (B true)) (T : CurveTree L 1 (Pts C))
    (rnd : PourRand C S) (in0 in1 : SpendingInfo K SK S (B true)) (val0 : Nat) (pk0 : K) (val1 : Nat) (pk1 : K)
    (sE : SideP C false) (sO : SideP C true) :
    Except Err ((Path (C false).Pt (C true).Pt × Path (C false).Pt (C true).Pt × (C false).Pt × (C false).Pt) ×
      SideP C false × SideP C true) :=
  match mint (o false) sch (prm.gens false) val0 pk0 (rnd.pkr false) (rnd.bl false) sE with
  | .error e => .error e
  | .ok ((_, c0, m0), sE) =>
    match mint (o false) sch (prm.gens false) val1 pk1 (rnd.pkr true) (rnd.bl true) sE with
    | .error e => .error e
    | .ok ((_, c1, m1), sE) =>
      match proveSpend o fx prm T (rnd.path false) in0.coin in0.index sE sO with
      | .error e => .error e
      | .ok ((path0, s0), sE, sO) =>
        match proveSpend o fx prm T (rnd.path true) in1.coin in1.index sE sO with
        | .error e => .error e
        | .ok ((path1, s1), sE, sO) => .ok ((path0, path1, c0, c1), sE.constrain (balance m0 m1 s0 s1), sO)

/-- `prove_pour`, `coin.rs:164-292`. -/
def provePour (o : ∀ p, SideO C p) (fx : Bool) (prm : SelRerand C) (sch : SigScheme K SK S (B true)) (cod : Codec (PourOf C K))
    (T : CurveTree L 1 (Pts C)) (rnd : PourRand C S) (in0 in1 : SpendingInfo K SK S (B true)) (val0 : Nat) (pk0 : K) (val1 : Nat)
    (pk1 : K) (sE : SideP C false) (sO : SideP C true) : Except Err (SignedTx S) :=
  match pourProvers o fx prm sch T rnd in0 in1 val0 pk0 val1 pk1 sE sO with
  | .error e => .error e
  | .ok ((path0, path1, c0, c1), sE, sO) =>
    match unwrap (prove (o false) (prm.gens false) rnd.even sE) with
    | .error e => .error e
    | .ok (pE, _) =>
      match unwrap (prove (o true) (prm.gens true) rnd.odd sO) with
      | .error e => .error e
      | .ok (pO, _) =>
        let bytes := cod.enc ⟨pE, pO, path0, path1, in0.randomizedPk, in1.randomizedPk, c0, c1⟩
        let sig0 := sch.randomizeSig (sch.sign in0.sk bytes (rnd.sig false)) in0.coin.pkRandomness
        let sig1 := sch.randomizeSig (sch.sign in1.sk bytes (rnd.sig true)) in1.coin.pkRandomness
        .ok ⟨sig0.response, sig0.challenge, sig1.response, sig1.challenge, bytes⟩

end

end CT
