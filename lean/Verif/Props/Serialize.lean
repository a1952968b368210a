import Verif.Proofs.Serialize
import Verif.Proofs.Concrete
import Mathlib.Algebra.Field.ZMod

/-!
# C11, C12, C30, C43: serialisation

How points and field elements are encoded is `ark-serialize`'s business: the theorems hold for every encoding
of them that is faithful and has a constant length (`Codec.Element`).
-/

namespace CT

variable {F G X : Type} {cF : Codec F} {cG : Codec G}

/-- **C12** (round trip): whatever follows the bytes of an inner product proof, decoding gives back the proof
and leaves the rest. This holds for all proof values, also with `L_vec` and `R_vec` of different lengths. -/
theorem C12_ipp_round_trip (hF : cF.Element) (hG : cG.Element) (p : IPP F G) (h : p.Fits) (rest : List UInt8) :
    (ippCodec cF cG).dec ((ippCodec cF cG).enc p ++ rest) = some (p, rest) :=
  ipp_roundTrip hF hG p h rest

/-- **C12** (canonical): if the encoding of points and scalars is canonical, so is that of the proof: only the
bytes that are written for a proof decode to it. -/
theorem C12_ipp_canonical (hF : cF.Canonical) (hG : cG.Canonical) (p : IPP F G) (bs rest : List UInt8)
    (h : (ippCodec cF cG).dec bs = some (p, rest)) : bs = (ippCodec cF cG).enc p ++ rest :=
  ipp_canonical hF hG bs p rest h

/-- **C12** (size, partial): `serialized_size` is the number of bytes written if `L_vec` and `R_vec` have the
same length. Without that it is wrong: `C12_ipp_size_fails`. -/
theorem C12_ipp_size_partial (hF : cF.Element) (hG : cG.Element) (p : IPP F G) (h : p.L.length = p.R.length) :
    (ippCodec cF cG).size p = ((ippCodec cF cG).enc p).length := by
  rw [ipp_length hF hG, ← vec_size_const hG.sizeConst p.L p.R h]
  simp only [ippCodec]; omega

/-- **C12** (size, refuted): if points take at least a byte, `serialized_size` is wrong exactly for the
proofs whose `L_vec` and `R_vec` differ in length; such proofs can be decoded from bytes. -/
theorem C12_ipp_size_fails (hF : cF.Element) (hG : cG.Element) (hpos : ∀ a, 0 < cG.size a) (p : IPP F G) :
    (ippCodec cF cG).size p = ((ippCodec cF cG).enc p).length ↔ p.L.length = p.R.length := by
  refine ⟨fun h => ?_, C12_ipp_size_partial hF hG p⟩
  rw [ipp_length hF hG] at h
  simp only [ippCodec] at h
  have key : ∀ (l : List G) (x : G), (vecCodec cG).size l = 8 + l.length * cG.size x := by
    intro l x
    simp only [vecCodec, Nat.add_left_cancel_iff]
    induction l with
    | nil => simp
    | cons a l ih => simp only [List.map_cons, List.sum_cons, ih, hG.sizeConst a x, List.length_cons]; ring
  have h' : (vecCodec cG).size p.L = (vecCodec cG).size p.R := by omega
  rcases hL : p.L with _ | ⟨x, l⟩
  · rcases hR : p.R with _ | ⟨x, r⟩
    · rfl
    · rw [hL, hR, key _ x, key _ x] at h'
      have := hpos x
      simp only [List.length_nil, List.length_cons] at h' ⊢
      nlinarith
  · rw [key _ x, key _ x, hL] at h'
    have := hpos x
    exact Nat.eq_of_mul_eq_mul_right this (by omega)

section Proof
variable [AddCommGroup G] [DecidableEq G]

/-- **C11** (round trip): whatever follows the bytes of a proof, decoding gives back exactly that proof and
leaves the rest unread, for one- and two-phase proofs. -/
theorem C11_proof_round_trip (hF : cF.Element) (hG : cG.Element) (p : R1CSProof F G) (h : p.Fits)
    (rest : List UInt8) : (proofCodec cF cG).dec ((proofCodec cF cG).enc p ++ rest) = some (p, rest) :=
  proof_roundTrip hF hG p h rest

/-- **C11**, `from_bytes(to_bytes(p)) = Ok(p)`, and `from_bytes` ignores what follows the proof: every proof
has infinitely many byte strings that `from_bytes` accepts as this proof. -/
theorem C11_from_to_bytes (hF : cF.Element) (hG : cG.Element) (p : R1CSProof F G) (h : p.Fits)
    (rest : List UInt8) : R1CSProof.fromBytes cF cG (p.toBytes cF cG ++ rest) = .ok p := by
  simp only [R1CSProof.fromBytes, R1CSProof.toBytes, proof_roundTrip hF hG p h rest]

/-- **C11**, distinct proofs have distinct bytes, and none is a prefix of the other. -/
theorem C11_proof_prefix_free (hF : cF.Element) (hG : cG.Element) (p q : R1CSProof F G) (hp : p.Fits)
    (hq : q.Fits) (rest : List UInt8) (h : p.toBytes cF cG ++ rest = q.toBytes cF cG) : p = q ∧ rest = [] := by
  have h1 := proof_roundTrip hF hG p hp rest
  have h2 := proof_roundTrip hF hG q hq []
  simp only [R1CSProof.toBytes] at h
  rw [h, ← List.append_nil ((proofCodec cF cG).enc q), h2] at h1
  simp only [Option.some.injEq, Prod.mk.injEq] at h1
  exact ⟨h1.1.symm, h1.2.symm⟩

/-- **C11** (canonical, refuted): the byte after the first three points is only compared with 1. For a proof
without second-phase commitments, replacing it by any byte other than 1 gives a string that decodes to the
same proof, so there are 255 encodings of it. -/
theorem C11_flag_not_canonical (hF : cF.Element) (hG : cG.Element) (p : R1CSProof F G) (h : p.Fits)
    (h2 : p.AI2 = 0 ∧ p.AO2 = 0 ∧ p.S2 = 0) (flag : UInt8) (hf : flag ≠ 1) :
    ∃ pre post, p.toBytes cF cG = pre ++ [0] ++ post ∧
      R1CSProof.fromBytes cF cG (pre ++ [flag] ++ post) = .ok p := by
  have hm := (missingPhase2_iff p).2 h2
  refine ⟨cG.enc p.AI1 ++ cG.enc p.AO1 ++ cG.enc p.S1, (vecCodec cG).enc p.T ++ cF.enc p.tx ++
    cF.enc p.txBl ++ cF.enc p.eBl ++ (ippCodec cF cG).enc p.ipp, ?_, ?_⟩
  · simp [R1CSProof.toBytes, proofCodec, hm, byteCodec]
  · have := proofBytes_dec hF hG p h flag (.inr hm) []
    rw [proofBytes, if_neg hf] at this
    simp only [R1CSProof.fromBytes]
    simp only [List.append_nil, List.append_assoc] at this ⊢
    rw [this]

/-- **C11** (canonical, refuted), the other way: the same proof is also accepted with the flag 1 and three
explicit identity points. -/
theorem C11_explicit_identity_not_canonical (hF : cF.Element) (hG : cG.Element) (p : R1CSProof F G) (h : p.Fits)
    (h2 : p.AI2 = 0 ∧ p.AO2 = 0 ∧ p.S2 = 0) :
    ∃ pre post, p.toBytes cF cG = pre ++ [0] ++ post ∧
      R1CSProof.fromBytes cF cG (pre ++ [1] ++ cG.enc 0 ++ cG.enc 0 ++ cG.enc 0 ++ post) = .ok p := by
  have hm := (missingPhase2_iff p).2 h2
  refine ⟨cG.enc p.AI1 ++ cG.enc p.AO1 ++ cG.enc p.S1, (vecCodec cG).enc p.T ++ cF.enc p.tx ++
    cF.enc p.txBl ++ cF.enc p.eBl ++ (ippCodec cF cG).enc p.ipp, ?_, ?_⟩
  · simp [R1CSProof.toBytes, proofCodec, hm, byteCodec]
  · have := proofBytes_dec hF hG p h 1 (.inl rfl) []
    rw [proofBytes, if_pos rfl, h2.1, h2.2.1, h2.2.2] at this
    simp only [R1CSProof.fromBytes]
    simp only [List.append_nil, List.append_assoc] at this ⊢
    rw [this]

/-- **C11** (canonical, partial): apart from the flag byte and trailing bytes the encoding is canonical. If
`bs` decodes to a proof with a second-phase commitment then `bs` is what is written for it followed by the
unread rest; if it decodes to one without, then `bs` is what is written for it with the zero flag replaced by
another flag, or by 1 and three identity points. -/
theorem C11_proof_canonical_partial (hF : cF.Canonical) (hG : cG.Canonical) (p : R1CSProof F G)
    (bs rest : List UInt8) (h : (proofCodec cF cG).dec bs = some (p, rest)) :
    (¬ (p.AI2 = 0 ∧ p.AO2 = 0 ∧ p.S2 = 0) → bs = p.toBytes cF cG ++ rest) ∧
      (p.AI2 = 0 ∧ p.AO2 = 0 ∧ p.S2 = 0 → ∃ pre post, p.toBytes cF cG = pre ++ [0] ++ post ∧
        ((∃ flag, flag ≠ 1 ∧ bs = pre ++ [flag] ++ post ++ rest) ∨
          bs = pre ++ [1] ++ cG.enc 0 ++ cG.enc 0 ++ cG.enc 0 ++ post ++ rest)) := by
  obtain ⟨flag, hf, hb⟩ := proofBytes_inv hF hG h
  constructor
  · intro h2
    have hm : ¬ p.missingPhase2 := fun hm => h2 ((missingPhase2_iff p).1 hm)
    obtain rfl : flag = 1 := hf.resolve_right hm
    rw [hb, R1CSProof.toBytes, proof_enc_eq, if_neg hm]
  · intro h2
    have hm := (missingPhase2_iff p).2 h2
    refine ⟨cG.enc p.AI1 ++ cG.enc p.AO1 ++ cG.enc p.S1, (vecCodec cG).enc p.T ++ cF.enc p.tx ++
      cF.enc p.txBl ++ cF.enc p.eBl ++ (ippCodec cF cG).enc p.ipp, ?_, ?_⟩
    · simp [R1CSProof.toBytes, proofCodec, hm, byteCodec]
    · by_cases h1 : flag = 1
      · right
        rw [hb, proofBytes, if_pos h1, h2.1, h2.2.1, h2.2.2, h1]
        simp only [List.append_assoc]
      · left
        refine ⟨flag, h1, ?_⟩
        rw [hb, proofBytes, if_neg h1]
        simp only [List.append_assoc, List.append_nil]

/-- **C11** (size, partial): `serialized_size` is the number of bytes written if `L_vec` and `R_vec` have the
same length, and (points taking at least a byte) only then. -/
theorem C11_proof_size_partial (hF : cF.Element) (hG : cG.Element) (hpos : ∀ a, 0 < cG.size a)
    (p : R1CSProof F G) :
    (proofCodec cF cG).size p = (p.toBytes cF cG).length ↔ p.ipp.L.length = p.ipp.R.length := by
  have h1 := proof_length hF hG p
  have h2 := ipp_length hF hG p.ipp
  have h3 : (ippCodec cF cG).size p.ipp = cF.size p.ipp.a * 2 + (vecCodec cG).size p.ipp.L * 2 := rfl
  rw [← C12_ipp_size_fails hF hG hpos, R1CSProof.toBytes]
  omega

/-- **C43**: the number of bytes of a proof depends only on the number of multipliers, the number of vector
commitments and whether the second phase added commitments: with points of `sp` and scalars of `ss` bytes, `N`
the number of multipliers rounded up to a power of two and `d = 2 + 2⌊k/2⌋` for `k` vector commitments, it is
`(3 or 6 + 2d + 3 + 2 log₂ N) sp + 5 ss + 25`, and `serialized_size` reports this number. -/
theorem C43_proof_bytes [Field F] [DecidableEq F] [Module F G] (hF : cF.Element) (hG : cG.Element)
    (o : Oracle F G X) (g : Gens G) (rnd : PRand F)
    (s s2 : PState F G X) (hcG : g.capacity ≤ g.Gs.length)
    (h2 : s.secondPhase o (s.firstCommitments g rnd) = .ok s2)
    (p : R1CSProof F G) (tr : Transcript F G X) (h : prove o g rnd s = .ok (p, tr)) :
    (p.toBytes cF cG).length =
        ((if p.AI2 = 0 ∧ p.AO2 = 0 ∧ p.S2 = 0 then 3 else 6) + 2 * (2 + 2 * (s2.vecOpen.length / 2)) + 3 +
          2 * (nextPow2 s2.size).log2) * cG.size 0 + 5 * cF.size 0 + 25 ∧
      (proofCodec cF cG).size p = (p.toBytes cF cG).length := by
  rw [prove_eq, h2] at h
  split at h
  · simp at h
  · simp only at h
    obtain ⟨hT, hL, hR⟩ := proveTail_lengths o g rnd _ _ s2 hcG h
    have key : ∀ (l : List G), (vecCodec cG).size l = 8 + l.length * cG.size 0 := by
      intro l
      simp only [vecCodec, Nat.add_left_cancel_iff]
      induction l with
      | nil => simp
      | cons a l ih => simp only [List.map_cons, List.sum_cons, ih, hG.sizeConst a 0, List.length_cons]; ring
    have h1 := proof_length hF hG p
    have h3 : (ippCodec cF cG).size p.ipp = cF.size p.ipp.a * 2 + (vecCodec cG).size p.ipp.L * 2 := rfl
    have h4 : (proofCodec cF cG).size p = (if p.missingPhase2 then 3 else 6) * cG.size p.AI1 +
      (vecCodec cG).size p.T + 3 * cF.size p.tx + (ippCodec cF cG).size p.ipp + 1 := rfl
    have h5 : (if p.missingPhase2 then 3 else 6) = (if p.AI2 = 0 ∧ p.AO2 = 0 ∧ p.S2 = 0 then 3 else 6) := by
      simp only [missingPhase2_iff]
    rw [key, key, hL, hR] at h1
    rw [h3, h5, key, key, hT, hL, hF.sizeConst _ 0, hF.sizeConst p.ipp.a 0, hG.sizeConst _ 0, opDegree] at h4
    rw [R1CSProof.toBytes]
    refine ⟨?_, by omega⟩
    have : ((proofCodec cF cG).enc p).length = (proofCodec cF cG).size p := by omega
    rw [this, h4]
    ring

end Proof

section Relations
variable {P0 P1 S F0 F1 K : Type} {c0 : Codec P0} {c1 : Codec P1} {cS : Codec S} {cF0 : Codec F0}
  {cF1 : Codec F1} {cK : Codec K}

/-- **C30**, paths: decoding the bytes written for a path, followed by anything, gives the path and leaves the
rest; `serialized_size` is exact. -/
theorem C30_path_round_trip (h0 : c0.Element) (h1 : c1.Element) (p : Path P0 P1) (h : p.Fits)
    (rest : List UInt8) :
    (pathCodec c0 c1).dec ((pathCodec c0 c1).enc p ++ rest) = some (p, rest) ∧
      (pathCodec c0 c1).size p = ((pathCodec c0 c1).enc p).length :=
  ⟨path_roundTrip h0 h1 p h rest, path_size h0 h1 p⟩

/-- **C30**, paths: only the bytes written for a path decode to it. -/
theorem C30_path_canonical (h0 : c0.Canonical) (h1 : c1.Canonical) (p : Path P0 P1) (bs rest : List UInt8)
    (h : (pathCodec c0 c1).dec bs = some (p, rest)) : bs = (pathCodec c0 c1).enc p ++ rest :=
  path_canonical h0 h1 bs p rest h

/-- **C30**, batched paths have no decoder; but the bytes determine the path, also when something follows, and
`serialized_size` is exact. -/
theorem C30_multipath_injective {M : Nat} (h0 : c0.Element) (h1 : c1.Element) (p q : MultiPath P0 P1 M)
    (hp : Fits p.odd ∧ Fits p.even) (hq : Fits q.odd ∧ Fits q.even) (r r' : List UInt8) :
    (p.encode c0 c1 ++ r = q.encode c0 c1 ++ r' → p = q ∧ r = r') ∧
      p.size c0 c1 = (p.encode c0 c1).length := by
  refine ⟨multiPath_roundTrip h0 h1 hp hq, ?_⟩
  have a := vec_size h1.sizeExact p.odd
  have b := vec_size h0.sizeExact p.even
  have c : (List.ofFn p.selected).map c0.size = (List.ofFn p.selected).map fun a => (c0.enc a).length :=
    List.map_congr_left fun a _ => h0.sizeExact a
  simp only [Codec.SizeExact] at a b
  simp only [MultiPath.size, MultiPath.encode, List.length_append, List.length_flatMap, a, b, c]
  omega

/-- **C30**, signed transactions: round trip with exact size. -/
theorem C30_signedTx_round_trip (hS : cS.Element) (p : SignedTx S) (h : Fits p.pourBytes) (rest : List UInt8) :
    (signedTxCodec cS).dec ((signedTxCodec cS).enc p ++ rest) = some (p, rest) ∧
      (signedTxCodec cS).size p = ((signedTxCodec cS).enc p).length :=
  ⟨signedTx_roundTrip hS p h rest, signedTx_size hS p⟩

/-- **C30**, signed transactions: only the bytes written for a transaction decode to it. -/
theorem C30_signedTx_canonical (hS : cS.Canonical) (p : SignedTx S) (bs rest : List UInt8)
    (h : (signedTxCodec cS).dec bs = some (p, rest)) : bs = (signedTxCodec cS).enc p ++ rest :=
  signedTx_canonical hS bs p rest h

variable [AddCommGroup P0] [DecidableEq P0] [AddCommGroup P1] [DecidableEq P1]

/-- **C30**, pours: round trip for all values. -/
theorem C30_pour_round_trip (hF0 : cF0.Element) (h0 : c0.Element) (hF1 : cF1.Element) (h1 : c1.Element)
    (hK : cK.Element) (p : Pour F0 P0 F1 P1 K) (h : p.Fits) (rest : List UInt8) :
    (pourCodec cF0 c0 cF1 c1 cK).dec ((pourCodec cF0 c0 cF1 c1 cK).enc p ++ rest) = some (p, rest) :=
  pour_roundTrip hF0 h0 hF1 h1 hK p h rest

/-- **C30**, pours (size, partial): `serialized_size` is exact when in both proofs `L_vec` and `R_vec` have the
same length, as in every proof made by `prove`. -/
theorem C30_pour_size_partial (hF0 : cF0.Element) (h0 : c0.Element) (hF1 : cF1.Element) (h1 : c1.Element)
    (hK : cK.Element) (p : Pour F0 P0 F1 P1 K) (he : p.evenProof.ipp.L.length = p.evenProof.ipp.R.length)
    (ho : p.oddProof.ipp.L.length = p.oddProof.ipp.R.length) :
    (pourCodec cF0 c0 cF1 c1 cK).size p = ((pourCodec cF0 c0 cF1 c1 cK).enc p).length := by
  have a := proof_length hF0 h0 p.evenProof
  have b := proof_length hF1 h1 p.oddProof
  rw [vec_size_const h0.sizeConst _ _ he] at a
  rw [vec_size_const h1.sizeConst _ _ ho] at b
  have c := path_size h0 h1 p.path0
  have d := path_size h0 h1 p.path1
  have e := fun x => h0.sizeExact x
  have f := fun x => hK.sizeExact x
  simp only [Codec.SizeExact] at c d e f
  simp only [pourCodec, List.length_append, c, d, e, f]
  omega

end Relations

section Example

/-- A toy encoding of the integers modulo 13 in one byte. -/
def modCodec : Codec (ZMod 13) where
  enc a := [.ofNat (ZMod.val a)]
  dec | [] => none
      | b :: bs => if h : b.toNat < 13 then some ((⟨b.toNat, h⟩ : Fin 13), bs) else none
  size _ := 1

theorem modCodec_element : modCodec.Element := by
  refine ⟨fun a rest => ?_, fun _ => rfl, fun _ _ => rfl⟩
  have : ∀ a : ZMod 13, modCodec.dec (modCodec.enc a) = some (a, []) := by decide
  have h := this a
  simp only [modCodec] at h ⊢
  simp only [List.cons_append, List.nil_append]
  split at h
  · rename_i hlt
    rw [dif_pos hlt]
    have h' := congrArg Prod.fst (Option.some.inj h)
    exact congrArg some (Prod.ext h' rfl)
  · simp at h

theorem modCodec_canonical : modCodec.Canonical := by
  intro bs a rest h
  cases bs with
  | nil => simp [modCodec] at h
  | cons b bs =>
    simp only [modCodec] at h
    split at h
    · rename_i hlt
      cases h
      simp only [modCodec, List.singleton_append, List.cons.injEq, and_true]
      apply UInt8.toNat.inj
      change b.toNat = b.toNat % 256
      have : b.toNat < 256 := b.toNat_lt
      omega
    · simp at h

/-- A one-phase proof (not a valid one) with `R_vec` longer than `L_vec`. -/
def exBytesProof : R1CSProof (ZMod 13) (ZMod 13) := ⟨1, 2, 3, 0, 0, 0, [4, 5], 6, 7, 8, ⟨[9], [10, 11], 12, 1⟩⟩

example : exBytesProof.Fits := ⟨by decide, ⟨by decide, by decide⟩⟩
example : exBytesProof.toBytes modCodec modCodec =
    [1, 2, 3, 0, 2, 0, 0, 0, 0, 0, 0, 0, 4, 5, 6, 7, 8, 1, 0, 0, 0, 0, 0, 0, 0, 9, 2, 0, 0, 0, 0, 0, 0, 0, 10, 11,
      12, 1] := by decide +kernel
/-- The hypotheses of C11 and C12 are met, and here `serialized_size` is off by one. -/
example : (proofCodec modCodec modCodec).size exBytesProof = 37 ∧
    (exBytesProof.toBytes modCodec modCodec).length = 38 := by decide +kernel
example (rest : List UInt8) : R1CSProof.fromBytes modCodec modCodec (exBytesProof.toBytes modCodec modCodec ++ rest) =
    .ok exBytesProof := C11_from_to_bytes modCodec_element modCodec_element _ ⟨by decide, ⟨by decide, by decide⟩⟩ rest
/-- The flag 77 instead of 0. -/
example : (proofCodec modCodec modCodec).dec
    [1, 2, 3, 77, 2, 0, 0, 0, 0, 0, 0, 0, 4, 5, 6, 7, 8, 1, 0, 0, 0, 0, 0, 0, 0, 9, 2, 0, 0, 0, 0, 0, 0, 0, 10, 11,
      12, 1] = some (exBytesProof, []) := by decide +kernel
/-- A truncated proof is refused. -/
example : (proofCodec modCodec modCodec).dec
    [1, 2, 3, 0, 2, 0, 0, 0, 0, 0, 0, 0, 4, 5, 6, 7, 8, 1, 0, 0, 0, 0, 0, 0, 0, 9, 2, 0, 0, 0, 0, 0, 0, 0, 10, 11,
      12] = none := by decide +kernel

instance : Fact (Nat.Prime 13) := ⟨by decide⟩

/-- A Prover with one multiplier. -/
def exBytesProver : PState (ZMod 13) (ZMod 13) Unit :=
  (okOr (runP (fun _ => 2) (Prog.allocateMultiplier (some ((2 : ZMod 13), 3)) fun _ => Prog.pure ()) (.new []))).2
def exBytesGens : Gens (ZMod 13) := ⟨⟨1, 10⟩, 2, [2, 3], [5, 7]⟩
def exBytesRand : PRand (ZMod 13) := ⟨1, 2, 3, fun _ => 1, fun _ => 1, 4, 5, 6, fun _ => 1, fun _ => 1, fun i => i⟩

/-- The hypotheses of C43 are met: this prover yields a proof, of (3+4+3+0)·1 + 5 + 25 = 40 bytes. -/
example : ∃ s2 p tr, exBytesProver.secondPhase (fun _ => 2) (exBytesProver.firstCommitments exBytesGens exBytesRand) =
      .ok s2 ∧ prove (fun _ => 2) exBytesGens exBytesRand exBytesProver = .ok (p, tr) ∧
      exBytesGens.capacity ≤ exBytesGens.Gs.length ∧ s2.size = 1 :=
  ⟨_, _, _, eq_ok (x := exBytesProver.secondPhase _ _) (by decide +kernel),
    eq_ok (x := prove (fun _ => 2) exBytesGens exBytesRand exBytesProver) (by decide +kernel), by decide,
    by decide +kernel⟩

example : (Path.mk (1 : ZMod 13) [(2 : ZMod 13), 3] [4]).Fits := ⟨by decide, by decide⟩
example : (pathCodec modCodec modCodec).enc (Path.mk (1 : ZMod 13) [(2 : ZMod 13), 3] [4]) =
    [1, 2, 0, 0, 0, 0, 0, 0, 0, 2, 3, 1, 0, 0, 0, 0, 0, 0, 0, 4] := by decide +kernel
example : (signedTxCodec modCodec).enc ⟨1, 2, 3, 4, [99, 98]⟩ = [1, 2, 3, 4, 2, 0, 0, 0, 0, 0, 0, 0, 99, 98] := by
  decide +kernel
/-- A pour meeting the hypotheses of C30. -/
example : (Pour.mk { exBytesProof with ipp := ⟨[9], [10], 1, 1⟩ } { exBytesProof with ipp := ⟨[], [], 1, 1⟩ }
    (Path.mk (1 : ZMod 13) [(2 : ZMod 13), 3] [4]) ⟨5, [], []⟩ (7 : ZMod 13) 8 9 10).Fits :=
  ⟨⟨by decide, ⟨by decide, by decide⟩⟩, ⟨by decide, ⟨by decide, by decide⟩⟩, ⟨by decide, by decide⟩,
    ⟨by decide, by decide⟩⟩

end Example
end CT
