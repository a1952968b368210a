import Verif.Spec.Codec
import Mathlib.Tactic.NormNum
import Mathlib.Data.List.OfFn
import Verif.Proofs.Total

/-! Round trips of the encodings. -/

namespace CT

theorem leEnc_length (k n : Nat) : (leEnc k n).length = k := by
  induction k generalizing n with
  | zero => rfl
  | succ k ih => simp [leEnc, ih]

theorem le_roundTrip (k n : Nat) (h : n < 256 ^ k) (rest : List UInt8) :
    leDec k (leEnc k n ++ rest) = some (n, rest) := by
  induction k generalizing n with
  | zero =>
    have : n = 0 := by simpa using h
    simp [leEnc, leDec, this]
  | succ k ih =>
    have h' : n / 256 < 256 ^ k := by
      rw [Nat.div_lt_iff_lt_mul (by norm_num)]
      rwa [pow_succ] at h
    simp only [leEnc, List.cons_append, leDec, ih _ h', UInt8.toNat_ofNat', Option.some.injEq, Prod.mk.injEq, and_true]
    have := Nat.mod_add_div n 256
    simpa using this

theorem le_inv (k : Nat) {bs rest : List UInt8} {n : Nat} (h : leDec k bs = some (n, rest)) :
    bs = leEnc k n ++ rest := by
  induction k generalizing bs n with
  | zero =>
    simp only [leDec, Option.some.injEq, Prod.mk.injEq] at h
    simp [leEnc, h.2]
  | succ k ih =>
    cases bs with
    | nil => simp [leDec] at h
    | cons b bs =>
      simp only [leDec] at h
      cases h1 : leDec k bs with
      | none => rw [h1] at h; simp at h
      | some r =>
        obtain ⟨m, bs1⟩ := r
        rw [h1] at h
        simp only [Option.some.injEq, Prod.mk.injEq] at h
        obtain ⟨rfl, rfl⟩ := h
        have hb : b.toNat < 256 := b.toNat_lt
        have e1 : UInt8.ofNat (b.toNat + 256 * m) = b := by
          apply UInt8.toNat.inj
          rw [UInt8.toNat_ofNat']
          change (b.toNat + 256 * m) % 256 = b.toNat
          omega
        have e2 : (b.toNat + 256 * m) / 256 = m := by omega
        simp only [leEnc, e1, e2, List.cons_append, ih h1]

theorem u64_roundTrip (n : Nat) (h : n < 2 ^ 64) (rest : List UInt8) : u64Dec (u64Enc n ++ rest) = some (n, rest) :=
  le_roundTrip 8 n (by norm_num at h ⊢; exact h) rest

theorem u64_inv {bs rest : List UInt8} {n : Nat} (h : u64Dec bs = some (n, rest)) : bs = u64Enc n ++ rest :=
  le_inv 8 h

theorem u64Enc_length (n : Nat) : (u64Enc n).length = 8 := leEnc_length 8 n

theorem byte_element : byteCodec.Element :=
  ⟨fun _ _ => rfl, fun _ => rfl, fun _ _ => rfl⟩

theorem byte_canonical : byteCodec.Canonical := by
  intro bs a rest h
  cases bs with
  | nil => simp [byteCodec] at h
  | cons b bs =>
    simp only [byteCodec, Option.some.injEq, Prod.mk.injEq] at h
    obtain ⟨rfl, rfl⟩ := h
    rfl

section
variable {α : Type} {c : Codec α}

theorem decN_roundTrip (l : List α) (h : ∀ a ∈ l, c.RoundTrips a) (rest : List UInt8) :
    decN c l.length (l.flatMap c.enc ++ rest) = some (l, rest) := by
  induction l with
  | nil => rfl
  | cons a l ih =>
    simp only [List.length_cons, decN, List.flatMap_cons, List.append_assoc]
    rw [h a (by simp)]
    simp only [ih fun b hb => h b (List.mem_cons_of_mem _ hb)]

theorem decN_inv (hc : c.Canonical) (n : Nat) {bs rest : List UInt8} {l : List α}
    (h : decN c n bs = some (l, rest)) : l.length = n ∧ bs = l.flatMap c.enc ++ rest := by
  induction n generalizing bs l with
  | zero =>
    simp only [decN, Option.some.injEq, Prod.mk.injEq] at h
    obtain ⟨rfl, rfl⟩ := h
    simp
  | succ n ih =>
    simp only [decN] at h
    cases h1 : c.dec bs with
    | none => rw [h1] at h; simp at h
    | some r =>
      obtain ⟨a, bs1⟩ := r
      rw [h1] at h
      simp only at h
      cases h2 : decN c n bs1 with
      | none => rw [h2] at h; simp at h
      | some r =>
        obtain ⟨as, bs2⟩ := r
        rw [h2] at h
        simp only [Option.some.injEq, Prod.mk.injEq] at h
        obtain ⟨rfl, rfl⟩ := h
        obtain ⟨h3, h4⟩ := ih h2
        refine ⟨by simp [h3], ?_⟩
        rw [hc _ _ _ h1, h4]
        simp

theorem vec_roundTrip (h : ∀ a, c.RoundTrips a) (l : List α) (hl : Fits l) : (vecCodec c).RoundTrips l := by
  intro rest
  simp only [vecCodec, List.append_assoc, u64_roundTrip _ hl]
  exact decN_roundTrip l (fun a _ => h a) rest

theorem vec_canonical (hc : c.Canonical) : (vecCodec c).Canonical := by
  intro bs l rest h
  simp only [vecCodec] at h ⊢
  cases h1 : u64Dec bs with
  | none => rw [h1] at h; simp at h
  | some r =>
    obtain ⟨n, bs1⟩ := r
    rw [h1] at h
    simp only at h
    obtain ⟨rfl, h2⟩ := decN_inv hc n h
    rw [u64_inv h1, h2]
    simp

theorem vec_size (h : ∀ a, c.SizeExact a) (l : List α) : (vecCodec c).SizeExact l := by
  simp only [Codec.SizeExact, vecCodec, List.length_append, List.length_flatMap]
  have : l.map c.size = l.map fun a => (c.enc a).length := List.map_congr_left fun a _ => h a
  rw [this, u64Enc_length]

theorem vec_size_const (h : ∀ a b, c.size a = c.size b) (l m : List α) (hl : l.length = m.length) :
    (vecCodec c).size l = (vecCodec c).size m := by
  simp only [vecCodec, Nat.add_left_cancel_iff]
  induction l generalizing m with
  | nil => rw [List.length_eq_zero_iff.1 hl.symm]
  | cons a l ih =>
    cases m with
    | nil => simp at hl
    | cons b m =>
      simp only [List.map_cons, List.sum_cons]
      rw [h a b, ih m (by simpa using hl)]
end

variable {F G : Type} {cF : Codec F} {cG : Codec G}

theorem ipp_roundTrip (hF : cF.Element) (hG : cG.Element) (p : IPP F G) (h : p.Fits) :
    (ippCodec cF cG).RoundTrips p := by
  intro rest
  simp only [ippCodec, List.append_assoc, vec_roundTrip hG.roundTrips p.L h.L _,
    vec_roundTrip hG.roundTrips p.R h.R _, hF.roundTrips p.a _, hF.roundTrips p.b _, bind, Option.bind, pure]

theorem ipp_canonical (hF : cF.Canonical) (hG : cG.Canonical) : (ippCodec cF cG).Canonical := by
  intro bs p rest h
  simp only [ippCodec, bind, pure, Option.bind_eq_some_iff, Prod.exists] at h
  obtain ⟨L, b1, h1, R, b2, h2, a, b3, h3, b, b4, h4, h5⟩ := h
  simp only [Option.some.injEq, Prod.mk.injEq] at h5
  obtain ⟨rfl, rfl⟩ := h5
  simp only [ippCodec]
  rw [vec_canonical hG _ _ _ h1, vec_canonical hG _ _ _ h2, hF _ _ _ h3, hF _ _ _ h4]
  simp

theorem ipp_length (hF : cF.Element) (hG : cG.Element) (p : IPP F G) :
    ((ippCodec cF cG).enc p).length =
      cF.size p.a * 2 + (vecCodec cG).size p.L + (vecCodec cG).size p.R := by
  have h1 : cF.size p.b = cF.size p.a := hF.sizeConst _ _
  have h2 := hF.sizeExact p.a
  have h3 := hF.sizeExact p.b
  have h4 := vec_size hG.sizeExact p.L
  have h5 := vec_size hG.sizeExact p.R
  simp only [Codec.SizeExact] at h2 h3 h4 h5
  simp only [ippCodec, List.length_append]
  omega

variable [AddCommGroup G] [DecidableEq G]

theorem missingPhase2_iff (p : R1CSProof F G) : p.missingPhase2 = true ↔ p.AI2 = 0 ∧ p.AO2 = 0 ∧ p.S2 = 0 := by
  simp [R1CSProof.missingPhase2, and_assoc]

/-- The bytes of a proof written with an arbitrary flag byte. -/
def proofBytes (cF : Codec F) (cG : Codec G) (flag : UInt8) (p : R1CSProof F G) : List UInt8 :=
  cG.enc p.AI1 ++ cG.enc p.AO1 ++ cG.enc p.S1 ++ [flag] ++
    (if flag = 1 then cG.enc p.AI2 ++ cG.enc p.AO2 ++ cG.enc p.S2 else []) ++
    (vecCodec cG).enc p.T ++ cF.enc p.tx ++ cF.enc p.txBl ++ cF.enc p.eBl ++ (ippCodec cF cG).enc p.ipp

theorem proof_enc_eq (p : R1CSProof F G) :
    (proofCodec cF cG).enc p = proofBytes cF cG (if p.missingPhase2 then 0 else 1) p := by
  by_cases h : p.missingPhase2 <;> simp [proofCodec, proofBytes, h, byteCodec]

theorem proofBytes_dec (hF : cF.Element) (hG : cG.Element) (p : R1CSProof F G) (h : p.Fits) (flag : UInt8)
    (hf : flag = 1 ∨ p.missingPhase2) (rest : List UInt8) :
    (proofCodec cF cG).dec (proofBytes cF cG flag p ++ rest) = some (p, rest) := by
  have hb : ∀ (b : UInt8) rest, byteCodec.dec ([b] ++ rest) = some (b, rest) := fun _ _ => rfl
  obtain ⟨AI1, AO1, S1, AI2, AO2, S2, T, tx, txBl, eBl, ipp⟩ := p
  by_cases h1 : flag = 1
  · subst h1
    simp only [proofCodec, proofBytes, List.append_assoc, hG.roundTrips _ _, hb, decPhase2,
      ↓reduceIte, bind, Option.bind, pure, vec_roundTrip hG.roundTrips T h.T _, hF.roundTrips _ _,
      ipp_roundTrip hF hG ipp h.ipp _]
  · rcases hf with hf | hf
    · exact absurd hf h1
    · obtain ⟨rfl, rfl, rfl⟩ := (missingPhase2_iff _).1 hf
      simp only [proofCodec, proofBytes, List.append_assoc, hG.roundTrips _ _, hb, decPhase2,
        if_neg h1, bind, Option.bind, pure, vec_roundTrip hG.roundTrips T h.T _, hF.roundTrips _ _,
        ipp_roundTrip hF hG ipp h.ipp _, List.nil_append]

theorem proofBytes_inv (hF : cF.Canonical) (hG : cG.Canonical) {bs rest : List UInt8} {p : R1CSProof F G}
    (h : (proofCodec cF cG).dec bs = some (p, rest)) :
    ∃ flag, (flag = 1 ∨ p.missingPhase2) ∧ bs = proofBytes cF cG flag p ++ rest := by
  simp only [proofCodec, bind, pure, Option.bind_eq_some_iff, Prod.exists] at h
  obtain ⟨AI1, b1, h1, AO1, b2, h2, S1, b3, h3, flag, b4, h4, AI2, AO2, S2, b5, h5, T, b6, h6, tx, b7, h7,
    txBl, b8, h8, eBl, b9, h9, ipp, b10, h10, h11⟩ := h
  simp only [Option.some.injEq, Prod.mk.injEq] at h11
  obtain ⟨rfl, rfl⟩ := h11
  refine ⟨flag, ?_, ?_⟩
  · by_cases hf : flag = 1
    · exact .inl hf
    · right
      rw [decPhase2, if_neg hf] at h5
      simp only [Option.some.injEq, Prod.mk.injEq] at h5
      obtain ⟨⟨rfl, rfl, rfl⟩, -⟩ := h5
      exact (missingPhase2_iff _).2 ⟨rfl, rfl, rfl⟩
  · have hph : b4 = (if flag = 1 then cG.enc AI2 ++ cG.enc AO2 ++ cG.enc S2 else []) ++ b5 := by
      by_cases hf : flag = 1
      · rw [decPhase2, if_pos hf] at h5
        simp only [bind, pure, Option.bind_eq_some_iff, Prod.exists] at h5
        obtain ⟨x, c1, g1, y, c2, g2, z, c3, g3, g4⟩ := h5
        simp only [Option.some.injEq, Prod.mk.injEq] at g4
        obtain ⟨⟨rfl, rfl, rfl⟩, rfl⟩ := g4
        rw [if_pos hf, hG _ _ _ g1, hG _ _ _ g2, hG _ _ _ g3]
        simp
      · rw [decPhase2, if_neg hf] at h5
        simp only [Option.some.injEq, Prod.mk.injEq] at h5
        rw [if_neg hf, h5.2]; rfl
    rw [hG _ _ _ h1, hG _ _ _ h2, hG _ _ _ h3, byte_canonical _ _ _ h4, hph, vec_canonical hG _ _ _ h6,
      hF _ _ _ h7, hF _ _ _ h8, hF _ _ _ h9, ipp_canonical hF hG _ _ _ h10]
    simp [proofBytes, byteCodec]

theorem proof_roundTrip (hF : cF.Element) (hG : cG.Element) (p : R1CSProof F G) (h : p.Fits) :
    (proofCodec cF cG).RoundTrips p := by
  intro rest
  rw [proof_enc_eq]
  apply proofBytes_dec hF hG p h
  by_cases hm : p.missingPhase2 <;> simp [hm]

theorem proof_length (hF : cF.Element) (hG : cG.Element) (p : R1CSProof F G) :
    ((proofCodec cF cG).enc p).length + (vecCodec cG).size p.ipp.L =
      (proofCodec cF cG).size p + (vecCodec cG).size p.ipp.R := by
  have e := fun a => hG.sizeExact a
  have f := fun a => hF.sizeExact a
  have v := vec_size hG.sizeExact p.T
  have i := ipp_length hF hG p.ipp
  simp only [Codec.SizeExact] at e f v
  have c := fun a => hG.sizeConst a p.AI1
  have d := fun a => hF.sizeConst a p.tx
  have hi : (ippCodec cF cG).size p.ipp = cF.size p.ipp.a * 2 + (vecCodec cG).size p.ipp.L * 2 := rfl
  simp only [proofCodec, List.length_append, ← e, ← f, ← v, c, d, i, hi]
  by_cases hm : p.missingPhase2
  · simp only [if_pos hm, byteCodec, List.length_cons, List.length_nil]; omega
  · simp only [hm, byteCodec]
    simp only [Bool.false_eq_true, if_false, List.length_append, List.length_cons, List.length_nil, ← e, c]
    omega

section
variable {P0 P1 : Type} {c0 : Codec P0} {c1 : Codec P1}

theorem path_roundTrip (h0 : c0.Element) (h1 : c1.Element) (p : Path P0 P1) (h : p.Fits) :
    (pathCodec c0 c1).RoundTrips p := by
  intro rest
  simp only [pathCodec, List.append_assoc, vec_roundTrip h1.roundTrips p.odd h.odd _,
    vec_roundTrip h0.roundTrips p.even h.even _, h0.roundTrips p.selected _, bind, Option.bind, pure]

theorem path_size (h0 : c0.Element) (h1 : c1.Element) (p : Path P0 P1) : (pathCodec c0 c1).SizeExact p := by
  have a := h0.sizeExact p.selected
  have b := vec_size h1.sizeExact p.odd
  have c := vec_size h0.sizeExact p.even
  simp only [Codec.SizeExact] at a b c ⊢
  simp only [pathCodec, List.length_append, a, b, c]

theorem path_canonical (h0 : c0.Canonical) (h1 : c1.Canonical) : (pathCodec c0 c1).Canonical := by
  intro bs p rest h
  simp only [pathCodec, bind, pure, Option.bind_eq_some_iff, Prod.exists] at h
  obtain ⟨x, b1, g1, y, b2, g2, z, b3, g3, g4⟩ := h
  simp only [Option.some.injEq, Prod.mk.injEq] at g4
  obtain ⟨rfl, rfl⟩ := g4
  simp only [pathCodec]
  rw [h0 _ _ _ g1, vec_canonical h1 _ _ _ g2, vec_canonical h0 _ _ _ g3]
  simp

theorem signedTx_roundTrip {S : Type} {cS : Codec S} (hS : cS.Element) (p : SignedTx S) (h : Fits p.pourBytes) :
    (signedTxCodec cS).RoundTrips p := by
  intro rest
  simp only [signedTxCodec, List.append_assoc, vec_roundTrip byte_element.roundTrips p.pourBytes h _,
    hS.roundTrips _ _, bind, Option.bind, pure]

theorem signedTx_canonical {S : Type} {cS : Codec S} (hS : cS.Canonical) : (signedTxCodec cS).Canonical := by
  intro bs p rest h
  simp only [signedTxCodec, bind, pure, Option.bind_eq_some_iff, Prod.exists] at h
  obtain ⟨x, b1, g1, y, b2, g2, z, b3, g3, w, b4, g4, v, b5, g5, g6⟩ := h
  simp only [Option.some.injEq, Prod.mk.injEq] at g6
  obtain ⟨rfl, rfl⟩ := g6
  simp only [signedTxCodec]
  rw [hS _ _ _ g1, hS _ _ _ g2, hS _ _ _ g3, hS _ _ _ g4, vec_canonical byte_canonical _ _ _ g5]
  simp

theorem signedTx_size {S : Type} {cS : Codec S} (hS : cS.Element) (p : SignedTx S) :
    (signedTxCodec cS).SizeExact p := by
  have a := fun x => hS.sizeExact x
  have b := vec_size byte_element.sizeExact p.pourBytes
  simp only [Codec.SizeExact] at a b ⊢
  simp only [signedTxCodec, List.length_append, a, b]
  omega

variable {F0 F1 K : Type} {cF0 : Codec F0} {cF1 : Codec F1} {cK : Codec K}
  [AddCommGroup P0] [DecidableEq P0] [AddCommGroup P1] [DecidableEq P1]

theorem pour_roundTrip (hF0 : cF0.Element) (h0 : c0.Element) (hF1 : cF1.Element) (h1 : c1.Element)
    (hK : cK.Element) (p : Pour F0 P0 F1 P1 K) (h : p.Fits) : (pourCodec cF0 c0 cF1 c1 cK).RoundTrips p := by
  intro rest
  simp only [pourCodec, List.append_assoc, proof_roundTrip hF0 h0 _ h.evenProof _,
    proof_roundTrip hF1 h1 _ h.oddProof _, path_roundTrip h0 h1 _ h.path0 _, path_roundTrip h0 h1 _ h.path1 _,
    hK.roundTrips _ _, h0.roundTrips _ _, bind, Option.bind, pure]

omit [AddCommGroup P0] [DecidableEq P0] [AddCommGroup P1] [DecidableEq P1] in
theorem multiPath_roundTrip {M : Nat} (h0 : c0.Element) (h1 : c1.Element) {p q : MultiPath P0 P1 M}
    (hp : Fits p.odd ∧ Fits p.even) (hq : Fits q.odd ∧ Fits q.even) {r r' : List UInt8}
    (h : p.encode c0 c1 ++ r = q.encode c0 c1 ++ r') : p = q ∧ r = r' := by
  simp only [MultiPath.encode, List.append_assoc] at h
  have e1 := decN_roundTrip (c := c0) (List.ofFn p.selected) (fun a _ => h0.roundTrips a)
    ((vecCodec c1).enc p.odd ++ ((vecCodec c0).enc p.even ++ r))
  have e2 := decN_roundTrip (c := c0) (List.ofFn q.selected) (fun a _ => h0.roundTrips a)
    ((vecCodec c1).enc q.odd ++ ((vecCodec c0).enc q.even ++ r'))
  rw [h] at e1
  simp only [List.length_ofFn] at e1 e2
  rw [e1] at e2
  simp only [Option.some.injEq, Prod.mk.injEq] at e2
  obtain ⟨e2, e3⟩ := e2
  have f1 := vec_roundTrip h1.roundTrips p.odd hp.1 ((vecCodec c0).enc p.even ++ r)
  rw [e3, vec_roundTrip h1.roundTrips q.odd hq.1] at f1
  simp only [Option.some.injEq, Prod.mk.injEq] at f1
  obtain ⟨f1, f2⟩ := f1
  have g1 := vec_roundTrip h0.roundTrips p.even hp.2 r
  rw [← f2, vec_roundTrip h0.roundTrips q.even hq.2] at g1
  simp only [Option.some.injEq, Prod.mk.injEq] at g1
  obtain ⟨ps, po, pe⟩ := p
  obtain ⟨qs, qo, qe⟩ := q
  simp only [MultiPath.mk.injEq]
  exact ⟨⟨List.ofFn_injective e2, f1.symm, g1.1.symm⟩, g1.2.symm⟩

end

section
variable {X : Type} [Field F] [DecidableEq F] [Module F G]

omit [DecidableEq G] in
theorem ippLoop_lengths (o : Oracle F G X) (Q : G) (k : Nat) (s : IPPState F G X) {p : IPP F G}
    {t : Transcript F G X} (h : ippLoop o Q k s = .ok (p, t)) : p.L.length = k ∧ p.R.length = k := by
  induction k generalizing s p t with
  | zero =>
    unfold ippLoop at h
    split at h
    · simp only [Except.ok.injEq, Prod.mk.injEq] at h
      simp [← h.1]
    · simp at h
  | succ k ih =>
    unfold ippLoop at h
    split at h
    · simp at h
    · split at h
      · simp at h
      · rename_i q t' hq
        simp only [Except.ok.injEq, Prod.mk.injEq] at h
        have := ih _ hq
        simp [← h.1, this]

omit [DecidableEq G] in
theorem ippCreate_lengths (o : Oracle F G X) (Q : G) (Gf Hf : List F) (Gs Hs : List G) (a b : List F)
    (t : Transcript F G X) {p : IPP F G} {t' : Transcript F G X}
    (h : ippCreate o Q Gf Hf Gs Hs a b t = .ok (p, t')) :
    p.L.length = Gs.length.log2 ∧ p.R.length = Gs.length.log2 := by
  unfold ippCreate at h
  simp only at h
  split at h
  · simp at h
  · split at h
    · simp at h
    · split at h
      · rename_i hk
        have := ippLoop_lengths o Q 0 _ h
        rw [hk]; exact this
      · rename_i k hk
        split at h
        · simp at h
        · split at h
          · simp at h
          · rename_i q t'' hq
            simp only [Except.ok.injEq, Prod.mk.injEq] at h
            have := ippLoop_lengths o Q k _ hq
            simp [← h.1, this, hk]

omit [DecidableEq G] in
theorem proveTail_lengths (o : Oracle F G X) (g : Gens G) (rnd : PRand F) (n1 : Nat) (c1 : Com G)
    (s : PState F G X) (hcG : g.capacity ≤ g.Gs.length) {p : R1CSProof F G} {t : Transcript F G X}
    (h : proveTail o g rnd n1 c1 s = .ok (p, t)) :
    p.T.length = 2 * opDegree s.vecOpen.length + 3 ∧ p.ipp.L.length = (nextPow2 s.size).log2 ∧
      p.ipp.R.length = (nextPow2 s.size).log2 := by
  unfold proveTail at h
  simp only [challengeScalar] at h
  split at h
  · simp at h
  · rename_i hcap
    split at h
    · simp at h
    · split at h
      · simp at h
      · by_cases hy : o (s.transcript ++ [Msg.point "A_I2" (commit2 g rnd s n1 s.size).AI,
          Msg.point "A_O2" (commit2 g rnd s n1 s.size).AO, Msg.point "S2" (commit2 g rnd s n1 s.size).S] ++
          [Msg.chal "y"]) = 0
        · exact absurd ((if_pos hy).symm.trans h) (by simp)
        · replace h := (if_neg hy).symm.trans h
          split at h
          · simp at h
          · split at h
            · simp at h
            · rename_i hq
              simp only [Except.ok.injEq, Prod.mk.injEq] at h
              have := ippCreate_lengths _ _ _ _ _ _ _ _ _ hq
              rw [List.length_take, min_eq_left (by omega)] at this
              rw [← h.1]
              refine ⟨?_, this.1, this.2⟩
              simp; omega

end

end CT
