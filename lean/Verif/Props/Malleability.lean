import Verif.Spec.Malleability
import Verif.Props.Verification
import Verif.Props.Transcript
import Verif.Proofs.ExtraPoints
import Verif.Props.Debug
import Verif.Props.Errors

/-!
# C64: an accepted proof cannot be altered by somebody else

False of the code: a release build never reads `T[op_degree]` nor the points of `T` beyond the degree of the polynomial.
-/

open Finset

namespace CT
variable {F G X : Type} [Field F] [DecidableEq F] [AddCommGroup G] [Module F G] [DecidableEq G]

omit [Field F] [DecidableEq F] [Module F G] in
theorem validateT_congr (op : Nat) (T T' : List G) (ds : List Nat) (h : ∀ d ∈ ds, d ≠ op → T[d]? = T'[d]?)
    (t : Transcript F G X) : validateT op T ds t = validateT op T' ds t := by
  induction ds generalizing t with
  | nil => rfl
  | cons d ds ih =>
    simp only [validateT]
    have ih' := fun t => ih (fun d hd => h d (List.mem_cons_of_mem _ hd)) t
    by_cases hd : d = op
    · rw [if_pos hd, if_pos hd, ih']
    · rw [if_neg hd, if_neg hd, h d (List.mem_cons_self ..) hd]
      simp only [ih']

/-- **C64** is false of the code: whatever the two proofs are, if they differ only in ignored points, the Verifier does the same with
both, for all statements, challenge functions and random scalars. -/
theorem C64_ignored_points (o : Oracle F G X) (g : Gens G) (r : F) (p p' : R1CSProof F G) (t : VState F G X)
    (h : p.SameButIgnored (opDegree t.vecComms.length) p')
    (hl : 2 * (opDegree t.vecComms.length + 1) < p.T.length) (hl' : 2 * (opDegree t.vecComms.length + 1) < p'.T.length) :
    verify o g r p t = verify o g r p' t := by
  have hh : verifyHead o p t = verifyHead o p' t := by
    unfold verifyHead
    rw [h.AI1, h.AO1, h.S1]
  unfold verify
  rw [verificationTuple_eq, verificationTuple_eq, hh]
  cases h2 : verifyHead o p' t with
  | error e => rfl
  | ok x =>
    obtain ⟨n1, t2⟩ := x
    have hc := verifyHead_comms h2
    have ht : verifyTail o r p n1 t2 = verifyTail o r p' n1 t2 := by
      unfold verifyTail
      have hT := fun tr : Transcript F G X => validateT_congr (opDegree t2.vecComms.length) p.T p'.T
        (List.range (2 * (opDegree t2.vecComms.length + 1) + 1)) (by
          intro d hd hne
          rw [hc] at hd hne
          have hd' : d < 2 * (opDegree t.vecComms.length + 1) + 1 := List.mem_range.1 hd
          have := h.T d (by omega) hne
          rw [getD_of_lt _ _ _ (by omega), getD_of_lt _ _ _ (by omega)] at this
          rw [List.getElem?_eq_getElem (by omega), List.getElem?_eq_getElem (by omega), this]) tr
      have hb : ∀ c n N wt, buildTuple p t2 c n1 n N wt = buildTuple p' t2 c n1 n N wt := by
        intro c n N wt
        unfold buildTuple
        simp only
        rw [h.AI1, h.AO1, h.S1, h.AI2, h.AO2, h.S2, h.tx, h.txBl, h.eBl, h.ipp]
        congr 4
        refine List.map_congr_left fun d hd => ?_
        rw [List.mem_filter, List.mem_range, hc] at hd
        exact h.T d (by omega) (by simpa using hd.2)
      simp only [hT, hb, h.AI2, h.AO2, h.S2, h.tx, h.txBl, h.eBl, h.ipp]
    simp only [ht]

theorem accepted_T_length {o : Oracle F G X} {g : Gens G} {r : F} {p : R1CSProof F G} {t : VState F G X}
    (h : verify o g r p t = .ok ()) : 2 * (opDegree t.vecComms.length + 1) < p.T.length := by
  obtain ⟨t2, wt, hs, -⟩ := accepted_shape h
  have hc : t2.vecComms = t.vecComms := by
    rw [(createRandomized_mono hs.second).2.1, VState.pad_eq]
  refine (hs.T _ ?_).2.1
  rw [hc]
  simp only [tDegrees, List.mem_filter, List.mem_range]
  exact ⟨by omega, by simp; omega⟩

/-- **C64** is false of the code: anybody can replace one point of an accepted proof by any point they like; the altered proof is
accepted too. For a proof made by `prove` the point replaced is the identity, so there are as many accepted proofs as points. -/
theorem C64_malleable (o : Oracle F G X) (g : Gens G) (r : F) (p : R1CSProof F G) (t : VState F G X)
    (h : verify o g r p t = .ok ()) (P : G) :
    verify o g r { p with T := p.T.set (opDegree t.vecComms.length) P } t = .ok () ∧
      (P ≠ p.T.getD (opDegree t.vecComms.length) 0 → { p with T := p.T.set (opDegree t.vecComms.length) P } ≠ p) := by
  have hl := accepted_T_length h
  refine ⟨?_, fun hP he => hP ?_⟩
  · rw [← C64_ignored_points o g r p { p with T := p.T.set (opDegree t.vecComms.length) P } t ⟨rfl, rfl, rfl, rfl, rfl, rfl, ?_, rfl, rfl, rfl, rfl⟩ hl (by simpa using hl), h]
    intro d _ hne
    simp only [List.getD_eq_getElem?_getD]
    rw [List.getElem?_set_ne (by omega)]
  · have := congrArg (fun q => q.T.getD (opDegree t.vecComms.length) 0) he
    simp only [List.getD_eq_getElem?_getD] at this
    rw [List.getElem?_set_self (by omega)] at this
    rw [List.getD_eq_getElem?_getD, ← this]
    rfl

/-- **C64**: points may also be appended to `T`. -/
theorem C64_extendable (o : Oracle F G X) (g : Gens G) (r : F) (p : R1CSProof F G) (t : VState F G X)
    (h : verify o g r p t = .ok ()) (Ps : List G) : verify o g r { p with T := p.T ++ Ps } t = .ok () := by
  have hl := accepted_T_length h
  rw [← C64_ignored_points o g r p { p with T := p.T ++ Ps } t ⟨rfl, rfl, rfl, rfl, rfl, rfl, ?_, rfl, rfl, rfl, rfl⟩ hl
    (by simp only [List.length_append]; omega), h]
  intro d hd _
  rw [getD_append', if_pos (by omega)]

omit [DecidableEq F] [Module F G] [DecidableEq G] in
/-- **C64**: the Verifier has the same transcript, so the same challenges, for proofs that differ only in ignored points. -/
theorem C64_ignored_not_absorbed (o : Oracle F G X) (p p' : R1CSProof F G) (t : VState F G X)
    (h : p.SameButIgnored (opDegree t.vecComms.length) p') {tr : Transcript F G X} (ht : VerifierTranscript o t p tr) :
    VerifierTranscript o t p' tr := by
  obtain ⟨t2, h2, rfl⟩ := ht
  refine ⟨t2, ?_, ?_⟩
  · unfold VState.AfterCallbacks R1CSProof.headMsgs at h2 ⊢
    rw [← h.AI1, ← h.AO1, ← h.S1]
    exact h2
  · have hT : (tMsgs (opDegree t.vecComms.length) p.T : Transcript F G X) = tMsgs (opDegree t.vecComms.length) p'.T := by
      unfold tMsgs
      refine List.map_congr_left fun d hd => ?_
      rw [List.mem_filter, List.mem_range] at hd
      rw [h.T d (by omega) (by simpa using hd.2)]
    unfold R1CSProof.tailMsgs R1CSProof.toW R1CSProof.toX R1CSProof.toY
    rw [hT, h.AI2, h.AO2, h.S2, h.tx, h.txBl, h.eBl, h.ipp]

/-- **C64**, the part bound by the challenges: if the Verifier's transcripts for two proofs are the same, the proofs agree in everything
but the ignored points and the two scalars `a` and `b` at the end of the inner product argument. -/
theorem C64_bound_by_transcript (o : Oracle F G X) (t : VState F G X) (p p' : R1CSProof F G) (tr : Transcript F G X)
    (hLR : p.ipp.L.length = p.ipp.R.length) (hLR' : p'.ipp.L.length = p'.ipp.R.length)
    (h : VerifierTranscript o t p tr) (h' : VerifierTranscript o t p' tr) :
    p.SameButIgnored (opDegree t.vecComms.length) { p' with ipp := { p'.ipp with a := p.ipp.a, b := p.ipp.b } } := by
  obtain ⟨t2, h2, e⟩ := id h
  obtain ⟨t2', h2', e'⟩ := id h'
  obtain ⟨b1, b2, b3, b4, b5⟩ := C37_binding_partial o t p p' tr t2 h2 h'
  obtain ⟨-, -, -, -, c5⟩ := C37_binding_partial o t p' p tr t2' h2' h
  have hW : t2.transcript ++ p.toW (opDegree t.vecComms.length) <+: tr := by
    rw [e]; unfold R1CSProof.tailMsgs; simp
  have hX : t2.transcript ++ p.toX (opDegree t.vecComms.length) <+: tr :=
    List.IsPrefix.trans (by unfold R1CSProof.toW; simp) hW
  have hY : t2.transcript ++ p.toY <+: tr := List.IsPrefix.trans (by unfold R1CSProof.toX; simp) hX
  have hH : t.transcript ++ p.headMsgs t.V.length <+: tr := by
    refine (createRandomizedV_prefix h2).trans ?_
    rw [e]; simp
  obtain ⟨a1, a2, a3⟩ := b1 hH
  obtain ⟨a4, a5, a6⟩ := b2 hY
  obtain ⟨a7, a8, a9⟩ := b4 hW
  have hz : p.ipp.L.zip p.ipp.R = p'.ipp.L.zip p'.ipp.R := by
    have k1 := b5 (p.ipp.L.zip p.ipp.R).length (by
      rw [e]; unfold R1CSProof.tailMsgs R1CSProof.toRound; rw [List.take_length])
    have k2 := c5 (p'.ipp.L.zip p'.ipp.R).length (by
      rw [e']; unfold R1CSProof.tailMsgs R1CSProof.toRound; rw [List.take_length])
    rw [List.take_length] at k1 k2
    exact k1.eq_of_length (le_antisymm k1.length_le k2.length_le)
  have hL : p.ipp.L = p'.ipp.L := by
    have := congrArg (List.map Prod.fst) hz
    rwa [List.map_fst_zip hLR.le, List.map_fst_zip hLR'.le] at this
  have hR : p.ipp.R = p'.ipp.R := by
    have := congrArg (List.map Prod.snd) hz
    rwa [List.map_snd_zip hLR.ge, List.map_snd_zip hLR'.ge] at this
  refine ⟨a1, a2, a3, a4, a5, a6, b3 hX, a7, a8, a9, ?_⟩
  simp only
  rw [← hL, ← hR]

omit [Field F] [DecidableEq F] [Module F G] in
theorem ippChallenges_roundChallenges (o : Oracle F G X) (LR : List (G × G)) (t : Transcript F G X) {us : List F}
    {t' : Transcript F G X} (h : ippChallenges o LR t = .ok (us, t')) : us = roundChallenges o LR t := by
  induction LR generalizing t us with
  | nil => simp only [ippChallenges, Except.ok.injEq, Prod.mk.injEq] at h; rw [← h.1]; rfl
  | cons lr rest ih =>
    obtain ⟨L, R⟩ := lr
    simp only [ippChallenges, validateAndAppendPoint, challengeScalar, bind, Except.bind] at h
    by_cases hL : L = 0
    · simp [hL] at h
    by_cases hR : R = 0
    · simp [hL, hR] at h
    simp only [hL, hR, if_false, List.append_assoc, List.cons_append, List.nil_append, pure, Except.pure] at h
    split at h
    · cases h
    rename_i x hx
    obtain ⟨us', t''⟩ := x
    simp only [Except.ok.injEq, Prod.mk.injEq] at h
    obtain ⟨rfl, rfl⟩ := h
    simp only [roundChallenges]
    rw [← ih _ hx]

omit [DecidableEq F] [AddCommGroup G] [Module F G] [DecidableEq G] [Field F] in
theorem roundChallenges_length (o : Oracle F G X) (LR : List (G × G)) (t : Transcript F G X) :
    (roundChallenges o LR t).length = LR.length := by
  induction LR generalizing t with
  | nil => rfl
  | cons lr rest ih => simp [roundChallenges, ih]

omit [DecidableEq F] [AddCommGroup G] [Module F G] [DecidableEq G] [Field F] in
theorem roundChallenges_prefix (o : Oracle F G X) (LR : List (G × G)) (t : Transcript F G X) :
    ∀ u ∈ roundChallenges o LR t, ∃ q, q <+: t ++ roundMsgs LR ∧ o q = u := by
  induction LR generalizing t with
  | nil => simp [roundChallenges]
  | cons lr rest ih =>
    obtain ⟨L, R⟩ := lr
    intro u hu
    simp only [roundChallenges, List.mem_cons] at hu
    rcases hu with rfl | hu
    · exact ⟨_, by simp [roundMsgs], rfl⟩
    · obtain ⟨q, hq, e⟩ := ih _ u hu
      exact ⟨q, by simpa [roundMsgs] using hq, e⟩

omit [DecidableEq F] in
theorem roundFactor_inv (us : List F) (i : Nat) (hi : i < 2 ^ us.length) : (sVec us).reverse.getD i 0 = (roundFactor us i)⁻¹ := by
  rw [sVec_reverse, sVec_bits _ _ (by simpa using hi), roundFactor, List.length_map, ← Finset.prod_inv_distrib]
  refine Finset.prod_congr rfl fun j hj => ?_
  rw [getD_map' _ _ _ 0, if_pos (Finset.mem_range.1 hj)]
  split <;> simp

omit [DecidableEq F] in
theorem roundFactor_ne_zero (us : List F) (h : ∀ u ∈ us, u ≠ 0) (i : Nat) : roundFactor us i ≠ 0 := by
  rw [roundFactor, Finset.prod_ne_zero_iff]
  intro j hj
  have hj' := Finset.mem_range.1 hj
  have := h (us.getD j 0) (by rw [getD_of_lt _ _ _ hj']; exact List.getElem_mem hj')
  split
  · exact this
  · exact inv_ne_zero this

/-- **C64**, the two last scalars: `p` and `p'` pass the checks of the paper and differ only in ignored points and in `a` and `b`. Then
`answersRelation`, which is computed from the two proofs and the challenges, is a relation between the generators. -/
theorem C64_two_answers (o : Oracle F G X) (g : Gens G) (t : VState F G X) (p p' : R1CSProof F G)
    (hLR : p.ipp.L.length = p.ipp.R.length) (h : PaperAccepts o g p t) (h' : PaperAccepts o g p' t)
    (hs : p.SameButIgnored (opDegree t.vecComms.length) { p' with ipp := { p'.ipp with a := p.ipp.a, b := p.ipp.b } }) :
    ∃ t2 y z u x w us, t.secondPhase o p.AI1 p.AO1 p.S1 = .ok t2 ∧ HasChallenges o p t2 y z u x w us ∧ y ≠ 0 ∧
      (answersRelation t.size y u w us p.ipp.a p.ipp.b p'.ipp.a p'.ipp.b).Holds (2 ^ p.ipp.L.length) g := by
  obtain ⟨t2, wt, hsh, -, hr⟩ := h
  obtain ⟨t2', wt', hsh', -, hr'⟩ := h'
  have e1 : p.AI1 = p'.AI1 := hs.AI1
  have e2 : p.AO1 = p'.AO1 := hs.AO1
  have e3 : p.S1 = p'.S1 := hs.S1
  have e4 : p.AI2 = p'.AI2 := hs.AI2
  have e5 : p.AO2 = p'.AO2 := hs.AO2
  have e6 : p.S2 = p'.S2 := hs.S2
  have e7 : p.tx = p'.tx := hs.tx
  have e8 : p.txBl = p'.txBl := hs.txBl
  have e9 : p.eBl = p'.eBl := hs.eBl
  have eL : p.ipp.L = p'.ipp.L := (congrArg IPP.L hs.ipp :)
  have eR : p.ipp.R = p'.ipp.R := (congrArg IPP.R hs.ipp :)
  obtain rfl : t2 = t2' := by
    have := hsh'.second
    rw [← e1, ← e2, ← e3, hsh.second] at this
    simpa using this
  have hc : t2.vecComms = t.vecComms := by rw [(createRandomized_mono hsh.second).2.1, VState.pad_eq]
  have hA : absorbedA p' t2 = absorbedA p t2 := by unfold absorbedA; rw [e4, e5, e6]
  obtain rfl : wt = wt' := by
    have := hsh'.weights
    rw [hA, hsh.weights] at this
    simpa using this
  have hT : absorbedT p' t2 = absorbedT p t2 := by
    unfold absorbedT
    rw [hA]
    congr 1
    refine List.map_congr_left fun d hd => ?_
    rw [tDegrees, List.mem_filter, List.mem_range, hc] at hd
    have := hs.T d (by omega) (by simpa using hd.2)
    simp only at this
    rw [this]
  have hW : absorbedW p' t2 = absorbedW p t2 := by unfold absorbedW; rw [hT, e7, e8, e9]
  have hck : paperCheck o p' t t2 wt = paperCheck o p t t2 wt := by
    unfold paperCheck; rw [hA, hT, hW, eL]
  rw [hck, hW, ← eL, ← eR, ← e1, ← e2, ← e3, ← e4, ← e5, ← e6, ← e7, ← e9] at hr'
  have hz : (p.ipp.L.zip p.ipp.R).length = p.ipp.L.length := by simp [hLR]
  have l1 : ((paperCheck o p t t2 wt).ippG g).length = 2 ^ (p.ipp.L.zip p.ipp.R).length := by simp [Check.ippG, hz, paperCheck]
  have l2 : ((paperCheck o p t t2 wt).ippH g).length = 2 ^ (p.ipp.L.zip p.ipp.R).length := by simp [Check.ippH, hz, paperCheck]
  rw [roundByRound_iff o _ _ _ _ _ _ _ _ l1 l2] at hr hr'
  obtain ⟨us, tr, hu, q⟩ := hr
  obtain ⟨us', tr', hu', q'⟩ := hr'
  rw [hu] at hu'
  simp only [Except.ok.injEq, Prod.mk.injEq] at hu'
  obtain ⟨rfl, rfl⟩ := hu'
  have hus : us.length = p.ipp.L.length := by
    rw [ippChallenges_roundChallenges o _ _ hu, roundChallenges_length, hz]
  refine ⟨t2, _, _, _, _, _, us, hsh.second, ⟨rfl, rfl, rfl, rfl, rfl, (ippChallenges_roundChallenges o _ _ hu).symm⟩, hsh.y, ?_⟩
  have q2 := q.symm.trans q'
  have mG : ∀ c : F, msm ((paperCheck o p t t2 wt).ippG g) ((sVec us).map (c * ·)) =
      ∑ i ∈ range (2 ^ p.ipp.L.length), (c * roundFactor us i * (if i < t.size then 1 else o (absorbedT p t2 ++ [.chal "u"]))) • g.Gs.getD i 0 := by
    intro c
    rw [msm_eq _ _ (2 ^ p.ipp.L.length) (.inl (by rw [l1, hz]))]
    refine Finset.sum_congr rfl fun i hi => ?_
    have hi' := Finset.mem_range.1 hi
    rw [getD_map' _ _ _ 0, if_pos (by rw [sVec_length, hus]; exact hi'), sVec_bits _ _ (by rw [hus]; exact hi')]
    unfold Check.ippG
    rw [getD_map_range, if_pos (show i < (paperCheck o p t t2 wt).N from hi'), smul_smul]
    rfl
  have mH : ∀ c : F, msm ((paperCheck o p t t2 wt).ippH g) ((sVec us).reverse.map (c * ·)) =
      ∑ i ∈ range (2 ^ p.ipp.L.length), (c * (roundFactor us i)⁻¹ * ((if i < t.size then 1 else o (absorbedT p t2 ++ [.chal "u"])) *
        (o (absorbedA p t2 ++ [.chal "y"]))⁻¹ ^ i)) • g.Hs.getD i 0 := by
    intro c
    rw [msm_eq _ _ (2 ^ p.ipp.L.length) (.inl (by rw [l2, hz]))]
    refine Finset.sum_congr rfl fun i hi => ?_
    have hi' := Finset.mem_range.1 hi
    rw [getD_map' _ _ _ 0, if_pos (by rw [List.length_reverse, sVec_length, hus]; exact hi'),
      roundFactor_inv _ _ (by rw [hus]; exact hi')]
    unfold Check.ippH
    rw [getD_map_range, if_pos (show i < (paperCheck o p t t2 wt).N from hi'), smul_smul]
    rfl
  rw [mG, mG, mH, mH, ← sub_eq_zero] at q2
  unfold Relation.Holds answersRelation
  simp only [sub_mul, sub_smul, Finset.sum_sub_distrib, zero_smul, add_zero]
  refine Eq.trans ?_ q2
  simp only [paperCheck, smul_smul]
  abel

/-- **C64**, what is true (partial: the ignored points can be changed, see `C64_malleable`; and the proofs must have as many `R` as `L`
points, see C08). Two proofs that pass the checks of the paper and for which the Verifier has the same transcript differ only in ignored points;
or the two proofs give a non-trivial relation between the generators. The circuit is not empty and no challenge is zero. -/
theorem C64_nonmalleable_partial (o : Oracle F G X) (g : Gens G) (t : VState F G X) (p p' : R1CSProof F G) (tr : Transcript F G X)
    (hLR : p.ipp.L.length = p.ipp.R.length) (hLR' : p'.ipp.L.length = p'.ipp.R.length)
    (h : VerifierTranscript o t p tr) (h' : VerifierTranscript o t p' tr) (ha : PaperAccepts o g p t) (ha' : PaperAccepts o g p' t)
    (hsz : t.size ≠ 0) (h0 : ∀ q, q <+: tr → o q ≠ 0) :
    p.SameButIgnored (opDegree t.vecComms.length) p' ∨
      ∃ t2 y z u x w us, t.secondPhase o p.AI1 p.AO1 p.S1 = .ok t2 ∧ HasChallenges o p t2 y z u x w us ∧
        (answersRelation t.size y u w us p.ipp.a p.ipp.b p'.ipp.a p'.ipp.b).NonTrivial (2 ^ p.ipp.L.length) ∧
        (answersRelation t.size y u w us p.ipp.a p.ipp.b p'.ipp.a p'.ipp.b).Holds (2 ^ p.ipp.L.length) g := by
  have hs := C64_bound_by_transcript o t p p' tr hLR hLR' h h'
  obtain ⟨t2, y, z, u, x, w, us, h2, hch, hy, hr⟩ := C64_two_answers o g t p p' hLR ha ha' hs
  by_cases hab : p.ipp.a = p'.ipp.a ∧ p.ipp.b = p'.ipp.b
  · refine .inl ⟨hs.AI1, hs.AO1, hs.S1, hs.AI2, hs.AO2, hs.S2, hs.T, hs.tx, hs.txBl, hs.eBl, ?_⟩
    rw [hs.ipp, hab.1, hab.2]
  · refine .inr ⟨t2, y, z, u, x, w, us, h2, hch, .inr (.inr ⟨0, Nat.two_pow_pos _, ?_⟩), hr⟩
    have hus : ∀ v ∈ us, v ≠ 0 := by
      intro v hv
      rw [← hch.us] at hv
      obtain ⟨q, hq, rfl⟩ := roundChallenges_prefix o _ _ v hv
      refine h0 q (hq.trans ?_)
      obtain ⟨t2', k2, e⟩ := id h
      obtain ⟨t3, wt, hsh, -⟩ := id ha
      obtain rfl : t2 = t3 := by
        have := hsh.second
        rw [h2] at this
        simpa using this
      obtain rfl : t2 = t2' := by
        unfold VState.secondPhase at h2
        unfold VState.AfterCallbacks R1CSProof.headMsgs at k2
        rw [show t.pad.transcript = t.transcript by rw [VState.pad_eq], k2] at h2
        simpa using h2.symm
      have hc : t2.vecComms = t.vecComms := by rw [(createRandomized_mono hsh.second).2.1, VState.pad_eq]
      have hN : nextPow2 t2.size = 2 ^ p.ipp.L.length := (nextPow2_iff _ _).2 ⟨hsh.size, fun hne => hsh.sizeMin fun he => hne (by rw [he]; rfl)⟩
      rw [e, hN, ← hc]
      unfold R1CSProof.tailMsgs R1CSProof.toW R1CSProof.toX R1CSProof.toY tMsgs absorbedW absorbedT absorbedA tDegrees
      simp
    have hf := roundFactor_ne_zero us hus 0
    simp only [answersRelation, if_pos (Nat.pos_of_ne_zero hsz), pow_zero, mul_one]
    by_cases hA : p.ipp.a = p'.ipp.a
    · exact .inr (mul_ne_zero (sub_ne_zero.2 fun hB => hab ⟨hA, hB⟩) (inv_ne_zero hf))
    · exact .inl (mul_ne_zero (sub_ne_zero.2 hA) hf)

/-- **C63** is false for proofs made by others: an honest proof with one point replaced is accepted by release builds, and debug builds
panic on it. -/
theorem C63_builds_differ {o : Oracle F G X} {g : Gens G} {r : F} {p : R1CSProof F G} {t : VState F G X}
    (h : verify o g r p t = .ok ()) {P : G} (hP : P ≠ 0) :
    verify o g r { p with T := p.T.set (opDegree t.vecComms.length) P } t = .ok () ∧
      verifyDebug o g r { p with T := p.T.set (opDegree t.vecComms.length) P } t = .error assertionFailed := by
  have h1 := (C64_malleable o g r p t h P).1
  refine ⟨h1, ?_⟩
  have hn : ¬ R1CSProof.PassesAsserts { p with T := p.T.set (opDegree t.vecComms.length) P } t.vecComms.length := by
    intro hp
    apply hP
    have := hp.op
    have hl := accepted_T_length h
    simp only [List.getD_eq_getElem?_getD] at this
    rw [List.getElem?_set_self (by omega)] at this
    exact this
  rcases C63_verifier_other o g r _ t hn with h2 | ⟨e, h2, -⟩
  · exact h2
  · rw [h1] at h2; cases h2

/-! Non-vacuity. The proof of the first example of C01 (one vector commitment): it passes the assertions and both builds accept it; with
another point at degree 2 the release build accepts it still and the debug build does not; and with another first point the release
build rejects it, in both builds. -/
section Example

example : c41Proof.PassesAsserts c01V3.2.vecComms.length ∧ verifyDebug exOracle exGens 3 c41Proof c01V3.2 = .ok () ∧
    verify exOracle exGens 3 c41Proof c01V3.2 = .ok () ∧ proveDebug exOracle exGens exRand c01P3.2 = prove exOracle exGens exRand c01P3.2 :=
  ⟨⟨by decide +kernel, by decide +kernel, fun _ => by decide +kernel, fun _ => by decide +kernel, fun _ => by decide +kernel⟩,
    by decide +kernel, by decide +kernel, C63_prover exOracle exGens exRand errSession⟩

example : let p : R1CSProof ℚ ℚ := { c41Proof with T := c41Proof.T.set 2 5 }
    opDegree c01V3.2.vecComms.length = 2 ∧ p ≠ c41Proof ∧ verify exOracle exGens 3 p c01V3.2 = .ok () ∧
      isPanic (verifyDebug exOracle exGens 3 p c01V3.2) := by
  have h := C63_builds_differ (o := exOracle) (g := exGens) (r := 3) (p := c41Proof) (t := c01V3.2) (by decide +kernel)
    (P := (5 : ℚ)) (by decide)
  have h2 := C64_malleable exOracle exGens 3 c41Proof c01V3.2 (by decide +kernel) (5 : ℚ)
  rw [show opDegree c01V3.2.vecComms.length = 2 by decide +kernel] at h h2
  exact ⟨by decide +kernel, h2.2 (by decide +kernel), h.1, by rw [h.2]; trivial⟩

/-- The hypotheses of `C64_nonmalleable_partial` hold of this proof and the altered one, so do those of `C64_two_answers`. -/
example : let p : R1CSProof ℚ ℚ := { c41Proof with T := c41Proof.T.set 2 5 }
    ∃ tr, VerifierTranscript exOracle c01V3.2 c41Proof tr ∧ VerifierTranscript exOracle c01V3.2 p tr ∧
      PaperAccepts exOracle exGens c41Proof c01V3.2 ∧ PaperAccepts exOracle exGens p c01V3.2 ∧ c01V3.2.size ≠ 0 ∧
      p.ipp.L.length = p.ipp.R.length ∧ ∀ q, q <+: tr → exOracle q ≠ 0 := by
  intro p
  have hp : prove exOracle exGens exRand c01P3.2 = .ok (okOr _) := eq_ok (by decide +kernel)
  have h1 : VerifierTranscript exOracle c01V3.2 c41Proof (okOr (prove exOracle exGens exRand c01P3.2)).2 :=
    C37_same_transcript exOracle exGens (by decide) errSession hp
  have hop : opDegree c01V3.2.vecComms.length = 2 := by decide +kernel
  have hs : c41Proof.SameButIgnored (opDegree c01V3.2.vecComms.length) p := by
    refine ⟨rfl, rfl, rfl, rfl, rfl, rfl, fun d _ hne => ?_, rfl, rfl, rfl, rfl⟩
    simp only [p, List.getD_eq_getElem?_getD]
    rw [List.getElem?_set_ne (by omega)]
  have hLR : c41Proof.ipp.L.length = c41Proof.ipp.R.length := by decide +kernel
  have ha : PaperAccepts exOracle exGens c41Proof c01V3.2 := by
    by_contra h
    exact zero_ne_one (C41_other_proofs_rejected exOracle exGens _ _ hLR (by decide +kernel) (by decide +kernel) h
      (0 : ℚ) 1 (by decide +kernel) (by decide +kernel))
  refine ⟨_, h1, C64_ignored_not_absorbed exOracle _ _ _ hs h1, ha, ?_, by decide +kernel, hLR, fun q _ => ?_⟩
  · rw [← C41_always_accepted_iff exOracle exGens p _ hLR (by decide +kernel) (by decide +kernel)]
    intro r
    rw [← C64_ignored_points exOracle exGens r _ p _ hs (by decide +kernel) (by decide +kernel)]
    exact C41_paper_proofs_accepted exOracle exGens _ _ hLR (by decide +kernel) (by decide +kernel) ha r
  · unfold exOracle
    positivity

/-- Two answers over ℚ, where there is a relation between the generators. -/
example : (answersRelation 1 (1 : ℚ) 1 1 [2] 3 4 5 6).NonTrivial 2 := by
  refine .inl ?_
  norm_num [answersRelation]

end Example

end CT
