import Verif.Proofs.Exact

/-! Surplus `R` points shift the scalars of the generators in the final multi-scalar multiplication. -/

namespace CT
open Finset
variable {F G X : Type} [Field F] [DecidableEq F] [AddCommGroup G] [Module F G] [DecidableEq G]

/-- The proof `p` with two more points at the end of `R_vec`. -/
def R1CSProof.withExtraR (p : R1CSProof F G) (X1 X2 : G) : R1CSProof F G :=
  { p with ipp := { p.ipp with R := p.ipp.R ++ [X1, X2] } }

omit [AddCommGroup G] [DecidableEq G] in
/-- The challenges of the inner product argument do not depend on the surplus points. -/
theorem zip_extra (L R Xs : List G) (h : L.length = R.length) : L.zip (R ++ Xs) = L.zip R := by
  have := List.zip_append (l₁ := L) (l₂ := R) (r₁ := []) (r₂ := Xs) h
  simpa using this

omit [DecidableEq F] [DecidableEq G] in
/-- The two equations, in terms of the surplus points. -/
theorem extra_solve (r w s' : F) (hw : w ≠ 0) (D Pd B Bb K K' : G) (M : G)
    (hM : M + ((w + r * s') • B + (-r) • Bb + K) = D + r • Pd) :
    M + ((w + r * s') • (-(w⁻¹ • (D - w • B - K + K'))) +
      ((-r) • (Pd - s' • B + Bb + s' • (-(w⁻¹ • (D - w • B - K + K')))) + K')) = 0 := by
  have hM' : M = D + r • Pd - ((w + r * s') • B + (-r) • Bb + K) := by rw [← hM]; abel
  rw [hM']
  set Y := w⁻¹ • (D - w • B - K + K') with hY
  have hwY : w • Y = D - w • B - K + K' := by rw [hY, smul_smul, mul_inv_cancel₀ hw, one_smul]
  have : D + r • Pd - ((w + r * s') • B + (-r) • Bb + K) + ((w + r * s') • (-Y) +
      ((-r) • (Pd - s' • B + Bb + s' • (-Y)) + K')) = (D - w • B - K + K') - w • Y := by module
  rw [this, hwY, sub_self]

theorem extra_verifies {o : Oracle F G X} {g : Gens G} {p : R1CSProof F G} {t t2 : VState F G X}
    {wt : Weights F} (h : PaperShape o g p t t2 wt) (hLR : p.ipp.L.length = p.ipp.R.length)
    (hL : ∀ P ∈ p.ipp.L, P ≠ 0) (hR : ∀ P ∈ p.ipp.R, P ≠ 0)
    (hG : g.capacity ≤ g.Gs.length) (hH : g.capacity ≤ g.Hs.length)
    (ha : p.ipp.a = 0) (htx : p.tx = 1) (htb : p.txBl = 1) (heb : p.eBl = 0)
    (hw : o (absorbedW p t2) ≠ 0) :
    ∃ X1 X2, ∀ r, verify o g r (p.withExtraR X1 X2) t = .ok () := by
  obtain ⟨us, t', hc⟩ : ∃ us t', ippChallenges o (p.ipp.L.zip p.ipp.R)
      (absorbedW p t2 ++ [.sep "ipp v1", .num "n" (2 ^ p.ipp.L.length)]) = .ok (us, t') := by
    have : ∀ (LR : List (G × G)) (tr : Transcript F G X), (∀ q ∈ LR, q.1 ≠ 0 ∧ q.2 ≠ 0) →
        ∃ us t', ippChallenges o LR tr = .ok (us, t') := by
      intro LR
      induction LR with
      | nil => intro tr _; exact ⟨[], tr, rfl⟩
      | cons q LR ih =>
        intro tr hq
        obtain ⟨us, t', h⟩ := ih (tr ++ [.point "L" q.1, .point "R" q.2, .chal "u"])
          (fun q' hq' => hq q' (List.mem_cons_of_mem _ hq'))
        have h0 := hq q (by simp)
        exact ⟨_, t', (ippChallenges_cons o q.1 q.2 LR tr t' _).2 ⟨h0.1, h0.2, us, rfl, h⟩⟩
    refine this _ _ fun q hq => ?_
    exact ⟨hL _ (List.of_mem_zip hq).1, hR _ (List.of_mem_zip hq).2⟩
  have hus : us.length = p.ipp.L.length := by
    rw [ippChallenges_length _ _ _ _ _ hc]; simp [hLR]
  have hmono := createRandomized_mono h.second
  have hn1 : t.size ≤ t2.size := by
    rw [← VState.pad_size]; exact VState.size_mono hmono.1 hmono.2.1
  have hwt := (flattenLoop_apply (Weights.zero_shape _ _ _) h.weights ⟨0, 0, 0, 0, 0⟩).1
  set N := 2 ^ p.ipp.L.length with hN
  let c : F → Chals F := fun r =>
    tailChals o r p t2 (absorbedT p t2) (us.map fun u => u * u) (us.map fun u => u⁻¹ * u⁻¹) (sVec us)
  set w := o (absorbedW p t2) with hwdef
  have hmega := fun r => mega_eq p t2 (c r) t.size t2.size N wt g hwt hn1 h.size
    (le_trans t2.numVars_le_size h.size) (by show (sVec us).length = N; rw [sVec_length, hus])
    (by show (us.map fun u => u * u).length = _; simp [hus])
    (by show (us.map fun u => u⁻¹ * u⁻¹).length = _; simp [hus, hLR])
    (le_trans h.capacity hG) (le_trans h.capacity hH)
  -- the scalars of the generators `G`, `H` do not depend on `r`
  set gh := gScalars (c 0) t.size t2.size N t2.numVars (opDegree t2.vecComms.length) wt p.ipp.a ++
    hScalars (c 0) t.size t2.size N (opDegree t2.vecComms.length) wt p.ipp.b with hgh
  let s' : F := (expIter (c 0).x (2 * (opDegree t2.vecComms.length + 1) + 1)).getD (opDegree t2.vecComms.length) 0 *
      (wt.wc + deltaV (c 0) N t2.numVars wt) - 1
  have hfix : ∀ r, (buildTuple p t2 (c r) t.size t2.size N wt).fixed = (w + r * s') :: (-r) :: gh := by
    intro r
    have e1 : (c r).w * (p.tx - p.ipp.a * p.ipp.b) = w := by
      rw [htx, ha]; show w * _ = w; ring
    simp only [buildTuple]
    rw [e1, heb, htx, htb]
    simp only [neg_zero, zero_sub, mul_one, List.cons_append, List.nil_append]
    rfl
  set Gen := g.Gs.take N ++ g.Hs.take N with hGen
  set K := msm Gen gh with hK
  set K' := msm ([g.pc.B, g.pc.Bbl] ++ Gen) gh with hK'
  set D := ippDefect (t2.check (c 0) wt t.size N) g p (c 0).usq (c 0).uisq (c 0).s with hD
  set Pd := (t2.check (c 0) wt t.size N).polyDefect g p.T p.tx p.txBl with hPd
  set X1 := -(w⁻¹ • (D - w • g.pc.B - K + K')) with hX1
  set X2 := Pd - s' • g.pc.B + g.pc.Bbl + s' • X1 with hX2
  refine ⟨X1, X2, fun r => ?_⟩
  -- the tuple of the extended proof
  set p' := p.withExtraR X1 X2 with hp'
  have h' : PaperShape o g p' t t2 wt :=
    ⟨h.AI1, h.AO1, h.S1, h.second, h.T, h.y, h.weights, h.size, h.sizeMin, h.rounds, h.capacity⟩
  have hc' : ippChallenges o (p'.ipp.L.zip p'.ipp.R)
      (absorbedW p' t2 ++ [.sep "ipp v1", .num "n" (2 ^ p'.ipp.L.length)]) = .ok (us, t') := by
    show ippChallenges o (p.ipp.L.zip (p.ipp.R ++ [X1, X2])) _ = _
    rw [zip_extra _ _ _ hLR]
    exact hc
  have htail := h'.tail (by show p.ipp.L.length ≤ (p.ipp.R ++ [X1, X2]).length; simp; omega) hc' r
  have hv : verify o g r p' t = checkTuple g (buildTuple p' t2 (c r) t.size t2.size N wt) := by
    unfold verify
    rw [verificationTuple_eq, verifyHead_eq,
      if_neg (by push Not; exact ⟨h'.AI1, h'.AO1, h'.S1⟩), h'.second, VState.pad_size]
    simp only
    rw [htail]
    rfl
  rw [hv]
  have hbt : buildTuple p' t2 (c r) t.size t2.size N wt =
      { buildTuple p t2 (c r) t.size t2.size N wt with
          points := (buildTuple p t2 (c r) t.size t2.size N wt).points ++ [X1, X2] } := by
    simp [buildTuple, hp', R1CSProof.withExtraR]
  have hfl := (hmega r).1
  have hm := (hmega r).2
  rw [hbt]
  unfold checkTuple
  simp only
  rw [hfl, if_neg (by have := h.capacity; omega), hfix r]
  rw [hfix r] at hm
  have hpl : (buildTuple p t2 (c r) t.size t2.size N wt).points.length =
      (buildTuple p t2 (c r) t.size t2.size N wt).scalars.length := by
    simp [buildTuple, hwt.wV, c, tailChals, hus, hLR]
  rw [List.append_assoc [g.pc.B, g.pc.Bbl] _ _, msm_append _ _ _ _ hpl] at hm
  rw [List.append_assoc [g.pc.B, g.pc.Bbl] _ _, List.append_assoc, msm_append _ _ _ _ hpl]
  simp only [List.cons_append, List.nil_append, msm_cons] at hm ⊢
  rw [if_neg]
  rw [not_not]
  refine extra_solve r w s' hw D Pd g.pc.B g.pc.Bbl K K' _ ?_
  rw [add_assoc (_ • g.pc.B)]
  exact hm

omit [DecidableEq F] [Module F G] in
theorem ippChallenges_ne {o : Oracle F G X} {LR : List (G × G)} {t t' : Transcript F G X} {us : List F}
    (h : ippChallenges o LR t = .ok (us, t')) : ∀ q ∈ LR, q.1 ≠ 0 ∧ q.2 ≠ 0 := by
  induction LR generalizing t us with
  | nil => simp
  | cons q LR ih =>
    obtain ⟨h1, h2, us', rfl, h3⟩ := (ippChallenges_cons o q.1 q.2 LR t t' us).1 h
    intro q' hq'
    rcases List.mem_cons.1 hq' with rfl | hq'
    · exact ⟨h1, h2⟩
    · exact ih h3 q' hq'

omit [DecidableEq F] [Module F G] in
theorem verificationScalars_inv {o : Oracle F G X} {p : IPP F G} {n : Nat} {t : Transcript F G X}
    {v} (h : verificationScalars o p n t = .ok v) :
    p.L.length < 32 ∧ n = 2 ^ p.L.length ∧ p.L.length ≤ p.R.length ∧
      ∃ us t', ippChallenges o (p.L.zip p.R) (t ++ [.sep "ipp v1", .num "n" n]) = .ok (us, t') := by
  unfold verificationScalars at h
  by_cases h32 : p.L.length ≥ 32
  · simp only [if_pos h32] at h; simp at h
  by_cases hn : n = 2 ^ p.L.length
  swap
  · simp only [if_neg h32, if_pos (show n ≠ 2 ^ p.L.length from hn)] at h; simp at h
  simp only [if_neg h32, hn, ne_eq, not_true_eq_false, if_false, bind, Except.bind] at h
  cases hc : ippChallenges o (p.L.zip p.R) (t ++ [.sep "ipp v1", .num "n" (2 ^ p.L.length)]) with
  | error e => rw [hc] at h; simp at h
  | ok r =>
    obtain ⟨us, t'⟩ := r
    rw [hc] at h
    simp only at h
    by_cases hl : us.length < p.L.length
    · rw [if_pos hl] at h; simp at h
    · refine ⟨by omega, hn, ?_, us, t', hn ▸ hc⟩
      have := ippChallenges_length _ _ _ _ _ hc
      rw [List.length_zip] at this
      omega

/-- The shape of accepted proofs, without any assumption on the lengths. -/
theorem accepted_shape {o : Oracle F G X} {g : Gens G} {r : F} {p : R1CSProof F G} {t : VState F G X}
    (h : verify o g r p t = .ok ()) :
    ∃ t2 wt, PaperShape o g p t t2 wt ∧ p.ipp.L.length ≤ p.ipp.R.length ∧
      ∀ q ∈ p.ipp.L.zip p.ipp.R, q.1 ≠ 0 ∧ q.2 ≠ 0 := by
  unfold verify at h
  rw [verificationTuple_eq, verifyHead_eq] at h
  by_cases h0 : p.AI1 = 0 ∨ p.AO1 = 0 ∨ p.S1 = 0
  · rw [if_pos h0] at h; simp at h
  rw [if_neg h0] at h
  push Not at h0
  cases h2 : t.secondPhase o p.AI1 p.AO1 p.S1 with
  | error e => rw [h2] at h; simp at h
  | ok t2 =>
    rw [h2] at h
    simp only [VState.pad_size] at h
    cases ht : verifyTail o r p t.size t2 with
    | error e => rw [ht] at h; simp at h
    | ok tup =>
      rw [ht] at h
      simp only at h
      have ht0 := ht
      unfold verifyTail at ht
      simp only [challengeScalar] at ht
      have e1 : (t2.transcript ++ [Msg.point "A_I2" p.AI2, .point "A_O2" p.AO2, .point "S2" p.S2]) ++
          [.chal "y"] ++ [.chal "z"] = tailT p t2 ++ [.chal "y", .chal "z"] := by simp [tailT]
      rw [e1] at ht
      cases hT : validateT (opDegree t2.vecComms.length) p.T
          (List.range (2 * (opDegree t2.vecComms.length + 1) + 1)) (tailT p t2 ++ [.chal "y", .chal "z"]) with
      | error e => rw [hT] at ht; simp at ht
      | ok tr =>
        rw [hT] at ht
        simp only at ht
        cases hw : t2.flattened (o (tailT p t2 ++ [.chal "y", .chal "z"])) with
        | none => rw [hw] at ht; simp at ht
        | some wt =>
          rw [hw] at ht
          simp only at ht
          have htr : tr = absorbedT p t2 := ((validateT_iff _ _ _ _ _).1 hT).2
          have e2 : tr ++ [Msg.chal "u"] ++ [.chal "x"] ++
              [.scalar "t_x" p.tx, .scalar "t_x_blinding" p.txBl, .scalar "e_blinding" p.eBl] ++ [.chal "w"] =
              absorbedW p t2 := by rw [htr]; simp [absorbedW]
          rw [e2] at ht
          cases hs : verificationScalars o p.ipp (nextPow2 t2.size) (absorbedW p t2) with
          | error e => rw [hs] at ht; simp at ht
          | ok v =>
            rw [hs] at ht
            obtain ⟨⟨usq, uisq, sv⟩, tt⟩ := v
            simp only at ht
            by_cases hy : o (t2.transcript ++ [Msg.point "A_I2" p.AI2, .point "A_O2" p.AO2, .point "S2" p.S2] ++
              [.chal "y"]) = 0
            · exact absurd ((if_pos hy).symm.trans ht) (by simp)
            obtain ⟨h32, hN, hLR, us, t', hc⟩ := verificationScalars_inv hs
            have hsz := (nextPow2_iff _ _).1 hN
            have hsh : PaperShape o ⟨g.pc, 2 ^ p.ipp.L.length, g.Gs, g.Hs⟩ p t t2 wt :=
              (shape_of_cases h0.1 h0.2.1 h0.2.2 h2 hT hw hN h32 hy (le_refl _)).1
            have hus : us.length = p.ipp.L.length := by
              rw [ippChallenges_length _ _ _ _ _ hc]; simp [hLR]
            have hcap : 2 ^ p.ipp.L.length ≤ g.capacity := by
              rw [hN] at hc
              have := hsh.tail hLR hc r
              rw [this] at ht0
              simp only [Except.ok.injEq] at ht0
              subst ht0
              have hwt := (flattenLoop_apply (Weights.zero_shape _ _ _) hw ⟨0, 0, 0, 0, 0⟩).1
              have hmono := createRandomized_mono h2
              have hn1 : t.size ≤ t2.size := by
                rw [← VState.pad_size]; exact VState.size_mono hmono.1 hmono.2.1
              have hgl := gScalars_length
                (tailChals o r p t2 (absorbedT p t2) (us.map fun u => u * u) (us.map fun u => u⁻¹ * u⁻¹) (sVec us))
                t.size t2.size (2 ^ p.ipp.L.length) t2.numVars (opDegree t2.vecComms.length) wt p.ipp.a hn1
                hsz.1 hwt.wR (le_trans t2.numVars_le_size hsz.1) (by simp only [tailChals]; rw [sVec_length, hus])
              unfold checkTuple at h
              simp only [buildTuple, List.length_append, hgl, List.length_cons, List.length_nil, hScalars,
                List.length_map, List.length_range] at h
              by_contra hcap
              rw [if_pos (by omega)] at h
              simp at h
            exact ⟨t2, wt, (shape_of_cases h0.1 h0.2.1 h0.2.2 h2 hT hw hN h32 hy hcap).1, hLR, ippChallenges_ne hc⟩

end CT
