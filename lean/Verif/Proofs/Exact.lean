import Verif.Spec.Acceptance
import Verif.Proofs.Complete

/-! `verify` accepts exactly what the paper's verifier accepts, up to the random combination. -/

namespace CT
open Finset

theorem nextPow2_iff (n k : Nat) : nextPow2 n = 2 ^ k ↔ n ≤ 2 ^ k ∧ (k ≠ 0 → 2 ^ k < 2 * n) := by
  obtain ⟨j, hj, h1, h2⟩ := nextPow2_eq n
  have hj0 : n ≤ 1 → j = 0 := by
    intro hn
    have : nextPow2 n = 2 ^ 0 := by unfold nextPow2; rw [if_pos hn]; rfl
    exact Nat.pow_right_injective (le_refl 2) (hj.symm.trans this)
  rw [hj]
  constructor
  · intro e
    have : j = k := Nat.pow_right_injective (le_refl 2) e
    subst this
    refine ⟨h1, fun h => h2 ?_⟩
    by_contra hn
    exact h (hj0 (by omega))
  · rintro ⟨h3, h4⟩
    congr 1
    rcases lt_trichotomy j k with h | h | h
    · have := h4 (by omega)
      have h5 : 2 ^ (j + 1) ≤ 2 ^ k := Nat.pow_le_pow_right (by norm_num) h
      rw [pow_succ] at h5
      omega
    · exact h
    · exfalso
      have hn : 1 < n := by by_contra hn; have := hj0 (by omega); omega
      have := h2 hn
      have h5 : 2 ^ (k + 1) ≤ 2 ^ j := Nat.pow_le_pow_right (by norm_num) h
      rw [pow_succ] at h5
      omega

section
variable {F G X α : Type} [Field F] {o : Oracle F G X}

theorem VState.pad_eq (s : VState F G X) :
    s.pad = { s with numVars := s.numVars + (s.size - s.numVars) } := VState.padN_eq _ _

theorem runV_comms {p : Prog F G X α} {s s' : VState F G X} {a : α} (h : runV o p s = .ok (a, s')) :
    s'.vecComms = s.vecComms ∧ s'.V = s.V := by
  induction p generalizing s with
  | pure a => simp only [runV, Except.ok.injEq, Prod.mk.injEq] at h; obtain ⟨_, rfl⟩ := h; exact ⟨rfl, rfl⟩
  | fail e => simp [runV] at h
  | multiply l r k ih => have := ih _ h; exact this
  | allocate a k ih =>
    obtain ⟨h1, h2⟩ := ih _ h
    cases hp : s.pending <;> simp only [VState.allocate, hp] at h1 h2 <;> exact ⟨h1, h2⟩
  | allocateMultiplier a k ih => have := ih _ h; exact this
  | constrain lc k ih => have := ih h; exact this
  | append m k ih => simp only [runV] at h; have := ih h; exact this
  | challenge l k ih => simp only [runV, challengeScalar] at h; have := ih _ h; exact this

theorem runCallbacksV_mono {ps : List (Prog F G X Unit)} {s s' : VState F G X}
    (h : runCallbacksV o ps s = .ok s') :
    s.numVars ≤ s'.numVars ∧ s'.vecComms = s.vecComms ∧ s'.V = s.V := by
  induction ps generalizing s with
  | nil => simp only [runCallbacksV, Except.ok.injEq] at h; subst h; exact ⟨le_refl _, rfl, rfl⟩
  | cons p ps ih =>
    simp only [runCallbacksV] at h
    cases hp : runV o p s with
    | error e => rw [hp] at h; simp at h
    | ok r =>
      obtain ⟨a, s1⟩ := r
      rw [hp] at h
      obtain ⟨h1, h2, h3⟩ := ih h
      have := (runV_mono o hp).1
      obtain ⟨h4, h5⟩ := runV_comms hp
      exact ⟨by omega, h2.trans h4, h3.trans h5⟩

theorem createRandomized_mono {s s' : VState F G X} (h : s.createRandomized o = .ok s') :
    s.numVars ≤ s'.numVars ∧ s'.vecComms = s.vecComms ∧ s'.V = s.V := by
  unfold VState.createRandomized at h
  simp only at h
  by_cases hd : s.deferred = []
  · rw [if_pos hd] at h
    simp only [Except.ok.injEq] at h; subst h; exact ⟨le_refl _, rfl, rfl⟩
  · rw [if_neg hd] at h
    have := runCallbacksV_mono h
    exact this

omit [Field F] in
theorem VState.size_mono {s s' : VState F G X} (h : s.numVars ≤ s'.numVars) (hc : s'.vecComms = s.vecComms) :
    s.size ≤ s'.size := by
  unfold VState.size
  rw [hc]
  exact foldl_max_le _ _ _ _ (le_trans h (foldl_max_ge _ _ _).1) (foldl_max_ge _ _ _).2

theorem VState.pad_size (s : VState F G X) : s.pad.size = s.size := by
  apply le_antisymm
  · rw [VState.pad_eq]
    refine foldl_max_le _ _ _ _ ?_ (foldl_max_ge (fun v : G × Nat => v.2) s.vecComms s.numVars).2
    have := s.numVars_le_size
    simp only; omega
  · apply VState.size_mono <;> rw [VState.pad_eq]
    simp
end

section
variable {F G X : Type} [Field F] [AddCommGroup G] [DecidableEq G]

omit [Field F] in
theorem validateT_iff (op : Nat) (T : List G) (ds : List Nat) (t t' : Transcript F G X) :
    validateT op T ds t = .ok t' ↔
      (∀ d ∈ ds.filter (· ≠ op), d < tLabelCount ∧ d < T.length ∧ T.getD d 0 ≠ 0) ∧
      t' = t ++ (ds.filter (· ≠ op)).map fun d => .point ("T_" ++ toString d) (T.getD d 0) := by
  induction ds generalizing t with
  | nil => simp [validateT, eq_comm]
  | cons d ds ih =>
    by_cases hd : d = op
    · rw [validateT, if_pos hd, ih]
      simp [hd]
    · rw [validateT, if_neg hd]
      have hf : (d :: ds).filter (· ≠ op) = d :: ds.filter (· ≠ op) := by simp [hd]
      rw [hf]
      by_cases hl : d < tLabelCount
      swap
      · simp [tLabel, hl]
      by_cases hT : d < T.length
      swap
      · have : T[d]? = none := by simp; omega
        rw [this]
        simp [hT]
      have e : T[d]? = some (T.getD d 0) := by simp [List.getD, hT]
      rw [e]
      simp only [tLabel, if_pos hl, validateAndAppendPoint]
      by_cases hz : T.getD d 0 = 0
      · rw [if_pos hz]
        simp only [List.mem_cons, forall_eq_or_imp, hz]
        simp
      · rw [if_neg hz]
        simp only
        rw [ih]
        simp only [List.mem_cons, forall_eq_or_imp, List.map_cons, List.append_assoc, List.singleton_append]
        exact ⟨fun h => ⟨⟨⟨hl, hT, hz⟩, h.1⟩, h.2⟩, fun h => ⟨h.1.2, h.2⟩⟩

end

variable {F G X : Type} [Field F] [DecidableEq F] [AddCommGroup G] [Module F G] [DecidableEq G]

omit [Module F G] [DecidableEq F] in
theorem verifyHead_eq (o : Oracle F G X) (p : R1CSProof F G) (t : VState F G X) :
    verifyHead o p t = if p.AI1 = 0 ∨ p.AO1 = 0 ∨ p.S1 = 0 then .error .verificationError else
      match t.secondPhase o p.AI1 p.AO1 p.S1 with
      | .error e => .error e
      | .ok t2 => .ok (t.pad.size, t2) := by
  unfold verifyHead VState.secondPhase
  have : t.pad.V = t.V := by rw [VState.pad_eq]
  simp only [this, List.append_assoc, List.cons_append, List.nil_append]
  congr 1

omit [DecidableEq F] in
theorem ippDefect_iff (o : Oracle F G X) (g : Gens G) (p : R1CSProof F G) (ch : Check F G)
    (t : Transcript F G X) (hLR : p.ipp.L.length = p.ipp.R.length) (hN : ch.N = 2 ^ p.ipp.L.length)
    (us : List F) (t' : Transcript F G X)
    (hc : ippChallenges o (p.ipp.L.zip p.ipp.R) t = .ok (us, t')) :
    RoundByRound o (ch.w • g.pc.B) p.ipp.a p.ipp.b (p.ipp.L.zip p.ipp.R) t
        (ch.opened g p.AI1 p.AO1 p.S1 p.AI2 p.AO2 p.S2 p.eBl + p.tx • (ch.w • g.pc.B))
        (ch.ippG g) (ch.ippH g) ↔
      ippDefect ch g p (us.map fun u => u * u) (us.map fun u => u⁻¹ * u⁻¹) (sVec us) = 0 := by
  have hz : (p.ipp.L.zip p.ipp.R).length = p.ipp.L.length := by simp [hLR]
  have h1 : (p.ipp.L.zip p.ipp.R).map Prod.fst = p.ipp.L := List.map_fst_zip (by omega)
  have h2 : (p.ipp.L.zip p.ipp.R).map Prod.snd = p.ipp.R := List.map_snd_zip (by omega)
  rw [roundByRound_iff o _ _ _ _ _ _ _ _ (by simp [Check.ippG, hz, hN]) (by simp [Check.ippH, hz, hN]), h1, h2]
  unfold ippDefect
  rw [sub_eq_zero]
  constructor
  · rintro ⟨us', t'', h, e⟩
    rw [hc] at h
    simp only [Except.ok.injEq, Prod.mk.injEq] at h
    obtain ⟨rfl, rfl⟩ := h
    exact e
  · intro e
    exact ⟨us, t', hc, e⟩

omit [Module F G] in
/-- On a proof of the right shape with non-identity `L`, `R` points the tuple is computed. -/
theorem PaperShape.tail {o : Oracle F G X} {g : Gens G} {p : R1CSProof F G} {t t2 : VState F G X}
    {wt : Weights F} (h : PaperShape o g p t t2 wt) {us : List F} {t' : Transcript F G X}
    (hR : p.ipp.L.length ≤ p.ipp.R.length)
    (hc : ippChallenges o (p.ipp.L.zip p.ipp.R)
      (absorbedW p t2 ++ [.sep "ipp v1", .num "n" (2 ^ p.ipp.L.length)]) = .ok (us, t')) (r : F) :
    verifyTail o r p t.size t2 = .ok (buildTuple p t2
        (tailChals o r p t2 (absorbedT p t2) (us.map fun u => u * u) (us.map fun u => u⁻¹ * u⁻¹) (sVec us))
        t.size t2.size (2 ^ p.ipp.L.length) wt) := by
  have hN : nextPow2 t2.size = 2 ^ p.ipp.L.length := by
    refine (nextPow2_iff _ _).2 ⟨h.size, fun hz => h.sizeMin ?_⟩
    intro hnil; rw [hnil] at hz; exact hz rfl
  have hT := (validateT_iff (opDegree t2.vecComms.length) p.T
    (List.range (2 * (opDegree t2.vecComms.length + 1) + 1)) (tailT p t2 ++ [.chal "y", .chal "z"]) _).2
    ⟨h.T, rfl⟩
  have hus : us.length = p.ipp.L.length := by
    rw [ippChallenges_length _ _ _ _ _ hc]; simp [hR]
  have hs := verificationScalars_ok o p.ipp p.ipp.L.length _ t' us h.rounds rfl hus hc
  have e1 : (t2.transcript ++ [Msg.point "A_I2" p.AI2, .point "A_O2" p.AO2, .point "S2" p.S2]) ++
      [.chal "y"] ++ [.chal "z"] = tailT p t2 ++ [.chal "y", .chal "z"] := by simp [tailT]
  have e0 : (t2.transcript ++ [Msg.point "A_I2" p.AI2, .point "A_O2" p.AO2, .point "S2" p.S2]) =
    tailT p t2 := rfl
  have e2 : (absorbedT p t2) ++ [Msg.chal "u"] ++ [.chal "x"] ++
      [.scalar "t_x" p.tx, .scalar "t_x_blinding" p.txBl, .scalar "e_blinding" p.eBl] ++ [.chal "w"] =
      absorbedW p t2 := by simp [absorbedW]
  have hw : t2.flattened (o (tailT p t2 ++ [.chal "y", .chal "z"])) = some wt := h.weights
  unfold verifyTail
  simp only [challengeScalar]
  rw [e1, hT]
  simp only
  rw [hw]
  simp only
  change (match verificationScalars o p.ipp (nextPow2 t2.size) ((absorbedT p t2) ++ [Msg.chal "u"] ++ [.chal "x"] ++
      [.scalar "t_x" p.tx, .scalar "t_x_blinding" p.txBl, .scalar "e_blinding" p.eBl] ++ [.chal "w"]) with
      | .error e => _ | .ok ((usq, uisq, sv), _) => _) = _
  rw [e2, hN, hs, e0]
  simp only
  refine (if_neg h.y).trans ?_
  simp [tailChals, absorbedT, absorbedA, tailT, tailW, tDegrees]

omit [Module F G] [DecidableEq F] in
/-- If the tuple is computed, the proof has the right shape up to the capacity of the generators. -/
theorem shape_of_cases {o : Oracle F G X} {g : Gens G} {p : R1CSProof F G} {t t2 : VState F G X}
    {wt : Weights F} {tr : Transcript F G X} (h1 : p.AI1 ≠ 0) (h2 : p.AO1 ≠ 0) (h3 : p.S1 ≠ 0)
    (h4 : t.secondPhase o p.AI1 p.AO1 p.S1 = .ok t2)
    (hT : validateT (opDegree t2.vecComms.length) p.T (List.range (2 * (opDegree t2.vecComms.length + 1) + 1))
        (tailT p t2 ++ [.chal "y", .chal "z"]) = .ok tr)
    (hw : t2.flattened (o (tailT p t2 ++ [.chal "y", .chal "z"])) = some wt)
    (hN : nextPow2 t2.size = 2 ^ p.ipp.L.length) (h32 : p.ipp.L.length < 32)
    (hy : o (tailT p t2 ++ [.chal "y"]) ≠ 0) (hcap : 2 ^ p.ipp.L.length ≤ g.capacity) :
    PaperShape o g p t t2 wt ∧ tr = absorbedT p t2 := by
  obtain ⟨hT1, rfl⟩ := (validateT_iff _ _ _ _ _).1 hT
  obtain ⟨hN1, hN2⟩ := (nextPow2_iff _ _).1 hN
  exact ⟨⟨h1, h2, h3, h4, hT1, hy, hw, hN1, fun h => hN2 (by simpa using h), h32, hcap⟩, rfl⟩

/-- The result of `verify`, for every value of the Verifier's random scalar. -/
theorem verify_cases (o : Oracle F G X) (g : Gens G) (p : R1CSProof F G) (t : VState F G X)
    (hLR : p.ipp.L.length = p.ipp.R.length)
    (hG : g.capacity ≤ g.Gs.length) (hH : g.capacity ≤ g.Hs.length) :
    (¬ PaperAccepts o g p t ∧ ∃ e, ∀ r, verify o g r p t = .error e) ∨
    ∃ (P Q : G), (∀ r, verify o g r p t = if P + r • Q = 0 then .ok () else .error .verificationError) ∧
      (PaperAccepts o g p t ↔ P = 0 ∧ Q = 0) := by
  have hv : ∀ r, verify o g r p t = match verifyHead o p t with
      | .error e => .error e
      | .ok (n1, s') => match verifyTail o r p n1 s' with
        | .error e => .error e
        | .ok v => checkTuple g v := by
    intro r
    unfold verify
    rw [verificationTuple_eq]
    cases verifyHead o p t <;> rfl
  rw [verifyHead_eq] at hv
  by_cases h0 : p.AI1 = 0 ∨ p.AO1 = 0 ∨ p.S1 = 0
  · refine .inl ⟨?_, .verificationError, fun r => by rw [hv r, if_pos h0]⟩
    rintro ⟨t2, wt, h, -⟩
    rcases h0 with h0 | h0 | h0
    · exact h.AI1 h0
    · exact h.AO1 h0
    · exact h.S1 h0
  rw [if_neg h0] at hv
  push Not at h0
  cases h2 : t.secondPhase o p.AI1 p.AO1 p.S1 with
  | error e =>
    refine .inl ⟨?_, e, fun r => by rw [hv r, h2]⟩
    rintro ⟨t2, wt, h, -⟩
    have := h.second
    rw [h2] at this
    simp at this
  | ok t2 =>
    rw [h2] at hv
    simp only at hv
    rw [VState.pad_size] at hv
    have hmono := createRandomized_mono h2
    have hn1 : t.size ≤ t2.size := by
      rw [← VState.pad_size]; exact VState.size_mono hmono.1 hmono.2.1
    have hz : (p.ipp.L.zip p.ipp.R).length = p.ipp.L.length := by simp [hLR]
    rcases verifyTail_cases o p t.size t2 hLR with ⟨e, he⟩ | ⟨tr, wt, us, t', hT, hw, hus, hN, h32, hy, hc, hok⟩
    · refine .inl ⟨?_, e, fun r => by rw [hv r, he r]⟩
      rintro ⟨t2', wt, hsh, -, hrr⟩
      obtain rfl : t2 = t2' := by simpa [h2] using hsh.second
      rw [roundByRound_iff o _ _ _ _ _ _ _ _ (by simp [Check.ippG, hz, paperCheck])
        (by simp [Check.ippH, hz, paperCheck])] at hrr
      obtain ⟨us, t', hc, -⟩ := hrr
      have := hsh.tail hLR.le hc 0
      rw [he 0] at this
      simp at this
    · have hwt := (flattenLoop_apply (Weights.zero_shape _ _ _) hw ⟨0, 0, 0, 0, 0⟩).1
      have hsz : t2.size ≤ 2 ^ p.ipp.L.length := ((nextPow2_iff _ _).1 hN).1
      have htr : tr = absorbedT p t2 := ((validateT_iff _ _ _ _ _).1 hT).2
      subst htr
      have hchk : ∀ r, verify o g r p t = if g.capacity < 2 ^ p.ipp.L.length then .error .invalidGeneratorsLength
          else if ippDefect (paperCheck o p t t2 wt) g p (us.map fun u => u * u)
                (us.map fun u => u⁻¹ * u⁻¹) (sVec us) +
            r • (paperCheck o p t t2 wt).polyDefect g p.T p.tx p.txBl = 0 then .ok ()
          else .error .verificationError := by
        intro r
        rw [hv r, hok r]
        simp only
        rw [hN, checkTuple_eq g p t2 _ t.size t2.size (2 ^ p.ipp.L.length) wt hwt hn1 hsz
          (le_trans t2.numVars_le_size hsz) (by simp only [tailChals]; rw [sVec_length, hus])
          (by simp [tailChals, hus]) (by simp [tailChals, hus, hLR]) hG hH]
        rfl
      by_cases hcap : g.capacity < 2 ^ p.ipp.L.length
      · refine .inl ⟨?_, .invalidGeneratorsLength, fun r => by rw [hchk r, if_pos hcap]⟩
        rintro ⟨t2', wt', hsh, -⟩
        have := hsh.capacity
        omega
      · refine .inr ⟨_, _, fun r => by rw [hchk r, if_neg hcap], ?_⟩
        rw [hN] at hc
        rw [← ippDefect_iff o g p _ (absorbedW p t2 ++ [.sep "ipp v1", .num "n" (2 ^ p.ipp.L.length)]) hLR rfl us t' hc]
        constructor
        · rintro ⟨t2', wt', hsh, hp, hrr⟩
          obtain rfl : t2 = t2' := by simpa [h2] using hsh.second
          obtain rfl : wt = wt' := by
            have : some wt = some wt' := hw.symm.trans hsh.weights
            simpa using this
          exact ⟨hrr, hp⟩
        · rintro ⟨hrr, hp⟩
          exact ⟨t2, wt, (shape_of_cases h0.1 h0.2.1 h0.2.2 h2 hT hw hN h32 hy (by omega)).1, hp, hrr⟩

end CT
