import Verif.Spec.InCircuit
import Verif.Proofs.ExtraPoints

/-! When `prove` and `verify` stop, and with which error. -/

namespace CT
open Finset

section
variable {F : Type} [Field F]

theorem VState.flattened_isSome {G X : Type} [AddCommGroup G] (t : VState F G X) (z : F) :
    (t.flattened z).isSome ↔ t.InCircuit := by
  unfold VState.flattened
  rw [flattenLoop_isSome _ _ _ _ (Weights.zero_shape _ _ _)]
  rfl

theorem PState.flattened_isSome {G X : Type} [AddCommGroup G] (s : PState F G X) (z : F) :
    (s.flattened z).isSome ↔ s.InCircuit := by
  unfold PState.flattened
  rw [flattenLoop_isSome _ _ _ _ (Weights.zero_shape _ _ _)]
  rfl

end

section
variable {F G X : Type}

theorem appendT_total (op d : Nat) (Ts : List G) (t : Transcript F G X) (h : d + Ts.length ≤ tLabelCount) :
    ∃ t', appendT op d Ts t = .ok t' := by
  induction Ts generalizing d t with
  | nil => exact ⟨t, rfl⟩
  | cons T Ts ih =>
    simp only [List.length_cons] at h
    unfold appendT
    by_cases hd : d = op
    · rw [if_pos hd]; exact ih _ _ (by omega)
    · rw [if_neg hd]
      simp only [tLabel, if_pos (show d < tLabelCount by omega)]
      exact ih _ _ (by omega)

theorem appendT_err (op d : Nat) (Ts : List G) (t : Transcript F G X) (h : ∃ e, d ≤ e ∧ e < d + Ts.length ∧
    e ≠ op ∧ tLabelCount ≤ e) : ∃ m, appendT op d Ts t = .error (.panic m) := by
  induction Ts generalizing d t with
  | nil => obtain ⟨e, h1, h2, -⟩ := h; simp at h2; omega
  | cons T Ts ih =>
    obtain ⟨e, h1, h2, h3, h4⟩ := h
    simp only [List.length_cons] at h2
    unfold appendT
    by_cases hd : d = op
    · rw [if_pos hd]; exact ih _ _ ⟨e, by omega, by omega, h3, h4⟩
    · rw [if_neg hd]
      by_cases hl : d < tLabelCount
      · simp only [tLabel, if_pos hl]
        exact ih _ _ ⟨e, by omega, by omega, h3, h4⟩
      · simp only [tLabel, if_neg hl]
        exact ⟨_, rfl⟩

end

section
variable {F G X : Type} [Field F] [AddCommGroup G] [Module F G] [DecidableEq F]

theorem ippLoop_noU (o : Oracle F G X) (Q : G) (k : Nat) (s : IPPState F G X)
    (h : ippLoop o Q k s = .error (.panic "u challenge is zero")) : ∃ tr, o (tr ++ [.chal "u"]) = 0 := by
  induction k generalizing s with
  | zero =>
    unfold ippLoop at h
    split at h <;> simp at h
  | succ k ih =>
    unfold ippLoop at h
    simp only [ippRound, challengeScalar] at h
    split at h
    · rename_i e he
      by_contra hu
      push Not at hu
      exact absurd ((if_neg (hu _)).symm.trans he) (by simp)
    · split at h
      · rename_i e he
        simp only [Except.error.injEq] at h
        subst h
        exact ih _ he
      · simp at h

theorem ippCreate_noU (o : Oracle F G X) (Q : G) (Gf Hf : List F) (Gs Hs : List G)
    (a b : List F) (t : Transcript F G X)
    (h : ippCreate o Q Gf Hf Gs Hs a b t = .error (.panic "u challenge is zero")) :
    ∃ tr, o (tr ++ [.chal "u"]) = 0 := by
  unfold ippCreate at h
  simp only at h
  split at h
  · simp at h
  split at h
  · simp at h
  split at h
  · exact ippLoop_noU o Q _ _ h
  · simp only [ippFirstRound, challengeScalar] at h
    split at h
    · rename_i e he
      by_contra hu
      push Not at hu
      exact absurd ((if_neg (hu _)).symm.trans he) (by simp)
    · split at h
      · rename_i e he
        simp only [Except.error.injEq] at h
        subst h
        exact ippLoop_noU o Q _ _ he
      · simp at h

/-- What `proveTail` can return. -/
theorem proveTail_cases (o : Oracle F G X) (g : Gens G) (rnd : PRand F) (n1 : Nat) (c1 : Com G) (s : PState F G X)
    (hn1 : n1 ≤ s.size)
    (hcG : g.capacity ≤ g.Gs.length) (hcH : g.capacity ≤ g.Hs.length) :
    if g.capacity < nextPow2 s.size then proveTail o g rnd n1 c1 s = .error .invalidGeneratorsLength
    else if n1 < s.size ∧ s.vecOpen ≠ [] then ∃ m, proveTail o g rnd n1 c1 s = .error (.panic m)
    else ∃ tr, 
      (s.InCircuit → o (tr ++ [.chal "y"]) ≠ 0 → s.vecOpen.length ≤ 17 →
        (∃ r, proveTail o g rnd n1 c1 s = .ok r) ∨
          (proveTail o g rnd n1 c1 s = .error (.panic "u challenge is zero") ∧
            ∃ tr', o (tr' ++ [.chal "u"]) = 0)) ∧
      (¬ s.InCircuit → ∃ m, proveTail o g rnd n1 c1 s = .error (.panic m)) ∧
      (18 ≤ s.vecOpen.length → ∃ m, proveTail o g rnd n1 c1 s = .error (.panic m)) ∧
      (o (tr ++ [.chal "y"]) = 0 → ∃ m, proveTail o g rnd n1 c1 s = .error (.panic m)) := by
  obtain ⟨k, hNk, hnN, -⟩ := nextPow2_eq s.size
  by_cases hcap : g.capacity < nextPow2 s.size
  · rw [if_pos hcap]
    unfold proveTail
    simp only [if_pos hcap]
  rw [if_neg hcap]
  by_cases hph : n1 < s.size ∧ s.vecOpen ≠ []
  · rw [if_pos hph]
    unfold proveTail
    simp only [if_neg hcap]
    exact ⟨_, if_pos ⟨by omega, hph.2⟩⟩
  rw [if_neg hph]
  set c2 := commit2 g rnd s n1 s.size with hc2
  set T0 : Transcript F G X := s.transcript ++ [.point "A_I2" c2.AI, .point "A_O2" c2.AO, .point "S2" c2.S]
    with hT0
  refine ⟨T0, ?_⟩
  unfold proveTail
  simp only [challengeScalar]
  rw [if_neg hcap, if_neg (show ¬ (s.size - n1 > 0 ∧ s.vecOpen ≠ []) from fun h => hph ⟨by omega, h.2⟩)]
  rw [← hc2, ← hT0, hNk]
  have hfi := s.flattened_isSome (o (T0 ++ [.chal "y"] ++ [.chal "z"]))
  cases hflat : s.flattened (o (T0 ++ [.chal "y"] ++ [.chal "z"])) with
  | none =>
    rw [hflat] at hfi
    simp only [Option.isSome_none, Bool.false_eq_true, false_iff] at hfi
    exact ⟨fun h => absurd h hfi, fun _ => ⟨_, rfl⟩, fun _ => ⟨_, rfl⟩, fun _ => ⟨_, rfl⟩⟩
  | some wt =>
    rw [hflat] at hfi
    simp only [Option.isSome_some, true_iff] at hfi
    simp only
    by_cases hy : o (T0 ++ [.chal "y"]) = 0
    · exact ⟨fun _ h => absurd hy h, fun h => absurd hfi h, fun _ => ⟨_, if_pos hy⟩, fun _ => ⟨_, if_pos hy⟩⟩
    set P := proveTail o g rnd n1 c1 s with hP
    refine ⟨fun _ _ h17 => ?_, fun h => absurd hfi h, fun h18 => ?_, fun h => absurd h hy⟩
    · set op := opDegree s.vecOpen.length with hop
      have hopb : 2 * (op + 1) + 1 ≤ tLabelCount := by
        simp only [hop, opDegree, tLabelCount]; omega
      have hgoal : ∀ {α : Type} (a b : Except Err α) (Q : Except Err α → Prop), Q b →
          Q (@ite _ (o (T0 ++ [Msg.chal "y"]) = 0) (inferInstance) a b) := by
        intro α a b Q h
        rw [if_neg hy]; exact h
      refine hgoal _ _ (fun r => (∃ v, r = .ok v) ∨ (r = .error (.panic "u challenge is zero") ∧
        ∃ tr', o (tr' ++ [.chal "u"]) = 0)) ?_
      set y := o (T0 ++ [.chal "y"])
      set sL := (List.range n1).map rnd.sL1 ++ (List.range (s.size - n1)).map rnd.sL2 with hsL
      set sR := (List.range n1).map rnd.sR1 ++ (List.range (s.size - n1)).map rnd.sR2 with hsR
      set lp := lPoly s wt (expIter y⁻¹ (2 ^ k)) s.size op (opSplits op) sL with hlp
      set rp := rPoly s wt (expIter y (2 ^ k)) s.size op (opSplits op) sR with hrp
      set tp := VecPoly.innerProduct lp rp with htp
      set T := (List.range (2 * (op + 1) + 1)).map fun d =>
          if d = op then 0 else g.pc.commit (tp.getD d 0) (rnd.tau d) with hTdef
      obtain ⟨t1, happ⟩ := appendT_total op 0 T (T0 ++ [.chal "y"] ++ [.chal "z"]) (by simp [hTdef]; omega)
      rw [happ]
      simp only
      have hsh := (flattenLoop_apply (Weights.zero_shape _ _ _) hflat ⟨0, 0, 0, 0, 0⟩).1
      have hsLl : sL.length = s.size := by simp [hsL]; omega
      have hvc : ∀ v ∈ s.vecOpen, v.2.length ≤ s.size := s.dim_le_size
      have hwvc : ∀ v ∈ wt.wVC, v.length ≤ s.size := by
        intro v hv
        have : v.length ∈ wt.wVC.map List.length := List.mem_map_of_mem hv
        rw [hsh.wVC] at this
        obtain ⟨c, hc, e⟩ := List.mem_map.1 this
        rw [← e]; exact hvc c hc
      have hwvl : s.vecOpen.length = wt.wVC.length := by
        have := congrArg List.length hsh.wVC
        simpa using this.symm
      have hlrep := lPoly_rep s wt (expIter y⁻¹ (2 ^ k)) s.size sL hsLl.le hvc
      have hrrep := rPoly_rep s wt (expIter y (2 ^ k)) s.size sR hwvc hwvl
      dsimp only at hlrep hrrep
      rw [← hop, ← hlp] at hlrep
      rw [← hop, ← hrp] at hrrep
      set u := o (t1 ++ [.chal "u"])
      set x := o (t1 ++ [.chal "u"] ++ [.chal "x"])
      have hyl : (expIter y⁻¹ (2 ^ k)).length = 2 ^ k := expIterFrom_length _ _ _
      have := ippCreate_total o (o (t1 ++ [.chal "u"] ++ [.chal "x"] ++
            [.scalar "t_x" (polyEval tp x), .scalar "t_x_blinding"
              (polyEval ((List.range (2 * (op + 1) + 1)).map fun d =>
                if d = op then innerProduct wt.wV s.vBlinding else rnd.tau d) x),
              .scalar "e_blinding" (eEval x (eTerms op (opSplits op)
                (rnd.i1 + u * if s.size - n1 > 0 then rnd.i2 else 0)
                (rnd.o1 + u * if s.size - n1 > 0 then rnd.o2 else 0)
                (rnd.s1 + u * if s.size - n1 > 0 then rnd.s2 else 0) (s.vecOpen.map (·.1))) 1)] ++
              [.chal "w"]) • g.pc.B) k
        (List.replicate n1 1 ++ List.replicate (s.size - n1 + (2 ^ k - s.size)) u)
        (List.zipWith (· * ·) (expIter y⁻¹ (2 ^ k))
          (List.replicate n1 1 ++ List.replicate (s.size - n1 + (2 ^ k - s.size)) u))
        (g.Gs.take (2 ^ k)) (g.Hs.take (2 ^ k)) (lp.eval x ++ List.replicate (2 ^ k - s.size) 0)
        (rp.eval x ++ ((List.range (2 ^ k - s.size)).map fun i => - (expIter y (2 ^ k)).getD (s.size + i) 0))
        (t1 ++ [.chal "u"] ++ [.chal "x"] ++
            [.scalar "t_x" (polyEval tp x), .scalar "t_x_blinding"
              (polyEval ((List.range (2 * (op + 1) + 1)).map fun d =>
                if d = op then innerProduct wt.wV s.vBlinding else rnd.tau d) x),
              .scalar "e_blinding" (eEval x (eTerms op (opSplits op)
                (rnd.i1 + u * if s.size - n1 > 0 then rnd.i2 else 0)
                (rnd.o1 + u * if s.size - n1 > 0 then rnd.o2 else 0)
                (rnd.s1 + u * if s.size - n1 > 0 then rnd.s2 else 0) (s.vecOpen.map (·.1))) 1)] ++
              [.chal "w"])
        (by simp; omega) (by simp; omega)
        (by rw [List.length_append, (Rep_evalF hlrep (by omega) x).1, List.length_replicate]; omega)
        (by rw [List.length_append, (Rep_evalF hrrep (by omega) x).1]; simp; omega)
        (by simp; omega) (by simp [hyl]; omega)
      rcases this with ⟨⟨ipp, t2⟩, hr⟩ | hr
      · rw [hr]; exact .inl ⟨_, rfl⟩
      · have := ippCreate_noU _ _ _ _ _ _ _ _ _ hr
        rw [hr]; exact .inr ⟨rfl, this⟩
    · have : ∀ {α : Type} (a b : Except Err α) (Q : Except Err α → Prop), Q b →
          Q (@ite _ (o (T0 ++ [Msg.chal "y"]) = 0) (inferInstance) a b) := by
        intro α a b Q h
        rw [if_neg hy]; exact h
      refine this _ _ (fun r => ∃ m, r = .error (.panic m)) ?_
      set op := opDegree s.vecOpen.length with hop
      have hopb : 20 ≤ op := by simp only [hop, opDegree]; omega
      obtain ⟨m, hm⟩ := appendT_err op 0 (t := T0 ++ [Msg.chal "y"] ++ [Msg.chal "z"])
        (Ts := (List.range (2 * (op + 1) + 1)).map fun d =>
          if d = op then 0 else g.pc.commit ((VecPoly.innerProduct
            (lPoly s wt (expIter (o (T0 ++ [Msg.chal "y"]))⁻¹ (2 ^ k)) s.size op (opSplits op)
              ((List.range n1).map rnd.sL1 ++ (List.range (s.size - n1)).map rnd.sL2))
            (rPoly s wt (expIter (o (T0 ++ [Msg.chal "y"])) (2 ^ k)) s.size op (opSplits op)
              ((List.range n1).map rnd.sR1 ++ (List.range (s.size - n1)).map rnd.sR2))).getD d 0) (rnd.tau d))
        (h := ⟨2 * (op + 1), by omega, by simp, by omega, by simp only [tLabelCount]; omega⟩)
      rw [hm]
      exact ⟨m, rfl⟩

end

section
variable {F G X : Type} [Field F]

theorem runCallbacksP_inv (o : Oracle F G X) {ps : List (Prog F G X Unit)} {s s2 : PState F G X} (hi : s.Inv)
    (h : runCallbacksP o ps s = .ok s2) : s2.Inv ∧ s.Ext s2 := by
  induction ps generalizing s with
  | nil => simp only [runCallbacksP, Except.ok.injEq] at h; subst h; exact ⟨hi, .refl _⟩
  | cons p ps ih =>
    simp only [runCallbacksP] at h
    cases hp : runP o p s with
    | error e => rw [hp] at h; simp at h
    | ok r =>
      obtain ⟨a, s1⟩ := r
      rw [hp] at h
      obtain ⟨h1, h2⟩ := runP_inv o hi hp
      obtain ⟨h3, h4⟩ := ih h1 h
      exact ⟨h3, h2.trans h4⟩

theorem secondPhase_facts (o : Oracle F G X) {s s2 : PState F G X} {c : Com G} (hi : s.Inv)
    (h : s.secondPhase o c = .ok s2) :
    s2.Inv ∧ s.size ≤ s2.size ∧ s2.aL.length = s2.size ∧ s2.vecOpen = s.vecOpen ∧ s2.v = s.v := by
  have hpi := PState.pad_inv hi
  have hpv : s.pad.v = s.v := by rw [PState.pad_eq]
  have hpo : s.pad.vecOpen = s.vecOpen := by rw [PState.pad_eq]
  have key : s2.Inv ∧ s.pad.aL.length ≤ s2.aL.length ∧ s2.vecOpen = s.pad.vecOpen ∧ s2.v = s.pad.v := by
    unfold PState.secondPhase PState.createRandomized at h
    simp only at h
    by_cases hd : s.pad.deferred = []
    · rw [if_pos hd] at h
      simp only [Except.ok.injEq] at h
      subst h
      exact ⟨⟨hpi.lenR, hpi.lenO, hpi.gates, by simp⟩, le_rfl, rfl, rfl⟩
    · rw [if_neg hd] at h
      obtain ⟨h1, h2⟩ := runCallbacksP_inv o (s := { s.pad with
        transcript := s.pad.transcript ++ [.num "m" s.v.length, .point "A_I1" c.AI, .point "A_O1" c.AO,
          .point "S1" c.S] ++ [.sep "r1cs-2phase"], pending := none, deferred := [] })
        ⟨hpi.lenR, hpi.lenO, hpi.gates, by simp⟩ h
      exact ⟨h1, h2.len, h2.vecOpen, h2.v⟩
  obtain ⟨h1, h2, h3, h4⟩ := key
  rw [s.pad_length] at h2
  have h5 : s2.size = s2.aL.length := s2.size_of_ge (by
    intro v hv; rw [h3, hpo] at hv; exact le_trans (s.dim_le_size v hv) h2)
  exact ⟨h1, by omega, h5.symm, h3.trans hpo, h4.trans hpv⟩

end

section
variable {F G X : Type} [Field F] [DecidableEq F] [AddCommGroup G] [DecidableEq G]

omit [Field F] [DecidableEq F] in
theorem validateT_noPanic (op : Nat) (T : List G) (ds : List Nat) (t : Transcript F G X)
    (h : ∀ d ∈ ds, d ≠ op → d < tLabelCount ∧ d < T.length) : ¬ isPanic (validateT op T ds t) := by
  induction ds generalizing t with
  | nil => simp [validateT, isPanic]
  | cons d ds ih =>
    have h' : ∀ d ∈ ds, d ≠ op → d < tLabelCount ∧ d < T.length := fun d hd => h d (List.mem_cons_of_mem _ hd)
    rw [validateT]
    by_cases hd : d = op
    · rw [if_pos hd]; exact ih _ h'
    · rw [if_neg hd]
      obtain ⟨h1, h2⟩ := h d (by simp) hd
      have e : T[d]? = some (T[d]) := by simp [h2]
      rw [e]
      simp only [tLabel, if_pos h1, validateAndAppendPoint]
      by_cases hz : T[d] = 0
      · rw [if_pos hz]; simp [isPanic]
      · rw [if_neg hz]; exact ih _ h'

omit [Field F] [DecidableEq F] in
theorem validateT_panics (op : Nat) (T : List G) (ds : List Nat) (t : Transcript F G X)
    (hne : ∀ P ∈ T, P ≠ 0) (h : ∃ d ∈ ds, d ≠ op ∧ ¬ (d < tLabelCount ∧ d < T.length)) :
    isPanic (validateT op T ds t) := by
  induction ds generalizing t with
  | nil => simp at h
  | cons d ds ih =>
    rw [validateT]
    obtain ⟨e, he, heo, hb⟩ := h
    by_cases hd : d = op
    · rw [if_pos hd]
      refine ih _ ⟨e, ?_, heo, hb⟩
      rcases List.mem_cons.1 he with rfl | he
      · exact absurd hd heo
      · exact he
    · rw [if_neg hd]
      by_cases hgood : d < tLabelCount ∧ d < T.length
      · have ee : T[d]? = some (T[d]'hgood.2) := by simp [hgood.2]
        rw [ee]
        simp only [tLabel, if_pos hgood.1, validateAndAppendPoint]
        rw [if_neg (hne _ (List.getElem_mem _))]
        refine ih _ ⟨e, ?_, heo, hb⟩
        rcases List.mem_cons.1 he with rfl | he
        · exact absurd hgood hb
        · exact he
      · by_cases h1 : d < tLabelCount
        · have : T[d]? = none := by simp; omega
          rw [this]
          simp [tLabel, h1, isPanic]
        · simp [tLabel, h1, isPanic]

omit [Field F] [DecidableEq F] in
theorem ippChallenges_noPanic (o : Oracle F G X) (LR : List (G × G)) (t : Transcript F G X) :
    ¬ isPanic (ippChallenges o LR t) := by
  induction LR generalizing t with
  | nil => simp [ippChallenges, isPanic]
  | cons q LR ih =>
    obtain ⟨L, R⟩ := q
    simp only [ippChallenges, validateAndAppendPoint, challengeScalar, bind, Except.bind]
    by_cases hL : L = 0
    · simp [hL, isPanic]
    by_cases hR : R = 0
    · simp [hL, hR, isPanic]
    simp only [if_neg hL, if_neg hR]
    have := ih (t ++ [.point "L" L] ++ [.point "R" R] ++ [.chal "u"])
    cases hc : ippChallenges o LR (t ++ [.point "L" L] ++ [.point "R" R] ++ [.chal "u"]) with
    | error e => rw [hc] at this; cases e <;> simp_all [isPanic]
    | ok r => simp [isPanic, pure, Except.pure]

omit [DecidableEq F] in
theorem verificationScalars_noPanic (o : Oracle F G X) (p : IPP F G) (n : Nat) (t : Transcript F G X)
    (h : p.L.length ≤ p.R.length) : ¬ isPanic (verificationScalars o p n t) := by
  unfold verificationScalars
  simp only
  by_cases h1 : p.L.length ≥ 32
  · rw [if_pos h1]; simp [isPanic]
  rw [if_neg h1]
  by_cases h2 : n ≠ 2 ^ p.L.length
  · rw [if_pos h2]; simp [isPanic]
  rw [if_neg h2]
  have := ippChallenges_noPanic o (p.L.zip p.R) (t ++ [.sep "ipp v1", .num "n" n])
  simp only [bind, Except.bind]
  cases hc : ippChallenges o (p.L.zip p.R) (t ++ [.sep "ipp v1", .num "n" n]) with
  | error e => rw [hc] at this; cases e <;> simp_all [isPanic]
  | ok r =>
    obtain ⟨us, t'⟩ := r
    have hl := ippChallenges_length _ _ _ _ _ hc
    simp only [List.length_zip] at hl
    simp only
    rw [if_neg (by omega)]
    simp [isPanic, pure, Except.pure]

omit [DecidableEq F] in
theorem verificationScalars_panics (o : Oracle F G X) (p : IPP F G) (n : Nat) (t : Transcript F G X)
    (h : p.R.length < p.L.length) (h32 : p.L.length < 32) (hn : n = 2 ^ p.L.length)
    (hL : ∀ P ∈ p.L, P ≠ 0) (hR : ∀ P ∈ p.R, P ≠ 0) : isPanic (verificationScalars o p n t) := by
  have key : ∀ (LR : List (G × G)) (t : Transcript F G X), (∀ q ∈ LR, q.1 ≠ 0 ∧ q.2 ≠ 0) →
      ∃ us t', ippChallenges o LR t = .ok (us, t') := by
    intro LR
    induction LR with
    | nil => exact fun t _ => ⟨[], t, rfl⟩
    | cons q LR ih =>
      intro t hq
      obtain ⟨L, R⟩ := q
      obtain ⟨h1, h2⟩ := hq (L, R) (by simp)
      obtain ⟨us, t', e⟩ := ih (t ++ [.point "L" L] ++ [.point "R" R] ++ [.chal "u"])
        (fun q hq' => hq q (List.mem_cons_of_mem _ hq'))
      refine ⟨o (t ++ [.point "L" L] ++ [.point "R" R] ++ [.chal "u"]) :: us, t', ?_⟩
      simp only at h1 h2
      simp only [ippChallenges, validateAndAppendPoint, challengeScalar, bind, Except.bind, if_neg h1, if_neg h2, e]
      rfl
  unfold verificationScalars
  simp only
  rw [if_neg (by omega), if_neg (by simpa using hn)]
  obtain ⟨us, t', e⟩ := key (p.L.zip p.R) (t ++ [.sep "ipp v1", .num "n" n]) (by
    intro q hq
    exact ⟨hL _ (List.of_mem_zip (a := q.1) (b := q.2) hq).1, hR _ (List.of_mem_zip (a := q.1) (b := q.2) hq).2⟩)
  have hl := ippChallenges_length _ _ _ _ _ e
  simp only [List.length_zip] at hl
  simp only [bind, Except.bind, e]
  rw [if_pos (by omega)]
  simp [isPanic]

end

section
variable {F G X : Type} [Field F] [DecidableEq F] [AddCommGroup G] [Module F G] [DecidableEq G]

/-- The number of fixed scalars, whenever the tuple is computed. -/
theorem tuple_fixed {o : Oracle F G X} {r : F} {p : R1CSProof F G} {t : VState F G X} {tup : Tuple F G}
    (h : verificationTuple o r p t = .ok tup) :
    ∃ t2, t.secondPhase o p.AI1 p.AO1 p.S1 = .ok t2 ∧ tup.fixed.length = 2 + 2 * nextPow2 t2.size := by
  rw [verificationTuple_eq, verifyHead_eq] at h
  by_cases h0 : p.AI1 = 0 ∨ p.AO1 = 0 ∨ p.S1 = 0
  · rw [if_pos h0] at h; simp at h
  rw [if_neg h0] at h
  push Not at h0
  cases h2 : t.secondPhase o p.AI1 p.AO1 p.S1 with
  | error e => rw [h2] at h; simp at h
  | ok t2 =>
    rw [h2] at h
    simp only [VState.pad_size] at h
    cases ht : verifyTail o r p t.size t2 with
    | error e => rw [ht] at h; simp at h
    | ok tup' =>
      rw [ht] at h
      simp only [Except.ok.injEq] at h
      subst h
      have ht0 := ht
      unfold verifyTail at ht
      simp only [challengeScalar] at ht
      have e1 : (t2.transcript ++ [Msg.point "A_I2" p.AI2, .point "A_O2" p.AO2, .point "S2" p.S2]) ++
          [.chal "y"] ++ [.chal "z"] = tailT p t2 ++ [.chal "y", .chal "z"] := by simp [tailT]
      rw [e1] at ht
      cases hT : validateT (opDegree t2.vecComms.length) p.T
          (List.range (2 * (opDegree t2.vecComms.length + 1) + 1)) (tailT p t2 ++ [.chal "y", .chal "z"]) with
      | error e => rw [hT] at ht; simp at ht
      | ok tr =>
        rw [hT] at ht
        simp only at ht
        cases hw : t2.flattened (o (tailT p t2 ++ [.chal "y", .chal "z"])) with
        | none => rw [hw] at ht; simp at ht
        | some wt =>
          rw [hw] at ht
          simp only at ht
          have htr : tr = absorbedT p t2 := ((validateT_iff _ _ _ _ _).1 hT).2
          have e2 : tr ++ [Msg.chal "u"] ++ [.chal "x"] ++
              [.scalar "t_x" p.tx, .scalar "t_x_blinding" p.txBl, .scalar "e_blinding" p.eBl] ++ [.chal "w"] =
              absorbedW p t2 := by rw [htr]; simp [absorbedW]
          rw [e2] at ht
          cases hs : verificationScalars o p.ipp (nextPow2 t2.size) (absorbedW p t2) with
          | error e => rw [hs] at ht; simp at ht
          | ok v =>
            rw [hs] at ht
            obtain ⟨⟨usq, uisq, sv⟩, tt⟩ := v
            simp only at ht
            by_cases hy : o (t2.transcript ++ [Msg.point "A_I2" p.AI2, .point "A_O2" p.AO2, .point "S2" p.S2] ++
              [.chal "y"]) = 0
            · exact absurd ((if_pos hy).symm.trans ht) (by simp)
            obtain ⟨h32, hN, hLR, us, t', hc⟩ := verificationScalars_inv hs
            have hsz := (nextPow2_iff _ _).1 hN
            have hsh : PaperShape o ⟨⟨0, 0⟩, 2 ^ p.ipp.L.length, [], []⟩ p t t2 wt :=
              (shape_of_cases h0.1 h0.2.1 h0.2.2 h2 hT hw hN h32 hy (le_refl _)).1
            have hus : us.length = p.ipp.L.length := by
              rw [ippChallenges_length _ _ _ _ _ hc]; simp [hLR]
            refine ⟨t2, rfl, ?_⟩
            · 
              rw [hN] at hc
              have := hsh.tail hLR hc r
              rw [this] at ht0
              simp only [Except.ok.injEq] at ht0
              subst ht0
              have hwt := (flattenLoop_apply (Weights.zero_shape _ _ _) hw ⟨0, 0, 0, 0, 0⟩).1
              have hmono := createRandomized_mono h2
              have hn1 : t.size ≤ t2.size := by
                rw [← VState.pad_size]; exact VState.size_mono hmono.1 hmono.2.1
              have hgl := gScalars_length
                (tailChals o r p t2 (absorbedT p t2) (us.map fun u => u * u) (us.map fun u => u⁻¹ * u⁻¹) (sVec us))
                t.size t2.size (2 ^ p.ipp.L.length) t2.numVars (opDegree t2.vecComms.length) wt p.ipp.a hn1
                hsz.1 hwt.wR (le_trans t2.numVars_le_size hsz.1) (by simp only [tailChals]; rw [sVec_length, hus])
              rw [hN]
              simp only [buildTuple, List.length_append, hgl, List.length_cons, List.length_nil, hScalars,
                List.length_map, List.length_range]
              omega

omit [Field F] [DecidableEq F] [Module F G] in
theorem validateT_err {op : Nat} {T : List G} {ds : List Nat} {t : Transcript F G X} {e : Err}
    (h : validateT op T ds t = .error e) : e ≠ .invalidGeneratorsLength := by
  induction ds generalizing t with
  | nil => simp [validateT] at h
  | cons d ds ih =>
    rw [validateT] at h
    by_cases hd : d = op
    · rw [if_pos hd] at h; exact ih h
    · rw [if_neg hd] at h
      split at h
      · split at h
        · rename_i e' he
          unfold validateAndAppendPoint at he
          split at he
          · simp only [Except.error.injEq] at he h; subst he; subst h; simp
          · simp at he
        · exact ih h
      · simp only [Except.error.injEq] at h; subst h; simp

omit [Field F] [DecidableEq F] [Module F G] in
theorem ippChallenges_err {o : Oracle F G X} {LR : List (G × G)} {t : Transcript F G X} {e : Err}
    (h : ippChallenges o LR t = .error e) : e ≠ .invalidGeneratorsLength := by
  induction LR generalizing t with
  | nil => simp [ippChallenges] at h
  | cons q LR ih =>
    obtain ⟨L, R⟩ := q
    simp only [ippChallenges, validateAndAppendPoint, challengeScalar, bind, Except.bind] at h
    by_cases hL : L = 0
    · simp only [if_pos hL, Except.error.injEq] at h; subst h; simp
    by_cases hR : R = 0
    · simp only [if_neg hL, if_pos hR, Except.error.injEq] at h; subst h; simp
    simp only [if_neg hL, if_neg hR] at h
    cases hc : ippChallenges o LR (t ++ [.point "L" L] ++ [.point "R" R] ++ [.chal "u"]) with
    | error e' => rw [hc] at h; simp only [Except.error.injEq] at h; subst h; exact ih hc
    | ok r => rw [hc] at h; simp [pure, Except.pure] at h

omit [DecidableEq F] [Module F G] in
theorem verificationScalars_err {o : Oracle F G X} {p : IPP F G} {n : Nat} {t : Transcript F G X} {e : Err}
    (h : verificationScalars o p n t = .error e) : e ≠ .invalidGeneratorsLength := by
  unfold verificationScalars at h
  simp only at h
  by_cases h1 : p.L.length ≥ 32
  · simp only [if_pos h1, Except.error.injEq] at h; subst h; simp
  by_cases h2 : n ≠ 2 ^ p.L.length
  · simp only [if_neg h1, if_pos h2, Except.error.injEq] at h; subst h; simp
  simp only [if_neg h1, if_neg h2, bind, Except.bind] at h
  cases hc : ippChallenges o (p.L.zip p.R) (t ++ [.sep "ipp v1", .num "n" n]) with
  | error e' => rw [hc] at h; simp only [Except.error.injEq] at h; subst h; exact ippChallenges_err hc
  | ok r =>
    rw [hc] at h
    simp only at h
    split at h
    · simp only [Except.error.injEq] at h; subst h; simp
    · simp [pure, Except.pure] at h

omit [Module F G] in
theorem verifyTail_err {o : Oracle F G X} {r : F} {p : R1CSProof F G} {n1 : Nat} {s : VState F G X} {e : Err}
    (h : verifyTail o r p n1 s = .error e) : e ≠ .invalidGeneratorsLength := by
  unfold verifyTail at h
  simp only [challengeScalar] at h
  split at h
  · rename_i e' he; simp only [Except.error.injEq] at h; subst h; exact validateT_err he
  split at h
  · simp only [Except.error.injEq] at h; subst h; simp
  split at h
  · rename_i e' he; simp only [Except.error.injEq] at h; subst h; exact verificationScalars_err he
  by_cases hy : o (s.transcript ++ [Msg.point "A_I2" p.AI2, .point "A_O2" p.AO2, .point "S2" p.S2] ++
      [.chal "y"]) = 0
  · have h' := (if_pos hy).symm.trans h
    simp only [Except.error.injEq] at h'; subst h'; simp
  · exact absurd ((if_neg hy).symm.trans h) (by simp)

omit [Module F G] in
theorem verifyTail_noPanic (o : Oracle F G X) (r : F) (p : R1CSProof F G) (n1 : Nat) (s : VState F G X)
    (hin : s.InCircuit) (h17 : s.vecComms.length ≤ 17)
    (hT : 2 * (opDegree s.vecComms.length + 1) + 1 ≤ p.T.length)
    (hR : p.ipp.L.length ≤ p.ipp.R.length) (hy : o (absorbedA p s ++ [.chal "y"]) ≠ 0) :
    ¬ isPanic (verifyTail o r p n1 s) := by
  unfold verifyTail
  simp only [challengeScalar]
  have h1 := fun t => validateT_noPanic (F := F) (X := X) (opDegree s.vecComms.length) p.T
    (List.range (2 * (opDegree s.vecComms.length + 1) + 1)) t (by
      intro d hd _
      simp only [List.mem_range] at hd
      refine ⟨?_, by omega⟩
      simp only [opDegree, tLabelCount] at hd ⊢; omega)
  have h2 := fun t => verificationScalars_noPanic o p.ipp (nextPow2 s.size) t hR
  split
  · rename_i e he
    have := h1 (s.transcript ++ [Msg.point "A_I2" p.AI2, .point "A_O2" p.AO2, .point "S2" p.S2] ++ [.chal "y"] ++ [.chal "z"])
    rw [he] at this
    cases e <;> simp_all [isPanic]
  split
  · rename_i hf
    have := (s.flattened_isSome (o (s.transcript ++ [Msg.point "A_I2" p.AI2, .point "A_O2" p.AO2, .point "S2" p.S2] ++
      [.chal "y"] ++ [.chal "z"]))).2 hin
    rw [hf] at this; simp at this
  split
  · rename_i e he
    have key : ∀ t, verificationScalars o p.ipp (nextPow2 s.size) t = .error e → ¬ isPanic (.error e : Except Err (Tuple F G)) := by
      intro t ht
      have := h2 t
      rw [ht] at this
      cases e <;> simp_all [isPanic]
    exact key _ he
  have hgoal : ∀ {α : Type} (a b : Except Err α) (Q : Except Err α → Prop), Q b →
      Q (@ite _ (o (absorbedA p s ++ [.chal "y"]) = 0) (inferInstance) a b) := by
    intro α a b Q h
    rw [if_neg hy]; exact h
  refine hgoal _ _ (fun r => ¬ isPanic r) ?_
  simp [isPanic]

theorem verify_capacity (o : Oracle F G X) (g : Gens G) (r : F) (p : R1CSProof F G) (t t2 : VState F G X)
    (h2 : t.secondPhase o p.AI1 p.AO1 p.S1 = .ok t2)
    (h : verify o g r p t = .error .invalidGeneratorsLength) : g.capacity < nextPow2 t2.size := by
  unfold verify at h
  cases hv : verificationTuple o r p t with
  | error e =>
    rw [hv] at h
    simp only [Except.error.injEq] at h
    subst h
    rw [verificationTuple_eq, verifyHead_eq, h2] at hv
    split at hv
    · rename_i he
      split at he
      · simp only [Except.error.injEq] at he hv; subst he; simp at hv
      · simp at he
    · exact absurd rfl (verifyTail_err hv)
  | ok v =>
    obtain ⟨t2', h2', hl⟩ := tuple_fixed hv
    rw [h2] at h2'
    obtain rfl := Except.ok.inj h2'
    rw [hv] at h
    simp only [checkTuple] at h
    by_contra hc
    rw [if_neg (by omega)] at h
    split at h <;> simp at h

theorem verify_capacity' (o : Oracle F G X) (g g' : Gens G) (r : F) (p : R1CSProof F G) (t t2 : VState F G X)
    (h2 : t.secondPhase o p.AI1 p.AO1 p.S1 = .ok t2) (h : verify o g r p t = .ok ())
    (hc : g'.capacity < nextPow2 t2.size) : verify o g' r p t = .error .invalidGeneratorsLength := by
  unfold verify at h ⊢
  cases hv : verificationTuple o r p t with
  | error e => rw [hv] at h; simp at h
  | ok v =>
    obtain ⟨t2', h2', hl⟩ := tuple_fixed hv
    rw [h2] at h2'
    obtain rfl := Except.ok.inj h2'
    simp only [checkTuple]
    rw [if_pos (by omega)]

end

section
variable {F G X : Type} [Field F] [AddCommGroup G] [Module F G]

omit [AddCommGroup G] in
theorem Gens.Agree.mono {n m : Nat} {g g' : Gens G} (h : g.Agree n g') (hm : m ≤ n) : g.Agree m g' := by
  refine ⟨h.pc, ?_, ?_⟩
  · have := congrArg (List.take m) h.Gs
    simpa [List.take_take, Nat.min_eq_left hm] using this
  · have := congrArg (List.take m) h.Hs
    simpa [List.take_take, Nat.min_eq_left hm] using this

theorem commit1_agree {g g' : Gens G} (rnd : PRand F) (s : PState F G X) (n : Nat) (h : g.Agree n g') :
    commit1 g rnd s n = commit1 g' rnd s n := by
  simp only [commit1, h.pc, h.Gs, h.Hs]

theorem commit2_agree {g g' : Gens G} (rnd : PRand F) (s : PState F G X) (n1 n : Nat) (h : g.Agree n g') :
    commit2 g rnd s n1 n = commit2 g' rnd s n1 n := by
  simp only [commit2, h.pc, h.Gs, h.Hs]

theorem proveTail_agree [DecidableEq F] (o : Oracle F G X) {g g' : Gens G} (rnd : PRand F) (n1 : Nat) (c : Com G)
    (s : PState F G X) (hle : g.capacity ≤ g'.capacity) (ha : g.Agree g.capacity g') {r}
    (h : proveTail o g rnd n1 c s = .ok r) : proveTail o g' rnd n1 c s = .ok r := by
  rw [← h]
  unfold proveTail at h ⊢
  by_cases hc : g.capacity < nextPow2 s.size
  · simp only [if_pos hc] at h; simp at h
  have hN := ha.mono (show nextPow2 s.size ≤ g.capacity by omega)
  have hn := hN.mono (show s.size ≤ nextPow2 s.size by obtain ⟨k, h1, h2, -⟩ := nextPow2_eq s.size; omega)
  simp only [if_neg hc, if_neg (show ¬ g'.capacity < nextPow2 s.size by omega), commit2_agree rnd s n1 _ hn, hN.pc,
    hN.Gs, hN.Hs]

end

end CT
