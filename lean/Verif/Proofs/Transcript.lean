import Verif.Spec.Transcript
import Verif.Proofs.Hiding
import Verif.Proofs.Exact

namespace CT
set_option linter.unusedSectionVars false
variable {F G X : Type} [Field F] [AddCommGroup G] [Module F G] [DecidableEq F] [DecidableEq G]

theorem AgreeUpTo.mono {o o' : Oracle F G X} {a b : Transcript F G X} (h : AgreeUpTo o o' b) (hab : a <+: b) : AgreeUpTo o o' a :=
  fun _ hq => h _ (hq.trans hab)

theorem AgreeUpTo.symm {o o' : Oracle F G X} {a : Transcript F G X} (h : AgreeUpTo o o' a) : AgreeUpTo o' o a :=
  fun _ hq => (h _ hq).symm

theorem multiply_transcript (s : VState F G X) (l r : LC F) : (s.multiply l r).2.transcript = s.transcript := by
  unfold VState.multiply; rfl

theorem allocate_transcript (s : VState F G X) : s.allocate.2.transcript = s.transcript := by
  unfold VState.allocate; split <;> rfl

theorem allocateMultiplier_transcript (s : VState F G X) : s.allocateMultiplier.2.transcript = s.transcript := rfl

theorem runV_prefix {α : Type} (o : Oracle F G X) (q : Prog F G X α) : ∀ (s : VState F G X) (a : α) (s' : VState F G X),
    runV o q s = .ok (a, s') → s.transcript <+: s'.transcript := by
  induction q with
  | pure a => intro s b s' h; simp only [runV, Except.ok.injEq, Prod.mk.injEq] at h; rw [← h.2]
  | fail e => intro s b s' h; simp [runV] at h
  | multiply l r k ih => intro s b s' h; rw [runV] at h; have := ih _ _ _ _ h; rwa [multiply_transcript] at this
  | allocate a k ih => intro s b s' h; rw [runV] at h; have := ih _ _ _ _ h; rwa [allocate_transcript] at this
  | allocateMultiplier a k ih => intro s b s' h; rw [runV] at h; have := ih _ _ _ _ h; rwa [allocateMultiplier_transcript] at this
  | constrain lc k ih => intro s b s' h; rw [runV] at h; exact (ih _ _ _ h :)
  | append m k ih => intro s b s' h; rw [runV] at h; exact List.IsPrefix.trans (by simp) (ih _ _ _ h)
  | challenge l k ih => intro s b s' h; rw [runV] at h; exact List.IsPrefix.trans (by simp) (ih _ _ _ _ h)

theorem runV_local {α : Type} {o o' : Oracle F G X} (q : Prog F G X α) : ∀ (s : VState F G X) (a : α) (s' : VState F G X),
    runV o q s = .ok (a, s') → AgreeUpTo o o' s'.transcript → runV o' q s = .ok (a, s') := by
  induction q with
  | pure a => intro s b s' h _; exact h
  | fail e => intro s b s' h _; simp [runV] at h
  | multiply l r k ih => intro s b s' h ha; rw [runV] at h ⊢; exact ih _ _ _ _ h ha
  | allocate a k ih => intro s b s' h ha; rw [runV] at h ⊢; exact ih _ _ _ _ h ha
  | allocateMultiplier a k ih => intro s b s' h ha; rw [runV] at h ⊢; exact ih _ _ _ _ h ha
  | constrain lc k ih => intro s b s' h ha; rw [runV] at h ⊢; exact ih _ _ _ h ha
  | append m k ih => intro s b s' h ha; rw [runV] at h ⊢; exact ih _ _ _ h ha
  | challenge l k ih =>
    intro s b s' h ha
    rw [runV] at h ⊢
    have hp : s.transcript ++ [.chal l] <+: s'.transcript := (runV_prefix o _ _ _ _ h :)
    have : challengeScalar o' s.transcript l = challengeScalar o s.transcript l := by
      unfold challengeScalar; rw [ha _ hp]
    rw [this]
    exact ih _ _ _ _ h ha

theorem runCallbacksV_prefix (o : Oracle F G X) : ∀ (ps : List (Prog F G X Unit)) (s s' : VState F G X),
    runCallbacksV o ps s = .ok s' → s.transcript <+: s'.transcript := by
  intro ps
  induction ps with
  | nil => intro s s' h; simp only [runCallbacksV, Except.ok.injEq] at h; rw [h]
  | cons p ps ih =>
    intro s s' h
    rw [runCallbacksV] at h
    cases hr : runV o p s with
    | error e => rw [hr] at h; simp at h
    | ok r => rw [hr] at h; exact (runV_prefix o p s r.1 r.2 hr).trans (ih _ _ h)

theorem runCallbacksV_local {o o' : Oracle F G X} : ∀ (ps : List (Prog F G X Unit)) (s s' : VState F G X),
    runCallbacksV o ps s = .ok s' → AgreeUpTo o o' s'.transcript → runCallbacksV o' ps s = .ok s' := by
  intro ps
  induction ps with
  | nil => intro s s' h _; exact h
  | cons p ps ih =>
    intro s s' h ha
    rw [runCallbacksV] at h ⊢
    cases hr : runV o p s with
    | error e => rw [hr] at h; simp at h
    | ok r =>
      rw [hr] at h
      rw [runV_local p s r.1 r.2 hr (ha.mono (runCallbacksV_prefix o _ _ _ h))]
      exact ih _ _ h ha

theorem createRandomizedV_prefix {o : Oracle F G X} {s s' : VState F G X} (h : s.createRandomized o = .ok s') :
    s.transcript <+: s'.transcript := by
  unfold VState.createRandomized at h
  simp only at h
  by_cases hd : s.deferred = []
  · rw [if_pos hd] at h; simp only [Except.ok.injEq] at h; rw [← h]; simp
  · rw [if_neg hd] at h
    exact List.IsPrefix.trans (by simp) (runCallbacksV_prefix o _ _ _ h)

theorem createRandomizedV_local {o o' : Oracle F G X} {s s' : VState F G X} (h : s.createRandomized o = .ok s')
    (ha : AgreeUpTo o o' s'.transcript) : s.createRandomized o' = .ok s' := by
  unfold VState.createRandomized at h ⊢
  simp only at h ⊢
  by_cases hd : s.deferred = []
  · rw [if_pos hd] at h ⊢; exact h
  · rw [if_neg hd] at h ⊢; exact runCallbacksV_local _ _ _ h ha

theorem tLabel_ok {d : Nat} {l : String} (h : tLabel d = .ok l) : l = "T_" ++ toString d := by
  unfold tLabel at h
  split at h
  · simpa using h.symm
  · simp at h

theorem validateT_ok (op : Nat) (T : List G) : ∀ (ds : List Nat) (t t' : Transcript F G X), validateT op T ds t = .ok t' →
    t' = t ++ (ds.filter (· ≠ op)).map fun d => .point ("T_" ++ toString d) (T.getD d 0) := by
  intro ds
  induction ds with
  | nil => intro t t' h; simp only [validateT, Except.ok.injEq] at h; simp [h]
  | cons d ds ih =>
    intro t t' h
    rw [validateT] at h
    by_cases hd : d = op
    · rw [if_pos hd] at h; rw [ih _ _ h]; simp [hd]
    · rw [if_neg hd] at h
      cases hl : tLabel d with
      | error e => rw [hl] at h; simp at h
      | ok l =>
      cases hT : T[d]? with
      | none => rw [hl, hT] at h; simp at h
      | some P =>
      rw [hl, hT] at h
      simp only [validateAndAppendPoint] at h
      by_cases hP : P = 0
      · simp [hP] at h
      · rw [if_neg hP] at h
        rw [ih _ _ h, tLabel_ok hl]
        simp [hd, hT]

theorem appendT_ok (op : Nat) : ∀ (Ts : List G) (d : Nat) (t t' : Transcript F G X), appendT op d Ts t = .ok t' →
    t' = t ++ ((List.range' d Ts.length).filter (· ≠ op)).map fun e => .point ("T_" ++ toString e) (Ts.getD (e - d) 0) := by
  intro Ts
  induction Ts with
  | nil => intro d t t' h; simp only [appendT, Except.ok.injEq] at h; simp [h]
  | cons P Ts ih =>
    intro d t t' h
    have key : ((List.range' (d + 1) Ts.length).filter (· ≠ op)).map (fun e => (Msg.point ("T_" ++ toString e) (Ts.getD (e - (d + 1)) 0) : Msg F G X)) =
        ((List.range' (d + 1) Ts.length).filter (· ≠ op)).map fun e => .point ("T_" ++ toString e) ((P :: Ts).getD (e - d) 0) := by
      apply List.map_congr_left
      intro e he
      have : d + 1 ≤ e := (List.mem_range'_1.1 (List.mem_of_mem_filter he)).1
      rw [show e - d = e - (d + 1) + 1 by omega]
      rfl
    rw [appendT] at h
    rw [List.length_cons, List.range'_succ]
    by_cases hd : d = op
    · rw [if_pos hd] at h
      rw [ih _ _ _ h, key, List.filter_cons_of_neg (by simp [hd])]
    · rw [if_neg hd] at h
      cases hl : tLabel d with
      | error e => rw [hl] at h; simp at h
      | ok l =>
      rw [hl] at h
      rw [ih _ _ _ h, key, tLabel_ok hl, List.filter_cons_of_pos (by simp [hd])]
      simp

theorem ippChallenges_local {o o' : Oracle F G X} : ∀ (LR : List (G × G)) (t : Transcript F G X),
    AgreeUpTo o o' (t ++ roundMsgs LR) → ippChallenges o' LR t = ippChallenges o LR t := by
  intro LR
  induction LR with
  | nil => intro t _; rfl
  | cons q LR ih =>
    intro t ha
    obtain ⟨L, R⟩ := q
    unfold ippChallenges
    simp only [bind, Except.bind, validateAndAppendPoint]
    by_cases hL : L = 0
    · simp [hL]
    by_cases hR : R = 0
    · simp [hL, hR]
    simp only [if_neg hL, if_neg hR, challengeScalar]
    have e1 : t ++ [.point "L" L] ++ [.point "R" R] ++ [.chal "u"] ++ roundMsgs LR = (t ++ roundMsgs ((L, R) :: LR) : Transcript F G X) := by
      simp [roundMsgs]
    have hq := ha (t ++ [Msg.point "L" L] ++ [Msg.point "R" R] ++ [Msg.chal "u"]) (by rw [← e1]; simp)
    rw [ih _ (e1 ▸ ha), hq]

theorem verificationScalars_local {o o' : Oracle F G X} (p : IPP F G) (n : Nat) (t : Transcript F G X)
    (ha : AgreeUpTo o o' (t ++ [.sep "ipp v1", .num "n" n] ++ roundMsgs (p.L.zip p.R))) :
    verificationScalars o' p n t = verificationScalars o p n t := by
  unfold verificationScalars
  simp only
  rw [ippChallenges_local _ _ ha]

theorem verifyTail_local {o o' : Oracle F G X} (r : F) (p : R1CSProof F G) (n1 : Nat) (s : VState F G X)
    (ha : AgreeUpTo o o' (s.transcript ++ p.tailMsgs (opDegree s.vecComms.length) (nextPow2 s.size))) :
    verifyTail o' r p n1 s = verifyTail o r p n1 s := by
  unfold verifyTail
  simp only [challengeScalar]
  cases hv : validateT (opDegree s.vecComms.length) p.T (List.range (2 * (opDegree s.vecComms.length + 1) + 1))
    (s.transcript ++ [Msg.point "A_I2" p.AI2, .point "A_O2" p.AO2, .point "S2" p.S2] ++ [.chal "y"] ++ [.chal "z"]) with
  | error e => rfl
  | ok t1 =>
    have e1 := validateT_ok _ _ _ _ _ hv
    have e2 : s.transcript ++ p.tailMsgs (opDegree s.vecComms.length) (nextPow2 s.size) = t1 ++ [.chal "u", .chal "x"] ++
        [.scalar "t_x" p.tx, .scalar "t_x_blinding" p.txBl, .scalar "e_blinding" p.eBl, .chal "w"] ++
        [.sep "ipp v1", .num "n" (nextPow2 s.size)] ++ roundMsgs (p.ipp.L.zip p.ipp.R) := by
      rw [e1]
      simp only [R1CSProof.tailMsgs, R1CSProof.toW, R1CSProof.toX, R1CSProof.toY, tMsgs, List.append_assoc, List.cons_append, List.nil_append]
    have e0 : s.transcript ++ [Msg.point "A_I2" p.AI2, .point "A_O2" p.AO2, .point "S2" p.S2] ++ [.chal "y"] ++ [.chal "z"] <+: t1 := by
      rw [e1]; simp
    rw [e2] at ha
    have hy := ha (s.transcript ++ [Msg.point "A_I2" p.AI2, .point "A_O2" p.AO2, .point "S2" p.S2] ++ [.chal "y"])
      (List.IsPrefix.trans (by simp) (e0.trans (by simp)))
    have hz := ha _ (e0.trans (by simp))
    have hu := ha (t1 ++ [.chal "u"]) (by simp)
    have hx := ha (t1 ++ [.chal "u"] ++ [.chal "x"]) (by simp)
    have hw := ha (t1 ++ [.chal "u"] ++ [.chal "x"] ++
        [.scalar "t_x" p.tx, .scalar "t_x_blinding" p.txBl, .scalar "e_blinding" p.eBl] ++ [.chal "w"]) (by simp)
    have hi := verificationScalars_local p.ipp (nextPow2 s.size) (t1 ++ [.chal "u"] ++ [.chal "x"] ++
        [.scalar "t_x" p.tx, .scalar "t_x_blinding" p.txBl, .scalar "e_blinding" p.eBl] ++ [.chal "w"])
        (o := o) (o' := o') (by refine ha.mono ?_; simp)
    simp only [hi, ← hz, ← hu, ← hx, ← hw]
    cases hf : s.flattened (o (s.transcript ++ [Msg.point "A_I2" p.AI2, .point "A_O2" p.AO2, .point "S2" p.S2] ++ [.chal "y"] ++ [.chal "z"])) with
    | none => rfl
    | some wt =>
    simp only
    split
    · rfl
    · by_cases h0 : o (s.transcript ++ [Msg.point "A_I2" p.AI2, .point "A_O2" p.AO2, .point "S2" p.S2] ++ [.chal "y"]) = 0
      · have h0' := hy ▸ h0
        exact (if_pos h0').trans (if_pos h0).symm
      · have h0' := hy ▸ h0
        refine (if_neg h0').trans (Eq.trans ?_ (if_neg h0).symm)
        rw [hy]

theorem VState.pad_fields (t : VState F G X) : t.pad.transcript = t.transcript ∧ t.pad.V = t.V ∧ t.pad.vecComms = t.vecComms := by
  unfold VState.pad; rw [VState.padN_eq]; exact ⟨rfl, rfl, rfl⟩

theorem verificationTuple_local {o o' : Oracle F G X} (r : F) (p : R1CSProof F G) (t : VState F G X) (tr : Transcript F G X)
    (h : VerifierTranscript o t p tr) (ha : AgreeUpTo o o' tr) : verificationTuple o' r p t = verificationTuple o r p t := by
  obtain ⟨t2, h2, rfl⟩ := h
  have hvc : t2.vecComms = t.vecComms := by
    rw [(createRandomized_mono h2).2.1]; exact t.pad_fields.2.2
  have h3 := createRandomizedV_local h2 (ha.mono (by simp))
  unfold verificationTuple
  simp only [bind, Except.bind, validateAndAppendPoint]
  by_cases e1 : p.AI1 = 0
  · simp [e1]
  by_cases e2 : p.AO1 = 0
  · simp [e1, e2]
  by_cases e3 : p.S1 = 0
  · simp [e1, e2, e3]
  simp only [if_neg e1, if_neg e2, if_neg e3]
  have key : ({ t.pad with transcript := t.pad.transcript ++ [.num "m" t.pad.V.length] ++ [.point "A_I1" p.AI1] ++
      [.point "A_O1" p.AO1] ++ [.point "S1" p.S1] } : VState F G X) = { t.pad with transcript := t.transcript ++ p.headMsgs t.V.length } := by
    rw [t.pad_fields.1, t.pad_fields.2.1]; simp [R1CSProof.headMsgs]
  rw [key, h2, h3]
  simp only
  exact verifyTail_local r p _ t2 (by rw [hvc]; exact ha)


/-! ## The Prover -/

theorem runP_prefix {α : Type} (o : Oracle F G X) (q : Prog F G X α) : ∀ (s : PState F G X) (a : α) (s' : PState F G X),
    runP o q s = .ok (a, s') → s.transcript <+: s'.transcript := by
  induction q with
  | pure a => intro s b s' h; simp only [runP, Except.ok.injEq, Prod.mk.injEq] at h; rw [← h.2]
  | fail e => intro s b s' h; simp [runP] at h
  | multiply l r k ih =>
    intro s b s' h
    rw [runP] at h
    unfold PState.multiply at h
    split at h
    · rename_i v s1 hm
      split at hm
      · simp at hm
        have := ih _ _ _ _ h
        rw [← hm.2] at this
        exact this
      · simp at hm
    · simp at h
  | allocate a k ih =>
    intro s b s' h
    rw [runP] at h
    unfold PState.allocate at h
    split at h
    · rename_i v s1 hm
      have := ih _ _ _ _ h
      have e : s1.transcript = s.transcript := by
        revert hm
        repeat' split
        all_goals simp
        all_goals (rintro - rfl; rfl)
      rwa [e] at this
    · simp at h
  | allocateMultiplier a k ih =>
    intro s b s' h
    rw [runP] at h
    unfold PState.allocateMultiplier at h
    split at h
    · rename_i v s1 hm
      have := ih _ _ _ _ h
      have e : s1.transcript = s.transcript := by
        revert hm
        repeat' split
        all_goals simp
        all_goals (rintro - rfl; rfl)
      rwa [e] at this
    · simp at h
  | constrain lc k ih => intro s b s' h; rw [runP] at h; exact (ih _ _ _ h :)
  | append m k ih => intro s b s' h; rw [runP] at h; exact List.IsPrefix.trans (by simp) (ih _ _ _ h)
  | challenge l k ih => intro s b s' h; rw [runP] at h; exact List.IsPrefix.trans (by simp) (ih _ _ _ _ h)

theorem runP_local {α : Type} {o o' : Oracle F G X} (q : Prog F G X α) : ∀ (s : PState F G X) (a : α) (s' : PState F G X),
    runP o q s = .ok (a, s') → AgreeUpTo o o' s'.transcript → runP o' q s = .ok (a, s') := by
  induction q with
  | pure a => intro s b s' h _; exact h
  | fail e => intro s b s' h _; simp [runP] at h
  | multiply l r k ih =>
    intro s b s' h ha
    rw [runP] at h ⊢
    cases hm : s.multiply l r with
    | error e => rw [hm] at h; simp at h
    | ok v => rw [hm] at h; exact ih _ _ _ _ h ha
  | allocate a k ih =>
    intro s b s' h ha
    rw [runP] at h ⊢
    cases hm : s.allocate a with
    | error e => rw [hm] at h; simp at h
    | ok v => rw [hm] at h; exact ih _ _ _ _ h ha
  | allocateMultiplier a k ih =>
    intro s b s' h ha
    rw [runP] at h ⊢
    cases hm : s.allocateMultiplier a with
    | error e => rw [hm] at h; simp at h
    | ok v => rw [hm] at h; exact ih _ _ _ _ h ha
  | constrain lc k ih => intro s b s' h ha; rw [runP] at h ⊢; exact ih _ _ _ h ha
  | append m k ih => intro s b s' h ha; rw [runP] at h ⊢; exact ih _ _ _ h ha
  | challenge l k ih =>
    intro s b s' h ha
    rw [runP] at h ⊢
    have hp : s.transcript ++ [.chal l] <+: s'.transcript := (runP_prefix o _ _ _ _ h :)
    have : challengeScalar o' s.transcript l = challengeScalar o s.transcript l := by
      unfold challengeScalar; rw [ha _ hp]
    rw [this]
    exact ih _ _ _ _ h ha

theorem runCallbacksP_prefix (o : Oracle F G X) : ∀ (ps : List (Prog F G X Unit)) (s s' : PState F G X),
    runCallbacksP o ps s = .ok s' → s.transcript <+: s'.transcript := by
  intro ps
  induction ps with
  | nil => intro s s' h; simp only [runCallbacksP, Except.ok.injEq] at h; rw [h]
  | cons p ps ih =>
    intro s s' h
    rw [runCallbacksP] at h
    cases hr : runP o p s with
    | error e => rw [hr] at h; simp at h
    | ok r => rw [hr] at h; exact (runP_prefix o p s r.1 r.2 hr).trans (ih _ _ h)

theorem runCallbacksP_local {o o' : Oracle F G X} : ∀ (ps : List (Prog F G X Unit)) (s s' : PState F G X),
    runCallbacksP o ps s = .ok s' → AgreeUpTo o o' s'.transcript → runCallbacksP o' ps s = .ok s' := by
  intro ps
  induction ps with
  | nil => intro s s' h _; exact h
  | cons p ps ih =>
    intro s s' h ha
    rw [runCallbacksP] at h ⊢
    cases hr : runP o p s with
    | error e => rw [hr] at h; simp at h
    | ok r =>
      rw [hr] at h
      rw [runP_local p s r.1 r.2 hr (ha.mono (runCallbacksP_prefix o _ _ _ h))]
      exact ih _ _ h ha

theorem createRandomizedP_local {o o' : Oracle F G X} {s s' : PState F G X} (h : s.createRandomized o = .ok s')
    (ha : AgreeUpTo o o' s'.transcript) : s.createRandomized o' = .ok s' := by
  unfold PState.createRandomized at h ⊢
  simp only at h ⊢
  by_cases hd : s.deferred = []
  · rw [if_pos hd] at h ⊢; exact h
  · rw [if_neg hd] at h ⊢; exact runCallbacksP_local _ _ _ h ha

theorem ippLoop_ok (o : Oracle F G X) (Q : G) : ∀ (k : Nat) (s : IPPState F G X) (p : IPP F G) (t : Transcript F G X),
    ippLoop o Q k s = .ok (p, t) → t = s.t ++ roundMsgs (p.L.zip p.R) ∧
      ∀ o', AgreeUpTo o o' t → ippLoop o' Q k s = .ok (p, t) := by
  intro k
  induction k with
  | zero =>
    intro s p t h
    refine ⟨?_, fun o' _ => h⟩
    rw [ippLoop] at h
    split at h
    · simp only [Except.ok.injEq, Prod.mk.injEq] at h
      rw [← h.1, ← h.2]; simp [roundMsgs]
    · simp at h
  | succ k ih =>
    intro s p t h
    rw [ippLoop] at h
    simp only [ippRound] at h
    by_cases hc : (challengeScalar o (s.t ++ [Msg.point "L" (ippCross Q (2 ^ k) s).1, .point "R" (ippCross Q (2 ^ k) s).2]) "u").1 = 0
    · rw [if_pos hc] at h; simp at h
    rw [if_neg hc] at h
    simp only at h
    cases hl : ippLoop o Q k (ippFold (2 ^ k) (challengeScalar o (s.t ++ [Msg.point "L" (ippCross Q (2 ^ k) s).1, .point "R" (ippCross Q (2 ^ k) s).2]) "u").1 s (challengeScalar o (s.t ++ [Msg.point "L" (ippCross Q (2 ^ k) s).1, .point "R" (ippCross Q (2 ^ k) s).2]) "u").2) with
    | error e => rw [hl] at h; simp at h
    | ok q =>
      obtain ⟨q, t'⟩ := q
      rw [hl] at h
      simp only [Except.ok.injEq, Prod.mk.injEq] at h
      obtain ⟨i1, i2⟩ := ih _ _ _ hl
      obtain ⟨rfl, rfl⟩ := h
      have e : t' = s.t ++ roundMsgs (((ippCross Q (2 ^ k) s).1 :: q.L).zip ((ippCross Q (2 ^ k) s).2 :: q.R)) := by
        rw [i1]; simp [roundMsgs, ippFold, challengeScalar]
      refine ⟨e, fun o' ha => ?_⟩
      have hq : challengeScalar o' (s.t ++ [Msg.point "L" (ippCross Q (2 ^ k) s).1, .point "R" (ippCross Q (2 ^ k) s).2]) "u" =
          challengeScalar o (s.t ++ [Msg.point "L" (ippCross Q (2 ^ k) s).1, .point "R" (ippCross Q (2 ^ k) s).2]) "u" := by
        unfold challengeScalar
        rw [ha _ (by rw [e]; simp [roundMsgs])]
      rw [ippLoop]
      simp only [ippRound, hq]
      rw [if_neg hc]
      simp only [i2 o' ha]

theorem ippCreate_ok (o : Oracle F G X) (Q : G) (Gf Hf : List F) (Gs Hs : List G) (a b : List F) (t t' : Transcript F G X) (p : IPP F G)
    (h : ippCreate o Q Gf Hf Gs Hs a b t = .ok (p, t')) :
    t' = t ++ [.sep "ipp v1", .num "n" Gs.length] ++ roundMsgs (p.L.zip p.R) ∧
      ∀ o', AgreeUpTo o o' t' → ippCreate o' Q Gf Hf Gs Hs a b t = .ok (p, t') := by
  unfold ippCreate at h ⊢
  simp only at h ⊢
  split at h
  · simp at h
  rename_i h1
  split at h
  · simp at h
  rename_i h2
  simp only [if_neg h1, if_neg h2]
  cases hk : Gs.length.log2 with
  | zero => rw [hk] at h; exact ippLoop_ok o Q 0 _ p t' h
  | succ k =>
    rw [hk] at h
    simp only [ippFirstRound] at h ⊢
    set s : IPPState F G X := ⟨Gs, Hs, a, b, t ++ [.sep "ipp v1", .num "n" Gs.length]⟩ with hs
    set u := challengeScalar o (s.t ++ [Msg.point "L" (ippFirstCross Q Gf Hf (2 ^ k) s).1, .point "R" (ippFirstCross Q Gf Hf (2 ^ k) s).2]) "u" with hu
    by_cases hc : u.1 = 0
    · rw [if_pos hc] at h; simp at h
    rw [if_neg hc] at h
    simp only at h
    cases hl : ippLoop o Q k (ippFirstFold Gf Hf (2 ^ k) u.1 s u.2) with
    | error e => rw [hl] at h; simp at h
    | ok q =>
      obtain ⟨q, t1⟩ := q
      rw [hl] at h
      simp only [Except.ok.injEq, Prod.mk.injEq] at h
      obtain ⟨i1, i2⟩ := ippLoop_ok o Q _ _ _ _ hl
      obtain ⟨rfl, rfl⟩ := h
      have e : t1 = t ++ [.sep "ipp v1", .num "n" Gs.length] ++ roundMsgs (((ippFirstCross Q Gf Hf (2 ^ k) s).1 :: q.L).zip ((ippFirstCross Q Gf Hf (2 ^ k) s).2 :: q.R)) := by
        rw [i1]; simp [roundMsgs, ippFirstFold, hu, challengeScalar, hs]
      refine ⟨e, fun o' ha => ?_⟩
      have hq : challengeScalar o' (s.t ++ [Msg.point "L" (ippFirstCross Q Gf Hf (2 ^ k) s).1, .point "R" (ippFirstCross Q Gf Hf (2 ^ k) s).2]) "u" = u := by
        rw [hu]
        unfold challengeScalar
        rw [ha _ (by rw [e]; simp [roundMsgs, hs])]
      rw [hq, if_neg hc]
      simp only [i2 o' ha]

/-- After the second phase Prover and Verifier agree. -/
theorem SessionInv.second {o : Oracle F G X} {g : Gens G} {s : PState F G X} {t : VState F G X} (h : SessionInv g s t) {p : R1CSProof F G}
    {s2 : PState F G X} (h2 : s.secondPhase o ⟨p.AI1, p.AO1, p.S1⟩ = .ok s2) :
    ∃ t2, t.AfterCallbacks o p t2 ∧ Synced g s2 t2 := by
  have hpi := PState.pad_inv h.inv
  have hsy := h.sync.pad
  have hpv : s.pad.v = s.v := by rw [PState.pad_eq]
  have hpd : s.pad.deferred = s.deferred := by rw [PState.pad_eq]
  have htd : t.pad.deferred = t.deferred := by unfold VState.pad; rw [VState.padN_eq]
  have htV : t.pad.V.length = s.v.length := by rw [hsy.V, List.length_zipWith, hsy.lenV, min_self, hpv]
  obtain ⟨t2, a1, a2, -, -⟩ := createRandomized_synced o g
    { s.pad with transcript := s.pad.transcript ++ [.num "m" s.v.length,
      .point "A_I1" p.AI1, .point "A_O1" p.AO1, .point "S1" p.S1] } s2
    { t.pad with transcript := t.pad.transcript ++ [.num "m" t.pad.V.length] ++
      [.point "A_I1" p.AI1, .point "A_O1" p.AO1, .point "S1" p.S1] }
    ⟨⟨hsy.stmt.constraints, hsy.stmt.left, hsy.stmt.right, hsy.stmt.out, hsy.stmt.pending,
      by simp [hsy.stmt.transcript, htV]⟩, hsy.lenV, hsy.V, hsy.comms⟩
    (by simp only [hpd, htd]; exact h.deferred) ⟨hpi.lenR, hpi.lenO, hpi.gates, hpi.pend⟩ h2
  refine ⟨t2, ?_, a2⟩
  unfold VState.AfterCallbacks
  rw [← a1, t.pad_fields.1, t.pad_fields.2.1]
  simp [R1CSProof.headMsgs]


theorem chkT1'_eq {t : VState F G X} {p : R1CSProof F G} (h : chkT1 t p = .ok (chkT1' t p))
    (hT : p.T.length = 2 * (opDegree t.vecComms.length + 1) + 1) :
    chkT1' t p ++ [.chal "u", .chal "x"] = t.transcript ++ p.toX (opDegree t.vecComms.length) := by
  have := appendT_ok _ _ _ _ _ h
  rw [this, hT]
  simp only [R1CSProof.toX, R1CSProof.toY, tMsgs, chkT0, List.append_assoc, List.cons_append, List.nil_append, List.range_eq_range', Nat.sub_zero]

/-- The transcript after `proveTail`, and the places it depends on. -/
theorem TailEqs.transcript {o : Oracle F G X} {g : Gens G} {rnd : PRand F} {n1 : Nat} {c1 : Com G} {s : PState F G X} {t : VState F G X}
    {p : R1CSProof F G} {tr : Transcript F G X} (hcG : g.capacity ≤ g.Gs.length) (h : Synced g s t) (E : TailEqs o g rnd n1 c1 s t p tr) :
    tr = t.transcript ++ p.tailMsgs (opDegree t.vecComms.length) (nextPow2 t.size) ∧
      ∀ o', AgreeUpTo o o' tr → TailEqs o' g rnd n1 c1 s t p tr := by
  have hop : (proofCheck o n1 t p).op = opDegree t.vecComms.length := by
    unfold Check.op proofCheck; rw [List.length_map]
  have hT : p.T.length = 2 * (opDegree t.vecComms.length + 1) + 1 := by rw [E.T, List.length_map, List.length_range, hop]
  obtain ⟨i1, i2⟩ := ippCreate_ok _ _ _ _ _ _ _ _ _ _ _ E.ipp
  have e1 := chkT1'_eq E.app hT
  have hlen : (g.Gs.take (nextPow2 s.size)).length = nextPow2 t.size := by
    rw [List.length_take, h.size]; have := E.cap; omega
  have key : tr = t.transcript ++ p.tailMsgs (opDegree t.vecComms.length) (nextPow2 t.size) := by
    rw [i1, hlen]
    simp only [R1CSProof.tailMsgs, R1CSProof.toW, ← List.append_assoc, ← e1]
    simp
  refine ⟨key, fun o' ha => ?_⟩
  have hp1 : chkT1' t p ++ [.chal "u"] ++ [.chal "x"] ++
      [.scalar "t_x" p.tx, .scalar "t_x_blinding" p.txBl, .scalar "e_blinding" p.eBl] ++ [.chal "w"] <+: tr := by
    rw [i1]; simp
  have hp0 : chkT0 t p ++ [.chal "y"] ++ [.chal "z"] <+: tr := by
    rw [key]
    simp [chkT0, R1CSProof.tailMsgs, R1CSProof.toW, R1CSProof.toX, R1CSProof.toY]
  have hy := ha (chkT0 t p ++ [.chal "y"]) (List.IsPrefix.trans (by simp) hp0)
  have hz : chkZ o t p = chkZ o' t p := ha _ hp0
  have hu := ha (chkT1' t p ++ [.chal "u"]) (List.IsPrefix.trans (by simp) hp1)
  have hx := ha (chkT1' t p ++ [.chal "u"] ++ [.chal "x"]) (List.IsPrefix.trans (by simp) hp1)
  have hw := ha _ hp1
  have hck : proofCheck o n1 t p = proofCheck o' n1 t p := by
    unfold proofCheck
    rw [hy, hz, hu, hx, hw]
  have i3 := i2 o' ha
  obtain ⟨q1, q2, q3, q4, q5, q6, q7, q8, q9, q10, q11, q12, q13, q14⟩ := E
  rw [hck] at q8 q9 q11 q12 q13 i3
  exact ⟨q1, q2, q3, q4, q5, q6, hz ▸ q7, q8, q9, q10, q11, q12, q13, i3⟩

theorem prove_transcript {o : Oracle F G X} {g : Gens G} (hcG : g.capacity ≤ g.Gs.length) {s : PState F G X} {t : VState F G X}
    (h : SessionInv g s t) {rnd : PRand F} {p : R1CSProof F G} {tr : Transcript F G X} (hp : prove o g rnd s = .ok (p, tr)) :
    VerifierTranscript o t p tr ∧ ∀ o', AgreeUpTo o o' tr → prove o' g rnd s = .ok (p, tr) := by
  rw [prove_eq] at hp
  by_cases hcap : g.capacity < s.size
  · rw [if_pos hcap] at hp; simp at hp
  rw [if_neg hcap] at hp
  cases h2 : s.secondPhase o (s.firstCommitments g rnd) with
  | error e => rw [h2] at hp; simp at hp
  | ok s2 =>
  rw [h2] at hp
  simp only at hp
  have hf := proveTail_first hp
  have hc : s.firstCommitments g rnd = ⟨p.AI1, p.AO1, p.S1⟩ := by rw [hf.1, hf.2.1, hf.2.2]
  rw [hc] at h2
  obtain ⟨t2, a1, a2⟩ := h.second h2
  obtain ⟨e, l⟩ := ((proveTail_iff o g rnd s.size _ s2 t2 a2 p tr).1 hp).transcript hcG a2
  have hvc : t2.vecComms = t.vecComms := by
    rw [(createRandomized_mono a1).2.1]; exact t.pad_fields.2.2
  refine ⟨⟨t2, a1, by rw [← hvc]; exact e⟩, fun o' ha => ?_⟩
  rw [prove_eq, if_neg hcap, hc]
  have : s.secondPhase o' ⟨p.AI1, p.AO1, p.S1⟩ = .ok s2 :=
    createRandomizedP_local h2 (ha.mono (by rw [e, a2.stmt.transcript]; simp))
  rw [this]
  simp only
  rw [← hc]
  exact (proveTail_iff o' g rnd s.size _ s2 t2 a2 p tr).2 (l o' ha)

/-! ## The transcript determines the proof -/

theorem IsPrefix.cancel {α : Type} {a b b' : List α} (h : a ++ b <+: a ++ b') : b <+: b' := (List.prefix_append_right_inj a).1 h

theorem tMsgs_inj (op : Nat) (T T' : List G) (h : (tMsgs op T : Transcript F G X) = tMsgs op T') :
    ∀ d < 2 * (op + 1) + 1, d ≠ op → T.getD d 0 = T'.getD d 0 := by
  intro d hd hne
  have := List.map_inj_left.1 h d (List.mem_filter.2 ⟨List.mem_range.2 hd, by simpa using hne⟩)
  simpa using this

theorem prefix_of_length {α : Type} {a a' b b' : List α} (hl : a.length = a'.length) (h : a ++ b <+: a' ++ b') : a = a' ∧ b <+: b' := by
  have e : a = a' := by
    have h1 : a <+: a' ++ b' := List.IsPrefix.trans (by simp) h
    have h2 := List.prefix_iff_eq_take.1 h1
    rw [hl, List.take_left] at h2
    exact h2
  subst e
  exact ⟨rfl, IsPrefix.cancel h⟩

theorem roundMsgs_inj : ∀ (A B : List (G × G)), (roundMsgs A : Transcript F G X) <+: roundMsgs B → A <+: B := by
  intro A
  induction A with
  | nil => intro B _; simp
  | cons q A ih =>
    intro B h
    cases B with
    | nil => simp [roundMsgs] at h
    | cons r B =>
      simp only [roundMsgs, List.flatMap_cons] at h
      obtain ⟨h1, h2⟩ := prefix_of_length (by simp) h
      simp at h1
      have : q = r := Prod.ext h1.1 h1.2
      subst this
      exact List.cons_prefix_cons.2 ⟨rfl, ih B h2⟩

end CT
