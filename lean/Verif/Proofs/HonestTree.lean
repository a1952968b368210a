import Verif.Proofs.Simulator

/-! The honest Prover as a prover that sends messages depending on the challenges so far. -/

namespace CT
open Finset
set_option linter.unusedSectionVars false
variable {F G X : Type} [Field F] [AddCommGroup G] [Module F G]

/-! ## Inner product argument -/

/-- Without the transcript. -/
def IPPState.erase (s : IPPState F G X) : IPPState F G X := { s with t := [] }

/-- The vectors after the challenges `pre`, starting with vectors of length `2 ^ k`. -/
def honestState : Nat → IPPState F G X → List F → IPPState F G X
  | _, s, [] => s
  | 0, s, _ :: _ => s
  | k + 1, s, u :: pre => honestState k (ippFold (2 ^ k) u s []) pre

/-- The two points sent after the challenges `pre`. -/
def honestCross (Q : G) (k : Nat) (s : IPPState F G X) (pre : List F) : G × G :=
  ippCross Q (2 ^ (k - 1 - pre.length)) (honestState k s pre)

/-- The argument that results when the challenges are `us`. -/
def honestIPP (Q : G) (k : Nat) (s : IPPState F G X) (us : List F) : IPP F G where
  L := (List.range us.length).map fun i => (honestCross Q k s (us.take i)).1
  R := (List.range us.length).map fun i => (honestCross Q k s (us.take i)).2
  a := (honestState k s us).a.headD 0
  b := (honestState k s us).b.headD 0

theorem honestIPP_cons (Q : G) (k : Nat) (s : IPPState F G X) (u : F) (us : List F) :
    honestIPP Q (k + 1) s (u :: us) = { honestIPP Q k (ippFold (2 ^ k) u s []) us with
      L := (ippCross Q (2 ^ k) s).1 :: (honestIPP Q k (ippFold (2 ^ k) u s []) us).L
      R := (ippCross Q (2 ^ k) s).2 :: (honestIPP Q k (ippFold (2 ^ k) u s []) us).R } := by
  have key : ∀ i, honestCross Q (k + 1) s ((u :: us).take (i + 1)) = honestCross Q k (ippFold (2 ^ k) u s []) (us.take i) := by
    intro i
    simp only [List.take_succ_cons, honestCross, honestState, List.length_cons]
    congr 2
    omega
  simp only [honestIPP, List.length_cons, List.range_succ_eq_map, List.map_cons, List.map_map, IPP.mk.injEq, Function.comp_def, key]
  exact ⟨rfl, rfl, rfl, rfl⟩

variable [DecidableEq F]

theorem ippLoop_honest (o : Oracle F G X) (Q : G) (k : Nat) : ∀ (s : IPPState F G X) (p : IPP F G) (t' : Transcript F G X),
    s.Len (2 ^ k) → ippLoop o Q k s = .ok (p, t') →
    ∃ us : List F, us.length = k ∧ (∀ u ∈ us, u ≠ 0) ∧ roundChallenges o (p.L.zip p.R) s.t = us ∧ p = honestIPP Q k s.erase us := by
  induction k with
  | zero =>
    intro s p t' hl h
    obtain ⟨gs, hs, a, b, t⟩ := s
    obtain ⟨hg, hh, ha, hb⟩ := hl
    simp only [pow_zero] at ha hb
    obtain ⟨a, rfl⟩ := List.length_eq_one_iff.1 ha
    obtain ⟨b, rfl⟩ := List.length_eq_one_iff.1 hb
    simp only [ippLoop, Except.ok.injEq, Prod.mk.injEq] at h
    obtain ⟨rfl, rfl⟩ := h
    exact ⟨[], rfl, by simp, rfl, rfl⟩
  | succ k ih =>
    intro s p t' hl h
    have hl' : s.Len (2 ^ k + 2 ^ k) := by rw [pow_succ, mul_two] at hl; exact hl
    set L := (ippCross Q (2 ^ k) s).1 with hL
    set R := (ippCross Q (2 ^ k) s).2 with hR
    set u := o (s.t ++ [.point "L" L, .point "R" R, .chal "u"]) with hu
    have hround : ippRound o Q (2 ^ k) s = if u = 0 then .error (.panic "u challenge is zero") else
        .ok ((L, R), ippFold (2 ^ k) u s (s.t ++ [.point "L" L, .point "R" R, .chal "u"])) := by
      simp only [ippRound, challengeScalar, List.append_assoc, List.cons_append, List.nil_append]
      rfl
    unfold ippLoop at h
    rw [hround] at h
    by_cases h0 : u = 0
    · rw [if_pos h0] at h; cases h
    rw [if_neg h0] at h
    simp only at h
    split at h
    · cases h
    rename_i p' t'' hp
    simp only [Except.ok.injEq, Prod.mk.injEq] at h
    obtain ⟨rfl, rfl⟩ := h
    obtain ⟨us, h1, h2, h3, h4⟩ := ih _ _ _ (ippFold_len _ _ _ hl') hp
    refine ⟨u :: us, by simp [h1], ?_, ?_, ?_⟩
    · intro v hv
      rcases List.mem_cons.1 hv with rfl | hv
      · exact h0
      · exact h2 v hv
    · simp only [List.zip_cons_cons, roundChallenges]
      rw [← h3]
      rfl
    · rw [honestIPP_cons, h4]
      rfl

theorem ippLoop_of_honest (o : Oracle F G X) (Q : G) (k : Nat) : ∀ (s : IPPState F G X) (us : List F), s.Len (2 ^ k) → us.length = k →
    (∀ u ∈ us, u ≠ 0) → roundChallenges o ((honestIPP Q k s.erase us).L.zip (honestIPP Q k s.erase us).R) s.t = us →
    ∃ t', ippLoop o Q k s = .ok (honestIPP Q k s.erase us, t') := by
  induction k with
  | zero =>
    intro s us hl hus _ _
    obtain ⟨gs, hs, a, b, t⟩ := s
    obtain ⟨hg, hh, ha, hb⟩ := hl
    simp only [pow_zero] at ha hb
    obtain ⟨a, rfl⟩ := List.length_eq_one_iff.1 ha
    obtain ⟨b, rfl⟩ := List.length_eq_one_iff.1 hb
    rw [List.length_eq_zero_iff] at hus
    subst hus
    exact ⟨t, rfl⟩
  | succ k ih =>
    intro s us hl hus hne h
    have hl' : s.Len (2 ^ k + 2 ^ k) := by rw [pow_succ, mul_two] at hl; exact hl
    obtain ⟨u, us, rfl⟩ := List.exists_cons_of_length_eq_add_one hus
    rw [honestIPP_cons] at h ⊢
    simp only [List.zip_cons_cons, roundChallenges, List.cons.injEq] at h
    obtain ⟨h1, h2⟩ := h
    have hc : ippCross Q (2 ^ k) s.erase = ippCross Q (2 ^ k) s := rfl
    rw [hc] at h1 h2 ⊢
    set s' := ippFold (2 ^ k) u s (s.t ++ [.point "L" (ippCross Q (2 ^ k) s).1, .point "R" (ippCross Q (2 ^ k) s).2, .chal "u"]) with hs'
    have hes : ippFold (2 ^ k) u s.erase [] = s'.erase := rfl
    rw [hes] at h2 ⊢
    obtain ⟨t', ht'⟩ := ih s' us (ippFold_len _ _ _ hl') (by simpa using hus) (fun v hv => hne v (by simp [hv])) h2
    refine ⟨t', ?_⟩
    unfold ippLoop ippRound
    simp only [challengeScalar, List.append_assoc, List.cons_append, List.nil_append, h1, if_neg (hne u (by simp)), ← hs', ht']

/-- `create` is the plain loop on scaled generators. -/
theorem ippCreate_eq (o : Oracle F G X) (Q : G) (k : Nat) (Gf Hf : List F) (Gs Hs : List G) (a b : List F) (t : Transcript F G X)
    (hG : Gs.length = 2 ^ k) (hH : Hs.length = 2 ^ k) (ha : a.length = 2 ^ k) (hb : b.length = 2 ^ k) (hGf : Gf.length = 2 ^ k) (hHf : Hf.length = 2 ^ k) :
    ippCreate o Q Gf Hf Gs Hs a b t = ippLoop o Q k ⟨List.zipWith (fun f g => f • g) Gf Gs, List.zipWith (fun f g => f • g) Hf Hs, a, b,
      t ++ [.sep "ipp v1", .num "n" (2 ^ k)]⟩ := by
  have hp2 : isPow2 (2 ^ k) = true := by simp [isPow2, Nat.log2_two_pow]
  unfold ippCreate
  simp only [hG, hH, ha, hb, hGf, hHf, ne_eq, not_true_eq_false, or_self, if_false, hp2, Bool.not_true, Bool.false_eq_true, Nat.log2_two_pow]
  cases k with
  | zero => simp only [ippLoop]
  | succ k =>
    simp only
    rw [ippFirstRound_eq o Q Gf Hf (2 ^ k) (by rw [pow_succ, mul_two] at *; exact ⟨hG, hH, ha, hb⟩)
      (by rw [pow_succ] at hGf; omega) (by rw [pow_succ] at hHf; omega)]
    rw [ippLoop]


/-! ## The whole proof -/

/-- The public values of the two equations of the Verifier, as a function of the challenges. -/
def honestCheck (n1 : Nat) (t2 : VState F G X) (y z u x w : F) : Check F G :=
  (⟨y, z, u, x, w⟩ : Guess F).check n1 t2 ((t2.flattened z).getD (Weights.zero 0 0 []))

/-- The state in which the inner product argument starts. -/
def honestStart (g : Gens G) (ch : Check F G) (s2 : PState F G X) (rnd : PRand F) : IPPState F G X where
  gs := List.zipWith (fun f P => f • P) ((List.range ch.N).map ch.factor) (g.Gs.take ch.N)
  hs := List.zipWith (fun f P => f • P) ((List.range ch.N).map fun i => ch.y⁻¹ ^ i * ch.factor i) (g.Hs.take ch.N)
  a := (lpOf ch s2 rnd s2.size).eval ch.x ++ List.replicate (ch.N - s2.size) 0
  b := (rpOf ch s2 rnd s2.size).eval ch.x ++ ((List.range (ch.N - s2.size)).map fun i => - (expIter ch.y ch.N).getD (s2.size + i) 0)
  t := []

/-- The points the honest Prover sends. -/
def honestMessages (g : Gens G) (n1 : Nat) (s2 : PState F G X) (t2 : VState F G X) (rnd : PRand F) (k : Nat) : Messages F G where
  AI1 := (realPoints g (honestCheck n1 t2 0 0 0 0 0) s2 rnd).AI1
  AO1 := (realPoints g (honestCheck n1 t2 0 0 0 0 0) s2 rnd).AO1
  S1 := (realPoints g (honestCheck n1 t2 0 0 0 0 0) s2 rnd).S1
  AI2 := (realPoints g (honestCheck n1 t2 0 0 0 0 0) s2 rnd).AI2
  AO2 := (realPoints g (honestCheck n1 t2 0 0 0 0 0) s2 rnd).AO2
  S2 := (realPoints g (honestCheck n1 t2 0 0 0 0 0) s2 rnd).S2
  T y z := (realPoints g (honestCheck n1 t2 y z 0 0 0) s2 rnd).T
  L y z u x w pre := (honestCross (w • g.pc.B) k (honestStart g (honestCheck n1 t2 y z u x w) s2 rnd) pre).1
  R y z u x w pre := (honestCross (w • g.pc.B) k (honestStart g (honestCheck n1 t2 y z u x w) s2 rnd) pre).2

/-- The scalars the honest Prover sends. -/
def honestResponses (g : Gens G) (n1 : Nat) (s2 : PState F G X) (t2 : VState F G X) (rnd : PRand F) (k : Nat) : Responses F where
  tx y z u x := (realPoints g (honestCheck n1 t2 y z u x 0) s2 rnd).tx
  txBl y z u x := (realPoints g (honestCheck n1 t2 y z u x 0) s2 rnd).txBl
  eBl y z u x := (realPoints g (honestCheck n1 t2 y z u x 0) s2 rnd).eBl
  a y z u x w us := (honestState k (honestStart g (honestCheck n1 t2 y z u x w) s2 rnd) us).a.headD 0
  b y z u x w us := (honestState k (honestStart g (honestCheck n1 t2 y z u x w) s2 rnd) us).b.headD 0

theorem honest_head (g : Gens G) (n1 : Nat) (s2 : PState F G X) (t2 : VState F G X) (rnd : PRand F) (k : Nat) (y z u x w : F) (us : List F) :
    (strategyProof (honestMessages g n1 s2 t2 rnd k) (honestResponses g n1 s2 t2 rnd k) y z u x w us).head =
      realPoints g (honestCheck n1 t2 y z u x w) s2 rnd := rfl

theorem honest_ipp (g : Gens G) (n1 : Nat) (s2 : PState F G X) (t2 : VState F G X) (rnd : PRand F) (k : Nat) (y z u x w : F) (us : List F) :
    (strategyProof (honestMessages g n1 s2 t2 rnd k) (honestResponses g n1 s2 t2 rnd k) y z u x w us).ipp =
      honestIPP (w • g.pc.B) k (honestStart g (honestCheck n1 t2 y z u x w) s2 rnd) us := rfl

/-! ## An oracle with given challenges -/

/-- Answers `o` up to the end of the second phase, and then by the length of the transcript. -/
def forkOracle (o : Oracle F G X) (p : R1CSProof F G) (t2 : VState F G X) (y z u x w : F) (us : List F) : Oracle F G X := fun tr =>
  if tr.length ≤ t2.transcript.length then o tr
  else if tr.length = (absorbedA p t2).length + 1 then y
  else if tr.length = (absorbedA p t2).length + 2 then z
  else if tr.length = (absorbedT p t2).length + 1 then u
  else if tr.length = (absorbedT p t2).length + 2 then x
  else if tr.length = (absorbedW p t2).length then w
  else us.getD ((tr.length - ((absorbedW p t2).length + 2)) / 3 - 1) 0

theorem forkOracle_agree (o : Oracle F G X) (p : R1CSProof F G) (t2 : VState F G X) (y z u x w : F) (us : List F) :
    AgreeUpTo o (forkOracle o p t2 y z u x w us) t2.transcript := by
  intro q hq
  unfold forkOracle
  rw [if_pos hq.length_le]

theorem forkOracle_rounds (o : Oracle F G X) (p : R1CSProof F G) (t2 : VState F G X) (y z u x w : F) (us : List F) :
    ∀ (lr : List (G × G)) (j : Nat) (t : Transcript F G X), t.length = (absorbedW p t2).length + 2 + 3 * j → j + lr.length = us.length →
      roundChallenges (forkOracle o p t2 y z u x w us) lr t = us.drop j := by
  have l1 : (absorbedA p t2).length = t2.transcript.length + 3 := by simp [absorbedA]
  have l2 : (absorbedA p t2).length + 2 ≤ (absorbedT p t2).length := by simp [absorbedT]
  have l3 : (absorbedW p t2).length = (absorbedT p t2).length + 6 := by simp [absorbedW]
  intro lr
  induction lr with
  | nil => intro j t _ hj; simp only [roundChallenges]; rw [List.drop_of_length_le (by simpa using hj.ge)]
  | cons LR lr ih =>
    intro j t ht hj
    have hj' : j < us.length := by rw [← hj]; simp
    obtain ⟨L, R⟩ := LR
    simp only [roundChallenges]
    rw [ih (j + 1) _ (by simp [ht]; ring) (by rw [← hj]; simp; ring), List.drop_eq_getElem_cons hj']
    congr 1
    have hl : (t ++ [.point "L" L, .point "R" R, .chal "u"] : Transcript F G X).length = (absorbedW p t2).length + 2 + 3 * j + 3 := by simp [ht]
    unfold forkOracle
    rw [hl, if_neg (by omega), if_neg (by omega), if_neg (by omega), if_neg (by omega), if_neg (by omega), if_neg (by omega)]
    rw [show ((absorbedW p t2).length + 2 + 3 * j + 3 - ((absorbedW p t2).length + 2)) / 3 - 1 = j by omega]
    simp [hj']

theorem forkOracle_challenges (o : Oracle F G X) (p : R1CSProof F G) (t2 : VState F G X) (y z u x w : F) (us : List F)
    (hL : p.ipp.L.length = us.length) (hR : p.ipp.R.length = us.length) :
    HasChallenges (forkOracle o p t2 y z u x w us) p t2 y z u x w us := by
  have l1 : (absorbedA p t2).length = t2.transcript.length + 3 := by simp [absorbedA]
  have l2 : (absorbedA p t2).length + 2 ≤ (absorbedT p t2).length := by simp [absorbedT]
  have l3 : (absorbedW p t2).length = (absorbedT p t2).length + 6 := by simp [absorbedW]
  refine ⟨?_, ?_, ?_, ?_, ?_, ?_⟩
  · have hl : (absorbedA p t2 ++ [.chal "y"] : Transcript F G X).length = (absorbedA p t2).length + 1 := by simp
    unfold forkOracle
    rw [hl, if_neg (by omega), if_pos rfl]
  · have hl : (absorbedA p t2 ++ [.chal "y", .chal "z"] : Transcript F G X).length = (absorbedA p t2).length + 2 := by simp
    unfold forkOracle
    rw [hl, if_neg (by omega), if_neg (by omega), if_pos rfl]
  · have hl : (absorbedT p t2 ++ [.chal "u"] : Transcript F G X).length = (absorbedT p t2).length + 1 := by simp
    unfold forkOracle
    rw [hl, if_neg (by omega), if_neg (by omega), if_neg (by omega), if_pos rfl]
  · have hl : (absorbedT p t2 ++ [.chal "u", .chal "x"] : Transcript F G X).length = (absorbedT p t2).length + 2 := by simp
    unfold forkOracle
    rw [hl, if_neg (by omega), if_neg (by omega), if_neg (by omega), if_neg (by omega), if_pos rfl]
  · unfold forkOracle
    rw [if_neg (by omega), if_neg (by omega), if_neg (by omega), if_neg (by omega), if_neg (by omega), if_pos rfl]
  · rw [forkOracle_rounds o p t2 y z u x w us _ 0 _ (by simp) (by simp [hL, hR])]
    rfl


/-! ## The honest Prover on a tree of challenges -/

variable [DecidableEq G]

theorem honestStart_len {g : Gens G} {n1 : Nat} {s2 : PState F G X} {t2 : VState F G X} (k : TailOk g n1 s2 t2) (rnd : PRand F) {lg : Nat}
    (hlg : nextPow2 t2.size = 2 ^ lg) (hG : 2 ^ lg ≤ g.Gs.length) (hH : 2 ^ lg ≤ g.Hs.length) (y z u x w : F) (wt : Weights F) (hwt : t2.flattened z = some wt) :
    (honestStart g (honestCheck n1 t2 y z u x w) s2 rnd).Len (2 ^ lg) := by
  have hN : (honestCheck n1 t2 y z u x w).N = 2 ^ lg := hlg
  have hc : CheckOf n1 t2 (honestCheck n1 t2 y z u x w) := ⟨rfl, rfl, rfl, rfl, z, by simp [honestCheck, Guess.check, hwt]⟩
  have hle : s2.size ≤ (honestCheck n1 t2 y z u x w).N := hc.size_le k
  have l1 := lEval_length k hc rnd
  have l2 := rEval_length k hc rnd
  rw [hN] at hle
  refine ⟨?_, ?_, ?_, ?_⟩
  · simp [honestStart, hN, hG]
  · simp [honestStart, hN, hH]
  · simp [honestStart, hN, l1, hle]
  · simp [honestStart, hN, l2, hle]

/-- The argument `prove` makes. -/
theorem create_honest (o : Oracle F G X) (g : Gens G) (ch : Check F G) (s2 : PState F G X) (rnd : PRand F) (T : Transcript F G X) {lg : Nat} (hN : ch.N = 2 ^ lg)
    (hG : 2 ^ lg ≤ g.Gs.length) (hH : 2 ^ lg ≤ g.Hs.length) (hlen : (honestStart g ch s2 rnd).Len (2 ^ lg)) :
    ippCreate o (ch.w • g.pc.B) ((List.range ch.N).map ch.factor) ((List.range ch.N).map fun i => ch.y⁻¹ ^ i * ch.factor i)
        (g.Gs.take ch.N) (g.Hs.take ch.N) ((lpOf ch s2 rnd s2.size).eval ch.x ++ List.replicate (ch.N - s2.size) 0)
        ((rpOf ch s2 rnd s2.size).eval ch.x ++ ((List.range (ch.N - s2.size)).map fun i => - (expIter ch.y ch.N).getD (s2.size + i) 0)) T =
      ippLoop o (ch.w • g.pc.B) lg { honestStart g ch s2 rnd with t := T ++ [.sep "ipp v1", .num "n" (2 ^ lg)] } :=
  ippCreate_eq o _ lg _ _ _ _ _ _ T (by simp [hN, hG]) (by simp [hN, hH]) hlen.2.2.1 hlen.2.2.2 (by simp [hN]) (by simp [hN])

theorem honest_run {o : Oracle F G X} {g : Gens G} (hcG : g.capacity ≤ g.Gs.length) (hcH : g.capacity ≤ g.Hs.length) {s s2 : PState F G X}
    {t : VState F G X} (h : SessionInv g s t) (rnd : PRand F) (e2 : s.secondPhase o (s.firstCommitments g rnd) = .ok s2)
    (htrue : ∀ c ∈ s2.constraints, s2.assignment.eval c = 0) {lg : Nat} (hlg : nextPow2 s2.size = 2 ^ lg) (hcap : 2 ^ lg ≤ g.capacity) (h32 : lg < 32)
    (hmix : ¬ (s2.size - s.size > 0 ∧ s2.vecOpen ≠ [])) (hlab : ¬ ∃ d ∈ tDegrees (opDegree s2.vecOpen.length), tLabelCount ≤ d)
    (hflat : ∀ z, s2.flattened z ≠ none) :
    ∃ t2, t.secondPhase o (s.firstCommitments g rnd).AI (s.firstCommitments g rnd).AO (s.firstCommitments g rnd).S = .ok t2 ∧
      ∀ y z u x w us, y ≠ 0 → (∀ v ∈ us, v ≠ 0) → us.length = lg →
        (strategyProof (honestMessages g s.size s2 t2 rnd lg) (honestResponses g s.size s2 t2 rnd lg) y z u x w us).NoIdentity s.vecOpen.length →
        ∀ r, verify (forkOracle o (strategyProof (honestMessages g s.size s2 t2 rnd lg) (honestResponses g s.size s2 t2 rnd lg) y z u x w us) t2 y z u x w us) g r
          (strategyProof (honestMessages g s.size s2 t2 rnd lg) (honestResponses g s.size s2 t2 rnd lg) y z u x w us) t = .ok () := by
  obtain ⟨t2, a1, k, l⟩ := h.tail e2 htrue
  have et : t.secondPhase o (s.firstCommitments g rnd).AI (s.firstCommitments g rnd).AO (s.firstCommitments g rnd).S = .ok t2 := by
    unfold VState.secondPhase
    rw [t.pad_fields.2.1, List.append_assoc, List.singleton_append] at a1
    exact a1
  refine ⟨t2, et, fun y z u x w us hy hu hus hid => ?_⟩
  set p := strategyProof (honestMessages g s.size s2 t2 rnd lg) (honestResponses g s.size s2 t2 rnd lg) y z u x w us with hp
  have hsz : t2.size = s2.size := k.sync.size
  have hfirst : (⟨p.AI1, p.AO1, p.S1⟩ : Com G) = s.firstCommitments g rnd :=
    (firstOk_iff h rnd (by have := k.le; have : s2.size ≤ 2 ^ lg := by { obtain ⟨K, hK, hK', -⟩ := nextPow2_eq s2.size; omega }; omega) l.1 l.2.1 l.2.2).1 ⟨rfl, rfl, rfl⟩
  have hch : HasChallenges (forkOracle o p t2 y z u x w us) p t2 y z u x w us :=
    forkOracle_challenges o p t2 y z u x w us (by simp [hp, strategyProof]) (by simp [hp, strategyProof])
  have hag := forkOracle_agree o p t2 y z u x w us
  have e2' : s.secondPhase (forkOracle o p t2 y z u x w us) ⟨p.AI1, p.AO1, p.S1⟩ = .ok s2 := by
    rw [hfirst]
    exact createRandomizedP_local e2 (by rw [← k.sync.stmt.transcript]; exact hag)
  obtain ⟨wt, hwt⟩ : ∃ wt, t2.flattened z = some wt := by
    have := hflat z
    rw [k.sync.flat] at this
    cases hf : t2.flattened z with
    | none => rw [hf] at this; simp at this
    | some wt => exact ⟨wt, rfl⟩
  have hprove : ∃ tr, prove (forkOracle o p t2 y z u x w us) g rnd s = .ok (p, tr) := by
    have hvl : t2.vecComms.length = s2.vecOpen.length := by rw [k.sync.comms, List.length_map]
    have hvn : t2.vecComms ≠ [] ↔ s2.vecOpen ≠ [] := by rw [← List.length_pos_iff, ← List.length_pos_iff, hvl]
    have hlg' : nextPow2 t2.size = 2 ^ lg := by rw [hsz, hlg]
    have hlen := honestStart_len k rnd hlg' (by omega) (by omega) y z u x w wt hwt
    have hck : honestCheck s.size t2 y z u x w = (⟨y, z, u, x, w⟩ : Guess F).check s.size t2 wt := by simp [honestCheck, hwt]
    have hus' := hch.us
    rw [show p.ipp.L.length = lg by simp [hp, strategyProof, hus]] at hus'
    have hN : (honestCheck s.size t2 y z u x w).N = 2 ^ lg := hlg'
    obtain ⟨tr, htr⟩ := ippLoop_of_honest (forkOracle o p t2 y z u x w us) (w • g.pc.B) lg
      { honestStart g (honestCheck s.size t2 y z u x w) s2 rnd with t := absorbedW p t2 ++ [.sep "ipp v1", .num "n" (2 ^ lg)] } us hlen hus hu hus'
    refine ⟨tr, (prove_iff_real (c := ⟨y, z, u, x, w⟩) hcG h e2' k l ⟨us, hch⟩ hwt hy rnd tr).2 ⟨by omega, by rw [hsz, hvn]; exact hmix, by rw [hvl]; exact hlab, ?_, ?_⟩⟩
    · rw [← hck]; exact honest_head g s.size s2 t2 rnd lg y z u x w us
    · rw [← hck]
      exact (create_honest _ _ _ s2 rnd _ hN (by omega) (by omega) hlen).trans htr
  obtain ⟨tr, hprove⟩ := hprove
  intro r
  refine complete_core _ g rnd s t h hcG hcH ?_ hprove ?_ hid r
  · intro s3 h3
    rw [← hfirst, e2'] at h3
    obtain rfl : s2 = s3 := by simpa using h3
    exact htrue
  · intro s3 h3
    rw [← hfirst, e2'] at h3
    obtain rfl : s2 = s3 := by simpa using h3
    rw [hlg]
    exact Nat.pow_lt_pow_right (by norm_num) h32

/-- The coins of the Verifier, as an oracle. -/
theorem forkOracle_interactive {o : Oracle F G X} {t t2 : VState F G X} {M : Messages F G} (h2 : t.secondPhase o M.AI1 M.AO1 M.S1 = .ok t2) (R : Responses F)
    (y z u x w : F) (us : List F) :
    t.secondPhase (forkOracle o (strategyProof M R y z u x w us) t2 y z u x w us) M.AI1 M.AO1 M.S1 = .ok t2 ∧
      HasChallenges (forkOracle o (strategyProof M R y z u x w us) t2 y z u x w us) (strategyProof M R y z u x w us) t2 y z u x w us :=
  ⟨createRandomizedV_local h2 (forkOracle_agree o _ t2 y z u x w us), forkOracle_challenges o _ t2 y z u x w us (by simp [strategyProof]) (by simp [strategyProof])⟩

theorem honest_tree {o : Oracle F G X} {g : Gens G} (hcG : g.capacity ≤ g.Gs.length) (hcH : g.capacity ≤ g.Hs.length) {s s2 : PState F G X}
    {t : VState F G X} (h : SessionInv g s t) (rnd : PRand F) (e2 : s.secondPhase o (s.firstCommitments g rnd) = .ok s2)
    (htrue : ∀ c ∈ s2.constraints, s2.assignment.eval c = 0) {lg : Nat} (hlg : nextPow2 s2.size = 2 ^ lg) (hcap : 2 ^ lg ≤ g.capacity) (h32 : lg < 32)
    (hmix : ¬ (s2.size - s.size > 0 ∧ s2.vecOpen ≠ [])) (hlab : ¬ ∃ d ∈ tDegrees (opDegree s2.vecOpen.length), tLabelCount ≤ d)
    (hflat : ∀ z, s2.flattened z ≠ none) :
    ∃ t2, t.secondPhase o (s.firstCommitments g rnd).AI (s.firstCommitments g rnd).AO (s.firstCommitments g rnd).S = .ok t2 ∧
      ∀ fk : Forks F, 0 ∉ fk.Y → (∀ y z u x w pre, 0 ∉ fk.C y z u x w pre) →
      (∀ y z u x w us, fk.Path y z u x w us → us.length = lg →
        (strategyProof (honestMessages g s.size s2 t2 rnd lg) (honestResponses g s.size s2 t2 rnd lg) y z u x w us).NoIdentity s.vecOpen.length) →
      AcceptsTree g t t2 (honestMessages g s.size s2 t2 rnd lg) (honestResponses g s.size s2 t2 rnd lg) fk lg := by
  obtain ⟨t2, et, key⟩ := honest_run hcG hcH h rnd e2 htrue hlg hcap h32 hmix hlab hflat
  refine ⟨t2, et, fun fk hY hC hid y z u x w us hpath hus => ?_⟩
  have hy : y ≠ 0 := fun h0 => hY (h0 ▸ hpath.hy)
  have hu : ∀ v ∈ us, v ≠ 0 := by
    have key : ∀ (us pre : List F), InPaths (fk.C y z u x w) pre us → ∀ v ∈ us, v ≠ 0 := by
      intro us
      induction us with
      | nil => simp
      | cons v us ih =>
        intro pre hin v' hv'
        rcases List.mem_cons.1 hv' with rfl | hv'
        · exact fun h0 => hC y z u x w pre (h0 ▸ hin.1)
        · exact ih _ hin.2 v' hv'
    exact key us [] hpath.hus
  have hfirst : (⟨(honestMessages g s.size s2 t2 rnd lg).AI1, (honestMessages g s.size s2 t2 rnd lg).AO1, (honestMessages g s.size s2 t2 rnd lg).S1⟩ : Com G) =
      s.firstCommitments g rnd := by
    obtain ⟨t2', a1, k, l⟩ := h.tail e2 htrue
    have et' : t.secondPhase o (s.firstCommitments g rnd).AI (s.firstCommitments g rnd).AO (s.firstCommitments g rnd).S = .ok t2' := by
      unfold VState.secondPhase
      rw [t.pad_fields.2.1, List.append_assoc, List.singleton_append] at a1
      exact a1
    obtain rfl : t2 = t2' := Except.ok.inj (et.symm.trans et')
    exact (firstOk_iff h rnd
      (by have := k.le; have : s2.size ≤ 2 ^ lg := by { obtain ⟨K, hK, hK', -⟩ := nextPow2_eq s2.size; omega }; omega) l.1 l.2.1 l.2.2).1 ⟨rfl, rfl, rfl⟩
  have h2 : t.secondPhase o (honestMessages g s.size s2 t2 rnd lg).AI1 (honestMessages g s.size s2 t2 rnd lg).AO1 (honestMessages g s.size s2 t2 rnd lg).S1 = .ok t2 := by
    rw [show (honestMessages g s.size s2 t2 rnd lg).AI1 = (s.firstCommitments g rnd).AI from congrArg Com.AI hfirst,
      show (honestMessages g s.size s2 t2 rnd lg).AO1 = (s.firstCommitments g rnd).AO from congrArg Com.AO hfirst,
      show (honestMessages g s.size s2 t2 rnd lg).S1 = (s.firstCommitments g rnd).S from congrArg Com.S hfirst]
    exact et
  obtain ⟨i1, i2⟩ := forkOracle_interactive h2 (honestResponses g s.size s2 t2 rnd lg) y z u x w us
  have hv := key y z u x w us hy hu hus (hid y z u x w us hpath hus)
  exact ⟨_, i1, i2, 0, 1, zero_ne_one, hv 0, hv 1⟩


theorem flattened_any (t : VState F G X) {z : F} (h : t.flattened z ≠ none) (z' : F) : t.flattened z' ≠ none := by
  rw [← Option.isSome_iff_ne_none] at h ⊢
  unfold VState.flattened at h ⊢
  rw [flattenLoop_isSome true z z t.constraints (Weights.zero_shape _ _ _)] at h
  rw [flattenLoop_isSome true z' z' t.constraints (Weights.zero_shape _ _ _)]
  exact h

/-- A proof made by the honest Prover is the one of its strategy. -/
theorem honest_own {o : Oracle F G X} {g : Gens G} (hcG : g.capacity ≤ g.Gs.length) (hcH : g.capacity ≤ g.Hs.length) {s s2 : PState F G X}
    {t t2 : VState F G X} (h : SessionInv g s t) (rnd : PRand F) {p : R1CSProof F G} {tr : Transcript F G X} (hp : prove o g rnd s = .ok (p, tr))
    (e2 : s.secondPhase o ⟨p.AI1, p.AO1, p.S1⟩ = .ok s2) (k : TailOk g s.size s2 t2)
    (l : s2.aL.take s.size = s.pad.aL ∧ s2.aR.take s.size = s.pad.aR ∧ s2.aO.take s.size = s.pad.aO) {lg : Nat} (hlg : nextPow2 s2.size = 2 ^ lg)
    (hcap : 2 ^ lg ≤ g.capacity) {y z u x w : F} {us : List F} (hch : HasChallenges o p t2 y z u x w us) {wt : Weights F} (hwt : t2.flattened z = some wt) (hy : y ≠ 0) :
    p = strategyProof (honestMessages g s.size s2 t2 rnd lg) (honestResponses g s.size s2 t2 rnd lg) y z u x w us ∧ p.ipp.L.length = lg := by
  have hsz : t2.size = s2.size := k.sync.size
  have hlg' : nextPow2 t2.size = 2 ^ lg := by rw [hsz, hlg]
  obtain ⟨-, -, -, b4, b5⟩ := (prove_iff_real (c := ⟨y, z, u, x, w⟩) hcG h e2 k l ⟨us, hch⟩ hwt hy rnd tr).1 hp
  have hck : honestCheck s.size t2 y z u x w = (⟨y, z, u, x, w⟩ : Guess F).check s.size t2 wt := by simp [honestCheck, hwt]
  have hN : (honestCheck s.size t2 y z u x w).N = 2 ^ lg := hlg'
  have hlen := honestStart_len k rnd hlg' (by omega) (by omega) y z u x w wt hwt
  rw [← hck] at b4 b5
  have b6 := (create_honest o g _ s2 rnd _ hN (by omega) (by omega) hlen).symm.trans b5
  obtain ⟨us', h1, -, h3, h4⟩ := ippLoop_honest o _ lg { honestStart g (honestCheck s.size t2 y z u x w) s2 rnd with t := absorbedW p t2 ++ [.sep "ipp v1", .num "n" (2 ^ lg)] } _ _ hlen b6
  have hL : p.ipp.L.length = lg := by rw [h4]; simp [honestIPP, h1]
  have hus := hch.us
  rw [hL] at hus
  obtain rfl : us' = us := h3.symm.trans hus
  rw [← honest_head g s.size s2 t2 rnd lg y z u x w us'] at b4
  refine ⟨?_, hL⟩
  have h5 : p.ipp = (strategyProof (honestMessages g s.size s2 t2 rnd lg) (honestResponses g s.size s2 t2 rnd lg) y z u x w us').ipp := h4
  obtain ⟨q1, q2, q3, q4, q5, q6, q7, q8, q9, q10, q11⟩ := p
  simp only [R1CSProof.head, R1CSProof.mk.injEq] at b4
  simp only at h5
  obtain ⟨c1, c2, c3, c4, c5, c6, c7, c8, c9, c10, -⟩ := b4
  subst h5
  clear hL
  rw [c1, c2, c3, c4, c5, c6, c7, c8, c9, c10]

end CT
