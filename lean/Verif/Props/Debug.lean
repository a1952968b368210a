import Verif.Spec.Debug
import Verif.Proofs.Debug
import Verif.Proofs.Exact
import Verif.Props.TreeGadgets
import Verif.Props.BatchedTree

/-!
# C63: debug and release builds agree
-/

namespace CT

section
variable {F G X : Type} [Field F] [DecidableEq F] [AddCommGroup G] [Module F G] [DecidableEq G]

/-- **C63**, Prover. In every state reached through the API, for all randomness, `prove` of a debug build returns exactly what `prove`
of a release build returns: no debug assertion ever fires, not the check that no coefficient of the polynomials is written twice, and
not the sanity check of the coefficient of degree `op_degree`. This includes false statements. -/
theorem C63_prover (o : Oracle F G X) (g : Gens G) (rnd : PRand F) {s : PState F G X} {t : VState F G X} (h : Session o g s t) :
    proveDebug o g rnd s = prove o g rnd s := by
  have hI := h.inv
  unfold proveDebug prove
  simp only
  rw [opSplitsDebug, debugAssert_pos (by unfold opDegree; omega)]
  simp only [Except.map]
  split
  · rfl
  generalize hc : commit1 g rnd _ _ = c
  generalize hs1 : ({ s.pad with transcript := s.pad.transcript ++ [Msg.num "m" s.pad.v.length] ++
    [Msg.point "A_I1" c.AI, Msg.point "A_O1" c.AO, Msg.point "S1" c.S] } : PState F G X) = s1
  cases h2 : s1.createRandomized o with
  | error e => rfl
  | ok s2 =>
    simp only
    have hpi := PState.pad_inv hI.inv
    have hsy := hI.sync.pad
    have hpd : s.pad.deferred = s.deferred := by rw [PState.pad_eq]
    have htd : t.pad.deferred = t.deferred := by unfold VState.pad; rw [VState.padN_eq]
    subst hs1
    obtain ⟨t2, -, -, a3, a4⟩ := createRandomized_synced o g
      { s.pad with transcript := s.pad.transcript ++ [Msg.num "m" s.pad.v.length] ++
        [Msg.point "A_I1" c.AI, Msg.point "A_O1" c.AO, Msg.point "S1" c.S] } s2
      { t.pad with transcript := t.pad.transcript ++ [Msg.num "m" s.pad.v.length] ++
        [Msg.point "A_I1" c.AI, Msg.point "A_O1" c.AO, Msg.point "S1" c.S] }
      ⟨⟨hsy.stmt.constraints, hsy.stmt.left, hsy.stmt.right, hsy.stmt.out, hsy.stmt.pending,
        by simp [hsy.stmt.transcript]⟩, hsy.lenV, hsy.V, hsy.comms⟩
      (by simp only [hpd, htd]; exact hI.deferred) ⟨hpi.lenR, hpi.lenO, hpi.gates, hpi.pend⟩ h2
    have hl : s.pad.aL.length ≤ s2.aL.length := a4.len
    rw [s.pad_length] at hl
    have hvo : s2.vecOpen = s.vecOpen := a4.vecOpen.trans (by show s.pad.vecOpen = _; rw [PState.pad_eq])
    have hsz : s2.aL.length = s2.size := (s2.size_of_ge (by
      intro v hv; rw [hvo] at hv; exact le_trans (s.dim_le_size v hv) hl)).symm
    refine proveTailDebug_eq o g rnd _ c s2 a3 hsz ?_
    have : ({ s.pad with transcript := s.pad.transcript ++ [Msg.num "m" s.pad.v.length] } : PState F G X).size = s.size := s.pad_size
    rw [this]
    omega

omit [Module F G] [DecidableEq F] [Field F] in
theorem tailAsserts_pos {p : R1CSProof F G} {k : Nat} (h : p.PassesAsserts k) : tailAsserts p k = .ok () := by
  have hop := h.op
  have hl : opDegree k < p.T.length := by rw [h.length]; omega
  unfold tailAsserts
  refine debugAssert_pos ⟨by unfold opSplits; rfl, ?_, by rw [h.length]; ring, ?_, ?_, ?_⟩
  · rw [List.getElem?_eq_getElem hl, ← getD_of_lt _ _ 0 hl, hop]
  · exact (em _).imp id h.AI2
  · exact (em _).imp id h.AO2
  · exact (em _).imp id h.S2

omit [Module F G] [DecidableEq F] [Field F] in
theorem tailAsserts_neg {p : R1CSProof F G} {k : Nat} (h : ¬ p.PassesAsserts k) : tailAsserts p k = .error assertionFailed := by
  unfold tailAsserts
  refine debugAssert_neg fun ⟨_, h1, h2, h3, h4, h5⟩ => h ⟨by omega, ?_, h3.resolve_left, h4.resolve_left, h5.resolve_left⟩
  rw [List.getD_eq_getElem?_getD, h1]; rfl

omit [Module F G] in
theorem verificationTupleDebug_eq (o : Oracle F G X) (r : F) (p : R1CSProof F G) (t : VState F G X) :
    verificationTupleDebug o r p t = if p.T.length = 2 * opDegree t.vecComms.length + 3 then
      (match verifyHead o p t with
      | .error e => .error e
      | .ok (n1, s') => verifyTailDebug o r p n1 s') else .error assertionFailed := by
  have hv : opDegree t.pad.vecComms.length = opDegree t.vecComms.length := by rw [VState.pad_eq]
  unfold verificationTupleDebug
  simp only
  rw [opSplitsDebug, debugAssert_pos (by unfold opDegree; omega), hv]
  simp only [Except.map, bind, Except.bind]
  by_cases hT : p.T.length = 2 * opDegree t.vecComms.length + 3
  swap
  · rw [debugAssert_neg (by omega), if_neg hT]
  rw [debugAssert_pos (by omega), if_pos hT]
  simp only
  unfold verifyHead validateAndAppendPoint
  by_cases h1 : p.AI1 = 0
  · simp [h1]
  by_cases h2 : p.AO1 = 0
  · simp [h1, h2]
  by_cases h3 : p.S1 = 0
  · simp [h1, h2, h3]
  simp only [h1, h2, h3, if_false, or_self, List.append_assoc, List.cons_append, List.nil_append]
  generalize VState.createRandomized o _ = cr
  cases cr <;> rfl

omit [DecidableEq F] [Module F G] in
theorem verifyHead_comms {o : Oracle F G X} {p : R1CSProof F G} {t t2 : VState F G X} {n1 : Nat}
    (h : verifyHead o p t = .ok (n1, t2)) : t2.vecComms = t.vecComms := by
  unfold verifyHead at h
  simp only at h
  split at h
  · cases h
  split at h
  · cases h
  rename_i s' hs
  simp only [Except.ok.injEq, Prod.mk.injEq] at h
  obtain ⟨-, rfl⟩ := h
  rw [(createRandomized_mono hs).2.1, VState.pad_eq]

/-- **C63**, Verifier: on proofs with the expected points the two builds do the same, also for the errors. -/
theorem C63_verifier_same (o : Oracle F G X) (g : Gens G) (r : F) (p : R1CSProof F G) (t : VState F G X)
    (hp : p.PassesAsserts t.vecComms.length) : verifyDebug o g r p t = verify o g r p t := by
  unfold verifyDebug verify
  rw [verificationTupleDebug_eq, verificationTuple_eq, if_pos hp.length]
  cases hh : verifyHead o p t with
  | error e => rfl
  | ok x =>
    obtain ⟨n1, t2⟩ := x
    simp only
    unfold verifyTailDebug
    rw [verifyHead_comms hh, tailAsserts_pos hp]
    cases verifyTail o r p n1 t2 <;> rfl

/-- **C63**, Verifier: on all other proofs a debug build panics, or reports the error the release build reports. -/
theorem C63_verifier_other (o : Oracle F G X) (g : Gens G) (r : F) (p : R1CSProof F G) (t : VState F G X)
    (hp : ¬ p.PassesAsserts t.vecComms.length) : verifyDebug o g r p t = .error assertionFailed ∨
      ∃ e, verify o g r p t = .error e ∧ verifyDebug o g r p t = .error e := by
  unfold verifyDebug verify
  rw [verificationTupleDebug_eq, verificationTuple_eq]
  by_cases hl : p.T.length = 2 * opDegree t.vecComms.length + 3
  swap
  · rw [if_neg hl]; exact .inl rfl
  rw [if_pos hl]
  cases hh : verifyHead o p t with
  | error e => exact .inr ⟨e, rfl, rfl⟩
  | ok x =>
    obtain ⟨n1, t2⟩ := x
    simp only
    unfold verifyTailDebug
    rw [verifyHead_comms hh, tailAsserts_neg hp]
    cases verifyTail o r p n1 t2 with
    | error e => exact .inr ⟨e, rfl, rfl⟩
    | ok v => exact .inl rfl

/-- **C63**, Verifier: a debug build accepts exactly the proofs a release build accepts whose points `T` and second-phase points have
the expected form. -/
theorem C63_verifier_accepts (o : Oracle F G X) (g : Gens G) (r : F) (p : R1CSProof F G) (t : VState F G X) :
    verifyDebug o g r p t = .ok () ↔ verify o g r p t = .ok () ∧ p.PassesAsserts t.vecComms.length := by
  by_cases hp : p.PassesAsserts t.vecComms.length
  · rw [C63_verifier_same o g r p t hp]; simp [hp]
  · simp only [hp, and_false, iff_false]
    rcases C63_verifier_other o g r p t hp with h | ⟨e, -, h⟩ <;> rw [h] <;> simp

omit [DecidableEq G] in
theorem proveTail_asserts (o : Oracle F G X) (g : Gens G) (rnd : PRand F) (n1 : Nat) (c1 : Com G)
    (s : PState F G X) {p : R1CSProof F G} {t : Transcript F G X}
    (h : proveTail o g rnd n1 c1 s = .ok (p, t)) : p.PassesAsserts s.vecOpen.length := by
  unfold proveTail at h
  simp only [challengeScalar] at h
  split at h
  · simp at h
  split at h
  · simp at h
  rename_i h2
  split at h
  · simp at h
  by_cases hy : o (s.transcript ++ [Msg.point "A_I2" (commit2 g rnd s n1 s.size).AI,
    Msg.point "A_O2" (commit2 g rnd s n1 s.size).AO, Msg.point "S2" (commit2 g rnd s n1 s.size).S] ++ [Msg.chal "y"]) = 0
  · exact absurd ((if_pos hy).symm.trans h) (by simp)
  replace h := (if_neg hy).symm.trans h
  split at h
  · simp at h
  split at h
  · simp at h
  simp only [Except.ok.injEq, Prod.mk.injEq] at h
  have hz : s.vecOpen.length ≠ 0 → commit2 g rnd s n1 s.size = ⟨0, 0, 0⟩ := by
    intro hne
    unfold commit2
    rw [if_neg]
    intro hc
    exact h2 ⟨hc, fun he => hne (by rw [he]; rfl)⟩
  rw [← h.1]
  refine ⟨by simp; omega, ?_, fun hne => ?_, fun hne => ?_, fun hne => ?_⟩
  · simp only [getD_map_range]
    rw [if_pos (by omega)]; simp
  · simp only [hz hne]
  · simp only [hz hne]
  · simp only [hz hne]

/-- **C63**: the Verifier's assertions never fire for a proof made by `prove` (of either build): on it both builds of the Verifier
do the same. -/
theorem C63_honest_proofs (o : Oracle F G X) (g : Gens G) (rnd : PRand F) {s : PState F G X} {t : VState F G X} (h : Session o g s t)
    {p : R1CSProof F G} {tr : Transcript F G X} (hp : prove o g rnd s = .ok (p, tr)) (r : F) :
    verifyDebug o g r p t = verify o g r p t := by
  refine C63_verifier_same o g r p t ?_
  have hc : t.vecComms.length = s.vecOpen.length := by rw [h.inv.sync.comms, List.length_map]
  rw [hc]
  rw [prove_eq] at hp
  split at hp
  · simp at hp
  split at hp
  · simp at hp
  rename_i s2 h2
  have := proveTail_asserts o g rnd _ _ s2 hp
  have hpi := PState.pad_inv h.inv.inv
  have hsy := h.inv.sync.pad
  have hpd : s.pad.deferred = s.deferred := by rw [PState.pad_eq]
  have htd : t.pad.deferred = t.deferred := by unfold VState.pad; rw [VState.padN_eq]
  unfold PState.secondPhase at h2
  obtain ⟨t2, -, -, -, a4⟩ := createRandomized_synced o g
    { s.pad with transcript := s.pad.transcript ++ [Msg.num "m" s.v.length,
      Msg.point "A_I1" (s.firstCommitments g rnd).AI, Msg.point "A_O1" (s.firstCommitments g rnd).AO,
      Msg.point "S1" (s.firstCommitments g rnd).S] } s2
    { t.pad with transcript := t.pad.transcript ++ [Msg.num "m" s.v.length,
      Msg.point "A_I1" (s.firstCommitments g rnd).AI, Msg.point "A_O1" (s.firstCommitments g rnd).AO,
      Msg.point "S1" (s.firstCommitments g rnd).S] }
    ⟨⟨hsy.stmt.constraints, hsy.stmt.left, hsy.stmt.right, hsy.stmt.out, hsy.stmt.pending,
      by simp [hsy.stmt.transcript]⟩, hsy.lenV, hsy.V, hsy.comms⟩
    (by simp only [hpd, htd]; exact h.inv.deferred) ⟨hpi.lenR, hpi.lenO, hpi.gates, hpi.pend⟩ h2
  have hvo : s2.vecOpen = s.vecOpen := a4.vecOpen.trans (by show s.pad.vecOpen = _; rw [PState.pad_eq])
  rwa [hvo] at this

end

section
variable {B : Bool → Type} [∀ p, Field (B p)] [∀ p, DecidableEq (B p)] {C : ∀ p, SWCurve (B p)}
  [∀ p, Module (B (!p)) (C p).Pt] {L M : Nat}

omit [∀ p, Module (B (!p)) (C p).Pt] [∀ p, DecidableEq (B p)] in
theorem addRoot_length [NeZero M] {T : CurveTree L M (Pts C)} {path path' : Path (C false).Pt (C true).Pt}
    (h : addRoot T path = .ok path') : path'.even.length + path'.odd.length = path.even.length + path.odd.length + 1 := by
  unfold addRoot at h
  cases T <;> simp only at h <;> split at h <;> first | cases h; done | skip
  all_goals (cases h; simp only [List.length_cons]; omega)

omit [∀ p, Module (B (!p)) (C p).Pt] in
/-- **C63**, the Verifier's tree gadget, and the part of C24 that is missing in release builds: a debug build accepts exactly the paths
a release build accepts that have as many levels as the tree (the path sent does not contain the root), with the same result. -/
theorem C63_tree_height [NeZero M] {prm : SelRerand C} {T : CurveTree L M (Pts C)} {oE : SideO C false} {oO : SideO C true} {fx : Bool}
    {path : Path (C false).Pt (C true).Pt} {tE : SideV C false} {tO : SideV C true}
    {res : (C false).Pt × SideV C false × SideV C true} :
    treeVerifierGadgetDebug oE oO fx prm T path tE tO = .ok res ↔
      treeVerifierGadget oE oO fx prm T path tE tO = .ok res ∧ path.even.length + path.odd.length + 1 = T.height := by
  unfold treeVerifierGadgetDebug treeVerifierGadget
  cases hr : addRoot T path with
  | error e => simp
  | ok path' =>
    simp only
    have hl := addRoot_length hr
    by_cases hh : T.height = path'.even.length + path'.odd.length
    · rw [debugAssert_pos hh]
      exact ⟨fun h => ⟨h, by omega⟩, fun h => h.1⟩
    · rw [debugAssert_neg hh]
      simp only [reduceCtorEq, false_iff, not_and]
      intro _; omega

omit [∀ p, Module (B (!p)) (C p).Pt] in
theorem addRoots_length {T : CurveTree L M (Pts C)} {path path' : MultiPath (C false).Pt (C true).Pt M}
    (h : addRoots T path = .ok path') : path'.even.length + path'.odd.length = path.even.length + path.odd.length + 1 := by
  unfold addRoots at h
  cases T <;> simp only at h <;> split at h <;> first | cases h; done | skip
  all_goals (cases h; simp only [List.length_cons]; omega)

omit [∀ p, Module (B (!p)) (C p).Pt] in
/-- **C63**, the batched gadget of the Verifier. -/
theorem C63_batched_height {prm : SelRerand C} {T : CurveTree L M (Pts C)} {oE : SideO C false} {oO : SideO C true} {fx : Bool}
    {path : MultiPath (C false).Pt (C true).Pt M} {tE : SideV C false} {tO : SideV C true}
    {res : (Fin M → (C false).Pt) × SideV C false × SideV C true} :
    multiTreeVerifierGadgetDebug oE oO fx prm T path tE tO = .ok res ↔
      multiTreeVerifierGadget oE oO fx prm T path tE tO = .ok res ∧ path.even.length + path.odd.length + 1 = T.height := by
  unfold multiTreeVerifierGadgetDebug multiTreeVerifierGadget
  cases hr : addRoots T path with
  | error e => simp
  | ok path' =>
    simp only
    have hl := addRoots_length hr
    by_cases hh : T.height = path'.even.length + path'.odd.length
    · rw [debugAssert_pos hh]
      exact ⟨fun h => ⟨h, by omega⟩, fun h => h.1⟩
    · rw [debugAssert_neg hh]
      simp only [reduceCtorEq, false_iff, not_and]
      intro _; omega

/-- **C63**: the paths made by the Prover's gadget pass: for them both builds of the Verifier's gadget return the re-randomised leaf. -/
theorem C63_honest_paths [NeZero M] {prm : SelRerand C} (hg : prm.tree.EnoughGens L M) (hL : 2 ≤ L)
    {set : List (C false).Pt} {height : Option Nat} {fuel : Nat} {T : CurveTree L M (Pts C)}
    (ht : fromSet prm.tree set height fuel = some (.ok T)) (hfuel : set.length + height.getD 0 ≤ fuel) (h0 : T.height ≠ 0)
    {oE : SideO C false} {oO : SideO C true} {fx : Bool} {rnd : ∀ p, Nat → B (!p)}
    (hE : ∀ j, j + 1 < (T.height + 1) / 2 → rnd false j ≠ 0) (hO : ∀ j < T.height / 2, rnd true j ≠ 0)
    {sE sE' : SideP C false} {sO sO' : SideP C true} {tE : SideV C false} {tO : SideV C true}
    (hsE : Session oE (prm.gens false) sE tE) (hsO : Session oO (prm.gens true) sO tO)
    {i : Nat} {path : Path (C false).Pt (C true).Pt} {r : B (!false)}
    (hp : treeProverGadget oE oO fx prm rnd T i 0 sE sO = .ok ((path, r), sE', sO')) :
    ∃ leaf tE' tO', set[i % L ^ T.height]? = some leaf ∧
      treeVerifierGadgetDebug oE oO fx prm T path tE tO = .ok (leaf + r • prm.h false, tE', tO') ∧
      treeVerifierGadget oE oO fx prm T path tE tO = .ok (leaf + r • prm.h false, tE', tO') := by
  obtain ⟨leaf, h1, -, ⟨path', h2, h3, h4⟩, tE', tO', h5, -⟩ :=
    C23_prover_verifier_agree hg hL ht hfuel h0 hE hO hsE hsO hp
  have hl := addRoot_length h2
  exact ⟨leaf, tE', tO', h1, C63_tree_height.2 ⟨h5, by omega⟩, h5⟩

end
open Curve19 in
/-- **C24** in debug builds: the path with one level for a tree of height 3, accepted by release builds (`C24_short_path_accepted`),
is refused. -/
theorem C63_short_path_refused {path : Path (Pts Cs false) (Pts Cs true)} (hp : path.even.length + path.odd.length + 1 = 1) (fx : Bool)
    (tE : SideV Cs false) (tO : SideV Cs true)
    (res : (Cs false).Pt × SideV Cs false × SideV Cs true) :
    treeVerifierGadgetDebug (o false) (o true) fx prm T3 path tE tO ≠ .ok res := by
  intro h
  have := (C63_tree_height.1 h).2
  rw [C24_short_path_accepted.1] at this
  omega

end CT
