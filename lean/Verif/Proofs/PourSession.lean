import Verif.Proofs.TreeForge
import Verif.Proofs.Coin
import Verif.Spec.Coin
import Verif.Props.Gadgets
import Verif.Props.Completeness

/-!
Prover and Verifier of a payment, step by step. The Provers here commit to the spent coins with the dimension the Verifier uses.
-/

namespace CT

section General
variable {F G X K SK S : Type} [Field F] [DecidableEq F] [AddCommGroup G] [Module F G] [DecidableEq G]

/-- The vector with `L` entries a coin commits to. -/
def wideVec (L : Nat) (v tag : F) : List F := v :: tag :: List.replicate (L - 2) 0

omit [DecidableEq F] in
theorem wideVec_length {L : Nat} (hL : 2 ≤ L) (v tag : F) : (wideVec L v tag).length = L := by
  simp [wideVec]; omega

omit [DecidableEq F] [DecidableEq G] in
theorem msm_wideVec {g : Gens G} {L : Nat} (hL : 2 ≤ L) (hg : L ≤ g.Gs.length) (v tag bl : F) :
    msm (g.pc.Bbl :: g.Gs.take L) (bl :: wideVec L v tag) = coinPoint g v tag bl := by
  obtain ⟨n, rfl⟩ := Nat.exists_eq_add_of_le hL
  rcases hG : g.Gs with _ | ⟨a, _ | ⟨b, l⟩⟩
  · rw [hG] at hg; simp at hg
  · rw [hG] at hg; simp at hg; omega
  · have hz : ∀ (m : List G) (k : Nat), msm m (List.replicate k (0 : F)) = 0 := by
      intro m
      induction m with
      | nil => intro k; cases k <;> simp [msm]
      | cons x m ih =>
        intro k
        cases k with
        | zero => simp [msm]
        | succ k => rw [List.replicate_succ, msm_cons, ih, zero_smul, add_zero]
    rw [show 2 + n = n + 1 + 1 by omega, List.take_succ_cons, List.take_succ_cons, wideVec, msm_cons, msm_cons, msm_cons, hz]
    simp [coinPoint, hG]
    abel

omit [DecidableEq F] [AddCommGroup G] [Module F G] [DecidableEq G] in
theorem val_of_prefix {s s' : PState F G X} (h : s.vecOpen <+: s'.vecOpen) {j i : Nat} (hh : s.Has (.vectorCommit j i)) :
    s'.Has (.vectorCommit j i) ∧ s'.assignment.val (.vectorCommit j i) = s.assignment.val (.vectorCommit j i) := by
  obtain ⟨o, ho, hi⟩ := hh
  obtain ⟨l, hl⟩ := h
  have hj : j < s.vecOpen.length := (List.getElem?_eq_some_iff.1 ho).1
  have e : s'.vecOpen[j]? = s.vecOpen[j]? := by rw [← hl, List.getElem?_append_left hj]
  refine ⟨⟨o, by rw [e]; exact ho, hi⟩, ?_⟩
  simp [Assignment.val, PState.assignment, List.getD_eq_getElem?_getD, e]

omit [DecidableEq F] [DecidableEq G] in
theorem Session.comms_length {o : Oracle F G X} {g : Gens G} {s : PState F G X} {t : VState F G X} (h : Session o g s t) :
    t.vecComms.length = s.vecOpen.length := by
  rw [h.inv.sync.comms, List.length_map]

omit [DecidableEq G] in
/-- Minting a coin. -/
theorem mint_session {o : Oracle F G X} {sch : SigScheme K SK S F} {g : Gens G} (hg : 2 ≤ g.Gs.length) {value : Nat} (hv : value < 2 ^ 64)
    (pk : K) (pkr : S) (bl : F) {s : PState F G X} {t : VState F G X} (hs : Session o g s t) (hG : s.Good) :
    ∃ coin c s' t', coinNew sch g value pk pkr bl = .ok (coin, c) ∧
      mint o sch g value pk pkr bl s = .ok ((coin, c, .vectorCommit s.vecOpen.length 0), s') ∧
      verifyMint o c t = .ok (.vectorCommit s.vecOpen.length 0, t') ∧ Session o g s' t' ∧ s'.Good ∧ s'.deferred = s.deferred ∧
      s.vecOpen <+: s'.vecOpen ∧ s'.vecOpen.length = s.vecOpen.length + 1 ∧ s'.Has (.vectorCommit s.vecOpen.length 0) ∧
      s'.assignment.val (.vectorCommit s.vecOpen.length 0) = (value : F) ∧
      s'.vecOpen = s.vecOpen ++ [(bl, [(value : F), sch.tag (sch.randomizePk pk pkr)])] := by
  set tag := sch.tag (sch.randomizePk pk pkr) with htag
  obtain ⟨V, s1, h1, h2, h3, h4, -⟩ := commitVec_good (g := g) hG [(value : F), tag] bl (by simpa using hg)
  have hV : V = msm (g.pc.Bbl :: g.Gs.take 2) [bl, (value : F), tag] := by
    unfold PState.commitVec at h1
    rw [if_neg (by simp [hg])] at h1
    simp only [Except.ok.injEq, Prod.mk.injEq] at h1
    exact h1.1.1.symm
  have hnew : coinNew sch g value pk pkr bl = .ok (⟨value, tag, bl, pkr⟩, V) := by
    have hl : layerGens g 2 0 = g.Gs.take 2 := by simp [layerGens]
    have hc : layerCommit? g [(value : F), tag] bl 0 = some V := by
      unfold layerCommit?
      change (if (layerGens g 2 0).length ≠ 2 then none else some (msm (g.pc.Bbl :: layerGens g 2 0) [bl, (value : F), tag])) = _
      rw [hl, if_neg (by simp [hg]), hV]
    unfold coinNew
    simp only [← htag, hc]
  have hses := hs.commitVec h1
  have hhas : s1.Has (.vectorCommit s.vecOpen.length 0) := ⟨(bl, [(value : F), tag]), by rw [h4]; simp, by simp⟩
  have hval : s1.assignment.val (.vectorCommit s.vecOpen.length 0) = (value : F) := by
    simp [Assignment.val, PState.assignment, h4, List.getD_eq_getElem?_getD]
  obtain ⟨s2, k1, k2, -, k3⟩ := C14_range_complete (o := o) h2 (by norm_num : 64 ≤ 64) hv (v := LC.ofVar (.vectorCommit s.vecOpen.length 0))
    (PState.hasLC_ofVar hhas) (by rw [eval_ofVar, hval])
  have hsc := sync_rangeProof (G := G) (X := X) (F := F) (LC.ofVar (.vectorCommit s.vecOpen.length 0)) (some value) 64
  obtain ⟨⟨⟩, t2, l1, -⟩ := sameCalls_run o hsc hses.inv.sync.stmt k1
  refine ⟨_, V, s2, t2, hnew, ?_, ?_, hses.gadget hsc k1 l1, k2, k3.deferred.trans h3, ?_, ?_, (k3.ext _ hhas).1, (k3.ext _ hhas).2.trans hval, k3.vecOpen.trans h4⟩
  · unfold mint
    rw [hnew]
    simp only [h1]
    simp [k1, unwrap]
  · unfold verifyMint
    have e : (t.commitVec 2 V).1[0]? = some (.vectorCommit s.vecOpen.length 0) := by
      simp [VState.commitVec, hs.comms_length]
    rw [e]
    simp only
    have l1' : runV o (rangeProof (LC.ofVar (.vectorCommit s.vecOpen.length 0)) none 64) (t.commitVec 2 V).2 = .ok ((), t2) := l1
    rw [l1']
    rfl
  · rw [k3.vecOpen, h4]; exact List.prefix_append _ _
  · rw [k3.vecOpen, h4]; simp

omit [DecidableEq F] [DecidableEq G] in
/-- Adding a constraint that holds. -/
theorem constrain_session {o : Oracle F G X} {g : Gens G} {s : PState F G X} {t : VState F G X} (hs : Session o g s t) (hG : s.Good) {lc : LC F}
    (hl : s.HasLC lc) (h0 : s.assignment.eval lc = 0) : Session o g (s.constrain lc) (t.constrain lc) ∧ (s.constrain lc).Good := by
  obtain ⟨⟨⟩, s', h1, h2, -⟩ := complete_constrain (o := o) hG hl h0
  have : s' = s.constrain lc := by
    change Except.ok ((), s.constrain lc) = _ at h1
    simp only [Except.ok.injEq, Prod.mk.injEq, true_and] at h1
    exact h1.symm
  subst this
  exact ⟨hs.gadget (p := constrain lc) (q := constrain lc) (R := fun _ _ => True) (.constrain (.pure trivial)) h1 rfl, h2⟩

end General

variable {B : Bool → Type} [∀ p, Field (B p)] [∀ p, DecidableEq (B p)] {C : ∀ p, SWCurve (B p)}
  [∀ p, Module (B (!p)) (C p).Pt] {L : Nat} {K SK S : Type}

/-- Spending a coin, once its path has been added. -/
theorem spend_session {o : ∀ p, SideO C p} {fx : Bool} {prm : SelRerand C} {T : CurveTree L 1 (Pts C)} {path path' : Path (C false).Pt (C true).Pt}
    (hL : 2 ≤ L) (hg : L ≤ (prm.gens false).Gs.length) (hr : addRoot T path = .ok path') {tE tE1 : SideV C false} {sE1 : SideP C false}
    (hE : evenVerifierGadget (o false) fx prm T path' tE = .ok tE1)
    (hs : Session (o false) (prm.gens false) sE1 tE1) (hG : sE1.Good) {v tag bl : B (!false)}
    (hQ : path.selected = coinPoint (prm.gens false) v tag bl) :
    ∃ sE2 tE2, verifySpendEven (o false) fx prm tag T path' tE = .ok (.vectorCommit sE1.vecOpen.length 0, tE2) ∧
      Session (o false) (prm.gens false) sE2 tE2 ∧ sE2.Good ∧ sE2.deferred = sE1.deferred ∧ sE1.vecOpen <+: sE2.vecOpen ∧
      sE2.Has (.vectorCommit sE1.vecOpen.length 0) ∧ sE2.assignment.val (.vectorCommit sE1.vecOpen.length 0) = v := by
  have hsel : path'.selected = path.selected := (evenVerifier_ok hr hE).2.1
  have hw := wideVec_length hL v tag
  obtain ⟨V, s1, h1, h2, h3, h4, -⟩ := commitVec_good (g := prm.gens false) hG (wideVec L v tag) bl (by rw [hw]; exact hg)
  have hV : V = path.selected := by
    unfold PState.commitVec at h1
    rw [if_neg (by simp [hw, hg])] at h1
    simp only [Except.ok.injEq, Prod.mk.injEq] at h1
    rw [← h1.1.1, hw, hQ]
    exact msm_wideVec (F := B (!false)) hL hg v tag bl
  subst hV
  have hses := hs.commitVec h1
  rw [hw] at hses
  have hhas0 : s1.Has (.vectorCommit sE1.vecOpen.length 0) := ⟨(bl, wideVec L v tag), by rw [h4]; simp, by rw [hw]; omega⟩
  have hhas1 : s1.Has (.vectorCommit sE1.vecOpen.length 1) := ⟨(bl, wideVec L v tag), by rw [h4]; simp, by rw [hw]; omega⟩
  have hval0 : s1.assignment.val (.vectorCommit sE1.vecOpen.length 0) = v := by
    simp [Assignment.val, PState.assignment, h4, List.getD_eq_getElem?_getD, wideVec]
  have hval1 : s1.assignment.val (.vectorCommit sE1.vecOpen.length 1) = tag := by
    simp [Assignment.val, PState.assignment, h4, List.getD_eq_getElem?_getD, wideVec]
  obtain ⟨hses', hgood⟩ := constrain_session hses h2 (lc := LC.ofVar (.vectorCommit sE1.vecOpen.length 1) - LC.const tag)
    (PState.hasLC_sub (PState.hasLC_ofVar hhas1) PState.hasLC_const) (by rw [eval_sub, eval_ofVar, eval_const, hval1, sub_self])
  refine ⟨_, _, ?_, hses', hgood, h3, by change _ <+: s1.vecOpen; rw [h4]; exact List.prefix_append _ _, hhas0, hval0⟩
  unfold verifySpendEven
  rw [hE]
  simp only [hsel]
  have e0 : (tE1.commitVec L path.selected).1[0]? = some (.vectorCommit sE1.vecOpen.length 0) := by
    simp [VState.commitVec, hs.comms_length, show 0 < L by omega]
  have e1 : (tE1.commitVec L path.selected).1[1]? = some (.vectorCommit sE1.vecOpen.length 1) := by
    simp [VState.commitVec, hs.comms_length, show 1 < L by omega]
  rw [e0, e1]

/-- The Verifier's gadget for `path` can be answered from every pair of states. -/
def Answerable (o : ∀ p, SideO C p) (fx : Bool) (prm : SelRerand C) (T : CurveTree L 1 (Pts C)) (path : Path (C false).Pt (C true).Pt) : Prop :=
  ∀ (sE : SideP C false) (sO : SideP C true) (tE : SideV C false) (tO : SideV C true), Session (o false) (prm.gens false) sE tE →
    Session (o true) (prm.gens true) sO tO → sE.Good → sO.Good →
    ∃ sE' sO' tE' tO', treeVerifierGadget (o false) (o true) fx prm T path tE tO = .ok (path.selected, tE', tO') ∧
      Session (o false) (prm.gens false) sE' tE' ∧ Session (o true) (prm.gens true) sO' tO' ∧ sE'.Good ∧ sO'.Good ∧
      sE'.deferred = sE.deferred ∧ sO'.deferred = sO.deferred ∧ sE.vecOpen <+: sE'.vecOpen

omit [∀ p, Module (B (!p)) (C p).Pt] in
theorem treeVerifier_ok {o : ∀ p, SideO C p} {fx : Bool} {prm : SelRerand C} {T : CurveTree L 1 (Pts C)} {path : Path (C false).Pt (C true).Pt}
    {tE tE' : SideV C false} {tO tO' : SideV C true} {Q : (C false).Pt}
    (h : treeVerifierGadget (o false) (o true) fx prm T path tE tO = .ok (Q, tE', tO')) :
    ∃ path', addRoot T path = .ok path' ∧ evenVerifierGadget (o false) fx prm T path' tE = .ok tE' ∧
      oddVerifierGadget (o true) fx prm T path' tO = .ok tO' := by
  unfold treeVerifierGadget at h
  split at h
  · cases h
  rename_i path' hr
  split at h
  · cases h
  rename_i sE hE
  split at h
  · cases h
  rename_i sO hO
  simp only [Except.ok.injEq, Prod.mk.injEq] at h
  obtain ⟨-, rfl, rfl⟩ := h
  exact ⟨path', hr, hE, hO⟩

/-- The circuits of a Pour can be answered by whoever can answer for its two paths and open the selected points to amounts with the
right sum and the right tags. -/
theorem pour_session {o : ∀ p, SideO C p} {fx : Bool} {prm : SelRerand C} {T : CurveTree L 1 (Pts C)} (hL : 2 ≤ L)
    (hg : L ≤ (prm.gens false).Gs.length) {sch : SigScheme K SK S (B true)} {path0 path1 : Path (C false).Pt (C true).Pt}
    (hp0 : Answerable o fx prm T path0) (hp1 : Answerable o fx prm T path1) {v0 v1 bl0 bl1 : B (!false)} {pk0 pk1 : K}
    (hQ0 : path0.selected = coinPoint (prm.gens false) v0 (sch.tag pk0) bl0)
    (hQ1 : path1.selected = coinPoint (prm.gens false) v1 (sch.tag pk1) bl1)
    {m0 m1 : Nat} (h0 : m0 < 2 ^ 64) (h1 : m1 < 2 ^ 64) (hsum : v0 + v1 = (m0 : B true) + (m1 : B true)) (mk0 mk1 : K) (r0 r1 : S) (b0 b1 : B true)
    (dom : ∀ p, Transcript (B (!p)) (C p).Pt (C (!p)).Pt) :
    ∃ a0 c0 a1 c1 sE sO tE tO, coinNew (F := B (!false)) sch (prm.gens false) m0 mk0 r0 b0 = .ok (a0, c0) ∧
      coinNew (F := B (!false)) sch (prm.gens false) m1 mk1 r1 b1 = .ok (a1, c1) ∧
      (∀ pE pO, pourCircuits o fx prm sch.tag T dom ⟨pE, pO, path0, path1, pk0, pk1, c0, c1⟩ = .ok (tE, tO)) ∧
      Session (o false) (prm.gens false) sE tE ∧ Session (o true) (prm.gens true) sO tO ∧ sE.Good ∧ sO.Good ∧ sE.deferred = [] ∧
      sO.deferred = [] := by
  have gnew : ∀ p, PState.Good (PState.new (dom p) : SideP C p) := fun p =>
    ⟨⟨rfl, rfl, by intro i hi; simp [PState.new] at hi, by simp [PState.new]⟩, by simp [PState.new], by simp [PState.new]⟩
  obtain ⟨a0, c0, s1, t1, n1, -, f1, S1, G1, D1, -, L1, H1, V1, -⟩ := mint_session (o := o false) (sch := sch) (g := prm.gens false)
    (F := B (!false)) (by omega) h0 mk0 r0 b0 (Session.new (dom false)) (gnew false)
  obtain ⟨a1, c1, s2, t2, n2, -, f2, S2, G2, D2, P2, L2, H2, V2, -⟩ := mint_session (o := o false) (sch := sch) (g := prm.gens false)
    (F := B (!false)) (by omega) h1 mk1 r1 b1 S1 G1
  obtain ⟨s3, u3, t3, w3, f3, S3, U3, G3, K3, D3, E3, P3⟩ := hp0 _ _ _ _ S2 (Session.new (dom true)) G2 (gnew true)
  obtain ⟨path0', r0', e0, d0⟩ := treeVerifier_ok f3
  obtain ⟨s4, t4, f4, S4, G4, D4, P4, H4, V4⟩ := spend_session (o := o) hL hg r0' e0 S3 G3 hQ0
  obtain ⟨s5, u5, t5, w5, f5, S5, U5, G5, K5, D5, E5, P5⟩ := hp1 _ _ _ _ S4 U3 G4 K3
  obtain ⟨path1', r1', e1, d1⟩ := treeVerifier_ok f5
  obtain ⟨s6, t6, f6, S6, G6, D6, P6, H6, V6⟩ := spend_session (o := o) hL hg r1' e1 S5 G5 hQ1
  have q1 := val_of_prefix (P2.trans (P3.trans (P4.trans (P5.trans P6)))) H1
  have q2 := val_of_prefix (P3.trans (P4.trans (P5.trans P6))) H2
  have q4 := val_of_prefix (P5.trans P6) H4
  obtain ⟨S7, G7⟩ := constrain_session S6 G6 (lc := balance (.vectorCommit (PState.new (dom false) : SideP C false).vecOpen.length 0) (.vectorCommit s1.vecOpen.length 0)
      (.vectorCommit s3.vecOpen.length 0) (.vectorCommit s5.vecOpen.length 0))
    (PState.hasLC_sub (PState.hasLC_sub (PState.hasLC_add (PState.hasLC_ofVar q1.1) (PState.hasLC_ofVar q2.1)) (PState.hasLC_ofVar q4.1)) (PState.hasLC_ofVar H6))
    (by
      unfold balance
      rw [eval_sub, eval_sub, eval_add, eval_ofVar, eval_ofVar, eval_ofVar, eval_ofVar, q1.2, q2.2, q4.2, V1, V2, V4, V6]
      have : (m0 : B (!false)) + (m1 : B (!false)) = v0 + v1 := hsum.symm
      rw [this]; ring)
  refine ⟨a0, c0, a1, c1, _, _, _, _, n1, n2, fun pE pO => ?_, S7, U5, G7, K5, ?_, ?_⟩
  · unfold pourCircuits pourEvenCircuit pourOddCircuit
    simp only [r0', r1', f1, f2, f4, f6, d0, d1]
  · change s6.deferred = []
    rw [D6, D5, D4, D3, D2, D1]; rfl
  · rw [E5, E3]; rfl

end CT
