import Verif.Proofs.PourSession
import Verif.Proofs.Widen
import Verif.Proofs.Cost
import Verif.Props.TreeGadgets

/-!
The honest Prover of a payment. It commits to the spent coins with dimension 2 while the Verifier uses dimension `L`; the Verifier's calls are
those of the Prover whose vectors are extended by zeros.
-/

namespace CT

section General
variable {F G X K SK S : Type} [Field F]

theorem PState.widen_eq {ds : Nat → Nat} {s : PState F G X} (h : ∀ j c, s.vecOpen[j]? = some c → ds j ≤ c.2.length) : s.widen ds = s := by
  have : (s.widen ds).vecOpen = s.vecOpen := by
    apply List.ext_getElem?
    intro j
    rw [PState.widen_get]
    cases hj : s.vecOpen[j]? with
    | none => rfl
    | some c => simp [padTo_of_le (h j c hj)]
  exact congrArg (fun vo => ({ s with vecOpen := vo } : PState F G X)) this

theorem PState.widen_append {ds : Nat → Nat} {s s' : PState F G X} {c : F × List F} (h : s'.vecOpen = s.vecOpen ++ [c]) :
    (s'.widen ds).vecOpen = (s.widen ds).vecOpen ++ [(c.1, padTo (ds s.vecOpen.length) c.2)] := by
  unfold PState.widen
  simp only [h, List.mapIdx_append, List.mapIdx_cons, List.mapIdx_nil, zero_add]

variable [AddCommGroup G] [Module F G]

theorem PState.commitVec_ok {g : Gens G} {s s' : PState F G X} {v : List F} {bl : F} {V : G} {vars : List Variable}
    (h : s.commitVec g v bl = .ok ((V, vars), s')) : V = msm (g.pc.Bbl :: g.Gs.take v.length) (bl :: v) ∧
      (vars = (List.range v.length).map fun i => .vectorCommit s.vecOpen.length i) ∧
      s' = { s with vecOpen := s.vecOpen ++ [(bl, v)], transcript := s.transcript ++ [.point "V" V] } := by
  unfold PState.commitVec at h
  by_cases hl : (g.pc.Bbl :: g.Gs.take v.length).length ≠ (bl :: v).length
  · rw [if_pos hl] at h; cases h
  · rw [if_neg hl] at h
    simp only [Except.ok.injEq, Prod.mk.injEq] at h
    obtain ⟨⟨rfl, rfl⟩, rfl⟩ := h
    exact ⟨rfl, rfl, rfl⟩

theorem PState.widen_commitVec {ds : Nat → Nat} {g : Gens G} {s s' : PState F G X} {v v' : List F} {bl : F} {V : G} {vars : List Variable}
    (h : s.commitVec g v bl = .ok ((V, vars), s')) (hv : padTo (ds s.vecOpen.length) v = v') (hg : v'.length ≤ g.Gs.length)
    (hm : msm (g.pc.Bbl :: g.Gs.take v'.length) (bl :: v') = msm (g.pc.Bbl :: g.Gs.take v.length) (bl :: v)) :
    (s.widen ds).commitVec g v' bl = .ok ((V, (List.range v'.length).map fun i => .vectorCommit s.vecOpen.length i), s'.widen ds) := by
  obtain ⟨h1, h2, h3⟩ := PState.commitVec_ok h
  unfold PState.commitVec
  rw [if_neg (by simp [hg])]
  simp only [PState.widen_length, hm, ← h1, Except.ok.injEq, Prod.mk.injEq, true_and]
  subst h3
  unfold PState.widen
  simp only [List.mapIdx_append, List.mapIdx_cons, List.mapIdx_nil, zero_add, hv]

end General

section Satisfied
variable {F G X : Type} [Field F]

theorem PState.widen_satisfied (ds : Nat → Nat) {s : PState F G X} (h : s.Satisfied) : (s.widen ds).Satisfied := by
  unfold PState.Satisfied at h ⊢
  rw [PState.widen_assignment]
  exact h

end Satisfied

variable {B : Bool → Type} [∀ p, Field (B p)] [∀ p, DecidableEq (B p)] {C : ∀ p, SWCurve (B p)}
  [∀ p, Module (B (!p)) (C p).Pt] {L : Nat} {K SK S : Type} {p : Bool}

theorem proverChildren_widen {prm : SelRerand C} {w : Wit B (Pts C) p} {pr : B (!p)} {s s' : SideP C p} {ch : List (LC (B (!p)))} {ds : Nat → Nat}
    (hds : ∀ j, ds j ≤ w.siblings.length) (hg : w.siblings.length ≤ (prm.gens p).Gs.length)
    (h : proverChildren prm p w pr s = .ok (ch, s')) :
    proverChildren prm p w pr (s.widen ds) = .ok (ch, s'.widen ds) := by
  unfold proverChildren at h ⊢
  split at h
  · rename_i h0
    rw [if_pos h0]
    simp only [Except.ok.injEq, Prod.mk.injEq] at h ⊢
    obtain ⟨rfl, rfl⟩ := h
    exact ⟨rfl, rfl⟩
  · rename_i h0
    rw [if_neg h0]
    split at h
    · cases h
    rename_i V vars s1 hc
    simp only [Except.ok.injEq, Prod.mk.injEq] at h
    obtain ⟨rfl, rfl⟩ := h
    have hvars := (PState.commitVec_ok hc).2.1
    rw [PState.widen_commitVec (F := B (!p)) hc (padTo_of_le (hds _)) hg rfl, hvars]

theorem proverLoop_widen {o : SideO C p} {fx : Bool} {prm : SelRerand C} {nodes : WitPath B (Pts C)} {rnd : ∀ p, Nat → B (!p)} {ds : Nat → Nat}
    (hds : ∀ j, ds j ≤ L) (hg : L ≤ (prm.gens p).Gs.length) (ns : List (Wit B (Pts C) p)) : ∀ (i : Nat), (∀ w ∈ ns, w.siblings.length = L) →
    ∀ {s s' : SideP C p}, proverLoop o fx prm nodes rnd i ns s = .ok s' → proverLoop o fx prm nodes rnd i ns (s.widen ds) = .ok (s'.widen ds) := by
  induction ns with
  | nil =>
    intro i _ s s' h
    simp only [proverLoop, Except.ok.injEq] at h ⊢
    rw [h]
  | cons w ws ih =>
    intro i hw s s' h
    have hL := hw w (List.mem_cons_self ..)
    simp only [proverLoop] at h ⊢
    split at h
    · cases h
    rename_i re hre
    split at h
    · cases h
    rename_i s1 h1
    have : proverLevel o fx prm w (parentScalar rnd re p i) (rnd (!p) i) (s.widen ds) = .ok (s1.widen ds) := by
      unfold proverLevel at h1 ⊢
      split at h1
      · cases h1
      rename_i ch s2 hc
      rw [proverChildren_widen (fun j => (hds j).trans hL.ge) (hL.trans_le hg) hc]
      simp only
      cases hr : runP o (singleLevel (C (!p)) fx (prm.layer (!p)) (w.child + rnd (!p) i • prm.h (!p)) ch
        (some (w.child + (prm.layer (!p)).delta)) (some (prm.toNat (!!p) (rnd (!p) i)))) s2 with
      | error e => rw [hr] at h1; cases h1
      | ok x =>
        obtain ⟨a, s3⟩ := x
        rw [hr] at h1
        rw [runP_widen o ds _ hr]
        simp only [Except.map, Except.ok.injEq] at h1 ⊢
        rw [h1]
    simp only [this]
    exact ih _ (fun w hw' => hw w (List.mem_cons_of_mem _ hw')) h

/-- Every level needs at least `L` multipliers. -/
theorem proverLoop_size {o : SideO C p} {fx : Bool} {prm : SelRerand C} {nodes : WitPath B (Pts C)} {rnd : ∀ p, Nat → B (!p)}
    (h3 : 3 ≤ (prm.layer (!p)).lambda) (ns : List (Wit B (Pts C) p)) : ∀ (i : Nat), (∀ w ∈ ns, w.siblings.length = L) →
    ∀ {s s' : SideP C p}, proverLoop o fx prm nodes rnd i ns s = .ok s' → s.aL.length + L * ns.length ≤ s'.aL.length := by
  induction ns with
  | nil =>
    intro i _ s s' h
    simp only [proverLoop, Except.ok.injEq] at h
    rw [h]; simp
  | cons w ws ih =>
    intro i hw s s' h
    have hL := hw w (List.mem_cons_self ..)
    simp only [proverLoop] at h
    split at h
    · cases h
    rename_i re hre
    split at h
    · cases h
    rename_i s1 h1
    have h2 := ih _ (fun w hw' => hw w (List.mem_cons_of_mem _ hw')) h
    have : s.aL.length + L ≤ s1.aL.length := by
      unfold proverLevel at h1
      split at h1
      · cases h1
      rename_i ch s2 hc
      have hch : ch.length = L ∧ s2.aL = s.aL := by
        unfold proverChildren at hc
        split at hc
        · simp only [Except.ok.injEq, Prod.mk.injEq] at hc
          obtain ⟨rfl, rfl⟩ := hc
          exact ⟨by simpa using hL, rfl⟩
        · split at hc
          · cases hc
          rename_i V vars s1 hcv
          obtain ⟨-, rfl, rfl⟩ := PState.commitVec_ok hcv
          simp only [Except.ok.injEq, Prod.mk.injEq] at hc
          obtain ⟨rfl, rfl⟩ := hc
          exact ⟨by simpa using hL, rfl⟩
      cases hr : runP o (singleLevel (C (!p)) fx (prm.layer (!p)) (w.child + rnd (!p) i • prm.h (!p)) ch
        (some (w.child + (prm.layer (!p)).delta)) (some (prm.toNat (!!p) (rnd (!p) i)))) s2 with
      | error e => rw [hr] at h1; cases h1
      | ok x =>
        obtain ⟨a, s3⟩ := x
        rw [hr] at h1
        simp only [Except.map, Except.ok.injEq] at h1
        subst h1
        have := ((costs_singleLevel (C (!p)) fx (prm.layer (!p)) h3 _ ch _ _).runP o hr).multipliers
        simp only [PState.metrics, hch] at this
        omega
    rw [List.length_cons, Nat.mul_succ]
    omega

theorem pathTo_siblings {prm : SelRerand C} {T : CurveTree L 1 (Pts C)} {nodes : WitPath B (Pts C)} {leaf : (C false).Pt}
    (hT : T.PathTo prm.tree 0 nodes ⟨false, leaf⟩) (p : Bool) : ∀ w ∈ nodes p, w.siblings.length = L := by
  intro n hn
  obtain ⟨k, hk, rfl⟩ := List.getElem_of_mem hn
  cases T with
  | even n =>
    obtain ⟨w, rfl, h1, h2, h3⟩ := hT
    exact (from_nodes h2 p k _ (List.getElem?_eq_getElem hk)).1
  | odd n =>
    obtain ⟨w, rfl, h1, h2, h3⟩ := hT
    exact (from_nodes h2 p k _ (List.getElem?_eq_getElem hk)).1

omit [∀ p, Module (B (!p)) (C p).Pt] in
theorem treeVerifier_selected {o : ∀ p, SideO C p} {fx : Bool} {prm : SelRerand C} {T : CurveTree L 1 (Pts C)} {path : Path (C false).Pt (C true).Pt}
    {tE tE' : SideV C false} {tO tO' : SideV C true} {Q : (C false).Pt}
    (h : treeVerifierGadget (o false) (o true) fx prm T path tE tO = .ok (Q, tE', tO')) : path.selected = Q := by
  unfold treeVerifierGadget at h
  split at h
  · cases h
  rename_i path' hr
  split at h
  · cases h
  rename_i sE hE
  split at h
  · cases h
  simp only [Except.ok.injEq, Prod.mk.injEq] at h
  rw [← h.1]
  unfold addRoot at hr
  split at hr <;> split at hr
  · cases hr; rfl
  · cases hr
  · cases hr; rfl
  · cases hr

/-- The honest spend of a coin. -/
theorem proveSpend_session {o : ∀ p, SideO C p} {fx : Bool} {prm : SelRerand C} (hv : prm.Valid) (hg : ∀ p, L ≤ (prm.gens p).Gs.length) (hL : 2 ≤ L)
    {T : CurveTree L 1 (Pts C)} {i : Nat} {nodes : WitPath B (Pts C)} {leaf : (C false).Pt} (hw : T.witness prm.tree i 0 = .ok nodes)
    (hT : T.PathTo prm.tree 0 nodes ⟨false, leaf⟩) (h0 : T.height ≠ 0) {rnd : ∀ p, Nat → B (!p)} (hr : SpendOk prm T i rnd)
    {coin : Coin (B true) S} (hleaf : leaf = coin.commitment (F := B (!false)) (prm.gens false)) {ds : Nat → Nat} {sE : SideP C false} {sO : SideP C true} {tE : SideV C false}
    {tO : SideV C true} (hds : ∀ j, ds j ≤ L) (hds' : ∀ j, sE.vecOpen.length ≤ j → ds j = L) (gE : sE.Good) (gO : sO.Good)
    (hE : Session (o false) (prm.gens false) (sE.widen ds) tE) (hO : Session (o true) (prm.gens true) sO tO) :
    ∃ path n sE' sO' path' tE' tO', proveSpend o fx prm T rnd coin i sE sO = .ok ((path, .vectorCommit n 0), sE', sO') ∧
      addRoot T path = .ok path' ∧ verifySpendEven (o false) fx prm coin.tag T path' tE = .ok (.vectorCommit n 0, tE') ∧
      oddVerifierGadget (o true) fx prm T path' tO = .ok tO' ∧
      Session (o false) (prm.gens false) (sE'.widen ds) tE' ∧ Session (o true) (prm.gens true) sO' tO' ∧ sE'.Good ∧ sO'.Good ∧
      sE'.deferred = sE.deferred ∧ sO'.deferred = sO.deferred ∧ sE.vecOpen <+: sE'.vecOpen ∧ sE'.Has (.vectorCommit n 0) ∧
      sE'.assignment.val (.vectorCommit n 0) = (coin.value : B (!false)) ∧ sE.aL.length + L * (T.height / 2) ≤ sE'.aL.length ∧
      (T.height = 1 → sE'.aL.length = sE.aL.length ∧ ∃ c, c.2.length = 2 ∧ sE'.vecOpen = sE.vecOpen ++ [c]) := by
  obtain ⟨l1, l2⟩ := pathTo_lengths hT
  obtain ⟨path, r, s1, u1, k1, k2, k3, k4, k5, k6⟩ := path_complete (o false) (o true) fx hv hg hT (rnd := rnd) (hr.avoids nodes hw) gE gO
  have hsib := pathTo_siblings hT
  -- the run on the extended vectors
  have k1w : pathProverGadget (o false) (o true) fx prm rnd nodes (sE.widen ds) sO = .ok ((path, r), s1.widen ds, u1) ∧
      sE.aL.length + L * (T.height / 2) ≤ s1.aL.length ∧ (T.height = 1 → s1 = sE) := by
    have h3 : 3 ≤ (prm.layer true).lambda := by
      have := hv.windows true
      unfold windows at this
      omega
    unfold pathProverGadget at k1 ⊢
    split at k1
    · cases k1
    rename_i sE1 e1
    split at k1
    · cases k1
    rename_i sO1 e2
    simp only [Except.ok.injEq, Prod.mk.injEq] at k1
    obtain ⟨⟨rfl, rfl⟩, rfl, rfl⟩ := k1
    have := proverLoop_size h3 _ _ (hsib false) e1
    rw [proverLoop_widen hds (hg false) _ _ (hsib false) e1]
    simp only [true_and]
    rw [l2] at this
    refine ⟨this, fun h1 => ?_⟩
    rw [List.length_eq_zero_iff.1 (l2.trans (by rw [h1]))] at e1
    simp only [proverLoop, Except.ok.injEq] at e1
    exact e1.symm
  obtain ⟨k1w, ksz, kone⟩ := k1w
  obtain ⟨tE1, tO1, v1, v2, v3⟩ := path_session hT h0 (rnd := rnd) (fun j hj => hr.even j (by omega)) (fun j hj => hr.odd j (by omega)) hE hO k1w
  obtain ⟨path', r1, r2, r3⟩ := treeVerifier_ok (o := o) v1
  have hsel := treeVerifier_selected (o := o) v1
  obtain ⟨V, s2, c1, c2, c3, c4, c5, -⟩ := commitVec_good (g := prm.gens false) k2 [(coin.value : B (!false)), coin.tag] (coin.blinding + r)
    (by simpa using hL.trans (hg false))
  have hV : path.selected = V := by
    rw [(PState.commitVec_ok (F := B (!false)) c1).1, hsel, hleaf]
    have := msm_wideVec (F := B (!false)) (le_refl 2) (hL.trans (hg false)) (coin.value : B (!false)) coin.tag (coin.blinding + r)
    rw [show wideVec 2 (coin.value : B (!false)) coin.tag = [(coin.value : B (!false)), coin.tag] from rfl] at this
    simp only [List.length_cons, List.length_nil, zero_add, Nat.reduceAdd]
    rw [this]
    unfold Coin.commitment coinPoint
    rw [add_smul, ← add_assoc]
    rfl
  -- the constraint
  have hhas0 : s2.Has (.vectorCommit s1.vecOpen.length 0) := ⟨(coin.blinding + r, [(coin.value : B (!false)), coin.tag]), by rw [c4]; simp, by simp⟩
  have hhas1 : s2.Has (.vectorCommit s1.vecOpen.length 1) := ⟨(coin.blinding + r, [(coin.value : B (!false)), coin.tag]), by rw [c4]; simp, by simp⟩
  have hval0 : s2.assignment.val (.vectorCommit s1.vecOpen.length 0) = (coin.value : B (!false)) := by
    simp [Assignment.val, PState.assignment, c4, List.getD_eq_getElem?_getD]
  have hval1 : s2.assignment.val (.vectorCommit s1.vecOpen.length 1) = coin.tag := by
    simp [Assignment.val, PState.assignment, c4, List.getD_eq_getElem?_getD]
  have hlen : sE.vecOpen.length ≤ s1.vecOpen.length := k6.length_le
  have hw2 : padTo (ds s1.vecOpen.length) [(coin.value : B (!false)), coin.tag] = wideVec L (coin.value : B (!false)) coin.tag := by
    rw [hds' _ hlen]; rfl
  have hwl := wideVec_length (F := B (!false)) hL (coin.value : B (!false)) coin.tag
  have c1w := PState.widen_commitVec (F := B (!false)) (ds := ds) c1 hw2 (by rw [hwl]; exact hg false) (by
    rw [hwl, msm_wideVec (F := B (!false)) hL (hg false)]
    exact (msm_wideVec (F := B (!false)) (le_refl 2) (hL.trans (hg false)) (coin.value : B (!false)) coin.tag (coin.blinding + r)).symm)
  have hses := v2.commitVec c1w
  rw [hwl] at hses
  have hgood : (s2.constrain (LC.ofVar (.vectorCommit s1.vecOpen.length 1) - LC.const (F := B (!false)) coin.tag)).Good := by
    obtain ⟨⟨⟩, s', h1, h2, -⟩ := complete_constrain (o := o false) c2 (lc := LC.ofVar (.vectorCommit s1.vecOpen.length 1) - LC.const (F := B (!false)) coin.tag)
      (PState.hasLC_sub (PState.hasLC_ofVar hhas1) PState.hasLC_const) (by rw [eval_sub, eval_ofVar, eval_const, hval1, sub_self])
    change Except.ok ((), s2.constrain _) = _ at h1
    simp only [Except.ok.injEq, Prod.mk.injEq, true_and] at h1
    rw [h1]; exact h2
  have hses' := hses.gadget (p := constrain (LC.ofVar (.vectorCommit s1.vecOpen.length 1) - LC.const (F := B (!false)) coin.tag))
    (q := constrain (LC.ofVar (.vectorCommit s1.vecOpen.length 1) - LC.const (F := B (!false)) coin.tag)) (R := fun _ _ => True) (.constrain (.pure trivial)) rfl rfl
  refine ⟨path, s1.vecOpen.length, s2.constrain (LC.ofVar (.vectorCommit s1.vecOpen.length 1) - LC.const (F := B (!false)) coin.tag), u1, path', _, tO1, ?_, r1, ?_, r3, hses', v3,
    hgood, k3, c3.trans k4, k5, ?_, hhas0, hval0, ?_, ?_⟩
  · unfold proveSpend treeProverGadget
    rw [hw]
    simp only [k1]
    rw [c1]
    simp only
    rw [if_pos hV]
    rfl
  · unfold verifySpendEven
    rw [r2]
    have hps : path'.selected = path.selected := (evenVerifier_ok r1 r2).2.1
    have hcl : tE1.vecComms.length = s1.vecOpen.length := by rw [v2.comms_length, PState.widen_length]
    rw [hps, hV]
    have e0 : (tE1.commitVec L V).1[0]? = some (.vectorCommit s1.vecOpen.length 0) := by
      simp [VState.commitVec, hcl, show 0 < L by omega]
    have e1 : (tE1.commitVec L V).1[1]? = some (.vectorCommit s1.vecOpen.length 1) := by
      simp [VState.commitVec, hcl, show 1 < L by omega]
    simp only
    rw [e0, e1]
  · change _ <+: s2.vecOpen
    rw [c4]
    exact k6.trans (List.prefix_append _ _)
  · change _ ≤ s2.aL.length
    rw [c5]; exact ksz
  · intro h1
    refine ⟨?_, (coin.blinding + r, [(coin.value : B (!false)), coin.tag]), rfl, ?_⟩
    · change s2.aL.length = _
      rw [c5, kone h1]
    · change s2.vecOpen = _
      rw [c4, kone h1]

section MintSize
variable {F G X : Type} [Field F] [DecidableEq F] [AddCommGroup G] [Module F G] [DecidableEq G]

omit [DecidableEq F] [DecidableEq G] in
/-- Minting a coin takes 64 multipliers. -/
theorem mint_size {o : Oracle F G X} {sch : SigScheme K SK S F} {g : Gens G} {value : Nat} {pk : K} {pkr : S} {bl : F} {s s' : PState F G X}
    {x : Coin F S × G × Variable} (h : mint o sch g value pk pkr bl s = .ok (x, s')) : s'.aL.length = s.aL.length + 64 := by
  unfold mint at h
  split at h
  · cases h
  split at h
  · cases h
  rename_i V vars s1 hc
  split at h
  · cases h
  split at h
  · cases h
  rename_i y s2 hr
  simp only [Except.ok.injEq, Prod.mk.injEq] at h
  obtain ⟨-, rfl⟩ := h
  have := ((costs_rangeProof (G := G) (X := X) _ (some value) 64).runP o (unwrap_ok.1 hr)).multipliers
  simp only [PState.metrics, (PState.commitVec_ok hc).2.2] at this
  rw [this]
  unfold spare
  split <;> simp

end MintSize

/-- The honest Prover of a payment: it succeeds, its states satisfy all constraints, and the Verifier's circuits are those of the Prover with
its vectors extended by zeros. -/
theorem pourProvers_session {o : ∀ p, SideO C p} {fx : Bool} {prm : SelRerand C} (hv : prm.Valid) (hg : ∀ p, L ≤ (prm.gens p).Gs.length) (hL : 2 ≤ L)
    {T : CurveTree L 1 (Pts C)} (h0 : T.height ≠ 0) {sch : SigScheme K SK S (B true)} {rnd : PourRand C S} {in0 in1 : SpendingInfo K SK S (B true)}
    {nodes0 nodes1 : WitPath B (Pts C)}
    (hw0 : T.witness prm.tree in0.index 0 = .ok nodes0) (hw1 : T.witness prm.tree in1.index 0 = .ok nodes1)
    (hT0 : T.PathTo prm.tree 0 nodes0 ⟨false, in0.coin.commitment (F := B (!false)) (prm.gens false)⟩)
    (hT1 : T.PathTo prm.tree 0 nodes1 ⟨false, in1.coin.commitment (F := B (!false)) (prm.gens false)⟩)
    (hr0 : SpendOk prm T in0.index (rnd.path false)) (hr1 : SpendOk prm T in1.index (rnd.path true))
    (ht0 : in0.coin.tag = sch.tag in0.randomizedPk) (ht1 : in1.coin.tag = sch.tag in1.randomizedPk)
    {val0 val1 : Nat} (h64 : val0 < 2 ^ 64) (h64' : val1 < 2 ^ 64) (hsum : in0.coin.value + in1.coin.value = val0 + val1) (pk0 pk1 : K)
    (dom : ∀ p, Transcript (B (!p)) (C p).Pt (C (!p)).Pt) :
    ∃ path0 path1 c0 c1 sE sO tE tO ds, pourProvers o fx prm sch T rnd in0 in1 val0 pk0 val1 pk1 (.new (dom false)) (.new (dom true)) =
        .ok ((path0, path1, c0, c1), sE, sO) ∧
      (∀ pE pO, pourCircuits o fx prm sch.tag T dom ⟨pE, pO, path0, path1, in0.randomizedPk, in1.randomizedPk, c0, c1⟩ = .ok (tE, tO)) ∧
      Session (o false) (prm.gens false) (sE.widen ds) tE ∧ Session (o true) (prm.gens true) sO tO ∧ sE.Good ∧ sO.Good ∧ sE.deferred = [] ∧
      sO.deferred = [] ∧ (∀ j, ds j ≤ L) ∧ 128 + 2 * (L * (T.height / 2)) ≤ sE.aL.length ∧
      (T.height = 1 → sE.aL.length = 128 ∧ (∀ c ∈ sE.vecOpen, c.2.length = 2) ∧ ∃ c, (sE.widen ds).vecOpen[2]? = some c ∧ c.2.length = L) := by
  have gnew : ∀ p, PState.Good (PState.new (dom p) : SideP C p) := fun p =>
    ⟨⟨rfl, rfl, by intro i hi; simp [PState.new] at hi, by simp [PState.new]⟩, by simp [PState.new], by simp [PState.new]⟩
  obtain ⟨a0, c0, s1, t1, n1, q1, f1, S1, G1, D1, -, L1, H1, V1, W1⟩ := mint_session (o := o false) (sch := sch) (g := prm.gens false)
    (F := B (!false)) (hL.trans (hg false)) h64 pk0 (rnd.pkr false) (rnd.bl false) (Session.new (dom false)) (gnew false)
  obtain ⟨a1, c1, s2, t2, n2, q2, f2, S2, G2, D2, P2, L2, H2, V2, W2⟩ := mint_session (o := o false) (sch := sch) (g := prm.gens false)
    (F := B (!false)) (hL.trans (hg false)) h64' pk1 (rnd.pkr true) (rnd.bl true) S1 G1
  have z1 := mint_size q1
  have z2 := mint_size q2
  have hl2 : s2.vecOpen.length = 2 := by rw [L2, L1]; rfl
  obtain ⟨ds, hds⟩ : ∃ ds : Nat → Nat, ds = fun j => if j < 2 then 0 else L := ⟨_, rfl⟩
  have hdsL : ∀ j, ds j ≤ L := by intro j; rw [hds]; dsimp only; split <;> omega
  have hds2 : ∀ j, 2 ≤ j → ds j = L := by intro j hj; rw [hds]; dsimp only; rw [if_neg (by omega)]
  have hwid : s2.widen ds = s2 := PState.widen_eq (by
    intro j c hj
    have : j < 2 := by rw [← hl2]; exact (List.getElem?_eq_some_iff.1 hj).1
    rw [hds]; dsimp only; rw [if_pos this]; omega)
  obtain ⟨path0, n0, s3, u3, path0', t3, w3, q3, r3, f3, g3, S3, U3, G3, K3, D3, E3, P3, H3, V3, Z3, N3⟩ := proveSpend_session (o := o) (fx := fx) hv hg hL hw0 hT0 h0 hr0
    rfl hdsL (fun j hj => hds2 j (by omega)) G2 (gnew true) (by rw [hwid]; exact S2) (Session.new (dom true))
  have hl3 := P3.length_le
  obtain ⟨path1, n1', s4, u4, path1', t4, w4, q4, r4, f4, g4, S4, U4, G4, K4, D4, E4, P4, H4, V4, Z4, N4⟩ := proveSpend_session (o := o) (fx := fx) hv hg hL hw1 hT1 h0 hr1
    rfl hdsL (fun j hj => hds2 j (by omega)) G3 K3 S3 U3
  have y1 := val_of_prefix (P2.trans (P3.trans P4)) H1
  have y2 := val_of_prefix (P3.trans P4) H2
  have y3 := val_of_prefix P4 H3
  obtain ⟨lc, hlc⟩ : ∃ lc : LC (B (!false)), lc = balance (.vectorCommit (PState.new (dom false) : SideP C false).vecOpen.length 0) (.vectorCommit s1.vecOpen.length 0)
      (.vectorCommit n0 0) (.vectorCommit n1' 0) := ⟨_, rfl⟩
  have hgood : (s4.constrain lc).Good := by
    obtain ⟨⟨⟩, s', h1, h2, -⟩ := complete_constrain (o := o false) G4 (lc := lc)
      (by
        rw [hlc]
        exact PState.hasLC_sub (PState.hasLC_sub (PState.hasLC_add (PState.hasLC_ofVar y1.1) (PState.hasLC_ofVar y2.1)) (PState.hasLC_ofVar y3.1))
          (PState.hasLC_ofVar H4))
      (by
        rw [hlc]
        unfold balance
        rw [eval_sub, eval_sub, eval_add, eval_ofVar, eval_ofVar, eval_ofVar, eval_ofVar, y1.2, y2.2, y3.2, V1, V2, V3, V4]
        have : ((in0.coin.value + in1.coin.value : Nat) : B (!false)) = ((val0 + val1 : Nat) : B (!false)) := by rw [hsum]
        push_cast at this
        rw [← this]; ring)
    change Except.ok ((), s4.constrain _) = _ at h1
    simp only [Except.ok.injEq, Prod.mk.injEq, true_and] at h1
    rw [h1]; exact h2
  have hses := S4.gadget (p := constrain lc) (q := constrain lc) (R := fun _ _ => True) (.constrain (.pure trivial)) rfl rfl
  refine ⟨path0, path1, c0, c1, s4.constrain lc, u4, _, w4, ds, ?_, fun pE pO => ?_, hses, U4, hgood, K4, ?_, ?_, hdsL, ?_, fun h1 => ?_⟩
  · unfold pourProvers
    simp only [q1]
    rw [q2]
    simp only [q3, q4, hlc]
  · unfold pourCircuits pourEvenCircuit pourOddCircuit
    rw [ht0] at f3
    rw [ht1] at f4
    simp only [r3, r4, f1, f2, f3, f4, g3, g4, hlc]
  · change s4.deferred = []
    rw [D4, D3, D2, D1]; rfl
  · rw [E4, E3]; rfl
  · change _ ≤ s4.aL.length
    have : (PState.new (dom false) : SideP C false).aL.length = 0 := rfl
    omega
  · obtain ⟨b3, x3, hx3, w3⟩ := N3 h1
    obtain ⟨b4, x4, hx4, w4⟩ := N4 h1
    have hvo := w4
    rw [w3, W2, W1] at hvo
    refine ⟨?_, ?_, ?_⟩
    · change s4.aL.length = 128
      rw [b4, b3, z2, z1]; rfl
    · intro c hc
      have hc : c ∈ s4.vecOpen := hc
      rw [hvo] at hc
      simp only [PState.new, List.nil_append, List.cons_append, List.mem_cons, List.not_mem_nil, or_false] at hc
      rcases hc with rfl | rfl | rfl | rfl
      · rfl
      · rfl
      · exact hx3
      · exact hx4
    · refine ⟨(x3.1, padTo L x3.2), ?_, by rw [padTo_length, hx3]; omega⟩
      rw [PState.widen_get, show (s4.constrain lc).vecOpen = s4.vecOpen from rfl, hvo, hds2 2 le_rfl]
      simp [PState.new]

end CT
