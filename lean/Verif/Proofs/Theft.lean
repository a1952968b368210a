import Verif.Proofs.PourSession
import Verif.Proofs.OracleFree
import Verif.Props.ForgeryError
import Verif.Spec.PaymentError

/-! # Someone who owns no coin makes a payment

The Provers are those of `prove_pour` with the path of each spent coin replaced by a forged one. -/

namespace CT
set_option linter.unusedSectionVars false

section
variable {F G X α β : Type}

theorem SameCalls.costs {R : α → β → Prop} {p : Prog F G X α} {q : Prog F G X β} (h : SameCalls R p q) : ∀ {m a c : Nat}, Costs q m a c → Costs p m a c := by
  induction h with
  | pure _ => intro m a c hq; cases hq; exact .pure _
  | fail => intro m a c _; exact .fail ..
  | multiply _ ih => intro m a c hq; cases hq with | multiply h => exact .multiply fun v => ih v (h v)
  | allocate _ ih => intro m a c hq; cases hq with | allocate h => exact .allocate fun v => ih v (h v)
  | allocateMultiplier _ ih => intro m a c hq; cases hq with | allocateMultiplier h => exact .allocateMultiplier fun v => ih v (h v)
  | constrain _ ih => intro m a c hq; cases hq with | constrain h => exact .constrain (ih h)
  | append _ ih => intro m a c hq; cases hq with | append h => exact .append (ih h)
  | challenge _ ih => intro m a c hq; cases hq with | challenge h => exact .challenge fun v => ih v (h v)

theorem SameCalls.quiet {R : α → β → Prop} {p : Prog F G X α} {q : Prog F G X β} (h : SameCalls R p q) (hq : q.Quiet) : p.Quiet := by
  induction h with
  | pure _ => trivial
  | fail => trivial
  | multiply _ ih => exact fun v => ih v (hq v)
  | allocate _ ih => exact fun v => ih v (hq v)
  | allocateMultiplier _ ih => exact fun v => ih v (hq v)
  | constrain _ ih => exact ih hq
  | append _ ih => exact ih hq
  | challenge _ ih => exact hq.elim

end

section
variable {B : Bool → Type} [∀ p, Field (B p)] [∀ p, DecidableEq (B p)] {C : ∀ p, SWCurve (B p)} [∀ p, Module (B (!p)) (C p).Pt] {L M bits : Nat}

theorem proverChildren_gets {p : Bool} {prm : SelRerand C} {w : Wit B (Pts C) p} (hw : w.siblings.length = L) {pr : B (!p)} {children : List (LC (B (!p)))} {s s1 : SideP C p}
    (hc : proverChildren prm p w pr s = .ok (children, s1)) : children.length = L ∧ s.Gets s1 0 0 (if pr = 0 then 0 else 1) L := by
  unfold proverChildren at hc
  by_cases hp : pr = 0
  · rw [if_pos hp] at hc
    simp only [Except.ok.injEq, Prod.mk.injEq] at hc
    obtain ⟨rfl, rfl⟩ := hc
    rw [if_pos hp]
    exact ⟨by rw [List.length_map]; exact hw, .refl _ _⟩
  · rw [if_neg hp] at hc
    rw [if_neg hp]
    split at hc
    · cases hc
    rename_i x vars s2 hv
    simp only [Except.ok.injEq, Prod.mk.injEq] at hc
    obtain ⟨rfl, rfl⟩ := hc
    obtain ⟨k1, k2⟩ := commitVec_gets hv
    exact ⟨by rw [List.length_map]; exact k2.trans hw, k1.cast rfl rfl rfl (.inr hw.le)⟩

theorem forgeLevel_gets {p : Bool} {o : SideO C p} {prm : SelRerand C} (hv : prm.Valid) (hb : (prm.layer (!p)).lambda = bits) (h3 : 3 ≤ bits) (hL : 1 ≤ L)
    {w : Wit B (Pts C) p} (hw : w.siblings.length = L) {pr : B (!p)} {Q : (C (!p)).Pt} {r : Nat} {s s' : SideP C p}
    (h : forgeLevel o prm w pr Q r s = .ok s') :
    s.Gets s' (levelGates L bits) (levelAllocations bits) (if pr = 0 then 0 else 1) L := by
  unfold forgeLevel at h
  split at h
  · cases h
  rename_i children s1 hc
  have h0 := proverChildren_gets hw hc
  cases hr : runP o (cheatSingleLevel (C (!p)) (prm.layer (!p)) Q children (w.child + (prm.layer (!p)).delta) r
      (cheatStart (C (!p)) (prm.layer (!p)) (prm.h (!p)) Q (w.child + (prm.layer (!p)).delta) r)) s1 with
  | error e => rw [hr] at h; cases h
  | ok v =>
    rw [hr] at h
    simp only [Except.map, Except.ok.injEq] at h
    subst h
    have k := ((sameCalls_cheatSingleLevel (G := (C p).Pt) (buildTables_spec (hv.tables (!p))).1 Q children (w.child + (prm.layer (!p)).delta) r
      (cheatStart (C (!p)) (prm.layer (!p)) (prm.h (!p)) Q (w.child + (prm.layer (!p)).delta) r)).costs
      (costs_singleLevel (C (!p)) false (prm.layer (!p)) (by rw [hb]; exact h3) _ children _ _)).gets (x := v.1) (s' := v.2) hr
    refine (h0.2.trans k).cast ?_ ?_ (by omega) (.inr (by omega))
    · rw [h0.1, hb, levelGates]; omega
    · rw [hb, levelAllocations]; omega

theorem forgeMembership_gets [NeZero M] {prm : SelRerand C} (hv : prm.Valid) (hb : ∀ p, (prm.layer p).lambda = bits) (h3 : 3 ≤ bits) (hg : prm.tree.EnoughGens L M) (hL : 2 ≤ L)
    {set : List (C false).Pt} {height : Option Nat} {fuel : Nat} {T : CurveTree L M (Pts C)}
    (ht : fromSet prm.tree set height fuel = some (.ok T)) (hfuel : set.length + height.getD 0 ≤ fuel) (h0 : T.height ≠ 0)
    {oE : SideO C false} {oO : SideO C true} {rnd : ∀ p, Nat → B (!p)}
    (hE : ∀ j, j + 1 < (T.height + 1) / 2 → rnd false j ≠ 0) (hO : ∀ j < T.height / 2, rnd true j ≠ 0)
    {sE sE' : SideP C false} {sO sO' : SideP C true} {i : Nat} {Q : (C false).Pt} {path : Path (C false).Pt (C true).Pt}
    (hp : forgeMembership oE oO prm rnd T i 0 Q sE sO = .ok (path, sE', sO')) :
    sE.Gets sE' (levelGates L bits * (T.height / 2)) (levelAllocations bits * (T.height / 2)) ((T.height - 1) / 2) L ∧
    sO.Gets sO' (levelGates L bits * ((T.height + 1) / 2)) (levelAllocations bits * ((T.height + 1) / 2)) (T.height / 2) L ∧
    path.odd.length = T.height / 2 ∧ path.even.length + 1 = (T.height + 1) / 2 := by
  unfold forgeMembership at hp
  cases hw : T.witness prm.tree i 0 with
  | error e => simp [hw] at hp
  | ok nodes =>
    simp only [hw] at hp
    obtain ⟨a, b⟩ := C26_witness_every_index hg hL ht hfuel 0 i
    cases hl : set[i % L ^ T.height]? with
    | none =>
      obtain ⟨m, hm⟩ := b hl
      rw [hw] at hm
      exact absurd hm (by simp)
    | some leaf =>
      obtain ⟨nodes', hn', hT⟩ := a leaf hl
      rw [hw] at hn'
      cases hn'
      obtain ⟨lt, lf⟩ := pathTo_lengths hT
      obtain ⟨re, hre, hrt, hsib⟩ : ∃ re, rootIsEven nodes = .ok re ∧ (re = true ↔ T.height % 2 = 0) ∧
          ∀ p, ∀ w ∈ nodes p, w.siblings.length = L := by
        have mem : ∀ {q : Bool} {w : WPath B (Pts C) q} {c : (C q).Pt} {idx : Nat}, w.From prm.tree L idx ⟨false, leaf⟩ c →
            ∀ p, ∀ x ∈ w.nodes p, x.siblings.length = L := by
          intro q w c idx h p x hx
          obtain ⟨k, hk⟩ := List.mem_iff_getElem?.1 hx
          exact (from_nodes h p k x hk).1
        cases T with
        | even n =>
          obtain ⟨w, rfl, h1, h2, h3⟩ := hT
          have e := even_lengths (aligned w _ h2)
          exact ⟨true, by unfold rootIsEven; rw [if_pos e], by simp only [true_iff]; omega, mem h2⟩
        | odd n =>
          obtain ⟨w, rfl, h1, h2, h3⟩ := hT
          have e := odd_lengths (aligned w _ h2)
          exact ⟨false, by unfold rootIsEven; rw [if_neg (by omega), if_pos e], by simp only [Bool.false_eq_true, false_iff]; omega, mem h2⟩
      unfold forgePath at hp
      split at hp
      · cases hp
      rename_i s1 e1
      split at hp
      · cases hp
      rename_i s2 e2
      simp only [Except.ok.injEq, Prod.mk.injEq] at hp
      obtain ⟨rfl, rfl, rfl⟩ := hp
      have k1 := proverLoop_gets (hb _) h3 (by omega : 1 ≤ L) hre (nodes false) 0 (hsib false)
        (fun j hj _ hj0 => hE _ (by rw [lf] at hj; omega))
        (fun j hj e => hE _ (by
          have : ¬ re = true := e
          rw [hrt] at this
          rw [lf] at hj; omega)) e1
      obtain ⟨ns, x, hns⟩ : ∃ ns x, nodes true = ns ++ [x] :=
        ⟨_, _, (List.dropLast_append_getLast (by intro h; rw [h] at lt; simp at lt; omega)).symm⟩
      have hnl : ns.length + 1 = (T.height + 1) / 2 := by rw [← lt, hns]; simp
      unfold forgeSide at e2
      rw [hns] at e2
      simp only [hre, List.getLast?_append, List.getLast?_singleton, Option.some_or, List.dropLast_concat, List.length_append, List.length_singleton, Nat.add_sub_cancel] at e2
      split at e2
      · cases e2
      rename_i s3 e3
      have k2 := proverLoop_gets (hb _) h3 (by omega : 1 ≤ L) hre ns 0 (fun w hw => hsib true w (by rw [hns]; exact List.mem_append_left _ hw))
        (fun j hj _ hj0 => hO _ (by omega))
        (fun j hj e => hO _ (by
          have : re = true := by simpa using e
          rw [hrt] at this
          omega)) e3
      have k3 := forgeLevel_gets hv (hb _) h3 (by omega) (hsib true x (by rw [hns]; simp)) e2
      refine ⟨k1.cast (by rw [lf]) (by rw [lf]) ?_ (.inr le_rfl), (k2.trans k3).cast (by rw [← hnl]; ring) (by rw [← hnl]; ring) ?_ (.inr (by simp)), ?_, ?_⟩
      · rw [lf]
        by_cases e : re = true
        · have hev : T.height % 2 = 0 := hrt.1 e
          rw [if_pos ⟨e, rfl⟩]; omega
        · have hev : ¬ T.height % 2 = 0 := fun h => e (hrt.2 h)
          rw [if_neg (fun h => e h.1)]; omega
      · unfold parentScalar
        by_cases e : re = true
        · have hev : T.height % 2 = 0 := hrt.1 e
          have h1 : rnd true ns.length ≠ 0 := hO _ (by omega)
          have h2 : ¬ re = !true := by rw [e]; simp
          rw [if_neg (fun h => h2 h.1), if_neg h2, if_neg h1]; omega
        · have hev : ¬ T.height % 2 = 0 := fun h => e (hrt.2 h)
          have h2 : re = !true := by simpa using e
          rw [if_pos ⟨h2, rfl⟩, if_pos h2]
          by_cases h : ns.length = 0
          · rw [if_pos h, if_pos rfl]; omega
          · have h1 : rnd true (ns.length - 1) ≠ 0 := hO _ (by omega)
            rw [if_neg h, if_neg h1]; omega
      · simp [proverPath, rerandomized, lf]
      · simp only [proverPath, rerandomized, List.length_dropLast, List.length_mapIdx, lt]; omega

theorem forgeMembership_oracle (prm : SelRerand C) (hv : prm.Valid) (oE oE' : SideO C false) (oO oO' : SideO C true) (rnd : ∀ p, Nat → B (!p)) (T : CurveTree L M (Pts C)) (i : Nat) (j : Fin M)
    (Q : (C false).Pt) (sE : SideP C false) (sO : SideP C true) : forgeMembership oE oO prm rnd T i j Q sE sO = forgeMembership oE' oO' prm rnd T i j Q sE sO := by
  unfold forgeMembership forgePath forgeSide forgeLevel
  simp only [proverLoop_oracle oE oE', proverLoop_oracle oO oO']
  simp only [fun rc ch c r P s => ((sameCalls_cheatSingleLevel (G := (C true).Pt) (buildTables_spec (hv.tables (!true))).1 rc ch c r P).quiet
    (quiet_singleLevel (G := (C true).Pt) (C (!true)) false (prm.layer (!true)) rc ch none none)).runP_eq oO oO' s]

end

section
variable {B : Bool → Type} [∀ p, Field (B p)] [∀ p, DecidableEq (B p)] {C : ∀ p, SWCurve (B p)} [∀ p, Module (B (!p)) (C p).Pt] {L bits : Nat} {K SK S : Type}

/-- `Coin::prove_spend` as the thief runs it: the coin is invented, and its commitment is shown to be in the tree by a forged path that uses the public witness of the leaf `index`. The thief
commits with the dimension of the Verifier. -/
def forgeSpend (o : ∀ p, SideO C p) (prm : SelRerand C) (T : CurveTree L 1 (Pts C)) (rnd : ∀ p, Nat → B (!p)) (coin : Coin (B true) S) (index : Nat) (sE : SideP C false) (sO : SideP C true) :
    Except Err ((Path (C false).Pt (C true).Pt × Variable) × SideP C false × SideP C true) :=
  match forgeMembership (o false) (o true) prm rnd T index 0 (coin.commitment (F := B (!false)) (prm.gens false)) sE sO with
  | .error e => .error e
  | .ok (path, sE, sO) =>
    match sE.commitVec (prm.gens false) (wideVec L (coin.value : B true) coin.tag) coin.blinding with
    | .error e => .error e
    | .ok ((_, vars), sE) =>
      match vars[1]?, vars[0]? with
      | some v1, some v0 => .ok ((path, v0), sE.constrain (LC.ofVar v1 - LC.const coin.tag), sO)
      | _, _ => .error (.panic "index out of bounds")

/-- The two Provers of the thief: those of `prove_pour` with `forgeSpend` in place of `prove_spend`. -/
def forgePourProvers (o : ∀ p, SideO C p) (prm : SelRerand C) (sch : SigScheme K SK S (B true)) (T : CurveTree L 1 (Pts C))
    (rnd : PourRand C S) (in0 in1 : SpendingInfo K SK S (B true)) (val0 : Nat) (pk0 : K) (val1 : Nat) (pk1 : K)
    (sE : SideP C false) (sO : SideP C true) :
    Except Err ((Path (C false).Pt (C true).Pt × Path (C false).Pt (C true).Pt × (C false).Pt × (C false).Pt) ×
      SideP C false × SideP C true) :=
  match mint (o false) sch (prm.gens false) val0 pk0 (rnd.pkr false) (rnd.bl false) sE with
  | .error e => .error e
  | .ok ((_, c0, m0), sE) =>
    match mint (o false) sch (prm.gens false) val1 pk1 (rnd.pkr true) (rnd.bl true) sE with
    | .error e => .error e
    | .ok ((_, c1, m1), sE) =>
      match forgeSpend o prm T (rnd.path false) in0.coin in0.index sE sO with
      | .error e => .error e
      | .ok ((path0, s0), sE, sO) =>
        match forgeSpend o prm T (rnd.path true) in1.coin in1.index sE sO with
        | .error e => .error e
        | .ok ((path1, s1), sE, sO) => .ok ((path0, path1, c0, c1), sE.constrain (balance m0 m1 s0 s1), sO)

/-- The thief's `prove_pour`: the proofs and the signatures are made as there, with keys of the thief. -/
def forgePour (o : ∀ p, SideO C p) (prm : SelRerand C) (sch : SigScheme K SK S (B true)) (cod : Codec (PourOf C K))
    (T : CurveTree L 1 (Pts C)) (rnd : PourRand C S) (in0 in1 : SpendingInfo K SK S (B true)) (val0 : Nat) (pk0 : K) (val1 : Nat)
    (pk1 : K) (sE : SideP C false) (sO : SideP C true) : Except Err (SignedTx S) :=
  match forgePourProvers o prm sch T rnd in0 in1 val0 pk0 val1 pk1 sE sO with
  | .error e => .error e
  | .ok ((path0, path1, c0, c1), sE, sO) =>
    match unwrap (prove (o false) (prm.gens false) rnd.even sE) with
    | .error e => .error e
    | .ok (pE, _) =>
      match unwrap (prove (o true) (prm.gens true) rnd.odd sO) with
      | .error e => .error e
      | .ok (pO, _) =>
        let bytes := cod.enc ⟨pE, pO, path0, path1, in0.randomizedPk, in1.randomizedPk, c0, c1⟩
        let sig0 := sch.randomizeSig (sch.sign in0.sk bytes (rnd.sig false)) in0.coin.pkRandomness
        let sig1 := sch.randomizeSig (sch.sign in1.sk bytes (rnd.sig true)) in1.coin.pkRandomness
        .ok ⟨sig0.response, sig0.challenge, sig1.response, sig1.challenge, bytes⟩

theorem forgePourProvers_oracle (o o' : ∀ p, SideO C p) {prm : SelRerand C} (hv : prm.Valid) (sch : SigScheme K SK S (B true)) (T : CurveTree L 1 (Pts C))
    (rnd : PourRand C S) (in0 in1 : SpendingInfo K SK S (B true)) (val0 : Nat) (pk0 : K) (val1 : Nat) (pk1 : K) (sE : SideP C false) (sO : SideP C true) :
    forgePourProvers o prm sch T rnd in0 in1 val0 pk0 val1 pk1 sE sO = forgePourProvers o' prm sch T rnd in0 in1 val0 pk0 val1 pk1 sE sO := by
  unfold forgePourProvers forgeSpend
  simp only [mint_oracle (o false) (o' false), forgeMembership_oracle prm hv (o false) (o' false) (o true) (o' true)]

theorem forgeSpend_gets {prm : SelRerand C} (hv : prm.Valid) (hb : ∀ p, (prm.layer p).lambda = bits) (h3 : 3 ≤ bits) (hg : prm.tree.EnoughGens L 1) (hL : 2 ≤ L)
    {set : List (C false).Pt} {height : Option Nat} {fuel : Nat} {T : CurveTree L 1 (Pts C)}
    (ht : fromSet prm.tree set height fuel = some (.ok T)) (hfuel : set.length + height.getD 0 ≤ fuel) (h0 : T.height ≠ 0)
    {o : ∀ p, SideO C p} {rnd : ∀ p, Nat → B (!p)}
    (hE : ∀ j, j + 1 < (T.height + 1) / 2 → rnd false j ≠ 0) (hO : ∀ j < T.height / 2, rnd true j ≠ 0)
    {coin : Coin (B true) S} {i : Nat} {sE sE' : SideP C false} {sO sO' : SideP C true} {path : Path (C false).Pt (C true).Pt} {v : Variable}
    (hp : forgeSpend o prm T rnd coin i sE sO = .ok ((path, v), sE', sO')) :
    sE.Gets sE' (levelGates L bits * (T.height / 2)) (levelAllocations bits * (T.height / 2)) ((T.height - 1) / 2 + 1) L ∧
    sO.Gets sO' (levelGates L bits * ((T.height + 1) / 2)) (levelAllocations bits * ((T.height + 1) / 2)) (T.height / 2) L ∧
    path.odd.length = T.height / 2 ∧ path.even.length + 1 = (T.height + 1) / 2 := by
  unfold forgeSpend at hp
  split at hp
  · cases hp
  rename_i ht'
  split at hp
  · cases hp
  rename_i hc
  split at hp
  rotate_left
  · cases hp
  cases hp
  obtain ⟨k1, k2, k3, k4⟩ := forgeMembership_gets hv hb h3 hg hL ht hfuel h0 hE hO ht'
  refine ⟨((k1.trans (commitVec_gets hc).1).trans (constrain_gets _ _)).cast (by simp) (by simp) (by simp) (.inr ?_), k2, k3, k4⟩
  rw [wideVec_length (F := B (!false)) hL]
  omega

/-- The sizes of the thief's circuits are those of an honest payment. -/
theorem forgePourProvers_sizes {prm : SelRerand C} (hv : prm.Valid) (hb : ∀ p, (prm.layer p).lambda = bits) (h3 : 3 ≤ bits) (hg : prm.tree.EnoughGens L 1) (hL : 2 ≤ L)
    {set : List (C false).Pt} {height : Option Nat} {fuel : Nat} {T : CurveTree L 1 (Pts C)}
    (ht : fromSet prm.tree set height fuel = some (.ok T)) (hfuel : set.length + height.getD 0 ≤ fuel) (h0 : T.height ≠ 0) (hsize : L ≤ 128 ∨ 2 ≤ T.height)
    {o : ∀ p, SideO C p} {rnd : PourRand C S}
    (hE : ∀ t j, j + 1 < (T.height + 1) / 2 → rnd.path t false j ≠ 0) (hO : ∀ t, ∀ j < T.height / 2, rnd.path t true j ≠ 0)
    {sch : SigScheme K SK S (B true)} {in0 in1 : SpendingInfo K SK S (B true)} {val0 val1 : Nat} {pk0 pk1 : K}
    {dom : ∀ p, Transcript (B (!p)) (C p).Pt (C (!p)).Pt} {path0 path1 : Path (C false).Pt (C true).Pt} {c0 c1 : (C false).Pt} {sE : SideP C false} {sO : SideP C true}
    (hpr : forgePourProvers o prm sch T rnd in0 in1 val0 pk0 val1 pk1 (.new (dom false)) (.new (dom true)) = .ok ((path0, path1, c0, c1), sE, sO)) :
    (sE.size = multipliersFor L bits (2 * (T.height / 2)) 128 ∧ sE.vecOpen.length = paymentEvenCommitments T.height ∧
      sO.size = multipliersFor L bits (2 * ((T.height + 1) / 2)) 0 ∧ sO.vecOpen.length = paymentOddCommitments T.height) ∧
    (path0.odd.length = T.height / 2 ∧ path0.even.length + 1 = (T.height + 1) / 2) ∧ path1.odd.length = T.height / 2 ∧ path1.even.length + 1 = (T.height + 1) / 2 := by
  unfold forgePourProvers at hpr
  split at hpr
  · cases hpr
  rename_i m0
  split at hpr
  · cases hpr
  rename_i m1
  split at hpr
  · cases hpr
  rename_i q0
  split at hpr
  · cases hpr
  rename_i q1
  cases hpr
  have lv : ∀ k, k ≠ 0 → L ≤ levelGates L bits * k := fun k hk =>
    (by unfold levelGates; omega : L ≤ levelGates L bits).trans (Nat.le_mul_of_pos_right _ (by omega))
  obtain ⟨a1, a2, a3, a4⟩ := forgeSpend_gets hv hb h3 hg hL ht hfuel h0 (hE false) (hO false) q0
  obtain ⟨b1, b2, b3, b4⟩ := forgeSpend_gets hv hb h3 hg hL ht hfuel h0 (hE true) (hO true) q1
  have e := fun lc => ((((mint_gets m0).trans (mint_gets m1)).trans a1).trans b1).trans (constrain_gets _ lc)
  have f := a2.trans b2
  have e' := fun lc => (e lc).cast (m' := levelGates L bits * (2 * (T.height / 2)) + 128) (a' := levelAllocations bits * (2 * (T.height / 2)))
    (k' := 2 * ((T.height - 1) / 2) + 4) (by ring) (by ring) (by ring) (.inr le_rfl)
  have f' := f.cast (m' := levelGates L bits * (2 * ((T.height + 1) / 2))) (a' := levelAllocations bits * (2 * ((T.height + 1) / 2)))
    (k' := 2 * (T.height / 2)) (by ring) (by ring) (by ring) (.inr le_rfl)
  have e4 := fun lc => (e' lc).size (.inr (by
    by_cases h : T.height / 2 = 0
    · rw [h]; omega
    · have := lv (2 * (T.height / 2)) (by omega)
      omega))
  have f4 := f'.size (.inr (by
    have := lv (2 * ((T.height + 1) / 2)) (by omega)
    omega))
  exact ⟨⟨e4 _, (e' _).fresh.2.1, f4, f'.fresh.2.1⟩, ⟨a3, a4⟩, b3, b4⟩

/-- Spending an invented coin. -/
theorem forgeSpend_session {o : ∀ p, SideO C p} {prm : SelRerand C} (hv : prm.Valid) (hg : ∀ p, L ≤ (prm.gens p).Gs.length) (hL : 2 ≤ L) {T : CurveTree L 1 (Pts C)} (h0 : T.height ≠ 0)
    {i : Nat} {nodes : WitPath B (Pts C)} {leaf : (C false).Pt} (hw : T.witness prm.tree i 0 = .ok nodes) (hT : T.PathTo prm.tree 0 nodes ⟨false, leaf⟩) {rnd : ∀ p, Nat → B (!p)}
    (hs : SpendOk prm T i rnd) (hx0 : leaf + (prm.layer false).delta ≠ 0) {coin : Coin (B true) S} {Q : (C false).Pt} (hQ : Q = coin.commitment (F := B (!false)) (prm.gens false))
    (hQ0 : Q + (prm.layer false).delta ≠ 0)
    (hat : Attackable (C false) (prm.layer false).lambda (prm.h false) 0 (leaf + (prm.layer false).delta) (Q + (prm.layer false).delta))
    {sE : SideP C false} {sO : SideP C true} {tE : SideV C false} {tO : SideV C true} (hsE : Session (o false) (prm.gens false) sE tE) (hsO : Session (o true) (prm.gens true) sO tO)
    (gE : sE.Good) (gO : sO.Good) :
    ∃ path path' n sE' sO' tE' tO', forgeSpend o prm T rnd coin i sE sO = .ok ((path, .vectorCommit n 0), sE', sO') ∧ addRoot T path = .ok path' ∧
      verifySpendEven (o false) false prm coin.tag T path' tE = .ok (.vectorCommit n 0, tE') ∧ oddVerifierGadget (o true) false prm T path' tO = .ok tO' ∧
      Session (o false) (prm.gens false) sE' tE' ∧ Session (o true) (prm.gens true) sO' tO' ∧ sE'.Good ∧ sO'.Good ∧ sE'.deferred = sE.deferred ∧ sO'.deferred = sO.deferred ∧
      sE.vecOpen <+: sE'.vecOpen ∧ sE'.Has (.vectorCommit n 0) ∧ sE'.assignment.val (.vectorCommit n 0) = (coin.value : B true) := by
  obtain ⟨l1, l2⟩ := pathTo_lengths hT
  obtain ⟨s1, u1, t1, w1, f1, f2, f3, f4, f5, f6, f7, f8, f9⟩ := path_forge_at (o false) (o true) hv hg hT h0 (rnd := rnd) (fun j hj => hs.even j (by omega))
    (fun j hj => hs.odd j (by omega)) (fun p k w hw' _ => hs.avoids nodes hw p k w hw') hQ0 hx0 hat hsE hsO gE gO
  obtain ⟨path', r1, e1, d1⟩ := treeVerifier_ok f1
  have hsel : path'.selected = Q := (evenVerifier_ok r1 e1).2.1
  obtain ⟨v, hval⟩ : ∃ v : B (!false), v = (coin.value : B true) := ⟨_, rfl⟩
  obtain ⟨tag, htag⟩ : ∃ tag : B (!false), tag = coin.tag := ⟨_, rfl⟩
  obtain ⟨bl, hbl⟩ : ∃ bl : B (!false), bl = coin.blinding := ⟨_, rfl⟩
  have hw' := wideVec_length hL v tag
  obtain ⟨V, s2, h1, h2, h3, h4, -⟩ := commitVec_good (g := prm.gens false) f4 (wideVec L v tag) bl (by rw [hw']; exact hg false)
  have hV : V = Q := by
    have h1' := h1
    unfold PState.commitVec at h1'
    rw [if_neg (by simp [hw', hg false])] at h1'
    simp only [Except.ok.injEq, Prod.mk.injEq] at h1'
    rw [← h1'.1.1, hw', hQ, msm_wideVec (F := B (!false)) hL (hg false) v tag bl, hval, htag, hbl]
    rfl
  subst V
  have hses := f2.commitVec h1
  rw [hw'] at hses
  have hhas0 : s2.Has (.vectorCommit s1.vecOpen.length 0) := ⟨(bl, wideVec L v tag), by rw [h4]; simp, by rw [hw']; omega⟩
  have hhas1 : s2.Has (.vectorCommit s1.vecOpen.length 1) := ⟨(bl, wideVec L v tag), by rw [h4]; simp, by rw [hw']; omega⟩
  have hval0 : s2.assignment.val (.vectorCommit s1.vecOpen.length 0) = v := by
    simp [Assignment.val, PState.assignment, h4, List.getD_eq_getElem?_getD, wideVec]
  have hval1 : s2.assignment.val (.vectorCommit s1.vecOpen.length 1) = tag := by
    simp [Assignment.val, PState.assignment, h4, List.getD_eq_getElem?_getD, wideVec]
  obtain ⟨hses', hgood⟩ := constrain_session hses h2 (lc := LC.ofVar (.vectorCommit s1.vecOpen.length 1) - LC.const tag)
    (PState.hasLC_sub (PState.hasLC_ofVar hhas1) PState.hasLC_const) (by rw [eval_sub, eval_ofVar, eval_const, hval1, sub_self])
  have g0 : ((List.range (wideVec L v tag).length).map fun i => Variable.vectorCommit s1.vecOpen.length i)[0]? = some (.vectorCommit s1.vecOpen.length 0) := by
    simp [hw', show 0 < L by omega]
  have g1 : ((List.range (wideVec L v tag).length).map fun i => Variable.vectorCommit s1.vecOpen.length i)[1]? = some (.vectorCommit s1.vecOpen.length 1) := by
    simp [hw', show 1 < L by omega]
  refine ⟨_, path', s1.vecOpen.length, _, _, _, _, ?_, r1, ?_, d1, hses', f3, hgood, f5, h3.trans f6, f7,
    f8.trans (by change _ <+: s2.vecOpen; rw [h4]; exact List.prefix_append _ _), hhas0, hval0.trans hval⟩
  · unfold forgeSpend forgeMembership
    rw [hval, htag, hbl] at h1
    rw [hval, htag] at g0 g1
    simp only [hw, ← hQ, f9, h1, g0, g1]
    rw [htag]
  · unfold verifySpendEven
    rw [e1]
    simp only [hsel]
    have e0 : (t1.commitVec L Q).1[0]? = some (.vectorCommit s1.vecOpen.length 0) := by
      simp [VState.commitVec, f2.comms_length, show 0 < L by omega]
    have e1 : (t1.commitVec L Q).1[1]? = some (.vectorCommit s1.vecOpen.length 1) := by
      simp [VState.commitVec, f2.comms_length, show 1 < L by omega]
    rw [e0, e1, htag]

/-- The thief's two Provers and the Verifier hold the same circuits, and the thief's values satisfy them. -/
theorem forgePour_session {o : ∀ p, SideO C p} {prm : SelRerand C} (hv : prm.Valid) (hg : ∀ p, L ≤ (prm.gens p).Gs.length) (hL : 2 ≤ L) {T : CurveTree L 1 (Pts C)} (h0 : T.height ≠ 0)
    {sch : SigScheme K SK S (B true)} {in0 in1 : SpendingInfo K SK S (B true)} {nodes0 nodes1 : WitPath B (Pts C)} {leaf0 leaf1 : (C false).Pt}
    (hw0 : T.witness prm.tree in0.index 0 = .ok nodes0) (hw1 : T.witness prm.tree in1.index 0 = .ok nodes1)
    (hT0 : T.PathTo prm.tree 0 nodes0 ⟨false, leaf0⟩) (hT1 : T.PathTo prm.tree 0 nodes1 ⟨false, leaf1⟩) {rnd : PourRand C S}
    (hs0 : SpendOk prm T in0.index (rnd.path false)) (hs1 : SpendOk prm T in1.index (rnd.path true))
    (hx0 : leaf0 + (prm.layer false).delta ≠ 0) (hx1 : leaf1 + (prm.layer false).delta ≠ 0) {Q0 Q1 : (C false).Pt}
    (hQ0 : Q0 = in0.coin.commitment (F := B (!false)) (prm.gens false)) (hQ1 : Q1 = in1.coin.commitment (F := B (!false)) (prm.gens false))
    (hz0 : Q0 + (prm.layer false).delta ≠ 0) (hz1 : Q1 + (prm.layer false).delta ≠ 0)
    (hat0 : Attackable (C false) (prm.layer false).lambda (prm.h false) 0 (leaf0 + (prm.layer false).delta) (Q0 + (prm.layer false).delta))
    (hat1 : Attackable (C false) (prm.layer false).lambda (prm.h false) 0 (leaf1 + (prm.layer false).delta) (Q1 + (prm.layer false).delta))
    (ht0 : in0.coin.tag = sch.tag in0.randomizedPk) (ht1 : in1.coin.tag = sch.tag in1.randomizedPk)
    {val0 val1 : Nat} (h64 : val0 < 2 ^ 64) (h64' : val1 < 2 ^ 64) (hsum : in0.coin.value + in1.coin.value = val0 + val1) (pk0 pk1 : K)
    (dom : ∀ p, Transcript (B (!p)) (C p).Pt (C (!p)).Pt) :
    ∃ path0 path1 c0 c1 sE sO tE tO,
      forgePourProvers o prm sch T rnd in0 in1 val0 pk0 val1 pk1 (.new (dom false)) (.new (dom true)) = .ok ((path0, path1, c0, c1), sE, sO) ∧
      (∀ pE pO, pourCircuits o false prm sch.tag T dom ⟨pE, pO, path0, path1, in0.randomizedPk, in1.randomizedPk, c0, c1⟩ = .ok (tE, tO)) ∧
      Session (o false) (prm.gens false) sE tE ∧ Session (o true) (prm.gens true) sO tO ∧ sE.Good ∧ sO.Good ∧ sE.deferred = [] ∧ sO.deferred = [] := by
  obtain ⟨a0, c0, s1, t1, n1, m1, f1, S1, G1, D1, -, L1, H1, V1, -⟩ := mint_session (o := o false) (sch := sch) (g := prm.gens false)
    (F := B (!false)) (hL.trans (hg false)) h64 pk0 (rnd.pkr false) (rnd.bl false) (Session.new (dom false)) (new_good' (dom false))
  obtain ⟨a1, c1, s2, t2, n2, m2, f2, S2, G2, D2, P2, L2, H2, V2, -⟩ := mint_session (o := o false) (sch := sch) (g := prm.gens false)
    (F := B (!false)) (hL.trans (hg false)) h64' pk1 (rnd.pkr true) (rnd.bl true) S1 G1
  obtain ⟨path0, path0', k0, s4, u4, t4, w4, p4, r4, f4, d4, S4, U4, G4, K4, D4, E4, P4, H4, V4⟩ := forgeSpend_session (o := o) hv hg hL h0 hw0 hT0 hs0 hx0 hQ0 hz0 hat0
    S2 (Session.new (dom true)) G2 (new_good' (dom true))
  obtain ⟨path1, path1', k1, s6, u6, t6, w6, p6, r6, f6, d6, S6, U6, G6, K6, D6, E6, P6, H6, V6⟩ := forgeSpend_session (o := o) hv hg hL h0 hw1 hT1 hs1 hx1 hQ1 hz1 hat1 S4 U4 G4 K4
  have q1 := val_of_prefix (P2.trans (P4.trans P6)) H1
  have q2 := val_of_prefix (P4.trans P6) H2
  have q4 := val_of_prefix P6 H4
  obtain ⟨S7, G7⟩ := constrain_session S6 G6 (lc := balance (.vectorCommit (PState.new (dom false) : SideP C false).vecOpen.length 0) (.vectorCommit s1.vecOpen.length 0)
      (.vectorCommit k0 0) (.vectorCommit k1 0))
    (PState.hasLC_sub (PState.hasLC_sub (PState.hasLC_add (PState.hasLC_ofVar q1.1) (PState.hasLC_ofVar q2.1)) (PState.hasLC_ofVar q4.1)) (PState.hasLC_ofVar H6))
    (by
      unfold balance
      rw [eval_sub, eval_sub, eval_add, eval_ofVar, eval_ofVar, eval_ofVar, eval_ofVar, q1.2, q2.2, q4.2, V1, V2, V4, V6]
      have : (val0 : B (!false)) + (val1 : B (!false)) = (in0.coin.value : B (!false)) + (in1.coin.value : B (!false)) := by exact_mod_cast congrArg (Nat.cast (R := B (!false))) hsum.symm
      rw [this]
      change ((in0.coin.value : B (!false)) + (in1.coin.value : B (!false)) - (in0.coin.value : B (!false)) - (in1.coin.value : B (!false))) = 0
      ring)
  refine ⟨path0, path1, c0, c1, _, _, _, _, ?_, fun pE pO => ?_, S7, U6, G7, K6, ?_, ?_⟩
  · unfold forgePourProvers
    simp only [m1, m2, p4, p6]
  · unfold pourCircuits pourEvenCircuit pourOddCircuit
    rw [ht0] at f4
    rw [ht1] at f6
    simp only [r4, r6, f1, f2, f4, f6, d4, d6]
  · change s6.deferred = []
    rw [D6, D4, D2, D1]; rfl
  · rw [E6, E4]; rfl

end
end CT
