import Verif.Proofs.TreeComplete

/-! A cheating Prover on a path: honest on every level but the last one. -/

namespace CT
variable {B : Bool → Type} [∀ p, Field (B p)] [∀ p, DecidableEq (B p)] {C : ∀ p, SWCurve (B p)}
  [∀ p, Module (B (!p)) (C p).Pt] {L M : Nat} [NeZero M] {p : Bool}

omit [∀ p, Module (B (!p)) (C p).Pt] in
theorem verifierLoop_snoc (o : SideO C p) (fx : Bool) (prm : SelRerand C) (T : CurveTree L M (Pts C)) (rootHere : Bool)
    (child : Nat → Option (C (!p)).Pt) (par : (C p).Pt) (ps : List (C p).Pt) : ∀ (i : Nat) {t t1 : SideV C p},
    verifierLoop o fx prm T rootHere child i ps t = .ok t1 →
    verifierLoop o fx prm T rootHere child i (ps ++ [par]) t = verifierLoop o fx prm T rootHere child (i + ps.length) [par] t1 := by
  induction ps with
  | nil =>
    intro i t t1 h
    simp only [verifierLoop, Except.ok.injEq] at h
    subst h
    rfl
  | cons a ps ih =>
    intro i t t1 h
    rw [List.cons_append, verifierLoop]
    rw [verifierLoop] at h
    cases hc : child i with
    | none => simp [hc] at h
    | some c =>
      simp only [hc] at h ⊢
      cases hv : verifierChildren prm T p (decide (i = 0) && rootHere) a t with
      | error e => simp [hv] at h
      | ok x =>
        obtain ⟨ch, t2⟩ := x
        simp only [hv] at h ⊢
        cases hr : runV o (singleLevel (C (!p)) fx (prm.layer (!p)) c ch none none) t2 with
        | error e => simp [hr] at h
        | ok y =>
          simp only [hr] at h ⊢
          rw [ih (i + 1) h, List.length_cons, show i + 1 + ps.length = i + (ps.length + 1) by omega]

/-- The forger on the last level of a path: they select the child `w.child`, like an honest Prover, and then claim that `Q` is its re-randomisation. -/
def forgeLevel (o : SideO C p) (prm : SelRerand C) (w : Wit B (Pts C) p) (pr : B (!p)) (Q : (C (!p)).Pt) (r : Nat) (s : SideP C p) : Except Err (SideP C p) :=
  match proverChildren prm p w pr s with
  | .error e => .error e
  | .ok (children, s) =>
    (runP o (cheatSingleLevel (C (!p)) (prm.layer (!p)) Q children (w.child + (prm.layer (!p)).delta) r
      (cheatStart (C (!p)) (prm.layer (!p)) (prm.h (!p)) Q (w.child + (prm.layer (!p)).delta) r)) s).map (·.2)

/-- The forger on one side of a path: honest on every level but the last one. -/
def forgeSide (o : SideO C p) (prm : SelRerand C) (nodes : WitPath B (Pts C)) (rnd : ∀ p, Nat → B (!p)) (Q : (C (!p)).Pt) (r : Nat) (ws : List (Wit B (Pts C) p)) (s : SideP C p) :
    Except Err (SideP C p) :=
  match rootIsEven nodes with
  | .error e => .error e
  | .ok re =>
    match ws.getLast? with
    | none => .ok s
    | some w =>
      match proverLoop o false prm nodes rnd 0 ws.dropLast s with
      | .error e => .error e
      | .ok s => forgeLevel o prm w (parentScalar rnd re p (ws.length - 1)) Q r s

/-- The forger on a path: they are given the stored witness of any leaf and a point `Q`, and no secret about `Q`. -/
def forgePath (oE : SideO C false) (oO : SideO C true) (prm : SelRerand C) (rnd : ∀ p, Nat → B (!p)) (nodes : WitPath B (Pts C)) (Q : (C false).Pt) (r : Nat)
    (sE : SideP C false) (sO : SideP C true) : Except Err (Path (C false).Pt (C true).Pt × SideP C false × SideP C true) :=
  match proverLoop oE false prm nodes rnd 0 (nodes false) sE with
  | .error e => .error e
  | .ok sE =>
    match forgeSide oO prm nodes rnd Q r (nodes true) sO with
    | .error e => .error e
    | .ok sO => .ok ({ proverPath prm nodes rnd with selected := Q }, sE, sO)

/-- The odd side (or either one) with the last child replaced by any point. -/
theorem side_forge (o : SideO C p) {prm : SelRerand C} (hv : prm.Valid) (hg : L ≤ (prm.gens p).Gs.length)
    {T : CurveTree L M (Pts C)} {rnd : ∀ p, Nat → B (!p)} {rootHere re : Bool} {nodes : WitPath B (Pts C)}
    (hre : rootIsEven nodes = .ok re) {child child' : Nat → Option (C (!p)).Pt} {ns : List (Wit B (Pts C) p)}
    {x : Wit B (Pts C) p} {ps : List (C p).Pt} {par : (C p).Pt} (hlen : ns.length = ps.length)
    (hk : ∀ k w par', (ns ++ [x])[k]? = some w → (ps ++ [par])[k]? = some par' →
      LevelOk L prm (rootSiblings prm _ T) rnd rootHere (parentScalar rnd re p k) (child k) k w par')
    (hch : ∀ k < ns.length, child' k = child k) {Q : (C (!p)).Pt} (hQ : child' ns.length = some Q)
    (hmem : ∀ (k : Nat) (w : Wit B (Pts C) p), (ns ++ [x])[k]? = some w → (C (!p)).xField (w.child + (prm.layer (!p)).delta) ∈ w.siblings)
    (hav : ∀ (k : Nat) (w : Wit B (Pts C) p), ns[k]? = some w → prm.Avoids (!p) w.child (rnd (!p) k))
    (hQ0 : Q + (prm.layer (!p)).delta ≠ 0) (hx0 : x.child + (prm.layer (!p)).delta ≠ 0) {r : Nat}
    (hat : Attackable (C (!p)) (prm.layer (!p)).lambda (prm.h (!p)) r (x.child + (prm.layer (!p)).delta)
      (Q + (prm.layer (!p)).delta))
    {s : SideP C p} {t : SideV C p} (hs : Session o (prm.gens p) s t) (hgood : s.Good) :
    ∃ s' t', verifierLoop o false prm T rootHere child' 0 (ps ++ [par]) t = .ok t' ∧ Session o (prm.gens p) s' t' ∧
      s'.Good ∧ s'.deferred = s.deferred ∧ forgeSide o prm nodes rnd Q r (ns ++ [x]) s = .ok s' := by
  have hk' : ∀ k w par', ns[k]? = some w → ps[k]? = some par' →
      LevelOk L prm (rootSiblings prm _ T) rnd rootHere (parentScalar rnd re p k) (child' k) k w par' := by
    intro k w par' hw hp
    have hkl : k < ns.length := (List.getElem?_eq_some_iff.1 hw).1
    rw [hch k hkl]
    exact hk k w par' (by rw [List.getElem?_append_left hkl]; exact hw)
      (by rw [List.getElem?_append_left (by omega)]; exact hp)
  obtain ⟨s1, a1, a2, a3, -⟩ := side_complete o false hv hg (rnd := rnd) hre ns 0
    (fun k w hw => by
      have hkl : k < ns.length := (List.getElem?_eq_some_iff.1 hw).1
      obtain ⟨par', hp⟩ : ∃ par', ps[k]? = some par' := ⟨_, List.getElem?_eq_getElem (by omega)⟩
      exact ⟨(hk' k w par' hw hp).len, hmem k w (by rw [List.getElem?_append_left hkl]; exact hw),
        by rw [Nat.zero_add]; exact hav k w hw⟩) hgood
  obtain ⟨t1, b1, b2⟩ := side_session hre (T := T) (rootHere := rootHere) (child := child') ns 0 ps hlen
    (fun k w par' hw hp => by rw [Nat.zero_add]; exact hk' k w par' hw hp) hs a1
  have hl := hk ns.length x par (by simp) (by rw [hlen]; simp)
  obtain ⟨ch, s2, c1, c2, c3, c4, c5, -⟩ := children_complete (parentScalar rnd re p ns.length) a2 (by rw [hl.len]; exact hg)
    (hmem ns.length x (by simp))
  obtain ⟨t2, d1, d2⟩ := children_session hl b2 c1
  change verifierChildren prm T p (decide (ns.length = 0) && rootHere) par t1 = _ at d1
  obtain ⟨⟨⟩, s3, e1, e2, e3, -⟩ := complete_cheatSingleLevel_at (o := o) c2 (hv.a (!p)) (hv.tables (!p)) c3 hQ0 hx0 c4 hat
  have hsc := sameCalls_cheatSingleLevel (G := (C p).Pt) (buildTables_spec (hv.tables (!p))).1 Q ch
    (x.child + (prm.layer (!p)).delta) r (cheatStart (C (!p)) (prm.layer (!p)) (prm.h (!p)) Q (x.child + (prm.layer (!p)).delta) r)
  obtain ⟨⟨⟩, t3, f1, -⟩ := sameCalls_run o hsc d2.inv.sync.stmt e1
  refine ⟨s3, t3, ?_, d2.gadget hsc e1 f1, e2, e3.deferred.trans (c5.trans a3), ?_⟩
  rotate_left
  · unfold forgeSide forgeLevel
    simp only [hre, List.getLast?_append, List.getLast?_singleton, Option.some_or, List.dropLast_concat, a1, List.length_append, List.length_singleton, Nat.add_sub_cancel, c1, e1]
    rfl
  rw [verifierLoop_snoc o false prm T rootHere child' par ps 0 b1, Nat.zero_add, ← hlen, verifierLoop]
  simp only [hQ, d1, f1, verifierLoop]

/-- Honest on the even curve, cheating on the last level: any point is accepted as the selected leaf. -/
theorem path_forge_at (oE : SideO C false) (oO : SideO C true) {prm : SelRerand C} (hv : prm.Valid)
    (hg : ∀ p, L ≤ (prm.gens p).Gs.length)
    {T : CurveTree L M (Pts C)} {nodes : WitPath B (Pts C)} {leaf : (C false).Pt}
    (hT : T.PathTo prm.tree 0 nodes ⟨false, leaf⟩) (h0 : T.height ≠ 0) {rnd : ∀ p, Nat → B (!p)}
    (hE : ∀ i, i + 1 < (nodes true).length → rnd false i ≠ 0) (hO : ∀ i < (nodes false).length, rnd true i ≠ 0)
    (hav : ∀ p (k : Nat) w, (nodes p)[k]? = some w → (p = true → k + 1 < (nodes true).length) →
      prm.Avoids (!p) w.child (rnd (!p) k)) {Q : (C false).Pt}
    (hQ0 : Q + (prm.layer false).delta ≠ 0) (hx0 : leaf + (prm.layer false).delta ≠ 0) {r : Nat}
    (hat : Attackable (C false) (prm.layer false).lambda (prm.h false) r (leaf + (prm.layer false).delta)
      (Q + (prm.layer false).delta))
    {sE : SideP C false} {sO : SideP C true} {tE : SideV C false} {tO : SideV C true}
    (hsE : Session oE (prm.gens false) sE tE) (hsO : Session oO (prm.gens true) sO tO) (gE : sE.Good) (gO : sO.Good) :
    ∃ sE' sO' tE' tO', treeVerifierGadget oE oO false prm T { proverPath prm nodes rnd with selected := Q } tE tO =
        .ok (Q, tE', tO') ∧
      Session oE (prm.gens false) sE' tE' ∧ Session oO (prm.gens true) sO' tO' ∧ sE'.Good ∧ sO'.Good ∧
      sE'.deferred = sE.deferred ∧ sO'.deferred = sO.deferred ∧ sE.vecOpen <+: sE'.vecOpen ∧
      forgePath oE oO prm rnd nodes Q r sE sO = .ok ({ proverPath prm nodes rnd with selected := Q }, sE', sO') := by
  cases T with
  | even n =>
    obtain ⟨w, rfl, hw1, hw, hwl⟩ := hT
    have hal := rootAlong_even hw1
    have hA := aligned w _ hw
    have hlen := even_lengths hA
    have hsum := nodes_length w
    have hwl0 : w.length ≠ 0 := by rw [hwl]; exact h0
    obtain ⟨m, hm⟩ : ∃ m, (w.nodes true).length = m + 1 := ⟨(w.nodes true).length - 1, by omega⟩
    have hre : rootIsEven w.nodes = .ok true := by unfold rootIsEven; rw [if_pos hlen]
    have hce : (proverPath prm w.nodes rnd).even.length = m := by
      simp [proverPath, rerandomized_length, hm]
    have hco : (proverPath prm w.nodes rnd).odd.length = m + 1 := by
      simp [proverPath, rerandomized_length, hlen, hm]
    have hfr := from_nodes hw
    obtain ⟨s1, a1, a2, a3, a4⟩ := side_complete oE false hv (hg false) (rnd := rnd) hre (w.nodes false) 0
      (fun k w hw => ⟨(hfr _ k w hw).1, (hfr _ k w hw).2, by rw [Nat.zero_add]; exact hav _ k w hw (by simp)⟩) gE
    set P := proverPath prm w.nodes rnd with hP
    obtain ⟨tE', b1, b2⟩ := side_session hre (w.nodes false) 0 (n.commitment 0 :: P.even) (by simp [hce, hlen, hm])
      (fun k x par hx hpar => by
        rw [Nat.zero_add]
        exact even_levels_E hal hw.commits hE hO hm hP k x par hx hpar) hsE a1
    obtain ⟨ns, x, hns⟩ : ∃ ns x, w.nodes true = ns ++ [x] :=
      ⟨_, _, (List.dropLast_append_getLast (by intro h; simp [h] at hm)).symm⟩
    obtain ⟨ps, par, hps⟩ : ∃ ps par, P.odd = ps ++ [par] :=
      ⟨_, _, (List.dropLast_append_getLast (by intro h; simp [h] at hco)).symm⟩
    have l1 : ns.length = m := by simpa [hns] using hm
    have l2 : ps.length = m := by simpa [hps] using hco
    have hxl : x.child = leaf := by
      refine child_of_aligned (f := fun w : Wit B (Pts C) true => w.child) (l := w.nodes true)
          (m := (w.parents (n.commitment 0) false ++ [leaf]).tail) (i := m) ?_ (by rw [hns, ← l1]; simp) ?_
      · rw [← hA.2]; rfl
      · rw [List.getElem?_tail, List.getElem?_append_right (by rw [parents_length]; omega), parents_length]
        rw [show m + 1 - (w.nodes false).length = 0 by omega]; rfl
    obtain ⟨sO', tO', c1, c2, c3, c4, c5⟩ := side_forge oO hv (hg true) (T := CurveTree.even n) (rnd := rnd) (rootHere := false) hre (ns := ns) (x := x) (ps := ps) (par := par)
      (child := fun k => if k < P.odd.length - 1 then (n.commitment 0 :: P.even)[if (false : Bool) = true then k else k + 1]?
        else some P.selected)
      (child' := fun k => if k < P.odd.length - 1 then (n.commitment 0 :: P.even)[if (false : Bool) = true then k else k + 1]?
        else some Q) (Q := Q) (r := r)
      (by omega) (fun k w' par' h1 h2 => even_levels_O hw.commits hE hO hm hP k w' par' (by rw [hns]; exact h1) (by rw [hps]; exact h2))
      (fun k hk => by
        have : k < P.odd.length - 1 := by omega
        simp [this]) (by
        have : ¬ ns.length < P.odd.length - 1 := by omega
        simp [this])
      (fun k w' h1 => (hfr true k w' (by rw [hns]; exact h1)).2)
      (fun k w' h1 => by
        have hk := (List.getElem?_eq_some_iff.1 h1).1
        exact hav true k w' (by rw [hns, List.getElem?_append_left hk]; exact h1) (fun _ => by omega))
      hQ0 (by rw [hxl]; exact hx0) (by rw [hxl]; exact hat) hsO gO
    refine ⟨s1, sO', tE', tO', ?_, b2, c2, a2, c3, a3, c4, a4, by
      rw [← hns] at c5
      unfold forgePath
      simp only [a1, c5]
      rw [hP]⟩
    have hroot : addRoot (CurveTree.even n) { P with selected := Q } = .ok { P with even := n.commitment 0 :: P.even, selected := Q } := by
      unfold addRoot; simp only; rw [if_pos (by omega)]
    have hpar : pathRootIsOdd { P with even := n.commitment 0 :: P.even, selected := Q } = .ok false := by
      unfold pathRootIsOdd; simp only [List.length_cons]; rw [if_neg (by omega), if_pos (by omega)]
    unfold treeVerifierGadget
    simp only [hroot, evenVerifierGadget, oddVerifierGadget, hpar, Bool.not_false]
    rw [b1]
    simp only
    rw [← hps] at c1
    rw [c1]
  | odd n =>
    obtain ⟨w, rfl, hw1, hw, hwl⟩ := hT
    have hal := rootAlong_odd hw1
    have hA := aligned w _ hw
    have hlen := odd_lengths hA
    obtain ⟨m, hm⟩ : ∃ m, (w.nodes true).length = m + 1 := ⟨(w.nodes true).length - 1, by omega⟩
    have hre : rootIsEven w.nodes = .ok false := by unfold rootIsEven; rw [if_neg (by omega), if_pos hlen]
    have hce : (proverPath prm w.nodes rnd).even.length = m := by
      simp [proverPath, rerandomized_length, hm]
    have hco : (proverPath prm w.nodes rnd).odd.length = m := by
      simp [proverPath, rerandomized_length]; omega
    have hfr := from_nodes hw
    obtain ⟨s1, a1, a2, a3, a4⟩ := side_complete oE false hv (hg false) (rnd := rnd) hre (w.nodes false) 0
      (fun k w hw => ⟨(hfr _ k w hw).1, (hfr _ k w hw).2, by rw [Nat.zero_add]; exact hav _ k w hw (by simp)⟩) gE
    set P := proverPath prm w.nodes rnd with hP
    obtain ⟨tE', b1, b2⟩ := side_session hre (T := CurveTree.odd n) (w.nodes false) 0 P.even (by omega)
      (fun k x par hx hpar => by
        rw [Nat.zero_add]
        exact odd_levels_E hw.commits hE hO hm hP k x par hx hpar) hsE a1
    obtain ⟨ns, x, hns⟩ : ∃ ns x, w.nodes true = ns ++ [x] :=
      ⟨_, _, (List.dropLast_append_getLast (by intro h; simp [h] at hm)).symm⟩
    obtain ⟨ps, par, hps⟩ : ∃ ps par, n.commitment 0 :: P.odd = ps ++ [par] :=
      ⟨_, _, (List.dropLast_append_getLast (by simp)).symm⟩
    have l1 : ns.length = m := by simpa [hns] using hm
    have l2 : ps.length = m := by
      have := congrArg List.length hps
      simp only [List.length_cons, List.length_append, List.length_nil] at this; omega
    have hxl : x.child = leaf := by
      refine child_of_aligned hA.2 (i := m) (by rw [hns, ← l1]; simp) ?_
      rw [List.getElem?_append_right (by rw [parents_length]; omega), parents_length]
      rw [show m - (w.nodes false).length = 0 by omega]; rfl
    obtain ⟨sO', tO', c1, c2, c3, c4, c5⟩ := side_forge oO hv (hg true) (T := CurveTree.odd n) (rnd := rnd) (rootHere := true) hre (ns := ns) (x := x) (ps := ps) (par := par)
      (child := fun k => if k < (n.commitment 0 :: P.odd).length - 1 then P.even[if (true : Bool) = true then k else k + 1]?
        else some P.selected)
      (child' := fun k => if k < (n.commitment 0 :: P.odd).length - 1 then P.even[if (true : Bool) = true then k else k + 1]?
        else some Q) (Q := Q) (r := r)
      (by omega) (fun k w' par' h1 h2 => odd_levels_O hal hw.commits hE hO hm hP k w' par' (by rw [hns]; exact h1) (by rw [hps]; exact h2))
      (fun k hk => by
        have : k < P.odd.length := by omega
        simp [this]) (by
        have : ¬ ns.length < P.odd.length := by omega
        simp [this])
      (fun k w' h1 => (hfr true k w' (by rw [hns]; exact h1)).2)
      (fun k w' h1 => by
        have hk := (List.getElem?_eq_some_iff.1 h1).1
        exact hav true k w' (by rw [hns, List.getElem?_append_left hk]; exact h1) (fun _ => by omega))
      hQ0 (by rw [hxl]; exact hx0) (by rw [hxl]; exact hat) hsO gO
    refine ⟨s1, sO', tE', tO', ?_, b2, c2, a2, c3, a3, c4, a4, by
      rw [← hns] at c5
      unfold forgePath
      simp only [a1, c5]
      rw [hP]⟩
    have hroot : addRoot (CurveTree.odd n) { P with selected := Q } = .ok { P with odd := n.commitment 0 :: P.odd, selected := Q } := by
      unfold addRoot; simp only; rw [if_pos (by omega)]
    have hpar : pathRootIsOdd { P with odd := n.commitment 0 :: P.odd, selected := Q } = .ok true := by
      unfold pathRootIsOdd; simp only [List.length_cons]; rw [if_pos (by omega)]
    unfold treeVerifierGadget
    rw [← hps] at c1
    simp only [if_true] at b1 c1
    simp only [hroot, evenVerifierGadget, oddVerifierGadget, hpar, Bool.not_true, if_true]
    rw [b1]
    simp only
    rw [c1]

theorem path_forge (oE : SideO C false) (oO : SideO C true) {prm : SelRerand C} (hv : prm.Valid)
    (hg : ∀ p, L ≤ (prm.gens p).Gs.length)
    {T : CurveTree L M (Pts C)} {nodes : WitPath B (Pts C)} {leaf : (C false).Pt}
    (hT : T.PathTo prm.tree 0 nodes ⟨false, leaf⟩) (h0 : T.height ≠ 0) {rnd : ∀ p, Nat → B (!p)}
    (hE : ∀ i, i + 1 < (nodes true).length → rnd false i ≠ 0) (hO : ∀ i < (nodes false).length, rnd true i ≠ 0)
    (hav : ∀ p (k : Nat) w, (nodes p)[k]? = some w → (p = true → k + 1 < (nodes true).length) →
      prm.Avoids (!p) w.child (rnd (!p) k)) {Q : (C false).Pt}
    (hQ0 : Q + (prm.layer false).delta ≠ 0) (hx0 : leaf + (prm.layer false).delta ≠ 0) {r : Nat}
    (hat : Attackable (C false) (prm.layer false).lambda (prm.h false) r (leaf + (prm.layer false).delta)
      (Q + (prm.layer false).delta))
    {sE : SideP C false} {sO : SideP C true} {tE : SideV C false} {tO : SideV C true}
    (hsE : Session oE (prm.gens false) sE tE) (hsO : Session oO (prm.gens true) sO tO) (gE : sE.Good) (gO : sO.Good) :
    ∃ sE' sO' tE' tO', treeVerifierGadget oE oO false prm T { proverPath prm nodes rnd with selected := Q } tE tO =
        .ok (Q, tE', tO') ∧
      Session oE (prm.gens false) sE' tE' ∧ Session oO (prm.gens true) sO' tO' ∧ sE'.Good ∧ sO'.Good ∧
      sE'.deferred = sE.deferred ∧ sO'.deferred = sO.deferred ∧ sE.vecOpen <+: sE'.vecOpen := by
  obtain ⟨sE', sO', tE', tO', k1, k2, k3, k4, k5, k6, k7, k8, -⟩ := path_forge_at oE oO hv hg hT h0 hE hO hav hQ0 hx0 hat hsE hsO gE gO
  exact ⟨sE', sO', tE', tO', k1, k2, k3, k4, k5, k6, k7, k8⟩

end CT
