import Verif.Proofs.BatchedTree

/-! Prover and Verifier agree on a batched path. -/

namespace CT

section Sync
variable {F G : Type} [Field F] [DecidableEq F] {C : SWCurve F} {M : Nat}

theorem sync_leavesLoop (fx : Bool) (prm : LayerParams C) (leaf : Fin M → C.Pt) (w : Option (Fin M → C.Pt))
    (r : Option (Fin M → Nat)) (chunks : List (List (LC F))) : ∀ i,
    SameCalls (G := G) Eq (leavesLoop C fx prm leaf w r i chunks) (leavesLoop C fx prm leaf none none i chunks) := by
  induction chunks with
  | nil => intro i; exact .pure rfl
  | cons c cs ih =>
    intro i
    unfold leavesLoop
    split
    · exact (sync_singleLevel _ _ _ _ _ _).bind fun _ _ _ => ih (i + 1)
    · exact .fail

theorem sync_leavesLevel (fx : Bool) (prm : LayerParams C) (leaf : Fin M → C.Pt) (children : List (LC F))
    (w : Option (Fin M → C.Pt)) (r : Option (Fin M → Nat)) :
    SameCalls (G := G) Eq (leavesLevel C fx prm leaf children w r) (leavesLevel C fx prm leaf children none none) := by
  unfold leavesLevel
  split
  · exact .fail
  · exact sync_leavesLoop _ _ _ _ _ _ _

end Sync

variable {B : Bool → Type} [∀ p, Field (B p)] [∀ p, DecidableEq (B p)] {C : ∀ p, SWCurve (B p)}
  [∀ p, Module (B (!p)) (C p).Pt] {L M : Nat} {p : Bool}

theorem proverChildren_length {prm : SelRerand C} {w : Wit B (Pts C) p} {pr : B (!p)} {s s1 : SideP C p}
    {ch : List (LC (B (!p)))} (h : proverChildren prm p w pr s = .ok (ch, s1)) : ch.length = w.siblings.length := by
  unfold proverChildren at h
  split at h
  · cases h; simp
  · cases hc : s.commitVec (prm.gens p) w.siblings pr with
    | error e => simp [hc] at h
    | ok x =>
      obtain ⟨⟨V, vars⟩, s2⟩ := x
      simp only [hc, Except.ok.injEq, Prod.mk.injEq] at h
      rw [← h.1, List.length_map]
      unfold PState.commitVec at hc
      simp only at hc
      split at hc
      · cases hc
      · simp only [Except.ok.injEq, Prod.mk.injEq] at hc
        rw [← hc.1.2]; simp

omit [∀ p, Module (B (!p)) (C p).Pt] in
theorem multiVerifierChildren_eq {prm : SelRerand C} {T : CurveTree L M (Pts C)} {isRoot : Bool} {parent : (C p).Pt}
    {t t1 : SideV C p} {ch : List (LC (B (!p)))}
    (h : childVars (L * M) (multiRootSiblings prm p T) isRoot parent t = .ok (ch, t1)) (hl : ch.length = L * M) :
    multiVerifierChildren prm T p isRoot parent t = .ok (ch, t1) := by
  unfold multiVerifierChildren
  unfold childVars at h
  rw [h]
  simp only
  rw [if_pos (hl.trans (Nat.mul_comm _ _))]

theorem multi_children_session {o : SideO C p} {prm : SelRerand C} {T : CurveTree L M (Pts C)}
    {rnd : ∀ p, Nat → B (!p)} {rootHere : Bool} {pr : B (!p)} {child : Option (C (!p)).Pt} {i : Nat}
    {ws : Fin M → Wit B (Pts C) p} {parent : (C p).Pt}
    (hl : LevelOk (L * M) prm (multiRootSiblings prm p T) rnd rootHere pr child i (joinWit ws) parent)
    {s s1 : SideP C p} {t : SideV C p} (h : Session o (prm.gens p) s t) {ch : List (LC (B (!p)))}
    (hp : multiProverChildren prm p ws pr s = .ok (ch, s1)) :
    ∃ t1, multiVerifierChildren prm T p (decide (i = 0) && rootHere) parent t = .ok (ch, t1) ∧
      Session o (prm.gens p) s1 t1 := by
  obtain ⟨t1, h1, h2⟩ := children_session hl h hp
  exact ⟨t1, multiVerifierChildren_eq h1 ((proverChildren_length hp).trans hl.len), h2⟩

theorem multi_level_session {o : SideO C p} {fx : Bool} {prm : SelRerand C} {T : CurveTree L M (Pts C)}
    {rnd : ∀ p, Nat → B (!p)} {rootHere : Bool} {pr : B (!p)} {child : Option (C (!p)).Pt} {i : Nat}
    {ws : Fin M → Wit B (Pts C) p} {parent : (C p).Pt}
    (hl : LevelOk (L * M) prm (multiRootSiblings prm p T) rnd rootHere pr child i (joinWit ws) parent)
    {s s' : SideP C p} {t : SideV C p} (h : Session o (prm.gens p) s t)
    (hp : multiProverLevel o fx prm ws pr (rnd (!p) i) s = .ok s') :
    ∃ c ch t1 t', child = some c ∧ multiVerifierChildren prm T p (decide (i = 0) && rootHere) parent t = .ok (ch, t1) ∧
      runV o (singleLevelBatched (C (!p)) fx M (prm.layer (!p)) c ch none none) t1 = .ok ((), t') ∧
      Session o (prm.gens p) s' t' := by
  unfold multiProverLevel at hp
  cases hpc : multiProverChildren prm p ws pr s with
  | error e => rw [hpc] at hp; cases hp
  | ok x =>
    obtain ⟨ch, s1⟩ := x
    obtain ⟨t1, hvc, hs⟩ := multi_children_session hl h hpc
    simp only [hpc] at hp
    cases hr : runP o (singleLevelBatched (C (!p)) fx M (prm.layer (!p)) ((∑ j, (ws j).child) + rnd (!p) i • prm.h (!p)) ch
      (some (List.ofFn fun j => (ws j).child + (prm.layer (!p)).delta)) (some (prm.toNat (!!p) (rnd (!p) i)))) s1 with
    | error e => rw [hr] at hp; simp [Except.map] at hp
    | ok x =>
      obtain ⟨⟨⟩, s2⟩ := x
      rw [hr] at hp
      simp only [Except.map, Except.ok.injEq] at hp
      subst hp
      have hsc := sync_singleLevelBatched (G := (C p).Pt) (X := (C (!p)).Pt) fx M (prm.layer (!p))
        ((∑ j, (ws j).child) + rnd (!p) i • prm.h (!p)) ch
        (some (List.ofFn fun j => (ws j).child + (prm.layer (!p)).delta)) (some (prm.toNat (!!p) (rnd (!p) i)))
      obtain ⟨⟨⟩, t', ht', -⟩ := sameCalls_run o hsc hs.inv.sync.stmt hr
      exact ⟨_, ch, t1, t', hl.child, hvc, ht', hs.gadget hsc hr ht'⟩

theorem multi_side_session {o : SideO C p} {fx : Bool} {prm : SelRerand C} {T : CurveTree L M (Pts C)}
    {rnd : ∀ p, Nat → B (!p)} {rootHere re : Bool} {nodes : MultiWitPath M B (Pts C)} (hre : rootIsEven nodes.join = .ok re)
    {child : Nat → Option (C (!p)).Pt} (ns : List (Fin M → Wit B (Pts C) p)) :
    ∀ (i : Nat) (ps : List (C p).Pt), ns.length = ps.length →
    (∀ (k : Nat) w par, ns[k]? = some w → ps[k]? = some par →
      LevelOk (L * M) prm (multiRootSiblings prm p T) rnd rootHere (parentScalar rnd re p (i + k)) (child (i + k)) (i + k)
        (joinWit w) par) →
    ∀ {s s' : SideP C p} {t : SideV C p}, Session o (prm.gens p) s t →
    multiProverLoop o fx prm nodes rnd i ns s = .ok s' →
    ∃ t', multiVerifierLoop o fx prm T rootHere child i ps t = .ok t' ∧ Session o (prm.gens p) s' t' := by
  induction ns with
  | nil =>
    intro i ps hl _ s s' t h hp
    obtain rfl : ps = [] := by simpa using hl.symm
    simp only [multiProverLoop, Except.ok.injEq] at hp
    subst hp
    exact ⟨t, rfl, h⟩
  | cons w ns ih =>
    intro i ps hl hk s s' t h hp
    match ps, hl with
    | par :: ps, hl =>
      simp only [multiProverLoop, hre] at hp
      cases hlev : multiProverLevel o fx prm w (parentScalar rnd re p i) (rnd (!p) i) s with
      | error e => simp [hlev] at hp
      | ok s1 =>
        simp only [hlev] at hp
        obtain ⟨c, ch, t1, t2, h1, h2, h3, h4⟩ := multi_level_session (hk 0 w par rfl rfl) h hlev
        obtain ⟨t', h5, h6⟩ := ih (i + 1) ps (by simpa using hl)
          (fun k w par hw hp => by
            have := hk (k + 1) w par hw hp
            rwa [show i + (k + 1) = i + 1 + k by omega] at this) h4 hp
        refine ⟨t', ?_, h6⟩
        simp only [Nat.add_zero] at h1 h2
        unfold multiVerifierLoop
        simp only [h1, h2, h3]
        exact h5

theorem multi_leaves_session {o : SideO C p} {fx : Bool} {prm : SelRerand C} {T : CurveTree L M (Pts C)}
    {rnd : ∀ p, Nat → B (!p)} {rootHere : Bool} {pr : B (!p)} {child : Option (C (!p)).Pt} {i : Nat}
    {ws : Fin M → Wit B (Pts C) p} {parent : (C p).Pt} {leafR : Fin M → B (!!p)}
    (hl : LevelOk (L * M) prm (multiRootSiblings prm p T) rnd rootHere pr child i (joinWit ws) parent)
    {s s' : SideP C p} {t : SideV C p} (h : Session o (prm.gens p) s t)
    (hp : multiProverLeaves o fx prm ws pr leafR s = .ok s') :
    ∃ ch t1 t', multiVerifierChildren prm T p (decide (i = 0) && rootHere) parent t = .ok (ch, t1) ∧
      runV o (leavesLevel (C (!p)) fx (prm.layer (!p)) (fun j => (ws j).child + leafR j • prm.h (!p)) ch none none) t1 =
        .ok ((), t') ∧
      Session o (prm.gens p) s' t' := by
  unfold multiProverLeaves at hp
  cases hpc : multiProverChildren prm p ws pr s with
  | error e => rw [hpc] at hp; cases hp
  | ok x =>
    obtain ⟨ch, s1⟩ := x
    obtain ⟨t1, hvc, hs⟩ := multi_children_session hl h hpc
    simp only [hpc] at hp
    cases hr : runP o (leavesLevel (C (!p)) fx (prm.layer (!p)) (fun j => (ws j).child + leafR j • prm.h (!p)) ch
      (some fun j => (ws j).child + (prm.layer (!p)).delta) (some fun j => prm.toNat (!!p) (leafR j))) s1 with
    | error e => rw [hr] at hp; simp [Except.map] at hp
    | ok x =>
      obtain ⟨⟨⟩, s2⟩ := x
      rw [hr] at hp
      simp only [Except.map, Except.ok.injEq] at hp
      subst hp
      have hsc := sync_leavesLevel (G := (C p).Pt) fx (prm.layer (!p)) (fun j => (ws j).child + leafR j • prm.h (!p)) ch
        (some fun j => (ws j).child + (prm.layer (!p)).delta) (some fun j => prm.toNat (!!p) (leafR j))
      obtain ⟨⟨⟩, t', ht', -⟩ := sameCalls_run o hsc hs.inv.sync.stmt hr
      exact ⟨ch, t1, t', hvc, ht', hs.gadget hsc hr ht'⟩

section Path


omit [∀ p, Module (B (!p)) (C p).Pt] in
theorem join_getElem? {nodes : MultiWitPath M B (Pts C)} {q : Bool} {k : Nat} {w : Fin M → Wit B (Pts C) q}
    (h : (nodes q)[k]? = some w) : (nodes.join q)[k]? = some (joinWit w) := by
  simp [MultiWitPath.join, h]

omit [∀ p, Module (B (!p)) (C p).Pt] in
theorem join_length {nodes : MultiWitPath M B (Pts C)} {q : Bool} : (nodes.join q).length = (nodes q).length := by
  simp [MultiWitPath.join]

theorem dropLast_getElem? {α : Type} {l : List α} {k : Nat} {a : α} (h : l.dropLast[k]? = some a) :
    l[k]? = some a ∧ k + 1 < l.length := by
  rw [List.dropLast_eq_take, List.getElem?_take] at h
  split at h
  · exact ⟨h, by omega⟩
  · cases h

/-- The honest levels of a batch are accepted, whatever is done on the last one: `s1` is the Prover's state on the even curve, `s3` the
one on the odd curve before the last level, whose nodes are `last`. -/
def Frame (oE : SideO C false) (oO : SideO C true) (fx : Bool) (prm : SelRerand C) (T : CurveTree L M (Pts C))
    (nodes : MultiWitPath M B (Pts C)) (leaf : Fin M → (C false).Pt) (rnd : ∀ p, Nat → B (!p)) (leafR : Fin M → B (!false))
    (tE : SideV C false) (tO : SideV C true) (s1 : SideP C false) (s3 : SideP C true) : Prop :=
  ∃ re last lp rootHere child t3 tE', rootIsEven nodes.join = .ok re ∧ (nodes true).getLast? = some last ∧
    (∀ j, (last j).child = leaf j) ∧
    ((multiProverPath prm nodes rnd leafR).even.length + 1 = (nodes true).length ∧
      (multiProverPath prm nodes rnd leafR).odd.length = (nodes false).length) ∧
    Session oE (prm.gens false) s1 tE' ∧ Session oO (prm.gens true) s3 t3 ∧
    LevelOk (L * M) prm (multiRootSiblings prm true T) rnd rootHere (parentScalar rnd re true ((nodes true).length - 1)) child
      ((nodes true).length - 1) (joinWit last) lp ∧
    ∀ sel ch t4 tO', multiVerifierChildren prm T true (decide ((nodes true).length - 1 = 0) && rootHere) lp t3 = .ok (ch, t4) →
      runV oO (leavesLevel (C false) fx (prm.layer false) sel ch none none) t4 = .ok ((), tO') →
      multiTreeVerifierGadget oE oO fx prm T { multiProverPath prm nodes rnd leafR with selected := sel } tE tO = .ok (sel, tE', tO')

/-- Root on the even curve. -/
theorem multi_even_frame {oE : SideO C false} {oO : SideO C true} {fx : Bool} {prm : SelRerand C}
    {n : Node L M (Pts C) false} {w : WPath B (Pts C) false} {leaf : Fin M → (C false).Pt} {nodes : MultiWitPath M B (Pts C)}
    (hJ : Joined prm (.even n) n nodes leaf w) (h0 : n.height ≠ 0)
    {rnd : ∀ p, Nat → B (!p)} {leafR : Fin M → B (!false)}
    (hE : ∀ i, i + 1 < (nodes true).length → rnd false i ≠ 0) (hO : ∀ i < (nodes false).length, rnd true i ≠ 0)
    {sE s1 : SideP C false} {sO s3 : SideP C true} {tE : SideV C false} {tO : SideV C true}
    (hsE : Session oE (prm.gens false) sE tE) (hsO : Session oO (prm.gens true) sO tO)
    (hpe : multiProverLoop oE fx prm nodes rnd 0 (nodes false) sE = .ok s1)
    (hpl : multiProverLoop oO fx prm nodes rnd 0 (nodes true).dropLast sO = .ok s3) :
    Frame oE oO fx prm (CurveTree.even n) nodes leaf rnd leafR tE tO s1 s3 := by
  have hA := aligned_of_commits w _ hJ.commits
  have hlen := even_lengths hA
  have hsum := nodes_length w
  rw [hJ.len] at hsum
  rw [hJ.eq] at hlen hsum
  simp only [join_length] at hlen hsum
  obtain ⟨m, hm⟩ : ∃ m, (nodes true).length = m + 1 := ⟨(nodes true).length - 1, by omega⟩
  have hre : rootIsEven nodes.join = .ok true := by unfold rootIsEven; rw [if_pos (by simpa [join_length] using hlen)]
  obtain ⟨last, hlast⟩ : ∃ x, (nodes true).getLast? = some x := by
    cases hx : (nodes true).getLast? with
    | none => rw [List.getLast?_eq_none_iff] at hx; rw [hx] at hm; simp at hm
    | some x => exact ⟨x, rfl⟩
  have hne : nodes true ≠ [] := by intro h; rw [h] at hm; simp at hm
  have hm' : (w.nodes true).length = m + 1 := by rw [hJ.eq, join_length]; exact hm
  have hP : proverPath prm w.nodes rnd = proverPath prm nodes.join rnd := by rw [hJ.eq]
  have hPe : (multiProverPath prm nodes rnd leafR).even = (proverPath prm w.nodes rnd).even := by rw [hP]; rfl
  have hPo : (multiProverPath prm nodes rnd leafR).odd = (proverPath prm w.nodes rnd).odd := by rw [hP]; rfl
  set P := proverPath prm w.nodes rnd with hPdef
  have hce : P.even.length = m := by simp [hPdef, proverPath, rerandomized_length, hm']
  have hco : P.odd.length = m + 1 := by
    simp only [hPdef, proverPath, rerandomized_length, hJ.eq, join_length]; omega
  have hE' : ∀ i, i + 1 < (w.nodes true).length → rnd false i ≠ 0 := by rw [hJ.eq]; simpa [join_length] using hE
  have hO' : ∀ i < (w.nodes false).length, rnd true i ≠ 0 := by rw [hJ.eq]; simpa [join_length] using hO
  set Q := multiProverPath prm nodes rnd leafR with hQ
  have hroot : ∀ sel : Fin M → (C false).Pt, addRoots (CurveTree.even n) { Q with selected := sel } = .ok { Q with selected := sel, even := (∑ i, n.commitment i) :: Q.even } := by
    intro sel; unfold addRoots; simp only; rw [if_pos (by rw [hPe, hPo]; omega)]
  have hpar : ∀ sel : Fin M → (C false).Pt, multiPathRootIsOdd { Q with selected := sel, even := (∑ i, n.commitment i) :: Q.even } = .ok false := by
    intro sel; unfold multiPathRootIsOdd; simp only [List.length_cons]
    rw [if_neg (by rw [hPe, hPo]; omega), if_pos (by rw [hPe, hPo]; omega)]
  have hside1 : ∃ t', multiVerifierLoop oE fx prm (CurveTree.even n) true
      (fun i => P.odd[if (false : Bool) = true then i + 1 else i]?) 0 ((∑ i, n.commitment i) :: P.even) tE = .ok t' ∧
      Session oE (prm.gens false) s1 t' := by
    refine multi_side_session hre (nodes false) 0 _ (by simp [hce, hlen, hm]) ?_ hsE hpe
    intro k x par hx hpar
    rw [Nat.zero_add]
    exact even_levels_E hJ.root hJ.commits hE' hO' hm' hPdef k _ par (by rw [hJ.eq]; exact join_getElem? hx) hpar
  have hlev : ∀ k x par, (nodes true)[k]? = some x → P.odd[k]? = some par →
      LevelOk (L * M) prm (multiRootSiblings prm true (CurveTree.even n)) rnd false (parentScalar rnd true true k)
        (if k < P.odd.length - 1 then ((∑ i, n.commitment i) :: P.even)[if (false : Bool) = true then k else k + 1]?
        else some P.selected) k (joinWit x) par := fun k x par hx hpar =>
    even_levels_O hJ.commits hE' hO' hm' hPdef k _ par (by rw [hJ.eq]; exact join_getElem? hx) hpar
  have hside2 : ∃ t', multiVerifierLoop oO fx prm (CurveTree.even n) false
      (fun i => ((∑ i, n.commitment i) :: P.even)[if (false : Bool) = true then i else i + 1]?) 0 P.odd.dropLast tO = .ok t' ∧
      Session oO (prm.gens true) s3 t' := by
    refine multi_side_session hre _ 0 _ (by simp [hco, hm]) ?_ hsO hpl
    intro k x par hx hpar
    rw [Nat.zero_add]
    have := hlev k x par (dropLast_getElem? hx).1 (dropLast_getElem? hpar).1
    rwa [if_pos (by have := (dropLast_getElem? hpar).2; omega)] at this
  obtain ⟨tE', g1, g2⟩ := hside1
  obtain ⟨t3, g3, g4⟩ := hside2
  obtain ⟨lp, hlp⟩ : ∃ x, P.odd.getLast? = some x := by
    cases hx : P.odd.getLast? with
    | none => rw [List.getLast?_eq_none_iff] at hx; rw [hx] at hco; simp at hco
    | some x => exact ⟨x, rfl⟩
  have hll := hlev m last lp (by rw [List.getLast?_eq_getElem?, hm] at hlast; exact hlast)
    (by rw [List.getLast?_eq_getElem?, hco] at hlp; exact hlp)
  refine ⟨_, last, lp, false, _, t3, tE', hre, hlast, hJ.last last hlast,
    ⟨by rw [← hQ, hPe, hce, hm], by rw [← hQ, hPo, hco]; omega⟩, g2, g4, by rw [hm]; exact hll, fun sel ch t4 tO' k1 k2 => ?_⟩
  rw [hm, Nat.add_sub_cancel] at k1
  rw [← hQ]
  unfold multiTreeVerifierGadget
  simp only [hroot sel, multiEvenVerifierGadget, multiOddVerifierGadget, hpar sel, Bool.not_false]
  rw [hPo, hPe, g1]
  simp only
  rw [hlp]
  simp only
  rw [g3]
  simp only [hco, Nat.add_sub_cancel]
  rw [k1]
  simp only
  rw [k2]
  rfl

/-- Root on the odd curve. -/
theorem multi_odd_frame {oE : SideO C false} {oO : SideO C true} {fx : Bool} {prm : SelRerand C}
    {n : Node L M (Pts C) true} {w : WPath B (Pts C) true} {leaf : Fin M → (C false).Pt} {nodes : MultiWitPath M B (Pts C)}
    (hJ : Joined prm (.odd n) n nodes leaf w)
    {rnd : ∀ p, Nat → B (!p)} {leafR : Fin M → B (!false)}
    (hE : ∀ i, i + 1 < (nodes true).length → rnd false i ≠ 0) (hO : ∀ i < (nodes false).length, rnd true i ≠ 0)
    {sE s1 : SideP C false} {sO s3 : SideP C true} {tE : SideV C false} {tO : SideV C true}
    (hsE : Session oE (prm.gens false) sE tE) (hsO : Session oO (prm.gens true) sO tO)
    (hpe : multiProverLoop oE fx prm nodes rnd 0 (nodes false) sE = .ok s1)
    (hpl : multiProverLoop oO fx prm nodes rnd 0 (nodes true).dropLast sO = .ok s3) :
    Frame oE oO fx prm (CurveTree.odd n) nodes leaf rnd leafR tE tO s1 s3 := by
  have hA := aligned_of_commits w _ hJ.commits
  have hlen := odd_lengths hA
  rw [hJ.eq] at hlen
  simp only [join_length] at hlen
  obtain ⟨m, hm⟩ : ∃ m, (nodes true).length = m + 1 := ⟨(nodes true).length - 1, by omega⟩
  have hre : rootIsEven nodes.join = .ok false := by
    unfold rootIsEven; rw [if_neg (by simp only [join_length]; omega), if_pos (by simpa [join_length] using hlen)]
  obtain ⟨last, hlast⟩ : ∃ x, (nodes true).getLast? = some x := by
    cases hx : (nodes true).getLast? with
    | none => rw [List.getLast?_eq_none_iff] at hx; rw [hx] at hm; simp at hm
    | some x => exact ⟨x, rfl⟩
  have hne : nodes true ≠ [] := by intro h; rw [h] at hm; simp at hm
  have hm' : (w.nodes true).length = m + 1 := by rw [hJ.eq, join_length]; exact hm
  have hP : proverPath prm w.nodes rnd = proverPath prm nodes.join rnd := by rw [hJ.eq]
  have hPe : (multiProverPath prm nodes rnd leafR).even = (proverPath prm w.nodes rnd).even := by rw [hP]; rfl
  have hPo : (multiProverPath prm nodes rnd leafR).odd = (proverPath prm w.nodes rnd).odd := by rw [hP]; rfl
  set P := proverPath prm w.nodes rnd with hPdef
  have hce : P.even.length = m := by simp [hPdef, proverPath, rerandomized_length, hm']
  have hco : P.odd.length = m := by
    simp only [hPdef, proverPath, rerandomized_length, hJ.eq, join_length]; omega
  have hE' : ∀ i, i + 1 < (w.nodes true).length → rnd false i ≠ 0 := by rw [hJ.eq]; simpa [join_length] using hE
  have hO' : ∀ i < (w.nodes false).length, rnd true i ≠ 0 := by rw [hJ.eq]; simpa [join_length] using hO
  set Q := multiProverPath prm nodes rnd leafR with hQ
  have hroot : ∀ sel : Fin M → (C false).Pt, addRoots (CurveTree.odd n) { Q with selected := sel } = .ok { Q with selected := sel, odd := (∑ i, n.commitment i) :: Q.odd } := by
    intro sel; unfold addRoots; simp only; rw [if_pos (by rw [hPe, hPo]; omega)]
  have hpar : ∀ sel : Fin M → (C false).Pt, multiPathRootIsOdd { Q with selected := sel, odd := (∑ i, n.commitment i) :: Q.odd } = .ok true := by
    intro sel; unfold multiPathRootIsOdd; simp only [List.length_cons]
    rw [if_pos (by rw [hPe, hPo]; omega)]
  have hside1 : ∃ t', multiVerifierLoop oE fx prm (CurveTree.odd n) false
      (fun i => ((∑ i, n.commitment i) :: P.odd)[if (true : Bool) = true then i + 1 else i]?) 0 P.even tE = .ok t' ∧
      Session oE (prm.gens false) s1 t' := by
    refine multi_side_session hre (nodes false) 0 _ (by omega) ?_ hsE hpe
    intro k x par hx hpar
    rw [Nat.zero_add]
    exact odd_levels_E hJ.commits hE' hO' hm' hPdef k _ par (by rw [hJ.eq]; exact join_getElem? hx) hpar
  have hlev : ∀ k x par, (nodes true)[k]? = some x → ((∑ i, n.commitment i) :: P.odd)[k]? = some par →
      LevelOk (L * M) prm (multiRootSiblings prm true (CurveTree.odd n)) rnd true (parentScalar rnd false true k)
        (if k < ((∑ i, n.commitment i) :: P.odd).length - 1 then P.even[if (true : Bool) = true then k else k + 1]?
        else some P.selected) k (joinWit x) par := fun k x par hx hpar =>
    odd_levels_O hJ.root hJ.commits hE' hO' hm' hPdef k _ par (by rw [hJ.eq]; exact join_getElem? hx) hpar
  have hside2 : ∃ t', multiVerifierLoop oO fx prm (CurveTree.odd n) true
      (fun i => P.even[if (true : Bool) = true then i else i + 1]?) 0 ((∑ i, n.commitment i) :: P.odd).dropLast tO = .ok t' ∧
      Session oO (prm.gens true) s3 t' := by
    refine multi_side_session hre _ 0 _ (by simp [hco, hm]) ?_ hsO hpl
    intro k x par hx hpar
    rw [Nat.zero_add]
    have := hlev k x par (dropLast_getElem? hx).1 (dropLast_getElem? hpar).1
    rwa [if_pos (by have := (dropLast_getElem? hpar).2; omega)] at this
  obtain ⟨tE', g1, g2⟩ := hside1
  obtain ⟨t3, g3, g4⟩ := hside2
  obtain ⟨lp, hlp⟩ : ∃ x, ((∑ i, n.commitment i) :: P.odd).getLast? = some x := by
    cases hx : ((∑ i, n.commitment i) :: P.odd).getLast? with
    | none => simp at hx
    | some x => exact ⟨x, rfl⟩
  have hll := hlev m last lp (by rw [List.getLast?_eq_getElem?, hm] at hlast; exact hlast)
    (by rw [List.getLast?_eq_getElem?, List.length_cons, hco] at hlp; exact hlp)
  refine ⟨_, last, lp, true, _, t3, tE', hre, hlast, hJ.last last hlast,
    ⟨by rw [← hQ, hPe, hce, hm], by rw [← hQ, hPo, hco]; omega⟩, g2, g4, by rw [hm]; exact hll, fun sel ch t4 tO' k1 k2 => ?_⟩
  rw [hm, Nat.add_sub_cancel] at k1
  rw [← hQ]
  unfold multiTreeVerifierGadget
  simp only [if_true] at g1 g3
  simp only [hroot sel, multiEvenVerifierGadget, multiOddVerifierGadget, hpar sel, Bool.not_true, if_true]
  rw [hPo, hPe, g1]
  simp only
  rw [hlp]
  simp only
  rw [g3]
  simp only [List.length_cons, hco, Nat.add_sub_cancel]
  rw [k1]
  simp only
  rw [k2]
  rfl

/-- The honest Prover, from the frame. -/
theorem frame_session {oE : SideO C false} {oO : SideO C true} {fx : Bool} {prm : SelRerand C} {T : CurveTree L M (Pts C)}
    {nodes : MultiWitPath M B (Pts C)} {leaf : Fin M → (C false).Pt} {rnd : ∀ p, Nat → B (!p)} {leafR : Fin M → B (!false)}
    {sE sE' : SideP C false} {sO sO' : SideP C true} {tE : SideV C false} {tO : SideV C true}
    (hframe : ∀ {s1 s3}, multiProverLoop oE fx prm nodes rnd 0 (nodes false) sE = .ok s1 →
      multiProverLoop oO fx prm nodes rnd 0 (nodes true).dropLast sO = .ok s3 →
      Frame oE oO fx prm T nodes leaf rnd leafR tE tO s1 s3) (hne : nodes true ≠ [])
    {path : MultiPath (C false).Pt (C true).Pt M} {r : Fin M → B (!false)}
    (hp : multiPathProverGadget oE oO fx prm rnd leafR nodes sE sO = .ok ((path, r), sE', sO')) :
    r = leafR ∧ (path.even.length + 1 = (nodes true).length ∧ path.odd.length = (nodes false).length) ∧
    ∃ tE' tO', multiTreeVerifierGadget oE oO fx prm T path tE tO =
        .ok (fun j => leaf j + r j • prm.h false, tE', tO') ∧
      Session oE (prm.gens false) sE' tE' ∧ Session oO (prm.gens true) sO' tO' := by
  unfold multiPathProverGadget at hp
  cases hpe : multiProverLoop oE fx prm nodes rnd 0 (nodes false) sE with
  | error e => simp [hpe] at hp
  | ok s1 =>
  cases hpo : multiProverOdd oO fx prm nodes rnd leafR sO with
  | error e => simp [hpe, hpo] at hp
  | ok s2 =>
  simp only [hpe, hpo, Except.ok.injEq, Prod.mk.injEq] at hp
  obtain ⟨⟨rfl, rfl⟩, rfl, rfl⟩ := hp
  unfold multiProverOdd at hpo
  cases hlast : (nodes true).getLast? with
  | none => rw [List.getLast?_eq_none_iff] at hlast; exact absurd hlast hne
  | some last =>
  simp only [hlast] at hpo
  cases hpl : multiProverLoop oO fx prm nodes rnd 0 (nodes true).dropLast sO with
  | error e => simp [hpl] at hpo
  | ok s3 =>
  obtain ⟨re, last', lp, rootHere, child, t3, tE', h1, h2, h3, h4, h5, h6, h7, h8⟩ := hframe hpe hpl
  rw [hlast] at h2
  cases h2
  simp only [hpl, h1] at hpo
  obtain ⟨ch, t4, tO', k1, k2, k3⟩ := multi_leaves_session h7 h6 hpo
  refine ⟨by funext j; simp [hne], h4, tE', tO', ?_, h5, k3⟩
  have := h8 _ ch t4 tO' k1 k2
  have hsel : (multiProverPath prm nodes rnd leafR).selected =
      fun j => (last j).child + (show B (!!true) from leafR j) • prm.h (!true) := by
    funext j
    simp only [multiProverPath, hlast]
  rw [← hsel] at this
  refine this.trans ?_
  rw [hsel]
  congr 2
  funext j
  rw [h3 j]
  simp only [if_neg hne]
  rfl

end Path

end CT
