import Verif.Props.TreeGadgets
import Verif.Proofs.Membership
import Verif.Proofs.TreeForge

/-! # Membership: what an accepted path proves -/

namespace CT

section
variable {B : Bool → Type} [∀ p, Field (B p)] [∀ p, DecidableEq (B p)] {C : ∀ p, SWCurve (B p)}
  [∀ p, Module (B (!p)) (C p).Pt] {L M : Nat} [NeZero M]

/-- C22 (partial). For the repaired `re_randomize` (`fx = true`), take any tree made by `from_set`, of height at least one, and any path with as many commitments as the tree has levels
(no commitment being `-Δ`), accepted by the Verifier's gadget. There are variables, known in advance, from which re-randomisation scalars
are read such that for all satisfying assignments on the two curves with openings of the path's commitments: the returned point is a
re-randomisation of an element of the set, up to sign, by one of the scalars; or the assignment contains a second opening of a commitment
in the tree.

Missing for the full property: it fails of the code as it is (`fx = false`, see `C22_forgery`), the gadget does not check the length of
the path (see `C24_short_path_accepted`) nor that commitments differ from `-Δ`; and extraction of the assignment from
accepted proofs is the subject of C09. -/
theorem C22_membership_partial {prm : SelRerand C} (hv : prm.Valid) (hg : prm.tree.EnoughGens L M) (hL : 2 ≤ L)
    (hx0 : ∀ p y, ¬ (C p).OnCurve 0 y) {set : List (C false).Pt} {height : Option Nat} {fuel : Nat} {T : CurveTree L M (Pts C)}
    (ht : fromSet prm.tree set height fuel = some (.ok T)) (hfuel : set.length + height.getD 0 ≤ fuel) (h0 : T.height ≠ 0)
    {oE : SideO C false} {oO : SideO C true} {path : Path (C false).Pt (C true).Pt} {t t' : ∀ p, SideV C p} {sel : (C false).Pt}
    (hacc : treeVerifierGadget oE oO true prm T path (t false) (t true) = .ok (sel, t' false, t' true))
    (hlen : path.even.length + path.odd.length + 1 = T.height)
    (hE : ∀ c ∈ path.even, c + (prm.layer false).delta ≠ 0) (hO : ∀ c ∈ path.odd, c + (prm.layer true).delta ≠ 0)
    (hS : sel + (prm.layer false).delta ≠ 0) :
    ((t' false).vecComms = (t false).vecComms ++ path.even.map (·, L) ∧
      (t' true).vecComms = (t true).vecComms ++ path.odd.map (·, L)) ∧
    ∃ vs : ∀ p, List (List (Window (B (!p)))), ∀ w : ∀ p, Assignment (B (!p)), (∀ p, (t' p).SatisfiedBy (w p)) →
      ∀ bl : ∀ p, Nat → B (!p), (∀ p, (t' p).OpenedBy (prm.gens p) (w p) (bl p)) →
      (∃ leaf ∈ set, ∃ z ∈ 0 :: prm.scalars true (vs true) (w true),
        RerandOf (prm.layer false).delta (prm.h false) z leaf sel) ∨
      ∃ p j c xs, (t' p).vecComms[j]? = some (c, L) ∧ (⟨p, xs⟩ : Σ p, Nat → B (!p)) ∈ T.branches prm.tree 0 ∧
        ∃ z ∈ 0 :: prm.scalars (!p) (vs (!p)) (w (!p)),
          SecondOpening (prm.gens p) (prm.layer p).delta L xs ((w p).vec j) (bl p j) z := by
  have hne0 : set ≠ [] := by
    rintro rfl
    simp [fromSet] at ht
  obtain ⟨T', h', k1, _, _, hs⟩ := fromSet_stores hg hL hne0 height
  have := k1 fuel hfuel
  rw [ht] at this
  cases this
  have hu := hs.uniform
  have hc := hs.committed
  have hlv := hs.leaves
  rw [← hs.height] at hu
  have hmem : ∀ leaf, (⟨false, leaf⟩ : Σ p, (C p).Pt) ∈ T.leaves → leaf ∈ set := by
    intro leaf hl
    rw [hlv] at hl
    simpa using hl
  let o : ∀ q, SideO C q := fun q => match q with | false => oE | true => oO
  let ps : ∀ q, List (C q).Pt := fun q => match q with | false => path.even | true => path.odd
  unfold treeVerifierGadget addRoot at hacc
  cases T with
  | even n =>
    cases n with
    | leaf c => exact absurd rfl h0
    | branch comm children h el =>
      simp only [CurveTree.height, Node.height] at hlen h0 hu
      simp only [Node.commitment] at hacc
      by_cases hpl : path.even.length + 1 = path.odd.length
      case neg => simp [hpl] at hacc
      rw [if_pos hpl] at hacc
      simp only [evenVerifierGadget, oddVerifierGadget, pathRootIsOdd, List.length_cons, hpl] at hacc
      have hf : ¬ (path.odd.length + 1 = path.odd.length) := by omega
      simp only [hf, if_true, Bool.not_false, Bool.false_eq_true, if_false] at hacc
      split at hacc
      · cases hacc
      · rename_i sE hl0
        split at hacc
        · cases hacc
        · rename_i sO hl1
          simp only [Except.ok.injEq, Prod.mk.injEq] at hacc
          obtain ⟨rfl, rfl, rfl⟩ := hacc
          let ch : ∀ q, Nat → Option (C (!q)).Pt := fun q => match q with
            | false => fun i => path.odd[i]?
            | true => fun i => if i < path.odd.length - 1 then (comm 0 :: path.even)[i + 1]? else some path.selected
          obtain ⟨a1, vs, a2⟩ := membership_core hv hx0 (o := o) (p0 := false) (h := h) (comm := comm) (children := children) (el := el) (ch := ch) (ps := ps) (sel := path.selected) (T := CurveTree.even (.branch comm children h el))
            (rx := fun q => match q with | false => xCoordinates prm.tree children 0 | true => []) h0 hu hc
            (by
              rintro (_ | _) k c hk
              · exact hO c (List.mem_of_getElem? hk)
              · change (if k < path.odd.length - 1 then (comm 0 :: path.even)[k + 1]? else some path.selected) = some c at hk
                split at hk
                · exact hE c (List.mem_of_getElem? hk)
                · cases hk; exact hS)
            (by change path.even.length + 1 = _; omega) (by change path.odd.length = _; omega)
            (by
              rintro (_ | _) e he
              · rfl
              · change (if e < path.odd.length - 1 then (comm 0 :: path.even)[e + 1]? else some path.selected) = path.even[e]?
                simp only [levelDepth] at he
                rw [if_pos (by simp at he; omega)]
                simp)
            (by
              intro e he
              change (if e < path.odd.length - 1 then (comm 0 :: path.even)[e + 1]? else some path.selected) = some path.selected
              simp only [levelDepth] at he
              rw [if_neg (by simp at he; omega)])
            rfl rfl hl0 hl1
          refine ⟨⟨a1 false, a1 true⟩, vs, fun w hw bl hbl => ?_⟩
          rcases a2 w hw bl hbl with ⟨leaf, b1, b2⟩ | b
          · exact .inl ⟨leaf, hmem leaf b1, b2⟩
          · exact .inr b
  | odd n =>
    cases n with
    | leaf c => exact absurd rfl h0
    | branch comm children h el =>
      simp only [CurveTree.height, Node.height] at hlen h0 hu
      simp only [Node.commitment] at hacc
      by_cases hpl : path.even.length = path.odd.length
      case neg => simp [hpl] at hacc
      rw [if_pos hpl] at hacc
      simp only [evenVerifierGadget, oddVerifierGadget, pathRootIsOdd, List.length_cons, hpl] at hacc
      simp only [if_true, Bool.not_true, Nat.add_sub_cancel] at hacc
      split at hacc
      · cases hacc
      · rename_i sE hl0
        split at hacc
        · cases hacc
        · rename_i sO hl1
          simp only [Except.ok.injEq, Prod.mk.injEq] at hacc
          obtain ⟨rfl, rfl, rfl⟩ := hacc
          let ch : ∀ q, Nat → Option (C (!q)).Pt := fun q => match q with
            | false => fun i => (comm 0 :: path.odd)[i + 1]?
            | true => fun i => if i < path.odd.length then path.even[i]? else some path.selected
          obtain ⟨a1, vs, a2⟩ := membership_core hv hx0 (o := o) (p0 := true) (h := h) (comm := comm) (children := children) (el := el) (ch := ch) (ps := ps) (sel := path.selected) (T := CurveTree.odd (.branch comm children h el))
            (rx := fun q => match q with | true => xCoordinates prm.tree children 0 | false => []) h0 hu hc
            (by
              rintro (_ | _) k c hk
              · exact hO c (List.mem_of_getElem? hk)
              · change (if k < path.odd.length then path.even[k]? else some path.selected) = some c at hk
                split at hk
                · exact hE c (List.mem_of_getElem? hk)
                · cases hk; exact hS)
            (by change path.odd.length + 1 = _; omega) (by change path.even.length = _; omega)
            (by
              rintro (_ | _) e he
              · rfl
              · change (if e < path.odd.length then path.even[e]? else some path.selected) = path.even[e]?
                simp only [levelDepth] at he
                rw [if_pos (by simp at he; omega)])
            (by
              intro e he
              change (if e < path.odd.length then path.even[e]? else some path.selected) = some path.selected
              simp only [levelDepth] at he
              rw [if_neg (by simp at he; omega)])
            rfl rfl hl1 hl0
          refine ⟨⟨a1 false, a1 true⟩, vs, fun w hw bl hbl => ?_⟩
          rcases a2 w hw bl hbl with ⟨leaf, b1, b2⟩ | b
          · exact .inl ⟨leaf, hmem leaf b1, b2⟩
          · exact .inr b

/-- C22 is false of the code. Take any tree made by `from_set`, of height at least one, any element of the set, and *any* point
`Q` (such that the additions of the last level avoid the exceptional cases). There is a path with `Q` as selected leaf that the
Verifier's gadget accepts, and a Prover who knows no relation between `Q` and the set makes proofs that are accepted on both curves. -/
theorem C22_forgery {prm : SelRerand C} (hv : prm.Valid) (hg : prm.tree.EnoughGens L M) (hL : 2 ≤ L)
    {set : List (C false).Pt} {height : Option Nat} {fuel : Nat} {T : CurveTree L M (Pts C)}
    (ht : fromSet prm.tree set height fuel = some (.ok T)) (hfuel : set.length + height.getD 0 ≤ fuel) (h0 : T.height ≠ 0)
    (oE : SideO C false) (oO : SideO C true) {rnd : ∀ p, Nat → B (!p)} {i : Nat} (hi : i < set.length)
    (hE : ∀ j, j + 1 < (T.height + 1) / 2 → rnd false j ≠ 0) (hO : ∀ j < T.height / 2, rnd true j ≠ 0)
    (hav : ∀ nodes, T.witness prm.tree i 0 = .ok nodes → ∀ p (k : Nat) w, (nodes p)[k]? = some w →
      (p = true → k + 1 < (T.height + 1) / 2) → prm.Avoids (!p) w.child (rnd (!p) k))
    {Q : (C false).Pt} (hQ0 : Q + (prm.layer false).delta ≠ 0) (hx0 : set[i] + (prm.layer false).delta ≠ 0) {r : Nat}
    (hat : Attackable (C false) (prm.layer false).lambda (prm.h false) r (set[i] + (prm.layer false).delta)
      (Q + (prm.layer false).delta))
    {sE : SideP C false} {sO : SideP C true} {tE : SideV C false} {tO : SideV C true}
    (hsE : Session oE (prm.gens false) sE tE) (hsO : Session oO (prm.gens true) sO tO) (gE : sE.Good) (gO : sO.Good) :
    ∃ path sE' sO' tE' tO', path.selected = Q ∧
      treeVerifierGadget oE oO false prm T path tE tO = .ok (Q, tE', tO') ∧ sE'.Good ∧ sO'.Good ∧
      ((prm.gens false).capacity ≤ (prm.gens false).Gs.length → (prm.gens false).capacity ≤ (prm.gens false).Hs.length →
        sE.deferred = [] → nextPow2 sE'.size < 2 ^ 32 → ∀ rndE pE trE, prove oE (prm.gens false) rndE sE' = .ok (pE, trE) →
        pE.NoIdentity sE'.vecOpen.length → ∀ c, verify oE (prm.gens false) c pE tE' = .ok ()) ∧
      ((prm.gens true).capacity ≤ (prm.gens true).Gs.length → (prm.gens true).capacity ≤ (prm.gens true).Hs.length →
        sO.deferred = [] → nextPow2 sO'.size < 2 ^ 32 → ∀ rndO pO trO, prove oO (prm.gens true) rndO sO' = .ok (pO, trO) →
        pO.NoIdentity sO'.vecOpen.length → ∀ c, verify oO (prm.gens true) c pO tO' = .ok ()) := by
  obtain ⟨nodes, h1, h2⟩ := C26_witness_partial hg hL ht hfuel 0 hi
  have hM : 1 ≤ M := Nat.one_le_iff_ne_zero.2 (NeZero.ne M)
  obtain ⟨l1, l2⟩ := pathTo_lengths h2
  obtain ⟨sE', sO', tE', tO', k1, k2, k3, k4, k5, k6, k7, -⟩ := path_forge oE oO hv
    (fun p => le_trans (Nat.le_mul_of_pos_right L hM) (hg p)) h2 h0 (rnd := rnd) (fun j hj => hE j (by omega))
    (fun j hj => hO j (by omega)) (fun p k w hw hp => hav nodes h1 p k w hw (by rw [← l1]; exact hp)) hQ0 hx0 hat hsE hsO gE gO
  refine ⟨_, sE', sO', tE', tO', rfl, k1, k4, k5, ?_, ?_⟩
  · intro c1 c2 d h32 rndE pE trE hp hn c
    exact C01_one_phase oE _ rndE sE' tE' k2 c1 c2 (k6.trans d) k4.satisfied hp h32 hn c
  · intro c1 c2 d h32 rndO pO trO hp hn c
    exact C01_one_phase oO _ rndO sO' tO' k3 c1 c2 (k7.trans d) k5.satisfied hp h32 hn c

/-- The hypotheses of `C22_membership_partial` about the assignment are met by every honest Prover. -/
theorem honest_opens {F G X : Type} [Field F] [DecidableEq F] [AddCommGroup G] [Module F G] [DecidableEq G] {g : Gens G}
    {s : PState F G X} {t : VState F G X} (h : Synced g s t) (hs : s.Satisfied) :
    t.SatisfiedBy s.assignment ∧ t.OpenedBy g s.assignment fun j => (s.vecOpen.getD j (0, [])).1 := by
  constructor
  · have := hs
    unfold PState.Satisfied at this
    unfold VState.SatisfiedBy
    rwa [h.stmt.constraints, ← h.stmt.left]
  · intro j c d hj
    rw [h.comms, List.getElem?_map] at hj
    obtain ⟨x, hx, e⟩ := Option.map_eq_some_iff.1 hj
    simp only [Prod.mk.injEq] at e
    obtain ⟨rfl, rfl⟩ := e
    have hx' : s.vecOpen.getD j (0, []) = x := by rw [List.getD_eq_getElem?_getD, hx]; rfl
    rw [msm_cons, add_comm]
    simp only [PState.assignment, hx']
    congr 1
    rw [msm_eq _ _ x.2.length (Or.inr le_rfl), Finset.sum_range]
    refine Finset.sum_congr rfl fun k _ => ?_
    congr 1
    simp [List.getD_eq_getElem?_getD]

end

section Example
open Curve19

theorem new_good (p : Bool) : (PState.new [] : SideP Cs p).Good :=
  ⟨⟨rfl, rfl, by intro i hi; simp [PState.new] at hi, by simp [PState.new]⟩, by simp [PState.new], by simp [PState.new]⟩

theorem no_zero_x (p : Bool) (y : B p) : ¬ (Cs p).OnCurve 0 y := by
  change ¬ C.OnCurve (0 : ZMod 19) y
  have : ∀ y : ZMod 19, ¬ C.OnCurve 0 y := by decide +kernel
  exact this y

set_option maxRecDepth 4000 in
/-- The stored witness of leaf 2 is a path to it. -/
theorem pathTo_T : T.PathTo prm.tree 0 nodes ⟨false, 11 • h⟩ := by
  obtain ⟨nodes', e, hp⟩ := C26_witness_partial (prm := prm.tree) tree_gens le_rfl fromSet_T (by decide) 0
    (i := 2) (by decide)
  rw [← Except.ok.inj (witness_T.symm.trans e)] at hp
  exact hp

/-- The leaf `11h` can be replaced by `8h`. -/
theorem attackable_8h : Attackable (Cs false) (prm.layer false).lambda (prm.h false) 0 (set[2]'(by decide) + (prm.layer false).delta)
    (8 • h + (prm.layer false).delta) :=
    ⟨by
        have : ∀ k < 3, 1 ≤ k → Curve19.C.DiffX
          (8 • h + h - (11 • h + h) - (partialScalar (windows 6) (fun i => windowIndex 6 0 (i + 1)) (windows 6) -
            partialScalar (windows 6) (fun i => windowIndex 6 0 (i + 1)) k) • h)
          (tableScalar (windows 6) (k + 1) (windowIndex 6 0 (k + 1)) • h) := by decide +kernel
        exact fun k h1 h2 => this k h2 h1, by
        change 8 • h + h - (11 • h + h) ≠ (partialScalar (windows 6) (fun i => windowIndex 6 0 (i + 1)) (windows 6) -
            partialScalar (windows 6) (fun i => windowIndex 6 0 (i + 1)) 1) • h
        decide +kernel, by
        change Curve19.C.DiffX (11 • h + h) (8 • h + h - (11 • h + h))
        decide +kernel⟩

/-- Non-vacuity of `C22_forgery`: in the tree with leaves `3h, 5h, 11h` the point `Q = 8h`, starting from the leaf `11h`. -/
example : ∃ path sE' sO' tE' tO', path.selected = 8 • h ∧
    treeVerifierGadget (o false) (o true) false prm T path (.new []) (.new []) = .ok (8 • h, tE', tO') ∧
    PState.Good (F := ZMod 19) (G := C.Pt) (X := C.Pt) sE' ∧ PState.Good (F := ZMod 19) (G := C.Pt) (X := C.Pt) sO' := by
  obtain ⟨path, sE', sO', tE', tO', h1, h2, h3, h4, -⟩ := C22_forgery valid
    tree_gens le_rfl fromSet_T (by decide) (by rw [height_T]; decide)
    (o false) (o true) (rnd := rnd) (i := 2) (by decide)
    (by rw [height_T]; intro j hj; omega) (by intro j _; change (2 : ZMod 19) ≠ 0; decide)
    (by intro nodes' hw; rw [← Except.ok.inj (witness_T.symm.trans hw)]; intro p k w hw _; exact avoids_T p k w hw)
    (Q := 8 • h) (by change 8 • h + h ≠ 0; decide +kernel) (by change 11 • h + h ≠ 0; decide +kernel) (r := 0)
    attackable_8h
    (.new []) (.new []) (new_good _) (new_good _)
  exact ⟨path, sE', sO', tE', tO', h1, h2, h3, h4⟩

set_option maxRecDepth 4000 in
/-- Non-vacuity of `C22_membership_partial`: the honest Prover for leaf 2, with the repaired `re_randomize`. The Verifier accepts the
path, and the Prover's assignment and openings satisfy the hypotheses about `w` and `bl`. -/
example : ∃ (path : Path Curve19.C.Pt Curve19.C.Pt) (t' : ∀ p, SideV Cs p) (sel : Curve19.C.Pt) (w : Assignment (ZMod 19)) (w' : Assignment (ZMod 19))
    (bl bl' : Nat → ZMod 19),
    treeVerifierGadget (o false) (o true) true prm T path (.new []) (.new []) = .ok (sel, t' false, t' true) ∧
    path.even.length + path.odd.length + 1 = T.height ∧
    (∀ c ∈ path.even, c + (prm.layer false).delta ≠ 0) ∧ (∀ c ∈ path.odd, c + (prm.layer true).delta ≠ 0) ∧
    sel + (prm.layer false).delta ≠ 0 ∧ (t' false).SatisfiedBy w ∧ (t' true).SatisfiedBy w' ∧
    (t' false).OpenedBy (prm.gens false) w bl ∧ (t' true).OpenedBy (prm.gens true) w' bl' := by
  have hp := pathTo_T
  obtain ⟨path, r, sE', sO', k1, k2, k3, -⟩ := path_complete (o false) (o true) true valid gens_enough (T := T) (nodes := nodes) hp
    (rnd := rnd) avoids_T (new_good _) (new_good _)
  have hl : (nodes true).length = 1 ∧ (nodes false).length = 1 := by decide +kernel
  obtain ⟨tE', tO', v1, v2, v3⟩ := path_session (T := T) (nodes := nodes) hp (by rw [height_T]; decide) (rnd := rnd)
    (by intro j hj; omega) (by intro j _; change (2 : ZMod 19) ≠ 0; decide) (.new []) (.new []) k1
  obtain ⟨a1, a2⟩ := honest_opens v2.inv.sync k2.satisfied
  obtain ⟨b1, b2⟩ := honest_opens v3.inv.sync k3.satisfied
  have hpath : path = proverPath prm nodes rnd ∧
      r = if nodes true = [] then 0 else rnd false ((nodes true).length - 1) := by
    unfold pathProverGadget at k1
    split at k1
    · cases k1
    · split at k1
      · cases k1
      · simp only [Except.ok.injEq, Prod.mk.injEq] at k1
        exact ⟨k1.1.1.symm, k1.1.2.symm⟩
  have hr : r = (5 : ZMod 19) := by
    rw [hpath.2, if_neg (by intro e; rw [e] at hl; simp at hl)]
    rfl
  obtain rfl := hpath.1
  subst hr
  refine ⟨_, fun p => match p with | false => tE' | true => tO', _, _, _, _, _, v1, ?_, ?_, ?_, ?_, a1, b1, a2, b2⟩
  · simp [proverPath, rerandomized_length, hl, height_T]
  · decide +kernel
  · decide +kernel
  · decide +kernel

end Example

end CT
