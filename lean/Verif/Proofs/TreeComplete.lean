import Verif.Proofs.TreeSession
import Verif.Spec.TreeGadgets
import Verif.Props.SingleLevel

/-! An honest Prover succeeds on a path. -/

namespace CT

section CommitVec
variable {F G X : Type} [Field F] [AddCommGroup G] [Module F G]

theorem commitVec_good {g : Gens G} {s : PState F G X} (hs : s.Good) (v : List F) (bl : F) (hg : v.length ≤ g.Gs.length) :
    ∃ V s', s.commitVec g v bl = .ok ((V, (List.range v.length).map fun i => .vectorCommit s.vecOpen.length i), s') ∧
      s'.Good ∧ s'.deferred = s.deferred ∧ s'.vecOpen = s.vecOpen ++ [(bl, v)] ∧ s'.aL = s.aL ∧ s'.v = s.v := by
  refine ⟨_, { s with
      vecOpen := s.vecOpen ++ [(bl, v)]
      transcript := s.transcript ++ [.point "V" (msm (g.pc.Bbl :: g.Gs.take v.length) (bl :: v))] },
    by unfold PState.commitVec; rw [if_neg (by simp [hg])], ?_, rfl, rfl, rfl, rfl⟩
  have hval : ∀ x, s.Has x → PState.Has { s with
      vecOpen := s.vecOpen ++ [(bl, v)]
      transcript := s.transcript ++ [.point "V" (msm (g.pc.Bbl :: g.Gs.take v.length) (bl :: v))] } x ∧
      (PState.assignment { s with
      vecOpen := s.vecOpen ++ [(bl, v)]
      transcript := s.transcript ++ [.point "V" (msm (g.pc.Bbl :: g.Gs.take v.length) (bl :: v))] }).val x =
      s.assignment.val x := by
    intro x hx
    cases x with
    | vectorCommit j i =>
      obtain ⟨o, ho, hi⟩ := hx
      have hj : j < s.vecOpen.length := (List.getElem?_eq_some_iff.1 ho).1
      refine ⟨⟨o, by simpa [List.getElem?_append_left hj] using ho, hi⟩, ?_⟩
      simp [Assignment.val, PState.assignment, List.getD_eq_getElem?_getD, List.getElem?_append_left hj]
    | committed i => exact ⟨hx, rfl⟩
    | multiplierLeft i => exact ⟨hx, rfl⟩
    | multiplierRight i => exact ⟨hx, rfl⟩
    | multiplierOutput i => exact ⟨hx, rfl⟩
    | one => exact ⟨hx, rfl⟩
  refine ⟨⟨hs.toInv.lenR, hs.toInv.lenO, hs.toInv.gates, hs.toInv.pend⟩, ?_, ?_⟩
  · intro c hc t ht
    exact (hval _ (hs.hasC c hc t ht)).1
  · intro c hc
    rw [← hs.sat c hc]
    unfold Assignment.eval
    congr 1
    apply List.map_congr_left
    intro t ht
    rw [(hval _ (hs.hasC c hc t ht)).2]

end CommitVec

variable {B : Bool → Type} [∀ p, Field (B p)] [∀ p, DecidableEq (B p)] {C : ∀ p, SWCurve (B p)}
  [∀ p, Module (B (!p)) (C p).Pt] {L M : Nat} {p : Bool}

theorem children_complete {prm : SelRerand C} {w : Wit B (Pts C) p} (pr : B (!p)) {s : SideP C p} (hs : s.Good)
    (hg : w.siblings.length ≤ (prm.gens p).Gs.length) {x : B (!p)} (hmem : x ∈ w.siblings) :
    ∃ ch s1, proverChildren prm p w pr s = .ok (ch, s1) ∧ s1.Good ∧ (∀ lc ∈ ch, s1.HasLC lc) ∧
      (∃ lc ∈ ch, s1.assignment.eval lc = x) ∧ s1.deferred = s.deferred ∧
      s1.vecOpen = s.vecOpen ++ (if pr = 0 then [] else [(pr, w.siblings)]) := by
  by_cases h0 : pr = 0
  · rw [if_pos h0]
    refine ⟨w.siblings.map LC.const, s, ?_, hs, ?_, ?_, rfl, by simp⟩
    · unfold proverChildren; rw [if_pos h0]
    · intro lc hlc
      obtain ⟨x, -, rfl⟩ := List.mem_map.1 hlc
      exact PState.hasLC_const
    · exact ⟨_, List.mem_map.2 ⟨_, hmem, rfl⟩, eval_const _ _⟩
  · obtain ⟨V, s1, c1, c2, c3, c4, -⟩ := commitVec_good (g := prm.gens p) hs w.siblings pr hg
    rw [if_neg h0]
    refine ⟨((List.range w.siblings.length).map fun i => Variable.vectorCommit s.vecOpen.length i).map LC.ofVar, s1, ?_, c2,
      ?_, ?_, c3, c4⟩
    · unfold proverChildren; rw [if_neg h0, c1]
    · intro lc hlc
      simp only [List.map_map, List.mem_map, List.mem_range, Function.comp] at hlc
      obtain ⟨i, hi, rfl⟩ := hlc
      exact PState.hasLC_ofVar ⟨(pr, w.siblings), by rw [c4]; simp, hi⟩
    · obtain ⟨i, hi, e⟩ := List.getElem_of_mem hmem
      refine ⟨LC.ofVar (.vectorCommit s.vecOpen.length i), ?_, ?_⟩
      · simp only [List.map_map, List.mem_map, List.mem_range, Function.comp]
        exact ⟨i, hi, rfl⟩
      · rw [eval_ofVar, ← e]
        simp [Assignment.val, PState.assignment, c4, List.getD_eq_getElem?_getD, hi]

theorem level_complete (o : SideO C p) (fx : Bool) {prm : SelRerand C} (hv : prm.Valid)
    {w : Wit B (Pts C) p} {pr : B (!p)} {cr : B (!!p)} {s : SideP C p} (hs : s.Good)
    (hg : w.siblings.length ≤ (prm.gens p).Gs.length)
    (hmem : (C (!p)).xField (w.child + (prm.layer (!p)).delta) ∈ w.siblings)
    (hav : prm.Avoids (!p) w.child cr) :
    ∃ s', proverLevel o fx prm w pr cr s = .ok s' ∧ s'.Good ∧ s'.deferred = s.deferred ∧
      s'.vecOpen = s.vecOpen ++ (if pr = 0 then [] else [(pr, w.siblings)]) := by
  obtain ⟨ch, s1, h4, h1, h2, h3, h5, h6⟩ := children_complete pr hs hg hmem
  have hr : cr • prm.h (!p) = prm.toNat (!!p) cr • prm.h (!p) := by
    rw [← Nat.cast_smul_eq_nsmul (B (!!p)), hv.cast]
  obtain ⟨s', g1, g2, -, g4⟩ := C21_single_level_complete (G := (C p).Pt) o (hv.a (!p)) fx (hv.windows (!p)) (hv.tables (!p)) h1
    (rc := w.child + cr • prm.h (!p)) (child := w.child) (children := ch) h2 (r := prm.toNat (!!p) cr)
    (hv.bits (!p) cr) (by rw [hr])
    (by
      intro e
      refine hav.2.2.2.2 ?_
      rw [eq_neg_iff_add_eq_zero, ← e]; abel) h3 hav.1 (by rw [← hr]; exact hav.2)
  refine ⟨s', ?_, g2, g4.deferred.trans h5, g4.vecOpen.trans h6⟩
  unfold proverLevel
  simp only [h4, g1, Except.map]

theorem side_complete (o : SideO C p) (fx : Bool) {prm : SelRerand C} (hv : prm.Valid) (hg : L ≤ (prm.gens p).Gs.length)
    {rnd : ∀ p, Nat → B (!p)} {nodes : WitPath B (Pts C)} {re : Bool} (hre : rootIsEven nodes = .ok re)
    (ns : List (Wit B (Pts C) p)) : ∀ (i : Nat),
    (∀ k w, ns[k]? = some w → w.siblings.length = L ∧
      (C (!p)).xField (w.child + (prm.layer (!p)).delta) ∈ w.siblings ∧ prm.Avoids (!p) w.child (rnd (!p) (i + k))) →
    ∀ {s : SideP C p}, s.Good → ∃ s', proverLoop o fx prm nodes rnd i ns s = .ok s' ∧ s'.Good ∧ s'.deferred = s.deferred ∧
      s.vecOpen <+: s'.vecOpen := by
  induction ns with
  | nil => intro i _ s hs; exact ⟨s, rfl, hs, rfl, List.prefix_refl _⟩
  | cons w ns ih =>
    intro i hk s hs
    obtain ⟨h1, h2, h3⟩ := hk 0 w rfl
    obtain ⟨s1, k1, k2, k3, k4⟩ := level_complete o fx hv (pr := parentScalar rnd re p i) hs (by omega) h2 h3
    obtain ⟨s2, l1, l2, l3, l4⟩ := ih (i + 1) (fun k w hw => by
      have := hk (k + 1) w hw
      rwa [show i + (k + 1) = i + 1 + k by omega] at this) k2
    refine ⟨s2, ?_, l2, l3.trans k3, List.IsPrefix.trans ⟨_, k4.symm⟩ l4⟩
    simp only [proverLoop, hre]
    rw [show rnd (!p) i = rnd (!p) (i + 0) from rfl, k1]
    exact l1

variable [NeZero M]

/-- The siblings of the first node on the path are those the Verifier takes from the root. -/
def RootAlong (prm : SelRerand C) (T : CurveTree L M (Pts C)) {p : Bool} (w : WPath B (Pts C) p) : Prop :=
  ∀ x, (w.nodes p)[0]? = some x → rootSiblings prm p T = .ok x.siblings

omit [∀ p, Module (B (!p)) (C p).Pt] in
theorem rootAlong_even {prm : SelRerand C} {n : Node L M (Pts C) false} {w : WPath B (Pts C) false} {leaf : Σ p, (C p).Pt}
    (h : w.Along prm.tree 0 leaf n) : RootAlong prm (.even n) w := by
  intro x hx
  cases w with
  | nil => simp [WPath.nodes] at hx
  | cons w rest =>
    cases n with
    | leaf c => exact h.elim
    | branch comm ch hh e =>
      simp only [WPath.nodes, Function.update_self, List.getElem?_cons_zero, Option.some.injEq] at hx
      subst hx
      rw [h.1]; rfl

omit [∀ p, Module (B (!p)) (C p).Pt] in
theorem rootAlong_odd {prm : SelRerand C} {n : Node L M (Pts C) true} {w : WPath B (Pts C) true} {leaf : Σ p, (C p).Pt}
    (h : w.Along prm.tree 0 leaf n) : RootAlong prm (.odd n) w := by
  intro x hx
  cases w with
  | nil => simp [WPath.nodes] at hx
  | cons w rest =>
    cases n with
    | leaf c => exact h.elim
    | branch comm ch hh e =>
      simp only [WPath.nodes, Function.update_self, List.getElem?_cons_zero, Option.some.injEq] at hx
      subst hx
      rw [h.1]; rfl

theorem path_session {oE : SideO C false} {oO : SideO C true} {fx : Bool} {prm : SelRerand C}
    {T : CurveTree L M (Pts C)} {nodes : WitPath B (Pts C)} {leaf : (C false).Pt}
    (hT : T.PathTo prm.tree 0 nodes ⟨false, leaf⟩) (h0 : T.height ≠ 0) {rnd : ∀ p, Nat → B (!p)}
    (hE : ∀ i, i + 1 < (nodes true).length → rnd false i ≠ 0) (hO : ∀ i < (nodes false).length, rnd true i ≠ 0)
    {sE sE' : SideP C false} {sO sO' : SideP C true} {tE : SideV C false} {tO : SideV C true}
    (hsE : Session oE (prm.gens false) sE tE) (hsO : Session oO (prm.gens true) sO tO)
    {path : Path (C false).Pt (C true).Pt} {r : B (!false)}
    (hp : pathProverGadget oE oO fx prm rnd nodes sE sO = .ok ((path, r), sE', sO')) :
    ∃ tE' tO', treeVerifierGadget oE oO fx prm T path tE tO = .ok (leaf + r • prm.h false, tE', tO') ∧
      Session oE (prm.gens false) sE' tE' ∧ Session oO (prm.gens true) sO' tO' := by
  cases T with
  | even n =>
    obtain ⟨w, rfl, h1, h2, h3⟩ := hT
    exact even_session (rootAlong_even h1) h2 (by rw [h3]; exact h0) hE hO hsE hsO hp
  | odd n =>
    obtain ⟨w, rfl, h1, h2, h3⟩ := hT
    exact odd_session (rootAlong_odd h1) h2 hE hO hsE hsO hp

theorem from_nodes {prm : SelRerand C} {q : Bool} {w : WPath B (Pts C) q} {leaf : Σ p, Pts C p} {c : (C q).Pt} {idx : Nat}
    (h : w.From prm.tree L idx leaf c) (p : Bool) (k : Nat) (n : Wit B (Pts C) p) (hn : (w.nodes p)[k]? = some n) :
    n.siblings.length = L ∧ (C (!p)).xField (n.child + (prm.layer (!p)).delta) ∈ n.siblings := by
  exact from_mem w c h p k n hn

theorem path_complete (oE : SideO C false) (oO : SideO C true) (fx : Bool) {prm : SelRerand C} (hv : prm.Valid)
    (hg : ∀ p, L ≤ (prm.gens p).Gs.length)
    {T : CurveTree L M (Pts C)} {nodes : WitPath B (Pts C)} {leaf : (C false).Pt}
    (hT : T.PathTo prm.tree 0 nodes ⟨false, leaf⟩) {rnd : ∀ p, Nat → B (!p)}
    (hav : ∀ p (k : Nat) w, (nodes p)[k]? = some w → prm.Avoids (!p) w.child (rnd (!p) k))
    {sE : SideP C false} {sO : SideP C true} (hsE : sE.Good) (hsO : sO.Good) :
    ∃ path r sE' sO', pathProverGadget oE oO fx prm rnd nodes sE sO = .ok ((path, r), sE', sO') ∧
      sE'.Good ∧ sO'.Good ∧ sE'.deferred = sE.deferred ∧ sO'.deferred = sO.deferred ∧ sE.vecOpen <+: sE'.vecOpen := by
  have hfrom : (∃ re, rootIsEven nodes = .ok re) ∧ ∀ p (k : Nat) (n : Wit B (Pts C) p), (nodes p)[k]? = some n →
      n.siblings.length = L ∧ (C (!p)).xField (n.child + (prm.layer (!p)).delta) ∈ n.siblings := by
    cases T with
    | even n =>
      obtain ⟨w, rfl, h1, h2, h3⟩ := hT
      exact ⟨⟨true, by unfold rootIsEven; rw [if_pos (even_lengths (aligned w _ h2))]⟩, from_nodes h2⟩
    | odd n =>
      obtain ⟨w, rfl, h1, h2, h3⟩ := hT
      have := odd_lengths (aligned w _ h2)
      exact ⟨⟨false, by unfold rootIsEven; rw [if_neg (by omega), if_pos this]⟩, from_nodes h2⟩
  obtain ⟨⟨re, hre⟩, hfr⟩ := hfrom
  obtain ⟨s1, a1, a2, a3, a4⟩ := side_complete oE fx hv (hg false) (rnd := rnd) hre (nodes false) 0
    (fun k w hw => ⟨(hfr _ k w hw).1, (hfr _ k w hw).2, by rw [Nat.zero_add]; exact hav _ k w hw⟩) hsE
  obtain ⟨s2, b1, b2, b3, -⟩ := side_complete oO fx hv (hg true) (rnd := rnd) hre (nodes true) 0
    (fun k w hw => ⟨(hfr _ k w hw).1, (hfr _ k w hw).2, by rw [Nat.zero_add]; exact hav _ k w hw⟩) hsO
  exact ⟨_, _, s1, s2, by unfold pathProverGadget; simp only [a1, b1]; rfl, a2, b2, a3, b3, a4⟩

end CT
