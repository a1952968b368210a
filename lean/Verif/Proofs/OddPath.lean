import Verif.Proofs.OddSide
import Verif.Props.TreeGadgets

/-! A whole path, the first level on one of the two curves run for a child that is not among the children. -/

namespace CT

section
variable {F G X : Type} [Field F]

/-- The forger's change to its values: the output of gate `L - 1` becomes zero. -/
def PState.patch (L : Nat) (b : Bool) (s : PState F G X) : PState F G X :=
  if b then { s with aO := s.aO.set (L - 1) 0 } else s

variable [DecidableEq F] [AddCommGroup G] [Module F G] [DecidableEq G]

/-- After the change the forger's proofs are accepted. -/
theorem patch_accepted {o : Oracle F G X} {g : Gens G} {L : Nat} {b : Bool} {s : PState F G X} {t : VState F G X} (h : Session o g s t)
    (hcG : g.capacity ≤ g.Gs.length) (hcH : g.capacity ≤ g.Hs.length) (hd : s.deferred = [])
    (hlin : ∀ c ∈ s.constraints, (s.patch L b).assignment.eval c = 0)
    (hodd : b = true → s.vecOpen.length % 2 = 1 ∧ (s.vecOpen.getD (s.vecOpen.length - 1) (0, [])).2.getD (L - 1) 0 ≠ 0)
    (h32 : nextPow2 s.size < 2 ^ 32) {rnd : PRand F}
    {p : R1CSProof F G} {tr : Transcript F G X} (hp : forge o g rnd (s.patch L b) = .ok (p, tr))
    (hne : p.NoIdentity s.vecOpen.length) (r : F) : verify o g r p t = .ok () := by
  obtain ⟨hsy, hi, hdef⟩ := h.inv
  cases b with
  | false =>
    change forge o g rnd s = _ at hp
    have hdt : t.deferred = [] := by rw [hd] at hdef; exact List.forall₂_nil_left_iff.1 hdef
    refine cheatProve_verifies o g rnd _ s t hsy hd hdt hcG hcH (by simp) hlin ?_ hp h32 hne r
    intro i hi'
    rw [getD_map_range, if_pos hi']
    have hg : s.aL.getD i 0 * s.aR.getD i 0 = s.aO.getD i 0 := hi.gates i hi'
    rw [hg]; simp
  | true =>
    obtain ⟨h1, h2⟩ := hodd rfl
    refine C09_odd_commitments_forgery o g rnd s t h hcG hcH hd h1 s.aL s.aR (s.aO.set (L - 1) 0) rfl hi.lenR
      (by rw [List.length_set, hi.lenO]) hlin ?_ h32 hp hne r
    intro i hi' hne
    by_cases e : i = L - 1
    · rw [e]; exact h2
    · refine absurd ?_ hne
      rw [List.getD_eq_getElem?_getD (l := s.aO.set _ _), List.getElem?_set_ne (fun h => e h.symm), ← List.getD_eq_getElem?_getD]
      exact hi.gates i hi'

end

variable {B : Bool → Type} [∀ p, Field (B p)] [∀ p, DecidableEq (B p)] {C : ∀ p, SWCurve (B p)}
  [∀ p, Module (B (!p)) (C p).Pt] {L M : Nat} [NeZero M]

theorem mapIdx_snd {α β γ : Type} (f : Nat → β) (g : α → γ) (l : List α) :
    (l.mapIdx fun k w => (f k, g w)).map (·.2) = l.map g := by
  apply List.ext_getElem?
  intro i
  simp
  rfl

/-- One side: honest, or with a bad first level. -/
theorem side_either {p : Bool} (o : SideO C p) (fx : Bool) {prm : SelRerand C} (hv : prm.Valid) (hg : L ≤ (prm.gens p).Gs.length) (hL : 2 ≤ L)
    {T : CurveTree L M (Pts C)} {rnd : ∀ p, Nat → B (!p)} {rootHere re : Bool} {nodes : WitPath B (Pts C)}
    (hre : rootIsEven nodes = .ok re) {child : Nat → Option (C (!p)).Pt} {ns : List (Wit B (Pts C) p)} {ps : List (C p).Pt}
    (hlen : ns.length = ps.length) (b : Bool) (hb : b = true → ns ≠ [])
    (hk : ∀ k w par', ns[k]? = some w → ps[k]? = some par' →
      LevelOk L prm (rootSiblings prm _ T) rnd rootHere (parentScalar rnd re p k) (child k) k w par')
    (hmem : ∀ (k : Nat) (w : Wit B (Pts C) p), ns[k]? = some w → (b = true → k ≠ 0) →
      (C (!p)).xField (w.child + (prm.layer (!p)).delta) ∈ w.siblings)
    (hav : ∀ (k : Nat) (w : Wit B (Pts C) p), ns[k]? = some w → prm.Avoids (!p) w.child (rnd (!p) k))
    (tr : Transcript (B (!p)) (C p).Pt (C (!p)).Pt) :
    ∃ s : SideP C p, proverLoop o fx prm nodes rnd 0 ns (.new tr) = .ok s ∧ s.deferred = [] ∧
      (∀ c ∈ s.constraints, (s.patch L b).assignment.eval c = 0) ∧
      (b = true → s.vecOpen.map (·.2) = (ns.map (·.siblings)).drop (if rootHere then 1 else 0)) := by
  cases b with
  | false =>
    obtain ⟨s, a1, a2, a3, a4⟩ := side_complete o fx hv hg (rnd := rnd) hre ns 0
      (fun k w hw => by
        have hkl : k < ns.length := (List.getElem?_eq_some_iff.1 hw).1
        obtain ⟨par', hp⟩ : ∃ par', ps[k]? = some par' := ⟨_, List.getElem?_eq_getElem (by omega)⟩
        exact ⟨(hk k w par' hw hp).len, hmem k w hw (by simp), by rw [Nat.zero_add]; exact hav k w hw⟩)
      (s := .new tr)
      ⟨⟨rfl, rfl, by intro i hi; simp [PState.new] at hi, by simp [PState.new]⟩, by simp [PState.new], by simp [PState.new]⟩
    exact ⟨s, a1, a3, a2.sat, by simp⟩
  | true =>
    match ns, ps, hlen, hb rfl, hk, hmem, hav with
    | x :: ns, par :: ps, hlen, _, hk, hmem, hav =>
    obtain ⟨s, t, a1, -, -, a4, a5, a6⟩ := side_odd o fx hv hg hL (T := T) hre (by simpa using hlen) hk
      (fun w hw => by
        obtain ⟨k, hk', e⟩ := List.getElem_of_mem hw
        exact hmem (k + 1) w (by simp [← e, hk']) (by simp)) hav tr
    refine ⟨s, a1, a4, a6, fun _ => ?_⟩
    rw [a5, List.map_drop, mapIdx_snd]

/-- Root on the even curve; the bad level is the first one on curve `p`. -/
theorem even_path_odd (oE : SideO C false) (oO : SideO C true) (fx : Bool) {prm : SelRerand C} (hv : prm.Valid)
    (hg : ∀ p, L ≤ (prm.gens p).Gs.length) (hL : 2 ≤ L)
    {n : Node L M (Pts C) false} {w : WPath B (Pts C) false} {leaf : (C false).Pt} (hal : RootAlong prm (.even n) w)
    (hw : w.Commits prm.tree L ⟨false, leaf⟩ (n.commitment 0)) (h0 : w.length ≠ 0) {rnd : ∀ p, Nat → B (!p)}
    (hE : ∀ i, i + 1 < (w.nodes true).length → rnd false i ≠ 0) (hO : ∀ i < (w.nodes false).length, rnd true i ≠ 0) (p : Bool)
    (hmem : ∀ q (k : Nat) (x : Wit B (Pts C) q), (w.nodes q)[k]? = some x → (q = p → k ≠ 0) →
      (C (!q)).xField (x.child + (prm.layer (!q)).delta) ∈ x.siblings)
    (hav : ∀ q (k : Nat) (x : Wit B (Pts C) q), (w.nodes q)[k]? = some x → prm.Avoids (!q) x.child (rnd (!q) k))
    (trE : Transcript (B (!false)) (C false).Pt (C (!false)).Pt) (trO : Transcript (B (!true)) (C true).Pt (C (!true)).Pt) :
    ∃ (path : Path (C false).Pt (C true).Pt) (r : B (!false)) (sE : SideP C false) (sO : SideP C true) (tE : SideV C false)
      (tO : SideV C true), pathProverGadget oE oO fx prm rnd w.nodes (.new trE) (.new trO) = .ok ((path, r), sE, sO) ∧
      treeVerifierGadget oE oO fx prm (.even n) path (.new trE) (.new trO) = .ok (leaf + r • prm.h false, tE, tO) ∧
      Session oE (prm.gens false) sE tE ∧ Session oO (prm.gens true) sO tO ∧ sE.deferred = [] ∧ sO.deferred = [] ∧
      (∀ c ∈ sE.constraints, (sE.patch L (!p)).assignment.eval c = 0) ∧
      (∀ c ∈ sO.constraints, (sO.patch L p).assignment.eval c = 0) ∧
      ((!p) = true → sE.vecOpen.map (·.2) = ((w.nodes false).map (·.siblings)).drop 1) ∧
      (p = true → sO.vecOpen.map (·.2) = (w.nodes true).map (·.siblings)) := by
  have hA := aligned_of_commits w _ hw
  have hlen := even_lengths hA
  have hsum := nodes_length w
  obtain ⟨m, hm⟩ : ∃ m, (w.nodes true).length = m + 1 := ⟨(w.nodes true).length - 1, by omega⟩
  have hre : rootIsEven w.nodes = .ok true := by unfold rootIsEven; rw [if_pos hlen]
  have hce : (proverPath prm w.nodes rnd).even.length = m := by
    simp [proverPath, rerandomized_length, hm]
  have hco : (proverPath prm w.nodes rnd).odd.length = m + 1 := by
    simp [proverPath, rerandomized_length, hlen, hm]
  obtain ⟨sE, a1, a2, a3, a4⟩ := side_either oE fx hv (hg false) hL (T := CurveTree.even n) hre
    (ns := w.nodes false) (ps := n.commitment 0 :: (proverPath prm w.nodes rnd).even) (by simp [hce, hlen, hm]) (!p)
    (fun _ e => by rw [e] at hlen; simp at hlen; omega)
    (fun k x par hx hpar => even_levels_E hal hw hE hO hm rfl k x par hx hpar)
    (fun k x hx hk => hmem false k x hx (fun e => hk (by rw [← e]; rfl))) (fun k x hx => hav false k x hx) trE
  obtain ⟨sO, b1, b2, b3, b4⟩ := side_either oO fx hv (hg true) hL (T := CurveTree.even n) hre
    (ns := w.nodes true) (ps := (proverPath prm w.nodes rnd).odd) (by omega) p
    (fun _ e => by rw [e] at hm; simp at hm)
    (fun k x par hx hpar => even_levels_O hw hE hO hm rfl k x par hx hpar)
    (fun k x hx hk => hmem true k x hx (fun e => hk e.symm)) (fun k x hx => hav true k x hx) trO
  have hp : pathProverGadget oE oO fx prm rnd w.nodes (.new trE) (.new trO) = .ok ((proverPath prm w.nodes rnd,
      if w.nodes true = [] then 0 else rnd false ((w.nodes true).length - 1)), sE, sO) := by
    unfold pathProverGadget; simp only [a1, b1]
  obtain ⟨tE, tO, c1, c2, c3⟩ := even_session_commits hal hw h0 hE hO (.new trE) (.new trO) hp
  exact ⟨_, _, sE, sO, tE, tO, hp, c1, c2, c3, a2, b2, a3, b3, a4, by simpa using b4⟩

/-- Root on the odd curve; the bad level is the root. -/
theorem odd_path_odd (oE : SideO C false) (oO : SideO C true) (fx : Bool) {prm : SelRerand C} (hv : prm.Valid)
    (hg : ∀ p, L ≤ (prm.gens p).Gs.length) (hL : 2 ≤ L)
    {n : Node L M (Pts C) true} {w : WPath B (Pts C) true} {leaf : (C false).Pt} (hal : RootAlong prm (.odd n) w)
    (hw : w.Commits prm.tree L ⟨false, leaf⟩ (n.commitment 0)) {rnd : ∀ p, Nat → B (!p)}
    (hE : ∀ i, i + 1 < (w.nodes true).length → rnd false i ≠ 0) (hO : ∀ i < (w.nodes false).length, rnd true i ≠ 0)
    (hmem : ∀ q (k : Nat) (x : Wit B (Pts C) q), (w.nodes q)[k]? = some x → (q = true → k ≠ 0) →
      (C (!q)).xField (x.child + (prm.layer (!q)).delta) ∈ x.siblings)
    (hav : ∀ q (k : Nat) (x : Wit B (Pts C) q), (w.nodes q)[k]? = some x → prm.Avoids (!q) x.child (rnd (!q) k))
    (trE : Transcript (B (!false)) (C false).Pt (C (!false)).Pt) (trO : Transcript (B (!true)) (C true).Pt (C (!true)).Pt) :
    ∃ (path : Path (C false).Pt (C true).Pt) (r : B (!false)) (sE : SideP C false) (sO : SideP C true) (tE : SideV C false)
      (tO : SideV C true), pathProverGadget oE oO fx prm rnd w.nodes (.new trE) (.new trO) = .ok ((path, r), sE, sO) ∧
      treeVerifierGadget oE oO fx prm (.odd n) path (.new trE) (.new trO) = .ok (leaf + r • prm.h false, tE, tO) ∧
      Session oE (prm.gens false) sE tE ∧ Session oO (prm.gens true) sO tO ∧ sE.deferred = [] ∧ sO.deferred = [] ∧
      (∀ c ∈ sE.constraints, (sE.patch L false).assignment.eval c = 0) ∧
      (∀ c ∈ sO.constraints, (sO.patch L true).assignment.eval c = 0) ∧
      sO.vecOpen.map (·.2) = ((w.nodes true).map (·.siblings)).drop 1 := by
  have hA := aligned_of_commits w _ hw
  have hlen := odd_lengths hA
  obtain ⟨m, hm⟩ : ∃ m, (w.nodes true).length = m + 1 := ⟨(w.nodes true).length - 1, by omega⟩
  have hre : rootIsEven w.nodes = .ok false := by unfold rootIsEven; rw [if_neg (by omega), if_pos hlen]
  have hce : (proverPath prm w.nodes rnd).even.length = m := by
    simp [proverPath, rerandomized_length, hm]
  have hco : (proverPath prm w.nodes rnd).odd.length = m := by
    simp [proverPath, rerandomized_length]; omega
  obtain ⟨sE, a1, a2, a3, -⟩ := side_either oE fx hv (hg false) hL (T := CurveTree.odd n) hre
    (ns := w.nodes false) (ps := (proverPath prm w.nodes rnd).even) (by omega) false (by simp)
    (fun k x par hx hpar => odd_levels_E hw hE hO hm rfl k x par hx hpar)
    (fun k x hx _ => hmem false k x hx (by simp)) (fun k x hx => hav false k x hx) trE
  obtain ⟨sO, b1, b2, b3, b4⟩ := side_either oO fx hv (hg true) hL (T := CurveTree.odd n) hre
    (ns := w.nodes true) (ps := n.commitment 0 :: (proverPath prm w.nodes rnd).odd) (by simp; omega) true
    (fun _ e => by rw [e] at hm; simp at hm)
    (fun k x par hx hpar => odd_levels_O hal hw hE hO hm rfl k x par hx hpar)
    (fun k x hx hk => hmem true k x hx hk) (fun k x hx => hav true k x hx) trO
  have hp : pathProverGadget oE oO fx prm rnd w.nodes (.new trE) (.new trO) = .ok ((proverPath prm w.nodes rnd,
      if w.nodes true = [] then 0 else rnd false ((w.nodes true).length - 1)), sE, sO) := by
    unfold pathProverGadget; simp only [a1, b1]
  obtain ⟨tE, tO, c1, c2, c3⟩ := odd_session_commits hal hw hE hO (.new trE) (.new trO) hp
  exact ⟨_, _, sE, sO, tE, tO, hp, c1, c2, c3, a2, b2, a3, b3, b4 rfl⟩

end CT
