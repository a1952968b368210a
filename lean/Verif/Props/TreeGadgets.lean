import Verif.Props.Tree
import Verif.Props.Completeness
import Verif.Proofs.TreeComplete
import Verif.Proofs.Curve19

/-! # Select-and-rerandomize for a path of a tree -/

namespace CT
variable {B : Bool → Type} [∀ p, Field (B p)] [∀ p, DecidableEq (B p)] {C : ∀ p, SWCurve (B p)}
  [∀ p, Module (B (!p)) (C p).Pt] {L M : Nat} [NeZero M]

omit [NeZero M] in
/-- The numbers of nodes on the two curves on a path of a tree of height `h`. -/
theorem pathTo_lengths {prm : SelRerand C} {T : CurveTree L M (Pts C)} {idx : Fin M} {nodes : WitPath B (Pts C)} {leaf : (C false).Pt}
    (hT : T.PathTo prm.tree idx nodes ⟨false, leaf⟩) :
    (nodes true).length = (T.height + 1) / 2 ∧ (nodes false).length = T.height / 2 := by
  cases T with
  | even n =>
    obtain ⟨w, rfl, h1, h2, h3⟩ := hT
    have a := even_lengths (aligned w _ h2)
    have b := nodes_length w
    simp only [CurveTree.height]; omega
  | odd n =>
    obtain ⟨w, rfl, h1, h2, h3⟩ := hT
    have a := odd_lengths (aligned w _ h2)
    have b := nodes_length w
    simp only [CurveTree.height]; omega

/-- C23. Take any tree made by `from_set`, of height at least one, and any index. If the Prover's gadget returns a path and a
scalar `r`, and none of the scalars drawn for inner nodes is zero, then the Verifier's gadget accepts the path and returns
`leaf + r·H` for the leaf with that index (modulo the capacity); when the root has been added the path has as many commitments
as the tree has levels, the odd ones being as many as the even ones or one more; and on both curves Prover and Verifier have
committed to the same vectors in the same order, added the same constraints and put the same messages into their transcripts, if
they had done so before (`Session`, from which `C01` concludes that the proofs are accepted). -/
theorem C23_prover_verifier_agree {prm : SelRerand C} (hg : prm.tree.EnoughGens L M) (hL : 2 ≤ L)
    {set : List (C false).Pt} {height : Option Nat} {fuel : Nat} {T : CurveTree L M (Pts C)}
    (ht : fromSet prm.tree set height fuel = some (.ok T)) (hfuel : set.length + height.getD 0 ≤ fuel) (h0 : T.height ≠ 0)
    {oE : SideO C false} {oO : SideO C true} {fx : Bool} {rnd : ∀ p, Nat → B (!p)}
    (hE : ∀ j, j + 1 < (T.height + 1) / 2 → rnd false j ≠ 0) (hO : ∀ j < T.height / 2, rnd true j ≠ 0)
    {sE sE' : SideP C false} {sO sO' : SideP C true} {tE : SideV C false} {tO : SideV C true}
    (hsE : Session oE (prm.gens false) sE tE) (hsO : Session oO (prm.gens true) sO tO)
    {i : Nat} {path : Path (C false).Pt (C true).Pt} {r : B (!false)}
    (hp : treeProverGadget oE oO fx prm rnd T i 0 sE sO = .ok ((path, r), sE', sO')) :
    ∃ leaf, set[i % L ^ T.height]? = some leaf ∧ path.selected = leaf + r • prm.h false ∧
      (∃ path', addRoot T path = .ok path' ∧ path'.even.length = T.height / 2 ∧ path'.odd.length = (T.height + 1) / 2) ∧
      ∃ tE' tO', treeVerifierGadget oE oO fx prm T path tE tO = .ok (leaf + r • prm.h false, tE', tO') ∧
        Session oE (prm.gens false) sE' tE' ∧ Session oO (prm.gens true) sO' tO' ∧
        Synced (prm.gens false) sE' tE' ∧ Synced (prm.gens true) sO' tO' := by
  unfold treeProverGadget at hp
  cases hw : T.witness prm.tree i 0 with
  | error e => simp [hw] at hp
  | ok nodes =>
    simp only [hw] at hp
    obtain ⟨a, b⟩ := C26_witness_every_index hg hL ht hfuel 0 i
    cases hl : set[i % L ^ T.height]? with
    | none =>
      obtain ⟨m, hm⟩ := b hl
      rw [hw] at hm
      exact absurd hm (by simp)
    | some leaf =>
      obtain ⟨nodes', h1, h2⟩ := a leaf hl
      rw [hw] at h1
      cases h1
      obtain ⟨l1, l2⟩ := pathTo_lengths h2
      obtain ⟨tE', tO', k1, k2, k3⟩ := path_session h2 h0 (fun j hj => hE j (by omega)) (fun j hj => hO j (by omega)) hsE hsO hp
      have hadd : ∃ path', addRoot T path = .ok path' ∧ path'.selected = path.selected := by
        cases hr : addRoot T path with
        | error e => unfold treeVerifierGadget at k1; simp [hr] at k1
        | ok path' =>
          refine ⟨path', rfl, ?_⟩
          unfold addRoot at hr
          cases T with
          | even n =>
            simp only at hr; split at hr
            · cases hr; rfl
            · cases hr
          | odd n =>
            simp only at hr; split at hr
            · cases hr; rfl
            · cases hr
      obtain ⟨path', e1, e2⟩ := hadd
      have hsel : path.selected = leaf + r • prm.h false := by
        rw [← e2]
        unfold treeVerifierGadget at k1
        simp only [e1] at k1
        split at k1
        · cases k1
        · split at k1
          · cases k1
          · simp only [Except.ok.injEq, Prod.mk.injEq] at k1
            exact k1.1
      refine ⟨leaf, rfl, hsel, ⟨path', e1, ?_⟩, tE', tO', k1, k2, k3, k2.inv.sync, k3.inv.sync⟩
      have hpath : path = proverPath prm nodes rnd := by
        unfold pathProverGadget at hp
        split at hp
        · cases hp
        · split at hp
          · cases hp
          · simp only [Except.ok.injEq, Prod.mk.injEq] at hp
            exact hp.1.1.symm
      have le : path.even.length = (T.height + 1) / 2 - 1 := by
        rw [hpath]; simp [proverPath, rerandomized_length, l1]
      have lo : path.odd.length = T.height / 2 := by
        rw [hpath]; simp [proverPath, rerandomized_length, l2]
      unfold addRoot at e1
      cases T with
      | even n =>
        simp only at e1; split at e1
        · cases e1; simp only [List.length_cons]; omega
        · cases e1
      | odd n =>
        simp only at e1; split at e1
        · cases e1; simp only [List.length_cons]; omega
        · cases e1

/-- C23, completeness: with scalars that avoid the exceptional cases of the incomplete additions the honest Prover's gadget
succeeds for every leaf, and the proofs made on both curves are accepted. -/
theorem C23_honest_path_accepted {prm : SelRerand C} (hv : prm.Valid) (hg : prm.tree.EnoughGens L M) (hL : 2 ≤ L)
    {set : List (C false).Pt} {height : Option Nat} {fuel : Nat} {T : CurveTree L M (Pts C)}
    (ht : fromSet prm.tree set height fuel = some (.ok T)) (hfuel : set.length + height.getD 0 ≤ fuel) (h0 : T.height ≠ 0)
    (oE : SideO C false) (oO : SideO C true) (fx : Bool) {rnd : ∀ p, Nat → B (!p)} {i : Nat} (hi : i < set.length)
    (hE : ∀ j, j + 1 < (T.height + 1) / 2 → rnd false j ≠ 0) (hO : ∀ j < T.height / 2, rnd true j ≠ 0)
    (hav : ∀ nodes, T.witness prm.tree i 0 = .ok nodes → ∀ p (k : Nat) w, (nodes p)[k]? = some w →
      prm.Avoids (!p) w.child (rnd (!p) k))
    {sE : SideP C false} {sO : SideP C true} {tE : SideV C false} {tO : SideV C true}
    (hsE : Session oE (prm.gens false) sE tE) (hsO : Session oO (prm.gens true) sO tO) (gE : sE.Good) (gO : sO.Good) :
    ∃ path r sE' sO' tE' tO', treeProverGadget oE oO fx prm rnd T i 0 sE sO = .ok ((path, r), sE', sO') ∧
      treeVerifierGadget oE oO fx prm T path tE tO = .ok (set[i] + (show B (!false) from r) • prm.h false, tE', tO') ∧
      sE'.Good ∧ sO'.Good ∧
      ((prm.gens false).capacity ≤ (prm.gens false).Gs.length → (prm.gens false).capacity ≤ (prm.gens false).Hs.length →
        sE.deferred = [] → nextPow2 sE'.size < 2 ^ 32 → ∀ rndE pE trE, prove oE (prm.gens false) rndE sE' = .ok (pE, trE) →
        pE.NoIdentity sE'.vecOpen.length → ∀ c, verify oE (prm.gens false) c pE tE' = .ok ()) ∧
      ((prm.gens true).capacity ≤ (prm.gens true).Gs.length → (prm.gens true).capacity ≤ (prm.gens true).Hs.length →
        sO.deferred = [] → nextPow2 sO'.size < 2 ^ 32 → ∀ rndO pO trO, prove oO (prm.gens true) rndO sO' = .ok (pO, trO) →
        pO.NoIdentity sO'.vecOpen.length → ∀ c, verify oO (prm.gens true) c pO tO' = .ok ()) := by
  obtain ⟨nodes, h1, h2⟩ := C26_witness_partial hg hL ht hfuel 0 hi
  have hM : 1 ≤ M := Nat.one_le_iff_ne_zero.2 (NeZero.ne M)
  obtain ⟨path, r, sE', sO', k1, k2, k3, k4, k5, -⟩ := path_complete oE oO fx hv
    (fun p => le_trans (Nat.le_mul_of_pos_right L hM) (hg p)) h2 (rnd := rnd) (hav nodes h1) gE gO
  obtain ⟨l1, l2⟩ := pathTo_lengths h2
  obtain ⟨tE', tO', v1, v2, v3⟩ := path_session h2 h0 (fun j hj => hE j (by omega)) (fun j hj => hO j (by omega)) hsE hsO k1
  refine ⟨path, r, sE', sO', tE', tO', by unfold treeProverGadget; simp only [h1]; exact k1, v1, k2, k3, ?_, ?_⟩
  · intro c1 c2 d h32 rndE pE trE hp hn c
    exact C01_one_phase oE _ rndE sE' tE' v2 c1 c2 (k4.trans d) k2.satisfied hp h32 hn c
  · intro c1 c2 d h32 rndO pO trO hp hn c
    exact C01_one_phase oO _ rndO sO' tO' v3 c1 c2 (k5.trans d) k3.satisfied hp h32 hn c

/-- C23 (limit). For a tree of height zero the Prover returns a path with the identity as selected leaf, which the Verifier refuses
with a panic. -/
theorem C23_height_zero {prm : SelRerand C} {T : CurveTree L M (Pts C)} (hT : ∃ c, T = .even (.leaf c))
    (oE : SideO C false) (oO : SideO C true) (fx : Bool) (rnd : ∀ p, Nat → B (!p)) (i : Nat)
    (sE : SideP C false) (sO : SideP C true) (tE : SideV C false) (tO : SideV C true) :
    ∃ path r, treeProverGadget oE oO fx prm rnd T i 0 sE sO = .ok ((path, r), sE, sO) ∧ path.selected = 0 ∧ r = 0 ∧
      ∃ m, treeVerifierGadget oE oO fx prm T path tE tO = .error (.panic m) := by
  obtain ⟨c, rfl⟩ := hT
  exact ⟨⟨0, [], []⟩, 0, rfl, rfl, rfl, _, rfl⟩

/-! ## C24: the height of the path is not checked -/

/-- C24, partial: what the Verifier's gadget does check is the parity of the number of levels. Missing: the number of levels itself,
see the next theorems. -/
theorem C24_parity_partial {prm : SelRerand C} (hg : prm.tree.EnoughGens L M) (hL : 2 ≤ L)
    {set : List (C false).Pt} {height : Option Nat} {fuel : Nat} {T : CurveTree L M (Pts C)}
    (ht : fromSet prm.tree set height fuel = some (.ok T)) (hfuel : set.length + height.getD 0 ≤ fuel)
    {oE : SideO C false} {oO : SideO C true} {fx : Bool} {path : Path (C false).Pt (C true).Pt}
    {tE : SideV C false} {tO : SideV C true} {res : (C false).Pt × SideV C false × SideV C true}
    (h : treeVerifierGadget oE oO fx prm T path tE tO = .ok res) :
    (path.even.length + path.odd.length + 1) % 2 = T.height % 2 := by
  have hlt : 0 < set.length := by
    cases set with
    | nil => simp [fromSet] at ht
    | cons a l => simp
  obtain ⟨nodes, -, h2⟩ := C26_witness_partial hg hL ht hfuel 0 hlt
  cases hr : addRoot T path with
  | error e => unfold treeVerifierGadget at h; simp [hr] at h
  | ok path' =>
    unfold addRoot at hr
    cases T with
    | even n =>
      obtain ⟨w, rfl, k1, k2, k3⟩ := h2
      have a := even_lengths (aligned w _ k2)
      have b := nodes_length w
      simp only at hr; split at hr
      · simp only [CurveTree.height]; omega
      · cases hr
    | odd n =>
      obtain ⟨w, rfl, k1, k2, k3⟩ := h2
      have a := odd_lengths (aligned w _ k2)
      have b := nodes_length w
      simp only at hr; split at hr
      · simp only [CurveTree.height]; omega
      · cases hr

/-- The path witness `nodes` opens commitments from the root of the tree down to the point `P`, in `d` steps. On the first step the
siblings are the x-coordinates of the root's children; below, nothing relates the path to the tree. -/
def OpensTo (prm : SelRerand C) (T : CurveTree L M (Pts C)) (nodes : WitPath B (Pts C)) (d : Nat) (P : (C false).Pt) : Prop :=
  match T with
  | .even n => ∃ w : WPath B (Pts C) false, w.nodes = nodes ∧ RootAlong prm T w ∧
      w.From prm.tree L 0 ⟨false, P⟩ (n.commitment 0) ∧ w.length = d
  | .odd n => ∃ w : WPath B (Pts C) true, w.nodes = nodes ∧ RootAlong prm T w ∧
      w.From prm.tree L 0 ⟨false, P⟩ (n.commitment 0) ∧ w.length = d

/-- C24 is false of the code: an honest Prover working on *any* chain of openings starting at the root, of any length `d ≥ 1`, is
accepted, the two circuits being satisfied; the result is a re-randomisation of the point at its end. -/
theorem C24_any_length_accepted {prm : SelRerand C} {T : CurveTree L M (Pts C)} {nodes : WitPath B (Pts C)} {d : Nat}
    {P : (C false).Pt} (hT : OpensTo prm T nodes d P) (h0 : d ≠ 0) {oE : SideO C false} {oO : SideO C true} {fx : Bool}
    {rnd : ∀ p, Nat → B (!p)} (hE : ∀ i, i + 1 < (nodes true).length → rnd false i ≠ 0)
    (hO : ∀ i < (nodes false).length, rnd true i ≠ 0)
    {sE sE' : SideP C false} {sO sO' : SideP C true} {tE : SideV C false} {tO : SideV C true}
    (hsE : Session oE (prm.gens false) sE tE) (hsO : Session oO (prm.gens true) sO tO)
    {path : Path (C false).Pt (C true).Pt} {r : B (!false)}
    (hp : pathProverGadget oE oO fx prm rnd nodes sE sO = .ok ((path, r), sE', sO')) :
    path.even.length + path.odd.length + 1 = d ∧
    ∃ tE' tO', treeVerifierGadget oE oO fx prm T path tE tO = .ok (P + r • prm.h false, tE', tO') ∧
      Session oE (prm.gens false) sE' tE' ∧ Session oO (prm.gens true) sO' tO' := by
  have hpath : path = proverPath prm nodes rnd := by
    unfold pathProverGadget at hp
    split at hp
    · cases hp
    · split at hp
      · cases hp
      · simp only [Except.ok.injEq, Prod.mk.injEq] at hp
        exact hp.1.1.symm
  have le : path.even.length = (nodes true).length - 1 := by rw [hpath]; simp [proverPath, rerandomized_length]
  have lo : path.odd.length = (nodes false).length := by rw [hpath]; simp [proverPath, rerandomized_length]
  cases T with
  | even n =>
    obtain ⟨w, rfl, h1, h2, h3⟩ := hT
    have a := even_lengths (aligned w _ h2)
    have b := nodes_length w
    exact ⟨by omega, even_session h1 h2 (by rw [h3]; exact h0) hE hO hsE hsO hp⟩
  | odd n =>
    obtain ⟨w, rfl, h1, h2, h3⟩ := hT
    have a := odd_lengths (aligned w _ h2)
    have b := nodes_length w
    exact ⟨by omega, odd_session h1 h2 hE hO hsE hsO hp⟩

/-- The chains of openings shorter than the tree: for every witness of a leaf, and every smaller depth of the right parity, the
commitment of the node at that depth is opened to, hence (by `C24_any_length_accepted`) accepted as if it were a leaf. -/
theorem C24_internal_nodes_open {prm : SelRerand C} {T : CurveTree L M (Pts C)} {nodes : WitPath B (Pts C)} {leaf : (C false).Pt}
    (hT : T.PathTo prm.tree 0 nodes ⟨false, leaf⟩) {d : Nat} (hd : d ≤ T.height) (hpar : d % 2 = T.height % 2) :
    ∃ nodes' P, OpensTo prm T nodes' d P := by
  cases T with
  | even n =>
    obtain ⟨w, rfl, h1, h2, h3⟩ := hT
    obtain ⟨k1, ⟨q, P⟩, k2, k3⟩ := take_from w _ h2 d (by rw [h3]; exact hd)
    have a := even_lengths (aligned w _ h2)
    have b := nodes_length w
    have hb : d.bodd = false := by
      have := Nat.mod_two_of_bodd d
      simp only [CurveTree.height] at hpar
      cases h : d.bodd with
      | false => rfl
      | true => rw [h] at this; simp at this; omega
    rw [hb] at k2
    obtain rfl : q = false := by simpa using k2
    exact ⟨_, P, w.take d, rfl, fun x hx => rootAlong_even h1 x (take_nodes_zero w d x hx), k3, k1⟩
  | odd n =>
    obtain ⟨w, rfl, h1, h2, h3⟩ := hT
    obtain ⟨k1, ⟨q, P⟩, k2, k3⟩ := take_from w _ h2 d (by rw [h3]; exact hd)
    have a := odd_lengths (aligned w _ h2)
    have b := nodes_length w
    have hb : d.bodd = true := by
      have := Nat.mod_two_of_bodd d
      simp only [CurveTree.height] at hpar
      cases h : d.bodd with
      | true => rfl
      | false => rw [h] at this; simp at this; omega
    rw [hb] at k2
    obtain rfl : q = false := by simpa using k2
    exact ⟨_, P, w.take d, rfl, fun x hx => rootAlong_odd h1 x (take_nodes_zero w d x hx), k3, k1⟩

/-- The chains of openings longer than the tree: if a leaf is itself the root commitment of another tree (on the even curve), then the
leaves of that tree are opened to, hence accepted as if they were leaves of the first tree. -/
theorem C24_grafted_leaves_open {prm : SelRerand C} {T : CurveTree L M (Pts C)} {nodes nodes2 : WitPath B (Pts C)}
    {n : Node L M (Pts C) false} {leaf2 : (C false).Pt} (h0 : T.height ≠ 0)
    (hT : T.PathTo prm.tree 0 nodes ⟨false, n.commitment 0⟩)
    (hS : (CurveTree.even n).PathTo prm.tree 0 nodes2 ⟨false, leaf2⟩) :
    ∃ nodes', OpensTo prm T nodes' (T.height + n.height) leaf2 := by
  obtain ⟨w2, rfl, -, g2, g3⟩ := hS
  cases T with
  | even m =>
    obtain ⟨w, rfl, h1, h2, h3⟩ := hT
    obtain ⟨k1, k2⟩ := graft_from w _ h2 w2 g2
    exact ⟨_, w.graft w2, rfl, fun x hx => rootAlong_even h1 x (graft_nodes_zero w (by rw [h3]; exact h0) w2 x hx), k1,
      by rw [k2, h3, g3]; rfl⟩
  | odd m =>
    obtain ⟨w, rfl, h1, h2, h3⟩ := hT
    obtain ⟨k1, k2⟩ := graft_from w _ h2 w2 g2
    exact ⟨_, w.graft w2, rfl, fun x hx => rootAlong_odd h1 x (graft_nodes_zero w (by rw [h3]; exact h0) w2 x hx), k1,
      by rw [k2, h3, g3]; rfl⟩

section Example
open Curve19

/-- Non-vacuity of both theorems: for leaf 2 of a tree with three leaves and height 2 all hypotheses hold. -/
example : ∃ path r sE' sO' tE' tO', treeProverGadget (o false) (o true) false prm rnd T 2 0 (.new []) (.new []) = .ok ((path, r), sE', sO') ∧
      treeVerifierGadget (o false) (o true) false prm T path (.new []) (.new []) = .ok (11 • h + (show ZMod 19 from r) • h, tE', tO') ∧
      sE'.Good ∧ sO'.Good := by
  have hn : ∀ p, (PState.new [] : SideP Cs p).Good := fun p =>
    ⟨⟨rfl, rfl, by intro i hi; simp [PState.new] at hi, by simp [PState.new]⟩, by simp [PState.new], by simp [PState.new]⟩
  obtain ⟨path, r, sE', sO', tE', tO', h1, h2, h3, h4, -⟩ := C23_honest_path_accepted valid
    tree_gens le_rfl fromSet_T (by decide) (by rw [height_T]; decide)
    (o false) (o true) false (rnd := rnd) (i := 2) (by decide)
    (by rw [height_T]; intro j hj; omega) (by intro j _; change (2 : ZMod 19) ≠ 0; decide)
    (by intro nodes' hw; rw [← Except.ok.inj (witness_T.symm.trans hw)]; exact avoids_T)
    (.new []) (.new []) (hn _) (hn _)
  exact ⟨path, r, sE', sO', tE', tO', h1, h2, h3, h4⟩

/-- The same run, with the two proofs, computed by the kernel: everything is accepted. -/
example : accepted rnd T nodes 1 1 = true := by decide +kernel

/-- The same leaves in a tree of height 3, and the witness of the root alone. -/
def T3 : CurveTree 2 1 (Pts Cs) :=
  match fromSet prm.tree Curve19.set (some 3) 10 with
  | some (.ok t) => t
  | _ => default

def nodes3 : WitPath Curve19.B (Pts Cs) :=
  match T3.witness prm.tree 2 0 with
  | .ok nodes => fun p => if p then (nodes p).take 1 else []
  | .error _ => fun _ => []

/-- C24 is false of the code, computed by the kernel: the tree has height 3, the path has one level and returns a
re-randomisation of an inner node, and both proofs are accepted. -/
theorem C24_short_path_accepted : T3.height = 3 ∧ ∃ path r sE sO x tE tO pE trE pO trO,
    pathProverGadget (o false) (o true) false prm (fun _ _ => (3 : ZMod 19)) nodes3 (.new []) (.new []) = .ok ((path, r), sE, sO) ∧
    path.even.length + path.odd.length + 1 = 1 ∧
    treeVerifierGadget (o false) (o true) false prm T3 path (.new []) (.new []) = .ok (x, tE, tO) ∧
    prove (o false) (prm.gens false) (pr 1) sE = .ok (pE, trE) ∧ prove (o true) (prm.gens true) (pr 2) sO = .ok (pO, trO) ∧
    verify (o false) (prm.gens false) (7 : ZMod 19) pE tE = .ok () ∧
    verify (o true) (prm.gens true) (8 : ZMod 19) pO tO = .ok () := by
  refine ⟨by decide +kernel, ?_⟩
  obtain ⟨path, r, sE, sO, x, tE, tO, pE, trE, pO, trO, h1, h2, h3⟩ :=
    accepted_iff (rnd := fun _ _ => (3 : ZMod 19)) (T := T3) (nodes := nodes3) (a := 1) (b := 2) (by decide +kernel)
  refine ⟨path, r, sE, sO, x, tE, tO, pE, trE, pO, trO, h1, ?_, h2, h3⟩
  have hl : (nodes3 true).length = 1 ∧ (nodes3 false).length = 0 := by decide +kernel
  unfold pathProverGadget at h1
  split at h1
  · cases h1
  · split at h1
    · cases h1
    · simp only [Except.ok.injEq, Prod.mk.injEq] at h1
      rw [← h1.1.1]
      simp [proverPath, rerandomized_length, hl]

end Example

end CT
