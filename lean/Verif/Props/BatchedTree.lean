import Verif.Props.TreeGadgets
import Verif.Proofs.BatchedComplete

/-! # Select-and-rerandomize for `M` paths at once -/

namespace CT
variable {B : Bool → Type} [∀ p, Field (B p)] [∀ p, DecidableEq (B p)] {C : ∀ p, SWCurve (B p)}
  [∀ p, Module (B (!p)) (C p).Pt] {L M : Nat} [NeZero M]

omit [∀ p, Module (B (!p)) (C p).Pt] in
/-- The witness of `M` paths holds the nodes of the `M` witnesses. -/
theorem multiWitness_ok {prm : TreeParams B (Pts C)} {indices : Fin M → Nat} {T : CurveTree L M (Pts C)}
    {nodes : MultiWitPath M B (Pts C)} (h : T.multiWitness prm indices = .ok nodes) :
    ∃ ns : Fin M → WitPath B (Pts C), (∀ j, T.witness prm (indices j) j = .ok (ns j)) ∧
      ∀ q, Transposed (fun j => ns j q) (nodes q) := by
  unfold CurveTree.multiWitness at h
  split at h
  · cases h
  · rename_i ws hws
    split at h
    · cases h
    · rename_i ev hev
      split at h
      · cases h
      · rename_i od hod
        split at h
        · cases h
          exact ⟨ws, seqFin_ok.1 hws, fun
            | false => transposeWit_ok hev
            | true => transposeWit_ok hod⟩
        · cases h

/-- If the `M` witnesses exist and are of the height of the tree, so does the joint one. -/
theorem multiWitness_exists {prm : SelRerand C} {indices : Fin M → Nat} {T : CurveTree L M (Pts C)}
    {leaf : Fin M → (C false).Pt}
    (h : ∀ j, ∃ nodes, T.witness prm.tree (indices j) j = .ok nodes ∧ T.PathTo prm.tree j nodes ⟨false, leaf j⟩) :
    ∃ nodes, T.multiWitness prm.tree indices = .ok nodes := by
  choose ns h1 h2 using h
  have hl := fun j => pathTo_lengths (h2 j)
  obtain ⟨ev, hev⟩ := exists_transposeWit (ws := fun j => ns j false) (fun j => by rw [(hl j).2, (hl 0).2])
  obtain ⟨od, hod⟩ := exists_transposeWit (ws := fun j => ns j true) (fun j => by rw [(hl j).1, (hl 0).1])
  unfold CurveTree.multiWitness
  rw [seqFin_ok.2 h1]
  simp only [hev, hod]
  rw [if_pos]
  · exact ⟨_, rfl⟩
  · rw [(transposeWit_ok hev).1, (transposeWit_ok hod).1, (hl 0).1, (hl 0).2]; omega

/-- The honest levels, for both kinds of roots. -/
theorem multi_frame {oE : SideO C false} {oO : SideO C true} {fx : Bool} {prm : SelRerand C}
    {T : CurveTree L M (Pts C)} {nodes : MultiWitPath M B (Pts C)} {leaf : Fin M → (C false).Pt} {ns : Fin M → WitPath B (Pts C)}
    (ht : ∀ q, Transposed (fun j => ns j q) (nodes q)) (hw : ∀ j, T.PathTo prm.tree j (ns j) ⟨false, leaf j⟩)
    (h0 : T.height ≠ 0) {rnd : ∀ p, Nat → B (!p)} {leafR : Fin M → B (!false)}
    (hE : ∀ j, j + 1 < (T.height + 1) / 2 → rnd false j ≠ 0) (hO : ∀ j < T.height / 2, rnd true j ≠ 0)
    {sE s1 : SideP C false} {sO s3 : SideP C true} {tE : SideV C false} {tO : SideV C true}
    (hsE : Session oE (prm.gens false) sE tE) (hsO : Session oO (prm.gens true) sO tO)
    (hpe : multiProverLoop oE fx prm nodes rnd 0 (nodes false) sE = .ok s1)
    (hpl : multiProverLoop oO fx prm nodes rnd 0 (nodes true).dropLast sO = .ok s3) :
    Frame oE oO fx prm T nodes leaf rnd leafR tE tO s1 s3 := by
  obtain ⟨l1, l2⟩ := pathTo_lengths (hw 0)
  have m1 : (nodes true).length = (T.height + 1) / 2 := by rw [(ht true).1, l1]
  have m2 : (nodes false).length = T.height / 2 := by rw [(ht false).1, l2]
  rw [← m1] at hE
  rw [← m2] at hO
  cases T with
  | even n =>
    obtain ⟨w, hJ⟩ := joined_even ht hw
    exact multi_even_frame hJ h0 hE hO hsE hsO hpe hpl
  | odd n =>
    obtain ⟨w, hJ⟩ := joined_odd ht hw
    exact multi_odd_frame hJ hE hO hsE hsO hpe hpl

/-- The joined path, for both kinds of roots. -/
theorem multi_session {oE : SideO C false} {oO : SideO C true} {fx : Bool} {prm : SelRerand C}
    {T : CurveTree L M (Pts C)} {nodes : MultiWitPath M B (Pts C)} {leaf : Fin M → (C false).Pt} {ns : Fin M → WitPath B (Pts C)}
    (ht : ∀ q, Transposed (fun j => ns j q) (nodes q)) (hw : ∀ j, T.PathTo prm.tree j (ns j) ⟨false, leaf j⟩)
    (h0 : T.height ≠ 0) {rnd : ∀ p, Nat → B (!p)} {leafR : Fin M → B (!false)}
    (hE : ∀ j, j + 1 < (T.height + 1) / 2 → rnd false j ≠ 0) (hO : ∀ j < T.height / 2, rnd true j ≠ 0)
    {sE sE' : SideP C false} {sO sO' : SideP C true} {tE : SideV C false} {tO : SideV C true}
    (hsE : Session oE (prm.gens false) sE tE) (hsO : Session oO (prm.gens true) sO tO)
    {path : MultiPath (C false).Pt (C true).Pt M} {r : Fin M → B (!false)}
    (hp : multiPathProverGadget oE oO fx prm rnd leafR nodes sE sO = .ok ((path, r), sE', sO')) :
    r = leafR ∧ (path.even.length + 1 = (T.height + 1) / 2 ∧ path.odd.length = T.height / 2) ∧
    ∃ tE' tO', multiTreeVerifierGadget oE oO fx prm T path tE tO =
        .ok (fun j => leaf j + r j • prm.h false, tE', tO') ∧
      Session oE (prm.gens false) sE' tE' ∧ Session oO (prm.gens true) sO' tO' := by
  obtain ⟨l1, l2⟩ := pathTo_lengths (hw 0)
  have m1 : (nodes true).length = (T.height + 1) / 2 := by rw [(ht true).1, l1]
  have m2 : (nodes false).length = T.height / 2 := by rw [(ht false).1, l2]
  rw [← m1] at hE ⊢
  rw [← m2] at hO ⊢
  refine frame_session (fun hpe hpl => multi_frame ht hw h0 (by rw [← m1]; exact hE) (by rw [← m2]; exact hO) hsE hsO hpe hpl) ?_ hp
  rintro h
  rw [h] at m1
  simp only [List.length_nil] at m1
  omega

theorem multi_ready {prm : SelRerand C} {T : CurveTree L M (Pts C)} {nodes : MultiWitPath M B (Pts C)}
    {leaf : Fin M → (C false).Pt} {ns : Fin M → WitPath B (Pts C)}
    (ht : ∀ q, Transposed (fun j => ns j q) (nodes q)) (hw : ∀ j, T.PathTo prm.tree j (ns j) ⟨false, leaf j⟩) :
    (∃ re, rootIsEven nodes.join = .ok re) ∧ ∀ q (k : Nat) f, (nodes q)[k]? = some f → ∀ j, (f j).siblings.length = L ∧
      (C (!q)).xField ((f j).child + (prm.layer (!q)).delta) ∈ (f j).siblings := by
  cases T with
  | even n =>
    obtain ⟨w, hJ⟩ := joined_even ht hw
    have := even_lengths (aligned_of_commits w _ hJ.commits)
    rw [hJ.eq] at this
    exact ⟨⟨true, by unfold rootIsEven; rw [if_pos this]⟩, hJ.sib⟩
  | odd n =>
    obtain ⟨w, hJ⟩ := joined_odd ht hw
    have := odd_lengths (aligned_of_commits w _ hJ.commits)
    rw [hJ.eq] at this
    exact ⟨⟨false, by unfold rootIsEven; rw [if_neg (by omega), if_pos this]⟩, hJ.sib⟩

/-- C47. Take any tree for batches of `M`, made by `from_set`, of height at least one, and any `M` indices. If the Prover's batched
gadget returns a path and scalars, and none of the scalars drawn for inner nodes is zero, then the Verifier's batched gadget accepts the
path and returns, for every `j`, `leaf j + r j·H` for the leaf with the `j`-th index (modulo the capacity), which are also the points
in the path; with the root added the path has as many commitments as the tree has levels; and on both curves Prover and Verifier have
committed to the same vectors, added the same constraints and put the same messages into their transcripts, if they had before. -/
theorem C47_prover_verifier_agree {prm : SelRerand C} (hg : prm.tree.EnoughGens L M) (hL : 2 ≤ L)
    {set : List (C false).Pt} {height : Option Nat} {fuel : Nat} {T : CurveTree L M (Pts C)}
    (ht : fromSet prm.tree set height fuel = some (.ok T)) (hfuel : set.length + height.getD 0 ≤ fuel) (h0 : T.height ≠ 0)
    {oE : SideO C false} {oO : SideO C true} {fx : Bool} {rnd : ∀ p, Nat → B (!p)} {leafR : Fin M → B (!false)}
    (hE : ∀ j, j + 1 < (T.height + 1) / 2 → rnd false j ≠ 0) (hO : ∀ j < T.height / 2, rnd true j ≠ 0)
    {sE sE' : SideP C false} {sO sO' : SideP C true} {tE : SideV C false} {tO : SideV C true}
    (hsE : Session oE (prm.gens false) sE tE) (hsO : Session oO (prm.gens true) sO tO)
    {indices : Fin M → Nat} {path : MultiPath (C false).Pt (C true).Pt M} {r : Fin M → B (!false)}
    (hp : multiTreeProverGadget oE oO fx prm rnd leafR T indices sE sO = .ok ((path, r), sE', sO')) :
    ∃ leaf : Fin M → (C false).Pt, (∀ j, set[indices j % L ^ T.height]? = some (leaf j)) ∧ r = leafR ∧
      (∀ j, path.selected j = leaf j + r j • prm.h false) ∧
      (∃ path', addRoots T path = .ok path' ∧ path'.even.length = T.height / 2 ∧ path'.odd.length = (T.height + 1) / 2) ∧
      ∃ tE' tO', multiTreeVerifierGadget oE oO fx prm T path tE tO = .ok (fun j => leaf j + r j • prm.h false, tE', tO') ∧
        Session oE (prm.gens false) sE' tE' ∧ Session oO (prm.gens true) sO' tO' ∧
        Synced (prm.gens false) sE' tE' ∧ Synced (prm.gens true) sO' tO' := by
  unfold multiTreeProverGadget at hp
  cases hw : T.multiWitness prm.tree indices with
  | error e => simp [hw] at hp
  | ok nodes =>
    simp only [hw] at hp
    obtain ⟨ns, n1, n2⟩ := multiWitness_ok hw
    have hleaf : ∀ j, ∃ leaf, set[indices j % L ^ T.height]? = some leaf ∧ T.PathTo prm.tree j (ns j) ⟨false, leaf⟩ := by
      intro j
      obtain ⟨a, b⟩ := C26_witness_every_index hg hL ht hfuel j (indices j)
      cases hl : set[indices j % L ^ T.height]? with
      | none =>
        obtain ⟨m, hm⟩ := b hl
        rw [n1 j] at hm
        exact absurd hm (by simp)
      | some leaf =>
        obtain ⟨nodes', h1, h2⟩ := a leaf hl
        rw [n1 j] at h1
        cases h1
        exact ⟨leaf, rfl, h2⟩
    choose leaf hl1 hl2 using hleaf
    obtain ⟨r1, ⟨r2, r3⟩, tE', tO', k1, k2, k3⟩ := multi_session n2 hl2 h0 hE hO hsE hsO hp
    have hadd : ∃ path', addRoots T path = .ok path' ∧ path'.selected = path.selected ∧
        path'.even.length = T.height / 2 ∧ path'.odd.length = (T.height + 1) / 2 := by
      cases hr : addRoots T path with
      | error e => unfold multiTreeVerifierGadget at k1; simp [hr] at k1
      | ok path' =>
        refine ⟨path', rfl, ?_⟩
        unfold addRoots at hr
        cases T with
        | even n =>
          simp only at hr; split at hr
          · cases hr; refine ⟨rfl, ?_, ?_⟩ <;> simp only [List.length_cons] <;> omega
          · cases hr
        | odd n =>
          simp only at hr; split at hr
          · cases hr; refine ⟨rfl, ?_, ?_⟩ <;> simp only [List.length_cons] <;> omega
          · cases hr
    obtain ⟨path', e1, e2, e3, e4⟩ := hadd
    have hsel : path.selected = fun j => leaf j + r j • prm.h false := by
      rw [← e2]
      unfold multiTreeVerifierGadget at k1
      simp only [e1] at k1
      split at k1
      · cases k1
      · split at k1
        · cases k1
        · simp only [Except.ok.injEq, Prod.mk.injEq] at k1
          exact k1.1
    exact ⟨leaf, hl1, r1, fun j => congrFun hsel j, ⟨path', e1, e3, e4⟩, tE', tO', k1, k2, k3, k2.inv.sync, k3.inv.sync⟩

/-- C47, completeness: with scalars that avoid the exceptional cases of the incomplete additions the honest Prover's batched gadget
succeeds for every choice of `M` leaves, and the proofs made on both curves are accepted. -/
theorem C47_honest_batch_accepted {prm : SelRerand C} (hv : prm.Valid) (hg : prm.tree.EnoughGens L M) (hL : 2 ≤ L)
    {set : List (C false).Pt} {height : Option Nat} {fuel : Nat} {T : CurveTree L M (Pts C)}
    (ht : fromSet prm.tree set height fuel = some (.ok T)) (hfuel : set.length + height.getD 0 ≤ fuel) (h0 : T.height ≠ 0)
    (oE : SideO C false) (oO : SideO C true) (fx : Bool) {rnd : ∀ p, Nat → B (!p)} {leafR : Fin M → B (!false)}
    {indices : Fin M → Nat} (hi : ∀ j, indices j < set.length)
    (hE : ∀ j, j + 1 < (T.height + 1) / 2 → rnd false j ≠ 0) (hO : ∀ j < T.height / 2, rnd true j ≠ 0)
    (hav : ∀ nodes, T.multiWitness prm.tree indices = .ok nodes → prm.MultiAvoids nodes rnd leafR)
    {sE : SideP C false} {sO : SideP C true} {tE : SideV C false} {tO : SideV C true}
    (hsE : Session oE (prm.gens false) sE tE) (hsO : Session oO (prm.gens true) sO tO) (gE : sE.Good) (gO : sO.Good) :
    ∃ path sE' sO' tE' tO', multiTreeProverGadget oE oO fx prm rnd leafR T indices sE sO = .ok ((path, leafR), sE', sO') ∧
      multiTreeVerifierGadget oE oO fx prm T path tE tO =
        .ok (fun j => set[indices j]'(hi j) + leafR j • prm.h false, tE', tO') ∧
      sE'.Good ∧ sO'.Good ∧
      ((prm.gens false).capacity ≤ (prm.gens false).Gs.length → (prm.gens false).capacity ≤ (prm.gens false).Hs.length →
        sE.deferred = [] → nextPow2 sE'.size < 2 ^ 32 → ∀ rndE pE trE, prove oE (prm.gens false) rndE sE' = .ok (pE, trE) →
        pE.NoIdentity sE'.vecOpen.length → ∀ c, verify oE (prm.gens false) c pE tE' = .ok ()) ∧
      ((prm.gens true).capacity ≤ (prm.gens true).Gs.length → (prm.gens true).capacity ≤ (prm.gens true).Hs.length →
        sO.deferred = [] → nextPow2 sO'.size < 2 ^ 32 → ∀ rndO pO trO, prove oO (prm.gens true) rndO sO' = .ok (pO, trO) →
        pO.NoIdentity sO'.vecOpen.length → ∀ c, verify oO (prm.gens true) c pO tO' = .ok ()) := by
  obtain ⟨nodes, hw⟩ := multiWitness_exists (leaf := fun j => set[indices j]'(hi j))
    fun j => C26_witness_partial hg hL ht hfuel j (hi j)
  obtain ⟨ns, n1, n2⟩ := multiWitness_ok hw
  have n3 : ∀ j, T.PathTo prm.tree j (ns j) ⟨false, set[indices j]'(hi j)⟩ := by
    intro j
    obtain ⟨nodes', h1, h2⟩ := C26_witness_partial hg hL ht hfuel j (hi j)
    rw [n1 j] at h1
    cases h1
    exact h2
  obtain ⟨q1, q2⟩ := multi_ready n2 n3
  obtain ⟨path, r, sE', sO', k1, k2, k3, k4, k5, -⟩ := multi_path_complete oE oO fx hv (NeZero.ne M) (by omega) hg q1 q2
    (hav nodes hw) gE gO
  obtain ⟨rfl, -, tE', tO', v1, v2, v3⟩ := multi_session n2 n3 h0 hE hO hsE hsO k1
  refine ⟨path, sE', sO', tE', tO', by unfold multiTreeProverGadget; simp only [hw]; exact k1, v1, k2, k3, ?_, ?_⟩
  · intro c1 c2 d h32 rndE pE trE hp hn c
    exact C01_one_phase oE _ rndE sE' tE' v2 c1 c2 (k4.trans d) k2.satisfied hp h32 hn c
  · intro c1 c2 d h32 rndO pO trO hp hn c
    exact C01_one_phase oO _ rndO sO' tO' v3 c1 c2 (k5.trans d) k3.satisfied hp h32 hn c

/-- C47 (limit). For a tree of height zero the Prover returns a path with identities as selected leaves, which the Verifier refuses
with a panic. -/
theorem C47_height_zero {prm : SelRerand C} {T : CurveTree L M (Pts C)} (hT : ∃ c, T = .even (.leaf c))
    (oE : SideO C false) (oO : SideO C true) (fx : Bool) (rnd : ∀ p, Nat → B (!p)) (leafR : Fin M → B (!false))
    (indices : Fin M → Nat) (sE : SideP C false) (sO : SideP C true) (tE : SideV C false) (tO : SideV C true) :
    ∃ path r, multiTreeProverGadget oE oO fx prm rnd leafR T indices sE sO = .ok ((path, r), sE, sO) ∧
      (∀ j, path.selected j = 0) ∧ (∀ j, r j = 0) ∧
      ∃ m, multiTreeVerifierGadget oE oO fx prm T path tE tO = .error (.panic m) := by
  obtain ⟨c, rfl⟩ := hT
  have h1 : (CurveTree.even (Node.leaf c) : CurveTree L M (Pts C)).multiWitness prm.tree indices = .ok fun
      | false => []
      | true => [] := by
    unfold CurveTree.multiWitness
    have h2 : (seqFin fun j => (CurveTree.even (Node.leaf c) : CurveTree L M (Pts C)).witness prm.tree (indices j) j) =
        .ok fun _ _ => [] := seqFin_ok.2 fun j => rfl
    rw [h2]
    rfl
  refine ⟨⟨fun _ => 0, [], []⟩, fun _ => 0, ?_, fun _ => rfl, fun _ => rfl, _, rfl⟩
  unfold multiTreeProverGadget
  rw [h1]
  rfl

section Example
open Curve19

theorem tree_gens2 : prm.tree.EnoughGens 2 2 := fun p => le_trans (by decide) (gens_length p).1.ge

/-- The tree of height 2 over the same three leaves, for batches of two. -/
def T2 : CurveTree 2 2 (Pts Cs) :=
  match fromSet prm.tree Curve19.set none 10 with
  | some (.ok t) => t
  | _ => default

theorem fromSet_T2 : fromSet prm.tree Curve19.set none 10 = some (.ok T2) := by
  have h : (match fromSet (L := 2) (M := 2) prm.tree Curve19.set none 10 with
    | some (.ok _) => true
    | _ => false) = true := by decide +kernel
  unfold T2
  split at h
  · rename_i t e; rw [e]
  · simp at h

theorem height_T2 : T2.height = 2 := by decide +kernel

def idx2 : Fin 2 → Nat := fun j => if j = 0 then 2 else 0

/-- The witness for leaves 2 and 0. -/
def nodes2 : MultiWitPath 2 Curve19.B (Pts Cs) :=
  match T2.multiWitness prm.tree idx2 with
  | .ok n => n
  | .error _ => fun _ => []

theorem witness_T2 : T2.multiWitness prm.tree idx2 = .ok nodes2 := by
  have h : (match T2.multiWitness prm.tree idx2 with
    | .ok _ => true
    | _ => false) = true := by decide +kernel
  unfold nodes2
  split at h
  · rename_i t e; rw [e]
  · simp at h

instance (p : Bool) (c : Fin 2 → Curve19.C.Pt) (r : ZMod 19) : Decidable (prm.BatchAvoids p c r) := by
  change Decidable (ChainOk Curve19.C 6 h r.val ∧ (∀ j, c j + h ≠ 0) ∧
    (∀ j : Fin 2, 0 < j.val → Curve19.C.DiffX (∑ i : Fin j.val, (c ⟨i, i.2.trans j.2⟩ + h)) (c j + h)) ∧
    Curve19.C.DiffX (∑ j, (c j + h)) (r • h))
  infer_instance

def rnd2 : ∀ p : Bool, Nat → Curve19.B (!p) := fun _ _ => (3 : ZMod 19)
def leafR2 : Fin 2 → Curve19.B (!false) := fun j => if j = 0 then (5 : ZMod 19) else (6 : ZMod 19)

theorem avoids_T2 : prm.MultiAvoids nodes2 rnd2 leafR2 := by
  have h1 : (nodes2 true).length = 1 := by decide +kernel
  refine ⟨fun p k f hf hk => ?_, fun f hf j => ?_⟩
  · cases p with
    | true => have := hk rfl; omega
    | false =>
      have key : ∀ c ∈ (nodes2 false).map fun (f : Fin 2 → Wit Curve19.B (Pts Cs) false) => fun j => (f j).child,
          prm.BatchAvoids true c (3 : ZMod 19) := by decide +kernel
      exact key _ (List.mem_map.2 ⟨f, List.mem_of_getElem? hf, rfl⟩)
  · have key : ∀ c ∈ (nodes2 true).map fun (f : Fin 2 → Wit Curve19.B (Pts Cs) true) => fun j => (f j).child,
        ∀ j, prm.Avoids false (c j) (leafR2 j) := by decide +kernel
    exact key _ (List.mem_map.2 ⟨f, List.mem_of_getLast? hf, rfl⟩) j

/-- Non-vacuity of both theorems: for leaves 2 and 0 of a tree with three leaves and height 2 all hypotheses hold. -/
example : ∃ path sE' sO' tE' tO',
    multiTreeProverGadget (o false) (o true) false prm rnd2 leafR2 T2 idx2 (.new []) (.new []) = .ok ((path, leafR2), sE', sO') ∧
    multiTreeVerifierGadget (o false) (o true) false prm T2 path (.new []) (.new []) =
      .ok (fun j => if j = 0 then 11 • h + (5 : ZMod 19) • h else 3 • h + (6 : ZMod 19) • h, tE', tO') ∧ sE'.Good ∧ sO'.Good := by
  have hn : ∀ p, (PState.new [] : SideP Cs p).Good := fun p =>
    ⟨⟨rfl, rfl, by intro i hi; simp [PState.new] at hi, by simp [PState.new]⟩, by simp [PState.new], by simp [PState.new]⟩
  obtain ⟨path, sE', sO', tE', tO', h1, h2, h3, h4, -⟩ := C47_honest_batch_accepted valid
    tree_gens2 le_rfl fromSet_T2 (by decide) (by rw [height_T2]; decide)
    (o false) (o true) false (rnd := rnd2) (leafR := leafR2) (indices := idx2) (by decide)
    (by rw [height_T2]; intro j hj; omega) (by intro j _; change (3 : ZMod 19) ≠ 0; decide)
    (by intro nodes' hw; rw [← Except.ok.inj (witness_T2.symm.trans hw)]; exact avoids_T2)
    (.new []) (.new []) (hn _) (hn _)
  refine ⟨path, sE', sO', tE', tO', h1, ?_, h3, h4⟩
  have e : (fun j => Curve19.set[idx2 j]'((by decide : ∀ j, idx2 j < Curve19.set.length) j) + leafR2 j • prm.h false) =
      fun j => if j = 0 then 11 • h + (5 : ZMod 19) • h else 3 • h + (6 : ZMod 19) • h := by
    funext j
    refine Fin.cases ?_ (fun j => ?_) j
    · rfl
    · obtain rfl : j = 0 := by omega
      rfl
  rw [← e]
  exact h2

end Example

end CT
