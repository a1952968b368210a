import Verif.Props.BatchedTree
import Verif.Props.Anonymity

/-!
# C53: a batched path does not show which leaves were selected
-/

namespace CT

variable {B : Bool → Type} [∀ p, Field (B p)] [∀ p, DecidableEq (B p)] {C : ∀ p, SWCurve (B p)} [∀ p, Module (B (!p)) (C p).Pt] {L M : Nat}

/-- The scalars with which the `M` leaves with the given indices can be selected: none drawn for an inner node is zero, and they avoid the exceptional cases of the additions. -/
structure BatchSpendOk [NeZero M] (prm : SelRerand C) (T : CurveTree L M (Pts C)) (indices : Fin M → Nat) (rnd : ∀ p, Nat → B (!p)) (leafR : Fin M → B (!false)) : Prop where
  even : ∀ j, j + 1 < (T.height + 1) / 2 → rnd false j ≠ 0
  odd : ∀ j < T.height / 2, rnd true j ≠ 0
  avoids : ∀ nodes, T.multiWitness prm.tree indices = .ok nodes → prm.MultiAvoids nodes rnd leafR

theorem multiPathProver_path {oE : SideO C false} {oO : SideO C true} {fx : Bool} {prm : SelRerand C} {rnd : ∀ p, Nat → B (!p)} {leafR : Fin M → B (!false)}
    {nodes : MultiWitPath M B (Pts C)} {sE sE' : SideP C false} {sO sO' : SideP C true} {path : MultiPath (C false).Pt (C true).Pt M} {r : Fin M → B (!false)}
    (h : multiPathProverGadget oE oO fx prm rnd leafR nodes sE sO = .ok ((path, r), sE', sO')) : path = multiProverPath prm nodes rnd leafR := by
  unfold multiPathProverGadget at h
  split at h
  · cases h
  · split at h
    · cases h
    · simp only [Except.ok.injEq, Prod.mk.injEq] at h
      exact h.1.1.symm

omit [∀ p, Module (B (!p)) (C p).Pt] in
/-- The points returned by the Verifier are those in the path. -/
theorem multiTreeVerifier_selected {oE : SideO C false} {oO : SideO C true} {fx : Bool} {prm : SelRerand C} {T : CurveTree L M (Pts C)}
    {path : MultiPath (C false).Pt (C true).Pt M} {tE tE' : SideV C false} {tO tO' : SideV C true} {sel : Fin M → (C false).Pt}
    (h : multiTreeVerifierGadget oE oO fx prm T path tE tO = .ok (sel, tE', tO')) : sel = path.selected := by
  unfold multiTreeVerifierGadget at h
  split at h
  · cases h
  rename_i q hq
  split at h
  · cases h
  split at h
  · cases h
  simp only [Except.ok.injEq, Prod.mk.injEq] at h
  rw [← h.1]
  unfold addRoots at hq
  split at hq <;> split at hq <;> cases hq <;> rfl

/-- **C53**. Let `T` be a tree for batches of `M` made by `from_set`, `i` and `i'` two choices of `M` of its indices, and let the blinding generators generate the two
groups. There is a bijection of the scalars drawn for the inner nodes and of the scalars drawn for the leaves (it depends on `T`, `i` and `i'` only, and makes up for the
differences between the leaves and between the sums of the nodes on the two sets of paths) such that for all scalars that are usable for `i` and whose image is usable for
`i'`: with the scalars and `i`, and with their image and `i'`, the Prover's batched gadget returns exactly the same path, the Verifier's does the same, and for every pair of proofs that can be sent there is a
bijection of the remaining choices of the Prover under which both Provers send these proofs. So not even with unlimited computing power can it be determined from what is sent which
leaves were selected, nor in which order, nor whether two of them are the same.

Excluded: the scalars of `BatchSpendOk` (for which the path is not accepted or the Prover panics), and transcripts with the challenge `x = 0`. -/
theorem C53_batched_path_anonymous [NeZero M] {prm : SelRerand C} (hv : prm.Valid) (hg : prm.tree.EnoughGens L M) (hL : 2 ≤ L)
    (hcap : ∀ p, (prm.gens p).capacity ≤ (prm.gens p).Gs.length ∧ (prm.gens p).capacity ≤ (prm.gens p).Hs.length)
    (hb : ∀ p, prm.h p ≠ 0) (hgen : ∀ p (P : (C p).Pt), ∃ a : B (!p), P = a • prm.h p)
    {set : List (C false).Pt} {height : Option Nat} {fuel : Nat} {T : CurveTree L M (Pts C)}
    (ht : fromSet prm.tree set height fuel = some (.ok T)) (hfuel : set.length + height.getD 0 ≤ fuel) (h0 : T.height ≠ 0)
    (oE : SideO C false) (oO : SideO C true) (fx : Bool) {i i' : Fin M → Nat} (hi : ∀ j, i j < set.length) (hi' : ∀ j, i' j < set.length) :
    ∃ (φ : (∀ p, Nat → B (!p)) ≃ (∀ p, Nat → B (!p))) (ψ : (Fin M → B (!false)) ≃ (Fin M → B (!false))),
      (∀ nodes nodes', T.multiWitness prm.tree i = .ok nodes → T.multiWitness prm.tree i' = .ok nodes' →
        ∀ rnd p k, childAt nodes'.join p k + φ rnd p k • prm.h p = childAt nodes.join p k + rnd p k • prm.h p) ∧
      (∀ leafR j, set[i' j]'(hi' j) + ψ leafR j • prm.h false = set[i j]'(hi j) + leafR j • prm.h false) ∧
      ∀ rnd leafR, BatchSpendOk prm T i rnd leafR → BatchSpendOk prm T i' (φ rnd) (ψ leafR) →
      ∀ (sA sB : ∀ p, SideP C p) (t : ∀ p, SideV C p),
      Session oE (prm.gens false) (sA false) (t false) → Session oO (prm.gens true) (sA true) (t true) →
      Session oE (prm.gens false) (sB false) (t false) → Session oO (prm.gens true) (sB true) (t true) →
      (∀ p, (sA p).Good ∧ (sA p).deferred = [] ∧ (sB p).Good ∧ (sB p).deferred = []) →
      ∃ path sEA sOA sEB sOB tE tO,
        multiTreeProverGadget oE oO fx prm rnd leafR T i (sA false) (sA true) = .ok ((path, leafR), sEA, sOA) ∧
        multiTreeProverGadget oE oO fx prm (φ rnd) (ψ leafR) T i' (sB false) (sB true) = .ok ((path, ψ leafR), sEB, sOB) ∧
        (∀ j, path.selected j = set[i j]'(hi j) + leafR j • prm.h false) ∧
        multiTreeVerifierGadget oE oO fx prm T path (t false) (t true) = .ok (path.selected, tE, tO) ∧
        Session oE (prm.gens false) sEA tE ∧ Session oE (prm.gens false) sEB tE ∧ Session oO (prm.gens true) sOA tO ∧ Session oO (prm.gens true) sOB tO ∧
        SameProofs oE (prm.gens false) sEA sEB ∧ SameProofs oO (prm.gens true) sOA sOB := by
  have wit : ∀ {i : Fin M → Nat} (hi : ∀ j, i j < set.length), ∃ nodes, ∃ ns : Fin M → WitPath B (Pts C), T.multiWitness prm.tree i = .ok nodes ∧
      (∀ q, Transposed (fun j => ns j q) (nodes q)) ∧ ∀ j, T.PathTo prm.tree j (ns j) ⟨false, set[i j]'(hi j)⟩ := by
    intro i hi
    obtain ⟨nodes, hw⟩ := multiWitness_exists (leaf := fun j => set[i j]'(hi j)) fun j => C26_witness_partial hg hL ht hfuel j (hi j)
    obtain ⟨ns, n1, n2⟩ := multiWitness_ok hw
    refine ⟨nodes, ns, hw, n2, fun j => ?_⟩
    obtain ⟨nodes', h1, h2⟩ := C26_witness_partial hg hL ht hfuel j (hi j)
    rw [n1 j] at h1
    cases h1
    exact h2
  obtain ⟨nodes, ns, w1, t1, p1⟩ := wit hi
  obtain ⟨nodes', ns', w2, t2, p2⟩ := wit hi'
  obtain ⟨l1, l2⟩ := pathTo_lengths (p1 0)
  obtain ⟨l1', l2'⟩ := pathTo_lengths (p2 0)
  have hl : ∀ p, (nodes.join p).length = (nodes'.join p).length := by
    intro p
    rw [join_length, join_length, (t1 p).1, (t2 p).1]
    cases p
    · exact l2.trans l2'.symm
    · exact l1.trans l1'.symm
  choose lg hlg using hgen
  refine ⟨Equiv.addRight (shift lg nodes.join nodes'.join), Equiv.addRight fun j => lg false (set[i j]'(hi j) - set[i' j]'(hi' j)), ?_, ?_,
    fun rnd leafR hr hr' sA sB t a1 a2 b1 b2 hgd => ?_⟩
  · intro n n' e e' rnd p k
    cases Except.ok.inj (w1.symm.trans e)
    cases Except.ok.inj (w2.symm.trans e')
    change _ + (rnd p k + lg p (childAt nodes.join p k - childAt nodes'.join p k)) • prm.h p = _
    rw [add_smul, ← hlg]; abel
  · intro leafR j
    change _ + (leafR j + lg false _) • prm.h false = _
    rw [add_smul, ← hlg]; abel
  obtain ⟨q1, q2⟩ := multi_ready t1 p1
  obtain ⟨q1', q2'⟩ := multi_ready t2 p2
  obtain ⟨path, r, sEA, sOA, k1, k2, k3, k4, k5, -⟩ := multi_path_complete oE oO fx hv (NeZero.ne M) (by omega) hg q1 q2
    (hr.avoids nodes w1) (hgd false).1 (hgd true).1
  obtain ⟨path', r', sEB, sOB, m1, m2, m3, m4, m5, -⟩ := multi_path_complete oE oO fx hv (NeZero.ne M) (by omega) hg q1' q2'
    (hr'.avoids nodes' w2) (hgd false).2.2.1 (hgd true).2.2.1
  obtain ⟨rfl, -, tE, tO, v1, v2, v3⟩ := multi_session t1 p1 h0 hr.even hr.odd a1 a2 k1
  obtain ⟨rfl, -, tE', tO', u1, u2, u3⟩ := multi_session t2 p2 h0 hr'.even hr'.odd b1 b2 m1
  have s1 := multiTreeVerifier_selected v1
  have s2 := multiTreeVerifier_selected u1
  have hpath : path' = path := by
    have e1 := multiPathProver_path k1
    have e2 := multiPathProver_path m1
    have hsel : path'.selected = path.selected := by
      rw [← s1, ← s2]
      funext j
      change _ + (r j + lg false _) • prm.h false = _
      rw [add_smul, ← hlg]; abel
    have hodd : path'.odd = path.odd := by
      rw [e1, e2]
      unfold multiProverPath
      exact (rerandomized_shift (fun p P => (hlg p P).symm) hl rnd false).symm
    have heven : path'.even = path.even := by
      rw [e1, e2]
      unfold multiProverPath
      exact congrArg List.dropLast (rerandomized_shift (fun p P => (hlg p P).symm) hl rnd true).symm
    cases path; cases path'
    simp only at hsel hodd heven
    subst hsel hodd heven
    rfl
  subst hpath
  rw [s1] at v1
  rw [s2, v1] at u1
  simp only [Except.ok.injEq, Prod.mk.injEq, true_and] at u1
  obtain ⟨rfl, rfl⟩ := u1
  refine ⟨path', sEA, sOA, sEB, sOB, tE, tO, by unfold multiTreeProverGadget; simp only [w1]; exact k1, by unfold multiTreeProverGadget; simp only [w2]; exact m1,
    fun j => (congrFun s1 j).symm, v1, v2, u2, v3, u3, fun p => ?_, fun p => ?_⟩
  · exact C40_one_phase oE (prm.gens false) (hb false) (fun P => ⟨lg false P, hlg false P⟩) (hcap false).1 (hcap false).2 v2 u2
      (k4.trans (hgd false).2.1) (m4.trans (hgd false).2.2.2) k2.satisfied.2 m2.satisfied.2 p
  · exact C40_one_phase oO (prm.gens true) (hb true) (fun P => ⟨lg true P, hlg true P⟩) (hcap true).1 (hcap true).2 v3 u3
      (k5.trans (hgd true).2.1) (m5.trans (hgd true).2.2.2) k3.satisfied.2 m3.satisfied.2 p

section Example
open Curve19

/-- Leaves 0 and 2: the same leaves as `idx2`, in the other order. -/
def idx2' : Fin 2 → Nat := fun j => if j = 0 then 0 else 2

/-- The witness for leaves 0 and 2. -/
def nodes2' : MultiWitPath 2 Curve19.B (Pts Cs) :=
  match T2.multiWitness prm.tree idx2' with
  | .ok n => n
  | .error _ => fun _ => []

theorem witness_T2' : T2.multiWitness prm.tree idx2' = .ok nodes2' := by
  have h : (match T2.multiWitness prm.tree idx2' with
    | .ok _ => true
    | _ => false) = true := by decide +kernel
  unfold nodes2'
  split at h
  · rename_i t e; rw [e]
  · simp at h

theorem batchSpendOk_T2 : BatchSpendOk prm T2 idx2 rnd2 leafR2 where
  even := by rw [height_T2]; intro j hj; omega
  odd := by intro j _; change (3 : ZMod 19) ≠ 0; decide
  avoids := by intro nodes' hw; rw [← Except.ok.inj (witness_T2.symm.trans hw)]; exact avoids_T2

/-- The scalar 13 moves the sum of the parents of leaves 0 and 2 to where 3 moves the sum of the parents of leaves 2 and 0. -/
theorem moved2 : ∀ x : ZMod 19, childAt (C := Cs) nodes2'.join true 0 + (x • h : Curve19.C.Pt) = childAt (C := Cs) nodes2.join true 0 + (3 : ZMod 19) • (h : Curve19.C.Pt) →
    x = 13 := by decide +kernel

theorem moved_leaf0 : ∀ x : ZMod 19, (3 • h : Curve19.C.Pt) + x • h = 11 • h + (5 : ZMod 19) • h → x = 13 := by decide +kernel
theorem moved_leaf1 : ∀ x : ZMod 19, (11 • h : Curve19.C.Pt) + x • h = 3 • h + (6 : ZMod 19) • h → x = 17 := by decide +kernel

/-- Usable scalars for leaves 0 and 2. -/
theorem batchSpendOk_moved {rnd : ∀ p : Bool, Nat → Curve19.B (!p)} {leafR : Fin 2 → Curve19.B (!false)} (h1 : rnd true 0 = (13 : ZMod 19))
    (h2 : leafR 0 = (13 : ZMod 19)) (h3 : leafR 1 = (17 : ZMod 19)) : BatchSpendOk prm T2 idx2' rnd leafR where
  even := by rw [height_T2]; intro j hj; omega
  odd := by
    rw [height_T2]
    intro j hj
    obtain rfl : j = 0 := by omega
    rw [h1]
    change (13 : ZMod 19) ≠ 0
    decide
  avoids := by
    have hl1 : (nodes2' true).length = 1 := by decide +kernel
    have hl2 : (nodes2' false).length = 1 := by decide +kernel
    have key1 : ∀ c ∈ (nodes2' false).map fun (f : Fin 2 → Wit Curve19.B (Pts Cs) false) => fun j => (f j).child,
        prm.BatchAvoids true c (13 : ZMod 19) := by decide +kernel
    have key2 : ∀ c ∈ (nodes2' true).map fun (f : Fin 2 → Wit Curve19.B (Pts Cs) true) => fun j => (f j).child,
        ∀ j : Fin 2, prm.Avoids false (c j) (if j = 0 then (13 : ZMod 19) else (17 : ZMod 19)) := by decide +kernel
    intro nodes' hw
    rw [← Except.ok.inj (witness_T2'.symm.trans hw)]
    refine ⟨fun p k f hf hk => ?_, fun f hf j => ?_⟩
    · cases p with
      | true => have := hk rfl; omega
      | false =>
        obtain rfl : k = 0 := by
          have := (List.getElem?_eq_some_iff.1 hf).1
          omega
        rw [show rnd (!false) 0 = (13 : ZMod 19) from h1]
        exact key1 _ (List.mem_map.2 ⟨f, List.mem_of_getElem? hf, rfl⟩)
    · have e : leafR j = if j = 0 then (13 : ZMod 19) else (17 : ZMod 19) := by
        refine Fin.cases h2 (fun j => ?_) j
        obtain rfl : j = 0 := by omega
        exact h3
      rw [e]
      exact key2 _ (List.mem_map.2 ⟨f, List.mem_of_getLast? hf, rfl⟩) j

set_option maxRecDepth 4000 in
/-- Non-vacuity of `C53_batched_path_anonymous`: leaves 2 and 0, and leaves 0 and 2, of the tree with three leaves and height 2. -/
example (fx : Bool) : ∃ (rnd' : ∀ p : Bool, Nat → Curve19.B (!p)) (leafR' : Fin 2 → Curve19.B (!false)) (path : MultiPath Curve19.C.Pt Curve19.C.Pt 2)
    (sEA sEB : SideP Cs false) (sOA sOB : SideP Cs true),
    multiTreeProverGadget (o false) (o true) fx prm rnd2 leafR2 T2 idx2 (.new []) (.new []) = .ok ((path, leafR2), sEA, sOA) ∧
    multiTreeProverGadget (o false) (o true) fx prm rnd' leafR' T2 idx2' (.new []) (.new []) = .ok ((path, leafR'), sEB, sOB) ∧
    SameProofs (o false) (prm.gens false) sEA sEB ∧ SameProofs (o true) (prm.gens true) sOA sOB := by
  have hh : ∀ p, prm.h p ≠ 0 := by
    have : (h : Curve19.C.Pt) ≠ 0 := by decide +kernel
    exact fun _ => this
  obtain ⟨φ, ψ, h1, h2, h3⟩ := C53_batched_path_anonymous valid tree_gens2 le_rfl
    (fun p => by obtain ⟨h1, h2, h3⟩ := gens_length p; rw [h1, h2, h3]; exact ⟨le_rfl, le_rfl⟩) hh
    (fun p P => ⟨(log P : ZMod 19), by
      have : (log P : ZMod 19).val • h = P := by
        rw [ZMod.val_natCast, mod_smul, log_spec]
      exact (this.symm.trans (mulPt_eq _ _).symm)⟩)
    fromSet_T2 (by decide) (by rw [height_T2]; decide) (o false) (o true) fx (i := idx2) (i' := idx2') (by decide) (by decide)
  have e1 := h1 nodes2 nodes2' witness_T2 witness_T2' rnd2 true 0
  have gnew : ∀ p, PState.Good (PState.new [] : SideP Cs p) := fun p =>
    ⟨⟨rfl, rfl, by intro i hi; simp [PState.new] at hi, by simp [PState.new]⟩, by simp [PState.new], by simp [PState.new]⟩
  obtain ⟨path, sEA, sOA, sEB, sOB, tE, tO, k1, k2, -, -, -, -, -, -, k5, k6⟩ := h3 rnd2 leafR2 batchSpendOk_T2
    (batchSpendOk_moved (moved2 _ e1) (moved_leaf0 _ (h2 leafR2 0)) (moved_leaf1 _ (h2 leafR2 1))) (fun _ => .new []) (fun _ => .new []) (fun _ => .new [])
    (Session.new []) (Session.new []) (Session.new []) (Session.new []) (fun p => ⟨gnew p, rfl, gnew p, rfl⟩)
  exact ⟨_, _, path, sEA, sEB, sOA, sOB, k1, k2, k5, k6⟩

end Example

end CT
