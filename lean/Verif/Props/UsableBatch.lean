import Verif.Spec.UsableBatch
import Verif.Props.Usable
import Verif.Props.BatchedTree
import Verif.Props.CompletenessError

/-!
# C70 and C72 for batched paths
-/

namespace CT
variable {B : Bool → Type} [∀ p, Field (B p)] [∀ p, DecidableEq (B p)] [∀ p, Fintype (B p)] {C : ∀ p, SWCurve (B p)} [∀ p, Module (B (!p)) (C p).Pt] {L M : Nat} [NeZero M]

omit [NeZero M] in
theorem sum_batchLen {h : Nat} (h0 : h ≠ 0) : ∑ p, Fintype.card (Fin (batchLen h M p)) = h - 1 + M := by
  rw [Fintype.sum_bool, Fintype.card_fin, Fintype.card_fin]
  simp only [batchLen, innerLen]; omega

omit [∀ p, Fintype (B p)] [NeZero M] in
/-- A scalar that is usable for the sum of the points. -/
theorem batchAvoids_of {prm : SelRerand C} {p : Bool} (hb : prm.h p ≠ 0) {c : Fin M → (C p).Pt} (hc : prm.Summable p c) {r : B (!p)}
    (h : r ∉ unusable prm p (∑ j, (c j + (prm.layer p).delta) - (prm.layer p).delta)) : r ≠ 0 ∧ prm.BatchAvoids p c r := by
  simp only [unusable, SelRerand.Exceptional, Set.mem_ofPred_eq, not_or, not_not, sub_add_cancel] at h
  obtain ⟨⟨h0, h1⟩, h2, h3⟩ := h
  refine ⟨h0, h1, hc.finite, hc.sums, hc.total, fun e => ?_, h2, h3⟩
  rcases smul_eq_zero.1 e with e | e
  exacts [h0 e, hb e]

/-- The scalars that cannot be used for a level of inner nodes. -/
def levelBad (prm : SelRerand C) (p : Bool) (c : Option (Fin M → (C p).Pt)) : Set (B (!p)) :=
  match c with
  | none => ∅
  | some c => unusable prm p (∑ j, (c j + (prm.layer p).delta) - (prm.layer p).delta)

/-- The scalars that cannot be used for a leaf. -/
def leafBad (prm : SelRerand C) (c : Option (C false).Pt) : Set (B (!false)) :=
  match c with
  | none => ∅
  | some c => unusable prm false c

/-- The scalars that cannot be used, for every scalar that is drawn. -/
def batchBad (prm : SelRerand C) (nodes : MultiWitPath M B (Pts C)) (h : Nat) : ∀ p, Fin (batchLen h M p) → Set (B (!p))
  | false => fun k =>
    if hk : k.val < innerLen h false then levelBad prm false ((nodes true)[k.val]?.map fun f j => (f j).child)
    else leafBad prm ((nodes true).getLast?.map fun f => (f ⟨k.val - innerLen h false, by have := k.2; simp only [batchLen] at this; omega⟩).child)
  | true => fun k => levelBad prm true ((nodes false)[k.val]?.map fun f j => (f j).child)

omit [NeZero M] in
theorem batchBad_card {prm : SelRerand C} (hb : ∀ p, prm.h p ≠ 0) {e : Nat} (he : ∀ p, {r : B (!p) | prm.Exceptional p r}.ncard ≤ e) (nodes : MultiWitPath M B (Pts C)) (h : Nat) :
    ∀ p k, (batchBad prm nodes h p k).ncard ≤ e + 2 := by
  have h1 : ∀ p (c : Option (Fin M → (C p).Pt)), (levelBad prm p c).ncard ≤ e + 2 := by
    rintro p (_ | c)
    · simp [levelBad]
    · exact unusable_card (hb p) (he p) _
  have h2 : ∀ c : Option (C false).Pt, (leafBad prm c).ncard ≤ e + 2 := by
    rintro (_ | c)
    · simp [leafBad]
    · exact unusable_card (hb false) (he false) _
  rintro (_ | _) k
  · simp only [batchBad]
    split
    exacts [h1 _ _, h2 _]
  · exact h1 _ _

/-- **C70** for batched paths: of all scalars drawn for the inner nodes and the leaves of `M` paths a share of at most `(e + 2) (height - 1 + M) / Q` is not usable. The nodes on each level must be such that they
can be added up: this depends on the tree alone. -/
theorem C70_batch_usable {prm : SelRerand C} (hg : prm.tree.EnoughGens L M) (hL : 2 ≤ L) (hb : ∀ p, prm.h p ≠ 0)
    {set : List (C false).Pt} {height : Option Nat} {fuel : Nat} {T : CurveTree L M (Pts C)}
    (ht : fromSet prm.tree set height fuel = some (.ok T)) (hfuel : set.length + height.getD 0 ≤ fuel) (h0 : T.height ≠ 0)
    {indices : Fin M → Nat} (hi : ∀ j, indices j < set.length)
    (hr : ∀ nodes, T.multiWitness prm.tree indices = .ok nodes → prm.BatchReady nodes)
    {e Q : Nat} (he : ∀ p, {r : B (!p) | prm.Exceptional p r}.ncard ≤ e) (hQ : ∀ p, Q ≤ Fintype.card (B p)) :
    Q * {ω : BatchScalars B T.height M | ¬ MultiOk prm T indices ω.stream ω.leaves}.ncard ≤
      (e + 2) * (T.height - 1 + M) * Fintype.card (BatchScalars B T.height M) := by
  obtain ⟨nodes, hw⟩ := multiWitness_exists (leaf := fun j => set[indices j]'(hi j)) fun j => C26_witness_partial hg hL ht hfuel j (hi j)
  obtain ⟨ns, n1, n2⟩ := multiWitness_ok hw
  obtain ⟨nodes', w1, w2⟩ := C26_witness_partial hg hL ht hfuel 0 (hi 0)
  cases Except.ok.inj ((n1 0).symm.trans w1)
  obtain ⟨l1, l2⟩ := pathTo_lengths w2
  have m1 : (nodes true).length = (T.height + 1) / 2 := by rw [(n2 true).1, l1]
  have m2 : (nodes false).length = T.height / 2 := by rw [(n2 false).1, l2]
  have hready := hr nodes hw
  have h := ncard_hits₂ (κ := fun p => Fin (batchLen T.height M p)) (A := fun p => B (!p)) (batchBad prm nodes T.height) (batchBad_card hb he nodes _) (fun p => hQ (!p))
  rw [sum_batchLen h0] at h
  refine le_trans (Nat.mul_le_mul_left _ (Set.ncard_le_ncard ?_)) h
  intro ω hω
  by_contra hno
  have hgood : ∀ p k, ω p k ∉ batchBad prm nodes T.height p k := fun p k hm => hno ⟨p, k, hm⟩
  have hE : ∀ (k : Nat) f, (nodes true)[k]? = some f → k + 1 < (nodes true).length →
      ω.stream false k ≠ 0 ∧ prm.BatchAvoids false (fun j => (f j).child) (ω.stream false k) := by
    intro k f hf hk
    have hlt : k < innerLen T.height false := by simp only [innerLen]; omega
    have hlt' : k < batchLen T.height M false := by simp only [batchLen]; omega
    have := hgood false ⟨k, hlt'⟩
    simp only [batchBad, hlt, dif_pos, hf, Option.map_some, levelBad] at this
    have hs : ω.stream false k = ω false ⟨k, hlt'⟩ := by simp [BatchScalars.stream, hlt']
    rw [hs]
    exact batchAvoids_of (p := false) (hb false) (hready.inner true k f hf fun _ => hk) this
  have hO : ∀ (k : Nat) f, (nodes false)[k]? = some f → ω.stream true k ≠ 0 ∧ prm.BatchAvoids true (fun j => (f j).child) (ω.stream true k) := by
    intro k f hf
    have hlt' : k < batchLen T.height M true := by
      have := (List.getElem?_eq_some_iff.1 hf).1
      simp only [batchLen, innerLen]; omega
    have := hgood true ⟨k, hlt'⟩
    simp only [batchBad, hf, Option.map_some, levelBad] at this
    have hs : ω.stream true k = ω true ⟨k, hlt'⟩ := by simp [BatchScalars.stream, hlt']
    rw [hs]
    exact batchAvoids_of (p := true) (hb true) (hready.inner false k f hf fun h => absurd h (by simp)) this
  refine hω ⟨fun j hj => ?_, fun j hj => ?_, fun nodes' hw' => ?_⟩
  · exact (hE j _ (List.getElem?_eq_getElem (show j < (nodes true).length by omega)) (by omega)).1
  · exact (hO j _ (List.getElem?_eq_getElem (show j < (nodes false).length by omega))).1
  · cases Except.ok.inj (hw.symm.trans hw')
    refine ⟨?_, fun f hf j => ?_⟩
    · rintro (_ | _) k f hf hk
      · exact (hO k f hf).2
      · exact (hE k f hf (hk rfl)).2
    · have := hgood false ⟨innerLen T.height false + j, Nat.add_lt_add_left j.2 _⟩
      simp only [batchBad, Nat.not_lt.2 (Nat.le_add_right _ _), dif_neg, not_false_eq_true, hf, Option.map_some, leafBad, Nat.add_sub_cancel_left, unusable, SelRerand.Exceptional,
        Set.mem_ofPred_eq, not_or, not_not] at this
      obtain ⟨⟨r0, r1⟩, r2, r3⟩ := this
      refine ⟨r1, hready.leaf f hf j, fun e => ?_, r2, r3⟩
      rcases smul_eq_zero.1 e with e | e
      exacts [r0 e, hb _ e]

/-- **C72** for batched paths: take any tree made by `from_set` for batches of `M`, of height at least one, any `M` leaves and usable scalars (`C70_batch_usable` counts the others). The batched gadget of the
Prover succeeds, that of the Verifier returns the re-randomised leaves, and on each of the two curves the proof made from the resulting state is accepted for all but a share of `completenessLoss / q` of the
random choices and challenges. -/
theorem C72_batched_membership {prm : SelRerand C} (hv : prm.Valid) (hg : prm.tree.EnoughGens L M) (hL : 2 ≤ L)
    {set : List (C false).Pt} {height : Option Nat} {fuel : Nat} {T : CurveTree L M (Pts C)}
    (ht : fromSet prm.tree set height fuel = some (.ok T)) (hfuel : set.length + height.getD 0 ≤ fuel) (h0 : T.height ≠ 0)
    (oE : SideO C false) (oO : SideO C true) (fx : Bool) {rnd : ∀ p, Nat → B (!p)} {leafR : Fin M → B (!false)} {indices : Fin M → Nat} (hi : ∀ j, indices j < set.length)
    (hs : MultiOk prm T indices rnd leafR)
    (hcG : ∀ p, (prm.gens p).capacity ≤ (prm.gens p).Gs.length) (hcH : ∀ p, (prm.gens p).capacity ≤ (prm.gens p).Hs.length)
    (hB : ∀ p, (prm.gens p).pc.B ≠ 0) (hb : ∀ p, (prm.gens p).pc.Bbl ≠ 0)
    {sE : SideP C false} {sO : SideP C true} {tE : SideV C false} {tO : SideV C true}
    (hsE : Session oE (prm.gens false) sE tE) (hsO : Session oO (prm.gens true) sO tO) (gE : sE.Good) (gO : sO.Good) (dE : sE.deferred = []) (dO : sO.deferred = []) :
    ∃ path sE' sO' tE' tO', multiTreeProverGadget oE oO fx prm rnd leafR T indices sE sO = .ok ((path, leafR), sE', sO') ∧
      multiTreeVerifierGadget oE oO fx prm T path tE tO = .ok (fun j => set[indices j]'(hi j) + leafR j • prm.h false, tE', tO') ∧
      (∀ lg m N, nextPow2 sE'.size = 2 ^ lg → 2 ^ lg ≤ (prm.gens false).capacity → lg < 32 → sE'.vecOpen.length ≤ 17 →
        m = 2 * (opDegree sE'.vecOpen.length + 1) + 1 → sE'.transcript.length + m + 18 + 3 * lg < N →
        Fintype.card (B (!false)) * {ω : Draw sE'.size m N → B (!false) | ¬ HonestAccepted (Draw.oracle ω) (prm.gens false) (Draw.prover ω) sE' tE'}.ncard ≤
          completenessLoss sE'.vecOpen.length lg * Fintype.card (Draw sE'.size m N → B (!false))) ∧
      (∀ lg m N, nextPow2 sO'.size = 2 ^ lg → 2 ^ lg ≤ (prm.gens true).capacity → lg < 32 → sO'.vecOpen.length ≤ 17 →
        m = 2 * (opDegree sO'.vecOpen.length + 1) + 1 → sO'.transcript.length + m + 18 + 3 * lg < N →
        Fintype.card (B (!true)) * {ω : Draw sO'.size m N → B (!true) | ¬ HonestAccepted (Draw.oracle ω) (prm.gens true) (Draw.prover ω) sO' tO'}.ncard ≤
          completenessLoss sO'.vecOpen.length lg * Fintype.card (Draw sO'.size m N → B (!true))) := by
  obtain ⟨nodes, hw⟩ := multiWitness_exists (leaf := fun j => set[indices j]'(hi j)) fun j => C26_witness_partial hg hL ht hfuel j (hi j)
  obtain ⟨ns, n1, n2⟩ := multiWitness_ok hw
  have n3 : ∀ j, T.PathTo prm.tree j (ns j) ⟨false, set[indices j]'(hi j)⟩ := by
    intro j
    obtain ⟨nodes', h1, h2⟩ := C26_witness_partial hg hL ht hfuel j (hi j)
    rw [n1 j] at h1
    cases h1
    exact h2
  obtain ⟨q1, q2⟩ := multi_ready n2 n3
  obtain ⟨path, r, sE', sO', k1, k2, k3, k4, k5, -⟩ := multi_path_complete oE oO fx hv (NeZero.ne M) (by omega) hg q1 q2 (hs.avoids nodes hw) gE gO
  obtain ⟨rfl, -, tE', tO', v1, v2, v3⟩ := multi_session n2 n3 h0 hs.even hs.odd hsE hsO k1
  refine ⟨path, sE', sO', tE', tO', by unfold multiTreeProverGadget; simp only [hw]; exact k1, v1, ?_, ?_⟩
  · intro lg m N e1 e2 e3 e4 e5 e6
    exact C72_completeness_error (hcG _) (hcH _) (hB _) (hb _) v2 (k4.trans dE) k2.satisfied k2.inCircuit e1 e2 e3 e4 e5 e6
  · intro lg m N e1 e2 e3 e4 e5 e6
    exact C72_completeness_error (hcG _) (hcH _) (hB _) (hb _) v3 (k5.trans dO) k3.satisfied k3.inCircuit e1 e2 e3 e4 e5 e6

end CT
