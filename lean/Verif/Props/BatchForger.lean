import Verif.Props.BatchErrorExample
import Verif.Proofs.BatchForger

/-!
# C48: the forgery of batches on the curves in use

`C48_forgery` gives a cheating Prover for any curves. Here the forger is a function of public data, and the theorems say how often it succeeds.
-/

namespace CT

section
variable {B : Bool → Type} [∀ p, Field (B p)] [∀ p, DecidableEq (B p)] {C : ∀ p, SWCurve (B p)} [∀ p, Module (B (!p)) (C p).Pt] {L M bits : Nat} [NeZero M]

/-- The forger: they look up the stored witnesses of the leaves with the given indices, as everyone can, and prove that the points `Q j` are the re-randomisations of these leaves. The arguments are the
parameters, the tree, the indices, the points and the scalars of the inner nodes of the path; the scalars that take the leaves to the `Q j` are not among them. -/
def forgeBatch (oE : SideO C false) (oO : SideO C true) (prm : SelRerand C) (rnd : ∀ p, Nat → B (!p)) (T : CurveTree L M (Pts C)) (indices : Fin M → Nat) (Q : Fin M → (C false).Pt)
    (sE : SideP C false) (sO : SideP C true) : Except Err (MultiPath (C false).Pt (C true).Pt M × SideP C false × SideP C true) :=
  match T.multiWitness prm.tree indices with
  | .error e => .error e
  | .ok nodes => forgeMultiPath oE oO prm rnd nodes Q sE sO

variable [∀ p, Fintype (B p)]

/-- The forgery works: with the scalars `ω` (those drawn for leaves are not used) the forger, with two fresh Provers, makes a batched path whose selected leaves are the `Q j`, the Verifier's gadget accepts it
and returns the `Q j`, and on both curves the proof of the resulting statement is rejected with probability at most `200 / den`. -/
def BatchForged (o : ∀ p, SideO C p) (prm : SelRerand C) (dom : ∀ p, Transcript (B (!p)) (C p).Pt (C (!p)).Pt) (T : CurveTree L M (Pts C)) (indices : Fin M → Nat) (Q : Fin M → (C false).Pt) (den : Nat)
    (ω : BatchScalars B T.height M) : Prop :=
  ∃ path sE sO tE tO, forgeBatch (o false) (o true) prm ω.stream T indices Q (.new (dom false)) (.new (dom true)) = .ok (path, sE, sO) ∧ path.selected = Q ∧
    multiTreeVerifierGadget (o false) (o true) false prm T path (.new (dom false)) (.new (dom true)) = .ok (Q, tE, tO) ∧
    RejectedAtMost (F := B (!false)) (prm.gens false) sE tE 200 den ∧ RejectedAtMost (F := B (!true)) (prm.gens true) sO tO 200 den

/-- C48 is false of the code, with an explicit forger: for every tree made by `from_set` for batches of `M`, of height between 1 and 34, and every `M` leaves there are, for each of the leaves, at most
`3 windows + 1` points such that for *all other points* `Q j` the forger convinces the Verifier that the `Q j` hide members of the set, for all but a share of `(e + 2) (height - 1 + M) / den` of the scalars.
The hypotheses are those of `C72_fresh_batch`, where an honest Prover does the same for the leaves themselves. -/
theorem C48_forger {prm : SelRerand C} (hv : prm.Valid) (hb : ∀ p, (prm.layer p).lambda = bits) (h3 : 3 ≤ bits) (hg : prm.tree.EnoughGens L M) (hL : 2 ≤ L)
    (hcG : ∀ p, (prm.gens p).capacity ≤ (prm.gens p).Gs.length) (hcH : ∀ p, (prm.gens p).capacity ≤ (prm.gens p).Hs.length)
    (hB : ∀ p, (prm.gens p).pc.B ≠ 0) (hbl : ∀ p, prm.h p ≠ 0)
    {set : List (C false).Pt} {height : Option Nat} {fuel : Nat} {T : CurveTree L M (Pts C)}
    (ht : fromSet prm.tree set height fuel = some (.ok T)) (hfuel : set.length + height.getD 0 ≤ fuel) (h0 : T.height ≠ 0) (h34 : T.height ≤ 34)
    (hcap : ∀ p, nextPow2 (batchCircuit L M bits T.height p) ≤ (prm.gens p).capacity) (h31 : ∀ p, batchCircuit L M bits T.height p ≤ 2 ^ 31)
    {indices : Fin M → Nat} (hi : ∀ j, indices j < set.length)
    (hr : ∀ nodes, T.multiWitness prm.tree indices = .ok nodes → prm.BatchReady nodes)
    {e den : Nat} (he : ∀ p, {r : B (!p) | prm.Exceptional p r}.ncard ≤ e) (hden : ∀ p, den ≤ Fintype.card (B p))
    (o : ∀ p, SideO C p) (dom : ∀ p, Transcript (B (!p)) (C p).Pt (C (!p)).Pt) :
    ∃ bad : Fin M → List (C false).Pt, (∀ j, (bad j).length = 3 * windows bits + 1) ∧ ∀ Q : Fin M → (C false).Pt, (∀ j, Q j ∉ bad j) →
      den * {ω : BatchScalars B T.height M | ¬ BatchForged o prm dom T indices Q den ω}.ncard ≤
        (e + 2) * (T.height - 1 + M) * Fintype.card (BatchScalars B T.height M) := by
  obtain ⟨nodes, hw⟩ := multiWitness_exists (leaf := fun j => set[indices j]'(hi j)) fun j => C26_witness_partial hg hL ht hfuel j (hi j)
  obtain ⟨ns, n1, n2⟩ := multiWitness_ok hw
  have n3 : ∀ j, T.PathTo prm.tree j (ns j) ⟨false, set[indices j]'(hi j)⟩ := by
    intro j
    obtain ⟨nodes', h1, h2⟩ := C26_witness_partial hg hL ht hfuel j (hi j)
    rw [n1 j] at h1
    cases h1
    exact h2
  obtain ⟨q1, q2⟩ := multi_ready n2 n3
  have hx0 : ∀ j, set[indices j]'(hi j) + (prm.layer false).delta ≠ 0 := by
    intro j
    obtain ⟨last, f2, f3⟩ := multi_last n2 n3 h0
    rw [← f3 j]
    exact (hr nodes hw).leaf last f2 j
  choose bad hbad hatt using fun j => attackable_off (hv.tables false) (hx0 j) 0
  refine ⟨fun j => (bad j).map (· - (prm.layer false).delta), fun j => by rw [List.length_map, hbad, hb], fun Q hQ => ?_⟩
  have hat := fun j => hatt j (Q j + (prm.layer false).delta) (fun hm => hQ j (List.mem_map.2 ⟨_, hm, by abel⟩))
  refine le_trans (Nat.mul_le_mul_left _ (Set.ncard_le_ncard ?_)) (C70_batch_usable hg hL hbl ht hfuel h0 hi hr he hden)
  intro ω hω hs
  refine hω ?_
  obtain ⟨path, r, sE, sO, k1, k2, k3, -, -, -⟩ := multi_path_complete (o false) (o true) false hv (NeZero.ne M) (by omega) hg q1 q2 (hs.avoids nodes hw)
    (new_good' (dom false)) (new_good' (dom true))
  have hpr : multiTreeProverGadget (o false) (o true) false prm ω.stream ω.leaves T indices (.new (dom false)) (.new (dom true)) = .ok ((path, r), sE, sO) := by
    unfold multiTreeProverGadget; simp only [hw]; exact k1
  obtain ⟨g1, g2, -, -⟩ := multiTreeProver_gets hb h3 hg hL ht hfuel h0 hs.even hs.odd hpr
  obtain ⟨sO', tE, tO, v1, v2, v3, v4, v5, v6, v7⟩ := batch_forge_at (o false) (o true) hv hb h3 hg (by omega : 1 ≤ L) n2 n3 h0 hs.even hs.odd (fun p k f hf hk => (hs.avoids nodes hw).1 p k f hf (by rintro rfl; exact hk rfl))
    (fun j => (hat j).2) hx0 (fun j => (hat j).1) (.new (dom false)) (.new (dom true)) (new_good' (dom false)) (new_good' (dom true)) k1 g2
  obtain ⟨c1, c2, c3, c4, c5, c6, -, -⟩ := batch_circuits g1 v7
  refine ⟨_, sE, sO', tE, tO, by unfold forgeBatch; simp only [hw]; exact v1, rfl, v2, ?_, ?_⟩
  · exact rejectedAtMost (hcG _) (hcH _) (hB _) (hbl _) v3 c5 v5 c1 (hcap false) (h31 false) (by rw [c3]; omega) (hden _)
  · exact rejectedAtMost (hcG _) (hcH _) (hB _) (hbl _) v4 c6 v6 c2 (hcap true) (h31 true) (by rw [c4]; omega) (hden _)

end

/-- C48 is false of the code on the Pasta curves. For every tree for batches of `M`, every `M` leaves and all points `Q j` of the Pallas curve, but 259 for each `j`, the forger, who is given no secret about the
`Q j`, makes a batched path with the `Q j` as the selected leaves and two proofs that the Verifier accepts: all but `6 (height - 1 + M) / 2 ^ 254` of the scalars work, and each of the two proofs is then rejected
with probability at most `200 / 2 ^ 254`. These are the same probabilities as for an honest Prover (`C72_pasta_batch`). -/
theorem C48_pasta_forger {L M : Nat} [NeZero M] {prm : SelRerand PastaC} (hp : PastaParams prm)
    (htab : ∀ p, buildTables (PastaC p) (windows 255) (prm.h p) = some (prm.layer p).tables) (hg : prm.tree.EnoughGens L M) (hL : 2 ≤ L)
    (hcG : ∀ p, (prm.gens p).capacity ≤ (prm.gens p).Gs.length) (hcH : ∀ p, (prm.gens p).capacity ≤ (prm.gens p).Hs.length) (hB : ∀ p, (prm.gens p).pc.B ≠ 0)
    {set : List (PastaC false).Pt} {height : Option Nat} {fuel : Nat} {T : CurveTree L M (Pts PastaC)}
    (ht : fromSet prm.tree set height fuel = some (.ok T)) (hfuel : set.length + height.getD 0 ≤ fuel) (h0 : T.height ≠ 0) (h34 : T.height ≤ 34)
    (hcap : ∀ p, nextPow2 (batchCircuit L M 255 T.height p) ≤ (prm.gens p).capacity) (h31 : ∀ p, batchCircuit L M 255 T.height p ≤ 2 ^ 31)
    {indices : Fin M → Nat} (hi : ∀ j, indices j < set.length)
    (hr : ∀ nodes, T.multiWitness prm.tree indices = .ok nodes → prm.BatchReady nodes)
    (o : ∀ p, SideO PastaC p) (dom : ∀ p, Transcript (PastaB (!p)) (PastaC p).Pt (PastaC (!p)).Pt) :
    ∃ bad : Fin M → List (PastaC false).Pt, (∀ j, (bad j).length = 259) ∧ ∀ Q : Fin M → (PastaC false).Pt, (∀ j, Q j ∉ bad j) →
      2 ^ 254 * {ω : BatchScalars PastaB T.height M | ¬ BatchForged o prm dom T indices Q (2 ^ 254) ω}.ncard ≤ 6 * (T.height - 1 + M) * Fintype.card (BatchScalars PastaB T.height M) := by
  have hv : prm.Valid :=
    ⟨fun p => by cases p <;> rfl, fun p => by rw [hp.lambda]; exact htab p, fun p => by rw [hp.lambda]; decide, hp.cast, fun p x => by
      rw [hp.lambda]
      have h1 := hp.lt (!p) x
      have h2 := (pasta_facts (!p)).1.2
      have h3 : 4001 * 8 ^ 84 ≤ 1000 * 2 ^ 255 := by norm_num
      exact h1.trans (Nat.lt_of_mul_lt_mul_left (h2.trans_le h3))⟩
  exact C48_forger (den := 2 ^ 254) hv hp.lambda (by norm_num) hg hL hcG hcH hB hp.base ht hfuel h0 h34 hcap h31 hi hr
    (fun p => pasta_exceptional (hp.lambda p) ((pasta_facts p).2 _ (hp.base p)) (pasta_facts _).1.1 (pasta_facts _).1.2 (hp.cast _) (hp.lt _))
    (fun p => le_trans (by norm_num) (pasta_facts p).1.1.le) o dom

/-- C48 is false of the code on secp256k1 and secq256k1: likewise, with `2 ^ 255`. -/
theorem C48_secp_forger {L M : Nat} [NeZero M] {prm : SelRerand SecpC} (hp : SecpParams prm)
    (htab : ∀ p, buildTables (SecpC p) (windows 256) (prm.h p) = some (prm.layer p).tables) (hg : prm.tree.EnoughGens L M) (hL : 2 ≤ L)
    (hcG : ∀ p, (prm.gens p).capacity ≤ (prm.gens p).Gs.length) (hcH : ∀ p, (prm.gens p).capacity ≤ (prm.gens p).Hs.length) (hB : ∀ p, (prm.gens p).pc.B ≠ 0)
    {set : List (SecpC false).Pt} {height : Option Nat} {fuel : Nat} {T : CurveTree L M (Pts SecpC)}
    (ht : fromSet prm.tree set height fuel = some (.ok T)) (hfuel : set.length + height.getD 0 ≤ fuel) (h0 : T.height ≠ 0) (h34 : T.height ≤ 34)
    (hcap : ∀ p, nextPow2 (batchCircuit L M 256 T.height p) ≤ (prm.gens p).capacity) (h31 : ∀ p, batchCircuit L M 256 T.height p ≤ 2 ^ 31)
    {indices : Fin M → Nat} (hi : ∀ j, indices j < set.length)
    (hr : ∀ nodes, T.multiWitness prm.tree indices = .ok nodes → prm.BatchReady nodes)
    (o : ∀ p, SideO SecpC p) (dom : ∀ p, Transcript (SecpB (!p)) (SecpC p).Pt (SecpC (!p)).Pt) :
    ∃ bad : Fin M → List (SecpC false).Pt, (∀ j, (bad j).length = 259) ∧ ∀ Q : Fin M → (SecpC false).Pt, (∀ j, Q j ∉ bad j) →
      2 ^ 255 * {ω : BatchScalars SecpB T.height M | ¬ BatchForged o prm dom T indices Q (2 ^ 255) ω}.ncard ≤ 6 * (T.height - 1 + M) * Fintype.card (BatchScalars SecpB T.height M) := by
  have hv : prm.Valid :=
    ⟨fun p => by cases p <;> rfl, fun p => by rw [hp.lambda]; exact htab p, fun p => by rw [hp.lambda]; decide, hp.cast, fun p x => by
      rw [hp.lambda]
      have h1 := hp.lt (!p) x
      have h2 := (secp_facts (!p)).1.2
      exact h1.trans (h2.trans_le (by norm_num))⟩
  exact C48_forger (den := 2 ^ 255) hv hp.lambda (by norm_num) hg hL hcG hcH hB hp.base ht hfuel h0 h34 hcap h31 hi hr
    (fun p => secp_exceptional (hp.lambda p) ((secp_facts p).2 _ (hp.base p)) (secp_facts _).1.1 (secp_facts _).1.2 (hp.cast _) (hp.lt _))
    (fun p => by
      have := (secp_facts p).1.1
      have h2 : 1000 * 2 ^ 255 ≤ 15999 * 8 ^ 84 := by norm_num
      exact Nat.le_of_mul_le_mul_left (h2.trans this.le) (by norm_num)) o dom


/-- Non-vacuity of `C48_pasta_forger`: both leaves of the tree. -/
example (o : ∀ p, SideO PastaC p) : ∃ T : CurveTree 2 2 (Pts PastaC), fromSet pastaBatch.tree pastaSet (some 1) 3 = some (.ok T) ∧ T.height = 1 ∧
    ∃ bad : Fin 2 → List (PastaC false).Pt, (∀ j, (bad j).length = 259) ∧ ∀ Q : Fin 2 → (PastaC false).Pt, (∀ j, Q j ∉ bad j) →
      2 ^ 254 * {ω : BatchScalars PastaB T.height 2 | ¬ BatchForged o pastaBatch (fun _ => []) T (fun j => j.val) Q (2 ^ 254) ω}.ncard ≤ 12 * Fintype.card (BatchScalars PastaB T.height 2) := by
  obtain ⟨T, h1, h2, h3⟩ := pastaBatch_tree
  have hm : ∀ p, batchCircuit 2 2 255 T.height p ≤ 1822 := by rw [h2]; intro p; cases p <;> decide +kernel
  have hn : ∀ p, nextPow2 (batchCircuit 2 2 255 T.height p) ≤ 2048 := by rw [h2]; intro p; cases p <;> decide +kernel
  have := C48_pasta_forger pastaBatch_params pastaLarge_tables (L := 2) (M := 2) pastaBatch_gens le_rfl
    (fun p => (pastaBatch_length p).1.ge) (fun p => (pastaBatch_length p).2.ge) pastaBatch_params.base h1 le_rfl (by omega) (by omega)
    hn (fun p => (hm p).trans (by norm_num)) (indices := fun j => j.val) (fun j => j.2) h3 o (fun _ => [])
  rw [show 6 * (T.height - 1 + 2) = 12 by omega] at this
  exact ⟨T, h1, h2, this⟩

/-- Non-vacuity of `C48_secp_forger`: both leaves of the tree. -/
example (o : ∀ p, SideO SecpC p) : ∃ T : CurveTree 2 2 (Pts SecpC), fromSet secpBatch.tree secpSet (some 1) 3 = some (.ok T) ∧ T.height = 1 ∧
    ∃ bad : Fin 2 → List (SecpC false).Pt, (∀ j, (bad j).length = 259) ∧ ∀ Q : Fin 2 → (SecpC false).Pt, (∀ j, Q j ∉ bad j) →
      2 ^ 255 * {ω : BatchScalars SecpB T.height 2 | ¬ BatchForged o secpBatch (fun _ => []) T (fun j => j.val) Q (2 ^ 255) ω}.ncard ≤ 12 * Fintype.card (BatchScalars SecpB T.height 2) := by
  obtain ⟨T, h1, h2, h3⟩ := secpBatch_tree
  have hm : ∀ p, batchCircuit 2 2 256 T.height p ≤ 1822 := by rw [h2]; intro p; cases p <;> decide +kernel
  have hn : ∀ p, nextPow2 (batchCircuit 2 2 256 T.height p) ≤ 2048 := by rw [h2]; intro p; cases p <;> decide +kernel
  have := C48_secp_forger secpBatch_params secpLarge_tables (L := 2) (M := 2) secpBatch_gens le_rfl
    (fun p => (secpBatch_length p).1.ge) (fun p => (secpBatch_length p).2.ge) secpBatch_params.base h1 le_rfl (by omega) (by omega)
    hn (fun p => (hm p).trans (by norm_num)) (indices := fun j => j.val) (fun j => j.2) h3 o (fun _ => [])
  rw [show 6 * (T.height - 1 + 2) = 12 by omega] at this
  exact ⟨T, h1, h2, this⟩

end CT
