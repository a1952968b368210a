import Verif.Proofs.BatchSizes
import Verif.Props.UsableBatch
import Verif.Props.MembershipError

/-!
# C65 and C72 for batched paths

The sizes of a batched path and the proofs for it, and how often honest proofs of membership of `M` leaves fail.
-/

namespace CT

section
variable {B : Bool → Type} [∀ p, Field (B p)] [∀ p, DecidableEq (B p)] {C : ∀ p, SWCurve (B p)} [∀ p, Module (B (!p)) (C p).Pt] {L M bits : Nat}

omit [∀ p, DecidableEq (B p)] [∀ p, Module (B (!p)) (C p).Pt] in
theorem multiPath_bytes {c0 : Codec (C false).Pt} {c1 : Codec (C true).Pt} (hc0 : c0.Element) (hc1 : c1.Element) {path : MultiPath (C false).Pt (C true).Pt M}
    {D : Nat} (h1 : path.odd.length = D / 2) (h2 : path.even.length = (D - 1) / 2) :
    (path.encode c0 c1).length = batchPathSize D M (c0.size 0) (c1.size 0) := by
  have e0 : ∀ x, (c0.enc x).length = c0.size 0 := fun x => (hc0.sizeExact x).symm.trans (hc0.sizeConst x 0)
  have v0 : ((vecCodec c0).enc path.even).length = 8 + path.even.length * c0.size 0 := (vec_size hc0.sizeExact _).symm.trans (vecCodec_size hc0 0 _)
  have v1 : ((vecCodec c1).enc path.odd).length = 8 + path.odd.length * c1.size 0 := (vec_size hc1.sizeExact _).symm.trans (vecCodec_size hc1 0 _)
  have hs : ((List.ofFn path.selected).flatMap c0.enc).length = M * c0.size 0 := by
    rw [List.length_flatMap, List.map_ofFn]
    have : ((fun a => (c0.enc a).length) ∘ path.selected) = fun _ => c0.size 0 := funext fun j => e0 _
    rw [this, List.ofFn_const, List.sum_replicate, smul_eq_mul]
  rw [MultiPath.encode, List.length_append, List.length_append, hs, v0, v1, h1, h2, batchPathSize]
  ring

theorem batchGates_le : M * L ≤ batchGates L M bits := by
  rw [batchGates, Nat.add_mul, Nat.mul_comm M L]; omega

omit [∀ p, Module (B (!p)) (C p).Pt] in
/-- The sizes of both circuits and the numbers of their vector commitments. -/
theorem batch_circuits {T : CurveTree L M (Pts C)} {dom : ∀ p, Transcript (B (!p)) (C p).Pt (C (!p)).Pt} {sE : SideP C false} {sO : SideP C true}
    (k1 : PState.Gets (.new (dom false)) sE (batchGates L M bits * (T.height / 2)) (batchAllocations M bits * (T.height / 2)) ((T.height - 1) / 2) (M * L))
    (k2 : PState.Gets (.new (dom true)) sO (batchGates L M bits * ((T.height - 1) / 2) + levelGates L bits * M)
      (batchAllocations M bits * ((T.height - 1) / 2) + levelAllocations bits * M) (T.height / 2) (M * L)) :
    sE.size = batchCircuit L M bits T.height false ∧ sO.size = batchCircuit L M bits T.height true ∧ sE.vecOpen.length = (T.height - 1) / 2 ∧
      sO.vecOpen.length = T.height / 2 ∧ sE.deferred = [] ∧ sO.deferred = [] ∧ sE.numberOfConstraints = batchCircuit L M bits T.height false ∧
      sO.numberOfConstraints = batchCircuit L M bits T.height true := by
  obtain ⟨a1, a2, a3, -⟩ := k1.fresh
  obtain ⟨b1, b2, b3, -⟩ := k2.fresh
  have c1 := k1.size (by
    by_cases h : T.height / 2 = 0
    · exact .inl (by omega)
    · right
      have := (batchGates_le (L := L) (M := M) (bits := bits)).trans (Nat.le_mul_of_pos_right (batchGates L M bits) (Nat.pos_of_ne_zero h))
      omega)
  have c2 := k2.size (.inr (by
    have : M * L ≤ levelGates L bits * M := by
      rw [Nat.mul_comm M L]
      exact Nat.mul_le_mul_right _ (by unfold levelGates; omega)
    omega))
  have e1 : batchGates L M bits * (T.height / 2) + (batchAllocations M bits * (T.height / 2) + 1) / 2 = batchCircuit L M bits T.height false := by
    simp only [batchCircuit, batchMultipliers, Nat.mul_zero, Nat.add_zero]
  exact ⟨c1.trans e1, c2, a2, b2, a3, b3, a1.trans e1, b1⟩

/-- **C65** for batched paths. Take any tree made by `from_set` for batches of `M`, with branching factor `L` and height `D ≥ 1`, any indices, and two fresh Provers. If the Provers make a batched path and the
two proofs for it (none of the scalars drawn for inner nodes being zero), the path and the proofs take `batchSize L M bits D …` bytes together, whatever the set, the leaves and the randomness, and
`number_of_constraints()` of the two Provers is `batchCircuit L M bits D`. -/
theorem C65_batch_size [NeZero M] {prm : SelRerand C} (hb : ∀ p, (prm.layer p).lambda = bits) (h3 : 3 ≤ bits) (hg : prm.tree.EnoughGens L M) (hL : 2 ≤ L)
    (hcap : ∀ p, (prm.gens p).capacity ≤ (prm.gens p).Gs.length)
    {set : List (C false).Pt} {height : Option Nat} {fuel : Nat} {T : CurveTree L M (Pts C)}
    (ht : fromSet prm.tree set height fuel = some (.ok T)) (hfuel : set.length + height.getD 0 ≤ fuel) (h0 : T.height ≠ 0)
    {o : ∀ p, SideO C p} {fx : Bool} {rnd : ∀ p, Nat → B (!p)} {leafR : Fin M → B (!false)}
    (hE : ∀ j, j + 1 < (T.height + 1) / 2 → rnd false j ≠ 0) (hO : ∀ j < T.height / 2, rnd true j ≠ 0)
    {dom : ∀ p, Transcript (B (!p)) (C p).Pt (C (!p)).Pt} {sE : SideP C false} {sO : SideP C true} {indices : Fin M → Nat}
    {path : MultiPath (C false).Pt (C true).Pt M} {r : Fin M → B (!false)}
    (hp : multiTreeProverGadget (o false) (o true) fx prm rnd leafR T indices (.new (dom false)) (.new (dom true)) = .ok ((path, r), sE, sO))
    {rE : PRand (B (!false))} {rO : PRand (B (!true))} {pE : R1CSProof (B (!false)) (C false).Pt} {pO : R1CSProof (B (!true)) (C true).Pt}
    {trE : Transcript (B (!false)) (C false).Pt (C (!false)).Pt} {trO : Transcript (B (!true)) (C true).Pt (C (!true)).Pt}
    (hpE : prove (o false) (prm.gens false) rE sE = .ok (pE, trE)) (hpO : prove (o true) (prm.gens true) rO sO = .ok (pO, trO))
    {cP : ∀ p, Codec (C p).Pt} {cF : ∀ p, Codec (B (!p))} (hP : ∀ p, (cP p).Element) (hF : ∀ p, (cF p).Element) :
    (path.encode (cP false) (cP true)).length + ((proofCodec (cF false) (cP false)).enc pE).length + ((proofCodec (cF true) (cP true)).enc pO).length =
      batchSize L M bits T.height ((cP false).size 0) ((cP true).size 0) ((cF false).size 0) ((cF true).size 0) ∧
    sE.numberOfConstraints = batchCircuit L M bits T.height false ∧ sO.numberOfConstraints = batchCircuit L M bits T.height true := by
  obtain ⟨k1, k2, k3, k4⟩ := multiTreeProver_gets hb h3 hg hL ht hfuel h0 hE hO hp
  obtain ⟨c1, c2, c3, c4, c5, c6, c7, c8⟩ := batch_circuits k1 k2
  refine ⟨?_, c7, c8⟩
  rw [C65_proof_size (hF false) (hP false) (hcap false) c5 hpE, C65_proof_size (hF true) (hP true) (hcap true) c6 hpO, multiPath_bytes (hP false) (hP true) k3 k4, c1, c2, c3, c4]
  rfl

end

section
variable {B : Bool → Type} [∀ p, Field (B p)] [∀ p, Fintype (B p)] [∀ p, DecidableEq (B p)] {C : ∀ p, SWCurve (B p)} [∀ p, Module (B (!p)) (C p).Pt] {L M bits : Nat} [NeZero M]

/-- An honest batched proof of membership works: with the scalars `ω` two fresh Provers make a batched path, the Verifier's gadget accepts it and returns the leaves `leaf j`, re-randomised, and on both curves
the proof of the resulting statement is rejected with probability at most `200 / Q`. -/
def BatchWorks (o : ∀ p, SideO C p) (fx : Bool) (prm : SelRerand C) (dom : ∀ p, Transcript (B (!p)) (C p).Pt (C (!p)).Pt) (T : CurveTree L M (Pts C)) (indices : Fin M → Nat)
    (leaf : Fin M → (C false).Pt) (Q : Nat) (ω : BatchScalars B T.height M) : Prop :=
  ∃ path sE sO tE tO, multiTreeProverGadget (o false) (o true) fx prm ω.stream ω.leaves T indices (.new (dom false)) (.new (dom true)) = .ok ((path, ω.leaves), sE, sO) ∧
    multiTreeVerifierGadget (o false) (o true) fx prm T path (.new (dom false)) (.new (dom true)) = .ok (fun j => leaf j + ω.leaves j • prm.h false, tE, tO) ∧
    RejectedAtMost (F := B (!false)) (prm.gens false) sE tE 200 Q ∧ RejectedAtMost (F := B (!true)) (prm.gens true) sO tO 200 Q

/-- **C72** for whole batched proofs of membership: for every tree made by `from_set` for batches of `M`, of height between 1 and 34, every `M` leaves (with nodes that can be added up on every level) and
generators that are enough for the circuits of C65, all but a share of `(e + 2) (height - 1 + M) / Q` of the scalars work. -/
theorem C72_fresh_batch {prm : SelRerand C} (hv : prm.Valid) (hb : ∀ p, (prm.layer p).lambda = bits) (h3 : 3 ≤ bits) (hg : prm.tree.EnoughGens L M) (hL : 2 ≤ L)
    (hcG : ∀ p, (prm.gens p).capacity ≤ (prm.gens p).Gs.length) (hcH : ∀ p, (prm.gens p).capacity ≤ (prm.gens p).Hs.length)
    (hB : ∀ p, (prm.gens p).pc.B ≠ 0) (hbl : ∀ p, prm.h p ≠ 0)
    {set : List (C false).Pt} {height : Option Nat} {fuel : Nat} {T : CurveTree L M (Pts C)}
    (ht : fromSet prm.tree set height fuel = some (.ok T)) (hfuel : set.length + height.getD 0 ≤ fuel) (h0 : T.height ≠ 0) (h34 : T.height ≤ 34)
    (hcap : ∀ p, nextPow2 (batchCircuit L M bits T.height p) ≤ (prm.gens p).capacity) (h31 : ∀ p, batchCircuit L M bits T.height p ≤ 2 ^ 31)
    {indices : Fin M → Nat} (hi : ∀ j, indices j < set.length)
    (hr : ∀ nodes, T.multiWitness prm.tree indices = .ok nodes → prm.BatchReady nodes)
    {e Q : Nat} (he : ∀ p, {r : B (!p) | prm.Exceptional p r}.ncard ≤ e) (hQ : ∀ p, Q ≤ Fintype.card (B p))
    (o : ∀ p, SideO C p) (fx : Bool) (dom : ∀ p, Transcript (B (!p)) (C p).Pt (C (!p)).Pt) :
    Q * {ω : BatchScalars B T.height M | ¬ BatchWorks o fx prm dom T indices (fun j => set[indices j]'(hi j)) Q ω}.ncard ≤
      (e + 2) * (T.height - 1 + M) * Fintype.card (BatchScalars B T.height M) := by
  refine le_trans (Nat.mul_le_mul_left _ (Set.ncard_le_ncard ?_)) (C70_batch_usable hg hL hbl ht hfuel h0 hi hr he hQ)
  intro ω hω hs
  refine hω ?_
  obtain ⟨nodes, hw⟩ := multiWitness_exists (leaf := fun j => set[indices j]'(hi j)) fun j => C26_witness_partial hg hL ht hfuel j (hi j)
  obtain ⟨ns, n1, n2⟩ := multiWitness_ok hw
  have n3 : ∀ j, T.PathTo prm.tree j (ns j) ⟨false, set[indices j]'(hi j)⟩ := by
    intro j
    obtain ⟨nodes', h1, h2⟩ := C26_witness_partial hg hL ht hfuel j (hi j)
    rw [n1 j] at h1
    cases h1
    exact h2
  obtain ⟨q1, q2⟩ := multi_ready n2 n3
  obtain ⟨path, r, sE, sO, k1, k2, k3, -, -, -⟩ := multi_path_complete (o false) (o true) fx hv (NeZero.ne M) (by omega) hg q1 q2 (hs.avoids nodes hw)
    (new_good' (dom false)) (new_good' (dom true))
  obtain ⟨rfl, -, tE, tO, v1, v2, v3⟩ := multi_session n2 n3 h0 hs.even hs.odd (.new (dom false)) (.new (dom true)) k1
  have hpr : multiTreeProverGadget (o false) (o true) fx prm ω.stream ω.leaves T indices (.new (dom false)) (.new (dom true)) = .ok ((path, ω.leaves), sE, sO) := by
    unfold multiTreeProverGadget; simp only [hw]; exact k1
  obtain ⟨g1, g2, -, -⟩ := multiTreeProver_gets hb h3 hg hL ht hfuel h0 hs.even hs.odd hpr
  obtain ⟨c1, c2, c3, c4, c5, c6, -, -⟩ := batch_circuits g1 g2
  refine ⟨path, sE, sO, tE, tO, hpr, v1, ?_, ?_⟩
  · exact rejectedAtMost (hcG _) (hcH _) (hB _) (hbl _) v2 c5 k2 c1 (hcap false) (h31 false) (by rw [c3]; omega) (hQ _)
  · exact rejectedAtMost (hcG _) (hcH _) (hB _) (hbl _) v3 c6 k3 c2 (hcap true) (h31 true) (by rw [c4]; omega) (hQ _)

end

/-- **C72** for batches on the Pasta curves: an honest batched proof of membership works but for `6 (height - 1 + M) / 2 ^ 254` of the scalars, and its two proofs are then rejected with probability at most
`200 / 2 ^ 254` each. -/
theorem C72_pasta_batch {L M : Nat} [NeZero M] {prm : SelRerand PastaC} (hp : PastaParams prm)
    (htab : ∀ p, buildTables (PastaC p) (windows 255) (prm.h p) = some (prm.layer p).tables) (hg : prm.tree.EnoughGens L M) (hL : 2 ≤ L)
    (hcG : ∀ p, (prm.gens p).capacity ≤ (prm.gens p).Gs.length) (hcH : ∀ p, (prm.gens p).capacity ≤ (prm.gens p).Hs.length) (hB : ∀ p, (prm.gens p).pc.B ≠ 0)
    {set : List (PastaC false).Pt} {height : Option Nat} {fuel : Nat} {T : CurveTree L M (Pts PastaC)}
    (ht : fromSet prm.tree set height fuel = some (.ok T)) (hfuel : set.length + height.getD 0 ≤ fuel) (h0 : T.height ≠ 0) (h34 : T.height ≤ 34)
    (hcap : ∀ p, nextPow2 (batchCircuit L M 255 T.height p) ≤ (prm.gens p).capacity) (h31 : ∀ p, batchCircuit L M 255 T.height p ≤ 2 ^ 31)
    {indices : Fin M → Nat} (hi : ∀ j, indices j < set.length)
    (hr : ∀ nodes, T.multiWitness prm.tree indices = .ok nodes → prm.BatchReady nodes)
    (o : ∀ p, SideO PastaC p) (fx : Bool) (dom : ∀ p, Transcript (PastaB (!p)) (PastaC p).Pt (PastaC (!p)).Pt) :
    2 ^ 254 * {ω : BatchScalars PastaB T.height M | ¬ BatchWorks o fx prm dom T indices (fun j => set[indices j]'(hi j)) (2 ^ 254) ω}.ncard ≤
      6 * (T.height - 1 + M) * Fintype.card (BatchScalars PastaB T.height M) := by
  have hv : prm.Valid :=
    ⟨fun p => by cases p <;> rfl, fun p => by rw [hp.lambda]; exact htab p, fun p => by rw [hp.lambda]; decide, hp.cast, fun p x => by
      rw [hp.lambda]
      have h1 := hp.lt (!p) x
      have h2 := (pasta_facts (!p)).1.2
      have h3 : 4001 * 8 ^ 84 ≤ 1000 * 2 ^ 255 := by norm_num
      exact h1.trans (Nat.lt_of_mul_lt_mul_left (h2.trans_le h3))⟩
  exact C72_fresh_batch hv hp.lambda (by norm_num) hg hL hcG hcH hB hp.base ht hfuel h0 h34 hcap h31 hi hr
    (fun p => pasta_exceptional (hp.lambda p) ((pasta_facts p).2 _ (hp.base p)) (pasta_facts _).1.1 (pasta_facts _).1.2 (hp.cast _) (hp.lt _))
    (fun p => le_trans (by norm_num) (pasta_facts p).1.1.le) o fx dom

/-- **C72** for batches on the cycle secp256k1, secq256k1: likewise with `2 ^ 255`. -/
theorem C72_secp_batch {L M : Nat} [NeZero M] {prm : SelRerand SecpC} (hp : SecpParams prm)
    (htab : ∀ p, buildTables (SecpC p) (windows 256) (prm.h p) = some (prm.layer p).tables) (hg : prm.tree.EnoughGens L M) (hL : 2 ≤ L)
    (hcG : ∀ p, (prm.gens p).capacity ≤ (prm.gens p).Gs.length) (hcH : ∀ p, (prm.gens p).capacity ≤ (prm.gens p).Hs.length) (hB : ∀ p, (prm.gens p).pc.B ≠ 0)
    {set : List (SecpC false).Pt} {height : Option Nat} {fuel : Nat} {T : CurveTree L M (Pts SecpC)}
    (ht : fromSet prm.tree set height fuel = some (.ok T)) (hfuel : set.length + height.getD 0 ≤ fuel) (h0 : T.height ≠ 0) (h34 : T.height ≤ 34)
    (hcap : ∀ p, nextPow2 (batchCircuit L M 256 T.height p) ≤ (prm.gens p).capacity) (h31 : ∀ p, batchCircuit L M 256 T.height p ≤ 2 ^ 31)
    {indices : Fin M → Nat} (hi : ∀ j, indices j < set.length)
    (hr : ∀ nodes, T.multiWitness prm.tree indices = .ok nodes → prm.BatchReady nodes)
    (o : ∀ p, SideO SecpC p) (fx : Bool) (dom : ∀ p, Transcript (SecpB (!p)) (SecpC p).Pt (SecpC (!p)).Pt) :
    2 ^ 255 * {ω : BatchScalars SecpB T.height M | ¬ BatchWorks o fx prm dom T indices (fun j => set[indices j]'(hi j)) (2 ^ 255) ω}.ncard ≤
      6 * (T.height - 1 + M) * Fintype.card (BatchScalars SecpB T.height M) := by
  have hv : prm.Valid :=
    ⟨fun p => by cases p <;> rfl, fun p => by rw [hp.lambda]; exact htab p, fun p => by rw [hp.lambda]; decide, hp.cast, fun p x => by
      rw [hp.lambda]
      have h1 := hp.lt (!p) x
      have h2 := (secp_facts (!p)).1.2
      exact h1.trans (h2.trans_le (by norm_num))⟩
  exact C72_fresh_batch hv hp.lambda (by norm_num) hg hL hcG hcH hB hp.base ht hfuel h0 h34 hcap h31 hi hr
    (fun p => secp_exceptional (hp.lambda p) ((secp_facts p).2 _ (hp.base p)) (secp_facts _).1.1 (secp_facts _).1.2 (hp.cast _) (hp.lt _))
    (fun p => by
      have := (secp_facts p).1.1
      have h2 : 1000 * 2 ^ 255 ≤ 15999 * 8 ^ 84 := by norm_num
      exact Nat.le_of_mul_le_mul_left (h2.trans this.le) (by norm_num)) o fx dom

end CT
