import Verif.Props.MembershipError
import Verif.Proofs.ForgeryError

/-!
# C22: the forgery on the curves in use

`C22_forgery` gives a cheating Prover for any curves. On a curve of prime order every point is the re-randomisation of every leaf by *some* scalar, so there it matters that the
Prover does not know this scalar. Here the forger is a function of public data, and the theorems say how often it succeeds.
-/

namespace CT

section
variable {B : Bool → Type} [∀ p, Field (B p)] [∀ p, DecidableEq (B p)] {C : ∀ p, SWCurve (B p)} [∀ p, Module (B (!p)) (C p).Pt] {L M : Nat}

/-- The forger: they look up the stored witness of leaf `i`, as everyone can, and prove that the point `Q` is the re-randomisation of this leaf. The arguments are the parameters, the
tree, the index, `Q` and the scalars of the *other* nodes of the path; the scalar that takes the leaf to `Q` is not among them. -/
def forgeMembership (oE : SideO C false) (oO : SideO C true) (prm : SelRerand C) (rnd : ∀ p, Nat → B (!p)) (T : CurveTree L M (Pts C)) (i : Nat) (tree : Fin M) (Q : (C false).Pt)
    (sE : SideP C false) (sO : SideP C true) : Except Err (Path (C false).Pt (C true).Pt × SideP C false × SideP C true) :=
  match T.witness prm.tree i tree with
  | .error e => .error e
  | .ok nodes => forgePath oE oO prm rnd nodes Q 0 sE sO

variable [∀ p, Fintype (B p)] [NeZero M]

/-- The forgery works: with the scalars `ω` the forger, with two fresh Provers, makes a path whose selected leaf is `Q`, the Verifier's gadget accepts it and returns `Q`, and on both curves
the proof of the resulting statement is rejected with probability at most `200 / den`. -/
def ForgeryWorks (o : ∀ p, SideO C p) (prm : SelRerand C) (dom : ∀ p, Transcript (B (!p)) (C p).Pt (C (!p)).Pt) (T : CurveTree L M (Pts C)) (i : Nat) (Q : (C false).Pt) (den : Nat)
    (ω : PathScalars B T.height) : Prop :=
  ∃ path sE sO tE tO, forgeMembership (o false) (o true) prm ω.stream T i 0 Q (.new (dom false)) (.new (dom true)) = .ok (path, sE, sO) ∧ path.selected = Q ∧
    treeVerifierGadget (o false) (o true) false prm T path (.new (dom false)) (.new (dom true)) = .ok (Q, tE, tO) ∧
    RejectedAtMost (F := B (!false)) (prm.gens false) sE tE 200 den ∧ RejectedAtMost (F := B (!true)) (prm.gens true) sO tO 200 den

/-- C22 is false of the code, with an explicit forger: for every tree made by `from_set`, of height between 1 and 34, and every leaf (with no node equal to `-Δ` on its path) there are at most
`3 windows + 1` points such that for *every other point* `Q` the forger convinces the Verifier that `Q` hides a member of the set, for all but a share of `(e + 2) height / den` of the scalars.
The hypotheses are those of `C72_fresh_membership`, where an honest Prover does the same for the leaf itself. -/
theorem C22_forger {prm : SelRerand C} (hv : prm.Valid) {bits : Nat} (hb : ∀ p, (prm.layer p).lambda = bits) (h3 : 3 ≤ bits) (hg : prm.tree.EnoughGens L M) (hL : 2 ≤ L)
    (hcG : ∀ p, (prm.gens p).capacity ≤ (prm.gens p).Gs.length) (hcH : ∀ p, (prm.gens p).capacity ≤ (prm.gens p).Hs.length)
    (hB : ∀ p, (prm.gens p).pc.B ≠ 0) (hbl : ∀ p, prm.h p ≠ 0)
    {set : List (C false).Pt} {height : Option Nat} {fuel : Nat} {T : CurveTree L M (Pts C)}
    (ht : fromSet prm.tree set height fuel = some (.ok T)) (hfuel : set.length + height.getD 0 ≤ fuel) (h0 : T.height ≠ 0) (h34 : T.height ≤ 34)
    (hcap : ∀ p, nextPow2 (multipliersFor L bits ((T.height + 1) / 2) 0) ≤ (prm.gens p).capacity) (h31 : multipliersFor L bits ((T.height + 1) / 2) 0 ≤ 2 ^ 31)
    {i : Nat} (hi : i < set.length) (hx0 : set[i] + (prm.layer false).delta ≠ 0)
    (hδ : ∀ nodes, T.witness prm.tree i 0 = .ok nodes → ∀ p (k : Nat) w, (nodes p)[k]? = some w → w.child + (prm.layer (!p)).delta ≠ 0)
    {e den : Nat} (he : ∀ p, {r : B (!p) | prm.Exceptional p r}.ncard ≤ e) (hden : ∀ p, den ≤ Fintype.card (B p))
    (o : ∀ p, SideO C p) (dom : ∀ p, Transcript (B (!p)) (C p).Pt (C (!p)).Pt) :
    ∃ bad : List (C false).Pt, bad.length = 3 * windows bits + 1 ∧ ∀ Q, Q ∉ bad →
      den * {ω : PathScalars B T.height | ¬ ForgeryWorks o prm dom T i Q den ω}.ncard ≤ (e + 2) * T.height * Fintype.card (PathScalars B T.height) := by
  obtain ⟨bad, hbad, hatt⟩ := attackable_off (hv.tables false) hx0 0
  refine ⟨bad.map (· - (prm.layer false).delta), by rw [List.length_map, hbad, hb], fun Q hQ => ?_⟩
  obtain ⟨hat, hQ0⟩ := hatt (Q + (prm.layer false).delta) (fun hm => hQ (List.mem_map.2 ⟨_, hm, by abel⟩))
  refine le_trans (Nat.mul_le_mul_left _ (Set.ncard_le_ncard ?_)) (C70_usable hg hL hbl ht hfuel hi hδ he hden)
  intro ω hω hs
  refine hω ?_
  obtain ⟨nodes, h1, h2⟩ := C26_witness_partial hg hL ht hfuel 0 hi
  have hM : 1 ≤ M := Nat.one_le_iff_ne_zero.2 (NeZero.ne M)
  have hg1 : ∀ p, L ≤ (prm.gens p).Gs.length := fun p => le_trans (Nat.le_mul_of_pos_right L hM) (hg p)
  obtain ⟨l1, l2⟩ := pathTo_lengths h2
  obtain ⟨path, r, sE, sO, k1, k2, k3, -, -, -⟩ := path_complete (o false) (o true) false hv hg1 h2 (rnd := ω.stream) (hs.avoids nodes h1) (new_good' (dom false)) (new_good' (dom true))
  obtain ⟨tE, tO, v1, v2, v3⟩ := path_session h2 h0 (fun j hj => hs.even j (by omega)) (fun j hj => hs.odd j (by omega)) (.new (dom false)) (.new (dom true)) k1
  have hpath : path = proverPath prm nodes ω.stream := by
    unfold pathProverGadget at k1
    split at k1
    · cases k1
    split at k1
    · cases k1
    simp only [Except.ok.injEq, Prod.mk.injEq] at k1
    exact k1.1.1.symm
  have hpr : treeProverGadget (o false) (o true) false prm ω.stream T i 0 (.new (dom false)) (.new (dom true)) = .ok ((path, r), sE, sO) := by
    unfold treeProverGadget; simp only [h1]; exact k1
  obtain ⟨sE', sO', tE', tO', f1, f2, f3, f4, f5, f6, f7, -, f8⟩ := path_forge_at (o false) (o true) hv hg1 h2 h0 (rnd := ω.stream) (fun j hj => hs.even j (by omega))
    (fun j hj => hs.odd j (by omega)) (fun p k w hw _ => hs.avoids nodes h1 p k w hw) hQ0 hx0 hat (.new (dom false)) (.new (dom true)) (new_good' (dom false)) (new_good' (dom true))
  rw [hpath] at v1
  obtain ⟨q1, q2⟩ := treeVerifier_shape (fun p => by rw [hb]; exact h3) v1 f1
  obtain ⟨g1, g2, -, -⟩ := treeProver_gets hb h3 hg hL ht hfuel h0 hs.even hs.odd hpr
  obtain ⟨a1, a2, a3, -⟩ := g1.fresh
  obtain ⟨b1, b2, b3, -⟩ := g2.fresh
  have lv : ∀ k, k ≠ 0 → L ≤ levelGates L bits * k + (levelAllocations bits * k + 1) / 2 := by
    intro k hk
    have : L ≤ levelGates L bits * k := (by unfold levelGates; omega : L ≤ levelGates L bits).trans (Nat.le_mul_of_pos_right _ (by omega))
    omega
  have c1 := g1.size (by
    by_cases h : T.height / 2 = 0
    · exact .inl (by omega)
    · exact .inr (lv _ h))
  have c2 := g2.size (.inr (lv _ (by omega)))
  have mono : multipliersFor L bits (T.height / 2) 0 ≤ multipliersFor L bits ((T.height + 1) / 2) 0 := by
    unfold multipliersFor
    have h1 : levelGates L bits * (T.height / 2) ≤ levelGates L bits * ((T.height + 1) / 2) := Nat.mul_le_mul_left _ (by omega)
    have h2 : levelAllocations bits * (T.height / 2) ≤ levelAllocations bits * ((T.height + 1) / 2) := Nat.mul_le_mul_left _ (by omega)
    omega
  have pow2 : nextPow2 (multipliersFor L bits (T.height / 2) 0) ≤ nextPow2 (multipliersFor L bits ((T.height + 1) / 2) 0) := by
    unfold nextPow2
    split
    · split
      · exact le_rfl
      · exact Nat.one_le_two_pow
    · rw [if_neg (by omega)]
      have : (multipliersFor L bits (T.height / 2) 0 - 1).log2 ≤ (multipliersFor L bits ((T.height + 1) / 2) 0 - 1).log2 := by
        rw [Nat.log2_eq_log_two, Nat.log2_eq_log_two]
        exact Nat.log_mono_right (by omega)
      exact Nat.pow_le_pow_right (by norm_num) (by omega)
  have zE : sE'.size = sE.size := by
    rw [← f2.inv.sync.size, ← v2.inv.sync.size]
    unfold VState.size
    rw [q1.vars, q1.comms]
  have zO : sO'.size = sO.size := by
    rw [← f3.inv.sync.size, ← v3.inv.sync.size]
    unfold VState.size
    rw [q2.vars, q2.comms]
  have yE : sE'.vecOpen.length = sE.vecOpen.length := by
    have e1 := congrArg List.length f2.inv.sync.comms
    have e2 := congrArg List.length v2.inv.sync.comms
    rw [List.length_map] at e1 e2
    rw [← e1, ← e2, q1.comms]
  have yO : sO'.vecOpen.length = sO.vecOpen.length := by
    have e1 := congrArg List.length f3.inv.sync.comms
    have e2 := congrArg List.length v3.inv.sync.comms
    rw [List.length_map] at e1 e2
    rw [← e1, ← e2, q2.comms]
  refine ⟨_, sE', sO', tE', tO', by unfold forgeMembership; simp only [h1]; exact f8, rfl, f1, ?_, ?_⟩
  · exact rejectedAtMost (hcG _) (hcH _) (hB _) (hbl _) f2 f6 f4 (zE.trans c1) (pow2.trans (hcap false)) (mono.trans h31) (by rw [yE, a2]; omega) (hden _)
  · exact rejectedAtMost (hcG _) (hcH _) (hB _) (hbl _) f3 f7 f5 (zO.trans c2) (hcap true) h31 (by rw [yO, b2]; omega) (hden _)

end

/-- C22 is false of the code on the Pasta curves. For every tree, every leaf and every point `Q` of the Pallas curve but 259 of them, the forger, who is given no secret about `Q`, makes a path
with `Q` as the selected leaf and two proofs that the Verifier accepts: all but `6 height / 2 ^ 254` of the scalars work, and each of the two proofs is then rejected with probability at most
`200 / 2 ^ 254`. These are the same probabilities as for an honest Prover (`C72_pasta`). -/
theorem C22_pasta_forger {L M : Nat} [NeZero M] {prm : SelRerand PastaC} (hp : PastaParams prm)
    (htab : ∀ p, buildTables (PastaC p) (windows 255) (prm.h p) = some (prm.layer p).tables) (hg : prm.tree.EnoughGens L M) (hL : 2 ≤ L)
    (hcG : ∀ p, (prm.gens p).capacity ≤ (prm.gens p).Gs.length) (hcH : ∀ p, (prm.gens p).capacity ≤ (prm.gens p).Hs.length) (hB : ∀ p, (prm.gens p).pc.B ≠ 0)
    {set : List (PastaC false).Pt} {height : Option Nat} {fuel : Nat} {T : CurveTree L M (Pts PastaC)}
    (ht : fromSet prm.tree set height fuel = some (.ok T)) (hfuel : set.length + height.getD 0 ≤ fuel) (h0 : T.height ≠ 0) (h34 : T.height ≤ 34)
    (hcap : ∀ p, nextPow2 (multipliersFor L 255 ((T.height + 1) / 2) 0) ≤ (prm.gens p).capacity) (h31 : multipliersFor L 255 ((T.height + 1) / 2) 0 ≤ 2 ^ 31)
    {i : Nat} (hi : i < set.length) (hx0 : set[i] + (prm.layer false).delta ≠ 0)
    (hδ : ∀ nodes, T.witness prm.tree i 0 = .ok nodes → ∀ p (k : Nat) w, (nodes p)[k]? = some w → w.child + (prm.layer (!p)).delta ≠ 0)
    (o : ∀ p, SideO PastaC p) (dom : ∀ p, Transcript (PastaB (!p)) (PastaC p).Pt (PastaC (!p)).Pt) :
    ∃ bad : List (PastaC false).Pt, bad.length = 259 ∧ ∀ Q, Q ∉ bad →
      2 ^ 254 * {ω : PathScalars PastaB T.height | ¬ ForgeryWorks o prm dom T i Q (2 ^ 254) ω}.ncard ≤ 6 * T.height * Fintype.card (PathScalars PastaB T.height) := by
  have hv : prm.Valid :=
    ⟨fun p => by cases p <;> rfl, fun p => by rw [hp.lambda]; exact htab p, fun p => by rw [hp.lambda]; decide, hp.cast, fun p x => by
      rw [hp.lambda]
      have h1 := hp.lt (!p) x
      have h2 := (pasta_facts (!p)).1.2
      have h3 : 4001 * 8 ^ 84 ≤ 1000 * 2 ^ 255 := by norm_num
      exact h1.trans (Nat.lt_of_mul_lt_mul_left (h2.trans_le h3))⟩
  exact C22_forger (den := 2 ^ 254) hv hp.lambda (by norm_num) hg hL hcG hcH hB hp.base ht hfuel h0 h34 hcap h31 hi hx0 hδ
    (fun p => pasta_exceptional (hp.lambda p) ((pasta_facts p).2 _ (hp.base p)) (pasta_facts _).1.1 (pasta_facts _).1.2 (hp.cast _) (hp.lt _))
    (fun p => le_trans (by norm_num) (pasta_facts p).1.1.le) o dom

/-- C22 is false of the code on secp256k1 and secq256k1: likewise for all points but 259, with `2 ^ 255`. -/
theorem C22_secp_forger {L M : Nat} [NeZero M] {prm : SelRerand SecpC} (hp : SecpParams prm)
    (htab : ∀ p, buildTables (SecpC p) (windows 256) (prm.h p) = some (prm.layer p).tables) (hg : prm.tree.EnoughGens L M) (hL : 2 ≤ L)
    (hcG : ∀ p, (prm.gens p).capacity ≤ (prm.gens p).Gs.length) (hcH : ∀ p, (prm.gens p).capacity ≤ (prm.gens p).Hs.length) (hB : ∀ p, (prm.gens p).pc.B ≠ 0)
    {set : List (SecpC false).Pt} {height : Option Nat} {fuel : Nat} {T : CurveTree L M (Pts SecpC)}
    (ht : fromSet prm.tree set height fuel = some (.ok T)) (hfuel : set.length + height.getD 0 ≤ fuel) (h0 : T.height ≠ 0) (h34 : T.height ≤ 34)
    (hcap : ∀ p, nextPow2 (multipliersFor L 256 ((T.height + 1) / 2) 0) ≤ (prm.gens p).capacity) (h31 : multipliersFor L 256 ((T.height + 1) / 2) 0 ≤ 2 ^ 31)
    {i : Nat} (hi : i < set.length) (hx0 : set[i] + (prm.layer false).delta ≠ 0)
    (hδ : ∀ nodes, T.witness prm.tree i 0 = .ok nodes → ∀ p (k : Nat) w, (nodes p)[k]? = some w → w.child + (prm.layer (!p)).delta ≠ 0)
    (o : ∀ p, SideO SecpC p) (dom : ∀ p, Transcript (SecpB (!p)) (SecpC p).Pt (SecpC (!p)).Pt) :
    ∃ bad : List (SecpC false).Pt, bad.length = 259 ∧ ∀ Q, Q ∉ bad →
      2 ^ 255 * {ω : PathScalars SecpB T.height | ¬ ForgeryWorks o prm dom T i Q (2 ^ 255) ω}.ncard ≤ 6 * T.height * Fintype.card (PathScalars SecpB T.height) := by
  have hv : prm.Valid :=
    ⟨fun p => by cases p <;> rfl, fun p => by rw [hp.lambda]; exact htab p, fun p => by rw [hp.lambda]; decide, hp.cast, fun p x => by
      rw [hp.lambda]
      have h1 := hp.lt (!p) x
      have h2 := (secp_facts (!p)).1.2
      exact h1.trans (h2.trans_le (by norm_num))⟩
  exact C22_forger (den := 2 ^ 255) hv hp.lambda (by norm_num) hg hL hcG hcH hB hp.base ht hfuel h0 h34 hcap h31 hi hx0 hδ
    (fun p => secp_exceptional (hp.lambda p) ((secp_facts p).2 _ (hp.base p)) (secp_facts _).1.1 (secp_facts _).1.2 (hp.cast _) (hp.lt _))
    (fun p => by
      have := (secp_facts p).1.1
      have h2 : 1000 * 2 ^ 255 ≤ 15999 * 8 ^ 84 := by norm_num
      exact Nat.le_of_mul_le_mul_left (h2.trans this.le) (by norm_num)) o dom

/-- Non-vacuity of `C22_pasta_forger`: the second leaf of a tree with two leaves on Pallas. -/
example (o : ∀ p, SideO PastaC p) : ∃ T : CurveTree 2 1 (Pts PastaC), fromSet pastaLarge.tree pastaSet (some 1) 3 = some (.ok T) ∧ T.height = 1 ∧
    ∃ bad : List (PastaC false).Pt, bad.length = 259 ∧ ∀ Q, Q ∉ bad →
      2 ^ 254 * {ω : PathScalars PastaB T.height | ¬ ForgeryWorks o pastaLarge (fun _ => []) T 1 Q (2 ^ 254) ω}.ncard ≤ 6 * Fintype.card (PathScalars PastaB T.height) := by
  obtain ⟨T, h1, h2, h3⟩ := pastaLarge_tree
  have hm : multipliersFor 2 255 ((T.height + 1) / 2) 0 = 911 := by rw [h2]; rfl
  obtain ⟨bad, hb, h⟩ := C22_pasta_forger pastaLarge_params pastaLarge_tables (L := 2) (M := 1) (fun p => Nat.le_add_left _ _) le_rfl
    (fun p => (pastaLarge_length p).1.ge) (fun p => (pastaLarge_length p).2.ge) pastaLarge_params.base h1 le_rfl (by omega) (by omega)
    (fun p => by rw [hm]; exact le_of_eq (by decide +kernel : nextPow2 911 = 1024)) (by rw [hm]; norm_num) (i := 1) (by decide)
    (by
      have := pasta_multiple (k := 2 + 1) (by norm_num [pallasOrder]) (by decide)
      rw [succ_nsmul] at this
      exact this) h3 o (fun _ => [])
  exact ⟨T, h1, h2, bad, hb, fun Q hQ => (h Q hQ).trans_eq (by rw [h2, Nat.mul_one])⟩

/-- Non-vacuity of `C22_secp_forger`: likewise on secp256k1. -/
example (o : ∀ p, SideO SecpC p) : ∃ T : CurveTree 2 1 (Pts SecpC), fromSet secpLarge.tree secpSet (some 1) 3 = some (.ok T) ∧ T.height = 1 ∧
    ∃ bad : List (SecpC false).Pt, bad.length = 259 ∧ ∀ Q, Q ∉ bad →
      2 ^ 255 * {ω : PathScalars SecpB T.height | ¬ ForgeryWorks o secpLarge (fun _ => []) T 1 Q (2 ^ 255) ω}.ncard ≤ 6 * Fintype.card (PathScalars SecpB T.height) := by
  obtain ⟨T, h1, h2, h3⟩ := secpLarge_tree
  have hm : multipliersFor 2 256 ((T.height + 1) / 2) 0 = 911 := by rw [h2]; rfl
  obtain ⟨bad, hb, h⟩ := C22_secp_forger secpLarge_params secpLarge_tables (L := 2) (M := 1) (fun p => Nat.le_add_left _ _) le_rfl
    (fun p => (secpLarge_length p).1.ge) (fun p => (secpLarge_length p).2.ge) secpLarge_params.base h1 le_rfl (by omega) (by omega)
    (fun p => by rw [hm]; exact le_of_eq (by decide +kernel : nextPow2 911 = 1024)) (by rw [hm]; norm_num) (i := 1) (by decide)
    (by
      have := secp_multiple (k := 2 + 1) (by norm_num [secpOrder]) (by decide)
      rw [succ_nsmul] at this
      exact this) h3 o (fun _ => [])
  exact ⟨T, h1, h2, bad, hb, fun Q hQ => (h Q hQ).trans_eq (by rw [h2, Nat.mul_one])⟩

end CT
