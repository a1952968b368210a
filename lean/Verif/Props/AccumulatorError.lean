import Verif.Props.MembershipError
import Verif.Props.Accumulator
import Verif.Proofs.Theft
import Verif.Proofs.PaymentError

/-!
# C72 and C58 for the accumulator

How often an honest proof that an element is in the accumulator fails, and how often a forged one succeeds.
-/

namespace CT

section
variable {B : Bool → Type} [∀ p, Field (B p)] [∀ p, DecidableEq (B p)] {C : ∀ p, SWCurve (B p)} [∀ p, Module (B (!p)) (C p).Pt] {L M bits : Nat}

/-- Multipliers of the circuit of each curve, for a tree of height `D` and leaves with `width` elements. On the even curve one of the elements is selected too. -/
def accCircuit (L bits D width : Nat) : Bool → Nat
  | false => max width (multipliersFor L bits (D / 2) (width - 1))
  | true => multipliersFor L bits ((D + 1) / 2) 0

/-- The size of the circuit on the even curve after the leaf is opened and an element selected. -/
theorem acc_even_size {D : Nat} {tr : Transcript (B (!false)) (C false).Pt (C (!false)).Pt} {s1 s2 s3 : SideP C false}
    (k1 : PState.Gets (.new tr) s1 (levelGates L bits * (D / 2)) (levelAllocations bits * (D / 2)) ((D - 1) / 2) L)
    {g : Gens (C false).Pt} {ys : List (B (!false))} {r : B (!false)} {leaf : (C false).Pt} {vars : List Variable} (hc : s1.commitVec g ys r = .ok ((leaf, vars), s2))
    {o : SideO C false} {element : B (!false)} (hs : runP o (select (LC.const element) (vars.map LC.ofVar)) s2 = .ok ((), s3)) :
    s3.size = accCircuit L bits D ys.length false ∧ s3.vecOpen.length = (D - 1) / 2 + 1 ∧ s3.deferred = [] := by
  obtain ⟨c1, c2⟩ := commitVec_gets hc
  have d1 := (costs_select (LC.const element) (vars.map LC.ofVar)).gets hs
  have hlen : vars.length = ys.length := c2
  rw [List.length_map, hlen] at d1
  have lv : ∀ k, k ≠ 0 → L ≤ levelGates L bits * k + (levelAllocations bits * k + 1) / 2 := by
    intro k hk
    have : L ≤ levelGates L bits * k := (by unfold levelGates; omega : L ≤ levelGates L bits).trans (Nat.le_mul_of_pos_right _ (by omega))
    omega
  have k1' : PState.Gets _ s1 _ _ _ (if D / 2 = 0 then 0 else L) := k1.cast rfl rfl rfl (by
    by_cases h : D / 2 = 0
    · exact .inl (by omega)
    · rw [if_neg h]; exact .inr le_rfl)
  obtain ⟨a1, a2, a3, a4⟩ := ((k1'.trans c1).trans d1).fresh
  have a5 : s3.aL.length = multipliersFor L bits (D / 2) (ys.length - 1) := by
    rw [a1]; unfold multipliersFor; simp only [Nat.add_zero]
  refine ⟨?_, by omega, a3⟩
  refine PState.size_of_max (by rw [a5]; exact le_max_right _ _) (fun v hv => ?_) ?_
  · have := a4 v hv
    simp only [accCircuit]
    by_cases h : D / 2 = 0
    · rw [if_pos h] at this; omega
    · rw [if_neg h] at this
      have := lv _ h
      unfold multipliersFor
      omega
  · simp only [accCircuit]
    rcases le_total ys.length (multipliersFor L bits (D / 2) (ys.length - 1)) with h | h
    · exact .inl (by rw [a5]; omega)
    · refine .inr ⟨(r, ys), ?_, by simp only; omega⟩
      obtain ⟨-, e, -⟩ := (costs_select (LC.const element) (vars.map LC.ofVar)).runP_frame _ hs
      rw [e]
      unfold PState.commitVec at hc
      simp only at hc
      split at hc
      · cases hc
      cases hc
      simp

omit [∀ p, DecidableEq (B p)] [∀ p, Module (B (!p)) (C p).Pt] in
theorem levels_size {D : Nat} (h0 : D ≠ 0) {tr : Transcript (B (!true)) (C true).Pt (C (!true)).Pt} {s : SideP C true}
    (k2 : PState.Gets (.new tr) s (levelGates L bits * ((D + 1) / 2)) (levelAllocations bits * ((D + 1) / 2)) (D / 2) L) (width : Nat) :
    s.size = accCircuit L bits D width true ∧ s.vecOpen.length = D / 2 ∧ s.deferred = [] := by
  obtain ⟨b1, b2, b3, -⟩ := k2.fresh
  refine ⟨k2.size (.inr ?_), b2, b3⟩
  have : L ≤ levelGates L bits * ((D + 1) / 2) := (by unfold levelGates; omega : L ≤ levelGates L bits).trans (Nat.le_mul_of_pos_right _ (by omega))
  omega

variable [∀ p, Fintype (B p)] [NeZero M]

/-- An honest proof that `element` is in the accumulator works: with the scalars `ω` both Provers are set up for leaf `i` with the elements `ys`, both Verifiers accept the path, and on both curves the proof of the
resulting statement is rejected with probability at most `200 / Q`. -/
def AccumulatorWorks (o : ∀ p, SideO C p) (fx : Bool) (prm : SelRerand C) (dom : ∀ p, Transcript (B (!p)) (C p).Pt (C (!p)).Pt) (T : CurveTree L M (Pts C)) (i : Nat)
    (ys : List (B (!false))) (element : B (!false)) (Q : Nat) (ω : PathScalars B T.height) : Prop :=
  ∃ path sE sO tE tO, accProvers o fx prm T dom ω.stream i ys element = .ok (path, sE, sO) ∧ accVerifiers o fx prm T dom ys.length element path = .ok (tE, tO) ∧
    RejectedAtMost (F := B (!false)) (prm.gens false) sE tE 200 Q ∧ RejectedAtMost (F := B (!true)) (prm.gens true) sO tO 200 Q

/-- **C72** for the accumulator: for every tree made by `from_set`, of height between 1 and 34, every leaf that is made of the elements `ys` (with no node equal to `-Δ` on its path), every element of `ys` and
generators that are enough for the circuits of C65, all but a share of `(e + 2) height / Q` of the scalars work. -/
theorem C72_fresh_accumulator {prm : SelRerand C} (hv : prm.Valid) (hb : ∀ p, (prm.layer p).lambda = bits) (h3 : 3 ≤ bits) (hg : prm.tree.EnoughGens L M) (hL : 2 ≤ L)
    (hcG : ∀ p, (prm.gens p).capacity ≤ (prm.gens p).Gs.length) (hcH : ∀ p, (prm.gens p).capacity ≤ (prm.gens p).Hs.length)
    (hB : ∀ p, (prm.gens p).pc.B ≠ 0) (hbl : ∀ p, prm.h p ≠ 0)
    {set : List (C false).Pt} {height : Option Nat} {fuel : Nat} {T : CurveTree L M (Pts C)}
    (ht : fromSet prm.tree set height fuel = some (.ok T)) (hfuel : set.length + height.getD 0 ≤ fuel) (h0 : T.height ≠ 0) (h34 : T.height ≤ 34)
    {i : Nat} (hi : i < set.length) {ys : List (B (!false))} (hys : accLeaf prm ys = some set[i]) {element : B (!false)} (hel : element ∈ ys)
    (hcap : ∀ p, nextPow2 (accCircuit L bits T.height ys.length p) ≤ (prm.gens p).capacity) (h31 : ∀ p, accCircuit L bits T.height ys.length p ≤ 2 ^ 31)
    (hδ : ∀ nodes, T.witness prm.tree i 0 = .ok nodes → ∀ p (k : Nat) w, (nodes p)[k]? = some w → w.child + (prm.layer (!p)).delta ≠ 0)
    {e Q : Nat} (he : ∀ p, {r : B (!p) | prm.Exceptional p r}.ncard ≤ e) (hQ : ∀ p, Q ≤ Fintype.card (B p))
    (o : ∀ p, SideO C p) (fx : Bool) (dom : ∀ p, Transcript (B (!p)) (C p).Pt (C (!p)).Pt) :
    Q * {ω : PathScalars B T.height | ¬ AccumulatorWorks o fx prm dom T i ys element Q ω}.ncard ≤ (e + 2) * T.height * Fintype.card (PathScalars B T.height) := by
  refine le_trans (Nat.mul_le_mul_left _ (Set.ncard_le_ncard ?_)) (C70_usable hg hL hbl ht hfuel hi hδ he hQ)
  intro ω hω hs
  refine hω ?_
  obtain ⟨nodes, h1, h2⟩ := C26_witness_partial hg hL ht hfuel 0 hi
  have hM : 1 ≤ M := Nat.one_le_iff_ne_zero.2 (NeZero.ne M)
  obtain ⟨path, r, sE1, sO, k1, k2, k3, k4, k5, -⟩ := path_complete (o false) (o true) fx hv
    (fun p => le_trans (Nat.le_mul_of_pos_right L hM) (hg p)) h2 (rnd := ω.stream) (hs.avoids nodes h1) (new_good' (dom false)) (new_good' (dom true))
  obtain ⟨l1, l2⟩ := pathTo_lengths h2
  obtain ⟨tE1, tO, v1, v2, v3⟩ := path_session h2 h0 (fun j hj => hs.even j (by omega)) (fun j hj => hs.odd j (by omega)) (.new (dom false)) (.new (dom true)) k1
  have hpr : treeProverGadget (o false) (o true) fx prm ω.stream T i 0 (.new (dom false)) (.new (dom true)) = .ok ((path, r), sE1, sO) := by
    unfold treeProverGadget; simp only [h1]; exact k1
  have hsel := selected_of_verifier v1
  obtain ⟨hlen, hleaf⟩ := accLeaf_eq hys
  rw [hleaf] at hsel
  rw [← selected_of_verifier v1] at v1
  obtain ⟨vars, s1, sE, tE, c1, c2, c3, c4, c5, -⟩ := acc_finish v1 v2 v3 k2 k3 k4 k5 hlen hel (r := r) (by rw [hsel, msm_cons, add_comm]; rfl)
  have hprov : accProvers o fx prm T dom ω.stream i ys element = .ok (path, sE, sO) := by
    unfold accProvers
    simp only [hpr, c1, if_true, c2]
  obtain ⟨g1, g2, -, -⟩ := treeProver_gets hb h3 hg hL ht hfuel h0 hs.even hs.odd hpr
  obtain ⟨a1, a2, a3⟩ := acc_even_size g1 c1 c2
  obtain ⟨b1, b2, b3⟩ := levels_size h0 g2 ys.length
  refine ⟨path, sE, sO, tE, tO, hprov, c5, ?_, ?_⟩
  · exact rejectedAtMost (hcG _) (hcH _) (hB _) (hbl _) c4 a3 c3 a1 (hcap false) (h31 false) (by rw [a2]; omega) (hQ _)
  · exact rejectedAtMost (hcG _) (hcH _) (hB _) (hbl _) v3 b3 k3 b1 (hcap true) (h31 true) (by rw [b2]; omega) (hQ _)

/-! ## The forger -/

omit [∀ p, Fintype (B p)] in
/-- The forger of proofs for the accumulator. They take *any* vector `ys` with the element in it and commit to it with a blinding `r` of their own. With the stored witness of leaf `i`, which is public, they prove
that the commitment is the re-randomisation of this leaf, and then open it. -/
def forgeAccumulator (o : ∀ p, SideO C p) (prm : SelRerand C) (T : CurveTree L M (Pts C)) (dom : ∀ p, Transcript (B (!p)) (C p).Pt (C (!p)).Pt) (rnd : ∀ p, Nat → B (!p)) (i : Nat)
    (ys : List (B (!false))) (r element : B (!false)) : Except Err (Path (C false).Pt (C true).Pt × SideP C false × SideP C true) :=
  match forgeMembership (o false) (o true) prm rnd T i 0 (msm ((prm.gens false).pc.Bbl :: (prm.gens false).Gs.take ys.length) (r :: ys)) (.new (dom false)) (.new (dom true)) with
  | .error e => .error e
  | .ok (path, sE, sO) =>
    match sE.commitVec (prm.gens false) ys r with
    | .error e => .error e
    | .ok ((_, vars), sE) =>
      match runP (o false) (select (LC.const element) (vars.map LC.ofVar)) sE with
      | .error e => .error e
      | .ok (_, sE) => .ok (path, sE, sO)

/-- The forgery works: with the blinding `r` and the scalars `ω` the forger sets up both Provers, both Verifiers accept the path for the element, and on both curves the proof of the resulting statement is
rejected with probability at most `200 / den`. -/
def AccumulatorForged (o : ∀ p, SideO C p) (prm : SelRerand C) (dom : ∀ p, Transcript (B (!p)) (C p).Pt (C (!p)).Pt) (T : CurveTree L M (Pts C)) (i : Nat)
    (ys : List (B (!false))) (element : B (!false)) (den : Nat) (r : B (!false)) (ω : PathScalars B T.height) : Prop :=
  ∃ path sE sO tE tO, forgeAccumulator o prm T dom ω.stream i ys r element = .ok (path, sE, sO) ∧ accVerifiers o false prm T dom ys.length element path = .ok (tE, tO) ∧
    RejectedAtMost (F := B (!false)) (prm.gens false) sE tE 200 den ∧ RejectedAtMost (F := B (!true)) (prm.gens true) sO tO 200 den

/-- C58 is false of the code, with an explicit forger: for every tree made by `from_set`, of height between 1 and 34, every leaf (with no node equal to `-Δ` on its path), *every element* and every vector `ys` that
contains it, all but a share of `(3 windows + 1 + (e + 2) height) / den` of the forger's blindings and scalars convince the Verifiers that the element is in the accumulator. Nothing is assumed about the elements in the leaves. -/
theorem C58_forger {prm : SelRerand C} (hv : prm.Valid) (hb : ∀ p, (prm.layer p).lambda = bits) (h3 : 3 ≤ bits) (hg : prm.tree.EnoughGens L M) (hL : 2 ≤ L)
    (hcG : ∀ p, (prm.gens p).capacity ≤ (prm.gens p).Gs.length) (hcH : ∀ p, (prm.gens p).capacity ≤ (prm.gens p).Hs.length)
    (hB : ∀ p, (prm.gens p).pc.B ≠ 0) (hbl : ∀ p, prm.h p ≠ 0)
    {set : List (C false).Pt} {height : Option Nat} {fuel : Nat} {T : CurveTree L M (Pts C)}
    (ht : fromSet prm.tree set height fuel = some (.ok T)) (hfuel : set.length + height.getD 0 ≤ fuel) (h0 : T.height ≠ 0) (h34 : T.height ≤ 34)
    {i : Nat} (hi : i < set.length) (hx0 : set[i] + (prm.layer false).delta ≠ 0)
    {ys : List (B (!false))} {element : B (!false)} (hel : element ∈ ys) (hlen : ys.length ≤ (prm.gens false).Gs.length)
    (hcap : ∀ p, nextPow2 (accCircuit L bits T.height ys.length p) ≤ (prm.gens p).capacity) (h31 : ∀ p, accCircuit L bits T.height ys.length p ≤ 2 ^ 31)
    (hδ : ∀ nodes, T.witness prm.tree i 0 = .ok nodes → ∀ p (k : Nat) w, (nodes p)[k]? = some w → w.child + (prm.layer (!p)).delta ≠ 0)
    {e den : Nat} (he : ∀ p, {r : B (!p) | prm.Exceptional p r}.ncard ≤ e) (hden : ∀ p, den ≤ Fintype.card (B p))
    (o : ∀ p, SideO C p) (dom : ∀ p, Transcript (B (!p)) (C p).Pt (C (!p)).Pt) :
    den * {x : B (!false) × PathScalars B T.height | ¬ AccumulatorForged o prm dom T i ys element den x.1 x.2}.ncard ≤
      (3 * windows bits + 1 + (e + 2) * T.height) * Fintype.card (B (!false) × PathScalars B T.height) := by
  obtain ⟨bad, hbad, hatt⟩ := attackable_off (hv.tables false) hx0 0
  rw [hb] at hbad
  let Q : B (!false) → (C false).Pt := fun r => msm ((prm.gens false).pc.Bbl :: (prm.gens false).Gs.take ys.length) (r :: ys)
  have hinj : Function.Injective fun r => Q r + (prm.layer false).delta := by
    intro r r' hr
    have h1 : r • prm.h false = r' • prm.h false := by
      simp only [Q, msm_cons, add_left_inj] at hr
      exact hr
    have h2 : (r - r') • prm.h false = 0 := by rw [sub_smul, h1, sub_self]
    rcases smul_eq_zero.1 h2 with h | h
    · exact sub_eq_zero.1 h
    · exact absurd h (hbl false)
  refine ncard_stages _ {r | Q r + (prm.layer false).delta ∈ bad} ?_ fun r hr => ?_
  · have h1 : {r | Q r + (prm.layer false).delta ∈ bad}.ncard ≤ 3 * windows bits + 1 := by
      classical
      refine (Set.ncard_le_ncard_of_injOn (t := ((bad.toFinset : Finset (C false).Pt) : Set (C false).Pt)) (fun r => Q r + (prm.layer false).delta) (fun r hr => ?_) (hinj.injOn) (Set.toFinite _)).trans ?_
      · rw [Finset.mem_coe, List.mem_toFinset]; exact hr
      · rw [Set.ncard_coe_finset]; exact (List.toFinset_card_le _).trans hbad.le
    exact (Nat.mul_le_mul (hden _) h1).trans_eq (Nat.mul_comm _ _)
  obtain ⟨hat, hQ0⟩ := hatt (Q r + (prm.layer false).delta) hr
  refine le_trans (Nat.mul_le_mul_left _ (Set.ncard_le_ncard ?_)) (C70_usable hg hL hbl ht hfuel hi hδ he hden)
  intro ω hω hs
  refine hω ?_
  obtain ⟨nodes, h1, h2⟩ := C26_witness_partial hg hL ht hfuel 0 hi
  have hM : 1 ≤ M := Nat.one_le_iff_ne_zero.2 (NeZero.ne M)
  obtain ⟨l1, l2⟩ := pathTo_lengths h2
  obtain ⟨sE1, sO, tE1, tO, f1, f2, f3, f4, f5, f6, f7, -, f8⟩ := path_forge_at (o false) (o true) hv (fun p => le_trans (Nat.le_mul_of_pos_right L hM) (hg p)) h2 h0 (rnd := ω.stream)
    (fun j hj => hs.even j (by omega)) (fun j hj => hs.odd j (by omega)) (fun p k w hw _ => hs.avoids nodes h1 p k w hw) hQ0 hx0 hat (.new (dom false)) (.new (dom true))
    (new_good' (dom false)) (new_good' (dom true))
  have hfm : forgeMembership (o false) (o true) prm ω.stream T i 0 (Q r) (.new (dom false)) (.new (dom true)) = .ok ({ proverPath prm nodes ω.stream with selected := Q r }, sE1, sO) := by
    unfold forgeMembership; simp only [h1]; exact f8
  obtain ⟨vars, s1, sE, tE, c1, c2, c3, c4, c5, -⟩ := acc_finish (path := { proverPath prm nodes ω.stream with selected := Q r }) f1 f2 f3 f4 f5 f6 f7 hlen hel (r := r) rfl
  have hprov : forgeAccumulator o prm T dom ω.stream i ys r element = .ok ({ proverPath prm nodes ω.stream with selected := Q r }, sE, sO) := by
    unfold forgeAccumulator
    rw [hfm]
    simp only
    rw [c1]
    simp only
    rw [c2]
  obtain ⟨g1, g2, -, -⟩ := forgeMembership_gets hv hb h3 hg hL ht hfuel h0 hs.even hs.odd hfm
  obtain ⟨a1, a2, a3⟩ := acc_even_size g1 c1 c2
  obtain ⟨b1, b2, b3⟩ := levels_size h0 g2 ys.length
  refine ⟨_, sE, sO, tE, tO, hprov, c5, ?_, ?_⟩
  · exact rejectedAtMost (hcG _) (hcH _) (hB _) (hbl _) c4 a3 c3 a1 (hcap false) (h31 false) (by rw [a2]; omega) (hden _)
  · exact rejectedAtMost (hcG _) (hcH _) (hB _) (hbl _) f3 b3 f5 b1 (hcap true) (h31 true) (by rw [b2]; omega) (hden _)

end

/-- **C72** for the accumulator on the Pasta curves: an honest proof works but for `6 height / 2 ^ 254` of the scalars, and its two proofs are then rejected with probability at most `200 / 2 ^ 254` each. -/
theorem C72_pasta_accumulator {L M : Nat} [NeZero M] {prm : SelRerand PastaC} (hp : PastaParams prm)
    (htab : ∀ p, buildTables (PastaC p) (windows 255) (prm.h p) = some (prm.layer p).tables) (hg : prm.tree.EnoughGens L M) (hL : 2 ≤ L)
    (hcG : ∀ p, (prm.gens p).capacity ≤ (prm.gens p).Gs.length) (hcH : ∀ p, (prm.gens p).capacity ≤ (prm.gens p).Hs.length) (hB : ∀ p, (prm.gens p).pc.B ≠ 0)
    {set : List (PastaC false).Pt} {height : Option Nat} {fuel : Nat} {T : CurveTree L M (Pts PastaC)}
    (ht : fromSet prm.tree set height fuel = some (.ok T)) (hfuel : set.length + height.getD 0 ≤ fuel) (h0 : T.height ≠ 0) (h34 : T.height ≤ 34)
    {i : Nat} (hi : i < set.length) {ys : List (PastaB (!false))} (hys : accLeaf prm ys = some set[i]) {element : PastaB (!false)} (hel : element ∈ ys)
    (hcap : ∀ p, nextPow2 (accCircuit L 255 T.height ys.length p) ≤ (prm.gens p).capacity) (h31 : ∀ p, accCircuit L 255 T.height ys.length p ≤ 2 ^ 31)
    (hδ : ∀ nodes, T.witness prm.tree i 0 = .ok nodes → ∀ p (k : Nat) w, (nodes p)[k]? = some w → w.child + (prm.layer (!p)).delta ≠ 0)
    (o : ∀ p, SideO PastaC p) (fx : Bool) (dom : ∀ p, Transcript (PastaB (!p)) (PastaC p).Pt (PastaC (!p)).Pt) :
    2 ^ 254 * {ω : PathScalars PastaB T.height | ¬ AccumulatorWorks o fx prm dom T i ys element (2 ^ 254) ω}.ncard ≤ 6 * T.height * Fintype.card (PathScalars PastaB T.height) := by
  have hv : prm.Valid :=
    ⟨fun p => by cases p <;> rfl, fun p => by rw [hp.lambda]; exact htab p, fun p => by rw [hp.lambda]; decide, hp.cast, fun p x => by
      rw [hp.lambda]
      have h1 := hp.lt (!p) x
      have h2 := (pasta_facts (!p)).1.2
      have h3 : 4001 * 8 ^ 84 ≤ 1000 * 2 ^ 255 := by norm_num
      exact h1.trans (Nat.lt_of_mul_lt_mul_left (h2.trans_le h3))⟩
  exact C72_fresh_accumulator hv hp.lambda (by norm_num) hg hL hcG hcH hB hp.base ht hfuel h0 h34 hi hys hel hcap h31 hδ
    (fun p => pasta_exceptional (hp.lambda p) ((pasta_facts p).2 _ (hp.base p)) (pasta_facts _).1.1 (pasta_facts _).1.2 (hp.cast _) (hp.lt _))
    (fun p => le_trans (by norm_num) (pasta_facts p).1.1.le) o fx dom

/-- C58 is false of the code on the Pasta curves: for every tree, every leaf, *every element* and every vector that contains it, all but a share of `(259 + 6 height) / 2 ^ 254` of the forger's choices convince the Verifiers
that the element is in the accumulator, up to a probability of `200 / 2 ^ 254` for each of the two proofs. -/
theorem C58_pasta_forger {L M : Nat} [NeZero M] {prm : SelRerand PastaC} (hp : PastaParams prm)
    (htab : ∀ p, buildTables (PastaC p) (windows 255) (prm.h p) = some (prm.layer p).tables) (hg : prm.tree.EnoughGens L M) (hL : 2 ≤ L)
    (hcG : ∀ p, (prm.gens p).capacity ≤ (prm.gens p).Gs.length) (hcH : ∀ p, (prm.gens p).capacity ≤ (prm.gens p).Hs.length) (hB : ∀ p, (prm.gens p).pc.B ≠ 0)
    {set : List (PastaC false).Pt} {height : Option Nat} {fuel : Nat} {T : CurveTree L M (Pts PastaC)}
    (ht : fromSet prm.tree set height fuel = some (.ok T)) (hfuel : set.length + height.getD 0 ≤ fuel) (h0 : T.height ≠ 0) (h34 : T.height ≤ 34)
    {i : Nat} (hi : i < set.length) (hx0 : set[i] + (prm.layer false).delta ≠ 0)
    {ys : List (PastaB (!false))} {element : PastaB (!false)} (hel : element ∈ ys) (hlen : ys.length ≤ (prm.gens false).Gs.length)
    (hcap : ∀ p, nextPow2 (accCircuit L 255 T.height ys.length p) ≤ (prm.gens p).capacity) (h31 : ∀ p, accCircuit L 255 T.height ys.length p ≤ 2 ^ 31)
    (hδ : ∀ nodes, T.witness prm.tree i 0 = .ok nodes → ∀ p (k : Nat) w, (nodes p)[k]? = some w → w.child + (prm.layer (!p)).delta ≠ 0)
    (o : ∀ p, SideO PastaC p) (dom : ∀ p, Transcript (PastaB (!p)) (PastaC p).Pt (PastaC (!p)).Pt) :
    2 ^ 254 * {x : PastaB (!false) × PathScalars PastaB T.height | ¬ AccumulatorForged o prm dom T i ys element (2 ^ 254) x.1 x.2}.ncard ≤
      (259 + 6 * T.height) * Fintype.card (PastaB (!false) × PathScalars PastaB T.height) := by
  have hv : prm.Valid :=
    ⟨fun p => by cases p <;> rfl, fun p => by rw [hp.lambda]; exact htab p, fun p => by rw [hp.lambda]; decide, hp.cast, fun p x => by
      rw [hp.lambda]
      have h1 := hp.lt (!p) x
      have h2 := (pasta_facts (!p)).1.2
      have h3 : 4001 * 8 ^ 84 ≤ 1000 * 2 ^ 255 := by norm_num
      exact h1.trans (Nat.lt_of_mul_lt_mul_left (h2.trans_le h3))⟩
  exact C58_forger (den := 2 ^ 254) hv hp.lambda (by norm_num) hg hL hcG hcH hB hp.base ht hfuel h0 h34 hi hx0 hel hlen hcap h31 hδ
    (fun p => pasta_exceptional (hp.lambda p) ((pasta_facts p).2 _ (hp.base p)) (pasta_facts _).1.1 (pasta_facts _).1.2 (hp.cast _) (hp.lt _))
    (fun p => le_trans (by norm_num) (pasta_facts p).1.1.le) o dom

/-- **C72** for the accumulator on secp256k1 and secq256k1: an honest proof works but for `6 height / 2 ^ 255` of the scalars, and its two proofs are then rejected with probability at most `200 / 2 ^ 255` each. -/
theorem C72_secp_accumulator {L M : Nat} [NeZero M] {prm : SelRerand SecpC} (hp : SecpParams prm)
    (htab : ∀ p, buildTables (SecpC p) (windows 256) (prm.h p) = some (prm.layer p).tables) (hg : prm.tree.EnoughGens L M) (hL : 2 ≤ L)
    (hcG : ∀ p, (prm.gens p).capacity ≤ (prm.gens p).Gs.length) (hcH : ∀ p, (prm.gens p).capacity ≤ (prm.gens p).Hs.length) (hB : ∀ p, (prm.gens p).pc.B ≠ 0)
    {set : List (SecpC false).Pt} {height : Option Nat} {fuel : Nat} {T : CurveTree L M (Pts SecpC)}
    (ht : fromSet prm.tree set height fuel = some (.ok T)) (hfuel : set.length + height.getD 0 ≤ fuel) (h0 : T.height ≠ 0) (h34 : T.height ≤ 34)
    {i : Nat} (hi : i < set.length) {ys : List (SecpB (!false))} (hys : accLeaf prm ys = some set[i]) {element : SecpB (!false)} (hel : element ∈ ys)
    (hcap : ∀ p, nextPow2 (accCircuit L 256 T.height ys.length p) ≤ (prm.gens p).capacity) (h31 : ∀ p, accCircuit L 256 T.height ys.length p ≤ 2 ^ 31)
    (hδ : ∀ nodes, T.witness prm.tree i 0 = .ok nodes → ∀ p (k : Nat) w, (nodes p)[k]? = some w → w.child + (prm.layer (!p)).delta ≠ 0)
    (o : ∀ p, SideO SecpC p) (fx : Bool) (dom : ∀ p, Transcript (SecpB (!p)) (SecpC p).Pt (SecpC (!p)).Pt) :
    2 ^ 255 * {ω : PathScalars SecpB T.height | ¬ AccumulatorWorks o fx prm dom T i ys element (2 ^ 255) ω}.ncard ≤ 6 * T.height * Fintype.card (PathScalars SecpB T.height) := by
  have hv : prm.Valid :=
    ⟨fun p => by cases p <;> rfl, fun p => by rw [hp.lambda]; exact htab p, fun p => by rw [hp.lambda]; decide, hp.cast, fun p x => by
      rw [hp.lambda]
      have h1 := hp.lt (!p) x
      have h2 := (secp_facts (!p)).1.2
      exact h1.trans (h2.trans_le (by norm_num))⟩
  exact C72_fresh_accumulator hv hp.lambda (by norm_num) hg hL hcG hcH hB hp.base ht hfuel h0 h34 hi hys hel hcap h31 hδ
    (fun p => secp_exceptional (hp.lambda p) ((secp_facts p).2 _ (hp.base p)) (secp_facts _).1.1 (secp_facts _).1.2 (hp.cast _) (hp.lt _))
    (fun p => by
      have := (secp_facts p).1.1
      have h2 : 1000 * 2 ^ 255 ≤ 15999 * 8 ^ 84 := by norm_num
      exact Nat.le_of_mul_le_mul_left (h2.trans this.le) (by norm_num)) o fx dom

/-- C58 is false of the code on secp256k1 and secq256k1: for every tree, every leaf, *every element* and every vector that contains it, all but a share of `(259 + 6 height) / 2 ^ 255` of the forger's choices convince the Verifiers
that the element is in the accumulator, up to a probability of `200 / 2 ^ 255` for each of the two proofs. -/
theorem C58_secp_forger {L M : Nat} [NeZero M] {prm : SelRerand SecpC} (hp : SecpParams prm)
    (htab : ∀ p, buildTables (SecpC p) (windows 256) (prm.h p) = some (prm.layer p).tables) (hg : prm.tree.EnoughGens L M) (hL : 2 ≤ L)
    (hcG : ∀ p, (prm.gens p).capacity ≤ (prm.gens p).Gs.length) (hcH : ∀ p, (prm.gens p).capacity ≤ (prm.gens p).Hs.length) (hB : ∀ p, (prm.gens p).pc.B ≠ 0)
    {set : List (SecpC false).Pt} {height : Option Nat} {fuel : Nat} {T : CurveTree L M (Pts SecpC)}
    (ht : fromSet prm.tree set height fuel = some (.ok T)) (hfuel : set.length + height.getD 0 ≤ fuel) (h0 : T.height ≠ 0) (h34 : T.height ≤ 34)
    {i : Nat} (hi : i < set.length) (hx0 : set[i] + (prm.layer false).delta ≠ 0)
    {ys : List (SecpB (!false))} {element : SecpB (!false)} (hel : element ∈ ys) (hlen : ys.length ≤ (prm.gens false).Gs.length)
    (hcap : ∀ p, nextPow2 (accCircuit L 256 T.height ys.length p) ≤ (prm.gens p).capacity) (h31 : ∀ p, accCircuit L 256 T.height ys.length p ≤ 2 ^ 31)
    (hδ : ∀ nodes, T.witness prm.tree i 0 = .ok nodes → ∀ p (k : Nat) w, (nodes p)[k]? = some w → w.child + (prm.layer (!p)).delta ≠ 0)
    (o : ∀ p, SideO SecpC p) (dom : ∀ p, Transcript (SecpB (!p)) (SecpC p).Pt (SecpC (!p)).Pt) :
    2 ^ 255 * {x : SecpB (!false) × PathScalars SecpB T.height | ¬ AccumulatorForged o prm dom T i ys element (2 ^ 255) x.1 x.2}.ncard ≤
      (259 + 6 * T.height) * Fintype.card (SecpB (!false) × PathScalars SecpB T.height) := by
  have hv : prm.Valid :=
    ⟨fun p => by cases p <;> rfl, fun p => by rw [hp.lambda]; exact htab p, fun p => by rw [hp.lambda]; decide, hp.cast, fun p x => by
      rw [hp.lambda]
      have h1 := hp.lt (!p) x
      have h2 := (secp_facts (!p)).1.2
      exact h1.trans (h2.trans_le (by norm_num))⟩
  exact C58_forger (den := 2 ^ 255) hv hp.lambda (by norm_num) hg hL hcG hcH hB hp.base ht hfuel h0 h34 hi hx0 hel hlen hcap h31 hδ
    (fun p => secp_exceptional (hp.lambda p) ((secp_facts p).2 _ (hp.base p)) (secp_facts _).1.1 (secp_facts _).1.2 (hp.cast _) (hp.lt _))
    (fun p => by
      have := (secp_facts p).1.1
      have h2 : 1000 * 2 ^ 255 ≤ 15999 * 8 ^ 84 := by norm_num
      exact Nat.le_of_mul_le_mul_left (h2.trans this.le) (by norm_num)) o dom

section Example

theorem leaf_sum {F V : Type} [Field F] [AddCommGroup V] [Module F V] (g : V) (l : List V) :
    msm ((g :: 3 • g :: l).take ([-1, 1] : List F).length) [(-1 : F), 1] = 2 • g := by
  change msm [g, 3 • g] [(-1 : F), 1] = 2 • g
  rw [msm_cons, msm_cons, neg_smul, one_smul, one_smul, show (3 : Nat) = 2 + 1 from rfl, succ_nsmul]
  simp [msm]

/-- The second leaf of the tree is made of the elements -1 and 1. -/
theorem pastaLarge_leaf : accLeaf pastaLarge [-1, 1] = some (pastaSet[1]'(by decide)) := by
  have h1 : ([-1, 1] : List (PastaB (!false))).length ≤ (pastaLarge.gens false).Gs.length := by rw [(pastaLarge_length false).1]; decide
  rw [accLeaf_some h1]
  have h2 : (pastaLarge.gens false).Gs = pastaGen false :: 3 • pastaGen false :: List.replicate 1022 (pastaGen false) := rfl
  rw [h2, leaf_sum]
  rfl

/-- Non-vacuity of `C72_pasta_accumulator`: the element 1 of the second leaf. -/
example (o : ∀ p, SideO PastaC p) : ∃ T : CurveTree 2 1 (Pts PastaC), fromSet pastaLarge.tree pastaSet (some 1) 3 = some (.ok T) ∧ T.height = 1 ∧
    2 ^ 254 * {ω : PathScalars PastaB T.height | ¬ AccumulatorWorks o false pastaLarge (fun _ => []) T 1 [-1, 1] 1 (2 ^ 254) ω}.ncard ≤ 6 * Fintype.card (PathScalars PastaB T.height) := by
  obtain ⟨T, h1, h2, h3⟩ := pastaLarge_tree
  have hm : ∀ p, accCircuit 2 255 T.height ([-1, 1] : List (PastaB (!false))).length p ≤ 911 ∧ nextPow2 (accCircuit 2 255 T.height ([-1, 1] : List (PastaB (!false))).length p) ≤ 1024 := by
    rw [h2]; intro p; cases p <;> exact ⟨by decide +kernel, by decide +kernel⟩
  have := C72_pasta_accumulator pastaLarge_params pastaLarge_tables (L := 2) (M := 1) (fun p => Nat.le_add_left _ _) le_rfl
    (fun p => (pastaLarge_length p).1.ge) (fun p => (pastaLarge_length p).2.ge) pastaLarge_params.base h1 le_rfl (by omega) (by omega) (i := 1) (by decide) pastaLarge_leaf
    (element := 1) (by simp) (fun p => (hm p).2) (fun p => (hm p).1.trans (by norm_num)) h3 o false (fun _ => [])
  exact ⟨T, h1, h2, this.trans_eq (by rw [h2, Nat.mul_one])⟩

/-- Non-vacuity of `C58_pasta_forger`: a proof that 7 is in the accumulator. -/
example (o : ∀ p, SideO PastaC p) : ∃ T : CurveTree 2 1 (Pts PastaC), fromSet pastaLarge.tree pastaSet (some 1) 3 = some (.ok T) ∧ T.height = 1 ∧
    2 ^ 254 * {x : PastaB (!false) × PathScalars PastaB T.height | ¬ AccumulatorForged o pastaLarge (fun _ => []) T 1 [7] 7 (2 ^ 254) x.1 x.2}.ncard ≤
      265 * Fintype.card (PastaB (!false) × PathScalars PastaB T.height) := by
  obtain ⟨T, h1, h2, h3⟩ := pastaLarge_tree
  have hm : ∀ p, accCircuit 2 255 T.height ([7] : List (PastaB (!false))).length p ≤ 911 ∧ nextPow2 (accCircuit 2 255 T.height ([7] : List (PastaB (!false))).length p) ≤ 1024 := by
    rw [h2]; intro p; cases p <;> exact ⟨by decide +kernel, by decide +kernel⟩
  have := C58_pasta_forger pastaLarge_params pastaLarge_tables (L := 2) (M := 1) (fun p => Nat.le_add_left _ _) le_rfl
    (fun p => (pastaLarge_length p).1.ge) (fun p => (pastaLarge_length p).2.ge) pastaLarge_params.base h1 le_rfl (by omega) (by omega) (i := 1) (by decide)
    (by
      have := pasta_multiple (k := 2 + 1) (by norm_num [pallasOrder]) (by decide)
      rw [succ_nsmul] at this
      exact this) (ys := [7]) (element := 7) (by simp) (by rw [(pastaLarge_length false).1]; exact Nat.le_of_ble_eq_true rfl) (fun p => (hm p).2) (fun p => (hm p).1.trans (by norm_num)) h3 o (fun _ => [])
  rw [show 259 + 6 * T.height = 265 by omega] at this
  exact ⟨T, h1, h2, this⟩

/-- The second leaf of the tree is made of the elements -1 and 1. -/
theorem secpLarge_leaf : accLeaf secpLarge [-1, 1] = some (secpSet[1]'(by decide)) := by
  have h1 : ([-1, 1] : List (SecpB (!false))).length ≤ (secpLarge.gens false).Gs.length := by rw [(secpLarge_length false).1]; decide
  rw [accLeaf_some h1]
  have h2 : (secpLarge.gens false).Gs = secpGen false :: 3 • secpGen false :: List.replicate 1022 (secpGen false) := rfl
  rw [h2, leaf_sum]
  rfl

/-- Non-vacuity of `C72_secp_accumulator`: the element 1 of the second leaf. -/
example (o : ∀ p, SideO SecpC p) : ∃ T : CurveTree 2 1 (Pts SecpC), fromSet secpLarge.tree secpSet (some 1) 3 = some (.ok T) ∧ T.height = 1 ∧
    2 ^ 255 * {ω : PathScalars SecpB T.height | ¬ AccumulatorWorks o false secpLarge (fun _ => []) T 1 [-1, 1] 1 (2 ^ 255) ω}.ncard ≤ 6 * Fintype.card (PathScalars SecpB T.height) := by
  obtain ⟨T, h1, h2, h3⟩ := secpLarge_tree
  have hm : ∀ p, accCircuit 2 256 T.height ([-1, 1] : List (SecpB (!false))).length p ≤ 911 ∧ nextPow2 (accCircuit 2 256 T.height ([-1, 1] : List (SecpB (!false))).length p) ≤ 1024 := by
    rw [h2]; intro p; cases p <;> exact ⟨by decide +kernel, by decide +kernel⟩
  have := C72_secp_accumulator secpLarge_params secpLarge_tables (L := 2) (M := 1) (fun p => Nat.le_add_left _ _) le_rfl
    (fun p => (secpLarge_length p).1.ge) (fun p => (secpLarge_length p).2.ge) secpLarge_params.base h1 le_rfl (by omega) (by omega) (i := 1) (by decide) secpLarge_leaf
    (element := 1) (by simp) (fun p => (hm p).2) (fun p => (hm p).1.trans (by norm_num)) h3 o false (fun _ => [])
  exact ⟨T, h1, h2, this.trans_eq (by rw [h2, Nat.mul_one])⟩

/-- Non-vacuity of `C58_secp_forger`: a proof that 7 is in the accumulator. -/
example (o : ∀ p, SideO SecpC p) : ∃ T : CurveTree 2 1 (Pts SecpC), fromSet secpLarge.tree secpSet (some 1) 3 = some (.ok T) ∧ T.height = 1 ∧
    2 ^ 255 * {x : SecpB (!false) × PathScalars SecpB T.height | ¬ AccumulatorForged o secpLarge (fun _ => []) T 1 [7] 7 (2 ^ 255) x.1 x.2}.ncard ≤
      265 * Fintype.card (SecpB (!false) × PathScalars SecpB T.height) := by
  obtain ⟨T, h1, h2, h3⟩ := secpLarge_tree
  have hm : ∀ p, accCircuit 2 256 T.height ([7] : List (SecpB (!false))).length p ≤ 911 ∧ nextPow2 (accCircuit 2 256 T.height ([7] : List (SecpB (!false))).length p) ≤ 1024 := by
    rw [h2]; intro p; cases p <;> exact ⟨by decide +kernel, by decide +kernel⟩
  have := C58_secp_forger secpLarge_params secpLarge_tables (L := 2) (M := 1) (fun p => Nat.le_add_left _ _) le_rfl
    (fun p => (secpLarge_length p).1.ge) (fun p => (secpLarge_length p).2.ge) secpLarge_params.base h1 le_rfl (by omega) (by omega) (i := 1) (by decide)
    (by
      have := secp_multiple (k := 2 + 1) (by norm_num [secpOrder]) (by decide)
      rw [succ_nsmul] at this
      exact this) (ys := [7]) (element := 7) (by simp) (by rw [(secpLarge_length false).1]; exact Nat.le_of_ble_eq_true rfl) (fun p => (hm p).2) (fun p => (hm p).1.trans (by norm_num)) h3 o (fun _ => [])
  rw [show 259 + 6 * T.height = 265 by omega] at this
  exact ⟨T, h1, h2, this⟩

end Example

end CT
