import Verif.Model.Secp
import Verif.Props.Pasta

/-!
# C71, C19 and C70 for secp256k1 and secq256k1
-/

namespace CT

/-- **C71**: secp256k1 and secq256k1 are a cycle of prime order curves. -/
theorem C71_secp_cycle : secpOrder.Prime ∧ secqOrder.Prime ∧ Nat.card secp.Pt = secpOrder ∧ Nat.card secq.Pt = secqOrder :=
  ⟨Fact.out, Fact.out, secp_card, secq_card⟩

/-- **C71**, no cofactor: every point of secp256k1 is a multiple of every other point except the identity. -/
theorem C71_secp_generator (h : secp.Pt) (h0 : h ≠ 0) : addOrderOf h = secpOrder ∧ ∀ P : secp.Pt, ∃ k < secpOrder, P = k • h :=
  generates Fact.out secp_card h0

/-- **C71**, no cofactor, for secq256k1. -/
theorem C71_secq_generator (h : secq.Pt) (h0 : h ≠ 0) : addOrderOf h = secqOrder ∧ ∀ P : secq.Pt, ∃ k < secqOrder, P = k • h :=
  generates Fact.out secq_card h0

/-- The generators of the two crates. -/
example : secpG ≠ 0 ∧ secqG ≠ 0 := ⟨WeierstrassCurve.Affine.Point.some_ne_zero _, WeierstrassCurve.Affine.Point.some_ne_zero _⟩

theorem secp_range : (15999 * 8 ^ 84 < 1000 * secpOrder ∧ secpOrder < 16 * 8 ^ 84) ∧ 15999 * 8 ^ 84 < 1000 * secqOrder ∧ secqOrder < 16 * 8 ^ 84 := by
  norm_num [secpOrder, secqOrder]

/-- **C19** for base points whose order `q` lies just below `2^256`, with 256-bit scalars: `build_tables` succeeds, and for all scalars `r < q` outside an explicit list of
four, and all `P` with `P ≠ ±r·h`, the honest Prover succeeds. -/
theorem C19_near_256_partial {F G X : Type} [Field F] [DecidableEq F] (o : Oracle F G X) (C : SWCurve F) (fx : Bool) {h : C.Pt} {q : Nat} (ho : addOrderOf h = q)
    (hq : 15999 * 8 ^ 84 < 1000 * q) (hq2 : q < 16 * 8 ^ 84) :
    ∃ ts, buildTables C (windows 256) h = some ts ∧
    ∀ (s : PState F G X) (c : PointRep C) (xT yT : LC F) (P : C.Pt) (r : Nat), s.Good →
      c.witness = some P → s.Rep C P (c.x, c.y) → s.Rep C (P + r • h) (xT, yT) →
      r < q → (r : Int) ∉ secpExceptional q → P ≠ 0 → P ≠ r • h → P ≠ - (r • h) →
      ∃ s', runP o (reRandomize C fx 256 ts c xT yT (some r)) s = .ok ((), s') ∧ s'.Satisfied ∧ s.Ext s' := by
  have hqi : (15999 : Int) * 8 ^ 84 < 1000 * q := by exact_mod_cast hq
  have hq2i : (q : Int) < 16 * 8 ^ 84 := by exact_mod_cast hq2
  obtain ⟨ts, hts⟩ := C20_tables_exist C (windows 256) h
    (fun k hk j hj => secp_tables hqi hq2i ho hk hj)
  refine ⟨ts, hts, fun s c xT yT P r hs hcw hc hQ hr hex hP0 h1 h2 => ?_⟩
  have hr2 : r < 2 ^ 256 := hr.trans (hq2.trans_le (by norm_num))
  refine (C19_rerandomize_partial o C fx (by decide) hts hs hcw hc hr2 hQ).2 ⟨fun k hk1 hk => ?_, hP0,
    fun e => ?_, h1, h2⟩
  · have := secp_windows hqi hq2i hr hex hk1 hk
    rw [← partialScalar_mod (windows 256) r k hk]
    exact diffX_of_not_dvd ho this
  · have h0 : r ≠ 0 := fun h => hex (by simp [secpExceptional, h])
    have hd : q ∣ r := by rw [← ho]; exact addOrderOf_dvd_iff_nsmul_eq_zero.2 e
    exact absurd (Nat.le_of_dvd (Nat.pos_of_ne_zero h0) hd) (by omega)

/-- **C19** for secp256k1: with every base `h` except the identity, the tables exist, and re-randomisation succeeds for all scalars but the four of `secpExceptional` and all points but `±r·h` and the identity. -/
theorem C19_secp_partial {G X : Type} (o : Oracle (ZMod secqOrder) G X) (fx : Bool) {h : secp.Pt} (h0 : h ≠ 0) :
    ∃ ts, buildTables secp (windows 256) h = some ts ∧
    ∀ (s : PState (ZMod secqOrder) G X) (c : PointRep secp) (xT yT : LC (ZMod secqOrder)) (P : secp.Pt) (r : Nat), s.Good →
      c.witness = some P → s.Rep secp P (c.x, c.y) → s.Rep secp (P + r • h) (xT, yT) →
      r < secpOrder → (r : Int) ∉ secpExceptional secpOrder → P ≠ 0 → P ≠ r • h → P ≠ - (r • h) →
      ∃ s', runP o (reRandomize secp fx 256 ts c xT yT (some r)) s = .ok ((), s') ∧ s'.Satisfied ∧ s.Ext s' :=
  C19_near_256_partial o secp fx (C71_secp_generator h h0).1 secp_range.1.1 secp_range.1.2

/-- **C19** for secq256k1. -/
theorem C19_secq_partial {G X : Type} (o : Oracle (ZMod secpOrder) G X) (fx : Bool) {h : secq.Pt} (h0 : h ≠ 0) :
    ∃ ts, buildTables secq (windows 256) h = some ts ∧
    ∀ (s : PState (ZMod secpOrder) G X) (c : PointRep secq) (xT yT : LC (ZMod secpOrder)) (P : secq.Pt) (r : Nat), s.Good →
      c.witness = some P → s.Rep secq P (c.x, c.y) → s.Rep secq (P + r • h) (xT, yT) →
      r < secqOrder → (r : Int) ∉ secpExceptional secqOrder → P ≠ 0 → P ≠ r • h → P ≠ - (r • h) →
      ∃ s', runP o (reRandomize secq fx 256 ts c xT yT (some r)) s = .ok ((), s') ∧ s'.Satisfied ∧ s.Ext s' :=
  C19_near_256_partial o secq fx (C71_secq_generator h h0).1 secp_range.2.1 secp_range.2.2

theorem secp_facts (p : Bool) : (15999 * 8 ^ 84 < 1000 * Fintype.card (SecpB p) ∧ Fintype.card (SecpB p) < 16 * 8 ^ 84) ∧
    ∀ h : (SecpC p).Pt, h ≠ 0 → addOrderOf h = Fintype.card (SecpB (!p)) := by
  cases p
  · have e : Fintype.card (SecpB false) = secqOrder := ZMod.card secqOrder
    have e' : Fintype.card (SecpB (!false)) = secpOrder := ZMod.card secpOrder
    rw [e, e']
    exact ⟨secp_range.2, fun h h0 => (C71_secp_generator h h0).1⟩
  · have e : Fintype.card (SecpB true) = secpOrder := ZMod.card secpOrder
    have e' : Fintype.card (SecpB (!true)) = secqOrder := ZMod.card secqOrder
    rw [e, e']
    exact ⟨secp_range.1, fun h h0 => (C71_secq_generator h h0).1⟩

/-- The parameters are for the cycle secp256k1, secq256k1: blinding bases other than the identity, 256-bit scalars, canonical representatives. -/
structure SecpParams (prm : SelRerand SecpC) : Prop where
  base : ∀ p, prm.h p ≠ 0
  lambda : ∀ p, (prm.layer p).lambda = 256
  cast : ∀ p (x : SecpB p), ((prm.toNat p x : Nat) : SecpB p) = x
  lt : ∀ p (x : SecpB p), prm.toNat p x < Fintype.card (SecpB p)

/-- **C70** for the cycle secp256k1, secq256k1: whatever the generators and the shift points are, for every tree and every two leaves (with no node equal to `-Δ` on their paths) the scalars drawn for a path are usable except
with probability `6 height / 2 ^ 255`, those drawn for a payment are usable except with probability `12 height / 2 ^ 255`, and the paths sent for the two leaves are
distributed alike except with probability `12 height / 2 ^ 255`. -/
theorem C70_secp {L M : Nat} [NeZero M] {prm : SelRerand SecpC} (hp : SecpParams prm) (hg : prm.tree.EnoughGens L M) (hL : 2 ≤ L)
    {set : List (SecpC false).Pt} {height : Option Nat} {fuel : Nat} {T : CurveTree L M (Pts SecpC)}
    (ht : fromSet prm.tree set height fuel = some (.ok T)) (hfuel : set.length + height.getD 0 ≤ fuel) {i i' : Nat} (hi : i < set.length) (hi' : i' < set.length)
    (hδ : ∀ j, j = i ∨ j = i' → ∀ nodes, T.witness prm.tree j 0 = .ok nodes → ∀ p (k : Nat) w, (nodes p)[k]? = some w → w.child + (prm.layer (!p)).delta ≠ 0) :
    2 ^ 255 * {ω : PathScalars SecpB T.height | ¬ SpendOk prm T i ω.stream}.ncard ≤ 6 * T.height * Fintype.card (PathScalars SecpB T.height) ∧
    2 ^ 255 * {ω : PathScalars SecpB T.height × PathScalars SecpB T.height | ¬ (SpendOk prm T i ω.1.stream ∧ SpendOk prm T i' ω.2.stream)}.ncard ≤
      12 * T.height * Fintype.card (PathScalars SecpB T.height × PathScalars SecpB T.height) ∧
    ∃ φ : (∀ p, Nat → SecpB (!p)) ≃ (∀ p, Nat → SecpB (!p)), (∀ nodes nodes', T.witness prm.tree i 0 = .ok nodes → T.witness prm.tree i' 0 = .ok nodes' →
        ∀ rnd p k, childAt nodes' p k + φ rnd p k • prm.h p = childAt nodes p k + rnd p k • prm.h p) ∧
      2 ^ 255 * {ω : PathScalars SecpB T.height | ¬ (SpendOk prm T i ω.stream ∧ SpendOk prm T i' (φ ω.stream))}.ncard ≤
        12 * T.height * Fintype.card (PathScalars SecpB T.height) := by
  have he : ∀ p, {r : SecpB (!p) | prm.Exceptional p r}.ncard ≤ 4 := fun p =>
    secp_exceptional (hp.lambda p) ((secp_facts p).2 _ (hp.base p)) (secp_facts _).1.1 (secp_facts _).1.2 (hp.cast _) (hp.lt _)
  have hQ : ∀ p, 2 ^ 255 ≤ Fintype.card (SecpB p) := fun p => by
    have := (secp_facts p).1.1
    have h2 : 1000 * 2 ^ 255 ≤ 15999 * 8 ^ 84 := by norm_num
    exact Nat.le_of_mul_le_mul_left (h2.trans this.le) (by norm_num)
  have hgen : ∀ p (P : (SecpC p).Pt), ∃ a : SecpB (!p), P = a • prm.h p := fun p P => by
    cases p
    · obtain ⟨k, -, hk⟩ := (C71_secp_generator (prm.h false) (hp.base false)).2 P
      exact ⟨(k : SecpB true), by rw [Nat.cast_smul_eq_nsmul]; exact hk⟩
    · obtain ⟨k, -, hk⟩ := (C71_secq_generator (prm.h true) (hp.base true)).2 P
      exact ⟨(k : SecpB false), by rw [Nat.cast_smul_eq_nsmul]; exact hk⟩
  obtain ⟨φ, hφ⟩ := path_bijection hgen hg hL ht hfuel hi hi'
  exact ⟨C70_usable hg hL hp.base ht hfuel hi (hδ i (.inl rfl)) he hQ, C70_payment hg hL hp.base ht hfuel hi hi' hδ he hQ, φ, hφ,
    C70_anonymity_loss hg hL hp.base ht hfuel hi hi' hδ he hQ φ hφ⟩

section Example

/-- The generators of the two curves. -/
noncomputable def secpGen : ∀ p, (SecpC p).Pt
  | false => secpG
  | true => secqG

/-- Their parameters: 256-bit scalars, `Δ` the generator too. -/
noncomputable def secpPrm : SelRerand SecpC where
  gens p := ⟨⟨secpGen p, secpGen p⟩, 2, [secpGen p, 3 • secpGen p], [secpGen p, secpGen p]⟩
  layer p := ⟨secpGen p, (buildTables (SecpC p) (windows 256) (secpGen p)).getD [], 256⟩
  toNat p x := match p, x with
    | false, x => ZMod.val (n := secqOrder) x
    | true, x => ZMod.val (n := secpOrder) x

theorem secpPrm_params : SecpParams secpPrm where
  base p := by cases p; exacts [WeierstrassCurve.Affine.Point.some_ne_zero _, WeierstrassCurve.Affine.Point.some_ne_zero _]
  lambda _ := rfl
  cast p x := by
    cases p
    · exact ZMod.natCast_zmod_val (n := secqOrder) x
    · exact ZMod.natCast_zmod_val (n := secpOrder) x
  lt p x := by
    cases p
    · exact (ZMod.val_lt (n := secqOrder) x).trans_eq (ZMod.card secqOrder).symm
    · exact (ZMod.val_lt (n := secpOrder) x).trans_eq (ZMod.card secpOrder).symm

/-- Two leaves. -/
noncomputable def secpSet : List (SecpC false).Pt := [secpG, 2 • secpG]

theorem secp_gens : secpPrm.tree.EnoughGens 2 1 := fun _ => le_rfl

theorem secp_multiple {k : Nat} (hk : k < secpOrder) (h0 : k ≠ 0) : k • secpG ≠ 0 := fun h => by
  have := addOrderOf_dvd_of_nsmul_eq_zero h
  rw [secpG_order] at this
  exact absurd (Nat.le_of_dvd (by omega) this) (by omega)

/-- The tree of height one with the two leaves. -/
theorem secp_tree : ∃ T : CurveTree 2 1 (Pts SecpC), fromSet secpPrm.tree secpSet (some 1) 3 = some (.ok T) ∧ T.height = 1 ∧
    ∀ i, i < 2 → ∀ nodes, T.witness secpPrm.tree i 0 = .ok nodes → ∀ p (k : Nat) w, (nodes p)[k]? = some w → w.child + (secpPrm.layer (!p)).delta ≠ 0 := by
  refine ⟨_, rfl, rfl, ?_⟩
  intro i hi nodes hn p k w hk
  rcases (by omega : i = 0 ∨ i = 1) with rfl | rfl
  · cases Except.ok.inj hn
    cases p
    · cases hk
    · cases k with
      | zero =>
        cases hk
        have := secp_multiple (k := 2) (by norm_num [secpOrder]) (by decide)
        rw [two_nsmul] at this
        exact this
      | succ k => cases hk
  · cases Except.ok.inj hn
    cases p
    · cases hk
    · cases k with
      | zero =>
        cases hk
        have := secp_multiple (k := 2 + 1) (by norm_num [secpOrder]) (by decide)
        rw [succ_nsmul] at this
        exact this
      | succ k => cases hk

/-- Non-vacuity of `C70_secp`: for the two leaves of the tree and a random scalar, both paths are usable and the two paths sent are distributed alike, except with probability `12 / 2 ^ 255`. -/
example : ∃ T : CurveTree 2 1 (Pts SecpC), fromSet secpPrm.tree secpSet (some 1) 3 = some (.ok T) ∧ T.height = 1 ∧
    2 ^ 255 * {ω : PathScalars SecpB T.height | ¬ SpendOk secpPrm T 1 ω.stream}.ncard ≤ 6 * Fintype.card (PathScalars SecpB T.height) ∧
    ∃ φ : (∀ p, Nat → SecpB (!p)) ≃ (∀ p, Nat → SecpB (!p)),
      2 ^ 255 * {ω : PathScalars SecpB T.height | ¬ (SpendOk secpPrm T 0 ω.stream ∧ SpendOk secpPrm T 1 (φ ω.stream))}.ncard ≤ 12 * Fintype.card (PathScalars SecpB T.height) := by
  obtain ⟨T, h1, h2, h3⟩ := secp_tree
  obtain ⟨k1, -, -⟩ := C70_secp secpPrm_params secp_gens le_rfl h1 le_rfl (i := 1) (i' := 1) (by decide) (by decide) (by rintro j (rfl | rfl); exacts [h3 1 (by omega), h3 1 (by omega)])
  obtain ⟨-, -, φ, -, k2⟩ := C70_secp secpPrm_params secp_gens le_rfl h1 le_rfl (i := 0) (i' := 1) (by decide) (by decide) (by rintro j (rfl | rfl); exacts [h3 0 (by omega), h3 1 (by omega)])
  exact ⟨T, h1, h2, k1.trans_eq (by rw [h2, Nat.mul_one]), φ, k2.trans_eq (by rw [h2, Nat.mul_one])⟩

theorem secp_coords {P : secp.Pt} (h : P ≠ 0) : ∃ x y, ∃ h : secp.OnCurve x y, P = secp.pt h :=
  (secp.cases_pt P).resolve_left h

/-- Non-vacuity of `C19_secp_partial`: the commitment `4 G` re-randomised by 2. -/
example (fx : Bool) : ∃ (ts : List (Table (ZMod secqOrder))) (c : PointRep secp) (xT yT : LC (ZMod secqOrder)) (s' : PState (ZMod secqOrder) Unit Unit),
    c.witness = some (4 • secpG) ∧ runP (fun _ => 0) (reRandomize secp fx 256 ts c xT yT (some 2)) {} = .ok ((), s') ∧ s'.Satisfied := by
  have hG : secpG ≠ 0 := WeierstrassCurve.Affine.Point.some_ne_zero _
  obtain ⟨ts, -, h⟩ := C19_secp_partial (G := Unit) (X := Unit) (fun _ => 0) fx hG
  have hm : ∀ k, k ≠ 0 → k < 100 → k • secpG ≠ 0 := fun k h0 hk => secp_multiple (hk.trans (by norm_num [secpOrder])) h0
  obtain ⟨x, y, hP, e⟩ := secp_coords (hm 4 (by decide) (by decide))
  obtain ⟨xT, yT, hT, eT⟩ := secp_coords (hm (4 + 2) (by decide) (by decide))
  rw [add_smul] at eT
  obtain ⟨s', h1, h2, -⟩ := h {} ⟨LC.const x, LC.const y, some (4 • secpG)⟩ (LC.const xT) (LC.const yT) (4 • secpG) 2
    ⟨⟨rfl, rfl, by intro i hi; simp at hi, by simp⟩, by simp, by simp⟩ rfl
    ⟨PState.hasLC_const, PState.hasLC_const, by simp only [eval_const]; exact ⟨hP, e⟩⟩
    ⟨PState.hasLC_const, PState.hasLC_const, by simp only [eval_const]; exact ⟨hT, eT⟩⟩
    (by norm_num [secpOrder]) (by decide +kernel) (hm 4 (by decide) (by decide))
    (fun e' => hm 2 (by decide) (by decide) (by
      rw [show (4 : Nat) = 2 + 2 from rfl, add_smul] at e'
      exact left_eq_add.1 e'.symm))
    (fun e' => hm (4 + 2) (by decide) (by decide) (by rw [add_smul]; exact eq_neg_iff_add_eq_zero.1 e'))
  exact ⟨ts, _, _, _, s', rfl, h1, h2⟩

end Example

end CT
