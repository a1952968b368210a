import Verif.Model.Pasta
import Verif.Props.Rerandomize
import Verif.Props.Usable

/-!
# C71: the Pasta curves are a cycle of prime order curves

What the code takes for granted about the curves it is used with, and the theorems that depend on it: C19 and C70 without any assumption on orders.
-/

namespace CT

/-- **C71**: the base field of each of the two curves is the scalar field of the other: the moduli are prime, the group of points of Pallas has as many elements as the base field of Vesta and vice versa. -/
theorem C71_cycle : pallasOrder.Prime ∧ vestaOrder.Prime ∧ Nat.card pallas.Pt = pallasOrder ∧ Nat.card vesta.Pt = vestaOrder :=
  ⟨Fact.out, Fact.out, pallas_card, vesta_card⟩

theorem generates {G : Type} [AddCommGroup G] {q : Nat} (hq : q.Prime) (hc : Nat.card G = q) {h : G} (h0 : h ≠ 0) :
    addOrderOf h = q ∧ ∀ P : G, ∃ k < q, P = k • h := by
  have := Fact.mk hq
  have ho : addOrderOf h = q := by
    have hd : addOrderOf h ∣ q := hc ▸ addOrderOf_dvd_natCard h
    rcases (Nat.dvd_prime hq).1 hd with e | e
    · exact absurd (AddMonoid.addOrderOf_eq_one_iff.1 e) h0
    · exact e
  refine ⟨ho, fun P => ?_⟩
  have : Finite G := Nat.finite_of_card_ne_zero (hc ▸ hq.ne_zero)
  have hm : P ∈ AddSubgroup.zmultiples h := mem_zmultiples_of_prime_card hc h0
  rw [← mem_multiples_iff_mem_zmultiples, AddSubmonoid.mem_multiples_iff] at hm
  obtain ⟨k, rfl⟩ := hm
  refine ⟨k % q, Nat.mod_lt _ hq.pos, ?_⟩
  rw [← ho, mod_addOrderOf_nsmul]

/-- **C71**, no cofactor: every point of the Pallas curve, and so every point an application can receive, is a multiple of every other point except the identity. The subgroup check of `Affine::new` and of
deserialisation can never fail, and each blinding generator generates the whole group, as C50, C51, C53 and C60 require. -/
theorem C71_pallas_generator (h : pallas.Pt) (h0 : h ≠ 0) : addOrderOf h = pallasOrder ∧ ∀ P : pallas.Pt, ∃ k < pallasOrder, P = k • h :=
  generates Fact.out pallas_card h0

/-- **C71**, no cofactor, for Vesta. -/
theorem C71_vesta_generator (h : vesta.Pt) (h0 : h ≠ 0) : addOrderOf h = vestaOrder ∧ ∀ P : vesta.Pt, ∃ k < vestaOrder, P = k • h :=
  generates Fact.out vesta_card h0

/-- The generators of the two crates. -/
example : pallasG ≠ 0 ∧ vestaG ≠ 0 := ⟨WeierstrassCurve.Affine.Point.some_ne_zero _, WeierstrassCurve.Affine.Point.some_ne_zero _⟩

theorem pasta_range : (4 * 8 ^ 84 < pallasOrder ∧ 1000 * pallasOrder < 4001 * 8 ^ 84) ∧ 4 * 8 ^ 84 < vestaOrder ∧ 1000 * vestaOrder < 4001 * 8 ^ 84 := by
  norm_num [pallasOrder, vestaOrder]

/-- **C19** for the Pallas curve: with every base `h` except the identity, the tables exist, and re-randomisation succeeds for all scalars but the four of `pastaExceptional` and all points but `±r·h` and the identity. -/
theorem C19_pallas_partial {G X : Type} (o : Oracle (ZMod vestaOrder) G X) (fx : Bool) {h : pallas.Pt} (h0 : h ≠ 0) :
    ∃ ts, buildTables pallas (windows 255) h = some ts ∧
    ∀ (s : PState (ZMod vestaOrder) G X) (c : PointRep pallas) (xT yT : LC (ZMod vestaOrder)) (P : pallas.Pt) (r : Nat), s.Good →
      c.witness = some P → s.Rep pallas P (c.x, c.y) → s.Rep pallas (P + r • h) (xT, yT) →
      r < pallasOrder → (r : Int) ∉ pastaExceptional pallasOrder → P ≠ 0 → P ≠ r • h → P ≠ - (r • h) →
      ∃ s', runP o (reRandomize pallas fx 255 ts c xT yT (some r)) s = .ok ((), s') ∧ s'.Satisfied ∧ s.Ext s' :=
  C19_pasta_partial o pallas fx (C71_pallas_generator h h0).1 pasta_range.1.1 pasta_range.1.2

/-- **C19** for the Vesta curve. -/
theorem C19_vesta_partial {G X : Type} (o : Oracle (ZMod pallasOrder) G X) (fx : Bool) {h : vesta.Pt} (h0 : h ≠ 0) :
    ∃ ts, buildTables vesta (windows 255) h = some ts ∧
    ∀ (s : PState (ZMod pallasOrder) G X) (c : PointRep vesta) (xT yT : LC (ZMod pallasOrder)) (P : vesta.Pt) (r : Nat), s.Good →
      c.witness = some P → s.Rep vesta P (c.x, c.y) → s.Rep vesta (P + r • h) (xT, yT) →
      r < vestaOrder → (r : Int) ∉ pastaExceptional vestaOrder → P ≠ 0 → P ≠ r • h → P ≠ - (r • h) →
      ∃ s', runP o (reRandomize vesta fx 255 ts c xT yT (some r)) s = .ok ((), s') ∧ s'.Satisfied ∧ s.Ext s' :=
  C19_pasta_partial o vesta fx (C71_vesta_generator h h0).1 pasta_range.2.1 pasta_range.2.2

theorem pasta_facts (p : Bool) : (4 * 8 ^ 84 < Fintype.card (PastaB p) ∧ 1000 * Fintype.card (PastaB p) < 4001 * 8 ^ 84) ∧
    ∀ h : (PastaC p).Pt, h ≠ 0 → addOrderOf h = Fintype.card (PastaB (!p)) := by
  cases p
  · have e : Fintype.card (PastaB false) = vestaOrder := ZMod.card vestaOrder
    have e' : Fintype.card (PastaB (!false)) = pallasOrder := ZMod.card pallasOrder
    rw [e, e']
    exact ⟨pasta_range.2, fun h h0 => (C71_pallas_generator h h0).1⟩
  · have e : Fintype.card (PastaB true) = pallasOrder := ZMod.card pallasOrder
    have e' : Fintype.card (PastaB (!true)) = vestaOrder := ZMod.card vestaOrder
    rw [e, e']
    exact ⟨pasta_range.1, fun h h0 => (C71_vesta_generator h h0).1⟩

/-- The parameters are for the Pasta curves: blinding bases other than the identity, 255-bit scalars, canonical representatives. -/
structure PastaParams (prm : SelRerand PastaC) : Prop where
  base : ∀ p, prm.h p ≠ 0
  lambda : ∀ p, (prm.layer p).lambda = 255
  cast : ∀ p (x : PastaB p), ((prm.toNat p x : Nat) : PastaB p) = x
  lt : ∀ p (x : PastaB p), prm.toNat p x < Fintype.card (PastaB p)

/-- **C70** for the Pasta curves: whatever the generators and the shift points are, for every tree and every two leaves (with no node equal to `-Δ` on their paths) the scalars drawn for a path are usable except
with probability `6 height / 2 ^ 254`, those drawn for a payment are usable except with probability `12 height / 2 ^ 254`, and the paths sent for the two leaves are
distributed alike except with probability `12 height / 2 ^ 254`. -/
theorem C70_pasta {L M : Nat} [NeZero M] {prm : SelRerand PastaC} (hp : PastaParams prm) (hg : prm.tree.EnoughGens L M) (hL : 2 ≤ L)
    {set : List (PastaC false).Pt} {height : Option Nat} {fuel : Nat} {T : CurveTree L M (Pts PastaC)}
    (ht : fromSet prm.tree set height fuel = some (.ok T)) (hfuel : set.length + height.getD 0 ≤ fuel) {i i' : Nat} (hi : i < set.length) (hi' : i' < set.length)
    (hδ : ∀ j, j = i ∨ j = i' → ∀ nodes, T.witness prm.tree j 0 = .ok nodes → ∀ p (k : Nat) w, (nodes p)[k]? = some w → w.child + (prm.layer (!p)).delta ≠ 0) :
    2 ^ 254 * {ω : PathScalars PastaB T.height | ¬ SpendOk prm T i ω.stream}.ncard ≤ 6 * T.height * Fintype.card (PathScalars PastaB T.height) ∧
    2 ^ 254 * {ω : PathScalars PastaB T.height × PathScalars PastaB T.height | ¬ (SpendOk prm T i ω.1.stream ∧ SpendOk prm T i' ω.2.stream)}.ncard ≤
      12 * T.height * Fintype.card (PathScalars PastaB T.height × PathScalars PastaB T.height) ∧
    ∃ φ : (∀ p, Nat → PastaB (!p)) ≃ (∀ p, Nat → PastaB (!p)), (∀ nodes nodes', T.witness prm.tree i 0 = .ok nodes → T.witness prm.tree i' 0 = .ok nodes' →
        ∀ rnd p k, childAt nodes' p k + φ rnd p k • prm.h p = childAt nodes p k + rnd p k • prm.h p) ∧
      2 ^ 254 * {ω : PathScalars PastaB T.height | ¬ (SpendOk prm T i ω.stream ∧ SpendOk prm T i' (φ ω.stream))}.ncard ≤
        12 * T.height * Fintype.card (PathScalars PastaB T.height) := by
  have he : ∀ p, {r : PastaB (!p) | prm.Exceptional p r}.ncard ≤ 4 := fun p =>
    pasta_exceptional (hp.lambda p) ((pasta_facts p).2 _ (hp.base p)) (pasta_facts _).1.1 (pasta_facts _).1.2 (hp.cast _) (hp.lt _)
  have hQ : ∀ p, 2 ^ 254 ≤ Fintype.card (PastaB p) := fun p => le_trans (by norm_num) (pasta_facts p).1.1.le
  have hgen : ∀ p (P : (PastaC p).Pt), ∃ a : PastaB (!p), P = a • prm.h p := fun p P => by
    cases p
    · obtain ⟨k, -, hk⟩ := (C71_pallas_generator (prm.h false) (hp.base false)).2 P
      exact ⟨(k : PastaB true), by rw [Nat.cast_smul_eq_nsmul]; exact hk⟩
    · obtain ⟨k, -, hk⟩ := (C71_vesta_generator (prm.h true) (hp.base true)).2 P
      exact ⟨(k : PastaB false), by rw [Nat.cast_smul_eq_nsmul]; exact hk⟩
  obtain ⟨φ, hφ⟩ := path_bijection hgen hg hL ht hfuel hi hi'
  exact ⟨C70_usable hg hL hp.base ht hfuel hi (hδ i (.inl rfl)) he hQ, C70_payment hg hL hp.base ht hfuel hi hi' hδ he hQ, φ, hφ,
    C70_anonymity_loss hg hL hp.base ht hfuel hi hi' hδ he hQ φ hφ⟩

section Example

/-- The generators of the two curves. -/
noncomputable def pastaGen : ∀ p, (PastaC p).Pt
  | false => pallasG
  | true => vestaG

/-- Their parameters: 255-bit scalars, `Δ` the generator too. -/
noncomputable def pastaPrm : SelRerand PastaC where
  gens p := ⟨⟨pastaGen p, pastaGen p⟩, 2, [pastaGen p, 3 • pastaGen p], [pastaGen p, pastaGen p]⟩
  layer p := ⟨pastaGen p, (buildTables (PastaC p) (windows 255) (pastaGen p)).getD [], 255⟩
  toNat p x := match p, x with
    | false, x => ZMod.val (n := vestaOrder) x
    | true, x => ZMod.val (n := pallasOrder) x

theorem pastaPrm_params : PastaParams pastaPrm where
  base p := by cases p; exacts [WeierstrassCurve.Affine.Point.some_ne_zero _, WeierstrassCurve.Affine.Point.some_ne_zero _]
  lambda _ := rfl
  cast p x := by
    cases p
    · exact ZMod.natCast_zmod_val (n := vestaOrder) x
    · exact ZMod.natCast_zmod_val (n := pallasOrder) x
  lt p x := by
    cases p
    · exact (ZMod.val_lt (n := vestaOrder) x).trans_eq (ZMod.card vestaOrder).symm
    · exact (ZMod.val_lt (n := pallasOrder) x).trans_eq (ZMod.card pallasOrder).symm

/-- Two leaves. -/
noncomputable def pastaSet : List (PastaC false).Pt := [pallasG, 2 • pallasG]

theorem pasta_gens : pastaPrm.tree.EnoughGens 2 1 := fun _ => le_rfl

theorem pasta_multiple {k : Nat} (hk : k < pallasOrder) (h0 : k ≠ 0) : k • pallasG ≠ 0 := fun h => by
  have := addOrderOf_dvd_of_nsmul_eq_zero h
  rw [pallasG_order] at this
  exact absurd (Nat.le_of_dvd (by omega) this) (by omega)

/-- The tree of height one with the two leaves. -/
theorem pasta_tree : ∃ T : CurveTree 2 1 (Pts PastaC), fromSet pastaPrm.tree pastaSet (some 1) 3 = some (.ok T) ∧ T.height = 1 ∧
    ∀ i, i < 2 → ∀ nodes, T.witness pastaPrm.tree i 0 = .ok nodes → ∀ p (k : Nat) w, (nodes p)[k]? = some w → w.child + (pastaPrm.layer (!p)).delta ≠ 0 := by
  refine ⟨_, rfl, rfl, ?_⟩
  intro i hi nodes hn p k w hk
  rcases (by omega : i = 0 ∨ i = 1) with rfl | rfl
  · cases Except.ok.inj hn
    cases p
    · cases hk
    · cases k with
      | zero =>
        cases hk
        have := pasta_multiple (k := 2) (by norm_num [pallasOrder]) (by decide)
        rw [two_nsmul] at this
        exact this
      | succ k => cases hk
  · cases Except.ok.inj hn
    cases p
    · cases hk
    · cases k with
      | zero =>
        cases hk
        have := pasta_multiple (k := 2 + 1) (by norm_num [pallasOrder]) (by decide)
        rw [succ_nsmul] at this
        exact this
      | succ k => cases hk

/-- Non-vacuity of `C70_pasta`: for the two leaves of the tree and a random scalar, both paths are usable and the two paths sent are distributed alike, except with probability `12 / 2 ^ 254`. -/
example : ∃ T : CurveTree 2 1 (Pts PastaC), fromSet pastaPrm.tree pastaSet (some 1) 3 = some (.ok T) ∧ T.height = 1 ∧
    2 ^ 254 * {ω : PathScalars PastaB T.height | ¬ SpendOk pastaPrm T 1 ω.stream}.ncard ≤ 6 * Fintype.card (PathScalars PastaB T.height) ∧
    ∃ φ : (∀ p, Nat → PastaB (!p)) ≃ (∀ p, Nat → PastaB (!p)),
      2 ^ 254 * {ω : PathScalars PastaB T.height | ¬ (SpendOk pastaPrm T 0 ω.stream ∧ SpendOk pastaPrm T 1 (φ ω.stream))}.ncard ≤ 12 * Fintype.card (PathScalars PastaB T.height) := by
  obtain ⟨T, h1, h2, h3⟩ := pasta_tree
  obtain ⟨k1, -, -⟩ := C70_pasta pastaPrm_params pasta_gens le_rfl h1 le_rfl (i := 1) (i' := 1) (by decide) (by decide) (by rintro j (rfl | rfl); exacts [h3 1 (by omega), h3 1 (by omega)])
  obtain ⟨-, -, φ, -, k2⟩ := C70_pasta pastaPrm_params pasta_gens le_rfl h1 le_rfl (i := 0) (i' := 1) (by decide) (by decide) (by rintro j (rfl | rfl); exacts [h3 0 (by omega), h3 1 (by omega)])
  exact ⟨T, h1, h2, k1.trans_eq (by rw [h2, Nat.mul_one]), φ, k2.trans_eq (by rw [h2, Nat.mul_one])⟩

theorem pasta_coords {P : pallas.Pt} (h : P ≠ 0) : ∃ x y, ∃ h : pallas.OnCurve x y, P = pallas.pt h :=
  (pallas.cases_pt P).resolve_left h

/-- Non-vacuity of `C19_pallas_partial`: the commitment `4 G` re-randomised by 2. -/
example (fx : Bool) : ∃ (ts : List (Table (ZMod vestaOrder))) (c : PointRep pallas) (xT yT : LC (ZMod vestaOrder)) (s' : PState (ZMod vestaOrder) Unit Unit),
    c.witness = some (4 • pallasG) ∧ runP (fun _ => 0) (reRandomize pallas fx 255 ts c xT yT (some 2)) {} = .ok ((), s') ∧ s'.Satisfied := by
  have hG : pallasG ≠ 0 := WeierstrassCurve.Affine.Point.some_ne_zero _
  obtain ⟨ts, -, h⟩ := C19_pallas_partial (G := Unit) (X := Unit) (fun _ => 0) fx hG
  have hm : ∀ k, k ≠ 0 → k < 100 → k • pallasG ≠ 0 := fun k h0 hk => pasta_multiple (hk.trans (by norm_num [pallasOrder])) h0
  obtain ⟨x, y, hP, e⟩ := pasta_coords (hm 4 (by decide) (by decide))
  obtain ⟨xT, yT, hT, eT⟩ := pasta_coords (hm (4 + 2) (by decide) (by decide))
  rw [add_smul] at eT
  obtain ⟨s', h1, h2, -⟩ := h {} ⟨LC.const x, LC.const y, some (4 • pallasG)⟩ (LC.const xT) (LC.const yT) (4 • pallasG) 2
    ⟨⟨rfl, rfl, by intro i hi; simp at hi, by simp⟩, by simp, by simp⟩ rfl
    ⟨PState.hasLC_const, PState.hasLC_const, by simp only [eval_const]; exact ⟨hP, e⟩⟩
    ⟨PState.hasLC_const, PState.hasLC_const, by simp only [eval_const]; exact ⟨hT, eT⟩⟩
    (by norm_num [pallasOrder]) (by decide +kernel) (hm 4 (by decide) (by decide))
    (fun e' => hm 2 (by decide) (by decide) (by
      rw [show (4 : Nat) = 2 + 2 from rfl, add_smul] at e'
      exact left_eq_add.1 e'.symm))
    (fun e' => hm (4 + 2) (by decide) (by decide) (by rw [add_smul]; exact eq_neg_iff_add_eq_zero.1 e'))
  exact ⟨ts, _, _, _, s', rfl, h1, h2⟩

end Example

end CT
