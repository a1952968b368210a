import Verif.Props.CompletenessError
import Verif.Props.Sizes
import Verif.Props.Pasta
import Verif.Props.Secp

/-!
# C72 for whole proofs of membership

C70 counts the scalars that cannot be used for a path, C72 the choices and challenges for which a proof is not accepted, and C65 the sizes. Together they say how often an honest
proof of membership, made by two fresh Provers, fails.
-/

namespace CT

section
variable {F G X : Type} [Field F] [Fintype F] [DecidableEq F] [AddCommGroup G] [Module F G] [DecidableEq G]

theorem rejectedAtMost {o : Oracle F G X} {g : Gens G} (hcG : g.capacity ≤ g.Gs.length) (hcH : g.capacity ≤ g.Hs.length) (hB : g.pc.B ≠ 0) (hb : g.pc.Bbl ≠ 0)
    {s : PState F G X} {t : VState F G X} (h : Session o g s t) (hd : s.deferred = []) (hs : s.Good) {n : Nat} (hn : s.size = n) (hcap : nextPow2 n ≤ g.capacity)
    (h32 : n ≤ 2 ^ 31) (h17 : s.vecOpen.length ≤ 17) {Q : Nat} (hQ : Q ≤ Fintype.card F) : RejectedAtMost g s t 200 Q := by
  obtain ⟨lg, e1, e2, e3⟩ := nextPow2_eq s.size
  have hlt : lg < 32 := by
    by_contra hge
    have h1 : 2 ^ 32 ≤ 2 ^ lg := Nat.pow_le_pow_right (by norm_num) (by omega)
    by_cases h1' : 1 < s.size
    · have := e3 h1'
      omega
    · have : nextPow2 s.size = 1 := by unfold nextPow2; rw [if_pos (by omega)]
      omega
  refine ⟨s.transcript.length + (2 * (opDegree s.vecOpen.length + 1) + 1) + 18 + 3 * lg + 1, fun M hM => ?_⟩
  have := C72_completeness_error hcG hcH hB hb h hd hs.satisfied hs.inCircuit e1 (by rw [← e1, hn]; exact hcap) hlt h17 rfl hM
  exact (Nat.mul_le_mul_right _ hQ).trans (this.trans (Nat.mul_le_mul_right _ (C72_loss_small h17 hlt)))

omit [Fintype F] [DecidableEq F] [AddCommGroup G] [Module F G] [DecidableEq G] in
theorem new_good' (tr : Transcript F G X) : (PState.new tr : PState F G X).Good :=
  ⟨⟨rfl, rfl, by intro i hi; simp [PState.new] at hi, by simp [PState.new]⟩, by simp [PState.new], by simp [PState.new]⟩

end

section
variable {B : Bool → Type} [∀ p, Field (B p)] [∀ p, Fintype (B p)] [∀ p, DecidableEq (B p)] {C : ∀ p, SWCurve (B p)} [∀ p, Module (B (!p)) (C p).Pt] {L M bits : Nat} [NeZero M]

/-- An honest proof of membership works: with the scalars `ω` two fresh Provers make a path, the Verifier's gadget accepts it and returns leaf `i`, re-randomised, and on both curves the proof
of the resulting statement is rejected with probability at most `200 / Q`. -/
def MembershipWorks (o : ∀ p, SideO C p) (fx : Bool) (prm : SelRerand C) (dom : ∀ p, Transcript (B (!p)) (C p).Pt (C (!p)).Pt) (T : CurveTree L M (Pts C)) (i : Nat)
    (leaf : (C false).Pt) (Q : Nat) (ω : PathScalars B T.height) : Prop :=
  ∃ path r sE sO tE tO, treeProverGadget (o false) (o true) fx prm ω.stream T i 0 (.new (dom false)) (.new (dom true)) = .ok ((path, r), sE, sO) ∧
    treeVerifierGadget (o false) (o true) fx prm T path (.new (dom false)) (.new (dom true)) = .ok (leaf + (show B (!false) from r) • prm.h false, tE, tO) ∧
    RejectedAtMost (F := B (!false)) (prm.gens false) sE tE 200 Q ∧ RejectedAtMost (F := B (!true)) (prm.gens true) sO tO 200 Q

/-- **C72** for whole proofs of membership: for every tree made by `from_set`, of height between 1 and 34, every leaf (with no node equal to `-Δ` on its path) and generators that are enough for the
circuits of C65, all but a share of `(e + 2) height / Q` of the scalars work. -/
theorem C72_fresh_membership {prm : SelRerand C} (hv : prm.Valid) (hb : ∀ p, (prm.layer p).lambda = bits) (h3 : 3 ≤ bits) (hg : prm.tree.EnoughGens L M) (hL : 2 ≤ L)
    (hcG : ∀ p, (prm.gens p).capacity ≤ (prm.gens p).Gs.length) (hcH : ∀ p, (prm.gens p).capacity ≤ (prm.gens p).Hs.length)
    (hB : ∀ p, (prm.gens p).pc.B ≠ 0) (hbl : ∀ p, prm.h p ≠ 0)
    {set : List (C false).Pt} {height : Option Nat} {fuel : Nat} {T : CurveTree L M (Pts C)}
    (ht : fromSet prm.tree set height fuel = some (.ok T)) (hfuel : set.length + height.getD 0 ≤ fuel) (h0 : T.height ≠ 0) (h34 : T.height ≤ 34)
    (hcap : ∀ p, nextPow2 (multipliersFor L bits ((T.height + 1) / 2) 0) ≤ (prm.gens p).capacity) (h31 : multipliersFor L bits ((T.height + 1) / 2) 0 ≤ 2 ^ 31)
    {i : Nat} (hi : i < set.length)
    (hδ : ∀ nodes, T.witness prm.tree i 0 = .ok nodes → ∀ p (k : Nat) w, (nodes p)[k]? = some w → w.child + (prm.layer (!p)).delta ≠ 0)
    {e Q : Nat} (he : ∀ p, {r : B (!p) | prm.Exceptional p r}.ncard ≤ e) (hQ : ∀ p, Q ≤ Fintype.card (B p))
    (o : ∀ p, SideO C p) (fx : Bool) (dom : ∀ p, Transcript (B (!p)) (C p).Pt (C (!p)).Pt) :
    Q * {ω : PathScalars B T.height | ¬ MembershipWorks o fx prm dom T i set[i] Q ω}.ncard ≤ (e + 2) * T.height * Fintype.card (PathScalars B T.height) := by
  refine le_trans (Nat.mul_le_mul_left _ (Set.ncard_le_ncard ?_)) (C70_usable hg hL hbl ht hfuel hi hδ he hQ)
  intro ω hω hs
  refine hω ?_
  obtain ⟨nodes, h1, h2⟩ := C26_witness_partial hg hL ht hfuel 0 hi
  have hM : 1 ≤ M := Nat.one_le_iff_ne_zero.2 (NeZero.ne M)
  obtain ⟨path, r, sE, sO, k1, k2, k3, -, -, -⟩ := path_complete (o false) (o true) fx hv
    (fun p => le_trans (Nat.le_mul_of_pos_right L hM) (hg p)) h2 (rnd := ω.stream) (hs.avoids nodes h1) (new_good' (dom false)) (new_good' (dom true))
  obtain ⟨l1, l2⟩ := pathTo_lengths h2
  obtain ⟨tE, tO, v1, v2, v3⟩ := path_session h2 h0 (fun j hj => hs.even j (by omega)) (fun j hj => hs.odd j (by omega)) (.new (dom false)) (.new (dom true)) k1
  have hpr : treeProverGadget (o false) (o true) fx prm ω.stream T i 0 (.new (dom false)) (.new (dom true)) = .ok ((path, r), sE, sO) := by
    unfold treeProverGadget; simp only [h1]; exact k1
  obtain ⟨g1, g2, -, -⟩ := treeProver_gets hb h3 hg hL ht hfuel h0 hs.even hs.odd hpr
  obtain ⟨a1, a2, a3, -⟩ := g1.fresh
  obtain ⟨b1, b2, b3, -⟩ := g2.fresh
  have lv : ∀ k, k ≠ 0 → L ≤ levelGates L bits * k + (levelAllocations bits * k + 1) / 2 := by
    intro k hk
    have : L ≤ levelGates L bits * k := (by unfold levelGates; omega : L ≤ levelGates L bits).trans (Nat.le_mul_of_pos_right _ (by omega))
    omega
  have c1 := g1.size (by
    by_cases h : T.height / 2 = 0
    · exact .inl (by omega)
    · exact .inr (lv _ h))
  have c2 := g2.size (.inr (lv _ (by omega)))
  have mono : multipliersFor L bits (T.height / 2) 0 ≤ multipliersFor L bits ((T.height + 1) / 2) 0 := by
    unfold multipliersFor
    have h1 : levelGates L bits * (T.height / 2) ≤ levelGates L bits * ((T.height + 1) / 2) := Nat.mul_le_mul_left _ (by omega)
    have h2 : levelAllocations bits * (T.height / 2) ≤ levelAllocations bits * ((T.height + 1) / 2) := Nat.mul_le_mul_left _ (by omega)
    omega
  have pow2 : nextPow2 (multipliersFor L bits (T.height / 2) 0) ≤ nextPow2 (multipliersFor L bits ((T.height + 1) / 2) 0) := by
    unfold nextPow2
    split
    · split
      · exact le_rfl
      · exact Nat.one_le_two_pow
    · rw [if_neg (by omega)]
      have : (multipliersFor L bits (T.height / 2) 0 - 1).log2 ≤ (multipliersFor L bits ((T.height + 1) / 2) 0 - 1).log2 := by
        rw [Nat.log2_eq_log_two, Nat.log2_eq_log_two]
        exact Nat.log_mono_right (by omega)
      exact Nat.pow_le_pow_right (by norm_num) (by omega)
  refine ⟨path, r, sE, sO, tE, tO, hpr, v1, ?_, ?_⟩
  · exact rejectedAtMost (hcG _) (hcH _) (hB _) (hbl _) v2 a3 k2 c1 (pow2.trans (hcap false)) (mono.trans h31) (by rw [a2]; omega) (hQ _)
  · exact rejectedAtMost (hcG _) (hcH _) (hB _) (hbl _) v3 b3 k3 c2 (hcap true) h31 (by rw [b2]; omega) (hQ _)

end

/-- **C72** for the Pasta curves: an honest proof of membership works but for `6 height / 2 ^ 254` of the scalars, and its two proofs are then rejected with probability at most `200 / 2 ^ 254` each. -/
theorem C72_pasta {L M : Nat} [NeZero M] {prm : SelRerand PastaC} (hp : PastaParams prm)
    (htab : ∀ p, buildTables (PastaC p) (windows 255) (prm.h p) = some (prm.layer p).tables) (hg : prm.tree.EnoughGens L M) (hL : 2 ≤ L)
    (hcG : ∀ p, (prm.gens p).capacity ≤ (prm.gens p).Gs.length) (hcH : ∀ p, (prm.gens p).capacity ≤ (prm.gens p).Hs.length) (hB : ∀ p, (prm.gens p).pc.B ≠ 0)
    {set : List (PastaC false).Pt} {height : Option Nat} {fuel : Nat} {T : CurveTree L M (Pts PastaC)}
    (ht : fromSet prm.tree set height fuel = some (.ok T)) (hfuel : set.length + height.getD 0 ≤ fuel) (h0 : T.height ≠ 0) (h34 : T.height ≤ 34)
    (hcap : ∀ p, nextPow2 (multipliersFor L 255 ((T.height + 1) / 2) 0) ≤ (prm.gens p).capacity) (h31 : multipliersFor L 255 ((T.height + 1) / 2) 0 ≤ 2 ^ 31)
    {i : Nat} (hi : i < set.length)
    (hδ : ∀ nodes, T.witness prm.tree i 0 = .ok nodes → ∀ p (k : Nat) w, (nodes p)[k]? = some w → w.child + (prm.layer (!p)).delta ≠ 0)
    (o : ∀ p, SideO PastaC p) (fx : Bool) (dom : ∀ p, Transcript (PastaB (!p)) (PastaC p).Pt (PastaC (!p)).Pt) :
    2 ^ 254 * {ω : PathScalars PastaB T.height | ¬ MembershipWorks o fx prm dom T i set[i] (2 ^ 254) ω}.ncard ≤ 6 * T.height * Fintype.card (PathScalars PastaB T.height) := by
  have hv : prm.Valid :=
    ⟨fun p => by cases p <;> rfl, fun p => by rw [hp.lambda]; exact htab p, fun p => by rw [hp.lambda]; decide, hp.cast, fun p x => by
      rw [hp.lambda]
      have h1 := hp.lt (!p) x
      have h2 := (pasta_facts (!p)).1.2
      have h3 : 4001 * 8 ^ 84 ≤ 1000 * 2 ^ 255 := by norm_num
      exact h1.trans (Nat.lt_of_mul_lt_mul_left (h2.trans_le h3))⟩
  exact C72_fresh_membership hv hp.lambda (by norm_num) hg hL hcG hcH hB hp.base ht hfuel h0 h34 hcap h31 hi hδ
    (fun p => pasta_exceptional (hp.lambda p) ((pasta_facts p).2 _ (hp.base p)) (pasta_facts _).1.1 (pasta_facts _).1.2 (hp.cast _) (hp.lt _))
    (fun p => le_trans (by norm_num) (pasta_facts p).1.1.le) o fx dom

/-- **C72** for the cycle secp256k1, secq256k1: likewise with `2 ^ 255`. -/
theorem C72_secp {L M : Nat} [NeZero M] {prm : SelRerand SecpC} (hp : SecpParams prm)
    (htab : ∀ p, buildTables (SecpC p) (windows 256) (prm.h p) = some (prm.layer p).tables) (hg : prm.tree.EnoughGens L M) (hL : 2 ≤ L)
    (hcG : ∀ p, (prm.gens p).capacity ≤ (prm.gens p).Gs.length) (hcH : ∀ p, (prm.gens p).capacity ≤ (prm.gens p).Hs.length) (hB : ∀ p, (prm.gens p).pc.B ≠ 0)
    {set : List (SecpC false).Pt} {height : Option Nat} {fuel : Nat} {T : CurveTree L M (Pts SecpC)}
    (ht : fromSet prm.tree set height fuel = some (.ok T)) (hfuel : set.length + height.getD 0 ≤ fuel) (h0 : T.height ≠ 0) (h34 : T.height ≤ 34)
    (hcap : ∀ p, nextPow2 (multipliersFor L 256 ((T.height + 1) / 2) 0) ≤ (prm.gens p).capacity) (h31 : multipliersFor L 256 ((T.height + 1) / 2) 0 ≤ 2 ^ 31)
    {i : Nat} (hi : i < set.length)
    (hδ : ∀ nodes, T.witness prm.tree i 0 = .ok nodes → ∀ p (k : Nat) w, (nodes p)[k]? = some w → w.child + (prm.layer (!p)).delta ≠ 0)
    (o : ∀ p, SideO SecpC p) (fx : Bool) (dom : ∀ p, Transcript (SecpB (!p)) (SecpC p).Pt (SecpC (!p)).Pt) :
    2 ^ 255 * {ω : PathScalars SecpB T.height | ¬ MembershipWorks o fx prm dom T i set[i] (2 ^ 255) ω}.ncard ≤ 6 * T.height * Fintype.card (PathScalars SecpB T.height) := by
  have hv : prm.Valid :=
    ⟨fun p => by cases p <;> rfl, fun p => by rw [hp.lambda]; exact htab p, fun p => by rw [hp.lambda]; decide, hp.cast, fun p x => by
      rw [hp.lambda]
      have h1 := hp.lt (!p) x
      have h2 := (secp_facts (!p)).1.2
      exact h1.trans (h2.trans_le (by norm_num))⟩
  exact C72_fresh_membership hv hp.lambda (by norm_num) hg hL hcG hcH hB hp.base ht hfuel h0 h34 hcap h31 hi hδ
    (fun p => secp_exceptional (hp.lambda p) ((secp_facts p).2 _ (hp.base p)) (secp_facts _).1.1 (secp_facts _).1.2 (hp.cast _) (hp.lt _))
    (fun p => by
      have := (secp_facts p).1.1
      have h2 : 1000 * 2 ^ 255 ≤ 15999 * 8 ^ 84 := by norm_num
      exact Nat.le_of_mul_le_mul_left (h2.trans this.le) (by norm_num)) o fx dom

section Example

/-- Parameters with 1024 generators, enough for a tree with one level. -/
noncomputable def pastaLarge : SelRerand PastaC where
  gens p := ⟨⟨pastaGen p, pastaGen p⟩, 1024, pastaGen p :: 3 • pastaGen p :: List.replicate 1022 (pastaGen p), List.replicate 1024 (pastaGen p)⟩
  layer p := pastaPrm.layer p
  toNat p x := pastaPrm.toNat p x

theorem pastaLarge_params : PastaParams pastaLarge := ⟨pastaPrm_params.base, pastaPrm_params.lambda, pastaPrm_params.cast, pastaPrm_params.lt⟩

theorem pastaLarge_tables (p : Bool) : buildTables (PastaC p) (windows 255) (pastaLarge.h p) = some (pastaLarge.layer p).tables := by
  have : ∃ ts, buildTables (PastaC p) (windows 255) (pastaLarge.h p) = some ts := by
    cases p
    · exact (C19_pallas_partial (G := Unit) (X := Unit) (fun _ => 0) false (pastaLarge_params.base false)).imp fun _ h => h.1
    · exact (C19_vesta_partial (G := Unit) (X := Unit) (fun _ => 0) false (pastaLarge_params.base true)).imp fun _ h => h.1
  obtain ⟨ts, e⟩ := this
  have : (pastaLarge.layer p).tables = (buildTables (PastaC p) (windows 255) (pastaLarge.h p)).getD [] := rfl
  rw [this, e]
  rfl

theorem pastaLarge_length (p : Bool) : (pastaLarge.gens p).Gs.length = 1024 ∧ (pastaLarge.gens p).Hs.length = 1024 := by
  have h : ∀ (a b : (PastaC p).Pt) (n : Nat), (a :: b :: List.replicate n a).length = n + 2 ∧ (List.replicate (n + 2) a).length = n + 2 := fun a b n => by simp
  exact h _ _ 1022

/-- The tree of height one with the two leaves. -/
theorem pastaLarge_tree : ∃ T : CurveTree 2 1 (Pts PastaC), fromSet pastaLarge.tree pastaSet (some 1) 3 = some (.ok T) ∧ T.height = 1 ∧
    ∀ nodes, T.witness pastaLarge.tree 1 0 = .ok nodes → ∀ p (k : Nat) w, (nodes p)[k]? = some w → w.child + (pastaLarge.layer (!p)).delta ≠ 0 := by
  refine ⟨_, rfl, rfl, ?_⟩
  intro nodes hn p k w hk
  cases Except.ok.inj hn
  cases p
  · cases hk
  · cases k with
    | zero =>
      cases hk
      have := pasta_multiple (k := 2 + 1) (by norm_num [pallasOrder]) (by decide)
      rw [succ_nsmul] at this
      exact this
    | succ k => cases hk

/-- Non-vacuity of `C72_pasta`: the second leaf of the tree. -/
example (o : ∀ p, SideO PastaC p) : ∃ T : CurveTree 2 1 (Pts PastaC), fromSet pastaLarge.tree pastaSet (some 1) 3 = some (.ok T) ∧ T.height = 1 ∧
    2 ^ 254 * {ω : PathScalars PastaB T.height | ¬ MembershipWorks o false pastaLarge (fun _ => []) T 1 (2 • pallasG) (2 ^ 254) ω}.ncard ≤
      6 * Fintype.card (PathScalars PastaB T.height) := by
  obtain ⟨T, h1, h2, h3⟩ := pastaLarge_tree
  have hm : multipliersFor 2 255 ((T.height + 1) / 2) 0 = 911 := by rw [h2]; rfl
  have := C72_pasta pastaLarge_params pastaLarge_tables (L := 2) (M := 1) (fun p => Nat.le_add_left _ _) le_rfl
    (fun p => (pastaLarge_length p).1.ge) (fun p => (pastaLarge_length p).2.ge) pastaLarge_params.base h1 le_rfl (by omega) (by omega)
    (fun p => by rw [hm]; exact le_of_eq (by decide +kernel : nextPow2 911 = 1024)) (by rw [hm]; norm_num) (i := 1) (by decide) h3 o false (fun _ => [])
  exact ⟨T, h1, h2, this.trans_eq (by rw [h2, Nat.mul_one])⟩

/-- The same for the other cycle. -/
noncomputable def secpLarge : SelRerand SecpC where
  gens p := ⟨⟨secpGen p, secpGen p⟩, 1024, secpGen p :: 3 • secpGen p :: List.replicate 1022 (secpGen p), List.replicate 1024 (secpGen p)⟩
  layer p := secpPrm.layer p
  toNat p x := secpPrm.toNat p x

theorem secpLarge_params : SecpParams secpLarge := ⟨secpPrm_params.base, secpPrm_params.lambda, secpPrm_params.cast, secpPrm_params.lt⟩

theorem secpLarge_tables (p : Bool) : buildTables (SecpC p) (windows 256) (secpLarge.h p) = some (secpLarge.layer p).tables := by
  have : ∃ ts, buildTables (SecpC p) (windows 256) (secpLarge.h p) = some ts := by
    cases p
    · exact (C19_secp_partial (G := Unit) (X := Unit) (fun _ => 0) false (secpLarge_params.base false)).imp fun _ h => h.1
    · exact (C19_secq_partial (G := Unit) (X := Unit) (fun _ => 0) false (secpLarge_params.base true)).imp fun _ h => h.1
  obtain ⟨ts, e⟩ := this
  have : (secpLarge.layer p).tables = (buildTables (SecpC p) (windows 256) (secpLarge.h p)).getD [] := rfl
  rw [this, e]
  rfl

theorem secpLarge_length (p : Bool) : (secpLarge.gens p).Gs.length = 1024 ∧ (secpLarge.gens p).Hs.length = 1024 := by
  have h : ∀ (a b : (SecpC p).Pt) (n : Nat), (a :: b :: List.replicate n a).length = n + 2 ∧ (List.replicate (n + 2) a).length = n + 2 := fun a b n => by simp
  exact h _ _ 1022

/-- The tree of height one with the two leaves. -/
theorem secpLarge_tree : ∃ T : CurveTree 2 1 (Pts SecpC), fromSet secpLarge.tree secpSet (some 1) 3 = some (.ok T) ∧ T.height = 1 ∧
    ∀ nodes, T.witness secpLarge.tree 1 0 = .ok nodes → ∀ p (k : Nat) w, (nodes p)[k]? = some w → w.child + (secpLarge.layer (!p)).delta ≠ 0 := by
  refine ⟨_, rfl, rfl, ?_⟩
  intro nodes hn p k w hk
  cases Except.ok.inj hn
  cases p
  · cases hk
  · cases k with
    | zero =>
      cases hk
      have := secp_multiple (k := 2 + 1) (by norm_num [secpOrder]) (by decide)
      rw [succ_nsmul] at this
      exact this
    | succ k => cases hk

/-- Non-vacuity of `C72_secp`: the second leaf of the tree. -/
example (o : ∀ p, SideO SecpC p) : ∃ T : CurveTree 2 1 (Pts SecpC), fromSet secpLarge.tree secpSet (some 1) 3 = some (.ok T) ∧ T.height = 1 ∧
    2 ^ 255 * {ω : PathScalars SecpB T.height | ¬ MembershipWorks o false secpLarge (fun _ => []) T 1 (2 • secpG) (2 ^ 255) ω}.ncard ≤
      6 * Fintype.card (PathScalars SecpB T.height) := by
  obtain ⟨T, h1, h2, h3⟩ := secpLarge_tree
  have hm : multipliersFor 2 256 ((T.height + 1) / 2) 0 = 911 := by rw [h2]; rfl
  have := C72_secp secpLarge_params secpLarge_tables (L := 2) (M := 1) (fun p => Nat.le_add_left _ _) le_rfl
    (fun p => (secpLarge_length p).1.ge) (fun p => (secpLarge_length p).2.ge) secpLarge_params.base h1 le_rfl (by omega) (by omega)
    (fun p => by rw [hm]; exact le_of_eq (by decide +kernel : nextPow2 911 = 1024)) (by rw [hm]; norm_num) (i := 1) (by decide) h3 o false (fun _ => [])
  exact ⟨T, h1, h2, this.trans_eq (by rw [h2, Nat.mul_one])⟩

end Example

end CT
