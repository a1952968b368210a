import Verif.Spec.Usable
import Verif.Proofs.Counting
import Verif.Proofs.SecpWindows
import Verif.Proofs.Pasta
import Verif.Props.Anonymity

/-!
# C70: nearly all random choices are usable

C19, C23, C45, C50, C51 and C60 except the scalars with which an incomplete addition of `re_randomize` meets an exceptional case. Here they are counted: an honest Prover
fails for a negligible share of the scalars it can draw, and what is excluded in the statements on anonymity is negligible as well.
-/

namespace CT
variable {B : Bool → Type} [∀ p, Field (B p)] [∀ p, DecidableEq (B p)] [∀ p, Fintype (B p)] {C : ∀ p, SWCurve (B p)} [∀ p, Module (B (!p)) (C p).Pt] {L M : Nat}

omit [∀ p, Fintype (B p)] in
/-- The bijection between the scalars for two leaves. -/
theorem path_bijection [NeZero M] {prm : SelRerand C} (hgen : ∀ p (P : (C p).Pt), ∃ a : B (!p), P = a • prm.h p) (hg : prm.tree.EnoughGens L M) (hL : 2 ≤ L)
    {set : List (C false).Pt} {height : Option Nat} {fuel : Nat} {T : CurveTree L M (Pts C)}
    (ht : fromSet prm.tree set height fuel = some (.ok T)) (hfuel : set.length + height.getD 0 ≤ fuel) {i i' : Nat} (hi : i < set.length) (hi' : i' < set.length) :
    ∃ φ : (∀ p, Nat → B (!p)) ≃ (∀ p, Nat → B (!p)), ∀ nodes nodes', T.witness prm.tree i 0 = .ok nodes → T.witness prm.tree i' 0 = .ok nodes' →
      ∀ rnd p k, childAt nodes' p k + φ rnd p k • prm.h p = childAt nodes p k + rnd p k • prm.h p := by
  obtain ⟨nodes, w1, -⟩ := C26_witness_partial hg hL ht hfuel 0 hi
  obtain ⟨nodes', w2, -⟩ := C26_witness_partial hg hL ht hfuel 0 hi'
  choose lg hlg using hgen
  refine ⟨Equiv.addRight (shift lg nodes nodes'), fun n n' e e' rnd p k => ?_⟩
  cases Except.ok.inj (w1.symm.trans e)
  cases Except.ok.inj (w2.symm.trans e')
  change _ + (rnd p k + lg p (childAt nodes p k - childAt nodes' p k)) • prm.h p = _
  rw [add_smul, ← hlg]; abel

/-- The scalars that cannot be used for the point `P` of curve `p`. -/
def unusable (prm : SelRerand C) (p : Bool) (P : (C p).Pt) : Set (B (!p)) :=
  {r | prm.Exceptional p r ∨ P + (prm.layer p).delta = r • prm.h p ∨ P + (prm.layer p).delta = -(r • prm.h p)}

theorem unusable_card {prm : SelRerand C} {p : Bool} (hb : prm.h p ≠ 0) {e : Nat} (he : {r : B (!p) | prm.Exceptional p r}.ncard ≤ e) (P : (C p).Pt) :
    (unusable prm p P).ncard ≤ e + 2 := by
  have one : ∀ Q : (C p).Pt, {r : B (!p) | Q = r • prm.h p}.ncard ≤ 1 := by
    intro Q
    refine (Set.ncard_le_one_iff (Set.toFinite _)).2 fun {a b} ha hb' => ?_
    have : (a - b) • prm.h p = 0 := by rw [sub_smul, ← show Q = a • prm.h p from ha, ← show Q = b • prm.h p from hb', sub_self]
    rcases smul_eq_zero.1 this with h | h
    · exact sub_eq_zero.1 h
    · exact absurd h hb
  have hsub : unusable prm p P ⊆ {r : B (!p) | prm.Exceptional p r} ∪ ({r | P + (prm.layer p).delta = r • prm.h p} ∪ {r | -(P + (prm.layer p).delta) = r • prm.h p}) := by
    rintro r (h | h | h)
    · exact .inl h
    · exact .inr (.inl h)
    · exact .inr (.inr (show -(P + (prm.layer p).delta) = r • prm.h p by rw [h, neg_neg]))
  refine (Set.ncard_le_ncard hsub).trans ((Set.ncard_union_le _ _).trans (Nat.add_le_add he ((Set.ncard_union_le _ _).trans ?_)))
  exact Nat.add_le_add (one _) (one _)

theorem sum_pathLen (h : Nat) : ∑ p, Fintype.card (Fin (pathLen h p)) = h := by
  rw [Fintype.sum_bool, Fintype.card_fin, Fintype.card_fin]
  simp only [pathLen]; omega

omit [∀ p, DecidableEq (B p)] [∀ p, Fintype (B p)] in
theorem stream_lt {h : Nat} (ω : PathScalars B h) {p : Bool} {k : Nat} (hk : k < pathLen h p) : ω.stream p k = ω p ⟨k, hk⟩ := by
  simp [PathScalars.stream, hk]

omit [∀ p, Fintype (B p)] in
theorem spendOk_of_usable [NeZero M] {prm : SelRerand C} (hb : ∀ p, prm.h p ≠ 0) {T : CurveTree L M (Pts C)} {i : Nat} {nodes : WitPath B (Pts C)}
    (hw : T.witness prm.tree i 0 = .ok nodes) (hl : (nodes true).length = (T.height + 1) / 2 ∧ (nodes false).length = T.height / 2)
    (hδ : ∀ p (k : Nat) w, (nodes p)[k]? = some w → w.child + (prm.layer (!p)).delta ≠ 0) {rnd : ∀ p, Nat → B (!p)}
    (h : ∀ p k, k < pathLen T.height p → rnd p k ∉ unusable prm p (childAt nodes p k)) : SpendOk prm T i rnd where
  even j hj h0 := h false j (by simp [pathLen]; omega) (.inl (.inl h0))
  odd j hj h0 := h true j hj (.inl (.inl h0))
  avoids := by
    intro nodes' hw' p k w hk
    cases Except.ok.inj (hw.symm.trans hw')
    have hlt : k < pathLen T.height (!p) := by
      have := (List.getElem?_eq_some_iff.1 hk).1
      cases p
      · show k < T.height / 2
        omega
      · show k < (T.height + 1) / 2
        omega
    have hc : childAt nodes (!p) k = w.child := by
      cases p
      · show ((nodes false)[k]?.map (·.child)).getD 0 = _
        rw [hk]; rfl
      · show ((nodes true)[k]?.map (·.child)).getD 0 = _
        rw [hk]; rfl
    have := h (!p) k hlt
    rw [hc] at this
    simp only [unusable, SelRerand.Exceptional, Set.mem_ofPred_eq, not_or, not_not] at this
    obtain ⟨⟨h0, h1⟩, h2, h3⟩ := this
    refine ⟨h1, hδ p k w hk, fun e => ?_, h2, h3⟩
    rcases smul_eq_zero.1 e with e | e
    · exact h0 e
    · exact hb _ e

/-- **C70**, the count: on each of the two curves let at most `e` of the scalars be exceptional (whatever the point is), and let the scalar fields have at least `Q` elements. Then for every index of every tree
the scalars for its path are not usable for at most `(e + 2) height / Q` of all choices. Nodes with `child + Δ = 0` are excluded: they cannot be re-randomised at all. -/
theorem C70_usable [NeZero M] {prm : SelRerand C} (hg : prm.tree.EnoughGens L M) (hL : 2 ≤ L) (hb : ∀ p, prm.h p ≠ 0)
    {set : List (C false).Pt} {height : Option Nat} {fuel : Nat} {T : CurveTree L M (Pts C)}
    (ht : fromSet prm.tree set height fuel = some (.ok T)) (hfuel : set.length + height.getD 0 ≤ fuel) {i : Nat} (hi : i < set.length)
    (hδ : ∀ nodes, T.witness prm.tree i 0 = .ok nodes → ∀ p (k : Nat) w, (nodes p)[k]? = some w → w.child + (prm.layer (!p)).delta ≠ 0)
    {e Q : Nat} (he : ∀ p, {r : B (!p) | prm.Exceptional p r}.ncard ≤ e) (hQ : ∀ p, Q ≤ Fintype.card (B p)) :
    Q * {ω : PathScalars B T.height | ¬ SpendOk prm T i ω.stream}.ncard ≤ (e + 2) * T.height * Fintype.card (PathScalars B T.height) := by
  obtain ⟨nodes, w1, p1⟩ := C26_witness_partial hg hL ht hfuel 0 hi
  have hl := pathTo_lengths p1
  have h := ncard_hits₂ (κ := fun p => Fin (pathLen T.height p)) (A := fun p => B (!p)) (fun p k => unusable prm p (childAt nodes p k))
    (fun p k => unusable_card (hb p) (he p) _) (fun p => hQ (!p))
  rw [sum_pathLen] at h
  refine le_trans (Nat.mul_le_mul_left _ (Set.ncard_le_ncard ?_)) h
  intro ω hω
  by_contra hno
  refine hω (spendOk_of_usable hb w1 hl (hδ nodes w1) fun p k hk hm => hno ⟨p, ⟨k, hk⟩, ?_⟩)
  rw [← stream_lt ω hk]
  exact hm

/-- **C70**, completeness: an honest Prover in any state fails to re-randomise the path of a leaf, or sends a path the Verifier refuses, for at most `(e + 2) height / Q` of the scalars. -/
theorem C70_honest_path_accepted [NeZero M] {prm : SelRerand C} (hv : prm.Valid) (hg : prm.tree.EnoughGens L M) (hL : 2 ≤ L) (hb : ∀ p, prm.h p ≠ 0)
    {set : List (C false).Pt} {height : Option Nat} {fuel : Nat} {T : CurveTree L M (Pts C)}
    (ht : fromSet prm.tree set height fuel = some (.ok T)) (hfuel : set.length + height.getD 0 ≤ fuel) (h0 : T.height ≠ 0) {i : Nat} (hi : i < set.length)
    (hδ : ∀ nodes, T.witness prm.tree i 0 = .ok nodes → ∀ p (k : Nat) w, (nodes p)[k]? = some w → w.child + (prm.layer (!p)).delta ≠ 0)
    {e Q : Nat} (he : ∀ p, {r : B (!p) | prm.Exceptional p r}.ncard ≤ e) (hQ : ∀ p, Q ≤ Fintype.card (B p))
    (oE : SideO C false) (oO : SideO C true) (fx : Bool) {sE : SideP C false} {sO : SideP C true} {tE : SideV C false} {tO : SideV C true}
    (hsE : Session oE (prm.gens false) sE tE) (hsO : Session oO (prm.gens true) sO tO) (gE : sE.Good) (gO : sO.Good) :
    Q * {ω : PathScalars B T.height | ¬ ∃ path r sE' sO' tE' tO', treeProverGadget oE oO fx prm ω.stream T i 0 sE sO = .ok ((path, r), sE', sO') ∧
      treeVerifierGadget oE oO fx prm T path tE tO = .ok (set[i] + (show B (!false) from r) • prm.h false, tE', tO') ∧
      sE'.Satisfied ∧ sO'.Satisfied}.ncard ≤ (e + 2) * T.height * Fintype.card (PathScalars B T.height) := by
  refine le_trans (Nat.mul_le_mul_left _ (Set.ncard_le_ncard ?_)) (C70_usable hg hL hb ht hfuel hi hδ he hQ)
  intro ω hω hs
  obtain ⟨path, r, sE', sO', tE', tO', k1, k2, k3, k4, -⟩ := C23_honest_path_accepted hv hg hL ht hfuel h0 oE oO fx hi hs.even hs.odd hs.avoids hsE hsO gE gO
  exact hω ⟨path, r, sE', sO', tE', tO', k1, k2, k3.satisfied, k4.satisfied⟩

/-- **C70**, anonymity: the bijection of C50 between the scalars for `i` and those for `i'` moves usable scalars to usable scalars, but for at most `2 (e + 2) height / Q` of all choices. This
is how far the distributions of the paths sent for `i` and for `i'` can be apart. -/
theorem C70_anonymity_loss [NeZero M] {prm : SelRerand C} (hg : prm.tree.EnoughGens L M) (hL : 2 ≤ L) (hb : ∀ p, prm.h p ≠ 0)
    {set : List (C false).Pt} {height : Option Nat} {fuel : Nat} {T : CurveTree L M (Pts C)}
    (ht : fromSet prm.tree set height fuel = some (.ok T)) (hfuel : set.length + height.getD 0 ≤ fuel) {i i' : Nat} (hi : i < set.length) (hi' : i' < set.length)
    (hδ : ∀ j, j = i ∨ j = i' → ∀ nodes, T.witness prm.tree j 0 = .ok nodes → ∀ p (k : Nat) w, (nodes p)[k]? = some w → w.child + (prm.layer (!p)).delta ≠ 0)
    {e Q : Nat} (he : ∀ p, {r : B (!p) | prm.Exceptional p r}.ncard ≤ e) (hQ : ∀ p, Q ≤ Fintype.card (B p))
    (φ : (∀ p, Nat → B (!p)) ≃ (∀ p, Nat → B (!p))) (hφ : ∀ nodes nodes', T.witness prm.tree i 0 = .ok nodes → T.witness prm.tree i' 0 = .ok nodes' →
      ∀ rnd p k, childAt nodes' p k + φ rnd p k • prm.h p = childAt nodes p k + rnd p k • prm.h p) :
    Q * {ω : PathScalars B T.height | ¬ (SpendOk prm T i ω.stream ∧ SpendOk prm T i' (φ ω.stream))}.ncard ≤
      2 * (e + 2) * T.height * Fintype.card (PathScalars B T.height) := by
  obtain ⟨nodes, w1, p1⟩ := C26_witness_partial hg hL ht hfuel 0 hi
  obtain ⟨nodes', w2, p2⟩ := C26_witness_partial hg hL ht hfuel 0 hi'
  -- the scalars the bijection moves to scalars not usable for `i'`
  set pre : ∀ p, Fin (pathLen T.height p) → Set (B (!p)) := fun p k =>
    {r | ∃ s ∈ unusable prm p (childAt nodes' p k), childAt nodes' p k + s • prm.h p = childAt nodes p k + r • prm.h p} with hpre
  have hcard : ∀ p k, (pre p k).ncard ≤ e + 2 := by
    intro p k
    refine le_trans ?_ (unusable_card (hb p) (he p) (childAt nodes' p k))
    choose! f hf using fun r (hr : r ∈ pre p k) => hr
    refine Set.ncard_le_ncard_of_injOn f (fun r hr => (hf r hr).1) ?_
    intro a ha b hb' hab
    have h1 := (hf a ha).2
    have h2 := (hf b hb').2
    rw [← hab, h1] at h2
    have h3 : (a - b) • prm.h p = 0 := by rw [sub_smul, add_left_cancel h2, sub_self]
    rcases smul_eq_zero.1 h3 with h | h
    · exact sub_eq_zero.1 h
    · exact absurd h (hb p)
  have h1 := C70_usable hg hL hb ht hfuel hi (hδ i (.inl rfl)) he hQ
  have h2 := ncard_hits₂ (κ := fun p => Fin (pathLen T.height p)) (A := fun p => B (!p)) pre hcard (fun p => hQ (!p))
  rw [sum_pathLen] at h2
  have hsub : {ω : PathScalars B T.height | ¬ (SpendOk prm T i ω.stream ∧ SpendOk prm T i' (φ ω.stream))} ⊆
      {ω : PathScalars B T.height | ¬ SpendOk prm T i ω.stream} ∪ {ω : PathScalars B T.height | ∃ p k, ω p k ∈ pre p k} := by
    intro ω hω
    by_cases hs : SpendOk prm T i ω.stream
    · right
      by_contra hno
      refine hω ⟨hs, spendOk_of_usable hb w2 (pathTo_lengths p2) (hδ i' (.inr rfl) nodes' w2) fun p k hk hm => hno ⟨p, ⟨k, hk⟩, _, hm, ?_⟩⟩
      rw [hφ nodes nodes' w1 w2, stream_lt ω hk]
    · exact .inl hs
  calc _ ≤ Q * (_ + _) := Nat.mul_le_mul_left _ ((Set.ncard_le_ncard hsub).trans (Set.ncard_union_le _ _))
    _ = _ := Nat.mul_add ..
    _ ≤ _ := Nat.add_le_add h1 h2
    _ = _ := by ring

/-- **C70** for payments: the scalars for the paths of the two coins spent are not both usable, as C45 and C51 require, for at most `2 (e + 2) height / Q` of all choices. -/
theorem C70_payment [NeZero M] {prm : SelRerand C} (hg : prm.tree.EnoughGens L M) (hL : 2 ≤ L) (hb : ∀ p, prm.h p ≠ 0)
    {set : List (C false).Pt} {height : Option Nat} {fuel : Nat} {T : CurveTree L M (Pts C)}
    (ht : fromSet prm.tree set height fuel = some (.ok T)) (hfuel : set.length + height.getD 0 ≤ fuel) {i i' : Nat} (hi : i < set.length) (hi' : i' < set.length)
    (hδ : ∀ j, j = i ∨ j = i' → ∀ nodes, T.witness prm.tree j 0 = .ok nodes → ∀ p (k : Nat) w, (nodes p)[k]? = some w → w.child + (prm.layer (!p)).delta ≠ 0)
    {e Q : Nat} (he : ∀ p, {r : B (!p) | prm.Exceptional p r}.ncard ≤ e) (hQ : ∀ p, Q ≤ Fintype.card (B p)) :
    Q * {ω : PathScalars B T.height × PathScalars B T.height | ¬ (SpendOk prm T i ω.1.stream ∧ SpendOk prm T i' ω.2.stream)}.ncard ≤
      2 * (e + 2) * T.height * Fintype.card (PathScalars B T.height × PathScalars B T.height) := by
  have h1 := C70_usable hg hL hb ht hfuel hi (hδ i (.inl rfl)) he hQ
  have h2 := C70_usable hg hL hb ht hfuel hi' (hδ i' (.inr rfl)) he hQ
  set A : Set (PathScalars B T.height) := {ω | ¬ SpendOk prm T i ω.stream} with hA
  set A' : Set (PathScalars B T.height) := {ω | ¬ SpendOk prm T i' ω.stream} with hA'
  have hsub : {ω : PathScalars B T.height × PathScalars B T.height | ¬ (SpendOk prm T i ω.1.stream ∧ SpendOk prm T i' ω.2.stream)} ⊆ A ×ˢ Set.univ ∪ Set.univ ×ˢ A' := by
    rintro ⟨a, b⟩ h
    by_cases ha : SpendOk prm T i a.stream
    · exact .inr ⟨trivial, fun hb => h ⟨ha, hb⟩⟩
    · exact .inl ⟨ha, trivial⟩
  have h3 := (Set.ncard_le_ncard hsub).trans (Set.ncard_union_le _ _)
  rw [Set.ncard_prod, Set.ncard_prod, Set.ncard_univ, Nat.card_eq_fintype_card] at h3
  rw [Fintype.card_prod]
  set N := Fintype.card (PathScalars B T.height)
  calc _ ≤ Q * (A.ncard * N + N * A'.ncard) := Nat.mul_le_mul_left _ h3
    _ = (Q * A.ncard) * N + N * (Q * A'.ncard) := by ring
    _ ≤ ((e + 2) * T.height * N) * N + N * ((e + 2) * T.height * N) := Nat.add_le_add (Nat.mul_le_mul_right _ h1) (Nat.mul_le_mul_left _ h2)
    _ = _ := by ring

/-- A list of the exceptional scalars bounds their number. -/
theorem exceptional_card {prm : SelRerand C} {p : Bool} {lambda : Nat} (hl : (prm.layer p).lambda = lambda) (ho : addOrderOf (prm.h p) = Fintype.card (B (!p)))
    (hcast : ∀ x : B (!p), ((prm.toNat (!p) x : Nat) : B (!p)) = x) (hlt : ∀ x : B (!p), prm.toNat (!p) x < Fintype.card (B (!p)))
    {ex : List Int} (hex0 : 0 ∈ ex) (hw : ∀ r, r < Fintype.card (B (!p)) → (r : Int) ∉ ex → ∀ k, 1 ≤ k → k < windows lambda →
      let σ : Int := partialScalar (windows lambda) (fun i => r / 8 ^ i % 8) k
      let τ : Int := tableScalar (windows lambda) (k + 1) (r / 8 ^ k % 8)
      ¬ (Fintype.card (B (!p)) : Int) ∣ σ ∧ ¬ (Fintype.card (B (!p)) : Int) ∣ τ ∧ ¬ (Fintype.card (B (!p)) : Int) ∣ σ - τ ∧ ¬ (Fintype.card (B (!p)) : Int) ∣ σ + τ) :
    {r : B (!p) | prm.Exceptional p r}.ncard ≤ ex.length := by
  set q := Fintype.card (B (!p)) with hqd
  have hinj : Function.Injective fun x : B (!p) => (prm.toNat (!p) x : Int) := by
    intro a b h
    have h : prm.toNat (!p) a = prm.toNat (!p) b := by simpa using h
    rw [← hcast a, h, hcast b]
  have hsub : (fun x : B (!p) => (prm.toNat (!p) x : Int)) '' {r : B (!p) | prm.Exceptional p r} ⊆ {z | z ∈ ex} := by
    rintro _ ⟨r, hr, rfl⟩
    by_contra hex
    rcases hr with rfl | hr
    · apply hex
      have h0 : prm.toNat (!p) (0 : B (!p)) = 0 := by
        have hd : q ∣ prm.toNat (!p) (0 : B (!p)) := by
          have h1 : prm.toNat (!p) (0 : B (!p)) • prm.h p = 0 := by
            rw [← Nat.cast_smul_eq_nsmul (B (!p)), hcast, zero_smul]
          rw [← ho]
          exact addOrderOf_dvd_iff_nsmul_eq_zero.2 h1
        exact Nat.eq_zero_of_dvd_of_lt hd (hlt _)
      simpa [h0] using hex0
    · refine hr fun k hk1 hk => ?_
      rw [hl] at hk ⊢
      have := hw _ (hlt r) hex k hk1 hk
      rw [← partialScalar_mod (windows lambda) _ k hk]
      exact diffX_of_not_dvd ho this
  rw [← Set.ncard_image_of_injective _ hinj]
  have hfin : ({z | z ∈ ex} : Set Int) = (ex.toFinset : Set Int) := by ext; simp
  refine (Set.ncard_le_ncard hsub (by rw [hfin]; exact Finset.finite_toSet _)).trans ?_
  rw [hfin, Set.ncard_coe_finset]
  exact List.toFinset_card_le _

/-- With an order just above `2 ^ 254` and 255-bit scalars, at most four scalars are exceptional (C19). -/
theorem pasta_exceptional {prm : SelRerand C} {p : Bool} (hl : (prm.layer p).lambda = 255) (ho : addOrderOf (prm.h p) = Fintype.card (B (!p)))
    (hq : 4 * 8 ^ 84 < Fintype.card (B (!p))) (hq2 : 1000 * Fintype.card (B (!p)) < 4001 * 8 ^ 84)
    (hcast : ∀ x : B (!p), ((prm.toNat (!p) x : Nat) : B (!p)) = x) (hlt : ∀ x : B (!p), prm.toNat (!p) x < Fintype.card (B (!p))) :
    {r : B (!p) | prm.Exceptional p r}.ncard ≤ 4 :=
  exceptional_card hl ho hcast hlt (ex := pastaExceptional (Fintype.card (B (!p)))) (List.mem_cons_self ..) fun _ hr hex _ hk1 hk =>
    pasta_windows (by exact_mod_cast hq) (by exact_mod_cast hq2) hr hex hk1 hk

/-- With an order just below `2 ^ 256` and 256-bit scalars, at most four scalars are exceptional. -/
theorem secp_exceptional {prm : SelRerand C} {p : Bool} (hl : (prm.layer p).lambda = 256) (ho : addOrderOf (prm.h p) = Fintype.card (B (!p)))
    (hq : 15999 * 8 ^ 84 < 1000 * Fintype.card (B (!p))) (hq2 : Fintype.card (B (!p)) < 16 * 8 ^ 84)
    (hcast : ∀ x : B (!p), ((prm.toNat (!p) x : Nat) : B (!p)) = x) (hlt : ∀ x : B (!p), prm.toNat (!p) x < Fintype.card (B (!p))) :
    {r : B (!p) | prm.Exceptional p r}.ncard ≤ 4 :=
  exceptional_card hl ho hcast hlt (ex := secpExceptional (Fintype.card (B (!p)))) (List.mem_cons_self ..) fun _ hr hex _ hk1 hk =>
    secp_windows (by exact_mod_cast hq) (by exact_mod_cast hq2) hr hex hk1 hk

end CT
