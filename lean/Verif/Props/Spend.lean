import Verif.Spec.Ledger
import Verif.Props.Coin
import Verif.Props.Membership

/-!
# C44: a Pour spends coins of the tree
-/

namespace CT

/-- `coinNew` (and `mint`) make the commitment to the coin. -/
theorem coinNew_commitment {F G K SK S : Type} [Field F] [DecidableEq F] [AddCommGroup G] [Module F G] [DecidableEq G]
    {sch : SigScheme K SK S F} {g : Gens G} {value : Nat} {pk : K} {pkr : S} {bl : F} {coin : Coin F S} {c : G}
    (h : coinNew sch g value pk pkr bl = .ok (coin, c)) :
    c = coin.commitment g ∧ coin.value = value ∧ coin.tag = sch.tag (sch.randomizePk pk pkr) := by
  unfold coinNew at h
  simp only [layerCommit?] at h
  split at h
  · cases h
  · rename_i c' h'
    simp only [Except.ok.injEq, Prod.mk.injEq] at h
    obtain ⟨rfl, rfl⟩ := h
    refine ⟨?_, rfl, rfl⟩
    split at h'
    · cases h'
    · rename_i hl
      simp only [Option.some.injEq] at h'
      rw [← h']
      simp only [layerGens, List.length_cons, List.length_nil, Nat.zero_add, Nat.mul_zero, List.drop_zero, ne_eq,
        not_not] at hl ⊢
      rcases hg : g.Gs with _ | ⟨a, _ | ⟨b, l⟩⟩
      · rw [hg] at hl; simp at hl
      · rw [hg] at hl; simp at hl
      · simp [msm, Coin.commitment, hg]
        abel

/-- A commitment to a coin and an opening of its re-randomisation. -/
theorem coin_opening_or {F G S : Type} [Field F] [AddCommGroup G] [Module F G] {g : Gens G} {delta : G} {L : Nat} (hL : 2 ≤ L) {a : Coin F S}
    {vals : Nat → F} {bl : F} {z : Int} {c : G} (hc : c = ∑ k : Fin L, vals k • g.Gs.getD k 0 + bl • g.pc.Bbl)
    (hr : RerandOf delta g.pc.Bbl z (a.commitment g) c) : (∀ k < L, vals k = a.entries k) ∨ SecondCoinOpening g delta L a vals bl z := by
  have ha : a.commitment g = ∑ k : Fin L, a.entries k • g.Gs.getD k 0 + a.blinding • g.pc.Bbl := by
    unfold Coin.commitment
    congr 1
    rw [Fin.sum_univ_eq_sum_range fun k => a.entries k • g.Gs.getD k 0]
    obtain ⟨n, rfl⟩ := Nat.exists_eq_add_of_le hL
    rw [Finset.sum_range_add, Finset.sum_range_succ, Finset.sum_range_succ, Finset.sum_range_zero, Finset.sum_eq_zero (s := Finset.range n)]
    · simp [Coin.entries]
    · intro k _
      rw [show a.entries (2 + k) = 0 by rw [Nat.add_comm]; rfl, zero_smul]
  rcases hr with e | e
  · by_cases h : ∃ k < L, vals k ≠ a.entries k
    · right; left
      refine ⟨h, ?_⟩
      have e' : c = a.commitment g + z • g.pc.Bbl := by
        have := congrArg (· - delta) e
        simpa [add_assoc, add_comm, add_left_comm] using this
      rw [hc, ha] at e'
      rw [← sub_eq_zero] at e'
      refine Eq.trans ?_ e'
      simp only [sub_smul, Finset.sum_sub_distrib, Int.cast_smul_eq_zsmul]
      abel
    · push Not at h
      exact .inl h
  · right; right
    have e' : c + delta + (a.commitment g + delta) - z • g.pc.Bbl = 0 := by rw [e]; abel
    refine Eq.trans ?_ e'
    rw [hc, ha]
    simp only [sub_smul, add_smul, Finset.sum_add_distrib, Int.cast_smul_eq_zsmul, two_nsmul]
    abel

theorem VState.OpenedBy.of_prefix {F G X : Type} [Field F] [AddCommGroup G] [Module F G] {g : Gens G} {t t' : VState F G X} {w : Assignment F}
    {bl : Nat → F} (h : t'.OpenedBy g w bl) (hp : t.vecComms <+: t'.vecComms) : t.OpenedBy g w bl := by
  intro j c d hj
  obtain ⟨l, hl⟩ := hp
  refine h j c d ?_
  rw [← hl, List.getElem?_append_left (List.getElem?_eq_some_iff.1 hj).1, hj]

variable {B : Bool → Type} [∀ p, Field (B p)] [∀ p, DecidableEq (B p)] {C : ∀ p, SWCurve (B p)}
  [∀ p, Module (B (!p)) (C p).Pt] {L : Nat} {K SK S : Type}

omit [∀ p, Module (B (!p)) (C p).Pt] in
theorem oddVerifier_mono {o : SideO C true} {fx : Bool} {prm : SelRerand C} {T : CurveTree L 1 (Pts C)}
    {path : Path (C false).Pt (C true).Pt} {s s' : SideV C true}
    (h : oddVerifierGadget o fx prm T path s = .ok s') :
    s.vecComms <+: s'.vecComms ∧ ∀ w, s'.SatisfiedBy w → s.SatisfiedBy w := by
  unfold oddVerifierGadget at h
  split at h
  · cases h
  · obtain ⟨a, b⟩ := verifierLoop_ok o _ 0 h
    exact ⟨⟨_, a.symm⟩, b⟩

/-- What C44 says about one spent coin `j`: it is a coin of the tree, with the same amount and tag. -/
def Spends (coins : List (Coin (B true) S)) (vals : Nat → B true) : Prop :=
  ∃ a ∈ coins, vals 0 = (a.value : B true) ∧ vals 1 = a.tag

/-- The other possibility: the openings contain a linear relation, with known coefficients that are not all zero, between generators and `Δ`. -/
def PourRelation (prm : SelRerand C) (T : CurveTree L 1 (Pts C)) (coins : List (Coin (B true) S)) (t : ∀ p, SideV C p) (spent : List Nat)
    (vs : ∀ p, List (List (Window (B (!p))))) (w : ∀ p, Assignment (B (!p))) (bl : ∀ p, Nat → B (!p)) : Prop :=
  (∃ p j c xs, (t p).vecComms[j]? = some (c, L) ∧ (⟨p, xs⟩ : Σ p, Nat → B (!p)) ∈ T.branches prm.tree 0 ∧
    ∃ z ∈ 0 :: prm.scalars (!p) (vs (!p)) (w (!p)), SecondOpening (prm.gens p) (prm.layer p).delta L xs ((w p).vec j) (bl p j) z) ∨
  ∃ j ∈ spent, ∃ a ∈ coins, ∃ z ∈ 0 :: prm.scalars true (vs true) (w true),
    SecondCoinOpening (F := B (!false)) (G := (C false).Pt) (prm.gens false) (prm.layer false).delta L a ((w false).vec j) (bl false j) z

/-- One spent coin. -/
theorem spend_one {prm : SelRerand C} (hv : prm.Valid) (hg : prm.tree.EnoughGens L 1) (hL : 2 ≤ L)
    (hx0 : ∀ p y, ¬ (C p).OnCurve 0 y) {leaves : List (C false).Pt} {height : Option Nat} {fuel : Nat} {T : CurveTree L 1 (Pts C)}
    (ht : fromSet prm.tree leaves height fuel = some (.ok T))
    (hfuel : leaves.length + height.getD 0 ≤ fuel) (h0 : T.height ≠ 0)
    {o : ∀ p, SideO C p} {path path' : Path (C false).Pt (C true).Pt} (hr : addRoot T path = .ok path') {t t1 t' : ∀ p, SideV C p}
    (hE : evenVerifierGadget (o false) true prm T path' (t false) = .ok (t1 false))
    (hO : oddVerifierGadget (o true) true prm T path' (t true) = .ok (t1 true))
    (hp : ∀ p, (t1 p).vecComms <+: (t' p).vecComms) (hm : ∀ p w, (t' p).SatisfiedBy w → (t1 p).SatisfiedBy w)
    {j : Nat} (hj : (t' false).vecComms[j]? = some (path.selected, L))
    (hlen : path.even.length + path.odd.length + 1 = T.height)
    (nE : ∀ c ∈ path.even, c + (prm.layer false).delta ≠ 0) (nO : ∀ c ∈ path.odd, c + (prm.layer true).delta ≠ 0)
    (nS : path.selected + (prm.layer false).delta ≠ 0) :
    ∃ vs : ∀ p, List (List (Window (B (!p)))), ∀ coins : List (Coin (B true) S), CoinsOf prm coins leaves →
      ∀ w : ∀ p, Assignment (B (!p)), (∀ p, (t' p).SatisfiedBy (w p)) →
      ∀ bl : ∀ p, Nat → B (!p), (∀ p, (t' p).OpenedBy (prm.gens p) (w p) (bl p)) →
      Spends coins ((w false).vec j) ∨ PourRelation prm T coins t' [j] vs w bl := by
  have hacc : treeVerifierGadget (o false) (o true) true prm T path (t false) (t true) = .ok (path'.selected, t1 false, t1 true) := by
    simp [treeVerifierGadget, hr, hE, hO]
  have hsel : path'.selected = path.selected := (evenVerifier_ok hr hE).2.1
  obtain ⟨-, vs, key⟩ := C22_membership_partial hv hg hL hx0 ht hfuel h0 (t := t) (t' := t1) hacc hlen nE nO (by rw [hsel]; exact nS)
  refine ⟨vs, fun coins hcoins w hw bl hbl => ?_⟩
  rcases key w (fun p => hm p _ (hw p)) bl (fun p => VState.OpenedBy.of_prefix (hbl p) (hp p)) with ⟨leaf, hl, z, hz, hre⟩ | ⟨p, j', c, xs, h1, h2, h3⟩
  · rw [← hcoins] at hl
    obtain ⟨a, ha, rfl⟩ := List.mem_map.1 hl
    rw [hsel] at hre
    have hop := hbl false j _ _ hj
    rcases coin_opening_or (F := B (!false)) hL hop hre with h | h
    · exact .inl ⟨a, ha, h 0 (by omega), h 1 (by omega)⟩
    · exact .inr (.inr ⟨j, by simp, a, ha, z, hz, h⟩)
  · refine .inr (.inl ⟨p, j', c, xs, ?_, h2, h3⟩)
    obtain ⟨l, hl⟩ := hp p
    rw [← hl, List.getElem?_append_left (List.getElem?_eq_some_iff.1 h1).1, h1]

set_option maxHeartbeats 1000000 in
/-- C44 with the coins quantified after the variables from which the scalars are read. -/
theorem pour_spends {prm : SelRerand C} (hv : prm.Valid)
    (hg : prm.tree.EnoughGens L 1) (hx0 : ∀ p y, ¬ (C p).OnCurve 0 y) {leaves : List (C false).Pt} {height : Option Nat} {fuel : Nat} {T : CurveTree L 1 (Pts C)}
    (ht : fromSet prm.tree leaves height fuel = some (.ok T))
    (hfuel : leaves.length + height.getD 0 ≤ fuel) (h0 : T.height ≠ 0)
    {o : ∀ p, SideO C p} {tag : K → B true} {dom : ∀ p, Transcript (B (!p)) (C p).Pt (C (!p)).Pt} {pour : PourOf C K} {t : ∀ p, SideV C p}
    (h : pourCircuits o true prm tag T dom pour = .ok (t false, t true))
    (hlen0 : pour.path0.even.length + pour.path0.odd.length + 1 = T.height) (hlen1 : pour.path1.even.length + pour.path1.odd.length + 1 = T.height)
    (nE : ∀ c ∈ pour.path0.even ++ pour.path1.even, c + (prm.layer false).delta ≠ 0)
    (nO : ∀ c ∈ pour.path0.odd ++ pour.path1.odd, c + (prm.layer true).delta ≠ 0)
    (nS : ∀ c ∈ [pour.path0.selected, pour.path1.selected], c + (prm.layer false).delta ≠ 0) :
    ∃ vs : ∀ p, List (List (Window (B (!p)))), ∀ coins : List (Coin (B true) S), CoinsOf prm coins leaves → (∀ a ∈ coins, a.value < 2 ^ 64) →
      ∀ w : ∀ p, Assignment (B (!p)), (∀ p, (t p).SatisfiedBy (w p)) →
      ∀ bl : ∀ p, Nat → B (!p), (∀ p, (t p).OpenedBy (prm.gens p) (w p) (bl p)) →
      (∃ a0 ∈ coins, ∃ a1 ∈ coins, ∃ m0 m1 : Nat, m0 < 2 ^ 64 ∧ m1 < 2 ^ 64 ∧ (w false).vec 0 0 = (m0 : B true) ∧ (w false).vec 1 0 = (m1 : B true) ∧
        a0.tag = tag pour.pk0 ∧ a1.tag = tag pour.pk1 ∧ (a0.value : B true) + a1.value = m0 + m1 ∧
        ∀ q, CharP (B true) q → 2 ^ 65 ≤ q → a0.value + a1.value = m0 + m1) ∨
      PourRelation prm T coins t [pour.spent0, pour.spent1] vs w bl := by
  obtain ⟨path0, path1, r0, r1, hE, hO⟩ := pourCircuits_even h
  obtain ⟨hL, -, ⟨a, a', b, b', ga, gb, pa, pb, hsat⟩, -⟩ := pourEvenCircuit_ok r0 r1 rfl hE
  obtain ⟨-, -, j0, j1, hbal⟩ := pour_amounts h
  have htags := fun w hw => C29_tags_partial h (w := w) hw
  unfold pourOddCircuit at hO
  split at hO
  · cases hO
  rename_i sO1 hO0
  obtain ⟨q1, q2⟩ := oddVerifier_mono hO
  obtain ⟨vs0, k0⟩ := spend_one (S := S) hv hg hL hx0 ht hfuel h0 (o := o) r0
    (t := fun p => match p with | false => a | true => .new (dom true)) (t1 := fun p => match p with | false => a' | true => sO1)
    (t' := t) ga hO0 (Bool.forall_bool.2 ⟨pa, q1⟩) (Bool.forall_bool.2 ⟨fun w hw => (hsat w hw).1, q2⟩) j0 hlen0
    (fun c hc => nE c (by simp [hc])) (fun c hc => nO c (by simp [hc])) (nS _ (by simp))
  obtain ⟨vs1, k1⟩ := spend_one (S := S) hv hg hL hx0 ht hfuel h0 (o := o) r1
    (t := fun p => match p with | false => b | true => sO1) (t1 := fun p => match p with | false => b' | true => t true)
    (t' := t) gb hO (Bool.forall_bool.2 ⟨pb, List.prefix_refl _⟩) (Bool.forall_bool.2 ⟨fun w hw => (hsat w hw).2, fun w hw => hw⟩) j1 hlen1
    (fun c hc => nE c (by simp [hc])) (fun c hc => nO c (by simp [hc])) (nS _ (by simp))
  refine ⟨fun p => vs0 p ++ vs1 p, fun coins hcoins hval w hw bl hbl => ?_⟩
  have hz : ∀ p z, z ∈ 0 :: prm.scalars p (vs0 p) (w p) ∨ z ∈ 0 :: prm.scalars p (vs1 p) (w p) →
      z ∈ 0 :: prm.scalars p (vs0 p ++ vs1 p) (w p) := by
    intro p z hz
    simp only [SelRerand.scalars, List.map_append, List.mem_cons, List.mem_append] at hz ⊢
    rcases hz with (h | h) | (h | h)
    exacts [.inl h, .inr (.inl h), .inl h, .inr (.inr h)]
  rcases k0 coins hcoins w hw bl hbl with ⟨a0, ha0, e0, f0⟩ | hrel | hrel
  · rcases k1 coins hcoins w hw bl hbl with ⟨a1, ha1, e1, f1⟩ | hrel | hrel
    · left
      obtain ⟨m0, m1, b1, b2, b3, b4, b5⟩ := hbal (w false) (hw false)
      obtain ⟨t0, t1⟩ := htags (w false) (hw false)
      rw [e0, e1] at b5
      exact ⟨a0, ha0, a1, ha1, m0, m1, b1, b2, b3, b4, f0.symm.trans t0, f1.symm.trans t1, b5,
        fun q _ hq => sum_of_field hq (hval a0 ha0) (hval a1 ha1) b1 b2 b5⟩
    · obtain ⟨p, j, c, xs, h1, h2, z, h3, h4⟩ := hrel
      exact .inr (.inl ⟨p, j, c, xs, h1, h2, z, hz _ _ (.inr h3), h4⟩)
    · obtain ⟨j, h1, a, h2, z, h3, h4⟩ := hrel
      rw [List.mem_singleton] at h1
      exact .inr (.inr ⟨j, by simp [h1], a, h2, z, hz _ _ (.inr h3), h4⟩)
  · obtain ⟨p, j, c, xs, h1, h2, z, h3, h4⟩ := hrel
    exact .inr (.inl ⟨p, j, c, xs, h1, h2, z, hz _ _ (.inl h3), h4⟩)
  · obtain ⟨j, h1, a, h2, z, h3, h4⟩ := hrel
    rw [List.mem_singleton] at h1
    exact .inr (.inr ⟨j, by simp [h1], a, h2, z, hz _ _ (.inl h3), h4⟩)

/-- **C44** for the repaired `re_randomize` (`fx = true`): let the tree be made from the coins `coins` (amounts below `2^64`), and let a Pour have paths of the
height of the tree. Every satisfying assignment of its two circuits that opens the commitments either contains a linear relation between
the generators (`PourRelation`), or the two spent coins are coins `a0`, `a1` of the tree, their tags are the hashes of the two keys, and the minted
amounts are integers below `2^64` with the same sum in the field, hence the same sum if the characteristic of the field is at least `2^65`. Missing, and false of the code: the repair (see `C44_inflation`), the height of the paths (C24), and `a0 ≠ a1` (C46). -/
theorem C44_pour_spends_partial {prm : SelRerand C} (hv : prm.Valid)
    (hg : prm.tree.EnoughGens L 1) (hx0 : ∀ p y, ¬ (C p).OnCurve 0 y) {coins : List (Coin (B true) S)}
    (hval : ∀ a ∈ coins, a.value < 2 ^ 64) {height : Option Nat} {fuel : Nat} {T : CurveTree L 1 (Pts C)}
    (ht : fromSet prm.tree (coins.map fun a => Coin.commitment (F := B (!false)) (G := (C false).Pt) (prm.gens false) a) height fuel = some (.ok T))
    (hfuel : coins.length + height.getD 0 ≤ fuel) (h0 : T.height ≠ 0)
    {o : ∀ p, SideO C p} {tag : K → B true} {dom : ∀ p, Transcript (B (!p)) (C p).Pt (C (!p)).Pt} {pour : PourOf C K} {t : ∀ p, SideV C p}
    (h : pourCircuits o true prm tag T dom pour = .ok (t false, t true))
    (hlen0 : pour.path0.even.length + pour.path0.odd.length + 1 = T.height) (hlen1 : pour.path1.even.length + pour.path1.odd.length + 1 = T.height)
    (nE : ∀ c ∈ pour.path0.even ++ pour.path1.even, c + (prm.layer false).delta ≠ 0)
    (nO : ∀ c ∈ pour.path0.odd ++ pour.path1.odd, c + (prm.layer true).delta ≠ 0)
    (nS : ∀ c ∈ [pour.path0.selected, pour.path1.selected], c + (prm.layer false).delta ≠ 0) :
    ∃ vs : ∀ p, List (List (Window (B (!p)))), ∀ w : ∀ p, Assignment (B (!p)), (∀ p, (t p).SatisfiedBy (w p)) →
      ∀ bl : ∀ p, Nat → B (!p), (∀ p, (t p).OpenedBy (prm.gens p) (w p) (bl p)) →
      (∃ a0 ∈ coins, ∃ a1 ∈ coins, ∃ m0 m1 : Nat, m0 < 2 ^ 64 ∧ m1 < 2 ^ 64 ∧ (w false).vec 0 0 = (m0 : B true) ∧ (w false).vec 1 0 = (m1 : B true) ∧
        a0.tag = tag pour.pk0 ∧ a1.tag = tag pour.pk1 ∧ (a0.value : B true) + a1.value = m0 + m1 ∧
        ∀ q, CharP (B true) q → 2 ^ 65 ≤ q → a0.value + a1.value = m0 + m1) ∨
      PourRelation prm T coins t [pour.spent0, pour.spent1] vs w bl := by
  obtain ⟨vs, key⟩ := pour_spends hv hg hx0 ht (by simpa using hfuel) h0 h hlen0 hlen1 nE nO nS
  exact ⟨vs, key coins rfl hval⟩

/-- **C46** under an extra condition, for the repaired `re_randomize` (`fx = true`): if the two keys of the Pour have different tags, the openings contain a linear
relation between the generators, or the two spent coins are two different coins of the tree, and their amounts have the sum of the minted amounts.
Missing: equal tags, for which the property is false (`C46_same_coin_twice`), and the conditions of `C44_pour_spends_partial`. A Verifier that refuses
equal tags in one Pour therefore excludes the double use. -/
theorem C46_different_tags_partial {prm : SelRerand C} (hv : prm.Valid)
    (hg : prm.tree.EnoughGens L 1) (hx0 : ∀ p y, ¬ (C p).OnCurve 0 y) {coins : List (Coin (B true) S)}
    (hval : ∀ a ∈ coins, a.value < 2 ^ 64) {height : Option Nat} {fuel : Nat} {T : CurveTree L 1 (Pts C)}
    (ht : fromSet prm.tree (coins.map fun a => Coin.commitment (F := B (!false)) (G := (C false).Pt) (prm.gens false) a) height fuel = some (.ok T))
    (hfuel : coins.length + height.getD 0 ≤ fuel) (h0 : T.height ≠ 0)
    {o : ∀ p, SideO C p} {tag : K → B true} {dom : ∀ p, Transcript (B (!p)) (C p).Pt (C (!p)).Pt} {pour : PourOf C K} {t : ∀ p, SideV C p}
    (h : pourCircuits o true prm tag T dom pour = .ok (t false, t true))
    (hlen0 : pour.path0.even.length + pour.path0.odd.length + 1 = T.height) (hlen1 : pour.path1.even.length + pour.path1.odd.length + 1 = T.height)
    (nE : ∀ c ∈ pour.path0.even ++ pour.path1.even, c + (prm.layer false).delta ≠ 0)
    (nO : ∀ c ∈ pour.path0.odd ++ pour.path1.odd, c + (prm.layer true).delta ≠ 0)
    (nS : ∀ c ∈ [pour.path0.selected, pour.path1.selected], c + (prm.layer false).delta ≠ 0)
    (htag : tag pour.pk0 ≠ tag pour.pk1) :
    ∃ vs : ∀ p, List (List (Window (B (!p)))), ∀ w : ∀ p, Assignment (B (!p)), (∀ p, (t p).SatisfiedBy (w p)) →
      ∀ bl : ∀ p, Nat → B (!p), (∀ p, (t p).OpenedBy (prm.gens p) (w p) (bl p)) →
      (∃ i i' : Nat, i ≠ i' ∧ ∃ a0 a1 : Coin (B true) S, coins[i]? = some a0 ∧ coins[i']? = some a1 ∧ a0.tag = tag pour.pk0 ∧ a1.tag = tag pour.pk1 ∧
        ∃ m0 m1 : Nat, (w false).vec 0 0 = (m0 : B true) ∧ (w false).vec 1 0 = (m1 : B true) ∧
          (a0.value : B true) + a1.value = m0 + m1 ∧ ∀ q, CharP (B true) q → 2 ^ 65 ≤ q → a0.value + a1.value = m0 + m1) ∨
      PourRelation prm T coins t [pour.spent0, pour.spent1] vs w bl := by
  obtain ⟨vs, key⟩ := C44_pour_spends_partial hv hg hx0 hval ht hfuel h0 h hlen0 hlen1 nE nO nS
  refine ⟨vs, fun w hw bl hbl => ?_⟩
  rcases key w hw bl hbl with ⟨a0, h1, a1, h2, m0, m1, -, -, e0, e1, t0, t1, hf, hs⟩ | h
  · left
    obtain ⟨i, hi⟩ := List.mem_iff_getElem?.1 h1
    obtain ⟨i', hi'⟩ := List.mem_iff_getElem?.1 h2
    refine ⟨i, i', ?_, a0, a1, hi, hi', t0, t1, m0, m1, e0, e1, hf, hs⟩
    rintro rfl
    rw [hi] at hi'
    exact htag (by rw [← t0, ← t1, Option.some.inj hi'])
  · exact .inr h

end CT
