import Verif.Proofs.Sizes
import Verif.Proofs.Coin
import Verif.Props.TreeGadgets
import Verif.Props.Serialize
import Verif.Model.Accumulator
import Verif.Model.Metrics

/-! # C65: the sizes of what is sent -/

namespace CT

section
variable {F G X : Type} [Field F] [DecidableEq F] [AddCommGroup G] [DecidableEq G] [Module F G] {cF : Codec F} {cG : Codec G}

/-- The bytes of a proof of a circuit without second phase. -/
theorem C65_proof_size (hF : cF.Element) (hG : cG.Element) {o : Oracle F G X} {g : Gens G} {rnd : PRand F} {s : PState F G X}
    (hcG : g.capacity ≤ g.Gs.length) (hd : s.deferred = []) {p : R1CSProof F G} {tr : Transcript F G X}
    (h : prove o g rnd s = .ok (p, tr)) :
    ((proofCodec cF cG).enc p).length = proofSize s.size s.vecOpen.length (cG.size 0) (cF.size 0) := by
  have hpd : s.pad.deferred = [] := by rw [PState.pad_eq]; exact hd
  have h2 : ∃ s2, s.secondPhase o (s.firstCommitments g rnd) = .ok s2 ∧ s2.size = s.size ∧ s2.vecOpen = s.vecOpen := by
    unfold PState.secondPhase PState.createRandomized
    simp only [hpd, if_true]
    exact ⟨_, rfl, s.pad_size, by rw [PState.pad_eq]⟩
  obtain ⟨s2, e1, e2, e3⟩ := h2
  have hz : p.AI2 = 0 ∧ p.AO2 = 0 ∧ p.S2 = 0 := by
    have h' := h
    rw [prove_eq, e1] at h'
    split at h'
    · cases h'
    obtain ⟨a1, a2, a3⟩ := proveTail_second h'
    have hc : commit2 g rnd s2 s.size s2.size = ⟨0, 0, 0⟩ := by unfold commit2; rw [if_neg (by omega)]
    rw [hc] at a1 a2 a3
    exact ⟨a1, a2, a3⟩
  have := (C43_proof_bytes hF hG o g rnd s s2 hcG e1 p tr h).1
  rw [if_pos hz, e2, e3] at this
  rw [R1CSProof.toBytes] at this
  rw [this, proofSize, proofPoints]
  ring

end

theorem vecCodec_size {α : Type} {c : Codec α} (h : c.Element) (a : α) (l : List α) : (vecCodec c).size l = 8 + l.length * c.size a := by
  simp only [vecCodec, Nat.add_left_cancel_iff]
  induction l with
  | nil => simp
  | cons b l ih => rw [List.map_cons, List.sum_cons, ih, h.sizeConst b a, List.length_cons]; ring

variable {B : Bool → Type} [∀ p, Field (B p)] [∀ p, DecidableEq (B p)] {C : ∀ p, SWCurve (B p)}
  [∀ p, Module (B (!p)) (C p).Pt] {L M : Nat} [NeZero M] {bits : Nat}

/-- What the tree gadget adds to both Provers, and the number of points of the path. -/
theorem treeProver_gets {prm : SelRerand C} (hb : ∀ p, (prm.layer p).lambda = bits) (h3 : 3 ≤ bits) (hg : prm.tree.EnoughGens L M) (hL : 2 ≤ L)
    {set : List (C false).Pt} {height : Option Nat} {fuel : Nat} {T : CurveTree L M (Pts C)}
    (ht : fromSet prm.tree set height fuel = some (.ok T)) (hfuel : set.length + height.getD 0 ≤ fuel) (h0 : T.height ≠ 0)
    {oE : SideO C false} {oO : SideO C true} {fx : Bool} {rnd : ∀ p, Nat → B (!p)}
    (hE : ∀ j, j + 1 < (T.height + 1) / 2 → rnd false j ≠ 0) (hO : ∀ j < T.height / 2, rnd true j ≠ 0)
    {sE sE' : SideP C false} {sO sO' : SideP C true} {i : Nat} {path : Path (C false).Pt (C true).Pt} {r : B (!false)}
    (hp : treeProverGadget oE oO fx prm rnd T i 0 sE sO = .ok ((path, r), sE', sO')) :
    sE.Gets sE' (levelGates L bits * (T.height / 2)) (levelAllocations bits * (T.height / 2)) ((T.height - 1) / 2) L ∧
    sO.Gets sO' (levelGates L bits * ((T.height + 1) / 2)) (levelAllocations bits * ((T.height + 1) / 2)) (T.height / 2) L ∧
    path.odd.length = T.height / 2 ∧ path.even.length + 1 = (T.height + 1) / 2 := by
  unfold treeProverGadget at hp
  cases hw : T.witness prm.tree i 0 with
  | error e => simp [hw] at hp
  | ok nodes =>
    simp only [hw] at hp
    obtain ⟨a, b⟩ := C26_witness_every_index hg hL ht hfuel 0 i
    cases hl : set[i % L ^ T.height]? with
    | none =>
      obtain ⟨m, hm⟩ := b hl
      rw [hw] at hm
      exact absurd hm (by simp)
    | some leaf =>
      obtain ⟨nodes', hn', hT⟩ := a leaf hl
      rw [hw] at hn'
      cases hn'
      obtain ⟨lt, lf⟩ := pathTo_lengths hT
      obtain ⟨re, hre, hrt, hsib⟩ : ∃ re, rootIsEven nodes = .ok re ∧ (re = true ↔ T.height % 2 = 0) ∧
          ∀ p, ∀ w ∈ nodes p, w.siblings.length = L := by
        have mem : ∀ {q : Bool} {w : WPath B (Pts C) q} {c : (C q).Pt} {idx : Nat}, w.From prm.tree L idx ⟨false, leaf⟩ c →
            ∀ p, ∀ x ∈ w.nodes p, x.siblings.length = L := by
          intro q w c idx h p x hx
          obtain ⟨k, hk⟩ := List.mem_iff_getElem?.1 hx
          exact (from_nodes h p k x hk).1
        cases T with
        | even n =>
          obtain ⟨w, rfl, h1, h2, h3⟩ := hT
          have e := even_lengths (aligned w _ h2)
          exact ⟨true, by unfold rootIsEven; rw [if_pos e], by simp only [true_iff]; omega, mem h2⟩
        | odd n =>
          obtain ⟨w, rfl, h1, h2, h3⟩ := hT
          have e := odd_lengths (aligned w _ h2)
          exact ⟨false, by unfold rootIsEven; rw [if_neg (by omega), if_pos e], by simp only [Bool.false_eq_true, false_iff]; omega, mem h2⟩
      unfold pathProverGadget at hp
      split at hp
      · cases hp
      rename_i s1 e1
      split at hp
      · cases hp
      rename_i s2 e2
      simp only [Except.ok.injEq, Prod.mk.injEq] at hp
      obtain ⟨⟨rfl, -⟩, rfl, rfl⟩ := hp
      have k1 := proverLoop_gets (hb _) h3 (by omega : 1 ≤ L) hre (nodes false) 0 (hsib false)
        (fun j hj _ hj0 => hE _ (by rw [lf] at hj; omega))
        (fun j hj e => hE _ (by
          have : ¬ re = true := e
          rw [hrt] at this
          rw [lf] at hj; omega)) e1
      have k2 := proverLoop_gets (hb _) h3 (by omega : 1 ≤ L) hre (nodes true) 0 (hsib true)
        (fun j hj _ hj0 => hO _ (by rw [lt] at hj; omega))
        (fun j hj e => hO _ (by
          have : re = true := by simpa using e
          rw [hrt] at this
          rw [lt] at hj; omega)) e2
      refine ⟨k1.cast (by rw [lf]) (by rw [lf]) ?_ (.inr le_rfl), k2.cast (by rw [lt]) (by rw [lt]) ?_ (.inr le_rfl), ?_, ?_⟩
      · rw [lf]
        by_cases e : re = true
        · have hev : T.height % 2 = 0 := hrt.1 e
          rw [if_pos ⟨e, rfl⟩]; omega
        · have hev : ¬ T.height % 2 = 0 := fun h => e (hrt.2 h)
          rw [if_neg (fun h => e h.1)]; omega
      · rw [lt]
        by_cases e : re = true
        · have hev : T.height % 2 = 0 := hrt.1 e
          rw [if_neg (by rw [e]; simp)]; omega
        · have hev : ¬ T.height % 2 = 0 := fun h => e (hrt.2 h)
          rw [if_pos ⟨by simpa using e, rfl⟩]; omega
      · simp [proverPath, rerandomized, lf]
      · simp only [proverPath, rerandomized, List.length_dropLast, List.length_mapIdx, lt]; omega

omit [∀ p, DecidableEq (B p)] [∀ p, Module (B (!p)) (C p).Pt] in
theorem path_bytes {c0 : Codec (C false).Pt} {c1 : Codec (C true).Pt} (hc0 : c0.Element) (hc1 : c1.Element) {path : Path (C false).Pt (C true).Pt}
    {D : Nat} (h1 : path.odd.length = D / 2) (h2 : path.even.length + 1 = (D + 1) / 2) :
    ((pathCodec c0 c1).enc path).length = pathSize D (c0.size 0) (c1.size 0) := by
  have := path_size hc0 hc1 path
  rw [Codec.SizeExact] at this
  rw [← this]
  simp only [pathCodec]
  rw [vecCodec_size hc0 0, vecCodec_size hc1 0, h1, hc0.sizeConst _ 0, pathSize, ← h2]
  ring

/-- **C65**. Take any tree made by `from_set` with branching factor `L` and height `D ≥ 1`, any index, and two fresh Provers. If the Provers
make a path and the two proofs for it (none of the scalars drawn for inner nodes being zero), the path and the proofs take
`membershipSize L bits D …` bytes together, whatever the set, the leaf and the randomness, and `number_of_constraints()` of the two Provers is
`multipliersFor L bits (D / 2) 0` and `multipliersFor L bits ((D + 1) / 2) 0`. -/
theorem C65_membership_size {prm : SelRerand C} (hb : ∀ p, (prm.layer p).lambda = bits) (h3 : 3 ≤ bits) (hg : prm.tree.EnoughGens L M) (hL : 2 ≤ L)
    (hcap : ∀ p, (prm.gens p).capacity ≤ (prm.gens p).Gs.length)
    {set : List (C false).Pt} {height : Option Nat} {fuel : Nat} {T : CurveTree L M (Pts C)}
    (ht : fromSet prm.tree set height fuel = some (.ok T)) (hfuel : set.length + height.getD 0 ≤ fuel) (h0 : T.height ≠ 0)
    {o : ∀ p, SideO C p} {fx : Bool} {rnd : ∀ p, Nat → B (!p)}
    (hE : ∀ j, j + 1 < (T.height + 1) / 2 → rnd false j ≠ 0) (hO : ∀ j < T.height / 2, rnd true j ≠ 0)
    {dom : ∀ p, Transcript (B (!p)) (C p).Pt (C (!p)).Pt} {sE : SideP C false} {sO : SideP C true} {i : Nat}
    {path : Path (C false).Pt (C true).Pt} {r : B (!false)}
    (hp : treeProverGadget (o false) (o true) fx prm rnd T i 0 (.new (dom false)) (.new (dom true)) = .ok ((path, r), sE, sO))
    {rE : PRand (B (!false))} {rO : PRand (B (!true))} {pE : R1CSProof (B (!false)) (C false).Pt} {pO : R1CSProof (B (!true)) (C true).Pt}
    {trE : Transcript (B (!false)) (C false).Pt (C (!false)).Pt} {trO : Transcript (B (!true)) (C true).Pt (C (!true)).Pt}
    (hpE : prove (o false) (prm.gens false) rE sE = .ok (pE, trE)) (hpO : prove (o true) (prm.gens true) rO sO = .ok (pO, trO))
    {cP : ∀ p, Codec (C p).Pt} {cF : ∀ p, Codec (B (!p))} (hP : ∀ p, (cP p).Element) (hF : ∀ p, (cF p).Element) :
    ((pathCodec (cP false) (cP true)).enc path).length + ((proofCodec (cF false) (cP false)).enc pE).length +
        ((proofCodec (cF true) (cP true)).enc pO).length =
      membershipSize L bits T.height ((cP false).size 0) ((cP true).size 0) ((cF false).size 0) ((cF true).size 0) ∧
    sE.numberOfConstraints = multipliersFor L bits (T.height / 2) 0 ∧
    sO.numberOfConstraints = multipliersFor L bits ((T.height + 1) / 2) 0 := by
  obtain ⟨k1, k2, k3, k4⟩ := treeProver_gets hb h3 hg hL ht hfuel h0 hE hO hp
  obtain ⟨a1, a2, a3, -⟩ := k1.fresh
  obtain ⟨b1, b2, b3, -⟩ := k2.fresh
  have lv : ∀ k, k ≠ 0 → L ≤ levelGates L bits * k + (levelAllocations bits * k + 1) / 2 := by
    intro k hk
    have : L ≤ levelGates L bits * k := (by unfold levelGates; omega : L ≤ levelGates L bits).trans (Nat.le_mul_of_pos_right _ (by omega))
    omega
  have c1 := k1.size (by
    by_cases h : T.height / 2 = 0
    · exact .inl (by omega)
    · exact .inr (lv _ h))
  have c2 := k2.size (.inr (lv _ (by omega)))
  refine ⟨?_, ?_, ?_⟩
  · rw [C65_proof_size (hF false) (hP false) (hcap false) a3 hpE, C65_proof_size (hF true) (hP true) (hcap true) b3 hpO,
      path_bytes (hP false) (hP true) k3 k4, c1, c2, a2, b2]
    rfl
  · rw [PState.numberOfConstraints, a1]; rfl
  · rw [PState.numberOfConstraints, b1]; rfl

/-- **C65**, the accumulator: the same with a leaf of any number of elements. -/
theorem C65_accumulator_size {prm : SelRerand C} (hb : ∀ p, (prm.layer p).lambda = bits) (h3 : 3 ≤ bits) (hg : prm.tree.EnoughGens L M) (hL : 2 ≤ L)
    (hcap : ∀ p, (prm.gens p).capacity ≤ (prm.gens p).Gs.length)
    {set : List (C false).Pt} {height : Option Nat} {fuel : Nat} {T : CurveTree L M (Pts C)}
    (ht : fromSet prm.tree set height fuel = some (.ok T)) (hfuel : set.length + height.getD 0 ≤ fuel) (h0 : T.height ≠ 0)
    {o : ∀ p, SideO C p} {fx : Bool} {rnd : ∀ p, Nat → B (!p)}
    (hE : ∀ j, j + 1 < (T.height + 1) / 2 → rnd false j ≠ 0) (hO : ∀ j < T.height / 2, rnd true j ≠ 0)
    {dom : ∀ p, Transcript (B (!p)) (C p).Pt (C (!p)).Pt} {rE : PRand (B (!false))} {rO : PRand (B (!true))} {i : Nat}
    {elements : List (B (!false))} {element : B (!false)} {pf : AccProof C}
    (hp : accProve o fx prm T dom rnd rE rO i elements element = .ok pf)
    {cP : ∀ p, Codec (C p).Pt} {cF : ∀ p, Codec (B (!p))} (hP : ∀ p, (cP p).Element) (hF : ∀ p, (cF p).Element) :
    ((pathCodec (cP false) (cP true)).enc pf.path).length + ((proofCodec (cF false) (cP false)).enc pf.even).length +
        ((proofCodec (cF true) (cP true)).enc pf.odd).length =
      accumulatorSize L bits T.height elements.length ((cP false).size 0) ((cP true).size 0) ((cF false).size 0) ((cF true).size 0) := by
  unfold accProve at hp
  split at hp
  · cases hp
  rename_i path sE sO hpr
  split at hp
  · cases hp
  rename_i pE trE hpE
  split at hp
  · cases hp
  rename_i pO trO hpO
  cases hp
  unfold accProvers at hpr
  split at hpr
  · cases hpr
  rename_i path' r s1 s1' ht'
  split at hpr
  · cases hpr
  rename_i leaf vars s2 hc
  split at hpr
  rotate_left
  · cases hpr
  split at hpr
  · cases hpr
  rename_i u s3 hs
  cases hpr
  obtain ⟨k1, k2, k3, k4⟩ := treeProver_gets hb h3 hg hL ht hfuel h0 hE hO ht'
  obtain ⟨b1, b2, b3, -⟩ := k2.fresh
  obtain ⟨c1, c2⟩ := commitVec_gets hc
  have d1 := (costs_select (LC.const element) (vars.map LC.ofVar)).gets hs
  have hlen : vars.length = elements.length := c2
  rw [List.length_map, hlen] at d1
  have lv : ∀ k, k ≠ 0 → L ≤ levelGates L bits * k + (levelAllocations bits * k + 1) / 2 := by
    intro k hk
    have : L ≤ levelGates L bits * k := (by unfold levelGates; omega : L ≤ levelGates L bits).trans (Nat.le_mul_of_pos_right _ (by omega))
    omega
  have k1' : PState.Gets _ s1 _ _ _ (if T.height / 2 = 0 then 0 else L) := k1.cast rfl rfl rfl (by
    by_cases h : T.height / 2 = 0
    · exact .inl (by omega)
    · rw [if_neg h]; exact .inr le_rfl)
  obtain ⟨a1, a2, a3, a4⟩ := ((k1'.trans c1).trans d1).fresh
  have a5 : sE.aL.length = multipliersFor L bits (T.height / 2) (elements.length - 1) := by
    rw [a1]; unfold multipliersFor; simp only [Nat.add_zero]
  have hsz : sE.size = max elements.length (multipliersFor L bits (T.height / 2) (elements.length - 1)) := by
    refine PState.size_of_max (by rw [a5]; omega) (fun v hv => ?_) ?_
    · have := a4 v hv
      by_cases h : T.height / 2 = 0
      · rw [if_pos h] at this; omega
      · rw [if_neg h] at this
        have := lv _ h
        unfold multipliersFor
        omega
    · rcases le_total elements.length (multipliersFor L bits (T.height / 2) (elements.length - 1)) with h | h
      · exact .inl (by rw [a5]; omega)
      · refine .inr ⟨(r, elements), ?_, by simp only; omega⟩
        obtain ⟨-, e, -⟩ := (costs_select (LC.const element) (vars.map LC.ofVar)).runP_frame _ hs
        rw [e]
        unfold PState.commitVec at hc
        simp only at hc
        split at hc
        · cases hc
        cases hc
        simp
  have c2 := k2.size (.inr (lv _ (by omega)))
  simp only
  rw [C65_proof_size (hF false) (hP false) (hcap false) a3 hpE, C65_proof_size (hF true) (hP true) (hcap true) b3 hpO,
      path_bytes (hP false) (hP true) k3 k4, hsz, c2, a2, b2]
  rfl

/-! ## Transactions -/

section
variable {F G X K SK S : Type} [Field F] [AddCommGroup G] [Module F G]

theorem mint_gets {o : Oracle F G X} {sch : SigScheme K SK S F} {g : Gens G} {value : Nat} {pk : K} {pkr : S} {bl : F} {s s' : PState F G X}
    {r : Coin F S × G × Variable} (h : mint o sch g value pk pkr bl s = .ok (r, s')) : s.Gets s' 64 0 1 2 := by
  unfold mint at h
  split at h
  · cases h
  split at h
  · cases h
  rename_i hc
  split at h
  · cases h
  rename_i v _
  split at h
  · cases h
  rename_i hr
  cases h
  exact ((commitVec_gets hc).1.trans ((costs_rangeProof _ _ _).gets (unwrap_ok.1 hr))).cast (by simp) rfl rfl (.inr (by simp))

end

variable {K SK S : Type}

theorem proveSpend_gets {prm : SelRerand C} (hb : ∀ p, (prm.layer p).lambda = bits) (h3 : 3 ≤ bits) (hg : prm.tree.EnoughGens L 1) (hL : 2 ≤ L)
    {set : List (C false).Pt} {height : Option Nat} {fuel : Nat} {T : CurveTree L 1 (Pts C)}
    (ht : fromSet prm.tree set height fuel = some (.ok T)) (hfuel : set.length + height.getD 0 ≤ fuel) (h0 : T.height ≠ 0)
    {o : ∀ p, SideO C p} {fx : Bool} {rnd : ∀ p, Nat → B (!p)}
    (hE : ∀ j, j + 1 < (T.height + 1) / 2 → rnd false j ≠ 0) (hO : ∀ j < T.height / 2, rnd true j ≠ 0)
    {coin : Coin (B true) S} {i : Nat} {sE sE' : SideP C false} {sO sO' : SideP C true} {path : Path (C false).Pt (C true).Pt} {v : Variable}
    (hp : proveSpend o fx prm T rnd coin i sE sO = .ok ((path, v), sE', sO')) :
    sE.Gets sE' (levelGates L bits * (T.height / 2)) (levelAllocations bits * (T.height / 2)) ((T.height - 1) / 2 + 1)
      (if T.height / 2 = 0 then 2 else L) ∧
    sO.Gets sO' (levelGates L bits * ((T.height + 1) / 2)) (levelAllocations bits * ((T.height + 1) / 2)) (T.height / 2) L ∧
    path.odd.length = T.height / 2 ∧ path.even.length + 1 = (T.height + 1) / 2 := by
  unfold proveSpend at hp
  split at hp
  · cases hp
  rename_i ht'
  split at hp
  · cases hp
  rename_i hc
  split at hp
  rotate_left
  · cases hp
  split at hp
  rotate_left
  · cases hp
  cases hp
  obtain ⟨k1, k2, k3, k4⟩ := treeProver_gets hb h3 hg hL ht hfuel h0 hE hO ht'
  have k1' := k1.cast (d' := if T.height / 2 = 0 then 2 else L) rfl rfl rfl (by
    by_cases h : T.height / 2 = 0
    · exact .inl (by omega)
    · rw [if_neg h]; exact .inr le_rfl)
  refine ⟨((k1'.trans (commitVec_gets hc).1).trans (constrain_gets _ _)).cast (by simp) (by simp) (by simp) (.inr ?_), k2, k3, k4⟩
  simp only [List.length_cons, List.length_nil]
  split <;> omega

/-- **C65**, transactions: any transaction made by `prove_pour` with two fresh Provers takes `transactionSize L bits D …` bytes, whatever the
coins, values, keys and randomness. -/
theorem C65_transaction_size {prm : SelRerand C} (hb : ∀ p, (prm.layer p).lambda = bits) (h3 : 3 ≤ bits) (hg : prm.tree.EnoughGens L 1) (hL : 2 ≤ L)
    (hcap : ∀ p, (prm.gens p).capacity ≤ (prm.gens p).Gs.length)
    {set : List (C false).Pt} {height : Option Nat} {fuel : Nat} {T : CurveTree L 1 (Pts C)}
    (ht : fromSet prm.tree set height fuel = some (.ok T)) (hfuel : set.length + height.getD 0 ≤ fuel) (h0 : T.height ≠ 0)
    {o : ∀ p, SideO C p} {fx : Bool} {rnd : PourRand C S}
    (hE : ∀ t j, j + 1 < (T.height + 1) / 2 → rnd.path t false j ≠ 0) (hO : ∀ t, ∀ j < T.height / 2, rnd.path t true j ≠ 0)
    {sch : SigScheme K SK S (B true)} {in0 in1 : SpendingInfo K SK S (B true)} {val0 val1 : Nat} {pk0 pk1 : K}
    {dom : ∀ p, Transcript (B (!p)) (C p).Pt (C (!p)).Pt}
    {cP : ∀ p, Codec (C p).Pt} {cF : ∀ p, Codec (B (!p))} {cK : Codec K} {cS : Codec S} (hP : ∀ p, (cP p).Element) (hF : ∀ p, (cF p).Element)
    (hK : cK.Element) (hS : cS.Element) (k : K) (sg : S) {tx : SignedTx S}
    (hp : provePour o fx prm sch (pourCodec (cF false) (cP false) (cF true) (cP true) cK) T rnd in0 in1 val0 pk0 val1 pk1
      (.new (dom false)) (.new (dom true)) = .ok tx) :
    ((signedTxCodec cS).enc tx).length =
      transactionSize L bits T.height ((cP false).size 0) ((cP true).size 0) ((cF false).size 0) ((cF true).size 0) (cK.size k) (cS.size sg) := by
  unfold provePour at hp
  split at hp
  · cases hp
  rename_i path0 path1 c0 c1 sE sO hpr
  split at hp
  · cases hp
  rename_i pE trE hpE
  split at hp
  · cases hp
  rename_i pO trO hpO
  cases hp
  unfold pourProvers at hpr
  split at hpr
  · cases hpr
  rename_i m0
  split at hpr
  · cases hpr
  rename_i m1
  split at hpr
  · cases hpr
  rename_i q0
  split at hpr
  · cases hpr
  rename_i q1
  cases hpr
  have lv : ∀ k, k ≠ 0 → L ≤ levelGates L bits * k := fun k hk =>
    (by unfold levelGates; omega : L ≤ levelGates L bits).trans (Nat.le_mul_of_pos_right _ (by omega))
  obtain ⟨a1, a2, a3, a4⟩ := proveSpend_gets hb h3 hg hL ht hfuel h0 (hE false) (hO false) q0
  obtain ⟨b1, b2, b3, b4⟩ := proveSpend_gets hb h3 hg hL ht hfuel h0 (hE true) (hO true) q1
  have e := fun lc => ((((mint_gets m0).trans (mint_gets m1)).trans a1).trans b1).trans (constrain_gets _ lc)
  have f := a2.trans b2
  have e' := fun lc => (e lc).cast (m' := levelGates L bits * (2 * (T.height / 2)) + 128) (a' := levelAllocations bits * (2 * (T.height / 2)))
    (k' := 2 * ((T.height - 1) / 2) + 4) (by ring) (by ring) (by ring) (.inr le_rfl)
  have f' := f.cast (m' := levelGates L bits * (2 * ((T.height + 1) / 2))) (a' := levelAllocations bits * (2 * ((T.height + 1) / 2)))
    (k' := 2 * (T.height / 2)) (by ring) (by ring) (by ring) (.inr le_rfl)
  have e2 := fun lc => (e' lc).fresh.2.1
  obtain ⟨-, f2, f3, -⟩ := f'.fresh
  have e4 := fun lc => (e' lc).size (.inr (by
    by_cases h : T.height / 2 = 0
    · rw [if_pos h]; omega
    · rw [if_neg h]
      have := lv (2 * (T.height / 2)) (by omega)
      omega))
  have f4 := f'.size (.inr (by
    have := lv (2 * ((T.height + 1) / 2)) (by omega)
    omega))
  have g1 := C65_proof_size (hF false) (hP false) (hcap false) (e' _).fresh.2.2.1 (unwrap_ok.1 hpE)
  have g2 := C65_proof_size (hF true) (hP true) (hcap true) f3 (unwrap_ok.1 hpO)
  have x0 : ∀ x, ((cP false).enc x).length = (cP false).size 0 := fun x => ((hP false).sizeExact x).symm.trans ((hP false).sizeConst x 0)
  have x1 : ∀ x, (cK.enc x).length = cK.size k := fun x => (hK.sizeExact x).symm.trans (hK.sizeConst x k)
  have x2 : ∀ x, (cS.enc x).length = cS.size sg := fun x => (hS.sizeExact x).symm.trans (hS.sizeConst x sg)
  have hbytes : ∀ l : List UInt8, ((vecCodec byteCodec).enc l).length = 8 + l.length := by
    intro l
    rw [← vec_size byte_element.sizeExact l, vecCodec_size byte_element 0]
    simp [byteCodec]
  simp only [signedTxCodec, pourCodec, List.length_append, hbytes, x0, x1, x2, g1, g2, e4, f4, e2, f2,
    path_bytes (hP false) (hP true) a3 a4, path_bytes (hP false) (hP true) b3 b4]
  rw [transactionSize, multipliersFor, multipliersFor]
  ring_nf

/-! ## The recorded numbers -/

/-- The sizes in `/repo/proof_constraints.txt`, for the Pasta curves (255 bits) and for secp256k1 and secq256k1 (256 bits), with points of 33 bytes and scalars of 32: the
accumulator, transactions and membership proofs. -/
theorem C65_recorded_sizes : ∀ bits ∈ [255, 256],
    accumulatorSize 256 bits 3 64 33 33 32 32 = 2795 ∧
    transactionSize 1024 bits 2 33 33 32 32 33 32 = 3442 ∧ transactionSize 256 bits 4 33 33 32 32 33 32 = 3970 ∧
    transactionSize 1024 bits 4 33 33 32 32 33 32 = 3970 ∧
    membershipSize 1024 bits 2 33 33 32 32 = 2564 ∧ membershipSize 256 bits 4 33 33 32 32 = 2894 ∧
    membershipSize 1024 bits 4 33 33 32 32 = 2894 := by decide +kernel

/-- The numbers of constraints in that file (3868, 4664 and 7736 for membership proofs, 3562 for the accumulator) are larger than those of the code by the number of uses of
`select` that were counted: they belong to a `select` that needs one more multiplier. The benchmark for membership proofs prints twice the number of one Prover, the one for
the accumulator the sum of both. -/
theorem C65_recorded_constraints_differ : ∀ bits ∈ [255, 256],
    2 * multipliersFor 1024 bits 1 0 + 2 = 3868 ∧ 2 * multipliersFor 256 bits 2 0 + 4 = 4664 ∧ 2 * multipliersFor 1024 bits 2 0 + 4 = 7736 ∧
    multipliersFor 256 bits 1 63 + multipliersFor 256 bits 2 0 + 4 = 3562 := by decide +kernel

end CT
