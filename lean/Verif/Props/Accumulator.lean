import Verif.Proofs.Accumulator
import Verif.Props.Serialize

/-! # C58: the accumulator -/

namespace CT

section
variable {B : Bool → Type} [∀ p, Field (B p)] [∀ p, DecidableEq (B p)] {C : ∀ p, SWCurve (B p)}
  [∀ p, Module (B (!p)) (C p).Pt] {L M : Nat} [NeZero M]

/-- What makes the proof of a Prover acceptable on one side: enough generators, a size that the Verifier handles, and no point of the
proof is the identity. -/
structure SelRerand.Fits (prm : SelRerand C) (p : Bool) (s : SideP C p) (pf : R1CSProof (B (!p)) (C p).Pt) : Prop where
  Gs : (prm.gens p).capacity ≤ (prm.gens p).Gs.length
  Hs : (prm.gens p).capacity ≤ (prm.gens p).Hs.length
  size : nextPow2 s.size < 2 ^ 32
  identity : pf.NoIdentity s.vecOpen.length

theorem prove_ipp_lengths {F G X : Type} [Field F] [DecidableEq F] [AddCommGroup G] [Module F G] [DecidableEq G] {o : Oracle F G X} {g : Gens G}
    {rnd : PRand F} {s : PState F G X} {p : R1CSProof F G} {t : Transcript F G X} (hcG : g.capacity ≤ g.Gs.length)
    (h : prove o g rnd s = .ok (p, t)) : p.ipp.L.length = p.ipp.R.length := by
  rw [prove_eq] at h
  split at h
  · cases h
  · split at h
    · cases h
    · obtain ⟨-, h1, h2⟩ := proveTail_lengths o g rnd _ _ _ hcG h
      rw [h1, h2]

omit [∀ p, Module (B (!p)) (C p).Pt] in
theorem selected_of_verifier {oE : SideO C false} {oO : SideO C true} {fx : Bool} {prm : SelRerand C} {T : CurveTree L M (Pts C)} {path : Path (C false).Pt (C true).Pt}
    {tE tE' : SideV C false} {tO tO' : SideV C true} {Q : (C false).Pt}
    (h : treeVerifierGadget oE oO fx prm T path tE tO = .ok (Q, tE', tO')) : path.selected = Q := by
  unfold treeVerifierGadget at h
  split at h
  · cases h
  rename_i path' hr
  split at h
  · cases h
  rename_i sE hE
  split at h
  · cases h
  simp only [Except.ok.injEq, Prod.mk.injEq] at h
  rw [← h.1]
  exact (evenVerifier_ok hr hE).2.1.symm

/-- When the tree gadget is done and the selected point is a commitment to `ys`, the proof can be completed for every element of `ys`. -/
theorem acc_finish {prm : SelRerand C} {T : CurveTree L M (Pts C)} {o : ∀ p, SideO C p} {fx : Bool}
    {dom : ∀ p, Transcript (B (!p)) (C p).Pt (C (!p)).Pt} {path : Path (C false).Pt (C true).Pt} {sE1 : SideP C false} {sO : SideP C true}
    {tE1 : SideV C false} {tO : SideV C true}
    (v1 : treeVerifierGadget (o false) (o true) fx prm T path (.new (dom false)) (.new (dom true)) = .ok (path.selected, tE1, tO))
    (v2 : Session (o false) (prm.gens false) sE1 tE1) (v3 : Session (o true) (prm.gens true) sO tO) (gE : sE1.Good) (gO : sO.Good)
    (dE : sE1.deferred = []) (dO : sO.deferred = []) {ys : List (B (!false))} (hlen : ys.length ≤ (prm.gens false).Gs.length)
    {element : B (!false)} (hel : element ∈ ys) {r : B (!false)}
    (hsel : path.selected = msm ((prm.gens false).pc.Bbl :: (prm.gens false).Gs.take ys.length) (r :: ys)) :
    ∃ vars s1 sE tE, sE1.commitVec (prm.gens false) ys r = .ok ((path.selected, vars), s1) ∧
      runP (o false) (select (LC.const element) (vars.map LC.ofVar)) s1 = .ok ((), sE) ∧ sE.Good ∧ Session (o false) (prm.gens false) sE tE ∧
      accVerifiers o fx prm T dom ys.length element path = .ok (tE, tO) ∧
      ∀ rndE rndO pE trE pO trO, prove (o false) (prm.gens false) rndE sE = .ok (pE, trE) → prove (o true) (prm.gens true) rndO sO = .ok (pO, trO) →
        prm.Fits false sE pE → prm.Fits true sO pO →
        ∀ rs copies, copies ≠ [] → accVerify o fx prm T dom ys.length element rs (copies.map fun r => (r, ⟨path, pE, pO⟩)) = .ok () := by
  obtain ⟨s1, sE, tE, c1, c2, c3, c4, c5, c6⟩ := open_select v2 gE r hlen hel
  rw [← hsel] at c1 c3
  have hver := accVerifiers_ok.2 ⟨tE1, v1, c3⟩
  refine ⟨_, s1, sE, tE, c1, c2, c5, c4, hver, ?_⟩
  intro rndE rndO pE trE pO trO hpE hpO fE fO rs copies hne
  refine (accVerify_iff _ (fun _ => tE) (fun _ => tO) ?_).2 ⟨?_, ?_⟩
  · intro x hx
    obtain ⟨r, -, rfl⟩ := List.mem_map.1 hx
    exact hver
  · refine C10_all_valid_accepted_partial _ _ _ _ pE.ipp.L.length (by simpa using hne) ?_ ?_
    · intro x hx
      simp only [List.map_map, List.mem_map, Function.comp] at hx
      obtain ⟨r, -, rfl⟩ := hx
      exact ⟨rfl, (prove_ipp_lengths fE.Gs hpE).symm⟩
    · intro x hx
      simp only [List.map_map, List.mem_map, Function.comp] at hx
      obtain ⟨r, -, rfl⟩ := hx
      exact C01_one_phase (o false) _ rndE sE tE c4 fE.Gs fE.Hs (c6.trans dE) c5.satisfied hpE fE.size fE.identity _
  · refine C10_all_valid_accepted_partial _ _ _ _ pO.ipp.L.length (by simpa using hne) ?_ ?_
    · intro x hx
      simp only [List.map_map, List.mem_map, Function.comp] at hx
      obtain ⟨r, -, rfl⟩ := hx
      exact ⟨rfl, (prove_ipp_lengths fO.Gs hpO).symm⟩
    · intro x hx
      simp only [List.map_map, List.mem_map, Function.comp] at hx
      obtain ⟨r, -, rfl⟩ := hx
      exact C01_one_phase (o true) _ rndO sO tO v3 fO.Gs fO.Hs dO gO.satisfied hpO fO.size fO.identity _

/-- **C58**, completeness. Let a tree be made by `from_set`, and let the leaf with index `i` be the commitment to the elements `ys`. With scalars that avoid
the exceptional cases of the incomplete additions, the Prover succeeds for every element of `ys` (the assertion about the leaf holds) and both Verifiers build their circuits; and
every proof it makes is accepted, on its own and in batches of any number of copies, for all random scalars. -/
theorem C58_honest_accepted {prm : SelRerand C} (hv : prm.Valid) (hg : prm.tree.EnoughGens L M) (hL : 2 ≤ L)
    {set : List (C false).Pt} {height : Option Nat} {fuel : Nat} {T : CurveTree L M (Pts C)}
    (ht : fromSet prm.tree set height fuel = some (.ok T)) (hfuel : set.length + height.getD 0 ≤ fuel) (h0 : T.height ≠ 0)
    (o : ∀ p, SideO C p) (fx : Bool) (dom : ∀ p, Transcript (B (!p)) (C p).Pt (C (!p)).Pt) {rnd : ∀ p, Nat → B (!p)} {i : Nat} (hi : i < set.length)
    (hE : ∀ j, j + 1 < (T.height + 1) / 2 → rnd false j ≠ 0) (hO : ∀ j < T.height / 2, rnd true j ≠ 0)
    (hav : ∀ nodes, T.witness prm.tree i 0 = .ok nodes → ∀ p (k : Nat) w, (nodes p)[k]? = some w →
      prm.Avoids (!p) w.child (rnd (!p) k))
    {ys : List (B (!false))} (hys : accLeaf prm ys = some set[i]) {element : B (!false)} (hel : element ∈ ys) :
    ∃ path sE sO, accProvers o fx prm T dom rnd i ys element = .ok (path, sE, sO) ∧
      (∃ t, accVerifiers o fx prm T dom ys.length element path = .ok t) ∧
      ∀ rndE rndO pf, accProve o fx prm T dom rnd rndE rndO i ys element = .ok pf → prm.Fits false sE pf.even → prm.Fits true sO pf.odd →
        ∀ rs copies, copies ≠ [] → accVerify o fx prm T dom ys.length element rs (copies.map (·, pf)) = .ok () := by
  obtain ⟨nodes, h1, h2⟩ := C26_witness_partial hg hL ht hfuel 0 hi
  have hM : 1 ≤ M := Nat.one_le_iff_ne_zero.2 (NeZero.ne M)
  have gnew : ∀ p, (PState.new (dom p) : SideP C p).Good := fun p =>
    ⟨⟨rfl, rfl, by intro i hi; simp [PState.new] at hi, by simp [PState.new]⟩, by simp [PState.new], by simp [PState.new]⟩
  obtain ⟨path, r, sE1, sO, k1, k2, k3, k4, k5, -⟩ := path_complete (o false) (o true) fx hv
    (fun p => le_trans (Nat.le_mul_of_pos_right L hM) (hg p)) h2 (rnd := rnd) (hav nodes h1) (gnew false) (gnew true)
  obtain ⟨l1, l2⟩ := pathTo_lengths h2
  obtain ⟨tE1, tO, v1, v2, v3⟩ := path_session h2 h0 (fun j hj => hE j (by omega)) (fun j hj => hO j (by omega)) (.new (dom false)) (.new (dom true)) k1
  have hsel := selected_of_verifier v1
  obtain ⟨hlen, hleaf⟩ := accLeaf_eq hys
  rw [hleaf] at hsel
  rw [← selected_of_verifier v1] at v1
  obtain ⟨vars, s1, sE, tE, c1, c2, -, -, c3, c4⟩ := acc_finish v1 v2 v3 k2 k3 k4 k5 hlen hel (r := r) (by rw [hsel, msm_cons, add_comm]; rfl)
  have hprov : accProvers o fx prm T dom rnd i ys element = .ok (path, sE, sO) := by
    unfold accProvers treeProverGadget
    simp only [h1, k1, c1, if_true, c2]
  refine ⟨path, sE, sO, hprov, ⟨_, c3⟩, ?_⟩
  intro rndE rndO pf hpf fE fO
  unfold accProve at hpf
  rw [hprov] at hpf
  simp only at hpf
  split at hpf
  · cases hpf
  rename_i pE trE e1
  split at hpf
  · cases hpf
  rename_i pO trO e2
  cases hpf
  exact c4 _ _ _ _ _ _ e1 e2 fE fO

/-- A leaf with fewer elements than the width is also the leaf of the elements followed by zeros. -/
theorem accLeaf_pad {prm : SelRerand C} (xs : List (B (!false))) (k : Nat) (h : xs.length + k ≤ (prm.gens false).Gs.length) :
    accLeaf prm (xs ++ List.replicate k 0) = accLeaf prm xs := by
  rw [accLeaf_some (by simpa using h), accLeaf_some (by omega)]
  congr 1
  rw [msm_eq _ _ (xs.length + k) (Or.inr (by simp)), msm_eq _ _ (xs.length + k) (Or.inr (by simp))]
  refine Finset.sum_congr rfl fun i hi => ?_
  by_cases hx : i < xs.length
  · congr 1
    · simp [List.getD_eq_getElem?_getD, List.getElem?_append_left hx]
    · have : i < xs.length + k := by omega
      simp [List.getD_eq_getElem?_getD, hx, this]
  · have h1 : (xs ++ List.replicate k (0 : B (!false))).getD i 0 = 0 := by
      rw [List.getD_eq_getElem?_getD, List.getElem?_append_right (by omega), List.getElem?_replicate]
      split <;> rfl
    have h2 : xs.getD i 0 = 0 := by
      rw [List.getD_eq_getElem?_getD, List.getElem?_eq_none (by omega)]
      rfl
    rw [h1, h2, zero_smul, zero_smul]

/-- **C58**: for a leaf that is not full the proof can be made for zero, whatever its elements are. -/
theorem C58_zero_accepted {prm : SelRerand C} (hv : prm.Valid) (hg : prm.tree.EnoughGens L M) (hL : 2 ≤ L)
    {set : List (C false).Pt} {height : Option Nat} {fuel : Nat} {T : CurveTree L M (Pts C)}
    (ht : fromSet prm.tree set height fuel = some (.ok T)) (hfuel : set.length + height.getD 0 ≤ fuel) (h0 : T.height ≠ 0)
    (o : ∀ p, SideO C p) (fx : Bool) (dom : ∀ p, Transcript (B (!p)) (C p).Pt (C (!p)).Pt) {rnd : ∀ p, Nat → B (!p)} {i : Nat} (hi : i < set.length)
    (hE : ∀ j, j + 1 < (T.height + 1) / 2 → rnd false j ≠ 0) (hO : ∀ j < T.height / 2, rnd true j ≠ 0)
    (hav : ∀ nodes, T.witness prm.tree i 0 = .ok nodes → ∀ p (k : Nat) w, (nodes p)[k]? = some w →
      prm.Avoids (!p) w.child (rnd (!p) k))
    {xs : List (B (!false))} (hxs : accLeaf prm xs = some set[i]) {width : Nat} (hw : xs.length < width)
    (hwg : width ≤ (prm.gens false).Gs.length) :
    ∃ ys path sE sO, accProvers o fx prm T dom rnd i ys 0 = .ok (path, sE, sO) ∧
      (∃ t, accVerifiers o fx prm T dom width 0 path = .ok t) ∧
      ∀ rndE rndO pf, accProve o fx prm T dom rnd rndE rndO i ys 0 = .ok pf → prm.Fits false sE pf.even → prm.Fits true sO pf.odd →
        ∀ rs copies, copies ≠ [] → accVerify o fx prm T dom width 0 rs (copies.map (·, pf)) = .ok () := by
  have hlen : (xs ++ List.replicate (width - xs.length) (0 : B (!false))).length = width := by simp; omega
  have := C58_honest_accepted hv hg hL ht hfuel h0 o fx dom hi hE hO hav (ys := xs ++ List.replicate (width - xs.length) 0)
    (by rw [accLeaf_pad _ _ (by omega)]; exact hxs) (element := 0) (by simp; omega)
  rw [hlen] at this
  exact ⟨_, this⟩

/-- **C58** (partial): with the repaired `re_randomize` (`fx = true`), let both Verifiers build their circuits for a path with as many commitments as the tree has
levels (no commitment being `-Δ`), in a tree made by `from_set` whose leaves are commitments to the vectors in `sets`. Then for all satisfying assignments
on the two curves with openings of the commitments: the element is in one of the vectors, or it is zero and one of the vectors is shorter than the width; or the
assignment contains a second opening of a leaf or of a commitment in the tree. An empty leaf of the tree does not matter, not even for zero.

Missing for the full property: as for C22, of which this is a consequence. -/
theorem C58_member_partial {prm : SelRerand C} (hv : prm.Valid) (hg : prm.tree.EnoughGens L M) (hL : 2 ≤ L)
    (hx0 : ∀ p y, ¬ (C p).OnCurve 0 y) {sets : List (List (B (!false)))} {set : List (C false).Pt} (hset : sets.map (accLeaf prm) = set.map some)
    {height : Option Nat} {fuel : Nat} {T : CurveTree L M (Pts C)}
    (ht : fromSet prm.tree set height fuel = some (.ok T)) (hfuel : set.length + height.getD 0 ≤ fuel) (h0 : T.height ≠ 0)
    {o : ∀ p, SideO C p} {dom : ∀ p, Transcript (B (!p)) (C p).Pt (C (!p)).Pt} {width : Nat} (hwidth : ∀ xs ∈ sets, xs.length ≤ width)
    {element : B (!false)} {path : Path (C false).Pt (C true).Pt} {t : ∀ p, SideV C p}
    (hacc : accVerifiers o true prm T dom width element path = .ok (t false, t true))
    (hlen : path.even.length + path.odd.length + 1 = T.height)
    (hE : ∀ c ∈ path.even, c + (prm.layer false).delta ≠ 0) (hO : ∀ c ∈ path.odd, c + (prm.layer true).delta ≠ 0)
    (hS : path.selected + (prm.layer false).delta ≠ 0) :
    ∃ vs : ∀ p, List (List (Window (B (!p)))), ∀ w : ∀ p, Assignment (B (!p)), (∀ p, (t p).SatisfiedBy (w p)) →
      ∀ bl : ∀ p, Nat → B (!p), (∀ p, (t p).OpenedBy (prm.gens p) (w p) (bl p)) →
      (∃ xs ∈ sets, element ∈ xs ∨ element = 0 ∧ xs.length < width) ∨
      (∃ xs ∈ sets, ∃ j, (t false).vecComms[j]? = some (path.selected, width) ∧ ∃ z ∈ 0 :: prm.scalars true (vs true) (w true),
        SecondOpening (prm.gens false) (prm.layer false).delta width (fun k => xs.getD k 0) ((w false).vec j) (bl false j) z) ∨
      ∃ p j c xs, (t p).vecComms[j]? = some (c, L) ∧ (⟨p, xs⟩ : Σ p, Nat → B (!p)) ∈ T.branches prm.tree 0 ∧
        ∃ z ∈ 0 :: prm.scalars (!p) (vs (!p)) (w (!p)),
          SecondOpening (prm.gens p) (prm.layer p).delta L xs ((w p).vec j) (bl p j) z := by
  obtain ⟨tE1, v1, v2⟩ := accVerifiers_ok.1 hacc
  obtain ⟨⟨hcE, -⟩, vs, key⟩ := C22_membership_partial hv hg hL hx0 ht hfuel h0 (oE := o false) (oO := o true)
    (t := fun p => .new (dom p)) (t' := fun p => match p with | false => tE1 | true => t true) v1 hlen hE hO hS
  refine ⟨vs, fun w hw bl hbl => ?_⟩
  have hvc : (t false).vecComms = tE1.vecComms ++ [(path.selected, width)] := by
    rw [runV_vecComms (o false) v2]
    rfl
  have hsat : ∀ p, (match p with | false => tE1 | true => t true : SideV C p).SatisfiedBy (w p) := by
    rintro (_ | _)
    · exact (SatisfiedBy_of_run (o false) v2 (hw false) :)
    · exact hw true
  have hop : ∀ p, (match p with | false => tE1 | true => t true : SideV C p).OpenedBy (prm.gens p) (w p) (bl p) := by
    rintro (_ | _)
    · intro j c d hj
      refine hbl false j c d ?_
      rw [hvc, List.getElem?_append_left (List.getElem?_eq_some_iff.1 hj).1]
      exact hj
    · exact hbl true
  rcases key w hsat bl hop with ⟨leaf, hl, z, hz, hr⟩ | ⟨p, j, c, xs, h1, h2⟩
  · obtain ⟨xs, hxs, hxl⟩ : ∃ xs ∈ sets, accLeaf prm xs = some leaf := by
      have : some leaf ∈ sets.map (accLeaf prm) := by rw [hset]; exact List.mem_map_of_mem hl
      simpa [List.mem_map] using this
    obtain ⟨-, hleaf⟩ := accLeaf_eq hxl
    have hj : (t false).vecComms[tE1.vecComms.length]? = some (path.selected, width) := by rw [hvc]; simp
    have hopen := hbl false _ _ _ hj
    have hsum : leaf = ∑ k : Fin width, xs.getD k 0 • (prm.gens false).Gs.getD k 0 := by
      rw [hleaf, msm_eq _ _ width (Or.inr (hwidth xs hxs)), Finset.sum_range]
      refine Finset.sum_congr rfl fun k _ => ?_
      by_cases hk : (k : Nat) < xs.length
      · congr 1
        simp [List.getD_eq_getElem?_getD, hk]
      · have : xs.getD k 0 = 0 := by
          rw [List.getD_eq_getElem?_getD, List.getElem?_eq_none (by omega)]
          rfl
        rw [this, zero_smul, zero_smul]
    obtain ⟨xi, hxi, hval⟩ := C13_select_sound (o false) v2 (hw false)
    obtain ⟨k, hk, hv⟩ : ∃ k < width, (w false).vec tE1.vecComms.length k = element := by
      simp only [VState.commitVec, List.map_map, List.mem_map, List.mem_range, Function.comp] at hxi
      obtain ⟨k, hk, rfl⟩ := hxi
      refine ⟨k, hk, ?_⟩
      rw [eval_ofVar, eval_const] at hval
      exact hval
    rcases opening_or (xs := fun k => xs.getD k 0) hsum hopen hr with hd | hd
    · refine .inl ⟨xs, hxs, ?_⟩
      rw [hd k hk, List.getD_eq_getElem?_getD] at hv
      by_cases hkl : k < xs.length
      · left
        rw [List.getElem?_eq_getElem hkl] at hv
        rw [← hv]
        exact List.getElem_mem hkl
      · right
        rw [List.getElem?_eq_none (by omega)] at hv
        exact ⟨hv.symm, by omega⟩
    · exact .inr (.inl ⟨xs, hxs, _, hj, z, hz, hd⟩)
  · refine .inr (.inr ⟨p, j, c, xs, ?_, h2⟩)
    cases p with
    | false =>
      rw [hvc, List.getElem?_append_left (List.getElem?_eq_some_iff.1 h1).1]
      exact h1
    | true => exact h1

/-- **C58** is false of the code. Take any tree made by `from_set`, of height at least one, and *any* element. Let `ys` be any vector that contains the element, and `r` a
blinding such that for `Q`, the commitment to `ys`, the additions of the last level avoid the exceptional cases. There is a path that both Verifiers accept for this element, and a
Prover, who knows nothing about the leaves but one of them, makes proofs that are accepted in batches of any number of copies. -/
theorem C58_forgery {prm : SelRerand C} (hv : prm.Valid) (hg : prm.tree.EnoughGens L M) (hL : 2 ≤ L)
    {set : List (C false).Pt} {height : Option Nat} {fuel : Nat} {T : CurveTree L M (Pts C)}
    (ht : fromSet prm.tree set height fuel = some (.ok T)) (hfuel : set.length + height.getD 0 ≤ fuel) (h0 : T.height ≠ 0)
    (o : ∀ p, SideO C p) (dom : ∀ p, Transcript (B (!p)) (C p).Pt (C (!p)).Pt) {rnd : ∀ p, Nat → B (!p)} {i : Nat} (hi : i < set.length)
    (hE : ∀ j, j + 1 < (T.height + 1) / 2 → rnd false j ≠ 0) (hO : ∀ j < T.height / 2, rnd true j ≠ 0)
    (hav : ∀ nodes, T.witness prm.tree i 0 = .ok nodes → ∀ p (k : Nat) w, (nodes p)[k]? = some w →
      (p = true → k + 1 < (T.height + 1) / 2) → prm.Avoids (!p) w.child (rnd (!p) k))
    {element : B (!false)} {ys : List (B (!false))} (hel : element ∈ ys) (hlen : ys.length ≤ (prm.gens false).Gs.length) {r : B (!false)} {Q : (C false).Pt}
    (hQ : Q = msm ((prm.gens false).pc.Bbl :: (prm.gens false).Gs.take ys.length) (r :: ys))
    (hQ0 : Q + (prm.layer false).delta ≠ 0) (hx0 : set[i] + (prm.layer false).delta ≠ 0) {n : Nat}
    (hat : Attackable (C false) (prm.layer false).lambda (prm.h false) n (set[i] + (prm.layer false).delta) (Q + (prm.layer false).delta)) :
    ∃ (path : Path (C false).Pt (C true).Pt) (sE : SideP C false) (sO : SideP C true), sE.Good ∧ sO.Good ∧
      (∃ t, accVerifiers o false prm T dom ys.length element path = .ok t) ∧
      ∀ rndE rndO pE trE pO trO, prove (o false) (prm.gens false) rndE sE = .ok (pE, trE) → prove (o true) (prm.gens true) rndO sO = .ok (pO, trO) →
        prm.Fits false sE pE → prm.Fits true sO pO →
        ∀ rs copies, copies ≠ [] → accVerify o false prm T dom ys.length element rs (copies.map fun r => (r, ⟨path, pE, pO⟩)) = .ok () := by
  obtain ⟨nodes, h1, h2⟩ := C26_witness_partial hg hL ht hfuel 0 hi
  have hM : 1 ≤ M := Nat.one_le_iff_ne_zero.2 (NeZero.ne M)
  obtain ⟨l1, l2⟩ := pathTo_lengths h2
  have gnew : ∀ p, (PState.new (dom p) : SideP C p).Good := fun p =>
    ⟨⟨rfl, rfl, by intro i hi; simp [PState.new] at hi, by simp [PState.new]⟩, by simp [PState.new], by simp [PState.new]⟩
  obtain ⟨sE1, sO, tE1, tO, k1, k2, k3, k4, k5, k6, k7, -⟩ := path_forge (o false) (o true) hv
    (fun p => le_trans (Nat.le_mul_of_pos_right L hM) (hg p)) h2 h0 (rnd := rnd) (fun j hj => hE j (by omega))
    (fun j hj => hO j (by omega)) (fun p k w hw hp => hav nodes h1 p k w hw (by rw [← l1]; exact hp)) hQ0 hx0 hat
    (.new (dom false)) (.new (dom true)) (gnew false) (gnew true)
  obtain ⟨vars, s1, sE, tE, -, -, c2, -, c3, c4⟩ := acc_finish (path := { proverPath prm nodes rnd with selected := Q }) k1 k2 k3 k4 k5 k6 k7 hlen hel (r := r) hQ
  exact ⟨_, sE, sO, c2, k5, ⟨_, c3⟩, c4⟩

end

end CT
