import Verif.Model.Debug
import Verif.Proofs.Complete
import Verif.Props.Schedule

/-! The debug assertions of the Prover hold. -/

namespace CT
open Finset
variable {F G X : Type} [Field F] [DecidableEq F]

theorem debugAssert_pos {c : Prop} [Decidable c] (h : c) : debugAssert c = .ok () := by
  unfold debugAssert; rw [if_pos h]

theorem debugAssert_neg {c : Prop} [Decidable c] (h : ¬ c) : debugAssert c = .error assertionFailed := by
  unfold debugAssert; rw [if_neg h]

theorem VecPoly.Rep.writeFresh {p : VecPoly F} {D n : Nat} {f : Nat → Nat → F} (h : p.Rep D n f) {chk k : Nat} (d : Nat) (v : List F)
    (hd : chk < D) (hk : k ≤ n) (h0 : ∀ i < n, f chk i = 0) : p.writeFresh chk d k v = .ok (p.write d v) := by
  unfold VecPoly.writeFresh
  rw [debugAssert_pos]
  · rfl
  · intro i hi
    rw [h.get chk i hd (by omega), h0 i (by omega)]

theorem writesFresh_ok {D n : Nat} (deg len : Nat → Nat) (vs : Nat → List F) (k : Nat) (hdeg : ∀ j < k, deg j < D)
    (hv : ∀ j < k, (vs j).length ≤ n) (hl : ∀ j < k, len j ≤ n) :
    ∀ (js : List Nat) (p : VecPoly F) (f : Nat → Nat → F), (∀ j ∈ js, j < k) → js.Nodup →
      (∀ i ∈ js, ∀ j ∈ js, deg i = deg j → i = j) → p.Rep D n f → (∀ j ∈ js, ∀ i < n, f (deg j) i = 0) →
      writesFresh deg len vs js p = .ok (js.foldl (fun p j => p.write (deg j) (vs j)) p) := by
  intro js
  induction js with
  | nil => intro p f _ _ _ _ _; rfl
  | cons j js ih =>
    intro p f hjs hnd hinj hp h0
    have hj := hjs j (by simp)
    unfold writesFresh
    rw [hp.writeFresh (deg j) (vs j) (hdeg j hj) (hl j hj) (h0 j (by simp))]
    simp only [List.foldl_cons]
    refine ih _ _ (fun i hi => hjs i (by simp [hi])) (List.nodup_cons.1 hnd).2
      (fun a ha b hb => hinj a (by simp [ha]) b (by simp [hb]))
      (hp.write (deg j) (hdeg j hj) (vs j) (hv j hj) (h0 j (by simp))) ?_
    intro i hi m hm
    have hne : ¬ deg i = deg j := fun he =>
      (List.nodup_cons.1 hnd).1 ((hinj i (by simp [hi]) j (by simp) he) ▸ hi)
    rw [h0 i (by simp [hi]) m hm, if_neg hne, add_zero]

/-- The generic shape shared by `lPolyDebug` and `rPolyDebug`. -/
theorem slots_fresh (m k n c q0 q1 : Nat) (hm : 1 ≤ m) (hk : k + 1 ≤ 2 * m) (deg : Nat → Nat) (dl : Nat → Nat)
    (hdl : ∀ j < 2 * m + 1, dl j = deg j) (hdeg : ∀ j < 2 * m + 1, deg j ≤ 2 * m)
    (hinj : ∀ i < 2 * m + 1, ∀ j < 2 * m + 1, deg i = deg j → i = j) (hq0 : q0 = deg 0) (hq1 : q1 = deg 1)
    (f0 f1 : Nat → F) (sv : List F) (len : Nat → Nat) (vs : Nat → List F)
    (hs : sv.length ≤ n) (hc : c ≤ n) (hv : ∀ j < k, (vs j).length ≤ n) (hlen : ∀ j < k, len j ≤ n) :
    ∃ p1 p2 p3, (VecPoly.zero n (2 * m + 1)).writeFresh q0 (dl 0) c ((List.range n).map f0) = .ok p1 ∧
      p1.writeFresh q1 (dl 1) c ((List.range n).map f1) = .ok p2 ∧ p2.writeFresh (2 * m + 1) (2 * m + 1) c sv = .ok p3 ∧
      writesFresh (fun j => dl (j + 2)) len vs (List.range k) p3 = .ok
        ((List.range k).foldl (fun p j => p.write (dl (j + 2)) (vs j))
          ((((VecPoly.zero n (2 * m + 1)).write (dl 0) ((List.range n).map f0)).write (dl 1)
            ((List.range n).map f1)).write (2 * m + 1) sv)) := by
  subst hq0 hq1
  have h01 : deg 0 ≠ deg 1 := fun h => absurd (hinj 0 (by omega) 1 (by omega) h) (by omega)
  have z := VecPoly.zero_rep (F := F) n (2 * m + 1)
  have d0 := hdeg 0 (by omega)
  have d1 := hdeg 1 (by omega)
  have z1 := z.write (dl 0) (by rw [hdl 0 (by omega)]; omega)
    ((List.range n).map f0) (by simp) (by simp)
  have z2 := z1.write (dl 1) (by rw [hdl 1 (by omega)]; omega)
    ((List.range n).map f1) (by simp) (by
      intro i _
      rw [hdl 0 (by omega), hdl 1 (by omega), if_neg (Ne.symm h01)]; simp)
  have z3 := z2.write (2 * m + 1) (by omega) sv hs (by
    intro i _
    rw [hdl 0 (by omega), hdl 1 (by omega), if_neg (by omega), if_neg (by omega)]; simp)
  refine ⟨_, _, _, z.writeFresh _ _ (by omega) hc (by simp), z1.writeFresh _ _ (by omega) hc ?_,
    z2.writeFresh _ _ (by omega) hc ?_, ?_⟩
  · intro i _
    rw [hdl 0 (by omega), if_neg (Ne.symm h01)]; simp
  · intro i _
    rw [hdl 0 (by omega), hdl 1 (by omega), if_neg (by omega), if_neg (by omega)]; simp
  · refine writesFresh_ok (D := 2 * m + 2) (n := n) (fun j => dl (j + 2)) len vs k ?_ hv hlen _ _ _
      (fun j hj => List.mem_range.1 hj) List.nodup_range ?_ z3 ?_
    · intro j hj
      have := hdeg (j + 2) (by omega); have := hdl (j + 2) (by omega)
      show dl (j + 2) < _
      omega
    · intro i hi j hj h
      have hi := List.mem_range.1 hi
      have hj := List.mem_range.1 hj
      have h : dl (i + 2) = dl (j + 2) := h
      rw [hdl _ (by omega), hdl _ (by omega)] at h
      have := hinj (i + 2) (by omega) (j + 2) (by omega) h
      omega
    · intro j hj i _
      have hj := List.mem_range.1 hj
      have e := hdl (j + 2) (by omega)
      have h2 := hdeg (j + 2) (by omega)
      show _ + _ + (if dl (j + 2) = _ then _ else _) = _
      rw [e, hdl 0 (by omega), hdl 1 (by omega), if_neg, if_neg, if_neg (by omega)]
      · simp
      · intro h; have := hinj _ (by omega) _ (by omega) h; omega
      · intro h; have := hinj _ (by omega) _ (by omega) h; omega

theorem slotR_zero (m : Nat) : slotR (2 * m) 0 = m := by simp [slotR]
theorem slotR_one (m : Nat) : slotR (2 * m) 1 = 0 := by simp [slotR]

theorem lPolyDebug_ok (s : PState F G X) (wt : Weights F) (yinv : List F) (n c : Nat) (sL : List F) (hc : c ≤ n)
    (hs : sL.length ≤ n) (hv : ∀ v ∈ s.vecOpen, v.2.length ≤ n) :
    let op := opDegree s.vecOpen.length
    lPolyDebug s wt yinv n op (opSplits op) sL c = .ok (lPoly s wt yinv n op (opSplits op) sL) := by
  obtain ⟨m, hm, hop, hk⟩ := opDegree_pos s.vecOpen.length
  simp only [hop] at hk ⊢
  unfold lPoly lPolyDebug
  simp only [getD_drop, Nat.add_comm 2]
  have hl : ∀ j < s.vecOpen.length, (s.vecOpen.getD j (0, [])).2.length ≤ n := fun j hj => by
    rw [getD_of_lt _ _ _ hj]; exact hv _ (List.getElem_mem _)
  obtain ⟨p1, p2, p3, h1, h2, h3, h4⟩ := slots_fresh m s.vecOpen.length n c (2 * m / 2) (2 * m) hm hk
    (fun j => 2 * m - slotR (2 * m) j) (fun j => ((opSplits (2 * m)).getD j (0, 0)).1)
    (fun j hj => by rw [opSplits_getD m hm j hj]) (fun j hj => by omega)
    (fun i hi j hj h => by
      have := slotR_le m i hm hi
      have := slotR_le m j hm hj
      exact slotR_inj m i j hm (by omega)) (by rw [slotR_zero]; omega) (by rw [slotR_one]; omega)
    (fun i => s.aL.getD i 0 + yinv.getD i 0 * wt.wR.getD i 0) (fun i => s.aO.getD i 0) sL
    (fun j => (s.vecOpen.getD j (0, [])).2.length) (fun j => (s.vecOpen.getD j (0, [])).2) hs hc hl hl
  simp only [h1, h2, h3, h4]

theorem rPolyDebug_ok (s : PState F G X) (wt : Weights F) (ypow : List F) (n c : Nat) (sR : List F) (hc : c ≤ n)
    (hv : ∀ v ∈ s.vecOpen, v.2.length ≤ n) (hw : wt.wVC.map List.length = s.vecOpen.map fun v => v.2.length) :
    let op := opDegree s.vecOpen.length
    rPolyDebug s wt ypow n op (opSplits op) sR c = .ok (rPoly s wt ypow n op (opSplits op) sR) := by
  obtain ⟨m, hm, hop, hk⟩ := opDegree_pos s.vecOpen.length
  simp only [hop] at hk ⊢
  unfold rPoly rPolyDebug
  simp only [getD_drop, Nat.add_comm 2]
  have hl : ∀ j < s.vecOpen.length, (s.vecOpen.getD j (0, [])).2.length ≤ n := fun j hj => by
    rw [getD_of_lt _ _ _ hj]; exact hv _ (List.getElem_mem _)
  have hlw : ∀ j < s.vecOpen.length, (wt.wVC.getD j []).length ≤ n := fun j hj => by
    have h1 : wt.wVC.length = s.vecOpen.length := by simpa using congrArg List.length hw
    have h2 : (wt.wVC.map List.length).getD j 0 = (s.vecOpen.map fun v => v.2.length).getD j 0 := by rw [hw]
    rw [getD_of_lt _ _ _ (by simpa using h1 ▸ hj), getD_of_lt _ _ _ (by simpa using hj)] at h2
    simp only [List.getElem_map] at h2
    rw [getD_of_lt _ _ _ (h1 ▸ hj), h2]
    exact hv _ (List.getElem_mem _)
  obtain ⟨p1, p2, p3, h1, h2, h3, h4⟩ := slots_fresh m s.vecOpen.length n c (2 * m / 2) 0 hm hk
    (fun j => slotR (2 * m) j) (fun j => ((opSplits (2 * m)).getD j (0, 0)).2)
    (fun j hj => by rw [opSplits_getD m hm j hj]) (fun j hj => slotR_le m j hm hj)
    (fun i hi j hj h => slotR_inj m i j hm h) (by rw [slotR_zero]; omega) (by rw [slotR_one])
    (fun i => ypow.getD i 0 * s.aR.getD i 0 + wt.wL.getD i 0) (fun i => wt.wO.getD i 0 - ypow.getD i 0)
    ((List.range n).map fun i => ypow.getD i 0 * sR.getD i 0)
    (fun j => (s.vecOpen.getD j (0, [])).2.length) (fun j => wt.wVC.getD j []) (by simp) hc hlw hl
  simp only [h1, h2, h3, h4]

/-! ## The sanity check -/

omit [DecidableEq F] in
theorem innerProduct?_ok (a b : List F) (h : a.length = b.length) : innerProduct? a b = .ok (innerProduct a b) := by
  unfold innerProduct?; rw [if_neg (by omega)]

omit [DecidableEq F] in
theorem sanityVecs_ok (s : PState F G X) (wt : Weights F) (hw : wt.wVC.map List.length = s.vecOpen.map fun v => v.2.length) :
    ∀ (js : List Nat) (t2 : F), (∀ j ∈ js, j < s.vecOpen.length) → sanityVecs s wt js t2 =
      .ok (t2 + (js.map fun j => innerProduct (wt.wVC.getD j []) (s.vecOpen.getD j (0, [])).2).sum) := by
  intro js
  induction js with
  | nil => intro t2 _; simp [sanityVecs]
  | cons j js ih =>
    intro t2 hjs
    have hj := hjs j (by simp)
    have h1 : wt.wVC.length = s.vecOpen.length := by simpa using congrArg List.length hw
    have h2 : (wt.wVC.map List.length).getD j 0 = (s.vecOpen.map fun v => v.2.length).getD j 0 := by rw [hw]
    rw [getD_of_lt _ _ _ (by simpa using h1 ▸ hj), getD_of_lt _ _ _ (by simpa using hj)] at h2
    simp only [List.getElem_map] at h2
    unfold sanityVecs
    rw [innerProduct?_ok _ _ (by rw [getD_of_lt _ _ _ (h1 ▸ hj), getD_of_lt _ _ _ hj, h2])]
    simp only
    rw [ih _ (fun i hi => hjs i (by simp [hi]))]
    simp only [List.map_cons, List.sum_cons, add_assoc]

omit [DecidableEq F] in
theorem sanity_ok (s : PState F G X) (wt : Weights F) (y : F) (hy : y ≠ 0) (n N : Nat) (hN : n ≤ N) (sL sR : List F)
    (hs : sL.length ≤ n) (hv : ∀ v ∈ s.vecOpen, v.2.length ≤ n) (m : Nat)
    (hsh : wt.Shape n m (s.vecOpen.map fun v => v.2.length)) (hL : s.aL.length = n) (hR : s.aR.length = n) (hO : s.aO.length = n) :
    let op := opDegree s.vecOpen.length
    sanityT2 s wt y n N = .ok ((VecPoly.innerProduct (lPoly s wt (expIter y⁻¹ N) n op (opSplits op) sL)
        (rPoly s wt (expIter y N) n op (opSplits op) sR)).getD op 0) := by
  intro op
  rw [C05_coefficient s wt y hy n N hN sL sR hs hv hsh.wVC]
  have hyl : ∀ (x : F) k, (expIter x k).length = k := fun x k => by simp
  have hz : (List.zipWith (· * ·) wt.wR (expIter y⁻¹ N) ++ List.replicate (N - n) 0).take n =
      List.zipWith (· * ·) wt.wR (expIter y⁻¹ N) := by
    rw [List.take_append_of_le_length (by simp [hsh.wR]; omega), List.take_of_length_le (by simp [hsh.wR])]
  unfold sanityT2
  simp only
  rw [hz, innerProduct?_ok _ _ (by simp [hsh.wR, hsh.wL]; omega), innerProduct?_ok _ _ (by rw [hsh.wL, hL]),
    innerProduct?_ok _ _ (by rw [hsh.wR, hR]), innerProduct?_ok _ _ (by rw [hsh.wO, hO])]
  simp only [bind, Except.bind, pure, Except.pure]
  rw [sanityVecs_ok s wt hsh.wVC _ _ (fun j hj => List.mem_range.1 hj)]
  simp only
  rw [innerProduct?_ok _ _ (by simp [hL]), innerProduct?_ok _ _ (by simp [hO])]
  simp only
  rw [innerProduct_eq _ _ n (Or.inl (le_of_eq hsh.wL)), innerProduct_eq _ _ n (Or.inl (le_of_eq hsh.wR)),
    innerProduct_eq _ _ n (Or.inl (le_of_eq hsh.wO)), innerProduct_eq _ _ n (Or.inl (le_of_eq hL)),
    innerProduct_eq _ _ n (Or.inl (le_of_eq hO)), innerProduct_eq _ wt.wL n (Or.inr (le_of_eq hsh.wL))]
  have e1 : ∀ j ∈ range s.vecOpen.length, innerProduct (wt.wVC.getD j []) (s.vecOpen.getD j (0, [])).2 =
      ∑ i ∈ range n, (wt.wVC.getD j []).getD i 0 * (s.vecOpen.getD j (0, [])).2.getD i 0 := by
    intro j hj
    refine innerProduct_eq _ _ n (Or.inr ?_)
    rw [getD_of_lt _ _ _ (mem_range.1 hj)]
    exact hv _ (List.getElem_mem _)
  have e0 : ((List.range s.vecOpen.length).map fun j => innerProduct (wt.wVC.getD j []) (s.vecOpen.getD j (0, [])).2).sum =
      ∑ j ∈ range s.vecOpen.length,
        ∑ i ∈ range n, (wt.wVC.getD j []).getD i 0 * (s.vecOpen.getD j (0, [])).2.getD i 0 := by
    rw [list_sum_eq _ s.vecOpen.length (by simp)]
    refine Finset.sum_congr rfl fun j hj => ?_
    rw [getD_map_range, if_pos (mem_range.1 hj), e1 j hj]
  rw [e0]
  have e2 : ∀ i ∈ range n, s.aL.getD i 0 * ((List.range n).map fun i => s.aR.getD i 0 * (expIter y n).getD i 0).getD i 0 =
      y ^ i * (s.aL.getD i 0 * s.aR.getD i 0) := by
    intro i hi
    have hi := mem_range.1 hi
    rw [getD_map_range, if_pos hi, expIter_getD, if_pos hi]; ring
  have e3 : ∀ i ∈ range n, s.aO.getD i 0 * (expIter y n).getD i 0 = y ^ i * s.aO.getD i 0 := by
    intro i hi
    rw [expIter_getD, if_pos (mem_range.1 hi)]; ring
  have e4 : ∀ i ∈ range n, (List.zipWith (· * ·) wt.wR (expIter y⁻¹ N)).getD i 0 * wt.wL.getD i 0 =
      y⁻¹ ^ i * (wt.wR.getD i 0 * wt.wL.getD i 0) := by
    intro i hi
    have hi := mem_range.1 hi
    rw [getD_zipWith _ _ _ _ 0 0, if_pos (by rw [hsh.wR, hyl]; omega), expIter_getD, if_pos (by omega)]; ring
  rw [Finset.sum_congr rfl e2, Finset.sum_congr rfl e3, Finset.sum_congr rfl e4]
  simp only [mul_sub, Finset.sum_sub_distrib]
  congr 1
  ring

/-! ## The blinding terms -/

omit [DecidableEq F] in
theorem eTermsLoop_ok (ops : List (Nat × Nat)) (bls : List F) : ∀ (js : List Nat) (e : List (Option F)), js.Nodup →
    (∀ i ∈ js, ∀ j ∈ js, ((ops.drop 2).getD i (0, 0)).1 = ((ops.drop 2).getD j (0, 0)).1 → i = j) →
    (∀ j ∈ js, e.getD ((ops.drop 2).getD j (0, 0)).1 none = none) →
    eTermsLoop ops bls js e = .ok (js.foldl (fun e j => e.set ((ops.drop 2).getD j (0, 0)).1 (some (bls.getD j 0))) e) := by
  intro js
  induction js with
  | nil => intro e _ _ _; rfl
  | cons j js ih =>
    intro e hnd hinj h0
    unfold eTermsLoop
    rw [debugAssert_pos (h0 j (by simp))]
    simp only [List.foldl_cons]
    refine ih _ (List.nodup_cons.1 hnd).2 (fun a ha b hb => hinj a (by simp [ha]) b (by simp [hb])) ?_
    intro i hi
    have hne : ¬ ((ops.drop 2).getD j (0, 0)).1 = ((ops.drop 2).getD i (0, 0)).1 := fun he =>
      (List.nodup_cons.1 hnd).1 ((hinj j (by simp) i (by simp [hi]) he) ▸ hi)
    have := h0 i (by simp [hi])
    rw [List.getD_eq_getElem?_getD] at this ⊢
    rw [List.getElem?_set_ne hne]
    exact this

omit [DecidableEq F] in
theorem eTermsDebug_ok (bls : List F) (ibl obl sbl : F) :
    let op := opDegree bls.length
    eTermsDebug op (opSplits op) ibl obl sbl bls = .ok (eTerms op (opSplits op) ibl obl sbl bls) := by
  obtain ⟨m, hm, hop, hk⟩ := opDegree_pos bls.length
  simp only [hop] at hk ⊢
  have hd : ∀ j < bls.length, (((opSplits (2 * m)).drop 2).getD j (0, 0)).1 = 2 * m - slotR (2 * m) (j + 2) := by
    intro j hj
    rw [getD_drop, Nat.add_comm, opSplits_getD m hm _ (by omega)]
  have hinj : ∀ i < 2 * m + 1, ∀ j < 2 * m + 1, 2 * m - slotR (2 * m) i = 2 * m - slotR (2 * m) j → i = j := by
    intro i hi j hj h
    have := slotR_le m i hm hi
    have := slotR_le m j hm hj
    exact slotR_inj m i j hm (by omega)
  unfold eTermsDebug eTerms
  rw [debugAssert_pos (by rw [opSplits_getD m hm 0 (by omega), slotR_zero]; show 2 * m - m = m; omega)]
  simp only
  rw [eTermsLoop_ok]
  · rfl
  · exact List.nodup_range
  · intro i hi j hj h
    have hi := List.mem_range.1 hi
    have hj := List.mem_range.1 hj
    rw [hd i hi, hd j hj] at h
    have := hinj (i + 2) (by omega) (j + 2) (by omega) h
    omega
  · intro j hj
    have hj := List.mem_range.1 hj
    rw [hd j hj, opSplits_getD m hm 0 (by omega), opSplits_getD m hm 1 (by omega), List.getD_eq_getElem?_getD,
      List.getElem?_set_ne, List.getElem?_set_ne, ← List.getD_eq_getElem?_getD, getD_replicate']
    · split <;> rfl
    · intro h
      have := hinj 0 (by omega) (j + 2) (by omega) h
      omega
    · intro h
      have := hinj 1 (by omega) (j + 2) (by omega) h
      omega

/-! ## `prove` -/

section
variable [AddCommGroup G] [Module F G] [DecidableEq G]

omit [DecidableEq G] in
theorem proveTailDebug_eq (o : Oracle F G X) (g : Gens G) (rnd : PRand F) (n1 : Nat) (c1 : Com G) (s : PState F G X)
    (hi : s.Inv) (hsz : s.aL.length = s.size) (h1 : n1 ≤ s.size) :
    proveTailDebug o g rnd n1 c1 s = proveTail o g rnd n1 c1 s := by
  have hv : ∀ v ∈ s.vecOpen, v.2.length ≤ s.size := s.dim_le_size
  unfold proveTailDebug proveTail
  simp only
  split
  · rfl
  split
  · rfl
  generalize challengeScalar o _ "y" = cy
  generalize challengeScalar o cy.2 "z" = cz
  cases hwt : s.flattened cz.1 with
  | none => rfl
  | some wt =>
  simp only
  by_cases hy : cy.1 = 0
  · rw [if_pos hy, if_pos hy]
  rw [if_neg hy, if_neg hy]
  obtain ⟨hsh, -⟩ := flattenLoop_apply (Weights.zero_shape _ _ _) hwt s.assignment
  have hl : ((List.range n1).map rnd.sL1 ++ (List.range (s.size - n1)).map rnd.sL2).length = s.size := by simp; omega
  have hr : ((List.range n1).map rnd.sR1 ++ (List.range (s.size - n1)).map rnd.sR2).length = s.size := by simp; omega
  have hN : s.size ≤ nextPow2 s.size := by
    obtain ⟨k, h1, h2, -⟩ := nextPow2_eq s.size
    omega
  rw [hl, hr, min_self]
  rw [debugAssert_pos ⟨by unfold opDegree; omega, by omega⟩]
  simp only
  rw [lPolyDebug_ok s wt _ s.size s.size _ le_rfl (by rw [hl]) hv, rPolyDebug_ok s wt _ s.size s.size _ le_rfl hv hsh.wVC]
  simp only
  generalize appendT _ _ _ _ = ap
  cases ap with
  | error e => rfl
  | ok t =>
  simp only
  rw [sanity_ok s wt _ hy s.size (nextPow2 s.size) hN _ _ (by rw [hl]) hv _ (by rw [← hsz]; exact hsh) hsz
    (hi.lenR.trans hsz) (hi.lenO.trans hsz)]
  simp only
  rw [debugAssert_pos rfl]
  simp only
  have he := fun (a b c : F) => eTermsDebug_ok (s.vecOpen.map (·.1)) a b c
  simp only [List.length_map] at he
  rw [he]
  rfl

end
end CT
