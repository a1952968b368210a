import Verif.Props.Rerandomize
import Verif.Proofs.SingleLevel
import Verif.Proofs.Batched

/-! # C21, C27: one level of select-and-rerandomize -/

namespace CT
variable {F G X : Type} [Field F] [DecidableEq F]

/-- The entries selected by the digits of `r`, as multiples of `h`. -/
theorem entries_of_chain {C : SWCurve F} {lambda r : Nat} (hr : r < 2 ^ lambda) (h : C.Pt) :
    (∀ k, k < windows lambda → ((List.range k).map (entryAt C lambda r h)).sum =
      (((r % 8 ^ k : Nat) : Int) + offs k) • h) ∧
    (∀ k, entryAt C lambda r h k = tableScalar (windows lambda) (k + 1) (r / 8 ^ k % 8) • h) ∧
    ((List.range (windows lambda)).map (entryAt C lambda r h)).sum = r • h := by
  have hw : (fun i => windowIndex lambda r (i + 1)) = fun i => r / 8 ^ i % 8 :=
    funext fun i => windowIndex_eq hr i
  refine ⟨fun k hk => by rw [entries_sum, hw, partialScalar_mod _ _ _ hk], fun k => ?_,
    entries_sum_all hr h⟩
  unfold entryAt
  rw [windowIndex_eq hr]

/-! ## C21 -/

/-- The claim of C21 for a variant of the gadget (`fx = false`: the code). For a curve with `a = 0`,
and a public point `rc` with `rc + Δ` finite: in every assignment satisfying the constraints, there is
a curve point `P` whose x-coordinate is one of the opened children, such that `rc + Δ` is `P` plus a
multiple of the blinding base that is computed from the witness, or `rc + Δ = -P`. -/
def SingleLevelSound (fx : Bool) : Prop :=
  ∀ (F : Type) [Field F] [DecidableEq F] (C : SWCurve F), C.a = 0 →
  ∀ (G : Type) (o : Oracle F G C.Pt) (prm : LayerParams C) (h : C.Pt),
    buildTables C (windows prm.lambda) h = some prm.tables →
  ∀ (rc : C.Pt), rc + prm.delta ≠ 0 →
  ∀ (children : List (LC F)) (t t' : VState F G C.Pt),
    runV o (singleLevel C fx prm rc children none none) t = .ok ((), t') →
  ∃ (y : Variable) (vs : List (Window F)), vs.length = windows prm.lambda ∧
  ∀ w : Assignment F, t'.SatisfiedBy w → ∃ P : C.Pt, Selected C w children (w.val y) P ∧
    (rc + prm.delta = P + extractScalar (windows prm.lambda) prm.tables vs w • h ∨
      rc + prm.delta = - P)

/-- **C21** soundness, partial: holds for the gadget with the two missing constraints of
`re_randomize`. Missing: false of the code, see `C21_single_level_unsound`. -/
theorem C21_single_level_partial : SingleLevelSound true := by
  intro F _ _ C ha G o prm h hts rc hne children t t' hrun
  exact singleLevel_extract o ha hts hne hrun

/-- **C21** completeness: a Prover holding a child, with its x-coordinate (after adding Δ) among the
opened children, succeeds for every scalar `r` that avoids the exceptional cases, and all constraints
are satisfied. -/
theorem C21_single_level_complete {C : SWCurve F} (o : Oracle F G C.Pt) (ha : C.a = 0) (fx : Bool)
    {prm : LayerParams C} (hm : windows prm.lambda ≠ 1) {h : C.Pt}
    (hts : buildTables C (windows prm.lambda) h = some prm.tables) {s : PState F G C.Pt} (hs : s.Good)
    {rc child : C.Pt} {children : List (LC F)} (hch : ∀ lc ∈ children, s.HasLC lc)
    {r : Nat} (hr : r < 2 ^ prm.lambda) (hrc : rc = child + r • h) (hne : rc + prm.delta ≠ 0)
    (hmem : ∃ lc ∈ children, s.assignment.eval lc = C.xField (child + prm.delta))
    (hok : ChainOk C prm.lambda h r) (hfin : C.DiffX (child + prm.delta) (r • h)) :
    ∃ s', runP o (singleLevel C fx prm rc children (some (child + prm.delta)) (some r)) s
      = .ok ((), s') ∧ s'.Good ∧ s'.Satisfied ∧ s.Ext s' := by
  obtain ⟨e1, e2, e3⟩ := entries_of_chain (C := C) hr h
  obtain ⟨⟨⟩, s', h1, h2, h3, -⟩ := complete_singleLevel (o := o) hs ha (fx := fx) hm hts hch
    (child := child + prm.delta) (r := r) (rc := rc) (by rw [e3, hrc]; abel) hne hmem
    (fun k hk1 hk => by rw [e1 k hk, e2]; exact hok k hk1 hk) (by rw [e3]; exact hfin)
  exact ⟨s', h1, h2, h2.satisfied, h3⟩

/-- **C21**, the attack on the code: a Prover holding any child can have *any* public point accepted as
its re-randomisation, provided the two points are not related as they should be (or, in general,
provided the chain of additions avoids the exceptional cases). -/
theorem C21_single_level_attack {C : SWCurve F} (o : Oracle F G C.Pt) (ha : C.a = 0)
    {prm : LayerParams C} {h : C.Pt} (hts : buildTables C (windows prm.lambda) h = some prm.tables)
    {s : PState F G C.Pt} (hs : s.Good) {rc child : C.Pt} {children : List (LC F)}
    (hch : ∀ lc ∈ children, s.HasLC lc) (hne : rc + prm.delta ≠ 0) (hc0 : child + prm.delta ≠ 0)
    (hmem : ∃ lc ∈ children, s.assignment.eval lc = C.xField (child + prm.delta))
    {r : Nat} (hat : Attackable C prm.lambda h r (child + prm.delta) (rc + prm.delta))
    {t : VState F G C.Pt} (hst : SameStatement s t) :
    ∃ t', runV o (singleLevel C false prm rc children none none) t = .ok ((), t') ∧
      Extendable s t' := by
  obtain ⟨P, hP⟩ := complete_cheatSingleLevel (o := o) hs ha hts hch hne hc0 hmem hat
  obtain ⟨⟨⟩, t', h⟩ := exists_extendable_of_complete o hP
    (sameCalls_cheatSingleLevel (buildTables_spec hts).1 rc children (child + prm.delta) r P) hst
  exact ⟨t', h⟩

/-- The test parameters over `F_61`: blinding base `(1,3)` of order 19, `Δ = (1,3)`. -/
theorem singleLevel61 : ∃ prm : LayerParams Curve61.C, prm.delta = Curve61.h ∧ prm.lambda = 6 ∧
    buildTables Curve61.C (windows prm.lambda) Curve61.h = some prm.tables := by
  obtain ⟨ts, hts⟩ := Curve61.tables
  exact ⟨⟨Curve61.h, ts, 6⟩, rfl, rfl, hts⟩

omit [DecidableEq F] in
theorem good_empty : ({} : PState F G X).Good :=
  ⟨⟨rfl, rfl, by intro i hi; simp at hi, by simp⟩, by simp, by simp⟩

/-- **C21** is false of the code: with a single child `(28,0) - Δ` of order two (after the shift) the
public point `-Δ + (55,6)` is accepted, although `(55,6)` is not `±(28,0)` plus a multiple of the
blinding base. -/
theorem C21_single_level_unsound : ¬ SingleLevelSound false := by
  intro hS
  obtain ⟨prm, hd, hl, hts⟩ := singleLevel61
  have hn := Curve61.d2_notin
  rw [AddSubgroup.mem_zmultiples_iff] at hn
  have e3 : Curve61.C.pt Curve61.on3 = 3 • Curve61.h := by
    rw [Curve61.e3, Curve61.e2]; abel
  have erc : Curve61.C.pt Curve61.on3 - prm.delta + prm.delta = Curve61.C.pt Curve61.on3 := by abel
  have ech : Curve61.d2 - prm.delta + prm.delta = Curve61.d2 := by abel
  have hne0 := Curve61.C.pt_ne_zero Curve61.on3
  have hd0 : Curve61.d2 ≠ 0 := Curve61.C.pt_ne_zero _
  obtain ⟨t', hrun, w, hw, -⟩ := C21_single_level_attack (G := Unit) (fun _ => 0) rfl hts good_empty
    (rc := Curve61.C.pt Curve61.on3 - prm.delta) (child := Curve61.d2 - prm.delta)
    (children := [LC.const 28]) (r := 0)
    (by intro lc hlc; rw [List.mem_singleton] at hlc; subst hlc; exact PState.hasLC_const)
    (by rw [erc]; exact hne0) (by rw [ech]; exact hd0)
    ⟨_, List.mem_singleton_self _, by rw [ech, eval_const]; rfl⟩
    (by
      rw [erc, ech]
      refine attackable_of_unrelated hts hd0 hne0 ?_ ?_
      · rintro ⟨r, e⟩
        exact hn ⟨3 - r, by
          have : Curve61.d2 = (3 : ℤ) • Curve61.h - r • Curve61.h := by
            rw [eq_sub_iff_add_eq, ← e, e3]; rfl
          rw [this, sub_smul]⟩
      · rw [Curve61.d2_add]; exact hne0)
    (t := {}) ⟨rfl, rfl, rfl, rfl, rfl, rfl⟩
  obtain ⟨y, vs, -, h⟩ := hS _ Curve61.C rfl _ (fun _ => 0) prm _ hts _ (by rw [erc]; exact hne0) _ _ _ hrun
  obtain ⟨P, ⟨lc, hlc, hon, rfl⟩, e⟩ := h w hw
  rw [List.mem_singleton] at hlc
  subst hlc
  rw [erc, e3] at e
  have hP : Curve61.C.pt hon = Curve61.d2 := by
    have h0 : w.val y = 0 := by
      have := hon
      unfold SWCurve.OnCurve at this
      rw [eval_const] at this
      have k : (28 : ZMod 61) ^ 3 + Curve61.C.a * 28 + Curve61.C.b = 0 := by decide
      rw [k] at this
      exact pow_eq_zero_iff (two_ne_zero) |>.1 this
    exact Curve61.C.pt_inj.2 ⟨by rw [eval_const], h0⟩
  rw [hP] at e
  rcases e with e | e
  · exact hn ⟨3 - extractScalar (windows prm.lambda) prm.tables vs w, by
      rw [sub_smul, sub_eq_iff_eq_add, ← e]; rfl⟩
  · exact hn ⟨-3, by rw [neg_smul, neg_eq_iff_eq_neg, ← e]; rfl⟩

/-- `r = 3` avoids the exceptional cases on the test curve. -/
theorem chainOk61 : ChainOk Curve61.C 6 Curve61.h 3 := by
  intro k hk1 hk
  refine diffX_of_not_dvd Curve61.order_h ?_
  have hk3 : k < 3 := hk
  interval_cases k <;> decide

/-- Non-vacuity of C21 completeness: two children, the second one selected and re-randomised by 3. -/
example : ∃ (prm : LayerParams Curve61.C) (s' : PState (ZMod 61) Unit Curve61.C.Pt),
    runP (fun _ => 0) (singleLevel Curve61.C false prm (Curve61.d2 - prm.delta + 3 • Curve61.h)
      [LC.const 1, LC.const 28] (some (Curve61.d2 - prm.delta + prm.delta)) (some 3)) {} = .ok ((), s') ∧
    s'.Satisfied := by
  obtain ⟨prm, hd, hl, hts⟩ := singleLevel61
  have hn := Curve61.d2_notin
  rw [AddSubgroup.mem_zmultiples_iff] at hn
  have ech : Curve61.d2 - prm.delta + prm.delta = Curve61.d2 := by abel
  obtain ⟨s', h1, -, h2, -⟩ := C21_single_level_complete (G := Unit) (fun _ => 0) (C := Curve61.C) rfl
    false (by rw [hl]; decide) hts good_empty (rc := Curve61.d2 - prm.delta + 3 • Curve61.h)
    (child := Curve61.d2 - prm.delta) (children := [LC.const 1, LC.const 28]) (r := 3)
    (by
      intro lc hlc
      simp only [List.mem_cons, List.not_mem_nil, or_false] at hlc
      rcases hlc with rfl | rfl <;> exact PState.hasLC_const)
    (by rw [hl]; decide) rfl
    (by
      intro e
      exact hn ⟨-3, by
        rw [neg_smul, neg_eq_iff_add_eq_zero, ← e, ← natCast_zsmul]; abel⟩)
    ⟨LC.const 28, by simp, by rw [ech, eval_const]; rfl⟩ (by rw [hl]; exact chainOk61)
    (by
      rw [ech]
      refine ⟨Curve61.C.pt_ne_zero _, ?_, fun e => hn ⟨3, by rw [e]; rfl⟩,
        fun e => hn ⟨-3, by rw [e, neg_smul]; rfl⟩⟩
      rw [← natCast_zsmul, Ne, Curve61.smul_h_eq_zero]
      decide)
  exact ⟨prm, s', h1, h2⟩

/-! ## C27 -/

/-- **C27** soundness of the batched level, partial (for the repaired `re_randomize`; the code's is
unsound, see `C21_single_level_unsound`): with `M·L` opened children, the public point plus `M·Δ` is, up
to a common sign, a sum of `M` curve points, the `i`-th having its x-coordinate among the `i`-th `L`
children, plus a multiple of the blinding base that is computed from the witness. -/
theorem C27_batched_level_partial {C : SWCurve F} (o : Oracle F G X) (ha : C.a = 0) {M L : Nat}
    (hM : M ≠ 0) (hL : L ≠ 0) {prm : LayerParams C} {h : C.Pt}
    (hts : buildTables C (windows prm.lambda) h = some prm.tables) {rc : C.Pt}
    (hne : rc + M • prm.delta ≠ 0) {children : List (LC F)} (hch : children.length = M * L)
    {t t' : VState F G X}
    (hrun : runV o (singleLevelBatched C true M prm rc children none none) t = .ok ((), t')) :
    ∃ (ys : List Variable) (vs : List (Window F)), ys.length = M ∧ vs.length = windows prm.lambda ∧
      ∀ w : Assignment F, t'.SatisfiedBy w → ∃ pts : List C.Pt, pts.length = M ∧
        (∀ (i : Nat) (y : Variable) (P : C.Pt), ys[i]? = some y → pts[i]? = some P →
          Selected C w ((children.drop (i * L)).take L) (w.val y) P) ∧
        (rc + M • prm.delta = pts.sum + extractScalar (windows prm.lambda) prm.tables vs w • h ∨
          rc + M • prm.delta = - pts.sum) := by
  obtain ⟨ys, vs, hys, hvs, hv⟩ := singleLevelBatched_extract o ha hM hL hts hne hch hrun
  refine ⟨ys, vs, hys, hvs, fun w hw => ?_⟩
  obtain ⟨pts, hp, hsum⟩ := hv w hw
  have hlen : (chunksExact L children).length = M := by
    rw [chunksExact_length, hch, Nat.mul_div_cancel _ (Nat.pos_of_ne_zero hL)]
  have hpl : pts.length = M := by rw [← hp.length_eq]; simp [hlen, hys]
  refine ⟨pts, hpl, fun i y P hy hP => ?_, hsum⟩
  obtain ⟨hi, rfl⟩ := List.getElem?_eq_some_iff.1 hy
  obtain ⟨hi', rfl⟩ := List.getElem?_eq_some_iff.1 hP
  have := List.Forall₂.get hp (i := i) (by simp [hlen, hys]; omega) hi'
  simpa [chunksExact] using this

/-- **C27** completeness of the batched level: `M` witnesses, the `i`-th with its x-coordinate among
the `i`-th `L` children, with proper partial sums, and a scalar avoiding the exceptional cases. -/
theorem C27_batched_level_complete {C : SWCurve F} (o : Oracle F G X) (ha : C.a = 0) (fx : Bool)
    {M L : Nat} (hM : M ≠ 0) (hL : L ≠ 0) {prm : LayerParams C} (hm : windows prm.lambda ≠ 1)
    {h : C.Pt} (hts : buildTables C (windows prm.lambda) h = some prm.tables) {s : PState F G X}
    (hs : s.Good) {rc : C.Pt} {children : List (LC F)} (hch : children.length = M * L)
    (hlc : ∀ lc ∈ children, s.HasLC lc) {pts : List C.Pt}
    (hok : BatchOk C s.assignment true 0 (chunksExact L children) pts) {r : Nat}
    (hr : r < 2 ^ prm.lambda) (hrc : rc + M • prm.delta = pts.sum + r • h)
    (hne : rc + M • prm.delta ≠ 0) (hcok : ChainOk C prm.lambda h r)
    (hfin : C.DiffX pts.sum (r • h)) :
    ∃ s', runP o (singleLevelBatched C fx M prm rc children (some pts) (some r)) s = .ok ((), s') ∧
      s'.Good ∧ s'.Satisfied ∧ s.Ext s' := by
  have hdiv : children.length / M = L := by
    rw [hch, Nat.mul_div_cancel_left _ (Nat.pos_of_ne_zero hM)]
  have hlen : (chunksExact L children).length = M := by
    rw [chunksExact_length, hch, Nat.mul_div_cancel _ (Nat.pos_of_ne_zero hL)]
  obtain ⟨e1, e2, e3⟩ := entries_of_chain (C := C) hr h
  suffices hc : Complete o (singleLevelBatched C fx M prm rc children (some pts) (some r)) s
      fun _ _ => True by
    obtain ⟨⟨⟩, s', h1, h2, h3, -⟩ := hc
    exact ⟨s', h1, h2, h2.satisfied, h3⟩
  unfold singleLevelBatched
  rw [if_neg (by rw [hdiv]; omega), hdiv]
  refine (complete_batchedLoop (o := o) hs ha (S := 0) (fun ch hmem lc hl => ?_) rfl (by simp)
    (by simp) (fun _ h0 => by rw [h0] at hlen; simp at hlen; omega) hok).bind
    fun out s1 g1 x1 h1 => ?_
  · obtain ⟨i, -, rfl⟩ := List.mem_map.1 hmem
    exact hlc lc (List.mem_of_mem_drop (List.mem_of_mem_take hl))
  · rw [zero_add] at h1
    refine complete_reRandomize g1 hm hts h1.1 h1.2 ?_
      (fun k hk1 hk => by rw [e1 k hk, e2]; exact hcok k hk1 hk) (by rw [e3]; exact hfin)
    rw [e3, ← hrc]
    exact rep_const hne

/-- Non-vacuity of C27: two chunks of one child each; the points `(28,0)` and `(1,3)` are selected and
their sum is re-randomised by 3. -/
example : ∃ (prm : LayerParams Curve61.C) (s' : PState (ZMod 61) Unit Unit),
    runP (fun _ => 0) (singleLevelBatched Curve61.C false 2 prm
      (Curve61.d2 + Curve61.h + 3 • Curve61.h - 2 • prm.delta)
      [LC.const 28, LC.const 1] (some [Curve61.d2, Curve61.h]) (some 3)) {} = .ok ((), s') ∧
    s'.Satisfied := by
  obtain ⟨prm, hd, hl, hts⟩ := singleLevel61
  have hn := Curve61.d2_notin
  rw [AddSubgroup.mem_zmultiples_iff] at hn
  have hh0 : Curve61.h ≠ 0 := Curve61.C.pt_ne_zero _
  have h3 : (3 : ℕ) • Curve61.h ≠ 0 := by
    rw [← natCast_zsmul, Ne, Curve61.smul_h_eq_zero]; decide
  have hsum : ([Curve61.d2, Curve61.h] : List Curve61.C.Pt).sum = Curve61.d2 + Curve61.h := by simp
  have key : ∀ k : ℤ, Curve61.d2 ≠ k • Curve61.h := fun k e => hn ⟨k, e.symm⟩
  have erc : Curve61.d2 + Curve61.h + 3 • Curve61.h - 2 • prm.delta + 2 • prm.delta =
      Curve61.d2 + Curve61.h + 3 • Curve61.h := by abel
  obtain ⟨s', h1, -, h2, -⟩ := C27_batched_level_complete (G := Unit) (X := Unit) (fun _ => 0)
    (C := Curve61.C) rfl false (M := 2) (L := 1) (by decide) (by decide) (by rw [hl]; decide) hts
    good_empty (rc := Curve61.d2 + Curve61.h + 3 • Curve61.h - 2 • prm.delta)
    (children := [LC.const 28, LC.const 1]) rfl
    (by
      intro lc hlc
      simp only [List.mem_cons, List.not_mem_nil, or_false] at hlc
      rcases hlc with rfl | rfl <;> exact PState.hasLC_const)
    (pts := [Curve61.d2, Curve61.h]) (r := 3)
    (by
      refine ⟨Curve61.C.pt_ne_zero _, ⟨LC.const 28, by simp, by rw [eval_const]; rfl⟩, by simp,
        hh0, ⟨LC.const 1, by simp, by rw [eval_const]; rfl⟩, fun _ => ?_, trivial⟩
      rw [zero_add]
      exact ⟨Curve61.C.pt_ne_zero _, hh0, fun e => key 1 (by rw [e, one_smul]),
        fun e => key (-1) (by rw [e, neg_smul, one_smul])⟩)
    (by rw [hl]; decide) (by rw [hsum, erc])
    (by
      rw [erc]
      intro e
      refine key (-4) ?_
      have : Curve61.d2 = -(Curve61.h + 3 • Curve61.h) := by
        rw [eq_neg_iff_add_eq_zero, ← e]; abel
      rw [this]; module)
    (by rw [hl]; exact chainOk61)
    (by
      rw [hsum]
      refine ⟨fun e => key (-1) ?_, h3, fun e => key 2 ?_, fun e => key (-4) ?_⟩
      · rw [neg_smul, one_smul, eq_neg_iff_add_eq_zero, e]
      · rw [← eq_sub_iff_add_eq] at e; rw [e]; module
      · rw [← eq_sub_iff_add_eq] at e; rw [e]; module)
  exact ⟨prm, s', h1, h2⟩

end CT
