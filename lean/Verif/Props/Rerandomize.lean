import Verif.Props.Gadgets
import Verif.Proofs.RerandExtract
import Verif.Proofs.RerandComplete
import Verif.Proofs.RerandAttack
import Verif.Proofs.Curve61
import Verif.Proofs.Pasta

/-! # C18 – C20: window tables and re-randomisation -/

namespace CT
variable {F G X : Type} [Field F] [DecidableEq F] (o : Oracle F G X)

/-! ## C20 window tables -/

/-- **C20**: whatever the number of windows `m`, if `build_tables` succeeds then for every
`r < 8^m` the entries selected by the base-8 digits of `r` are curve points that add up to `r·h`. -/
theorem C20_tables_sum (C : SWCurve F) (m : Nat) (h : C.Pt) (ts : List (Table F))
    (hts : buildTables C m h = some ts) (r : Nat) (hr : r < 8 ^ m) :
    ∃ pts : List C.Pt, pts.length = m ∧ ts.length = m ∧
      (∀ (i : Nat) (t : Table F), ts[i]? = some t →
        C.new? (t.x (Fin.ofNat 8 (r / 8 ^ i % 8))) (t.y (Fin.ofNat 8 (r / 8 ^ i % 8))) = pts[i]?) ∧
      pts.sum = r • h := by
  obtain ⟨hl, he⟩ := buildTables_spec hts
  refine ⟨(List.range m).map fun i => tableScalar m (i + 1) (r / 8 ^ i % 8) • h, by simp, hl, ?_, ?_⟩
  · intro i t ht
    have hi : i < m := by rw [← hl]; exact (List.getElem?_eq_some_iff.1 ht).1
    rw [he i t ht]
    simp [hi]
  · have := partialScalar_digits m r hr
    have e : ((List.range m).map fun i => tableScalar m (i + 1) (r / 8 ^ i % 8) • h).sum =
        partialScalar m (fun i => r / 8 ^ i % 8) m • h := by
      unfold partialScalar
      generalize List.range m = l
      induction l with
      | nil => simp
      | cons a l ih => rw [List.map_cons, List.sum_cons, ih]; simp [add_smul]
    rw [e, this, natCast_zsmul]

/-- **C20**: the index the gadget computes for window `i` is the base-8 digit, for every scalar
smaller than `2^lambda` (also in the last, partial window), and the windows cover the scalar. -/
theorem C20_window_index (lambda r : Nat) (hr : r < 2 ^ lambda) :
    (∀ i, windowIndex lambda r (i + 1) = r / 8 ^ i % 8) ∧ r < 8 ^ windows lambda :=
  ⟨windowIndex_eq hr, lt_windows hr⟩

/-- **C20**: `build_tables` succeeds when no entry is the point at infinity. -/
theorem C20_tables_exist (C : SWCurve F) (m : Nat) (h : C.Pt)
    (hne : ∀ k < m, ∀ j < 8, tableScalar m (k + 1) j • h ≠ 0) :
    ∃ ts, buildTables C m h = some ts := buildTables_isSome hne

/-- Non-vacuity of C20: a base point of order 19 with three windows. -/
example : ∃ ts, buildTables Curve61.C 3 Curve61.h = some ts := Curve61.tables

/-! ## C18 soundness of re_randomize -/

/-- The claim of C18 for a variant of the gadget (`fx = false`: the code). The variables `vs` of the
windows depend only on the circuit. In every assignment satisfying the constraints, if commitment and
re-randomised commitment are curve points, then the latter is the former plus `z·h`, where the scalar
`z` is computed from the values of `vs` (`Spec/Extract.lean`); or it is minus the former (`z = 0`, up to
the sign of the commitment). -/
def RerandomizeSound (fx : Bool) : Prop :=
  ∀ (F : Type) [Field F] [DecidableEq F] (C : SWCurve F) (G X : Type) (o : Oracle F G X)
    (lambda : Nat) (h : C.Pt) (ts : List (Table F)), buildTables C (windows lambda) h = some ts →
  ∀ (c : PointRep C) (xT yT : LC F) (t t' : VState F G X),
    runV o (reRandomize C fx lambda ts c xT yT none) t = .ok ((), t') →
  ∃ vs : List (Window F), vs.length = windows lambda ∧
  ∀ w : Assignment F, t'.SatisfiedBy w →
  ∀ (hc : C.OnCurve (w.eval c.x) (w.eval c.y)) (hq : C.OnCurve (w.eval xT) (w.eval yT)),
    C.pt hq = C.pt hc + extractScalar (windows lambda) ts vs w • h ∨ C.pt hq = - C.pt hc

/-- The weaker claim that some multiple of the base exists (which says something only when the base does
not generate the group). -/
def RerandomizeRelated (fx : Bool) : Prop :=
  ∀ (F : Type) [Field F] [DecidableEq F] (C : SWCurve F) (G X : Type) (o : Oracle F G X)
    (lambda : Nat) (h : C.Pt) (ts : List (Table F)), buildTables C (windows lambda) h = some ts →
  ∀ (c : PointRep C) (xT yT : LC F) (t t' : VState F G X) (w : Assignment F),
    runV o (reRandomize C fx lambda ts c xT yT none) t = .ok ((), t') → t'.SatisfiedBy w →
  ∀ (hc : C.OnCurve (w.eval c.x) (w.eval c.y)) (hq : C.OnCurve (w.eval xT) (w.eval yT)),
    ∃ r : ℤ, C.pt hq = C.pt hc + r • h ∨ C.pt hq = - C.pt hc + r • h

theorem C18_sound_related (fx : Bool) (hS : RerandomizeSound fx) : RerandomizeRelated fx := by
  intro F _ _ C G X o lambda h ts hts c xT yT t t' w hrun hw hc hq
  obtain ⟨vs, -, hv⟩ := hS F C G X o lambda h ts hts c xT yT t t' hrun
  rcases hv w hw hc hq with e | e
  · exact ⟨_, .inl e⟩
  · exact ⟨0, .inr (by rw [e, zero_smul, add_zero])⟩

/-- **C18**, partial: the gadget with the two missing constraints added satisfies the claim, for every
curve, base, window count and assignment, including assignments that hit the exceptional cases of
the incomplete additions. Missing: the code in `/repo` does not have these constraints, see
`C18_rerandomize_unsound`. -/
theorem C18_rerandomize_partial : RerandomizeSound true := by
  intro F _ _ C G X o lambda h ts hts c xT yT t t' hrun
  obtain ⟨vs, hl, hv⟩ := reRandomize_extract o hts hrun
  exact ⟨vs, hl, fun w hw hc hq => (hv w hw hc hq).symm⟩

/-- When no accumulator has the x-coordinate of the table entry just added (in particular whenever
all additions of the chain are proper), the extracted scalar is the number with the base-8 digits
given by the index bits. -/
theorem C18_extracted_value (m : Nat) (w : Assignment F) (ts : List (Table F))
    (vs : List (Window F)) (ht : ts.length = m) (hv : vs.length = m)
    (hne : ∀ (k : Nat) (t : Table F) (v : Window F), 1 ≤ k → ts[k]? = some t → vs[k]? = some v →
      w.eval v.accX ≠ t.x (Fin.ofNat 8 (v.digit w))) :
    extractScalar m ts vs w = ((List.range m).map fun k =>
      (((vs[k]?.map (·.digit w)).getD 0 : Nat) : Int) * 8 ^ k).sum := by
  have key : ∀ (ts : List (Table F)) (vs : List (Window F)) (i : Nat) (z : Int) (d : Nat → Nat),
      ts.length = vs.length → 1 ≤ i →
      (i = 1 → z = 0) →
      (∀ (k : Nat) (v : Window F), vs[k]? = some v → d (i - 1 + k) = v.digit w) →
      (∀ (k : Nat) (t : Table F) (v : Window F), 2 ≤ i + k → ts[k]? = some t → vs[k]? = some v →
        w.eval v.accX ≠ t.x (Fin.ofNat 8 (v.digit w))) →
      z = partialScalar m d (i - 1) →
      extractFrom m w i z ts vs = partialScalar m d (i - 1 + ts.length) := by
    intro ts
    induction ts with
    | nil =>
      intro vs i z d hl hi hz hd hne e
      cases vs with
      | nil => simpa [extractFrom] using e
      | cons v vs => simp at hl
    | cons t ts ih =>
      intro vs i z d hl hi hz hd hne e
      cases vs with
      | nil => simp at hl
      | cons v vs =>
        have hdv := hd 0 v rfl
        rw [Nat.add_zero] at hdv
        have e' : (if i = 1 then tableScalar m i (v.digit w) else
            if w.eval v.accX = t.x (Fin.ofNat 8 (v.digit w)) then - tableScalar m i (v.digit w)
            else z + tableScalar m i (v.digit w)) = partialScalar m d (i + 1 - 1) := by
          rw [show i + 1 - 1 = (i - 1) + 1 by omega, partialScalar_succ, ← e, hdv,
            show i - 1 + 1 = i by omega]
          split
          · next h1 => rw [hz h1, zero_add]
          · rw [if_neg (hne 0 t v (by omega) rfl rfl)]
        simp only [extractFrom]
        rw [ih vs (i + 1) _ d (by simpa using hl) (by omega) (by omega) (fun k v' hk => by
            have := hd (k + 1) v' (by simpa using hk)
            rwa [show i - 1 + (k + 1) = i + 1 - 1 + k by omega] at this)
          (fun k t' v' hk h1 h2 => hne (k + 1) t' v' (by omega) (by simpa using h1)
            (by simpa using h2)) e', List.length_cons]
        congr 1
        omega
  have hz : (0 : Int) = partialScalar m (fun k => (vs[k]?.map (·.digit w)).getD 0) (1 - 1) := by
    simp [partialScalar]
  rw [extractScalar, key ts vs 1 0 (fun k => (vs[k]?.map (·.digit w)).getD 0) (by omega) (le_refl _)
    (fun _ => rfl) (fun k v hk => by simp [hk])
    (fun k t v hk h1 h2 => hne k t v (by omega) h1 h2) hz, Nat.sub_self, Nat.zero_add, ht,
    partialScalar_all]

/-- **C18**, the attack: the code's constraints do not tie the re-randomised commitment `Q` to the
commitment `P` at all. Whatever the digits `r` used for the table lookups, the Prover can satisfy the
gadget for any `P` and `Q`, as long as the chain of additions ending in `Q - P` avoids the
(at most `3·m`) exceptional points. -/
theorem C18_rerandomize_attack (C : SWCurve F) {lambda : Nat} {h : C.Pt} {ts : List (Table F)}
    (hts : buildTables C (windows lambda) h = some ts) {s : PState F G X} (hs : s.Good)
    {c : PointRep C} (hcw : c.witness = none) {xT yT : LC F}
    (hlc : s.HasLC c.x ∧ s.HasLC c.y ∧ s.HasLC xT ∧ s.HasLC yT)
    (hP : C.OnCurve (s.assignment.eval c.x) (s.assignment.eval c.y))
    (hQ : C.OnCurve (s.assignment.eval xT) (s.assignment.eval yT))
    (r : Nat)
    (hgen : ∀ k, 1 ≤ k → k < windows lambda → C.DiffX
      (C.pt hQ - C.pt hP - (partialScalar (windows lambda) (fun i => windowIndex lambda r (i + 1))
        (windows lambda) - partialScalar (windows lambda) (fun i => windowIndex lambda r (i + 1)) k) • h)
      (tableScalar (windows lambda) (k + 1) (windowIndex lambda r (k + 1)) • h))
    (hfirst : C.pt hQ - C.pt hP ≠ (partialScalar (windows lambda)
      (fun i => windowIndex lambda r (i + 1)) (windows lambda) -
      partialScalar (windows lambda) (fun i => windowIndex lambda r (i + 1)) 1) • h)
    (hfin : C.DiffX (C.pt hP) (C.pt hQ - C.pt hP))
    {t : VState F G X} (hst : SameStatement s t) :
    ∃ t', runV o (reRandomize C false lambda ts c xT yT none) t = .ok ((), t') ∧
      Extendable s t' := by
  have hP' : s.Rep C (C.pt hP) (c.x, c.y) := ⟨hlc.1, hlc.2.1, hP, rfl⟩
  have hQ' : s.Rep C (C.pt hQ) (xT, yT) := ⟨hlc.2.2.1, hlc.2.2.2, hQ, rfl⟩
  obtain ⟨⟨⟩, t', h⟩ := exists_extendable_of_complete o
    (complete_attack hts hs hP' hQ' (r := r) ⟨hgen, hfirst, hfin⟩)
    (sameCalls_cheat C lambda _ (buildTables_spec hts).1 c hcw (C.pt hP) xT yT r _) hst
  exact ⟨t', h⟩

/-- **C18**, consequence: whenever the claimed relation is false, i.e. `Q - P` is not a multiple of the
blinding base, the code's constraints are satisfiable (except in the degenerate case `Q = 2·P`). -/
theorem C18_accepts_unrelated (C : SWCurve F) {lambda : Nat} {h : C.Pt} {ts : List (Table F)}
    (hts : buildTables C (windows lambda) h = some ts) {s : PState F G X} (hs : s.Good)
    {c : PointRep C} (hcw : c.witness = none) {xT yT : LC F}
    (hlc : s.HasLC c.x ∧ s.HasLC c.y ∧ s.HasLC xT ∧ s.HasLC yT)
    (hP : C.OnCurve (s.assignment.eval c.x) (s.assignment.eval c.y))
    (hQ : C.OnCurve (s.assignment.eval xT) (s.assignment.eval yT))
    (hrel : ¬ ∃ r : ℤ, C.pt hQ = C.pt hP + r • h) (h2 : C.pt hQ ≠ C.pt hP + C.pt hP)
    {t : VState F G X} (hst : SameStatement s t) :
    ∃ t', runV o (reRandomize C false lambda ts c xT yT none) t = .ok ((), t') ∧
      Extendable s t' := by
  have ha := attackable_of_unrelated hts (C.pt_ne_zero hP) (C.pt_ne_zero hQ) hrel h2
  exact C18_rerandomize_attack o C hts hs hcw hlc hP hQ 0 ha.gen ha.first ha.fin hst

/-- **C18** is false of the code: on `y² = x³ + 8` over `F_61` with blinding base `(1,3)` of order 19
the constraints can be satisfied with `C = (1,3)` and `C~ = (29,34) = C + (28,0)`, although
`(28,0)` is not a multiple of the base. -/
theorem C18_rerandomize_unsound : ¬ RerandomizeRelated false := by
  intro hS
  obtain ⟨ts, hts⟩ := Curve61.tables
  let s : PState (ZMod 61) Unit Unit := {}
  have hs : s.Good :=
    ⟨⟨rfl, rfl, by intro i hi; simp [s] at hi, by simp [s]⟩, by simp [s], by simp [s]⟩
  let c : PointRep Curve61.C := ⟨LC.const 1, LC.const 3, none⟩
  let w0 := s.assignment
  have hP : ∀ w : Assignment (ZMod 61), Curve61.C.OnCurve (w.eval c.x) (w.eval c.y) := by
    intro w
    simp only [c, eval_const]
    exact Curve61.on _ _ (by decide)
  have hQ : ∀ w : Assignment (ZMod 61), Curve61.C.OnCurve (w.eval (LC.const 29)) (w.eval (LC.const 34)) := by
    intro w
    simp only [eval_const]
    exact Curve61.on _ _ (by decide)
  have eP : ∀ w, Curve61.C.pt (hP w) = Curve61.h := by
    intro w; exact Curve61.C.pt_inj.2 ⟨by simp [c], by simp [c]⟩
  have eQ : ∀ w, Curve61.C.pt (hQ w) = Curve61.h + Curve61.d2 := by
    intro w
    obtain ⟨h', e⟩ := Curve61.C.add_of_chord (xo := 29) (yo := 34) (d := 27) (Curve61.on 1 3 (by decide))
      (Curve61.on 28 0 (by decide)) (by decide) (by decide) (by decide) (by decide)
    exact Eq.trans (Curve61.C.pt_inj.2 ⟨by simp, by simp⟩) e
  have hn := Curve61.d2_notin
  rw [AddSubgroup.mem_zmultiples_iff] at hn
  obtain ⟨t', hrun, w, hw, -⟩ := C18_accepts_unrelated (fun _ => 0) Curve61.C hts hs (c := c) rfl
    (xT := LC.const 29) (yT := LC.const 34)
    ⟨PState.hasLC_const, PState.hasLC_const, PState.hasLC_const, PState.hasLC_const⟩ (hP _) (hQ _)
    (by
      rintro ⟨r, e⟩
      rw [eP, eQ] at e
      exact hn ⟨r, (add_left_cancel e).symm⟩)
    (by
      intro e
      rw [eP, eQ] at e
      exact hn ⟨1, by rw [one_smul]; exact (add_left_cancel e).symm⟩) 
    (t := {}) ⟨rfl, rfl, rfl, rfl, rfl, rfl⟩
  obtain ⟨r, e | e⟩ := hS _ Curve61.C _ _ (fun _ => 0) 6 _ ts hts c (LC.const 29) (LC.const 34) _ t' w
    hrun hw (hP w) (hQ w)
  · rw [eP, eQ] at e
    exact hn ⟨r, (add_left_cancel e).symm⟩
  · rw [eP, eQ] at e
    refine hn ⟨r - 2, ?_⟩
    rw [sub_smul]
    have : Curve61.d2 = -Curve61.h + r • Curve61.h - Curve61.h := by rw [← e]; abel
    rw [this]
    abel

/-! ## C19 completeness of re_randomize -/

/-- **C19**, partial: exactly when the honest Prover succeeds. The Prover holding `P` and running the
gadget on the scalar `r` and `P + r·h` terminates without a panic iff no addition of the chain hits
an exceptional case: the sum `(r mod 8^k + 8 + .. + 8^k)·h` of the first `k` entries and the next
entry must have different x-coordinates, and so must `P` and `r·h`. When it succeeds, all
constraints are satisfied. Missing: the property claims success for every `r`, which is false, see
`C19_zero_fails`; for the curves in use the exceptional scalars are listed in `C19_pasta`. -/
theorem C19_rerandomize_partial (C : SWCurve F) (fx : Bool) {lambda : Nat} (hm : windows lambda ≠ 1)
    {h : C.Pt} {ts : List (Table F)} (hts : buildTables C (windows lambda) h = some ts)
    {s : PState F G X} (hs : s.Good) {c : PointRep C} {xT yT : LC F} {P : C.Pt}
    (hcw : c.witness = some P) (hc : s.Rep C P (c.x, c.y)) {r : Nat} (hr : r < 2 ^ lambda)
    (hQ : s.Rep C (P + r • h) (xT, yT)) :
    (∃ s', runP o (reRandomize C fx lambda ts c xT yT (some r)) s = .ok ((), s') ∧
      s'.Satisfied ∧ s.Ext s') ↔
    ChainOk C lambda h r ∧ C.DiffX P (r • h) := by
  unfold ChainOk
  have hw : (fun i => windowIndex lambda r (i + 1)) = fun i => r / 8 ^ i % 8 :=
    funext fun i => windowIndex_eq hr i
  have e1 : ∀ k, k < windows lambda → ((List.range k).map (entryAt C lambda r h)).sum =
      (((r % 8 ^ k : Nat) : Int) + offs k) • h := by
    intro k hk
    rw [entries_sum, hw, partialScalar_mod _ _ _ hk]
  have e2 : ∀ k, entryAt C lambda r h k =
      tableScalar (windows lambda) (k + 1) (r / 8 ^ k % 8) • h := by
    intro k
    unfold entryAt
    rw [windowIndex_eq hr]
  have e3 := entries_sum_all (C := C) hr h
  constructor
  · rintro ⟨s', hrun, -, -⟩
    obtain ⟨hd, hf⟩ := reRandomize_runP hm hts hcw hrun
    refine ⟨fun k hk1 hk => ?_, by rw [← e3]; exact hf⟩
    rw [← e1 k hk, ← e2]
    exact hd k hk1 hk
  · rintro ⟨hd, hf⟩
    obtain ⟨a, s', hrun, hg, hx, -⟩ := complete_reRandomize (o := o) hs (fx := fx) (r := r) hm hts hcw hc
      (by rw [e3]; exact hQ)
      (fun k hk1 hk => by rw [e1 k hk, e2]; exact hd k hk1 hk) (by rw [e3]; exact hf)
    exact ⟨s', hrun, ⟨hg.toInv.gates, hg.sat⟩, hx⟩

/-- Non-vacuity of C19: on the curve over `F_61` with blinding base of order 19, `P = (28,0)` can be
re-randomised by 3 (to `(27,7)`). -/
example : ∃ ts s', buildTables Curve61.C (windows 6) Curve61.h = some ts ∧
    runP (fun _ => 0) (reRandomize Curve61.C false 6 ts
      ⟨LC.const 28, LC.const 0, some Curve61.d2⟩ (LC.const 27) (LC.const 7) (some 3))
      ({} : PState (ZMod 61) Unit Unit) = .ok ((), s') ∧ s'.Satisfied := by
  obtain ⟨ts, hts⟩ := Curve61.tables
  let s : PState (ZMod 61) Unit Unit := {}
  have hs : s.Good :=
    ⟨⟨rfl, rfl, by intro i hi; simp [s] at hi, by simp [s]⟩, by simp [s], by simp [s]⟩
  have hn := Curve61.d2_notin
  rw [AddSubgroup.mem_zmultiples_iff] at hn
  have e3 : Curve61.C.pt Curve61.on3 = 3 • Curve61.h := by
    rw [Curve61.e3, Curve61.e2]; abel
  have key := (C19_rerandomize_partial (fun _ => 0) Curve61.C false (lambda := 6)
    (by decide) hts hs (c := ⟨LC.const 28, LC.const 0, some Curve61.d2⟩) (xT := LC.const 27)
    (yT := LC.const 7) rfl
    ⟨PState.hasLC_const, PState.hasLC_const, by
      simp only [eval_const]; exact ⟨Curve61.on 28 0 (by decide), rfl⟩⟩ (r := 3) (by decide)
    ⟨PState.hasLC_const, PState.hasLC_const, by
      simp only [eval_const]
      obtain ⟨h', e⟩ := Curve61.C.add_of_chord (xo := 27) (yo := 7) (d := 7)
        (Curve61.on 28 0 (by decide)) Curve61.on3 (by decide) (by decide) (by decide) (by decide)
      exact ⟨h', by rw [e, e3]; rfl⟩⟩).2
  suffices hd : _ by
    obtain ⟨s', h1, h2, -⟩ := key hd
    exact ⟨ts, s', hts, h1, h2⟩
  refine ⟨?_, Curve61.C.pt_ne_zero _, ?_, ?_, ?_⟩
  · intro k hk1 hk
    refine diffX_of_not_dvd Curve61.order_h ?_
    have hk3 : k < 3 := hk
    interval_cases k <;> decide
  · rw [← e3]; exact Curve61.C.pt_ne_zero _
  · intro e; exact hn ⟨3, by rw [e]; rfl⟩
  · intro e; exact hn ⟨-3, by rw [e, neg_smul]; rfl⟩

/-- **C19** is false: re-randomising by zero never succeeds. -/
theorem C19_zero_fails (C : SWCurve F) (fx : Bool) {lambda : Nat} (hm : windows lambda ≠ 1)
    {h : C.Pt} {ts : List (Table F)} (hts : buildTables C (windows lambda) h = some ts)
    {s : PState F G X} {c : PointRep C} {xT yT : LC F} {P : C.Pt} (hcw : c.witness = some P) :
    ¬ ∃ s', runP o (reRandomize C fx lambda ts c xT yT (some 0)) s = .ok ((), s') := by
  rintro ⟨s', hrun⟩
  obtain ⟨-, -, h0, -⟩ := reRandomize_runP hm hts hcw hrun
  rw [entries_sum_all (by positivity), zero_smul] at h0
  exact h0 rfl

/-- **C19** for the Pasta curves (and any base point whose order `q` lies just above `2^254`, with
255-bit scalars): `build_tables` succeeds, and for all scalars `r < q` outside an explicit list of
four, and all `P` with `P ≠ ±r·h`, the honest Prover succeeds. -/
theorem C19_pasta_partial (C : SWCurve F) (fx : Bool) {h : C.Pt} {q : Nat} (ho : addOrderOf h = q)
    (hq : 4 * 8 ^ 84 < q) (hq2 : 1000 * q < 4001 * 8 ^ 84) :
    ∃ ts, buildTables C (windows 255) h = some ts ∧
    ∀ (s : PState F G X) (c : PointRep C) (xT yT : LC F) (P : C.Pt) (r : Nat), s.Good →
      c.witness = some P → s.Rep C P (c.x, c.y) → s.Rep C (P + r • h) (xT, yT) →
      r < q → (r : Int) ∉ pastaExceptional q → P ≠ 0 → P ≠ r • h → P ≠ - (r • h) →
      ∃ s', runP o (reRandomize C fx 255 ts c xT yT (some r)) s = .ok ((), s') ∧
        s'.Satisfied ∧ s.Ext s' := by
  have hqi : (4 : Int) * 8 ^ 84 < q := by exact_mod_cast hq
  have hq2i : 1000 * (q : Int) < 4001 * 8 ^ 84 := by exact_mod_cast hq2
  obtain ⟨ts, hts⟩ := C20_tables_exist C (windows 255) h
    (fun k hk j hj => pasta_tables hqi hq2i ho hk hj)
  refine ⟨ts, hts, fun s c xT yT P r hs hcw hc hQ hr hex hP0 h1 h2 => ?_⟩
  have hr2 : r < 2 ^ 255 := by
    have : (4001 : Nat) * 8 ^ 84 ≤ 1000 * 2 ^ 255 := by norm_num
    generalize 8 ^ 84 = U at *
    omega
  refine (C19_rerandomize_partial o C fx (by decide) hts hs hcw hc hr2 hQ).2 ⟨fun k hk1 hk => ?_, hP0,
    fun e => ?_, h1, h2⟩
  · have := pasta_windows hqi hq2i hr hex hk1 hk
    rw [← partialScalar_mod (windows 255) r k hk]
    exact diffX_of_not_dvd ho this
  · have h0 : r ≠ 0 := fun h => hex (by simp [pastaExceptional, h])
    have hd : q ∣ r := by rw [← ho]; exact addOrderOf_dvd_iff_nsmul_eq_zero.2 e
    exact absurd (Nat.le_of_dvd (Nat.pos_of_ne_zero h0) hd) (by omega)

/-- Both Pasta orders are in the range of `C19_pasta_partial`. -/
example : 4 * 8 ^ 84 < pallasOrder ∧ 1000 * pallasOrder < 4001 * 8 ^ 84 ∧
    4 * 8 ^ 84 < vestaOrder ∧ 1000 * vestaOrder < 4001 * 8 ^ 84 := by
  norm_num [pallasOrder, vestaOrder]

end CT
