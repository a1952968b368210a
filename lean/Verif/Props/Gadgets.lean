import Verif.Proofs.GadgetSync
import Verif.Proofs.GadgetSound
import Verif.Proofs.GadgetComplete
import Verif.Proofs.CurveAdd
import Mathlib.Algebra.Field.Rat
import Mathlib.Tactic.NormNum

/-! # C13 – C17: the basic gadgets -/

namespace CT
variable {F G X α β : Type} [Field F] (o : Oracle F G X)

/-- If the honest Prover run succeeds, the Verifier's system is satisfiable on top of the existing
values. -/
theorem extendable_of_complete {R : α → β → Prop} {p : Prog F G X α} {q : Prog F G X β}
    {s : PState F G X} {t t' : VState F G X} {b : β} {Q : α → PState F G X → Prop}
    (hc : Complete o p s Q) (hq : SameCalls R p q) (hst : SameStatement s t)
    (hr : runV o q t = .ok (b, t')) : Extendable s t' := by
  obtain ⟨a, s', h1, h2, h3, -⟩ := hc
  obtain ⟨b', t'', k1, -, k2, -⟩ := sameCalls_run o hq hst h1
  rw [hr] at k1
  simp only [Except.ok.injEq, Prod.mk.injEq] at k1
  obtain ⟨rfl, rfl⟩ := k1
  refine ⟨s'.assignment, ⟨?_, ?_⟩, fun v hv => (h3.ext v hv).2⟩
  · rw [← k2.left]; exact h2.toInv.gates
  · rw [k2.constraints]; exact h2.sat

/-- The same, and the Verifier's run succeeds too. -/
theorem exists_extendable_of_complete {R : α → β → Prop} {p : Prog F G X α} {q : Prog F G X β}
    {s : PState F G X} {t : VState F G X} {Q : α → PState F G X → Prop}
    (hc : Complete o p s Q) (hq : SameCalls R p q) (hst : SameStatement s t) :
    ∃ b t', runV o q t = .ok (b, t') ∧ Extendable s t' := by
  obtain ⟨a, s', h1, h2, h3, h4⟩ := hc
  obtain ⟨b, t', k1, -, -⟩ := sameCalls_run o hq hst h1
  exact ⟨b, t', k1, extendable_of_complete o (Q := Q) ⟨a, s', h1, h2, h3, h4⟩ hq hst k1⟩

theorem eval_of_agree {s : PState F G X} {w : Assignment F} {lc : LC F} (h : s.HasLC lc)
    (hw : ∀ v, s.Has v → w.val v = s.assignment.val v) : w.eval lc = s.assignment.eval lc := by
  unfold Assignment.eval
  congr 1
  exact List.map_congr_left fun t ht => by rw [hw _ (h t ht)]

/-! ## C13 select -/

/-- **C13** soundness: in any assignment satisfying the Verifier's system after `select(x, xs)`, the
value of `x` is the value of some `xs` entry. -/
theorem C13_select_sound {x : LC F} {xs : List (LC F)} {t t' : VState F G X} {w : Assignment F}
    (h : runV o (select x xs) t = .ok ((), t')) (hw : t'.SatisfiedBy w) :
    ∃ xi ∈ xs, w.eval xi = w.eval x := select_sound o h hw

/-- **C13** completeness: from any consistent Prover state, if `x` has the value of an entry, the
Prover's run of `select` succeeds and its assignment satisfies everything. -/
theorem C13_select_complete {s : PState F G X} (hs : s.Good) {x : LC F} {xs : List (LC F)}
    (hx : s.HasLC x) (hxs : ∀ y ∈ xs, s.HasLC y)
    (h : ∃ xi ∈ xs, s.assignment.eval xi = s.assignment.eval x) :
    ∃ s', runP o (select x xs) s = .ok ((), s') ∧ s'.Good ∧ s'.Satisfied ∧ s.Ext s' := by
  obtain ⟨⟨⟩, s', h1, h2, h3, -⟩ := complete_select (o := o) hs hx hxs h
  exact ⟨s', h1, h2, h2.satisfied, h3⟩

/-- **C13**: on top of any existing values, the constraints of `select` can be satisfied exactly when
`x` has the value of some entry. -/
theorem C13_select_iff {s : PState F G X} (hs : s.Good) {x : LC F} {xs : List (LC F)}
    (hx : s.HasLC x) (hxs : ∀ y ∈ xs, s.HasLC y) {t t' : VState F G X} (hst : SameStatement s t)
    (h : runV o (select x xs) t = .ok ((), t')) :
    Extendable s t' ↔ ∃ xi ∈ xs, s.assignment.eval xi = s.assignment.eval x := by
  constructor
  · rintro ⟨w, hw, ha⟩
    obtain ⟨xi, hm, he⟩ := select_sound o h hw
    exact ⟨xi, hm, by rw [← eval_of_agree (hxs xi hm) ha, he, eval_of_agree hx ha]⟩
  · intro he
    exact extendable_of_complete o (complete_select hs hx hxs he)
      (.refl (R := fun _ _ => True) (fun _ => trivial) _) hst h

/-- **C13**: selecting from an empty list is refused by both parties. -/
theorem C13_select_empty (x : LC F) (s : PState F G X) (t : VState F G X) :
    runP o (select x []) s = .error (.panic "Cannot select from empty list.") ∧
    runV o (select x []) t = .error (.panic "Cannot select from empty list.") := ⟨rfl, rfl⟩

/-- A Prover with three committed values. -/
def threeCommitted : PState ℚ Unit Unit := { v := [4, 7, 7], vBlinding := [1, 2, 3] }

theorem threeCommitted_good : threeCommitted.Good :=
  ⟨⟨rfl, rfl, by intro i hi; simp [threeCommitted] at hi, by simp [threeCommitted]⟩,
    by simp [threeCommitted], by simp [threeCommitted]⟩

/-- Non-vacuity of C13: select committed value 2 among values 0 and 1. -/
example : ∃ t', runV (fun _ => 0) (select (LC.ofVar (.committed 2))
      [LC.ofVar (.committed 0), LC.ofVar (.committed 1)]) ({ V := [(), (), ()] } : VState ℚ Unit Unit)
      = .ok ((), t') ∧ SameStatement threeCommitted ({ V := [(), (), ()] } : VState ℚ Unit Unit) ∧
    threeCommitted.HasLC (LC.ofVar (.committed 2)) ∧
    (∃ xi ∈ [LC.ofVar (.committed 0), LC.ofVar (.committed 1)],
      threeCommitted.assignment.eval xi = threeCommitted.assignment.eval (LC.ofVar (.committed 2))) := by
  refine ⟨_, rfl, ⟨rfl, rfl, rfl, rfl, rfl, rfl⟩, PState.hasLC_ofVar ?_, LC.ofVar (.committed 1), by simp, ?_⟩
  · simp [PState.Has, threeCommitted]
  · simp [Assignment.val, PState.assignment, threeCommitted]

/-! ## C14 range proof -/

/-- **C14** soundness: in any satisfying assignment the value of `v` is a natural number below `2^n`. -/
theorem C14_range_sound {v : LC F} {q : Option Nat} {n : Nat} {t t' : VState F G X}
    {w : Assignment F} (h : runV o (rangeProof v q n) t = .ok ((), t')) (hw : t'.SatisfiedBy w) :
    ∃ k : Nat, k < 2 ^ n ∧ w.eval v = (k : F) := by
  obtain ⟨k, hk, e⟩ := rangeProof_sound o h hw
  exact ⟨k, hk, e⟩

/-- **C14** completeness (the assignment is a `u64`, so `n ≤ 64`). -/
theorem C14_range_complete {s : PState F G X} (hs : s.Good) {q n : Nat} (hn : n ≤ 64)
    (hq : q < 2 ^ n) {v : LC F} (hv : s.HasLC v) (he : s.assignment.eval v = (q : F)) :
    ∃ s', runP o (rangeProof v (some q) n) s = .ok ((), s') ∧ s'.Good ∧ s'.Satisfied ∧
      s.Ext s' := by
  obtain ⟨⟨⟩, s', h1, h2, h3, -⟩ := complete_rangeProof (o := o) hs hn hq hv he
  exact ⟨s', h1, h2, h2.satisfied, h3⟩

/-- **C14**: the constraints can be satisfied exactly when the value is a natural number below
`2^n` (`n ≤ 64`, the bit lengths the API supports). -/
theorem C14_range_iff [DecidableEq F] {s : PState F G X} (hs : s.Good) {n : Nat} (hn : n ≤ 64)
    {v : LC F} (hv : s.HasLC v) {t t' : VState F G X} (hst : SameStatement s t)
    (h : runV o (rangeProof v none n) t = .ok ((), t')) :
    Extendable s t' ↔ ∃ k : Nat, k < 2 ^ n ∧ s.assignment.eval v = (k : F) := by
  constructor
  · rintro ⟨w, hw, ha⟩
    obtain ⟨k, hk, e⟩ := rangeProof_sound o h hw
    exact ⟨k, hk, by rw [← eval_of_agree hv ha, e]⟩
  · rintro ⟨k, hk, e⟩
    exact extendable_of_complete o (complete_rangeProof hs hn hk hv e)
      (sync_rangeProof v (some k) n) hst h

/-- **C14**, no wrap-around: if `2^n` does not exceed the characteristic the number is unique. -/
theorem C14_range_unique {p : Nat} [CharP F p] {n : Nat} (hp : 2 ^ n ≤ p) {k k' : Nat}
    (hk : k < 2 ^ n) (hk' : k' < 2 ^ n) (h : (k : F) = (k' : F)) : k = k' := by
  have := (CharP.cast_eq_iff_mod_eq F p).1 h
  rwa [Nat.mod_eq_of_lt (by omega), Nat.mod_eq_of_lt (by omega)] at this

/-- **C14**, limit of the API: with a witness and `n > 64` the Prover run panics (shift overflow of
the `u64` in the debug profile). -/
theorem C14_range_over_64_panics {s : PState F G X} {q n : Nat} (hn : 64 < n) {v : LC F} :
    ∃ m, runP o (rangeProof v (some q) n) s = .error (.panic m) := by
  suffices h : ∀ k i (e : F) (v : LC F) (s : PState F G X), i ≤ 64 → 64 < i + k →
      ∃ m, runP o (rangeLoop (some q) k i e v) s = .error (.panic m) by
    obtain ⟨m, hm⟩ := h n 0 1 v s (by omega) (by omega)
    exact ⟨m, by unfold rangeProof; rw [runP_bind, hm]⟩
  intro k
  induction k with
  | zero => intro i e v s h1 h2; omega
  | succ k ih =>
    intro i e v s h1 h2
    by_cases hi : i < 64
    · unfold rangeLoop
      rw [rangeBit_some hi]
      exact ih (i + 1) _ _ _ (by omega) (by omega)
    · refine ⟨"attempt to shift right with overflow", ?_⟩
      unfold rangeLoop
      have : rangeBit (F := F) (some q) i = none := by simp [rangeBit, hi]
      rw [this]; rfl

/-- Non-vacuity of C14: 7 is in 3-bit range. -/
example : ∃ t', runV (fun _ => 0) (rangeProof (LC.ofVar (.committed 1)) none 3)
      ({ V := [(), (), ()] } : VState ℚ Unit Unit) = .ok ((), t') ∧
    threeCommitted.HasLC (LC.ofVar (.committed 1)) ∧
    ∃ k : Nat, k < 2 ^ 3 ∧ threeCommitted.assignment.eval (LC.ofVar (.committed 1)) = (k : ℚ) := by
  refine ⟨_, rfl, PState.hasLC_ofVar ?_, 7, by norm_num, ?_⟩
  · simp [PState.Has, threeCommitted]
  · simp [Assignment.val, PState.assignment, threeCommitted]

/-! ## C15 lookup -/

/-- **C15** soundness: in any satisfying assignment the two outputs are the two coordinates of one
table entry. -/
theorem C15_lookup_sound {tx ty : Fin 8 → F} {i : Option Nat} {rx ry : LC F} {t t' : VState F G X}
    {w : Assignment F} (h : runV o (lookup tx ty i) t = .ok ((rx, ry), t'))
    (hw : t'.SatisfiedBy w) : ∃ k : Fin 8, w.eval rx = tx k ∧ w.eval ry = ty k :=
  lookup_sound o h hw

/-- **C15** completeness: for every index below 8 the Prover run succeeds, satisfies everything, and
the outputs are the entry at that index. -/
theorem C15_lookup_complete {s : PState F G X} (hs : s.Good) (tx ty : Fin 8 → F) (i : Fin 8) :
    ∃ rx ry s', runP o (lookup tx ty (some i.val)) s = .ok ((rx, ry), s') ∧ s'.Good ∧
      s'.Satisfied ∧ s.Ext s' ∧ s'.assignment.eval rx = tx i ∧ s'.assignment.eval ry = ty i := by
  obtain ⟨⟨rx, ry⟩, s', h1, h2, h3, -, -, h4, h5⟩ :=
    complete_lookup (o := o) hs (tx := tx) (ty := ty) i.isLt
  have : Fin.ofNat 8 i.val = i := by ext; simp
  rw [this] at h4 h5
  exact ⟨rx, ry, s', h1, h2, h2.satisfied, h3, h4, h5⟩

/-- **C15**: every entry is reachable on top of any existing values: for each index there is a
satisfying extension whose outputs are that entry. -/
theorem C15_lookup_every_entry [DecidableEq F] {s : PState F G X} (hs : s.Good)
    (tx ty : Fin 8 → F) {t t' : VState F G X} (hst : SameStatement s t) {rx ry : LC F}
    (h : runV o (lookup tx ty none) t = .ok ((rx, ry), t')) (i : Fin 8) :
    ∃ w : Assignment F, t'.SatisfiedBy w ∧ (∀ v, s.Has v → w.val v = s.assignment.val v) ∧
      w.eval rx = tx i ∧ w.eval ry = ty i := by
  obtain ⟨rx', ry', s', h1, h2, -, h3, h4, h5⟩ := C15_lookup_complete o hs tx ty i
  obtain ⟨b', t'', k1, k3, k2, -⟩ := sameCalls_run o (sync_lookup tx ty (some i.val)) hst h1
  rw [h] at k1
  simp only [Except.ok.injEq, Prod.mk.injEq] at k1
  obtain ⟨rfl, rfl⟩ := k1
  simp only [Prod.mk.injEq] at k3
  obtain ⟨rfl, rfl⟩ := k3
  refine ⟨s'.assignment, ⟨?_, ?_⟩, fun v hv => (h3.ext v hv).2, h4, h5⟩
  · rw [← k2.left]; exact h2.toInv.gates
  · rw [k2.constraints]; exact h2.sat

/-- Non-vacuity of C15: the Verifier run succeeds on a table with distinct entries. -/
example : ∃ r t', runV (fun _ => 0) (lookup (fun i => (i.val : ℚ)) (fun i => 10 + (i.val : ℚ)) none)
    ({ V := [(), (), ()] } : VState ℚ Unit Unit) = .ok (r, t') := ⟨_, _, rfl⟩

/-! ## C16 curve check -/

/-- **C16**, exact meaning of the constraints: they are satisfiable on top of existing values exactly
when `y² = x³ + A x² + B`. -/
theorem C16_curve_check_exact {s : PState F G X} (hs : s.Good) {x y : LC F} {a b : F}
    (hx : s.HasLC x) (hy : s.HasLC y) {t t' : VState F G X} (hst : SameStatement s t)
    (h : runV o (curveCheck x y a b) t = .ok ((), t')) :
    Extendable s t' ↔ s.assignment.eval y ^ 2 =
      s.assignment.eval x ^ 3 + a * s.assignment.eval x ^ 2 + b := by
  constructor
  · rintro ⟨w, hw, ha⟩
    have := curveCheck_sound o h hw
    rwa [eval_of_agree hx ha, eval_of_agree hy ha] at this
  · intro he
    exact extendable_of_complete o (complete_curveCheck hs hx hy he)
      (.refl (R := fun _ _ => True) (fun _ => trivial) _) hst h

/-- **C16**, proved part: for `A = 0` (all four curves used by the repository: Pallas, Vesta,
secp256k1, secq256k1) the constraints are satisfiable exactly for the points of the curve. Missing:
the property for `A ≠ 0`, which is false (`C16_curve_check_wrong`). -/
theorem C16_curve_check_partial (C : SWCurve F) (hA : C.a = 0) {s : PState F G X} (hs : s.Good)
    {x y : LC F} (hx : s.HasLC x) (hy : s.HasLC y) {t t' : VState F G X} (hst : SameStatement s t)
    (h : runV o (curveCheck x y C.a C.b) t = .ok ((), t')) :
    Extendable s t' ↔ C.OnCurve (s.assignment.eval x) (s.assignment.eval y) := by
  rw [C16_curve_check_exact o hs hx hy hst h, SWCurve.OnCurve, hA]
  simp

/-- **C16** is false for `A ≠ 0`: there is a curve, a pair of values that is not on it but is
accepted, and a curve point that is refused. -/
theorem C16_curve_check_wrong :
    ∃ (C C' : SWCurve ℚ) (s : PState ℚ Unit Unit) (x y : LC ℚ) (t t1 t2 : VState ℚ Unit Unit),
      s.Good ∧ s.HasLC x ∧ s.HasLC y ∧ SameStatement s t ∧
      runV (fun _ => 0) (curveCheck x y C.a C.b) t = .ok ((), t1) ∧
      runV (fun _ => 0) (curveCheck x y C'.a C'.b) t = .ok ((), t2) ∧
      (Extendable s t1 ∧ ¬ C.OnCurve (s.assignment.eval x) (s.assignment.eval y)) ∧
      (¬ Extendable s t2 ∧ C'.OnCurve (s.assignment.eval x) (s.assignment.eval y)) := by
  let s : PState ℚ Unit Unit := { v := [2, 2], vBlinding := [0, 0] }
  let t : VState ℚ Unit Unit := { V := [(), ()] }
  have hs : s.Good := ⟨⟨rfl, rfl, by intro i hi; simp [s] at hi, by simp [s]⟩, by simp [s], by simp [s]⟩
  have hx : s.HasLC (LC.ofVar (.committed 0)) := PState.hasLC_ofVar (by simp [PState.Has, s])
  have hy : s.HasLC (LC.ofVar (.committed 1)) := PState.hasLC_ofVar (by simp [PState.Has, s])
  have hst : SameStatement s t := ⟨rfl, rfl, rfl, rfl, rfl, rfl⟩
  refine ⟨⟨1, -8, by norm_num⟩, ⟨1, -6, by norm_num⟩, s, LC.ofVar (.committed 0),
    LC.ofVar (.committed 1), t, _, _, hs, hx, hy, hst, rfl, rfl, ⟨?_, ?_⟩, ⟨?_, ?_⟩⟩
  · refine (C16_curve_check_exact (fun _ => 0) hs hx hy hst rfl).2 ?_
    simp [Assignment.val, PState.assignment, s]; norm_num
  · simp [Assignment.val, PState.assignment, s, SWCurve.OnCurve]; norm_num
  · rw [C16_curve_check_exact (fun _ => 0) hs hx hy hst rfl]
    simp [Assignment.val, PState.assignment, s]; norm_num
  · simp [Assignment.val, PState.assignment, s, SWCurve.OnCurve]; norm_num

/-- Non-vacuity of `C16_curve_check_partial`: the point `(2, 3)` of `y² = x³ + 1`. -/
example : ∃ (C : SWCurve ℚ), C.a = 0 ∧ C.OnCurve 2 3 :=
  ⟨⟨0, 1, by norm_num⟩, rfl, by simp [SWCurve.OnCurve]; norm_num⟩

/-! ## C17 curve additions -/

variable [DecidableEq F]

/-- **C17** soundness of `incomplete_curve_addition` (different x-coordinates): the output is the
group sum. -/
theorem C17_incomplete_sound (C : SWCurve F) {p : CurveAddition F} {t t' : VState F G X}
    {w : Assignment F} (h : runV o (incompleteCurveAddition p) t = .ok ((), t'))
    (hw : t'.SatisfiedBy w) (hl : C.OnCurve (w.eval p.xl) (w.eval p.yl))
    (hr : C.OnCurve (w.eval p.xr) (w.eval p.yr)) (hne : w.eval p.xl ≠ w.eval p.xr) :
    ∃ ho : C.OnCurve (w.eval p.xo) (w.eval p.yo), C.pt ho = C.pt hl + C.pt hr := by
  obtain ⟨d, h1, h2, h3⟩ := incomplete_sound o h hw
  exact C.add_of_chord hl hr hne h1 h2 h3

/-- **C17** soundness of `checked_curve_addition`: the x-coordinates differ and the output is the
group sum. -/
theorem C17_checked_sound (C : SWCurve F) {p : CurveAddition F} {i : Option F}
    {t t' : VState F G X} {w : Assignment F}
    (h : runV o (checkedCurveAddition p i) t = .ok ((), t'))
    (hw : t'.SatisfiedBy w) (hl : C.OnCurve (w.eval p.xl) (w.eval p.yl))
    (hr : C.OnCurve (w.eval p.xr) (w.eval p.yr)) :
    w.eval p.xl ≠ w.eval p.xr ∧
    ∃ ho : C.OnCurve (w.eval p.xo) (w.eval p.yo), C.pt ho = C.pt hl + C.pt hr := by
  obtain ⟨hne, d, h1, h2, h3⟩ := checked_sound o h hw
  exact ⟨hne, C.add_of_chord hl hr hne h1 h2 h3⟩

omit [DecidableEq F] in
/-- **C17**: `checked_curve_addition` is unsatisfiable when the x-coordinates are equal. -/
theorem C17_checked_refuses_equal_x {p : CurveAddition F} {i : Option F}
    {t t' : VState F G X} {w : Assignment F}
    (h : runV o (checkedCurveAddition p i) t = .ok ((), t'))
    (heq : w.eval p.xl = w.eval p.xr) : ¬ t'.SatisfiedBy w :=
  fun hw => (checked_sound o h hw).1 heq

/-- **C17** completeness of both gadgets with the honest slope (and inverse). -/
theorem C17_complete (C : SWCurve F) {s : PState F G X} (hs : s.Good) {p : CurveAddition F}
    (hp : s.HasLC p.xl ∧ s.HasLC p.yl ∧ s.HasLC p.xr ∧ s.HasLC p.yr ∧ s.HasLC p.xo ∧ s.HasLC p.yo)
    (hl : C.OnCurve (s.assignment.eval p.xl) (s.assignment.eval p.yl))
    (hr : C.OnCurve (s.assignment.eval p.xr) (s.assignment.eval p.yr))
    (ho : C.OnCurve (s.assignment.eval p.xo) (s.assignment.eval p.yo))
    (hne : s.assignment.eval p.xl ≠ s.assignment.eval p.xr)
    (hsum : C.pt ho = C.pt hl + C.pt hr)
    (hd : p.delta = some ((s.assignment.eval p.yr - s.assignment.eval p.yl) /
      (s.assignment.eval p.xr - s.assignment.eval p.xl))) :
    (∃ s', runP o (incompleteCurveAddition p) s = .ok ((), s') ∧ s'.Good ∧ s'.Satisfied ∧
      s.Ext s') ∧
    (∃ s', runP o (checkedCurveAddition p
        (some (1 / (s.assignment.eval p.xl - s.assignment.eval p.xr)))) s = .ok ((), s') ∧
      s'.Good ∧ s'.Satisfied ∧ s.Ext s') := by
  obtain ⟨xo, yo, ho', e, h1, h2, h3⟩ := C.chord_of_add hl hr hne
  rw [← hsum, C.pt_inj] at e
  obtain ⟨rfl, rfl⟩ := e
  have hinv : (s.assignment.eval p.xl - s.assignment.eval p.xr) *
      (1 / (s.assignment.eval p.xl - s.assignment.eval p.xr)) = 1 := by
    have := sub_ne_zero.2 hne
    field_simp
  constructor
  · obtain ⟨⟨⟩, s', a, b, c, -⟩ := complete_incomplete (o := o) hs hp hd h1 h2 h3
    exact ⟨s', a, b, b.satisfied, c⟩
  · obtain ⟨⟨⟩, s', a, b, c, -⟩ := complete_checked (o := o) hs hp hd hinv h1 h2 h3
    exact ⟨s', a, b, b.satisfied, c⟩

omit [DecidableEq F] in
/-- **C17**, why the x-coordinates must differ: `incomplete_curve_addition` of a point with itself
accepts, for every slope `d`, an output that depends on `d`. -/
theorem C17_incomplete_doubling_unsound {s : PState F G X} (hs : s.Good) {p : CurveAddition F}
    (hp : s.HasLC p.xl ∧ s.HasLC p.yl ∧ s.HasLC p.xr ∧ s.HasLC p.yr ∧ s.HasLC p.xo ∧ s.HasLC p.yo)
    (hx : s.assignment.eval p.xl = s.assignment.eval p.xr)
    (hy : s.assignment.eval p.yl = s.assignment.eval p.yr) (d : F) (hd : p.delta = some d)
    (hxo : s.assignment.eval p.xo = d * d - 2 * s.assignment.eval p.xl)
    (hyo : s.assignment.eval p.yo =
      - s.assignment.eval p.yl - d * (s.assignment.eval p.xo - s.assignment.eval p.xl)) :
    ∃ s', runP o (incompleteCurveAddition p) s = .ok ((), s') ∧ s'.Satisfied := by
  obtain ⟨⟨⟩, s', a, b, -, -⟩ := complete_incomplete (o := o) hs hp hd
    (by rw [← hx, ← hy]; ring) (by rw [hyo]; ring) (by rw [hxo, ← hx]; ring)
  exact ⟨s', a, b.satisfied⟩

/-- Non-vacuity of C17: on `y² = x³ + 1` over ℚ, `(2,3) + (0,1) = (-1,0)`. -/
example : ∃ (C : SWCurve ℚ) (hl : C.OnCurve 2 3) (hr : C.OnCurve 0 1) (ho : C.OnCurve (-1) 0),
    (2 : ℚ) ≠ 0 ∧ C.pt ho = C.pt hl + C.pt hr := by
  let C : SWCurve ℚ := ⟨0, 1, by norm_num⟩
  have hl : C.OnCurve 2 3 := by simp [SWCurve.OnCurve, C]; norm_num
  have hr : C.OnCurve 0 1 := by simp [SWCurve.OnCurve, C]
  obtain ⟨ho, e⟩ := C.add_of_chord (xo := -1) (yo := 0) (d := 1) hl hr (by norm_num) (by norm_num)
    (by norm_num) (by norm_num)
  exact ⟨C, hl, hr, ho, by norm_num, e⟩

end CT
