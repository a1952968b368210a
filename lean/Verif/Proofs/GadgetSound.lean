import Verif.Model.Gadgets
import Verif.Proofs.Run

/-! Soundness of the basic gadgets: what a satisfying assignment of the Verifier's system implies. -/

namespace CT
set_option linter.unusedSectionVars false

variable {F G X α : Type} [Field F] (o : Oracle F G X) {w : Assignment F}

/-- Split one step of a Verifier run. -/
theorem runV_step {p : Prog F G X α} {f : α → Prog F G X β} {s s' : VState F G X} {b : β}
    (h : runV o (p >>= f) s = .ok (b, s')) (hs : s'.SatisfiedBy w) :
    ∃ a s1, runV o p s = .ok (a, s1) ∧ s1.SatisfiedBy w ∧ runV o (f a) s1 = .ok (b, s') := by
  obtain ⟨a, s1, h1, h2⟩ := (runV_bind_ok o).1 h
  exact ⟨a, s1, h1, SatisfiedBy_of_run o h2 hs, h2⟩

theorem runV_orPanic {m : String} {p : Option α} {s s' : VState F G X} {a : α}
    (h : runV o (orPanic m p) s = .ok (a, s')) : p = some a ∧ s = s' := by
  cases p with
  | none => simp [orPanic, panic, runV] at h
  | some b => simpa [orPanic, runV] using h

theorem selectLoop_sound {x : LC F} {xs : List (LC F)} {prod r : LC F} {s s' : VState F G X}
    (h : runV o (selectLoop x xs prod) s = .ok (r, s')) (hs : s'.SatisfiedBy w) :
    w.eval r = w.eval prod * (xs.map fun xi => w.eval xi - w.eval x).prod := by
  induction xs generalizing prod s with
  | nil =>
    obtain ⟨rfl, rfl⟩ := (runV_pure o).1 h
    simp
  | cons xi xs ih =>
    unfold selectLoop at h
    obtain ⟨v, s1, h1, hs1, h2⟩ := runV_step o h hs
    have := multiply_sound o h1 hs1
    rw [ih h2]
    simp only [eval_ofVar, this.2.2, eval_sub, List.map_cons, List.prod_cons]
    ring

theorem select_sound {x : LC F} {xs : List (LC F)} {s s' : VState F G X}
    (h : runV o (select x xs) s = .ok ((), s')) (hs : s'.SatisfiedBy w) :
    ∃ xi ∈ xs, w.eval xi = w.eval x := by
  cases xs with
  | nil => exact absurd h (runV_panic o)
  | cons x1 xs =>
    unfold select at h
    obtain ⟨r, s1, h1, hs1, h2⟩ := runV_step o h hs
    have e := selectLoop_sound o h1 hs1
    have e0 := constrain_sound o h2 hs
    rw [e, eval_sub] at e0
    rcases mul_eq_zero.1 e0 with h | h
    · exact ⟨x1, by simp, sub_eq_zero.1 h⟩
    · obtain ⟨a, ha, h0⟩ := List.mem_map.1 (List.prod_eq_zero_iff.1 h)
      exact ⟨a, by simp [ha], sub_eq_zero.1 h0⟩

theorem isBit_sound {v : LC F} {s s' : VState F G X}
    (h : runV o (isBit v) s = .ok ((), s')) (hs : s'.SatisfiedBy w) :
    w.eval v = 0 ∨ w.eval v = 1 := by
  unfold isBit at h
  obtain ⟨r, s1, h1, hs1, h2⟩ := runV_step o h hs
  have e := multiply_sound o h1 hs1
  have e0 := constrain_sound o h2 hs
  rw [eval_ofVar, e.2.2] at e0
  simp only [eval_sub, eval_const] at e0
  rcases mul_eq_zero.1 e0 with h | h
  · exact .inl h
  · exact .inr (sub_eq_zero.1 h)

theorem bit_sound {b : Option Bool} {v : Variable} {s s' : VState F G X}
    (h : runV o (bit b) s = .ok (v, s')) (hs : s'.SatisfiedBy w) :
    w.val v = 0 ∨ w.val v = 1 := by
  unfold bit at h
  obtain ⟨r, s1, h1, hs1, h⟩ := runV_step o h hs
  obtain ⟨_, s2, h2, hs2, h⟩ := runV_step o h hs
  obtain ⟨_, s3, h3, hs3, h⟩ := runV_step o h hs
  obtain ⟨rfl, rfl⟩ := (runV_pure o).1 h
  have e1 := allocateMultiplier_sound o h1 hs1
  have e2 := constrain_sound o h2 hs2
  have e3 := constrain_sound o h3 hs3
  simp only [eval_sub, eval_ofVar, eval_const] at e2 e3
  rw [e3] at e1
  have : w.val r.1 * (w.val r.1 - 1) = 0 := by
    linear_combination -e1 - w.val r.1 * e2
  rcases mul_eq_zero.1 this with h | h
  · exact .inl h
  · exact .inr (sub_eq_zero.1 h)

theorem rangeLoop_sound {q : Option Nat} {k i : Nat} {e : F} {v r : LC F} {s s' : VState F G X}
    (h : runV o (rangeLoop q k i e v) s = .ok (r, s')) (hs : s'.SatisfiedBy w) :
    ∃ n < 2 ^ k, w.eval v = w.eval r + e * (n : Nat) := by
  induction k generalizing i e v s with
  | zero =>
    obtain ⟨rfl, rfl⟩ := (runV_pure o).1 h
    exact ⟨0, by simp, by simp⟩
  | succ k ih =>
    unfold rangeLoop at h
    obtain ⟨_, s0, h0, hs0, h⟩ := runV_step o h hs
    obtain ⟨x, s1, h1, hs1, h⟩ := runV_step o h hs
    obtain ⟨_, s2, h2, hs2, h⟩ := runV_step o h hs
    obtain ⟨_, s3, h3, hs3, h⟩ := runV_step o h hs
    obtain ⟨n, hn, ih⟩ := ih h
    have e1 := allocateMultiplier_sound o h1 hs1
    have e2 := constrain_sound o h2 hs2
    have e3 := constrain_sound o h3 hs3
    simp only [eval_sub, eval_add, eval_ofVar, eval_const] at e2 e3
    simp only [eval_sub, eval_mk_cons, eval_nil] at ih
    rw [e2] at e1
    have ha : w.val x.1 = 1 - w.val x.2.1 := by linear_combination e3
    rcases mul_eq_zero.1 e1.symm with h | h
    · have hb : w.val x.2.1 = 1 := by rw [h] at ha; linear_combination ha
      refine ⟨2 * n + 1, by rw [pow_succ]; omega, ?_⟩
      rw [hb] at ih; push_cast; linear_combination ih
    · refine ⟨2 * n, by rw [pow_succ]; omega, ?_⟩
      rw [h] at ih; push_cast; linear_combination ih

theorem rangeProof_sound {v : LC F} {q : Option Nat} {n : Nat} {s s' : VState F G X}
    (h : runV o (rangeProof v q n) s = .ok ((), s')) (hs : s'.SatisfiedBy w) :
    ∃ k < 2 ^ n, w.eval v = (k : Nat) := by
  unfold rangeProof at h
  obtain ⟨r, s1, h1, hs1, h2⟩ := runV_step o h hs
  obtain ⟨k, hk, e⟩ := rangeLoop_sound o h1 hs1
  have e0 := constrain_sound o h2 hs
  exact ⟨k, hk, by rw [e, e0]; ring⟩

theorem singleMembership_sound {u : Row F} {sa s0 s1 s2 r : LC F} {s s' : VState F G X}
    (h : runV o (singleMembership u sa s0 s1 s2) s = .ok (r, s')) (hs : s'.SatisfiedBy w)
    {b0 b1 b2 : Bool} (h0 : w.eval s0 = b2f b0) (h1 : w.eval s1 = b2f b1)
    (h2 : w.eval s2 = b2f b2) (ha : w.eval sa = w.eval s1 * w.eval s2) :
    w.eval r = u (Fin.ofNat 8 (b0.toNat + 2 * b1.toNat + 4 * b2.toNat)) := by
  unfold singleMembership at h
  obtain ⟨v, t1, g1, ht1, h⟩ := runV_step o h hs
  obtain ⟨rfl, rfl⟩ := (runV_pure o).1 h
  have e := multiply_sound o g1 ht1
  simp only [eval_sub, eval_ofVar, e.2.2, eval_add, eval_neg, eval_smul, eval_const, ha, h0, h1, h2]
  cases b0 <;> cases b1 <;> cases b2 <;> (simp [b2f]; try rfl)

theorem exists_bool {x : F} (h : x = 0 ∨ x = 1) : ∃ b : Bool, x = b2f b := by
  rcases h with h | h
  · exact ⟨false, h⟩
  · exact ⟨true, h⟩

theorem lookup_sound {tx ty : Row F} {i : Option Nat} {r : LC F × LC F} {s s' : VState F G X}
    (h : runV o (lookup tx ty i) s = .ok (r, s')) (hs : s'.SatisfiedBy w) :
    ∃ k : Fin 8, w.eval r.1 = tx k ∧ w.eval r.2 = ty k := by
  unfold lookup at h
  obtain ⟨v, s1, h1, hs1, h⟩ := runV_step o h hs
  obtain ⟨v0, s2, h2, hs2, h⟩ := runV_step o h hs
  obtain ⟨_, s3, h3, hs3, h⟩ := runV_step o h hs
  obtain ⟨_, s4, h4, hs4, h⟩ := runV_step o h hs
  obtain ⟨x, s5, h5, hs5, h⟩ := runV_step o h hs
  obtain ⟨y, s6, h6, hs6, h⟩ := runV_step o h hs
  obtain ⟨rfl, rfl⟩ := (runV_pure o).1 h
  have e1 := allocateMultiplier_sound o h1 hs1
  obtain ⟨b0, hb0⟩ := exists_bool (bit_sound o h2 hs2)
  obtain ⟨b1, hb1⟩ := exists_bool (isBit_sound o h3 hs3)
  obtain ⟨b2, hb2⟩ := exists_bool (isBit_sound o h4 hs4)
  rw [← eval_ofVar] at hb0
  refine ⟨_, singleMembership_sound o h5 hs5 hb0 hb1 hb2 (by simp [e1]),
    singleMembership_sound o h6 hs6 hb0 hb1 hb2 (by simp [e1])⟩

theorem curveCheck_sound {x y : LC F} {a b : F} {s s' : VState F G X}
    (h : runV o (curveCheck x y a b) s = .ok ((), s')) (hs : s'.SatisfiedBy w) :
    w.eval y ^ 2 = w.eval x ^ 3 + a * w.eval x ^ 2 + b := by
  unfold curveCheck at h
  obtain ⟨v1, s1, h1, hs1, h⟩ := runV_step o h hs
  obtain ⟨v2, s2, h2, hs2, h⟩ := runV_step o h hs
  obtain ⟨v3, s3, h3, hs3, h⟩ := runV_step o h hs
  have e1 := (multiply_sound o h1 hs1).2.2
  have e2 := (multiply_sound o h2 hs2).2.2
  have e3 := (multiply_sound o h3 hs3).2.2
  have e0 := constrain_sound o h hs
  simp only [eval_sub, eval_add, eval_ofVar, eval_const, eval_smul, e1, e2, e3] at e0
  linear_combination -e0

theorem incomplete_sound {p : CurveAddition F} {s s' : VState F G X}
    (h : runV o (incompleteCurveAddition p) s = .ok ((), s')) (hs : s'.SatisfiedBy w) :
    ∃ d : F, d * (w.eval p.xr - w.eval p.xl) = w.eval p.yr - w.eval p.yl ∧
      d * (w.eval p.xo - w.eval p.xl) = - w.eval p.yo - w.eval p.yl ∧
      d * d = w.eval p.xo + w.eval p.xr + w.eval p.xl := by
  unfold incompleteCurveAddition at h
  obtain ⟨d, s0, h0, hs0, h⟩ := runV_step o h hs
  obtain ⟨v1, s1, h1, hs1, h⟩ := runV_step o h hs
  obtain ⟨_, s2, h2, hs2, h⟩ := runV_step o h hs
  obtain ⟨v3, s3, h3, hs3, h⟩ := runV_step o h hs
  obtain ⟨_, s4, h4, hs4, h⟩ := runV_step o h hs
  obtain ⟨v5, s5, h5, hs5, h⟩ := runV_step o h hs
  have e1 := (multiply_sound o h1 hs1).2.2
  have e3 := (multiply_sound o h3 hs3).2.2
  have e5 := (multiply_sound o h5 hs5).2.2
  have e2 := constrain_sound o h2 hs2
  have e4 := constrain_sound o h4 hs4
  have e6 := constrain_sound o h hs
  simp only [eval_sub, eval_add, eval_neg, eval_ofVar, e1, e3, e5] at e2 e4 e6
  exact ⟨w.val d, by linear_combination e2, by linear_combination e4, by linear_combination -e6⟩

theorem checked_sound {p : CurveAddition F} {i : Option F} {s s' : VState F G X}
    (h : runV o (checkedCurveAddition p i) s = .ok ((), s')) (hs : s'.SatisfiedBy w) :
    w.eval p.xl ≠ w.eval p.xr ∧
    ∃ d : F, d * (w.eval p.xr - w.eval p.xl) = w.eval p.yr - w.eval p.yl ∧
      d * (w.eval p.xo - w.eval p.xl) = - w.eval p.yo - w.eval p.yl ∧
      d * d = w.eval p.xo + w.eval p.xr + w.eval p.xl := by
  unfold checkedCurveAddition at h
  obtain ⟨v, s0, h0, hs0, h⟩ := runV_step o h hs
  obtain ⟨_, s1, h1, hs1, h⟩ := runV_step o h hs
  refine ⟨?_, incomplete_sound o h hs⟩
  unfold notZero at h1
  obtain ⟨v1, s2, h2, hs2, h3⟩ := runV_step o h1 hs1
  have e1 := (multiply_sound o h2 hs2).2.2
  have e2 := constrain_sound o h3 hs1
  simp only [eval_sub, eval_ofVar, e1, val_one] at e2
  intro heq
  rw [heq] at e2
  simp at e2

end CT
