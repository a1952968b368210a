import Verif.Model.Gadgets
import Verif.Proofs.RunP

/-! Completeness of the basic gadgets: the honest Prover's run succeeds and satisfies everything. -/

namespace CT
set_option linter.unusedSectionVars false

variable {F G X α : Type} [Field F] {o : Oracle F G X} {s : PState F G X}

open PState

theorem complete_orPanic' {a : α} {p : Option α} (hs : s.Good)
    {Q : α → PState F G X → Prop} {m : String} (h : p = some a) (hq : Q a s) :
    Complete o (orPanic m p) s Q := by
  subst h; exact .pure hs hq

theorem complete_selectLoop (hs : s.Good) {x : LC F} {xs : List (LC F)} {prod : LC F}
    (hx : s.HasLC x) (hxs : ∀ y ∈ xs, s.HasLC y) (hp : s.HasLC prod) :
    Complete o (selectLoop x xs prod) s fun r s' => s'.HasLC r ∧
      s'.assignment.eval r = s.assignment.eval prod *
        (xs.map fun xi => s.assignment.eval xi - s.assignment.eval x).prod := by
  induction xs generalizing prod s with
  | nil => exact .pure hs ⟨hp, by simp⟩
  | cons xi xs ih =>
    unfold selectLoop
    have hxi := hxs xi (by simp)
    refine (complete_multiply hs hp (hasLC_sub hxi hx)).bind fun v s1 g1 e1 hv => ?_
    obtain ⟨_, _, h3, _, _, h6⟩ := hv
    refine (ih g1 (e1.hasLC hx) (fun y hy => e1.hasLC (hxs y (by simp [hy]))) (hasLC_ofVar h3)).mono
      fun r s2 g2 e2 hr => ⟨hr.1, ?_⟩
    rw [hr.2, eval_ofVar, h6, e1.eval hx, eval_sub, List.map_cons, List.prod_cons]
    have : (xs.map fun xi => s1.assignment.eval xi - s.assignment.eval x) =
        xs.map fun xi => s.assignment.eval xi - s.assignment.eval x :=
      List.map_congr_left fun y hy => by rw [e1.eval (hxs y (by simp [hy]))]
    rw [this]; ring

theorem complete_select (hs : s.Good) {x : LC F} {xs : List (LC F)}
    (hx : s.HasLC x) (hxs : ∀ y ∈ xs, s.HasLC y)
    (h : ∃ xi ∈ xs, s.assignment.eval xi = s.assignment.eval x) :
    Complete o (select x xs) s fun _ _ => True := by
  cases xs with
  | nil => simp at h
  | cons x1 xs =>
    unfold select
    refine (complete_selectLoop hs hx (fun y hy => hxs y (by simp [hy]))
      (hasLC_sub (hxs x1 (by simp)) hx)).bind fun r s1 g1 e1 hr => ?_
    refine complete_constrain g1 hr.1 ?_
    rw [hr.2, eval_sub]
    obtain ⟨xi, hm, he⟩ := h
    rcases List.mem_cons.1 hm with rfl | hm
    · rw [he]; simp
    · have : (xs.map fun xi => s.assignment.eval xi - s.assignment.eval x).prod = 0 :=
        List.prod_eq_zero (List.mem_map.2 ⟨xi, hm, by rw [he]; simp⟩)
      rw [this]; simp

theorem complete_isBit (hs : s.Good) {v : LC F} (hv : s.HasLC v)
    (h : s.assignment.eval v = 0 ∨ s.assignment.eval v = 1) :
    Complete o (isBit v) s fun _ _ => True := by
  unfold isBit
  refine (complete_multiply hs hv (hasLC_sub hv hasLC_const)).bind fun r s1 g1 e1 hr => ?_
  refine complete_constrain g1 (hasLC_ofVar hr.2.2.1) ?_
  rw [eval_ofVar, hr.2.2.2.2.2, eval_sub, eval_const]
  rcases h with h | h <;> rw [h] <;> ring

theorem complete_bit (hs : s.Good) (b : Bool) :
    Complete o (bit (some b)) s fun v s' => s'.Has v ∧ s'.assignment.val v = b2f b := by
  unfold bit
  refine (complete_allocateMultiplier hs _ _).bind fun r s1 g1 e1 hr => ?_
  obtain ⟨h1, h2, h3, h4, h5, h6⟩ := hr
  refine (complete_constrain g1 (hasLC_sub (hasLC_ofVar h2)
    (hasLC_sub (hasLC_ofVar h1) hasLC_const)) ?_).bind fun _ s2 g2 e2 _ => ?_
  · simp only [eval_sub, eval_ofVar, eval_const, h4, h5]; ring
  refine (complete_constrain g2 (hasLC_ofVar (e2.ext _ h3).1) ?_).bind fun _ s3 g3 e3 _ => ?_
  · rw [eval_ofVar, (e2.ext _ h3).2, h6]; cases b <;> simp [b2f]
  have e := e2.trans e3
  exact .pure g3 ⟨(e.ext _ h1).1, by rw [(e.ext _ h1).2, h4]⟩

theorem rangeBit_some {q i : Nat} (hi : i < 64) :
    rangeBit (F := F) (some q) i =
      some (some (((1 - (q / 2 ^ i) % 2 : Nat) : F), (((q / 2 ^ i) % 2 : Nat) : F))) := by
  simp [rangeBit, hi]

theorem complete_rangeLoop (hs : s.Good) {q k i : Nat} (hk : i + k ≤ 64) {e : F} {v : LC F}
    (hv : s.HasLC v) :
    Complete o (rangeLoop (some q) k i e v) s fun r s' => s'.HasLC r ∧
      s'.assignment.eval r = s.assignment.eval v - e * ((q / 2 ^ i % 2 ^ k : Nat) : F) := by
  induction k generalizing i e v s with
  | zero => exact .pure hs ⟨hv, by simp [Nat.mod_one]⟩
  | succ k ih =>
    unfold rangeLoop
    rw [rangeBit_some (by omega)]
    refine Complete.bind (Q := fun a s' => a = some (((1 - (q / 2 ^ i) % 2 : Nat) : F),
      (((q / 2 ^ i) % 2 : Nat) : F)) ∧ s' = s) (complete_orPanic' hs rfl ⟨rfl, rfl⟩)
      fun a s0 g0 e0 ha => ?_
    obtain ⟨rfl, rfl⟩ := ha
    refine (complete_allocateMultiplier hs _ _).bind fun r s1 g1 e1 hr => ?_
    obtain ⟨h1, h2, h3, h4, h5, h6⟩ := hr
    have hb : q / 2 ^ i % 2 = 0 ∨ q / 2 ^ i % 2 = 1 := by omega
    refine (complete_constrain g1 (hasLC_ofVar h3) ?_).bind fun _ s2 g2 e2 _ => ?_
    · rw [eval_ofVar, h6]
      rcases hb with h | h <;> rw [h] <;> simp
    refine (complete_constrain g2 (hasLC_add (hasLC_ofVar (e2.ext _ h1).1)
      (hasLC_sub (hasLC_ofVar (e2.ext _ h2).1) hasLC_const)) ?_).bind fun _ s3 g3 e3 _ => ?_
    · simp only [eval_add, eval_sub, eval_ofVar, eval_const, (e2.ext _ h1).2, (e2.ext _ h2).2, h4, h5]
      rcases hb with h | h <;> rw [h] <;> simp
    have e23 := e2.trans e3
    have e13 := e1.trans e23
    have hv3 := e13.hasLC hv
    refine (ih g3 (by omega) (hasLC_sub hv3 ?_)).mono fun r s4 g4 e4 hr => ⟨hr.1, ?_⟩
    · intro t ht
      rw [List.mem_singleton] at ht; subst ht; exact (e23.ext _ h2).1
    · rw [hr.2, eval_sub, e13.eval hv, eval_mk_cons, eval_nil, (e23.ext _ h2).2, h5]
      have hq : q / 2 ^ i % 2 ^ (k + 1) = q / 2 ^ i % 2 + 2 * (q / 2 ^ (i + 1) % 2 ^ k) := by
        rw [Nat.pow_succ, Nat.mul_comm (2 ^ k) 2, Nat.mod_mul, Nat.div_div_eq_div_mul,
          ← Nat.pow_succ]
      rw [hq]; push_cast; ring

theorem complete_rangeProof (hs : s.Good) {q n : Nat} (hn : n ≤ 64) (hq : q < 2 ^ n) {v : LC F}
    (hv : s.HasLC v) (he : s.assignment.eval v = q) :
    Complete o (rangeProof v (some q) n) s fun _ _ => True := by
  unfold rangeProof
  refine (complete_rangeLoop hs (by omega) hv).bind fun r s1 g1 e1 hr => ?_
  refine complete_constrain g1 hr.1 ?_
  rw [hr.2, he, pow_zero, Nat.div_one, Nat.mod_eq_of_lt hq]; ring

theorem complete_singleMembership (hs : s.Good) {u : Row F} {sa s0 s1 s2 : LC F}
    (ha : s.HasLC sa) (h0 : s.HasLC s0) (h1 : s.HasLC s1) (h2 : s.HasLC s2)
    {b0 b1 b2 : Bool} (e0 : s.assignment.eval s0 = b2f b0) (e1 : s.assignment.eval s1 = b2f b1)
    (e2 : s.assignment.eval s2 = b2f b2)
    (ea : s.assignment.eval sa = s.assignment.eval s1 * s.assignment.eval s2) :
    Complete o (singleMembership u sa s0 s1 s2) s fun r s' => s'.HasLC r ∧
      s'.assignment.eval r = u (Fin.ofNat 8 (b0.toNat + 2 * b1.toNat + 4 * b2.toNat)) := by
  unfold singleMembership
  have A : ∀ c : F, s.HasLC (sa.smul c) := fun c => hasLC_smul ha
  have B : ∀ c : F, s.HasLC (s1.smul c) := fun c => hasLC_smul h1
  have D : ∀ c : F, s.HasLC (s2.smul c) := fun c => hasLC_smul h2
  have K : ∀ c : F, s.HasLC (LC.const c) := fun c => hasLC_const
  have hr := hasLC_sub (hasLC_sub (hasLC_add (hasLC_sub (hasLC_add (hasLC_sub (hasLC_add
    (hasLC_add (hasLC_neg (A (u 0))) (D (u 0))) (B (u 0))) (K (u 0))) (A (u 2))) (B (u 2)))
    (A (u 4))) (D (u 4))) (A (u 6))
  have hf := hasLC_add (hasLC_add (hasLC_sub (hasLC_add (hasLC_sub (hasLC_add (hasLC_sub (hasLC_sub
    (hasLC_add hr (A (u 1))) (D (u 1))) (B (u 1))) (K (u 1))) (A (u 3))) (B (u 3))) (A (u 5)))
    (D (u 5))) (A (u 7))
  refine (complete_multiply hs h0 hf).bind fun v t g e hv => ?_
  obtain ⟨_, _, hv3, _, _, hv6⟩ := hv
  refine .pure g ⟨hasLC_sub (hasLC_ofVar hv3) (e.hasLC hr), ?_⟩
  rw [eval_sub, eval_ofVar, hv6, e.eval hr]
  simp only [eval_sub, eval_add, eval_neg, eval_smul, eval_const, ea, e0, e1, e2]
  cases b0 <;> cases b1 <;> cases b2 <;> (simp [b2f]; try rfl)

theorem index_bits {i : Nat} (hi : i < 8) :
    (i % 2 == 1).toNat + 2 * (i / 2 % 2 == 1).toNat + 4 * (i / 4 % 2 == 1).toNat = i := by
  revert i; decide

theorem complete_lookup (hs : s.Good) {tx ty : Row F} {i : Nat} (hi : i < 8) :
    Complete o (lookup tx ty (some i)) s fun r s' => s'.HasLC r.1 ∧ s'.HasLC r.2 ∧
      s'.assignment.eval r.1 = tx (Fin.ofNat 8 i) ∧ s'.assignment.eval r.2 = ty (Fin.ofNat 8 i) := by
  unfold lookup
  refine (complete_allocateMultiplier hs _ _).bind fun v s1 g1 e1 hv => ?_
  obtain ⟨h1, h2, h3, h4, h5, h6⟩ := hv
  refine (complete_bit g1 _).bind fun v0 s2 g2 e2 hv0 => ?_
  have E2 := e2
  refine (complete_isBit g2 (hasLC_ofVar (E2.ext _ h1).1) ?_).bind fun _ s3 g3 e3 _ => ?_
  · rw [eval_ofVar, (E2.ext _ h1).2, h4]; unfold b2f; split <;> simp
  have E3 := E2.trans e3
  refine (complete_isBit g3 (hasLC_ofVar (E3.ext _ h2).1) ?_).bind fun _ s4 g4 e4 _ => ?_
  · rw [eval_ofVar, (E3.ext _ h2).2, h5]; unfold b2f; split <;> simp
  have E4 := E3.trans e4
  have F4 := e3.trans e4
  refine (complete_singleMembership g4 (hasLC_ofVar (E4.ext _ h3).1) (hasLC_ofVar (F4.ext _ hv0.1).1)
    (hasLC_ofVar (E4.ext _ h1).1) (hasLC_ofVar (E4.ext _ h2).1)
    (by rw [eval_ofVar, (F4.ext _ hv0.1).2]; exact hv0.2) (by rw [eval_ofVar, (E4.ext _ h1).2]; exact h4)
    (by rw [eval_ofVar, (E4.ext _ h2).2]; exact h5)
    (by simp only [eval_ofVar]; rw [(E4.ext _ h1).2, (E4.ext _ h2).2, (E4.ext _ h3).2, h4, h5, h6])).bind
    fun x s5 g5 e5 hx => ?_
  have E5 := E4.trans e5
  have F5 := F4.trans e5
  refine (complete_singleMembership g5 (hasLC_ofVar (E5.ext _ h3).1) (hasLC_ofVar (F5.ext _ hv0.1).1)
    (hasLC_ofVar (E5.ext _ h1).1) (hasLC_ofVar (E5.ext _ h2).1)
    (by rw [eval_ofVar, (F5.ext _ hv0.1).2]; exact hv0.2) (by rw [eval_ofVar, (E5.ext _ h1).2]; exact h4)
    (by rw [eval_ofVar, (E5.ext _ h2).2]; exact h5)
    (by simp only [eval_ofVar]; rw [(E5.ext _ h1).2, (E5.ext _ h2).2, (E5.ext _ h3).2, h4, h5, h6])).bind
    fun y s6 g6 e6 hy => ?_
  refine .pure g6 ⟨e6.hasLC hx.1, hy.1, ?_, ?_⟩
  · rw [e6.eval hx.1, hx.2, index_bits hi]
  · rw [hy.2, index_bits hi]

theorem complete_curveCheck (hs : s.Good) {x y : LC F} {a b : F} (hx : s.HasLC x) (hy : s.HasLC y)
    (h : s.assignment.eval y ^ 2 = s.assignment.eval x ^ 3 + a * s.assignment.eval x ^ 2 + b) :
    Complete o (curveCheck x y a b) s fun _ _ => True := by
  unfold curveCheck
  refine (complete_multiply hs hx hx).bind fun v1 s1 g1 e1 hv1 => ?_
  obtain ⟨_, _, h1, _, _, h1'⟩ := hv1
  refine (complete_multiply g1 (e1.hasLC hx) (hasLC_ofVar h1)).bind fun v2 s2 g2 e2 hv2 => ?_
  obtain ⟨_, _, h2, _, _, h2'⟩ := hv2
  have E2 := e1.trans e2
  refine (complete_multiply g2 (E2.hasLC hy) (E2.hasLC hy)).bind fun v3 s3 g3 e3 hv3 => ?_
  obtain ⟨_, _, h3, _, _, h3'⟩ := hv3
  have F3 := e2.trans e3
  refine complete_constrain g3 (hasLC_sub (hasLC_add (hasLC_add (hasLC_ofVar (e3.ext _ h2).1)
    (hasLC_smul (hasLC_ofVar (F3.ext _ h1).1))) hasLC_const) (hasLC_ofVar h3)) ?_
  simp only [eval_sub, eval_add, eval_smul, eval_const, eval_ofVar]
  rw [(e3.ext _ h2).2, (F3.ext _ h1).2, h3', h2', eval_ofVar, h1', e1.eval hx, E2.eval hy]
  linear_combination -h

/-- All linear combinations of the addition exist. -/
def CurveAddition.HasAll (p : CurveAddition F) (s : PState F G X) : Prop :=
  s.HasLC p.xl ∧ s.HasLC p.yl ∧ s.HasLC p.xr ∧ s.HasLC p.yr ∧ s.HasLC p.xo ∧ s.HasLC p.yo

theorem CurveAddition.HasAll.ext {p : CurveAddition F} {s' : PState F G X} (h : p.HasAll s)
    (e : s.Ext s') : p.HasAll s' :=
  ⟨e.hasLC h.1, e.hasLC h.2.1, e.hasLC h.2.2.1, e.hasLC h.2.2.2.1, e.hasLC h.2.2.2.2.1,
    e.hasLC h.2.2.2.2.2⟩

theorem complete_incomplete (hs : s.Good) {p : CurveAddition F} {d : F} (hp : p.HasAll s)
    (hd : p.delta = some d)
    (h1 : d * (s.assignment.eval p.xr - s.assignment.eval p.xl) =
      s.assignment.eval p.yr - s.assignment.eval p.yl)
    (h2 : d * (s.assignment.eval p.xo - s.assignment.eval p.xl) =
      - s.assignment.eval p.yo - s.assignment.eval p.yl)
    (h3 : d * d = s.assignment.eval p.xo + s.assignment.eval p.xr + s.assignment.eval p.xl) :
    Complete o (incompleteCurveAddition p) s fun _ _ => True := by
  unfold incompleteCurveAddition
  rw [hd]
  obtain ⟨k1, k2, k3, k4, k5, k6⟩ := hp
  refine (complete_allocate hs d).bind fun v s1 e1g e1 hv => ?_
  refine (complete_multiply e1g (hasLC_ofVar hv.1)
    (hasLC_sub (e1.hasLC k3) (e1.hasLC k1))).bind fun v2 s2 g2 e2 hv2 => ?_
  obtain ⟨_, _, w2, _, _, w2'⟩ := hv2
  have E2 := e1.trans e2
  refine (complete_constrain g2 (hasLC_sub (hasLC_ofVar w2)
    (hasLC_sub (E2.hasLC k4) (E2.hasLC k2))) ?_).bind fun _ s3 g3 e3 _ => ?_
  · simp only [eval_sub, eval_ofVar]
    rw [w2', eval_sub, eval_ofVar, hv.2, e1.eval k3, e1.eval k1, E2.eval k4, E2.eval k2]
    linear_combination h1
  have E3 := E2.trans e3
  have D3 := e2.trans e3
  refine (complete_multiply g3 (hasLC_ofVar (D3.ext _ hv.1).1)
    (hasLC_sub (E3.hasLC k5) (E3.hasLC k1))).bind fun v4 s4 g4 e4 hv4 => ?_
  obtain ⟨_, _, w4, _, _, w4'⟩ := hv4
  have E4 := E3.trans e4
  refine (complete_constrain g4 (hasLC_sub (hasLC_ofVar w4)
    (hasLC_sub (hasLC_neg (E4.hasLC k6)) (E4.hasLC k2))) ?_).bind fun _ s5 g5 e5 _ => ?_
  · simp only [eval_sub, eval_neg, eval_ofVar]
    rw [w4', eval_sub, eval_ofVar, (D3.ext _ hv.1).2, hv.2, E3.eval k5, E3.eval k1, E4.eval k6,
      E4.eval k2]
    linear_combination h2
  have E5 := E4.trans e5
  have D5 := (D3.trans e4).trans e5
  refine (complete_multiply g5 (hasLC_ofVar (D5.ext _ hv.1).1)
    (hasLC_ofVar (D5.ext _ hv.1).1)).bind fun v6 s6 g6 e6 hv6 => ?_
  obtain ⟨_, _, w6, _, _, w6'⟩ := hv6
  have E6 := E5.trans e6
  refine complete_constrain g6 (hasLC_sub (hasLC_add (hasLC_add (E6.hasLC k5) (E6.hasLC k3))
    (E6.hasLC k1)) (hasLC_ofVar w6)) ?_
  simp only [eval_sub, eval_add, eval_ofVar]
  rw [w6', eval_ofVar, (D5.ext _ hv.1).2, hv.2, E6.eval k5, E6.eval k3, E6.eval k1]
  linear_combination -h3

theorem complete_checked (hs : s.Good) {p : CurveAddition F} {d i : F} (hp : p.HasAll s)
    (hd : p.delta = some d)
    (hi : (s.assignment.eval p.xl - s.assignment.eval p.xr) * i = 1)
    (h1 : d * (s.assignment.eval p.xr - s.assignment.eval p.xl) =
      s.assignment.eval p.yr - s.assignment.eval p.yl)
    (h2 : d * (s.assignment.eval p.xo - s.assignment.eval p.xl) =
      - s.assignment.eval p.yo - s.assignment.eval p.yl)
    (h3 : d * d = s.assignment.eval p.xo + s.assignment.eval p.xr + s.assignment.eval p.xl) :
    Complete o (checkedCurveAddition p (some i)) s fun _ _ => True := by
  unfold checkedCurveAddition
  refine (complete_allocate hs i).bind fun v s1 g1 e1 hv => ?_
  have hp1 := hp.ext e1
  refine Complete.bind (Q := fun _ _ => True) ?_ fun _ s2 g2 e2 _ => ?_
  · unfold notZero
    refine (complete_multiply g1 (hasLC_sub hp1.1 hp1.2.2.1) (hasLC_ofVar hv.1)).bind
      fun v2 s2 g2 e2 hv2 => ?_
    obtain ⟨_, _, w2, _, _, w2'⟩ := hv2
    refine complete_constrain g2 (hasLC_sub (hasLC_ofVar w2)
      (hasLC_ofVar (v := Variable.one) trivial)) ?_
    simp only [eval_sub, eval_ofVar, val_one]
    rw [w2', eval_sub, eval_ofVar, hv.2, e1.eval hp.1, e1.eval hp.2.2.1, hi]; ring
  · have E := e1.trans e2
    have hE := fun l h => E.eval (lc := l) h
    obtain ⟨k1, k2, k3, k4, k5, k6⟩ := hp
    refine complete_incomplete g2 (hp1.ext e2) hd ?_ ?_ ?_
    · rw [hE _ k1, hE _ k2, hE _ k3, hE _ k4, h1]
    · rw [hE _ k1, hE _ k2, hE _ k5, hE _ k6, h2]
    · rw [hE _ k1, hE _ k3, hE _ k5, h3]

end CT
