import Verif.Proofs.Lists
import Verif.Proofs.Run
import Verif.Spec.Flatten
import Verif.Model.Verify

/-! Flattening of constraints: lemmas. -/

namespace CT
open Finset

variable {F G X : Type} [Field F]

/-- Sizes of the weight vectors. -/
structure Weights.Shape (wt : Weights F) (n m : Nat) (dims : List Nat) : Prop where
  wL : wt.wL.length = n
  wR : wt.wR.length = n
  wO : wt.wO.length = n
  wV : wt.wV.length = m
  wVC : wt.wVC.map List.length = dims

theorem Weights.zero_shape (n m : Nat) (dims : List Nat) :
    (Weights.zero n m dims : Weights F).Shape n m dims := by
  refine ⟨by simp [Weights.zero], by simp [Weights.zero], by simp [Weights.zero],
    by simp [Weights.zero], ?_⟩
  simp [Weights.zero, List.map_map, Function.comp_def]

theorem addAt?_some {v v' : List F} {i : Nat} {x : F} (h : addAt? v i x = some v') :
    i < v.length ∧ v'.length = v.length ∧ ∀ k, v'.getD k 0 = v.getD k 0 + if k = i then x else 0 := by
  unfold addAt? at h
  split at h
  · rename_i hi
    simp only [Option.some.injEq] at h
    subst h
    refine ⟨hi, by simp, fun k => ?_⟩
    rw [List.getD_eq_getElem?_getD, List.getElem?_modify, List.getD_eq_getElem?_getD]
    by_cases hk : k = i
    · subst hk
      rw [List.getElem?_eq_getElem hi]
      simp
    · rw [if_neg hk]
      simp [Ne.symm hk]
  · simp at h

theorem addAt?_sum {v v' : List F} {i : Nat} {x : F} (h : addAt? v i x = some v') (f : Nat → F) :
    ∑ k ∈ range v'.length, v'.getD k 0 * f k = ∑ k ∈ range v.length, v.getD k 0 * f k + x * f i := by
  obtain ⟨hi, hl, hg⟩ := addAt?_some h
  rw [hl]
  have : ∀ k ∈ range v.length, v'.getD k 0 * f k = v.getD k 0 * f k + if k = i then x * f i else 0 := by
    intro k _
    rw [hg k, add_mul]
    split
    · rename_i hk; rw [hk]
    · simp
  rw [Finset.sum_congr rfl this, Finset.sum_add_distrib, Finset.sum_ite_eq', if_pos (by simpa using hi)]

theorem addAt?_isSome (v : List F) (i : Nat) (x : F) (h : i < v.length) : ∃ v', addAt? v i x = some v' :=
  ⟨_, if_pos h⟩

/-- One term changes the applied weights by `expz * coeff * value`, constants only for the verifier. -/
theorem flattenTerm_apply {vf : Bool} {e : F} {wt wt' : Weights F} {t : Variable × F} {n m : Nat}
    {dims : List Nat} (hs : wt.Shape n m dims) (h : flattenTerm vf e wt t = some wt')
    (w : Assignment F) :
    wt'.Shape n m dims ∧
    wt'.apply w = wt.apply w + e * (if t.1 = .one ∧ vf = false then 0 else t.2 * w.val t.1) := by
  obtain ⟨v, c⟩ := t
  unfold flattenTerm at h
  cases v with
  | multiplierLeft i =>
    simp only [Option.map_eq_some_iff] at h
    obtain ⟨v', h', rfl⟩ := h
    obtain ⟨-, hl, -⟩ := addAt?_some h'
    refine ⟨⟨hl.trans hs.wL, hs.wR, hs.wO, hs.wV, hs.wVC⟩, ?_⟩
    simp only [Weights.apply, addAt?_sum h' w.left, Assignment.val, reduceCtorEq, false_and, if_false]
    ring
  | multiplierRight i =>
    simp only [Option.map_eq_some_iff] at h
    obtain ⟨v', h', rfl⟩ := h
    obtain ⟨-, hl, -⟩ := addAt?_some h'
    refine ⟨⟨hs.wL, hl.trans hs.wR, hs.wO, hs.wV, hs.wVC⟩, ?_⟩
    simp only [Weights.apply, addAt?_sum h' w.right, Assignment.val, reduceCtorEq, false_and, if_false]
    ring
  | multiplierOutput i =>
    simp only [Option.map_eq_some_iff] at h
    obtain ⟨v', h', rfl⟩ := h
    obtain ⟨-, hl, -⟩ := addAt?_some h'
    refine ⟨⟨hs.wL, hs.wR, hl.trans hs.wO, hs.wV, hs.wVC⟩, ?_⟩
    simp only [Weights.apply, addAt?_sum h' w.out, Assignment.val, reduceCtorEq, false_and, if_false]
    ring
  | committed i =>
    simp only [Option.map_eq_some_iff] at h
    obtain ⟨v', h', rfl⟩ := h
    obtain ⟨-, hl, -⟩ := addAt?_some h'
    refine ⟨⟨hs.wL, hs.wR, hs.wO, hl.trans hs.wV, hs.wVC⟩, ?_⟩
    simp only [Weights.apply, addAt?_sum h' w.committed, Assignment.val, reduceCtorEq, false_and, if_false]
    ring
  | vectorCommit j i =>
    simp only at h
    cases hj : wt.wVC[j]? with
    | none => rw [hj] at h; simp at h
    | some row =>
      rw [hj] at h
      simp only [Option.map_eq_some_iff] at h
      obtain ⟨v', h', rfl⟩ := h
      obtain ⟨-, hl, -⟩ := addAt?_some h'
      have hjl : j < wt.wVC.length := by
        by_contra hc
        rw [List.getElem?_eq_none (by omega)] at hj; simp at hj
      have hjg : wt.wVC.getD j [] = row := by rw [List.getD_eq_getElem?_getD, hj]; rfl
      have hset : ∀ k, (wt.wVC.set j v').getD k [] = if k = j then v' else wt.wVC.getD k [] := by
        intro k
        rw [List.getD_eq_getElem?_getD, List.getElem?_set, List.getD_eq_getElem?_getD]
        by_cases hk : k = j
        · subst hk; simp [hjl]
        · rw [if_neg hk, if_neg (Ne.symm hk)]
      refine ⟨⟨hs.wL, hs.wR, hs.wO, hs.wV, ?_⟩, ?_⟩
      · rw [← hs.wVC]
        simp only [List.map_set, hl]
        apply List.ext_getElem?
        intro k
        rw [List.getElem?_set]
        split
        · rename_i hk; subst hk
          rw [if_pos (by simpa using hjl), List.getElem?_map, hj]; rfl
        · rfl
      · have key : ∑ k ∈ range (wt.wVC.set j v').length,
            ∑ i ∈ range ((wt.wVC.set j v').getD k []).length, ((wt.wVC.set j v').getD k []).getD i 0 * w.vec k i
            = ∑ k ∈ range wt.wVC.length, ∑ i ∈ range (wt.wVC.getD k []).length,
              (wt.wVC.getD k []).getD i 0 * w.vec k i + (e * c) * w.vec j i := by
          rw [List.length_set]
          have : ∀ k ∈ range wt.wVC.length,
              ∑ i ∈ range ((wt.wVC.set j v').getD k []).length,
                ((wt.wVC.set j v').getD k []).getD i 0 * w.vec k i =
              ∑ i ∈ range (wt.wVC.getD k []).length, (wt.wVC.getD k []).getD i 0 * w.vec k i +
                if k = j then (e * c) * w.vec j i else 0 := by
            intro k _
            rw [hset k]
            by_cases hk : k = j
            · subst hk
              rw [if_pos rfl, if_pos rfl, addAt?_sum h' (w.vec k), hjg]
            · rw [if_neg hk, if_neg hk, add_zero]
          rw [Finset.sum_congr rfl this, Finset.sum_add_distrib, Finset.sum_ite_eq',
            if_pos (by simpa using hjl)]
        simp only [Weights.apply, key, Assignment.val, reduceCtorEq, false_and, if_false]
        ring
  | one =>
    simp only at h
    cases vf with
    | true =>
      simp only [if_true, Option.some.injEq] at h
      subst h
      refine ⟨⟨hs.wL, hs.wR, hs.wO, hs.wV, hs.wVC⟩, ?_⟩
      simp only [Weights.apply, Assignment.val, Bool.true_eq_false, and_false, if_false]
      ring
    | false =>
      simp only [Bool.false_eq_true, if_false, Option.some.injEq] at h
      subst h
      exact ⟨hs, by simp⟩

/-- What is counted of a constraint: everything for the verifier, without constants for the prover. -/
def counted (vf : Bool) (c : LC F) : LC F := if vf then c else nonConstPart c

theorem eval_counted_nil (vf : Bool) (w : Assignment F) : w.eval (counted vf ⟨[]⟩) = 0 := by
  cases vf <;> simp [counted, nonConstPart]

theorem eval_counted_cons (vf : Bool) (w : Assignment F) (t : Variable × F) (ts : List (Variable × F)) :
    w.eval (counted vf ⟨t :: ts⟩) =
      (if t.1 = .one ∧ vf = false then 0 else t.2 * w.val t.1) + w.eval (counted vf ⟨ts⟩) := by
  cases vf with
  | true => simp [counted]
  | false =>
    simp only [counted, Bool.false_eq_true, if_false, nonConstPart, List.filter_cons, and_true]
    by_cases h : t.1 = .one <;> simp [h]

theorem flattenTerms_apply {vf : Bool} {e : F} {ts : List (Variable × F)} {wt wt' : Weights F} {n m : Nat}
    {dims : List Nat} (hs : wt.Shape n m dims) (h : flattenTerms vf e ts wt = some wt')
    (w : Assignment F) :
    wt'.Shape n m dims ∧ wt'.apply w = wt.apply w + e * w.eval (counted vf ⟨ts⟩) := by
  induction ts generalizing wt with
  | nil =>
    simp only [flattenTerms, Option.some.injEq] at h
    subst h
    exact ⟨hs, by rw [eval_counted_nil]; simp⟩
  | cons t ts ih =>
    unfold flattenTerms at h
    cases h1 : flattenTerm vf e wt t with
    | none => rw [h1] at h; simp at h
    | some wt1 =>
      rw [h1] at h
      simp only at h
      obtain ⟨s1, e1⟩ := flattenTerm_apply hs h1 w
      obtain ⟨s2, e2⟩ := ih s1 h
      refine ⟨s2, ?_⟩
      rw [e2, e1, eval_counted_cons]
      ring

theorem flattenLoop_apply {vf : Bool} {z e : F} {cs : List (LC F)} {wt wt' : Weights F} {n m : Nat}
    {dims : List Nat} (hs : wt.Shape n m dims) (h : flattenLoop vf z cs e wt = some wt')
    (w : Assignment F) :
    wt'.Shape n m dims ∧ wt'.apply w = wt.apply w +
      ∑ q ∈ range cs.length, e * z ^ q * w.eval (counted vf (cs.getD q ⟨[]⟩)) := by
  induction cs generalizing wt e with
  | nil =>
    simp only [flattenLoop, Option.some.injEq] at h
    subst h
    exact ⟨hs, by simp⟩
  | cons c cs ih =>
    unfold flattenLoop at h
    cases h1 : flattenTerms vf e c.terms wt with
    | none => rw [h1] at h; simp at h
    | some wt1 =>
      rw [h1] at h
      simp only at h
      obtain ⟨s1, e1⟩ := flattenTerms_apply hs h1 w
      obtain ⟨s2, e2⟩ := ih s1 h
      refine ⟨s2, ?_⟩
      rw [e2, e1, List.length_cons, Finset.sum_range_succ']
      simp only [List.getD_cons_succ, List.getD_cons_zero, pow_zero, mul_one, pow_succ]
      have : ∀ q, e * z * z ^ q * w.eval (counted vf (cs.getD q ⟨[]⟩)) =
          e * (z ^ q * z) * w.eval (counted vf (cs.getD q ⟨[]⟩)) := by intro q; ring
      simp only [this]
      ring

theorem Weights.zero_apply (n m : Nat) (dims : List Nat) (w : Assignment F) :
    (Weights.zero n m dims).apply w = 0 := by
  have h1 : ∀ (k : Nat) (f : Nat → F), ∑ i ∈ range k, (List.replicate k (0 : F)).getD i 0 * f i = 0 := by
    intro k f
    apply Finset.sum_eq_zero
    intro i hi
    rw [getD_replicate', if_pos (Finset.mem_range.1 hi), zero_mul]
  simp only [Weights.apply, Weights.zero, List.length_replicate, h1]
  have h2 : ∀ j, (dims.map fun d => List.replicate d (0 : F)).getD j [] =
      List.replicate (dims.getD j 0) 0 := by
    intro j
    rw [← getD_map (fun d => List.replicate d (0 : F)) dims j 0]; rfl
  simp only [h2, List.length_replicate, h1]
  simp

/-- The prover's weights are the verifier's without the constant. -/
theorem flattenTerm_same (e : F) (wt wt0 : Weights F) (t : Variable × F)
    (h : wt0 = { wt with wc := wt0.wc }) :
    (flattenTerm true e wt t).map (fun x => { x with wc := 0 }) =
      (flattenTerm false e wt0 t).map (fun x => { x with wc := 0 }) := by
  obtain ⟨v, c⟩ := t
  rw [h]
  unfold flattenTerm
  cases v <;> simp only [Option.map_map, Function.comp_def, Bool.false_eq_true, if_false, if_true,
    Option.map_some]
  case vectorCommit j i => cases wt.wVC[j]? <;> simp [Option.map_map, Function.comp_def]

theorem flattenTerms_same (e : F) (ts : List (Variable × F)) (wt wt0 : Weights F)
    (h : { wt with wc := 0 } = ({ wt0 with wc := 0 } : Weights F)) :
    (flattenTerms true e ts wt).map (fun x => { x with wc := 0 }) =
      (flattenTerms false e ts wt0).map (fun x => { x with wc := 0 }) := by
  induction ts generalizing wt wt0 with
  | nil => simp only [flattenTerms, Option.map_some, h]
  | cons t ts ih =>
    have h0 : wt0 = { wt with wc := wt0.wc } := by
      obtain ⟨a, b, c, d, f, g⟩ := wt
      obtain ⟨a', b', c', d', f', g'⟩ := wt0
      simp only [Weights.mk.injEq, and_true] at h ⊢
      obtain ⟨rfl, rfl, rfl, rfl, rfl⟩ := h
      simp
    have hs := flattenTerm_same e wt wt0 t h0
    unfold flattenTerms
    cases h1 : flattenTerm true e wt t with
    | none =>
      cases h2 : flattenTerm false e wt0 t with
      | none => rfl
      | some y => rw [h1, h2] at hs; simp at hs
    | some x =>
      cases h2 : flattenTerm false e wt0 t with
      | none => rw [h1, h2] at hs; simp at hs
      | some y =>
        rw [h1, h2] at hs
        exact ih x y (by simpa using hs)

theorem flattenLoop_same (z e : F) (cs : List (LC F)) (wt wt0 : Weights F)
    (h : { wt with wc := 0 } = ({ wt0 with wc := 0 } : Weights F)) :
    (flattenLoop true z cs e wt).map (fun x => { x with wc := 0 }) =
      (flattenLoop false z cs e wt0).map (fun x => { x with wc := 0 }) := by
  induction cs generalizing wt wt0 e with
  | nil => simp only [flattenLoop, Option.map_some, h]
  | cons c cs ih =>
    have hs := flattenTerms_same e c.terms wt wt0 h
    unfold flattenLoop
    cases h1 : flattenTerms true e c.terms wt with
    | none =>
      cases h2 : flattenTerms false e c.terms wt0 with
      | none => rfl
      | some y => rw [h1, h2] at hs; simp at hs
    | some x =>
      cases h2 : flattenTerms false e c.terms wt0 with
      | none => rw [h1, h2] at hs; simp at hs
      | some y =>
        rw [h1, h2] at hs
        exact ih _ x y (by simpa using hs)

/-- The prover's constant weight stays zero. -/
theorem flattenTerm_wc {e : F} {wt wt' : Weights F} {t : Variable × F}
    (h : flattenTerm false e wt t = some wt') : wt'.wc = wt.wc := by
  obtain ⟨v, c⟩ := t
  unfold flattenTerm at h
  cases v <;> simp only [Option.map_eq_some_iff, Bool.false_eq_true, if_false, Option.some.injEq] at h
  case vectorCommit j i =>
    cases hj : wt.wVC[j]? with
    | none => rw [hj] at h; simp at h
    | some row =>
      rw [hj] at h
      simp only [Option.map_eq_some_iff] at h
      obtain ⟨_, _, rfl⟩ := h; rfl
  case one => rw [h]
  all_goals (obtain ⟨_, _, rfl⟩ := h; rfl)

theorem flattenTerms_wc {e : F} {ts : List (Variable × F)} {wt wt' : Weights F}
    (h : flattenTerms false e ts wt = some wt') : wt'.wc = wt.wc := by
  induction ts generalizing wt with
  | nil => simp only [flattenTerms, Option.some.injEq] at h; rw [h]
  | cons t ts ih =>
    unfold flattenTerms at h
    cases h1 : flattenTerm false e wt t with
    | none => rw [h1] at h; simp at h
    | some wt1 => rw [h1] at h; rw [ih h, flattenTerm_wc h1]

theorem flattenLoop_wc {z e : F} {cs : List (LC F)} {wt wt' : Weights F}
    (h : flattenLoop false z cs e wt = some wt') : wt'.wc = wt.wc := by
  induction cs generalizing wt e with
  | nil => simp only [flattenLoop, Option.some.injEq] at h; rw [h]
  | cons t ts ih =>
    unfold flattenLoop at h
    cases h1 : flattenTerms false e t.terms wt with
    | none => rw [h1] at h; simp at h
    | some wt1 => rw [h1] at h; rw [ih h, flattenTerms_wc h1]

/-- Flattening succeeds exactly when every variable is in range. -/
theorem flattenTerm_isSome (vf : Bool) (e : F) {wt : Weights F} (t : Variable × F) {n m : Nat}
    {dims : List Nat} (hs : wt.Shape n m dims) :
    (flattenTerm vf e wt t).isSome ↔ t.1.InRange n m dims := by
  have ha : ∀ (v : List F) i x, (addAt? v i x).isSome ↔ i < v.length := by
    intro v i x; unfold addAt?; split <;> simp [*]
  obtain ⟨v, c⟩ := t
  unfold flattenTerm
  cases v with
  | multiplierLeft i => simp [ha, Variable.InRange, hs.wL]
  | multiplierRight i => simp [ha, Variable.InRange, hs.wR]
  | multiplierOutput i => simp [ha, Variable.InRange, hs.wO]
  | committed i => simp [ha, Variable.InRange, hs.wV]
  | one => cases vf <;> simp [Variable.InRange]
  | vectorCommit j i =>
    have : dims[j]? = (wt.wVC[j]?).map List.length := by rw [← hs.wVC, List.getElem?_map]
    cases hj : wt.wVC[j]? with
    | none => simp [Variable.InRange, this, hj]
    | some row => simp [Variable.InRange, this, hj, ha]

theorem flattenTerms_isSome (vf : Bool) (e : F) {wt : Weights F} (ts : List (Variable × F)) {n m : Nat}
    {dims : List Nat} (hs : wt.Shape n m dims) :
    (flattenTerms vf e ts wt).isSome ↔ ∀ t ∈ ts, t.1.InRange n m dims := by
  induction ts generalizing wt with
  | nil => simp [flattenTerms]
  | cons t ts ih =>
    unfold flattenTerms
    have h1 := flattenTerm_isSome vf e t hs
    cases h : flattenTerm vf e wt t with
    | none => rw [h] at h1; simp at h1; simp [h1]
    | some wt1 =>
      rw [h] at h1; simp at h1
      have := ih (flattenTerm_apply hs h ⟨0, 0, 0, 0, 0⟩).1
      simp only [this, List.mem_cons, forall_eq_or_imp, h1, true_and]

theorem flattenLoop_isSome (vf : Bool) (z e : F) {wt : Weights F} (cs : List (LC F)) {n m : Nat}
    {dims : List Nat} (hs : wt.Shape n m dims) :
    (flattenLoop vf z cs e wt).isSome ↔ ∀ c ∈ cs, ∀ t ∈ c.terms, t.1.InRange n m dims := by
  induction cs generalizing wt e with
  | nil => simp [flattenLoop]
  | cons c cs ih =>
    unfold flattenLoop
    have h1 := flattenTerms_isSome vf e c.terms hs
    cases h : flattenTerms vf e c.terms wt with
    | none =>
      rw [h] at h1
      simp only [List.mem_cons, forall_eq_or_imp, ← h1]; simp
    | some wt1 =>
      rw [h] at h1; 
      have := ih (e * z) (flattenTerms_apply hs h ⟨0, 0, 0, 0, 0⟩).1
      simp only [this, List.mem_cons, forall_eq_or_imp, ← h1]; simp

end CT
