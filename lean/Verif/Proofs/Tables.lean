import Verif.Model.Gadgets
import Verif.Proofs.CurveAdd
import Mathlib.Tactic.Ring
import Mathlib.Tactic.Linarith
import Mathlib.Algebra.BigOperators.Intervals
import Mathlib.Algebra.BigOperators.Ring.Finset

/-! The window tables of `build_tables` and the base-8 digits of the randomness. -/

namespace CT
set_option linter.unusedSectionVars false

theorem mapM_option {α β : Type} {f : α → Option β} {l : List α} {r : List β}
    (h : l.mapM f = some r) :
    r.length = l.length ∧ ∀ (k : Nat) (a : α), l[k]? = some a → ∃ b, r[k]? = some b ∧ f a = some b := by
  induction l generalizing r with
  | nil =>
    simp only [List.mapM_nil] at h
    cases h; simp
  | cons a l ih =>
    rw [List.mapM_cons] at h
    cases hb : f a with
    | none => simp [hb] at h
    | some b =>
      cases hl : l.mapM f with
      | none => simp [hb, hl] at h
      | some r' =>
        simp [hb, hl] at h
        subst h
        obtain ⟨h1, h2⟩ := ih hl
        refine ⟨by simp [h1], fun k x hk => ?_⟩
        cases k with
        | zero => simp at hk; subst hk; exact ⟨b, by simp, hb⟩
        | succ k => simpa using h2 k x (by simpa using hk)

section Digits

theorem bit_window {lambda r i k : Nat} (hr : r < 2 ^ lambda) :
    (if i + k < lambda ∧ (r / 2 ^ (i + k)) % 2 = 1 then 1 else 0) = r / 2 ^ i / 2 ^ k % 2 := by
  rw [Nat.div_div_eq_div_mul, ← pow_add]
  split
  · omega
  · next h =>
    by_cases hl : i + k < lambda
    · have : ¬ (r / 2 ^ (i + k)) % 2 = 1 := fun h' => h ⟨hl, h'⟩
      omega
    · have : r / 2 ^ (i + k) = 0 := Nat.div_eq_of_lt
        (lt_of_lt_of_le hr (Nat.pow_le_pow_right (by omega) (by omega)))
      omega

/-- The index computed by the gadget is the base-8 digit. -/
theorem windowIndex_eq {lambda r : Nat} (hr : r < 2 ^ lambda) (i : Nat) :
    windowIndex lambda r (i + 1) = r / 8 ^ i % 8 := by
  unfold windowIndex
  simp only [Nat.add_sub_cancel, bit_window hr]
  have : (8 : Nat) ^ i = 2 ^ (i * 3) := by rw [show (8 : Nat) = 2 ^ 3 from rfl, ← pow_mul]; ring_nf
  rw [this]
  generalize r / 2 ^ (i * 3) = n
  omega

theorem windowIndex_lt (lambda r i : Nat) : windowIndex lambda r i < 8 := by
  unfold windowIndex
  simp only
  split <;> split <;> split <;> omega

theorem digits_sum (r m : Nat) :
    ((List.range m).map fun i => r / 8 ^ i % 8 * 8 ^ i).sum = r % 8 ^ m := by
  induction m with
  | zero => simp [Nat.mod_one]
  | succ m ih =>
    rw [List.range_succ, List.map_append, List.sum_append, ih]
    simp only [List.map_cons, List.map_nil, List.sum_cons, List.sum_nil, Nat.add_zero]
    rw [pow_succ, Nat.mod_mul]
    ring

/-- Sum of the scalars of the first `k` tables, for digits `d`. -/
def partialScalar (m : Nat) (d : Nat → Nat) (k : Nat) : Int :=
  ((List.range k).map fun i => tableScalar m (i + 1) (d i)).sum

theorem partialScalar_succ (m : Nat) (d : Nat → Nat) (k : Nat) :
    partialScalar m d (k + 1) = partialScalar m d k + tableScalar m (k + 1) (d k) := by
  simp [partialScalar, List.range_succ]

theorem partialScalar_lt (m : Nat) (d : Nat → Nat) (k : Nat) (hk : k < m) :
    partialScalar m d k = ((List.range k).map fun i => (d i : Int) * 8 ^ i).sum +
      ((List.range k).map fun i => (2 : Int) ^ (3 * (i + 1))).sum := by
  induction k with
  | zero => simp [partialScalar]
  | succ k ih =>
    rw [partialScalar_succ, ih (by omega)]
    simp only [List.range_succ, List.map_append, List.sum_append, List.map_cons, List.map_nil,
      List.sum_cons, List.sum_nil, tableScalar, if_pos hk, Nat.add_sub_cancel]
    rw [pow_mul (2 : Int) 3 k]
    norm_num
    ring

/-- The offsets cancel. -/
theorem partialScalar_all (m : Nat) (d : Nat → Nat) :
    partialScalar m d m = ((List.range m).map fun i => (d i : Int) * 8 ^ i).sum := by
  cases m with
  | zero => simp [partialScalar]
  | succ m =>
    rw [partialScalar_succ, partialScalar_lt _ _ _ (Nat.lt_succ_self m)]
    simp only [tableScalar, lt_irrefl, if_false, Nat.add_sub_cancel, List.range_succ,
      List.map_append, List.sum_append, List.map_cons, List.map_nil, List.sum_cons, List.sum_nil]
    rw [pow_mul (2 : Int) 3 m]
    norm_num

theorem partialScalar_digits (m r : Nat) (hr : r < 8 ^ m) :
    partialScalar m (fun i => r / 8 ^ i % 8) m = r := by
  rw [partialScalar_all]
  have := digits_sum r m
  rw [Nat.mod_eq_of_lt hr] at this
  conv_rhs => rw [← this]
  simp [Nat.cast_list_sum, List.map_map, Function.comp_def]

theorem lt_windows {lambda r : Nat} (hr : r < 2 ^ lambda) : r < 8 ^ windows lambda := by
  refine lt_of_lt_of_le hr ?_
  rw [show (8 : Nat) = 2 ^ 3 from rfl, ← pow_mul]
  exact Nat.pow_le_pow_right (by omega) (by unfold windows; omega)

end Digits

variable {F : Type} [Field F] [DecidableEq F]

theorem SWCurve.new?_fields (C : SWCurve F) {P : C.Pt} (h : (C.x? P).isSome) :
    C.new? (C.xField P) (C.yField P) = some P := by
  rcases C.cases_pt P with rfl | ⟨x, y, hc, rfl⟩
  · simp at h
  · simpa using C.new?_pt hc

theorem buildTables_spec {C : SWCurve F} {m : Nat} {h : C.Pt} {ts : List (Table F)}
    (hts : buildTables C m h = some ts) :
    ts.length = m ∧ ∀ (k : Nat) (t : Table F), ts[k]? = some t → ∀ j : Fin 8,
      C.new? (t.x j) (t.y j) = some (tableScalar m (k + 1) j • h) := by
  obtain ⟨h1, h2⟩ := mapM_option hts
  refine ⟨by simpa using h1, fun k t ht j => ?_⟩
  have hk : k < m := by
    have := (List.getElem?_eq_some_iff.1 ht).1
    rw [h1] at this; simpa using this
  obtain ⟨b, hb, e⟩ := h2 k k (by simp [hk])
  rw [ht] at hb
  obtain rfl : t = b := by simpa using hb
  simp only at e
  split at e
  · next hall =>
    simp only [Option.some.injEq] at e
    subst e
    exact C.new?_fields (hall j)
  · simp at e

theorem buildTables_isSome {C : SWCurve F} {m : Nat} {h : C.Pt}
    (hne : ∀ k < m, ∀ j < 8, tableScalar m (k + 1) j • h ≠ 0) :
    ∃ ts, buildTables C m h = some ts := by
  unfold buildTables
  generalize hl : List.range m = l
  have hmem : ∀ k ∈ l, k < m := by rw [← hl]; simp
  clear hl
  induction l with
  | nil => exact ⟨[], rfl⟩
  | cons k l ih =>
    obtain ⟨ts, ih⟩ := ih fun k hk => hmem k (by simp [hk])
    have : ∀ j : Fin 8, (C.x? (tableScalar m (k + 1) j • h)).isSome := by
      intro j
      rcases C.cases_pt (tableScalar m (k + 1) j • h) with e | ⟨x, y, hc, e⟩
      · exact absurd e (hne k (hmem k (by simp)) j j.2)
      · rw [e]; rfl
    rw [List.mapM_cons, ih]
    simp only [this, implies_true, if_true]
    exact ⟨_, rfl⟩

end CT
