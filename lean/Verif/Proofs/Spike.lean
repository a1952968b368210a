import Verif.Proofs.HonestTree

/-! How the points of the inner product argument depend on one entry of each of the two vectors. -/

namespace CT
open Finset
set_option linter.unusedSectionVars false
variable {F G X : Type} [Field F] [AddCommGroup G] [Module F G]

/-- The vector depends on `α` in entry `i` only, and there linearly with coefficient `c`. -/
def Spike (A : F → List F) (N i : Nat) (c : F) : Prop :=
  ∃ a0 : Nat → F, ∀ α, (A α).length = N ∧ ∀ j < N, (A α).getD j 0 = a0 j + if j = i then c * α else 0

/-- A family of states that differ in one entry of `a` and one entry of `b`. -/
structure SpikeState (S : F → F → IPPState F G X) (N i k : Nat) (ca cb : F) : Prop where
  gens : ∃ gs hs, gs.length = N ∧ hs.length = N ∧ ∀ α β, (S α β).gs = gs ∧ (S α β).hs = hs
  a : ∃ A, Spike A N i ca ∧ ∀ α β, (S α β).a = A α
  b : ∃ B, Spike B N k cb ∧ ∀ α β, (S α β).b = B β

theorem SpikeState.len {S : F → F → IPPState F G X} {N i k : Nat} {ca cb : F} (h : SpikeState S N i k ca cb) (α β : F) : (S α β).Len N := by
  obtain ⟨⟨gs, hs, h1, h2, h3⟩, ⟨A, ⟨a0, ha⟩, hA⟩, B, ⟨b0, hb⟩, hB⟩ := h
  exact ⟨by rw [(h3 α β).1, h1], by rw [(h3 α β).2, h2], by rw [hA]; exact (ha α).1, by rw [hB]; exact (hb β).1⟩

theorem Spike.fold {A : F → List F} {m i : Nat} {c : F} (h : Spike A (m + m) i c) (hi : i < m) (p q : F) :
    Spike (fun α => List.zipWith (fun l r => l * p + q * r) ((A α).take m) ((A α).drop m)) m i (c * p) := by
  obtain ⟨a0, ha⟩ := h
  refine ⟨fun j => a0 j * p + q * a0 (m + j), fun α => ⟨?_, fun j hj => ?_⟩⟩
  · simp [(ha α).1]
  · rw [getD_zipWith _ _ _ _ 0 0, if_pos (by simp [(ha α).1]; omega), getD_take, if_pos hj, getD_drop, (ha α).2 j (by omega), (ha α).2 (m + j) (by omega),
      if_neg (show ¬ m + j = i by omega)]
    split <;> ring

theorem SpikeState.fold {S : F → F → IPPState F G X} {m i k : Nat} {ca cb : F} (h : SpikeState S (m + m) i k ca cb) (hi : i < m) (hk : k < m) (u : F) :
    SpikeState (fun α β => ippFold m u (S α β) []) m i k (ca * u) (cb * u⁻¹) := by
  obtain ⟨⟨gs, hs, h1, h2, h3⟩, ⟨A, ha, hA⟩, B, hb, hB⟩ := h
  refine ⟨⟨List.zipWith (fun gl gr => msm [gl, gr] [u⁻¹, u]) (gs.take m) (gs.drop m), List.zipWith (fun hl hr => msm [hl, hr] [u, u⁻¹]) (hs.take m) (hs.drop m),
    ?_, ?_, fun α β => ⟨?_, ?_⟩⟩, ⟨_, ha.fold hi u u⁻¹, fun α β => ?_⟩, ⟨_, hb.fold hk u⁻¹ u, fun α β => ?_⟩⟩
  · simp; omega
  · simp; omega
  · simp [ippFold, (h3 α β).1]
  · simp [ippFold, (h3 α β).2]
  · simp [ippFold, hA]
  · simp [ippFold, hB]

theorem SpikeState.state {i k : Nat} : ∀ (pre : List F) (n : Nat) (S : F → F → IPPState F G X) (ca cb : F), SpikeState S (2 ^ n) i k ca cb → pre.length ≤ n →
    i < 2 ^ (n - pre.length) → k < 2 ^ (n - pre.length) → (∀ u ∈ pre, u ≠ 0) →
    ∃ da db : F, (ca ≠ 0 → da ≠ 0) ∧ (cb ≠ 0 → db ≠ 0) ∧ SpikeState (fun α β => honestState n (S α β) pre) (2 ^ (n - pre.length)) i k da db := by
  intro pre
  induction pre with
  | nil =>
    intro n S ca cb h _ _ _ _
    exact ⟨ca, cb, id, id, by simpa [honestState] using h⟩
  | cons u pre ih =>
    intro n S ca cb h hn hi hk hu
    cases n with
    | zero => simp at hn
    | succ n =>
      have hu0 : u ≠ 0 := hu u (by simp)
      simp only [List.length_cons, Nat.succ_sub_succ] at hi hk hn ⊢
      have hle : 2 ^ (n - pre.length) ≤ 2 ^ n := Nat.pow_le_pow_right (by norm_num) (by omega)
      rw [pow_succ, mul_two] at h
      obtain ⟨da, db, h1, h2, h3⟩ := ih n _ _ _ (h.fold (by omega) (by omega) u) (by omega) hi hk (fun v hv => hu v (by simp [hv]))
      exact ⟨da, db, fun hc => h1 (mul_ne_zero hc hu0), fun hc => h2 (mul_ne_zero hc (inv_ne_zero hu0)), h3⟩

theorem Spike.sum {A : F → List F} {N i : Nat} {c : F} (h : Spike A N i c) (m lo : Nat) (hm : lo + m ≤ N) (f : Nat → G) :
    ∃ r g : G, ∀ α, ∑ j ∈ range m, (A α).getD (lo + j) 0 • f j = r + α • g := by
  obtain ⟨a0, ha⟩ := h
  refine ⟨∑ j ∈ range m, a0 (lo + j) • f j, ∑ j ∈ range m, if lo + j = i then c • f j else 0, fun α => ?_⟩
  rw [Finset.smul_sum, ← Finset.sum_add_distrib]
  refine Finset.sum_congr rfl fun j hj => ?_
  rw [(ha α).2 _ (by have := Finset.mem_range.1 hj; omega)]
  split
  · module
  · simp

/-- The inner product of a half of `a` and the other half of `b`. -/
theorem Spike.inner {A B : F → List F} {m i : Nat} {ca cb : F} {la lb : Nat} (ha : Spike A (m + m) (la + i) ca) (hb : Spike B (m + m) (lb + i) cb) (hi : i < m)
    (h1 : la ≤ m) (h2 : lb ≤ m) :
    ∃ r g h : F, ∀ α β, ∑ j ∈ range m, (A α).getD (la + j) 0 * (B β).getD (lb + j) 0 = r + α * g + β * h + α * β * (ca * cb) := by
  obtain ⟨a0, ha⟩ := ha
  obtain ⟨b0, hb⟩ := hb
  refine ⟨∑ j ∈ range m, a0 (la + j) * b0 (lb + j), ca * b0 (lb + i), a0 (la + i) * cb, fun α β => ?_⟩
  have e : ∀ j ∈ range m, (A α).getD (la + j) 0 * (B β).getD (lb + j) 0 = a0 (la + j) * b0 (lb + j) +
      if j = i then α * (ca * b0 (lb + i)) + β * (a0 (la + i) * cb) + α * β * (ca * cb) else 0 := by
    intro j hj
    have := Finset.mem_range.1 hj
    rw [(ha α).2 _ (by omega), (hb β).2 _ (by omega)]
    by_cases hji : j = i
    · subst hji
      simp only [if_true]
      ring
    · rw [if_neg (by omega), if_neg (by omega), if_neg hji]; ring
  rw [Finset.sum_congr rfl e, Finset.sum_add_distrib, Finset.sum_ite_eq' (range m) i, if_pos (Finset.mem_range.2 hi)]
  ring

/-- The first point of a round as a function of the two entries. -/
theorem SpikeState.crossL {S : F → F → IPPState F G X} {m i : Nat} {ca cb : F} (h : SpikeState S (m + m) i (m + i) ca cb) (hi : i < m) (Q : G) :
    ∃ r g k : G, ∀ α β, (ippCross Q m (S α β)).1 = r + α • g + β • k + (α * β) • ((ca * cb) • Q) := by
  have hl := h.len
  obtain ⟨⟨gs, hs, h1, h2, h3⟩, ⟨A, ha, hA⟩, B, hb, hB⟩ := h
  obtain ⟨r1, g1, e1⟩ := ha.sum m 0 (by omega) (fun j => gs.getD (m + j) 0)
  obtain ⟨r2, g2, e2⟩ := hb.sum m m le_rfl (fun j => hs.getD j 0)
  obtain ⟨r3, g3, k3, e3⟩ := Spike.inner (la := 0) (lb := m) (i := i) (by simpa using ha) hb hi (by omega) le_rfl
  refine ⟨r1 + r2 + r3 • Q, g1 + g3 • Q, g2 + k3 • Q, fun α β => ?_⟩
  rw [ippCross_eq Q m (hl α β)]
  simp only [Nat.zero_add] at e1 e3
  simp only [hA, hB, (h3 α β).1, (h3 α β).2, e1, e2, e3]
  module

/-- The second point of a round. -/
theorem SpikeState.crossR {S : F → F → IPPState F G X} {m i : Nat} {ca cb : F} (h : SpikeState S (m + m) (m + i) i ca cb) (hi : i < m) (Q : G) :
    ∃ r g k : G, ∀ α β, (ippCross Q m (S α β)).2 = r + α • g + β • k + (α * β) • ((ca * cb) • Q) := by
  have hl := h.len
  obtain ⟨⟨gs, hs, h1, h2, h3⟩, ⟨A, ha, hA⟩, B, hb, hB⟩ := h
  obtain ⟨r1, g1, e1⟩ := ha.sum m m le_rfl (fun j => gs.getD j 0)
  obtain ⟨r2, g2, e2⟩ := hb.sum m 0 (by omega) (fun j => hs.getD (m + j) 0)
  obtain ⟨r3, g3, k3, e3⟩ := Spike.inner (la := m) (lb := 0) (i := i) ha (by simpa using hb) hi le_rfl (by omega)
  refine ⟨r1 + r2 + r3 • Q, g1 + g3 • Q, g2 + k3 • Q, fun α β => ?_⟩
  rw [ippCross_eq Q m (hl α β)]
  simp only [Nat.zero_add] at e2 e3
  simp only [hA, hB, (h3 α β).1, (h3 α β).2, e1, e2, e3]
  module

/-- The points of the round after the challenges `pre`. -/
theorem SpikeState.honestL {S : F → F → IPPState F G X} {n : Nat} {ca cb : F} (pre : List F) (hp : pre.length < n)
    (h : SpikeState S (2 ^ n) 0 (2 ^ (n - 1 - pre.length)) ca cb) (hu : ∀ u ∈ pre, u ≠ 0) (ha : ca ≠ 0) (hb : cb ≠ 0) {Q : G} (hQ : Q ≠ 0) :
    ∃ r g k P : G, P ≠ 0 ∧ ∀ α β, (honestCross Q n (S α β) pre).1 = r + α • g + β • k + (α * β) • P := by
  have hpow : 2 ^ (n - pre.length) = 2 ^ (n - 1 - pre.length) + 2 ^ (n - 1 - pre.length) := by
    rw [← mul_two, ← pow_succ]; congr 1; omega
  have hpos : 0 < 2 ^ (n - 1 - pre.length) := by positivity
  obtain ⟨da, db, h1, h2, h3⟩ := SpikeState.state pre n S ca cb h hp.le (by omega) (by omega) hu
  rw [hpow] at h3
  obtain ⟨r, g, k, e⟩ := SpikeState.crossL (i := 0) h3 hpos Q
  exact ⟨r, g, k, _, smul_ne_zero (mul_ne_zero (h1 ha) (h2 hb)) hQ, e⟩

theorem SpikeState.honestR {S : F → F → IPPState F G X} {n : Nat} {ca cb : F} (pre : List F) (hp : pre.length < n)
    (h : SpikeState S (2 ^ n) (2 ^ (n - 1 - pre.length)) 0 ca cb) (hu : ∀ u ∈ pre, u ≠ 0) (ha : ca ≠ 0) (hb : cb ≠ 0) {Q : G} (hQ : Q ≠ 0) :
    ∃ r g k P : G, P ≠ 0 ∧ ∀ α β, (honestCross Q n (S α β) pre).2 = r + α • g + β • k + (α * β) • P := by
  have hpow : 2 ^ (n - pre.length) = 2 ^ (n - 1 - pre.length) + 2 ^ (n - 1 - pre.length) := by
    rw [← mul_two, ← pow_succ]; congr 1; omega
  have hpos : 0 < 2 ^ (n - 1 - pre.length) := by positivity
  obtain ⟨da, db, h1, h2, h3⟩ := SpikeState.state pre n S ca cb h hp.le (by omega) (by omega) hu
  rw [hpow] at h3
  obtain ⟨r, g, k, e⟩ := SpikeState.crossR (i := 0) h3 hpos Q
  exact ⟨r, g, k, _, smul_ne_zero (mul_ne_zero (h1 ha) (h2 hb)) hQ, e⟩

end CT
