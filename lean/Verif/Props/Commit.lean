import Verif.Proofs.Tree
import Verif.Proofs.Concrete
import Mathlib.Algebra.BigOperators.Fin

/-! # Property C34: commitments made with `SingleLayerParameters` and by the Prover -/

namespace CT
open Finset

variable {F G X : Type} [Field F] [AddCommGroup G] [Module F G]

/-- C34: `SingleLayerParameters::commit(v, r, i)` is `r·H + Σ_k v_k·G_{i·|v|+k}` if there are enough generators, and panics otherwise. -/
theorem C34_commit (g : Gens G) (v : List F) (r : F) (i : Nat) :
    layerCommit? g v r i = if v.length * (i + 1) ≤ g.Gs.length ∨ v = [] then
      some (r • g.pc.Bbl + ∑ k ∈ range v.length, v.getD k 0 • g.Gs.getD (i * v.length + k) 0) else none := by
  unfold layerCommit?
  by_cases hv : v = []
  · subst hv; simp [layerGens, msm]
  have hpos : 0 < v.length := List.length_pos_iff.2 hv
  by_cases h : v.length * (i + 1) ≤ g.Gs.length
  · rw [if_neg (by rw [layerGens_length _ _ _ h]; simp), if_pos (.inl h)]
    congr 1
    rw [msm_cons, msm_eq _ _ v.length (.inr le_rfl)]
    congr 1
    refine Finset.sum_congr rfl fun k hk => ?_
    congr 1
    have := Finset.mem_range.1 hk
    simp only [layerGens, List.getD_eq_getElem?_getD, List.getElem?_drop]
    rw [List.getElem?_take, if_pos (by rw [Nat.mul_succ]; omega), Nat.mul_comm]
  · rw [if_pos, if_neg (by simp [h, hv])]
    simp only [layerGens, List.length_drop, List.length_take]
    rw [Nat.mul_succ] at h ⊢
    omega

/-- C34: `SingleLayerParameters::commit(v, r, 0)` and `Prover::commit_vec(v, r)` fail together and otherwise return the same point;
`commit_vec` also sends this point to the transcript and stores the opening. -/
theorem C34_commit_vec (g : Gens G) (s : PState F G X) (v : List F) (r : F) :
    match layerCommit? g v r 0 with
    | none => ∃ e, s.commitVec g v r = .error (.panic e)
    | some c => ∃ s', s.commitVec g v r = .ok ((c, (List.range v.length).map (Variable.vectorCommit s.vecOpen.length)), s') ∧
        s'.vecOpen = s.vecOpen ++ [(r, v)] ∧ s'.transcript = s.transcript ++ [.point "V" c] := by
  unfold layerCommit? PState.commitVec
  simp only [layerGens, zero_add, mul_one, mul_zero, List.drop_zero]
  by_cases h : (g.Gs.take v.length).length = v.length
  · rw [if_neg (by simpa using h), if_neg (by simpa using h)]
    exact ⟨_, rfl, rfl, rfl⟩
  · rw [if_pos h, if_pos (by simpa using h)]
    exact ⟨_, rfl⟩

/-- C34: adding `s·H` to a commitment gives the commitment with blinding factor increased by `s`. -/
theorem C34_rerandomize (g : Gens G) (v : List F) (r s : F) (i : Nat) :
    layerCommit? g v (r + s) i = (layerCommit? g v r i).map (· + s • g.pc.Bbl) := by
  rw [C34_commit, C34_commit]
  split
  · simp only [Option.map_some, add_smul]
    congr 1
    abel
  · rfl

/-- C34: commitments are additive. -/
theorem C34_add (g : Gens G) (v w : List F) (hl : v.length = w.length) (r s : F) (i : Nat) {c d : G}
    (hc : layerCommit? g v r i = some c) (hd : layerCommit? g w s i = some d) :
    layerCommit? g (List.zipWith (· + ·) v w) (r + s) i = some (c + d) := by
  have hz : (List.zipWith (· + ·) v w).length = v.length := by rw [List.length_zipWith, hl, Nat.min_self]
  rw [C34_commit] at hc hd ⊢
  split at hc
  case isFalse => cases hc
  rename_i h
  split at hd
  case isFalse => cases hd
  cases hc
  cases hd
  have h' : (List.zipWith (· + ·) v w).length * (i + 1) ≤ g.Gs.length ∨ List.zipWith (· + ·) v w = [] := by
    rw [hz]
    exact h.imp_right fun e => by rw [e]; rfl
  rw [if_pos h', hz, ← hl, add_smul, add_add_add_comm, ← Finset.sum_add_distrib]
  congr 2
  refine Finset.sum_congr rfl fun k hk => ?_
  have := Finset.mem_range.1 hk
  rw [← add_smul]
  congr 1
  simp [List.getD_eq_getElem?_getD, List.getElem?_zipWith, List.getElem?_eq_getElem (show k < v.length from this),
    List.getElem?_eq_getElem (show k < w.length by omega)]

/-- C34: committing to vectors of the same length with the successive sets of generators, the sum of the commitments is the commitment
to the concatenation, with the sum of the blinding factors. -/
theorem C34_concat (g : Gens G) (n : Nat) (vs : List (List F × F)) (hn : ∀ v ∈ vs, v.1.length = n)
    (hg : n * vs.length ≤ g.Gs.length) :
    ∃ cs : List G, cs.length = vs.length ∧
      (∀ i v, vs[i]? = some v → layerCommit? g v.1 v.2 i = cs[i]?) ∧
      layerCommit? g (vs.map (·.1)).flatten (vs.map (·.2)).sum 0 = some cs.sum := by
  induction vs using List.reverseRecOn with
  | nil => exact ⟨[], rfl, by simp, by rw [C34_commit]; simp⟩
  | append_singleton vs v ih =>
    have hv : v.1.length = n := hn v (by simp)
    have hl : ((vs.map (·.1)).flatten).length = n * vs.length := by
      rw [List.length_flatten, List.map_map]
      have : ((fun l : List F => l.length) ∘ fun x : List F × F => x.1) = fun x : List F × F => x.1.length := rfl
      rw [this, List.map_congr_left (g := fun _ => n) fun x hx => hn x (List.mem_append_left _ hx)]
      simp [mul_comm]
    rw [List.length_append, List.length_singleton] at hg
    obtain ⟨cs, h1, h2, h3⟩ := ih (fun x hx => hn x (List.mem_append_left _ hx)) (le_trans (Nat.mul_le_mul_left _ (Nat.le_succ _)) hg)
    have e1 := C34_commit g v.1 v.2 vs.length
    rw [hv, if_pos (.inl hg)] at e1
    refine ⟨cs ++ [v.2 • g.pc.Bbl + ∑ k ∈ range n, v.1.getD k 0 • g.Gs.getD (vs.length * n + k) 0], by simp [h1], ?_, ?_⟩
    rotate_left
    · rw [C34_commit] at h3 ⊢
      have hlen : ((((vs ++ [v]).map (·.1)).flatten).length) = n * (vs.length + 1) := by
        simp only [List.map_append, List.flatten_append, List.length_append, hl]
        simp [hv, Nat.mul_succ]
      rw [if_pos (.inl (by rw [hl, zero_add, mul_one]; exact le_trans (Nat.mul_le_mul_left _ (Nat.le_succ _)) hg))] at h3
      rw [if_pos (.inl (by rw [hlen, zero_add, mul_one]; exact hg))]
      rw [Option.some.injEq] at h3 ⊢
      rw [List.sum_append, ← h3, hlen, Nat.mul_succ, Finset.sum_range_add, hl]
      simp only [List.map_append, List.sum_append, List.map_cons, List.map_nil, List.sum_cons, List.sum_nil, add_zero, add_smul,
        List.flatten_append, List.flatten_cons, List.flatten_nil, List.append_nil, zero_mul, zero_add]
      have a1 : ∀ k ∈ range (n * vs.length), ((vs.map (·.1)).flatten ++ v.1).getD k 0 • g.Gs.getD k 0 =
          (vs.map (·.1)).flatten.getD k 0 • g.Gs.getD k 0 := by
        intro k hk
        simp only [List.getD_eq_getElem?_getD]
        rw [List.getElem?_append_left (by rw [hl]; exact Finset.mem_range.1 hk)]
      have a2 : ∀ k ∈ range n, ((vs.map (·.1)).flatten ++ v.1).getD (n * vs.length + k) 0 • g.Gs.getD (n * vs.length + k) 0 =
          v.1.getD k 0 • g.Gs.getD (vs.length * n + k) 0 := by
        intro k _
        simp only [List.getD_eq_getElem?_getD]
        rw [List.getElem?_append_right (by rw [hl]; omega), hl, Nat.add_sub_cancel_left, mul_comm]
      rw [Finset.sum_congr rfl a1, Finset.sum_congr rfl a2]
      abel
    · intro i w hw
      rcases Nat.lt_or_ge i vs.length with hi | hi
      · rw [List.getElem?_append_left hi] at hw
        rw [h2 i w hw, List.getElem?_append_left (by omega)]
      · rw [List.getElem?_append_right hi] at hw
        have : i = vs.length := by
          have := (List.getElem?_eq_some_iff.1 hw).1
          simp at this
          omega
        subst this
        simp only [Nat.sub_self, List.getElem?_cons_zero, Option.some.injEq] at hw
        subst hw
        rw [List.getElem?_append_right (by omega), h1, Nat.sub_self, List.getElem?_cons_zero, e1]

/-- C34: commitments are perfectly hiding. If the blinding base generates the group, then for any two vectors of the same length there is a
bijection of the blinding factors under which the commitments to the two vectors coincide. -/
theorem C34_hiding (g : Gens G) (hB : ∀ P : G, ∃ s : F, s • g.pc.Bbl = P) (v w : List F) (hl : v.length = w.length) (i : Nat) :
    ∃ f : F → F, f.Bijective ∧ ∀ r, layerCommit? g v r i = layerCommit? g w (f r) i := by
  obtain ⟨s, hs⟩ := hB (∑ k ∈ range v.length, v.getD k 0 • g.Gs.getD (i * v.length + k) 0 -
    ∑ k ∈ range w.length, w.getD k 0 • g.Gs.getD (i * w.length + k) 0)
  refine ⟨(· + s), (Equiv.addRight s).bijective, fun r => ?_⟩
  have h0 : v = [] ↔ w = [] := by rw [← List.length_eq_zero_iff, hl, List.length_eq_zero_iff]
  rw [C34_commit, C34_commit]
  rw [hl] at hs ⊢
  simp only [h0]
  split
  · rw [add_smul, hs]
    congr 1
    abel
  · rfl

/-- Binding, the counterpart of hiding: two different openings of a commitment give a linear relation, not trivial, between the generators. -/
theorem C34_binding (g : Gens G) {v w : List F} (hl : v.length = w.length) {r s : F} {i : Nat} {c : G}
    (hv : layerCommit? g v r i = some c) (hw : layerCommit? g w s i = some c) (hne : v ≠ w) :
    ∃ a : Nat → F, ∃ b : F, (∃ k < v.length, a k ≠ 0) ∧
      b • g.pc.Bbl + ∑ k ∈ range v.length, a k • g.Gs.getD (i * v.length + k) 0 = 0 := by
  refine ⟨fun k => v.getD k 0 - w.getD k 0, r - s, ?_, ?_⟩
  · by_contra hcon
    push Not at hcon
    exact hne (ext_getD 0 hl fun k hk => sub_eq_zero.1 (hcon k hk))
  · rw [C34_commit] at hv hw
    split at hv
    case isFalse => cases hv
    split at hw
    case isFalse => cases hw
    rw [← hw, Option.some.injEq, ← hl] at hv
    simp only [sub_smul, Finset.sum_sub_distrib]
    rw [← sub_eq_zero] at hv
    refine Eq.trans ?_ hv
    abel

section Example

/-- Non-vacuity: two vectors of length 2 over `ℚ` and four generators; the commitments, and the commitment to the concatenation. -/
example : layerCommit? exGens [(1 : ℚ), 2] 3 0 = some (3 * exGens.pc.Bbl + (1 * exGens.Gs.getD 0 0 + 2 * exGens.Gs.getD 1 0)) ∧
    (layerCommit? exGens [(1 : ℚ), 2] 3 1).isSome ∧ ∀ P : ℚ, ∃ s : ℚ, s • exGens.pc.Bbl = P := by
  refine ⟨by decide +kernel, by decide +kernel, fun P => ⟨P / exGens.pc.Bbl, ?_⟩⟩
  rw [smul_eq_mul, div_mul_cancel₀]
  decide +kernel

end Example
end CT
