import Verif.Props.Commit
import Verif.Props.BatchedTree

/-!
# C27: what the sum of the root commitments opens to
-/

namespace CT
open Finset

variable {B : Bool → Type} [∀ p, Field (B p)] [∀ p, DecidableEq (B p)] {C : ∀ p, SWCurve (B p)} [∀ p, Module (B (!p)) (C p).Pt] {L M : Nat}

/-- The sum of the `M` commitments of a node, in the tree made by `from_set`. -/
theorem committed_sum {prm : SelRerand C} (hg : prm.tree.EnoughGens L M) {p : Bool} {comm : Fin M → (C p).Pt} {children : Fin L → Slot L M (Pts C) (!p)}
    (hc : ∀ i : Fin M, comm i = ∑ k : Fin L, (children k).x prm.tree i • (prm.gens p).Gs.getD (i * L + k) 0) :
    layerCommit? (F := B (!p)) (prm.gens p) (List.ofFn fun i => xCoordinates prm.tree children i).flatten 0 0 = some (∑ i, comm i) := by
  obtain ⟨cs, h1, h2, h3⟩ := C34_concat (F := B (!p)) (prm.gens p) L (List.ofFn fun i : Fin M => (xCoordinates prm.tree children i, (0 : B (!p))))
    (by
      intro v hv
      obtain ⟨i, rfl⟩ := List.mem_ofFn.1 hv
      simp [xCoordinates])
    (by rw [List.length_ofFn]; exact hg p)
  have hcs : cs = List.ofFn comm := by
    apply List.ext_getElem?
    intro i
    rcases Nat.lt_or_ge i M with hi | hi
    · rw [← h2 i (xCoordinates prm.tree children ⟨i, hi⟩, 0) (by rw [List.getElem?_ofFn, dif_pos hi]), List.getElem?_ofFn, dif_pos hi, C34_commit, if_pos]
      · rw [hc ⟨i, hi⟩, zero_smul, zero_add, Finset.sum_range, Option.some.injEq]
        refine Fintype.sum_equiv (finCongr (by simp [xCoordinates])) _ _ fun k => ?_
        have hk : k.val < L := by have := k.isLt; simpa [xCoordinates] using this
        simp [xCoordinates, List.getD_eq_getElem?_getD, hk]
        rfl
      · left
        simp only [xCoordinates, List.length_ofFn]
        exact le_trans (Nat.mul_le_mul_left _ hi) (hg p)
    · rw [List.getElem?_eq_none (by rw [h1, List.length_ofFn]; exact hi), List.getElem?_eq_none (by rw [List.length_ofFn]; exact hi)]
  rw [hcs, List.map_ofFn, List.map_ofFn, List.sum_ofFn, List.sum_ofFn] at h3
  simpa [Function.comp_def] using h3

/-- **C27**, the root: for every tree of height at least one made by `from_set`, the point that the Verifier puts in front of the path is the commitment
`SingleLayerParameters::commit`, without blinding and with the generators of `commit_vec`, to the concatenation of the `M` vectors of children which it uses as
the variables of the root. -/
theorem C27_root_opens {prm : SelRerand C} (hg : prm.tree.EnoughGens L M) (hL : 2 ≤ L) {set : List (C false).Pt} {height : Option Nat} {fuel : Nat}
    {T : CurveTree L M (Pts C)} (ht : fromSet prm.tree set height fuel = some (.ok T)) (hfuel : set.length + height.getD 0 ≤ fuel) (h0 : T.height ≠ 0)
    {path path' : MultiPath (C false).Pt (C true).Pt M} (hr : addRoots T path = .ok path') :
    (∃ c xs, path'.even = c :: path.even ∧ path'.odd = path.odd ∧ multiRootSiblings prm false T = .ok xs ∧ xs.length = M * L ∧
      layerCommit? (F := B (!false)) (prm.gens false) xs 0 0 = some c) ∨
    (∃ c xs, path'.odd = c :: path.odd ∧ path'.even = path.even ∧ multiRootSiblings prm true T = .ok xs ∧ xs.length = M * L ∧
      layerCommit? (F := B (!true)) (prm.gens true) xs 0 0 = some c) := by
  have hne0 : set ≠ [] := by
    rintro rfl
    simp [fromSet] at ht
  obtain ⟨T', h', k1, _, _, hs⟩ := fromSet_stores hg hL hne0 height
  have := k1 fuel hfuel
  rw [ht] at this
  cases this
  have hc := hs.committed
  cases T with
  | even n =>
    cases n with
    | leaf c => exact absurd rfl h0
    | branch comm children h e =>
      left
      simp only [addRoots] at hr
      split at hr
      · cases hr
        exact ⟨_, _, rfl, rfl, rfl, by simp [xCoordinates, List.length_flatten, List.map_ofFn, Function.comp_def], committed_sum hg hc.1⟩
      · cases hr
  | odd n =>
    cases n with
    | leaf c => exact absurd rfl h0
    | branch comm children h e =>
      right
      simp only [addRoots] at hr
      split at hr
      · cases hr
        exact ⟨_, _, rfl, rfl, rfl, by simp [xCoordinates, List.length_flatten, List.map_ofFn, Function.comp_def], committed_sum hg hc.1⟩
      · cases hr

section Example
open Curve19

/-- Non-vacuity: the tree of height 2 with leaves `3h, 5h, 11h` for two paths; the root is on the even curve, and the path has one commitment on the odd curve. -/
example : ∃ path', addRoots T2 (⟨fun _ => 8 • h, [h], []⟩ : MultiPath Curve19.C.Pt Curve19.C.Pt 2) = .ok path' ∧ T2.height ≠ 0 ∧
    prm.tree.EnoughGens 2 2 ∧ fromSet prm.tree Curve19.set none 10 = some (.ok T2) := by
  have hk : (match T2 with | .even _ => true | .odd _ => false) = true := by decide +kernel
  have key : ∀ T : CurveTree 2 2 (Pts Cs), (match T with | .even _ => true | .odd _ => false) = true →
      ∃ path', addRoots T (⟨fun _ => 8 • h, [h], []⟩ : MultiPath Curve19.C.Pt Curve19.C.Pt 2) = .ok path' := by
    intro T hT
    cases T with
    | odd n => cases hT
    | even n => exact ⟨_, rfl⟩
  obtain ⟨path', hp⟩ := key T2 hk
  exact ⟨path', hp, by rw [height_T2]; decide, tree_gens2, fromSet_T2⟩

end Example

end CT
