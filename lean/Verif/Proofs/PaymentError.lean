import Verif.Proofs.Widen
import Verif.Proofs.Total
import Verif.Proofs.ProveGood
import Verif.Proofs.CompletenessError

/-! Lemmas for the completeness error of payments. -/

namespace CT

section
variable {F G X : Type} [Field F] [DecidableEq F] [AddCommGroup G] [Module F G]

/-- `proveTail_widen` as an equation, for circuits whose constraints refer to existing variables only. -/
theorem proveTail_widen_eq (o : Oracle F G X) (g : Gens G) (rnd : PRand F) (ds : Nat → Nat) {n1 : Nat} {c1 : Com G} {s : PState F G X}
    (hn1 : n1 ≤ s.size) (hd : ∀ j < s.vecOpen.length, ds j ≤ s.size) (hf : ∀ z, s.flattened z ≠ none) :
    proveTail o g rnd n1 c1 (s.widen ds) = proveTail o g rnd n1 c1 s := by
  have hne : ((s.widen ds).vecOpen ≠ []) = (s.vecOpen ≠ []) := by
    simp only [ne_eq, ← List.length_eq_zero_iff, PState.widen_length]
  have hbl : (s.widen ds).vecOpen.map (·.1) = s.vecOpen.map (·.1) := by
    apply List.ext_getElem?
    intro k
    simp only [List.getElem?_map, PState.widen_get]
    cases s.vecOpen[k]? <;> rfl
  have hc2 : ∀ n, commit2 g rnd (s.widen ds) n1 n = commit2 g rnd s n1 n := fun n => rfl
  unfold proveTail
  simp only [PState.widen_length, PState.widen_size ds hd, hbl, hc2]
  split
  · rfl
  by_cases hph : s.size - n1 > 0 ∧ s.vecOpen ≠ []
  · rw [if_pos hph, if_pos (by rw [hne]; exact hph)]
  rw [if_neg hph, if_neg (by rw [hne]; exact hph)]
  have htr : (s.widen ds).transcript = s.transcript := rfl
  have hvb : (s.widen ds).vBlinding = s.vBlinding := rfl
  rw [htr, hvb]
  obtain ⟨wt, hwt⟩ := Option.ne_none_iff_exists'.1
    (hf (challengeScalar o (challengeScalar o (s.transcript ++ [.point "A_I2" (commit2 g rnd s n1 s.size).AI, .point "A_O2" (commit2 g rnd s n1 s.size).AO,
      .point "S2" (commit2 g rnd s n1 s.size).S]) "y").2 "z").1)
  have hwt' := flattened_widen ds hwt
  rw [hwt', hwt]
  have hdims : wt.wVC.map List.length = s.vecOpen.map fun v => v.2.length := (flattenLoop_apply (Weights.zero_shape _ _ _) hwt ⟨0, 0, 0, 0, 0⟩).1.wVC
  have hwvc : ∀ v ∈ wt.wVC, v.length ≤ s.size := by
    intro v hv
    have : v.length ∈ wt.wVC.map List.length := List.mem_map_of_mem hv
    rw [hdims] at this
    obtain ⟨x, hx, e⟩ := List.mem_map.1 this
    rw [← e]; exact s.dim_le_size x hx
  have hwvl : s.vecOpen.length = wt.wVC.length := by
    have := congrArg List.length hdims
    simpa using this.symm
  simp only [lPoly_widen ds s wt _ (n := s.size) (sL := (List.range n1).map rnd.sL1 ++ (List.range (s.size - n1)).map rnd.sL2)
    (by simp; omega) (fun v hv => s.dim_le_size v hv) hd, rPoly_widen ds s wt _ _ hwvc hwvl hd]
  rfl

theorem prove_widen_eq (o : Oracle F G X) (g : Gens G) (rnd : PRand F) (ds : Nat → Nat) {s : PState F G X} (hdef : s.deferred = [])
    (hd : ∀ j < s.vecOpen.length, ds j ≤ s.size) (hin : s.InCircuit) : prove o g rnd (s.widen ds) = prove o g rnd s := by
  have hpd : s.pad.deferred = [] := by rw [PState.pad_eq]; exact hdef
  have hpo : s.pad.vecOpen = s.vecOpen := by rw [PState.pad_eq]
  have hwp := PState.widen_pad ds hd
  have hsz := PState.widen_size ds (s := s.pad) (by rw [hpo, s.pad_size]; exact hd)
  unfold prove PState.createRandomized
  rw [hwp]
  have hsz1 : ∀ tr, ({ s.pad.widen ds with transcript := tr, deferred := [] } : PState F G X).size = s.pad.size := fun _ => hsz
  have hsz2 : ∀ tr, ({ s.pad with transcript := tr, deferred := [] } : PState F G X).size = s.pad.size := fun _ => rfl
  have e2 : (s.pad.widen ds).deferred = [] := hpd
  simp only [hpd, e2, if_true]
  rw [hsz1, hsz2]
  split
  · rfl
  refine proveTail_widen_eq (s := { s.pad with
      transcript := s.pad.transcript ++ [.num "m" s.pad.v.length] ++ _ ++ [.sep "r1cs-1phase"], deferred := [], pending := none }) o g rnd ds ?_ ?_ ?_
  · exact le_refl s.pad.size
  · intro j hj
    exact (hd j (by rw [← hpo]; exact hj)).trans (le_of_eq s.pad_size.symm)
  · intro z
    refine (Option.isSome_iff_ne_none).1 ((PState.flattened_isSome _ z).2 ?_)
    intro c hc t ht
    have hpc : s.pad.constraints = s.constraints := by rw [PState.pad_eq]
    have hpv : s.pad.v = s.v := by rw [PState.pad_eq]
    have := hin c (by rw [← hpc]; exact hc) t ht
    change t.1.InRange s.pad.aL.length s.pad.v.length (s.pad.vecOpen.map (·.2.length))
    rw [hpo, hpv, s.pad_length]
    have hle := s.aL_le_size
    cases h : t.1 <;> rw [h] at this <;> simp only [Variable.InRange] at this ⊢ <;> first | omega | exact this

end

/-- A union bound over two stages: the first choice is in `A`, or the second is bad for it. -/
theorem ncard_stages {α β : Type} [Fintype α] [Fintype β] (S : Set (α × β)) (A : Set α) {Q c d : Nat} (hA : Q * A.ncard ≤ d * Fintype.card α)
    (h : ∀ a ∉ A, Q * {b | (a, b) ∈ S}.ncard ≤ c * Fintype.card β) : Q * S.ncard ≤ (d + c) * Fintype.card (α × β) := by
  classical
  have hb : ∀ a, {b | (a, b) ∈ S}.ncard ≤ Fintype.card β := fun a => by
    rw [← Nat.card_eq_fintype_card]
    exact Set.ncard_le_card _
  have e : S.ncard = ∑ a, {b | (a, b) ∈ S}.ncard := by
    rw [Set.ncard_eq_toFinset_card', Finset.card_eq_sum_card_fiberwise (f := Prod.fst) (t := Finset.univ) (fun _ _ => Finset.mem_univ _)]
    refine Finset.sum_congr rfl fun a _ => ?_
    rw [Set.ncard_eq_toFinset_card']
    refine Eq.trans ?_ (Finset.card_image_of_injective _ (Prod.mk_right_injective a))
    refine congrArg Finset.card (Finset.ext fun xy => ?_)
    obtain ⟨x, y⟩ := xy
    simp only [Finset.mem_filter, Set.mem_toFinset, Finset.mem_image, Prod.mk.injEq, Set.mem_ofPred_eq]
    constructor
    · rintro ⟨h1, rfl⟩; exact ⟨y, h1, rfl, rfl⟩
    · rintro ⟨b, h1, rfl, rfl⟩; exact ⟨h1, rfl⟩
  have hle : ∀ a, Q * {b | (a, b) ∈ S}.ncard ≤ (if a ∈ A then Q * Fintype.card β else 0) + c * Fintype.card β := fun a => by
    split
    · exact (Nat.mul_le_mul_left _ (hb a)).trans (Nat.le_add_right _ _)
    · rename_i ha; rw [Nat.zero_add]; exact h a ha
  rw [e, Finset.mul_sum]
  refine (Finset.sum_le_sum fun a _ => hle a).trans ?_
  rw [Finset.sum_add_distrib, ← Finset.sum_filter, Finset.sum_const, Finset.sum_const, smul_eq_mul, smul_eq_mul, Fintype.card_prod]
  have hA' : (Finset.univ.filter fun a => a ∈ A).card = A.ncard := by
    rw [Set.ncard_eq_toFinset_card']; congr 1; ext; simp
  rw [hA', Finset.card_univ]
  calc A.ncard * (Q * Fintype.card β) + Fintype.card α * (c * Fintype.card β)
      = (Q * A.ncard) * Fintype.card β + Fintype.card α * (c * Fintype.card β) := by ring
    _ ≤ (d * Fintype.card α) * Fintype.card β + Fintype.card α * (c * Fintype.card β) := by gcongr
    _ = (d + c) * (Fintype.card α * Fintype.card β) := by ring

end CT
