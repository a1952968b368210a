import Verif.Props.BatchSizes

/-! # C72 for two leaves of a tree on the Pasta curves and on secp256k1 and secq256k1 -/

namespace CT

section Example

/-- Parameters with 2048 generators, enough for the proof of two leaves in a tree with one level. -/
noncomputable def pastaBatch : SelRerand PastaC where
  gens p := ⟨⟨pastaGen p, pastaGen p⟩, 2048, pastaGen p :: 3 • pastaGen p :: pastaGen p :: pastaGen p :: List.replicate 2044 (pastaGen p), List.replicate 2048 (pastaGen p)⟩
  layer p := pastaPrm.layer p
  toNat p x := pastaPrm.toNat p x

theorem pastaBatch_params : PastaParams pastaBatch := ⟨pastaPrm_params.base, pastaPrm_params.lambda, pastaPrm_params.cast, pastaPrm_params.lt⟩

theorem pastaBatch_length (p : Bool) : (pastaBatch.gens p).Gs.length = 2048 ∧ (pastaBatch.gens p).Hs.length = 2048 := by
  have h : ∀ (a b : (PastaC p).Pt) (n : Nat), (a :: b :: a :: a :: List.replicate n a).length = n + 4 ∧ (List.replicate (n + 4) a).length = n + 4 := fun a b n => by simp
  exact h _ _ 2044

theorem pastaBatch_gens : pastaBatch.tree.EnoughGens 2 2 := fun p => by
  have h1 : 2 * 2 ≤ 2048 := by norm_num
  exact h1.trans (pastaBatch_length p).1.ge

/-- The tree of height one with the two leaves, for batches of two. -/
theorem pastaBatch_tree : ∃ T : CurveTree 2 2 (Pts PastaC), fromSet pastaBatch.tree pastaSet (some 1) 3 = some (.ok T) ∧ T.height = 1 ∧
    ∀ nodes, T.multiWitness pastaBatch.tree (fun j => j.val) = .ok nodes → pastaBatch.BatchReady nodes := by
  refine ⟨_, rfl, rfl, ?_⟩
  intro nodes hn
  cases Except.ok.inj hn
  refine ⟨?_, ?_⟩
  · rintro (_ | _) k f hf hk
    · cases hf
    · have := hk rfl
      exact absurd this (by change ¬ k + 1 < 1; omega)
  · intro f hf j
    cases hf
    have h1 := pasta_multiple (k := 2 + 1) (by norm_num [pallasOrder]) (by decide)
    rw [succ_nsmul] at h1
    have h2 := pasta_multiple (k := 1 + 1) (by norm_num [pallasOrder]) (by decide)
    rw [succ_nsmul, one_nsmul] at h2
    refine Fin.cases ?_ (fun j => ?_) j
    · exact h2
    · obtain rfl : j = 0 := by omega
      exact h1

/-- Non-vacuity of `C72_pasta_batch`: both leaves of the tree. -/
example (o : ∀ p, SideO PastaC p) : ∃ T : CurveTree 2 2 (Pts PastaC), fromSet pastaBatch.tree pastaSet (some 1) 3 = some (.ok T) ∧ T.height = 1 ∧
    2 ^ 254 * {ω : BatchScalars PastaB T.height 2 | ¬ BatchWorks o false pastaBatch (fun _ => []) T (fun j => j.val) (fun j => pastaSet[j.val]'j.2) (2 ^ 254) ω}.ncard ≤
      12 * Fintype.card (BatchScalars PastaB T.height 2) := by
  obtain ⟨T, h1, h2, h3⟩ := pastaBatch_tree
  have hm : ∀ p, batchCircuit 2 2 255 T.height p ≤ 1822 := by rw [h2]; intro p; cases p <;> decide +kernel
  have hn : ∀ p, nextPow2 (batchCircuit 2 2 255 T.height p) ≤ 2048 := by rw [h2]; intro p; cases p <;> decide +kernel
  have := C72_pasta_batch pastaBatch_params pastaLarge_tables (L := 2) (M := 2) pastaBatch_gens le_rfl
    (fun p => (pastaBatch_length p).1.ge) (fun p => (pastaBatch_length p).2.ge) pastaBatch_params.base h1 le_rfl (by omega) (by omega)
    hn (fun p => (hm p).trans (by norm_num)) (indices := fun j => j.val) (fun j => j.2) h3 o false (fun _ => [])
  rw [show 6 * (T.height - 1 + 2) = 12 by omega] at this
  exact ⟨T, h1, h2, this⟩

/-- The same for the other cycle. -/
noncomputable def secpBatch : SelRerand SecpC where
  gens p := ⟨⟨secpGen p, secpGen p⟩, 2048, secpGen p :: 3 • secpGen p :: secpGen p :: secpGen p :: List.replicate 2044 (secpGen p), List.replicate 2048 (secpGen p)⟩
  layer p := secpPrm.layer p
  toNat p x := secpPrm.toNat p x

theorem secpBatch_params : SecpParams secpBatch := ⟨secpPrm_params.base, secpPrm_params.lambda, secpPrm_params.cast, secpPrm_params.lt⟩

theorem secpBatch_length (p : Bool) : (secpBatch.gens p).Gs.length = 2048 ∧ (secpBatch.gens p).Hs.length = 2048 := by
  have h : ∀ (a b : (SecpC p).Pt) (n : Nat), (a :: b :: a :: a :: List.replicate n a).length = n + 4 ∧ (List.replicate (n + 4) a).length = n + 4 := fun a b n => by simp
  exact h _ _ 2044

theorem secpBatch_gens : secpBatch.tree.EnoughGens 2 2 := fun p => by
  have h1 : 2 * 2 ≤ 2048 := by norm_num
  exact h1.trans (secpBatch_length p).1.ge

/-- The tree of height one with the two leaves, for batches of two. -/
theorem secpBatch_tree : ∃ T : CurveTree 2 2 (Pts SecpC), fromSet secpBatch.tree secpSet (some 1) 3 = some (.ok T) ∧ T.height = 1 ∧
    ∀ nodes, T.multiWitness secpBatch.tree (fun j => j.val) = .ok nodes → secpBatch.BatchReady nodes := by
  refine ⟨_, rfl, rfl, ?_⟩
  intro nodes hn
  cases Except.ok.inj hn
  refine ⟨?_, ?_⟩
  · rintro (_ | _) k f hf hk
    · cases hf
    · have := hk rfl
      exact absurd this (by change ¬ k + 1 < 1; omega)
  · intro f hf j
    cases hf
    have h1 := secp_multiple (k := 2 + 1) (by norm_num [secpOrder]) (by decide)
    rw [succ_nsmul] at h1
    have h2 := secp_multiple (k := 1 + 1) (by norm_num [secpOrder]) (by decide)
    rw [succ_nsmul, one_nsmul] at h2
    refine Fin.cases ?_ (fun j => ?_) j
    · exact h2
    · obtain rfl : j = 0 := by omega
      exact h1

/-- Non-vacuity of `C72_secp_batch`: both leaves of the tree. -/
example (o : ∀ p, SideO SecpC p) : ∃ T : CurveTree 2 2 (Pts SecpC), fromSet secpBatch.tree secpSet (some 1) 3 = some (.ok T) ∧ T.height = 1 ∧
    2 ^ 255 * {ω : BatchScalars SecpB T.height 2 | ¬ BatchWorks o false secpBatch (fun _ => []) T (fun j => j.val) (fun j => secpSet[j.val]'j.2) (2 ^ 255) ω}.ncard ≤
      12 * Fintype.card (BatchScalars SecpB T.height 2) := by
  obtain ⟨T, h1, h2, h3⟩ := secpBatch_tree
  have hm : ∀ p, batchCircuit 2 2 256 T.height p ≤ 1822 := by rw [h2]; intro p; cases p <;> decide +kernel
  have hn : ∀ p, nextPow2 (batchCircuit 2 2 256 T.height p) ≤ 2048 := by rw [h2]; intro p; cases p <;> decide +kernel
  have := C72_secp_batch secpBatch_params secpLarge_tables (L := 2) (M := 2) secpBatch_gens le_rfl
    (fun p => (secpBatch_length p).1.ge) (fun p => (secpBatch_length p).2.ge) secpBatch_params.base h1 le_rfl (by omega) (by omega)
    hn (fun p => (hm p).trans (by norm_num)) (indices := fun j => j.val) (fun j => j.2) h3 o false (fun _ => [])
  rw [show 6 * (T.height - 1 + 2) = 12 by omega] at this
  exact ⟨T, h1, h2, this⟩

end Example

end CT
