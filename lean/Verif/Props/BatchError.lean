import Verif.Proofs.PaymentError
import Verif.Props.Batch
import Verif.Props.Verification
import Mathlib.FieldTheory.Finite.Basic

/-!
# C10: the error of batch verification

Counted over the weights `batch_verify` draws (one for each proof after the first), and over the random scalars the Verifiers draw for the single proofs. Everything here is about proofs of equal
padded size; for others see `C10_mixed_sizes_forgery`.
-/

namespace CT
open Finset
variable {F G X : Type} [Field F] [Fintype F] [DecidableEq F] [AddCommGroup G] [Module F G] [DecidableEq G]

omit [Field F] [Fintype F] [DecidableEq F] in
theorem ofFn_update {n : Nat} (f : Fin n → F) (j : Fin n) (c : F) : (List.ofFn f).set j c = List.ofFn (Function.update f j c) := by
  apply List.ext_getElem
  · simp
  · intro i h1 h2
    rw [List.getElem_set, List.getElem_ofFn, List.getElem_ofFn, Function.update_apply]
    by_cases h : (j : Nat) = i
    · subst h; simp
    · rw [if_neg h, if_neg (fun e => h (by rw [← e]))]

/-- **C10**, the error: if some proof is not accepted on its own, at most a fraction `1 / q` of the weights makes the batch accepted. -/
theorem C10_invalid_fraction_partial (o : Oracle F G X) (g : Gens G) (items : List (Item F G X)) (k : Nat)
    (hk : ∀ i ∈ items, i.proof.ipp.L.length = k ∧ i.proof.ipp.R.length = k) (h : ∃ i ∈ items, ¬ i.accepted o g) :
    Fintype.card F * {ws : Fin (items.length - 1) → F | verifyItems o g (List.ofFn ws) items = .ok ()}.ncard ≤ Fintype.card (Fin (items.length - 1) → F) := by
  rcases C10_invalid_rejected_partial o g items k hk h with h0 | ⟨j, hj, h1⟩
  · have : {ws : Fin (items.length - 1) → F | verifyItems o g (List.ofFn ws) items = .ok ()} = ∅ := by
      ext ws
      simpa using h0 (List.ofFn ws)
    rw [this]; simp
  · refine ncard_one _ ⟨j, by omega⟩ fun f hf v hv => ?_
    simp only [Set.mem_ofPred_eq] at hf hv
    refine h1 (List.ofFn f) v (f ⟨j, by omega⟩) (by simp; omega) ?_ ?_
    · rw [show (List.ofFn f).set j v = List.ofFn (Function.update f ⟨j, by omega⟩ v) from ofFn_update f ⟨j, by omega⟩ v]; exact hv
    · rw [show (List.ofFn f).set j (f ⟨j, by omega⟩) = List.ofFn (Function.update f ⟨j, by omega⟩ (f ⟨j, by omega⟩)) from ofFn_update f ⟨j, by omega⟩ _,
        Function.update_eq_self]
      exact hf

/-- Proofs with their Verifiers, and the random scalars the Verifiers draw. -/
def drawnItems (ps : List (R1CSProof F G × VState F G X)) (rs : Fin ps.length → F) : List (Item F G X) := List.ofFn fun j => ⟨ps[j].1, ps[j].2, rs j⟩

/-- **C10**, all the randomness of the Verifiers together: a batch of proofs of equal padded size in which some proof does not pass the checks of the paper is accepted with probability at
most `2 / q`. -/
theorem C10_batch_error_partial (o : Oracle F G X) (g : Gens G) (hG : g.capacity ≤ g.Gs.length) (hH : g.capacity ≤ g.Hs.length)
    (ps : List (R1CSProof F G × VState F G X)) (k : Nat) (hk : ∀ p ∈ ps, p.1.ipp.L.length = k ∧ p.1.ipp.R.length = k) (h : ∃ p ∈ ps, ¬ PaperAccepts o g p.1 p.2) :
    Fintype.card F * {ω : (Fin ps.length → F) × (Fin (ps.length - 1) → F) | verifyItems o g (List.ofFn ω.2) (drawnItems ps ω.1) = .ok ()}.ncard ≤
      2 * Fintype.card ((Fin ps.length → F) × (Fin (ps.length - 1) → F)) := by
  obtain ⟨p, hp, hbad⟩ := h
  obtain ⟨j, hj, rfl⟩ := List.mem_iff_getElem.1 hp
  refine ncard_stages _ {rs | verify o g (rs ⟨j, hj⟩) ps[j].1 ps[j].2 = .ok ()} (d := 1) (c := 1) ?_ fun rs hrs => ?_
  · rw [one_mul]
    refine ncard_one _ ⟨j, hj⟩ fun f hf v hv => ?_
    simp only [Set.mem_ofPred_eq, Function.update_self] at hf hv
    obtain ⟨h1, h2⟩ := hk _ hp
    exact C41_other_proofs_rejected o g ps[j].1 ps[j].2 (h1.trans h2.symm) hG hH hbad _ _ hv hf
  · rw [one_mul]
    have hlen : (drawnItems ps rs).length = ps.length := by simp [drawnItems]
    have hc := C10_invalid_fraction_partial o g (drawnItems ps rs) k
      (by
        intro i hi
        obtain ⟨l, rfl⟩ := (List.mem_ofFn' _ _).1 hi
        exact hk _ (List.getElem_mem l.2))
      ⟨⟨ps[j].1, ps[j].2, rs ⟨j, hj⟩⟩, (List.mem_ofFn' _ _).2 ⟨⟨j, hj⟩, rfl⟩, fun ha => hrs ha⟩
    rw [hlen] at hc
    exact hc

omit [Fintype F] in
/-- **C10**, honest proofs: a batch of proofs of equal padded size which all pass the checks of the paper is accepted for all random choices. -/
theorem C10_batch_complete_partial (o : Oracle F G X) (g : Gens G) (hG : g.capacity ≤ g.Gs.length) (hH : g.capacity ≤ g.Hs.length)
    (ps : List (R1CSProof F G × VState F G X)) (hne : ps ≠ []) (k : Nat) (hk : ∀ p ∈ ps, p.1.ipp.L.length = k ∧ p.1.ipp.R.length = k)
    (h : ∀ p ∈ ps, PaperAccepts o g p.1 p.2) (rs : Fin ps.length → F) (ws : List F) : verifyItems o g ws (drawnItems ps rs) = .ok () := by
  refine C10_all_valid_accepted_partial o g ws (drawnItems ps rs) k ?_ ?_ ?_
  · intro he
    have := congrArg List.length he
    simp only [drawnItems, List.length_ofFn, List.length_nil] at this
    exact hne (List.length_eq_zero_iff.1 this)
  · intro i hi
    obtain ⟨l, rfl⟩ := (List.mem_ofFn' _ _).1 hi
    exact hk _ (List.getElem_mem l.2)
  · intro i hi
    obtain ⟨l, rfl⟩ := (List.mem_ofFn' _ _).1 hi
    obtain ⟨h1, h2⟩ := hk _ (List.getElem_mem l.2)
    exact C41_paper_proofs_accepted o g _ _ (h1.trans h2.symm) hG hH (h _ (List.getElem_mem l.2)) _

/-! Non-vacuity, over the field with 1009 elements: an honest proof for one multiplication gate, and a batch of it with the same proof with another `t_x`. -/
section Example

instance fact1009 : Fact (Nat.Prime 1009) := ⟨by norm_num⟩

def beOracle : Oracle (ZMod 1009) (ZMod 1009) Unit := fun t => t.length + 2
def beGens : Gens (ZMod 1009) := ⟨⟨1, 10⟩, 4, [2, 3, 5, 7], [11, 13, 17, 19]⟩
def beRand : PRand (ZMod 1009) :=
  ⟨1, 2, 3, fun i => i + 1, fun i => 2 * i + 1, 4, 5, 6, fun i => i + 3, fun i => i + 7, fun i => i + 100⟩
def beProg : Prog (ZMod 1009) (ZMod 1009) Unit Unit := do
  let _ ← multiply (LC.ofVar (.committed 0)) (LC.ofVar (.committed 1))
def beP := okOr (runP beOracle beProg (((PState.new []).commit beGens 2 7).2.commit beGens 3 8).2)
def beV := okOr (runV beOracle beProg (((VState.new []).commit (beGens.pc.commit (2 : ZMod 1009) 7)).2.commit (beGens.pc.commit (3 : ZMod 1009) 8)).2)
def beProof : R1CSProof (ZMod 1009) (ZMod 1009) := (okOr (prove beOracle beGens beRand beP.2)).1
def beBad : R1CSProof (ZMod 1009) (ZMod 1009) := { beProof with tx := beProof.tx + 1 }

example : (∀ p ∈ [(beProof, beV.2), (beBad, beV.2)], p.1.ipp.L.length = 0 ∧ p.1.ipp.R.length = 0) ∧ beGens.capacity ≤ beGens.Gs.length ∧
    beGens.capacity ≤ beGens.Hs.length ∧ PaperAccepts beOracle beGens beProof beV.2 ∧ ¬ PaperAccepts beOracle beGens beBad beV.2 := by
  have h1 : beProof.ipp.L.length = 0 ∧ beProof.ipp.R.length = 0 := by decide +kernel
  have h2 : beBad.ipp.L.length = 0 ∧ beBad.ipp.R.length = 0 := h1
  have hG : beGens.capacity ≤ beGens.Gs.length := by decide
  have hH : beGens.capacity ≤ beGens.Hs.length := by decide
  refine ⟨?_, hG, hH, ?_, ?_⟩
  · intro p hp
    rcases List.mem_cons.1 hp with rfl | hp
    · exact h1
    · rw [List.mem_singleton.1 hp]; exact h2
  · by_contra h
    exact zero_ne_one (C41_other_proofs_rejected beOracle beGens _ _ (h1.1.trans h1.2.symm) hG hH h (0 : ZMod 1009) 1 (by decide +kernel) (by decide +kernel))
  · intro h
    have h0 : verify beOracle beGens 0 beBad beV.2 = .error .verificationError := by decide +kernel
    have := C41_paper_proofs_accepted beOracle beGens _ _ (h2.1.trans h2.2.symm) hG hH h 0
    rw [h0] at this
    simp at this

end Example

end CT
