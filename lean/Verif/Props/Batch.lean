import Verif.Proofs.Batch
import Verif.Props.Completeness

/-!
# C10: batch verification

`batch_verify` (`verifier.rs:732-802`) is given the tuples that `verification_scalars_and_points` computed for
several proofs. `items` are the proofs, each with its Verifier and the random scalar drawn for it; `rs` are the
random weights of the tuples after the first.
-/

namespace CT
variable {F G X : Type} [Field F] [DecidableEq F] [AddCommGroup G] [Module F G] [DecidableEq G]

/-- A proof to be verified: the proof, the Verifier holding its statement and the random scalar drawn. -/
structure Item (F G X : Type) where
  proof : R1CSProof F G
  verifier : VState F G X
  r : F

/-- Verify each item on its own: `Verifier::verify`. -/
def Item.accepted (o : Oracle F G X) (g : Gens G) (i : Item F G X) : Prop := verify o g i.r i.proof i.verifier = .ok ()

/-- Compute all tuples, then `batch_verify`. An item for which no tuple can be computed ends the run with
that error. -/
def verifyItems (o : Oracle F G X) (g : Gens G) (rs : List F) (items : List (Item F G X)) : Except Err Unit :=
  match items.mapM (fun i => verificationTuple o i.r i.proof i.verifier) with
  | .error e => .error e
  | .ok vs => batchVerify g rs vs

/-- A batch of one behaves like `verify`. -/
theorem C10_singleton (o : Oracle F G X) (g : Gens G) (rs : List F) (i : Item F G X) :
    verifyItems o g rs [i] = verify o g i.r i.proof i.verifier := by
  unfold verifyItems verify
  cases h : verificationTuple o i.r i.proof i.verifier with
  | error e => simp [h, bind, Except.bind]
  | ok v =>
    simp only [List.mapM_cons, List.mapM_nil, h, bind, Except.bind, pure, Except.pure]
    cases rs <;> rfl

theorem mapM_ok {α β : Type} (f : α → Except Err β) (l : List α) (h : ∀ a ∈ l, ∃ b, f a = .ok b) :
    ∃ bs, l.mapM f = .ok bs ∧ bs.length = l.length ∧
      ∀ (i : Nat) (h1 : i < l.length) (h2 : i < bs.length), f l[i] = .ok bs[i] := by
  induction l with
  | nil => exact ⟨[], rfl, rfl, fun i h => by simp at h⟩
  | cons a l ih =>
    obtain ⟨b, hb⟩ := h a (by simp)
    obtain ⟨bs, h1, h2, h3⟩ := ih fun a ha => h a (by simp [ha])
    refine ⟨b :: bs, by simp [List.mapM_cons, hb, h1, bind, Except.bind, pure, Except.pure], by simp [h2], ?_⟩
    intro i hi hi'
    cases i with
    | zero => exact hb
    | succ i => exact h3 i (by simpa using hi) (by simpa using hi')

theorem mapM_err {α β : Type} (f : α → Except Err β) (l : List α) (bs : List β) (h : l.mapM f = .ok bs) :
    ∀ a ∈ l, ∃ b, f a = .ok b := by
  induction l generalizing bs with
  | nil => simp
  | cons a l ih =>
    simp only [List.mapM_cons, bind, Except.bind] at h
    cases ha : f a with
    | error e => rw [ha] at h; simp at h
    | ok b =>
      rw [ha] at h
      simp only at h
      cases hl : l.mapM f with
      | error e => rw [hl] at h; simp at h
      | ok bs' =>
        intro a' ha'
        rcases List.mem_cons.1 ha' with rfl | ha'
        · exact ⟨b, ha⟩
        · exact ih bs' hl a' ha'

theorem verify_of_tuple {o : Oracle F G X} {g : Gens G} {i : Item F G X} {v : Tuple F G}
    (h : verificationTuple o i.r i.proof i.verifier = .ok v) :
    verify o g i.r i.proof i.verifier = checkTuple g v := by
  unfold verify; rw [h]

/-- **C10, completeness for proofs of equal size.** If every proof is accepted on its own, the batch is
accepted for all random weights. Missing: proofs of different sizes (false, see `C10_mixed_sizes_rejected`) and
with surplus `R` points. -/
theorem C10_all_valid_accepted_partial (o : Oracle F G X) (g : Gens G) (rs : List F) (items : List (Item F G X))
    (k : Nat) (hne : items ≠ [])
    (hk : ∀ i ∈ items, i.proof.ipp.L.length = k ∧ i.proof.ipp.R.length = k)
    (h : ∀ i ∈ items, i.accepted o g) : verifyItems o g rs items = .ok () := by
  have hex : ∀ i ∈ items, ∃ v, verificationTuple o i.r i.proof i.verifier = .ok v := by
    intro i hi
    have := h i hi
    unfold Item.accepted verify at this
    cases hv : verificationTuple o i.r i.proof i.verifier with
    | error e => rw [hv] at this; simp at this
    | ok v => exact ⟨v, rfl⟩
  obtain ⟨vs, hm, hl, hvs⟩ := mapM_ok (fun i => verificationTuple o i.r i.proof i.verifier) items hex
  unfold verifyItems
  rw [hm]
  simp only
  have hall : ∀ v ∈ vs, v.Sized (2 ^ k) ∧ checkTuple g v = .ok () := by
    intro v hv
    obtain ⟨i, hi, rfl⟩ := List.mem_iff_getElem.1 hv
    have hi' : i < items.length := hl ▸ hi
    have hmem := List.getElem_mem hi'
    have ht := hvs i hi' hi
    obtain ⟨h1, h2⟩ := hk _ hmem
    refine ⟨h1 ▸ verificationTuple_sized (h1.trans h2.symm) ht, ?_⟩
    rw [← verify_of_tuple ht]
    exact h _ hmem
  cases vs with
  | nil => simp at hl; exact absurd (List.length_eq_zero_iff.1 hl.symm) hne
  | cons v vs =>
    rw [batchVerify_value g (2 ^ k) v vs rs (fun w hw => (hall w hw).1)]
    have hval : ∀ w ∈ v :: vs, g.capacity ≥ 2 ^ k ∧ w.value g (2 ^ k) = 0 := by
      intro w hw
      obtain ⟨h1, h2⟩ := hall w hw
      rw [checkTuple_value g _ _ h1] at h2
      by_cases hc : g.capacity < 2 ^ k
      · rw [if_pos hc] at h2; simp at h2
      · rw [if_neg hc] at h2
        by_cases hz : w.value g (2 ^ k) = 0
        · exact ⟨by omega, hz⟩
        · rw [if_pos hz] at h2; simp at h2
    have hc := (hval v (by simp)).1
    rw [if_neg (by omega), (hval v (by simp)).2, weighted_zero g _ vs rs (fun w hw => (hval w (by simp [hw])).2)]
    simp

/-- **C10, soundness for proofs of equal size.** If some proof is not accepted on its own, then either the
batch is rejected for all weights, or there is one weight such that, whatever the others are, at most one
value of it makes the batch accepted. -/
theorem C10_invalid_rejected_partial (o : Oracle F G X) (g : Gens G) (items : List (Item F G X)) (k : Nat)
    (hk : ∀ i ∈ items, i.proof.ipp.L.length = k ∧ i.proof.ipp.R.length = k)
    (h : ∃ i ∈ items, ¬ i.accepted o g) :
    (∀ rs, verifyItems o g rs items ≠ .ok ()) ∨
    ∃ j, j + 1 < items.length ∧ ∀ (rs : List F) (c c' : F), items.length ≤ rs.length + 1 →
      verifyItems o g (rs.set j c) items = .ok () → verifyItems o g (rs.set j c') items = .ok () → c = c' := by
  cases hm : items.mapM (fun i => verificationTuple o i.r i.proof i.verifier) with
  | error e => exact .inl fun rs => by unfold verifyItems; rw [hm]; simp
  | ok vs =>
    have hb : ∀ rs, verifyItems o g rs items = batchVerify g rs vs := by
      intro rs; unfold verifyItems; rw [hm]
    obtain ⟨vs', hm', hl, hvs⟩ := mapM_ok _ items (mapM_err _ items vs hm)
    obtain rfl : vs = vs' := by rw [hm] at hm'; simpa using hm'
    have hsz : ∀ v ∈ vs, v.Sized (2 ^ k) := by
      intro v hv
      obtain ⟨i, hi, rfl⟩ := List.mem_iff_getElem.1 hv
      have hi' : i < items.length := hl ▸ hi
      obtain ⟨h1, h2⟩ := hk _ (List.getElem_mem hi')
      exact h1 ▸ verificationTuple_sized (h1.trans h2.symm) (hvs i hi' hi)
    cases vs with
    | nil =>
      obtain ⟨i, hi, -⟩ := h
      simp at hl
      rw [List.length_eq_zero_iff.1 hl.symm] at hi; simp at hi
    | cons v vs =>
      have hbv := fun rs => batchVerify_value g (2 ^ k) v vs rs hsz
      by_cases hc : g.capacity < 2 ^ k
      · exact .inl fun rs => by rw [hb, hbv, if_pos hc]; simp
      have hacc : ∀ rs, verifyItems o g rs items = .ok () → v.value g (2 ^ k) + weighted g (2 ^ k) vs rs = 0 := by
        intro rs hr
        rw [hb, hbv, if_neg hc] at hr
        by_contra hz
        rw [if_pos hz] at hr; simp at hr
      -- the invalid item has a non-zero value
      obtain ⟨j, hj, hjz⟩ : ∃ j, ∃ hj : j < (v :: vs).length, (v :: vs)[j].value g (2 ^ k) ≠ 0 := by
        obtain ⟨i, hi, hni⟩ := h
        obtain ⟨j, hj, rfl⟩ := List.mem_iff_getElem.1 hi
        have hj' : j < (v :: vs).length := hl ▸ hj
        refine ⟨j, hj', fun hz => hni ?_⟩
        unfold Item.accepted
        rw [verify_of_tuple (hvs j hj hj'), checkTuple_value g _ _ (hsz _ (List.getElem_mem hj')), if_neg hc]
        simp [hz]
      by_cases hex : ∃ j, ∃ hj : j < vs.length, vs[j].value g (2 ^ k) ≠ 0
      · obtain ⟨j, hj, hz⟩ := hex
        refine .inr ⟨j, by rw [← hl]; simpa using hj, fun rs c c' hlen h1 h2 => ?_⟩
        have e1 := hacc _ h1
        have e2 := hacc _ h2
        have := weighted_set g (2 ^ k) vs rs j hj (by rw [← hl] at hlen; simpa using hlen) c c'
        have e3 : (c - c') • vs[j].value g (2 ^ k) = 0 := by
          rw [← this, ← sub_self (0 : G)]
          nth_rewrite 1 [← e1]
          rw [← e2]
          abel
        by_contra hne
        apply hz
        have := congrArg (fun x => (c - c')⁻¹ • x) e3
        simpa [smul_smul, inv_mul_cancel₀ (sub_ne_zero.2 hne)] using this
      · push Not at hex
        refine .inl fun rs hr => ?_
        have e1 := hacc rs hr
        rw [weighted_zero g _ vs rs (fun w hw => by
          obtain ⟨i, hi, rfl⟩ := List.mem_iff_getElem.1 hw; exact hex i hi), add_zero] at e1
        cases j with
        | zero => exact hjz e1
        | succ j => exact hjz (hex j (by simpa using hj))

/-- An empty batch is a panic. -/
theorem C10_empty_panics (o : Oracle F G X) (g : Gens G) (rs : List F) :
    ∃ m, verifyItems o g rs ([] : List (Item F G X)) = .error (.panic m) := ⟨_, rfl⟩

/-! Two honest proofs of different sizes: the first example of C01 (padded size 2) and a proof for one
multiplication gate (padded size 1). -/
section Example

def c10Prog : Prog ℚ ℚ Unit Unit := do
  let _ ← multiply (LC.ofVar (.committed 0)) (LC.ofVar (.committed 1))

def c10P := okOr (runP exOracle c10Prog c01P1)
def c10V := okOr (runV exOracle c10Prog c01V1)
def c10Small : Item ℚ ℚ Unit := ⟨(okOr (prove exOracle exGens exRand c10P.2)).1, c10V.2, 5⟩
def c10Large : Item ℚ ℚ Unit := ⟨(okOr (prove exOracle exGens exRand c01P3.2)).1, c01V3.2, 7⟩

/-- **C10 is false for proofs of different sizes**: two honest proofs, each accepted on its own, are rejected
as a batch. -/
theorem C10_mixed_sizes_rejected : c10Small.accepted exOracle exGens ∧ c10Large.accepted exOracle exGens ∧
    verifyItems exOracle exGens [3] [c10Small, c10Large] = .error .verificationError ∧
    verifyItems exOracle exGens [3] [c10Large, c10Small] = .error .verificationError := by
  unfold Item.accepted
  decide +kernel

/-- The hypotheses of the two theorems are met: a batch of two valid proofs, and one with an invalid proof. -/
example : (∀ i ∈ [c10Large, { c10Large with r := 2 }], i.proof.ipp.L.length = 1 ∧ i.proof.ipp.R.length = 1) ∧
    (∀ i ∈ [c10Large, { c10Large with r := 2 }], i.accepted exOracle exGens) := by
  unfold Item.accepted
  decide +kernel

def c10Bad : Item ℚ ℚ Unit := { c10Large with proof := { c10Large.proof with tx := c10Large.proof.tx + 1 } }

example : (∀ i ∈ [c10Large, c10Bad], i.proof.ipp.L.length = 1 ∧ i.proof.ipp.R.length = 1) ∧
    (∃ i ∈ [c10Large, c10Bad], ¬ i.accepted exOracle exGens) ∧
    verifyItems exOracle exGens [3] [c10Large, c10Bad] = .error .verificationError := by
  unfold Item.accepted
  decide +kernel

end Example

end CT
