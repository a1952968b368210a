import Verif.Props.MembershipError
import Verif.Props.Gadgets
import Verif.Proofs.PourSession

/-!
# C72 for single gadgets

How often an honest proof about one committed value fails: that the value is below `2 ^ n`, or that it is an element of a public set;
and how often an honest proof that a new coin is well-formed fails.
-/

namespace CT

section
variable {F G X : Type} [Field F] [Fintype F] [DecidableEq F] [AddCommGroup G] [Module F G] [DecidableEq G]

omit [Fintype F] [DecidableEq F] [DecidableEq G] in
/-- A fresh Prover with one committed value. -/
theorem committed_good (g : Gens G) (tr : Transcript F G X) (v bl : F) :
    ((PState.new tr).commit g v bl).2.Good ∧ ((PState.new tr).commit g v bl).2.HasLC (LC.ofVar (.committed 0)) ∧
      ((PState.new tr).commit g v bl).2.assignment.eval (LC.ofVar (.committed 0)) = v := by
  refine ⟨⟨⟨rfl, rfl, by intro i hi; simp [PState.new, PState.commit] at hi, by simp [PState.new, PState.commit]⟩, by simp [PState.new, PState.commit],
    by simp [PState.new, PState.commit]⟩, PState.hasLC_ofVar ?_, ?_⟩
  · simp [PState.Has, PState.commit, PState.new]
  · simp [Assignment.val, PState.assignment, PState.commit, PState.new]

/-- An honest proof that a gadget is satisfied by one committed value. -/
theorem committed_rejected {o : Oracle F G X} {g : Gens G} (hcG : g.capacity ≤ g.Gs.length) (hcH : g.capacity ≤ g.Hs.length) (hB : g.pc.B ≠ 0) (hb : g.pc.Bbl ≠ 0)
    (tr : Transcript F G X) (v bl : F) {p q : Prog F G X Unit} (hpq : SameCalls Eq p q) {m c : Nat} (hcost : Costs p m 0 c)
    (h : Complete o p ((PState.new tr).commit g v bl).2 fun _ _ => True) (hcap : nextPow2 m ≤ g.capacity) (h31 : m ≤ 2 ^ 31) {Q : Nat} (hQ : Q ≤ Fintype.card F) :
    ∃ s t, runP o p ((PState.new tr).commit g v bl).2 = .ok ((), s) ∧ runV o q ((VState.new tr).commit (g.pc.commit v bl)).2 = .ok ((), t) ∧ RejectedAtMost g s t 200 Q := by
  have hses : Session o g ((PState.new tr).commit g v bl).2 ((VState.new tr).commit (g.pc.commit v bl)).2 := Session.commit v bl (.new tr)
  obtain ⟨⟨⟩, s, h1, h2, h3, -⟩ := h
  obtain ⟨⟨⟩, t, l1, -⟩ := sameCalls_run o hpq hses.inv.sync.stmt h1
  refine ⟨s, t, h1, l1, ?_⟩
  have hv : s.vecOpen = [] := h3.vecOpen
  have hl : s.aL.length = m := by
    have := (hcost.runP o h1).multipliers
    simpa [PState.metrics, PState.commit, PState.new, spare] using this
  exact rejectedAtMost hcG hcH hB hb (hses.gadget hpq h1 l1) h3.deferred h2
    (PState.size_of_max hl.le (by simp [hv]) (.inl hl)) hcap h31 (by simp [hv]) hQ

/-- **C72** for range proofs: whatever the value below `2 ^ n`, `n ≤ 64`, and the blinding, a Prover that commits to the value and adds the range gadget has a proof that is rejected
with probability at most `200 / Q`. -/
theorem C72_range {g : Gens G} (hcG : g.capacity ≤ g.Gs.length) (hcH : g.capacity ≤ g.Hs.length) (hB : g.pc.B ≠ 0) (hb : g.pc.Bbl ≠ 0)
    (o : Oracle F G X) (tr : Transcript F G X) {n v : Nat} (hn : n ≤ 64) (hv : v < 2 ^ n) (bl : F) (hcap : nextPow2 n ≤ g.capacity) {Q : Nat} (hQ : Q ≤ Fintype.card F) :
    ∃ s t, runP o (rangeProof (LC.ofVar (.committed 0)) (some v) n) ((PState.new tr).commit g (v : F) bl).2 = .ok ((), s) ∧
      runV o (rangeProof (LC.ofVar (.committed 0)) none n) ((VState.new tr).commit (g.pc.commit (v : F) bl)).2 = .ok ((), t) ∧ RejectedAtMost g s t 200 Q := by
  obtain ⟨h1, h2, h3⟩ := committed_good g tr (v : F) bl
  exact committed_rejected hcG hcH hB hb tr (v : F) bl (sync_rangeProof _ _ _) (costs_rangeProof _ _ _) (complete_rangeProof h1 hn hv h2 h3) hcap
    (hn.trans (by norm_num)) hQ

/-- **C72** for membership in a public set: whatever the set, the element and the blinding, a Prover that commits to the element and adds the select gadget has a proof that is rejected
with probability at most `200 / Q`. -/
theorem C72_select {g : Gens G} (hcG : g.capacity ≤ g.Gs.length) (hcH : g.capacity ≤ g.Hs.length) (hB : g.pc.B ≠ 0) (hb : g.pc.Bbl ≠ 0)
    (o : Oracle F G X) (tr : Transcript F G X) {xs : List F} {v : F} (hv : v ∈ xs) (bl : F) (hcap : nextPow2 (xs.length - 1) ≤ g.capacity) (h31 : xs.length ≤ 2 ^ 31)
    {Q : Nat} (hQ : Q ≤ Fintype.card F) :
    ∃ s t, runP o (select (LC.ofVar (.committed 0)) (xs.map LC.const)) ((PState.new tr).commit g v bl).2 = .ok ((), s) ∧
      runV o (select (LC.ofVar (.committed 0)) (xs.map LC.const)) ((VState.new tr).commit (g.pc.commit v bl)).2 = .ok ((), t) ∧ RejectedAtMost g s t 200 Q := by
  obtain ⟨h1, h2, h3⟩ := committed_good g tr v bl
  have hc := costs_select (F := F) (G := G) (X := X) (LC.ofVar (.committed 0)) (xs.map LC.const)
  rw [List.length_map] at hc
  refine committed_rejected hcG hcH hB hb tr v bl (.refl (fun _ => rfl) _) hc
    (complete_select h1 h2 (by
      intro y hy
      obtain ⟨x, -, rfl⟩ := List.mem_map.1 hy
      exact PState.hasLC_const) ⟨_, List.mem_map_of_mem hv, ?_⟩) hcap (by omega) hQ
  rw [h3, eval_const]

/-- **C72** for the minting of one coin: whatever the amount below `2 ^ 64`, the key and the scalars, `Coin::mint` makes the coin of `Coin::new`, the Verifier's gadget takes its commitment, and the
proof is rejected with probability at most `200 / Q`. -/
theorem C72_mint {K SK S : Type} (sch : SigScheme K SK S F) {g : Gens G} (hcG : g.capacity ≤ g.Gs.length) (hcH : g.capacity ≤ g.Hs.length) (hB : g.pc.B ≠ 0) (hb : g.pc.Bbl ≠ 0)
    (o : Oracle F G X) (tr : Transcript F G X) {value : Nat} (hv : value < 2 ^ 64) (pk : K) (pkr : S) (bl : F) (hcap : 64 ≤ g.capacity) {Q : Nat} (hQ : Q ≤ Fintype.card F) :
    ∃ coin c x s t, coinNew sch g value pk pkr bl = .ok (coin, c) ∧ mint o sch g value pk pkr bl (.new tr) = .ok ((coin, c, x), s) ∧
      verifyMint o c (.new tr) = .ok (x, t) ∧ RejectedAtMost g s t 200 Q := by
  obtain ⟨coin, c, s, t, h1, h2, h3, h4, h5, -⟩ := mint_session (o := o) (sch := sch) (by omega : 2 ≤ g.Gs.length) hv pk pkr bl (.new tr) (new_good' tr)
  have hg := mint_gets h2
  obtain ⟨-, a2, a3, -⟩ := hg.fresh
  exact ⟨coin, c, _, s, t, h1, h2, h3, rejectedAtMost hcG hcH hB hb h4 a3 h5 (hg.size (.inr (by norm_num))) (show nextPow2 64 ≤ _ from hcap) (by norm_num) (by omega) hQ⟩

end

/-- Non-vacuity of `C72_range`: the value 5 in 3 bits on Pallas. -/
example (o : SideO PastaC false) : ∃ s t, runP o (rangeProof (LC.ofVar (.committed 0)) (some 5) 3) ((PState.new []).commit (pastaLarge.gens false) ((5 : Nat) : PastaB (!false)) 7).2 = .ok ((), s) ∧
    runV o (rangeProof (LC.ofVar (.committed 0)) none 3) ((VState.new []).commit ((pastaLarge.gens false).pc.commit ((5 : Nat) : PastaB (!false)) 7)).2 = .ok ((), t) ∧
    RejectedAtMost (F := PastaB (!false)) (pastaLarge.gens false) s t 200 (2 ^ 254) :=
  C72_range (F := PastaB (!false)) (pastaLarge_length false).1.ge (pastaLarge_length false).2.ge (pastaLarge_params.base false) (pastaLarge_params.base false) o [] (by norm_num) (by norm_num) 7
    (show nextPow2 3 ≤ 1024 by decide) (le_trans (by norm_num) (pasta_facts _).1.1.le)

/-- Non-vacuity of `C72_select`: 4 is an element of {3, 4, 9}. -/
example (o : SideO PastaC false) : ∃ s t, runP o (select (LC.ofVar (.committed 0)) ([3, 4, 9].map LC.const)) ((PState.new []).commit (pastaLarge.gens false) (4 : PastaB (!false)) 7).2 = .ok ((), s) ∧
    runV o (select (LC.ofVar (.committed 0)) ([3, 4, 9].map LC.const)) ((VState.new []).commit ((pastaLarge.gens false).pc.commit (4 : PastaB (!false)) 7)).2 = .ok ((), t) ∧
    RejectedAtMost (F := PastaB (!false)) (pastaLarge.gens false) s t 200 (2 ^ 254) :=
  C72_select (F := PastaB (!false)) (xs := [3, 4, 9]) (v := 4) (pastaLarge_length false).1.ge (pastaLarge_length false).2.ge (pastaLarge_params.base false) (pastaLarge_params.base false) o [] (by simp) 7
    (show nextPow2 2 ≤ 1024 by decide) (by simp) (le_trans (by norm_num) (pasta_facts _).1.1.le)

/-- Non-vacuity of `C72_mint`: a coin of amount 9. -/
example (o : SideO PastaC false) (sch : SigScheme UInt8 UInt8 UInt8 (PastaB (!false))) : ∃ coin c x s t, coinNew sch (pastaLarge.gens false) 9 1 2 7 = .ok (coin, c) ∧
    mint o sch (pastaLarge.gens false) 9 1 2 7 (.new []) = .ok ((coin, c, x), s) ∧ verifyMint o c (.new []) = .ok (x, t) ∧
    RejectedAtMost (F := PastaB (!false)) (pastaLarge.gens false) s t 200 (2 ^ 254) :=
  C72_mint (F := PastaB (!false)) sch (pastaLarge_length false).1.ge (pastaLarge_length false).2.ge (pastaLarge_params.base false) (pastaLarge_params.base false) o [] (by norm_num) 1 2 7
    (show 64 ≤ 1024 by decide) (le_trans (by norm_num) (pasta_facts _).1.1.le)

end CT
