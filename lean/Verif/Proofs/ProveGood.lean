import Verif.Proofs.PourComplete
import Verif.Props.Errors

/-!
When a Prover without second phase makes a proof.
-/

namespace CT

section General
variable {F G X : Type} [Field F] [DecidableEq F] [AddCommGroup G] [Module F G] [DecidableEq G]

omit [DecidableEq G] in
/-- A one-phase Prover in a good state makes a proof, if the generators suffice, there are at most 17 vector commitments and the challenges that
are inverted are not zero. -/
theorem prove_of_good (o : Oracle F G X) (g : Gens G) (rnd : PRand F) {s : PState F G X} (hs : s.Good) (hd : s.deferred = [])
    (hcG : g.capacity ≤ g.Gs.length) (hcH : g.capacity ≤ g.Hs.length) (hcap : nextPow2 s.size ≤ g.capacity) (h17 : s.vecOpen.length ≤ 17)
    (hch : ∀ tr, o (tr ++ [.chal "y"]) ≠ 0 ∧ o (tr ++ [.chal "u"]) ≠ 0) : ∃ p tr, prove o g rnd s = .ok (p, tr) := by
  have hpd : s.pad.deferred = [] := by rw [PState.pad_eq]; exact hd
  have hpo : s.pad.vecOpen = s.vecOpen := by rw [PState.pad_eq]
  have hsz := s.pad_size
  obtain ⟨k, hNk, hnN, -⟩ := nextPow2_eq s.size
  rw [prove_eq, if_neg (by omega)]
  unfold PState.secondPhase PState.createRandomized
  simp only [hpd, if_true]
  set s2 : PState F G X := { s.pad with
      transcript := s.pad.transcript ++ [.num "m" s.v.length, Msg.point "A_I1" (s.firstCommitments g rnd).AI,
        Msg.point "A_O1" (s.firstCommitments g rnd).AO, Msg.point "S1" (s.firstCommitments g rnd).S] ++ [.sep "r1cs-1phase"],
      pending := none, deferred := [] } with hs2
  have h2 : s2.size = s.size := hsz
  have h3 : s2.vecOpen = s.vecOpen := hpo
  have := proveTail_cases o g rnd s.size (s.firstCommitments g rnd) s2 h2.ge hcG hcH
  rw [h2, if_neg (by omega), if_neg (by rintro ⟨h1, -⟩; omega)] at this
  obtain ⟨tr, h1, -⟩ := this
  have hin : s2.InCircuit := by
    intro c hc t ht
    have hc' : c ∈ s.constraints := by
      have : c ∈ s.pad.constraints := hc
      rwa [PState.pad_eq] at this
    have hh := hs.hasC c hc' t ht
    have hl : s.aL.length ≤ s2.aL.length := by
      change _ ≤ s.pad.aL.length
      rw [PState.pad_eq]; simp
    obtain ⟨v, x⟩ := t
    cases v with
    | vectorCommit j i =>
      obtain ⟨c, h4, h5⟩ := hh
      exact ⟨c.2.length, by rw [h3]; simp [h4], h5⟩
    | committed i =>
      have : s2.v = s.v := by change s.pad.v = _; rw [PState.pad_eq]
      change i < s2.v.length
      rw [this]; exact hh
    | multiplierLeft i => exact lt_of_lt_of_le hh hl
    | multiplierRight i => exact lt_of_lt_of_le (hs.toInv.lenR ▸ hh.1) hl
    | multiplierOutput i => exact lt_of_lt_of_le (hs.toInv.lenO ▸ hh.1) hl
    | one => trivial
  rcases h1 hin (hch tr).1 (by rw [h3]; exact h17) with ⟨⟨p, tr'⟩, e⟩ | e
  · exact ⟨p, tr', e⟩
  · obtain ⟨-, tr', h0⟩ := e
    exact absurd h0 (hch tr').2

omit [DecidableEq G] in
/-- What a proof made without second phase says about the sizes. -/
theorem prove_bounds {o : Oracle F G X} {g : Gens G} {rnd : PRand F} {s : PState F G X} (hd : s.deferred = []) (hcG : g.capacity ≤ g.Gs.length)
    (hcH : g.capacity ≤ g.Hs.length) {r : R1CSProof F G × Transcript F G X} (h : prove o g rnd s = .ok r) :
    nextPow2 s.size ≤ g.capacity ∧ s.vecOpen.length ≤ 17 := by
  have hpd : s.pad.deferred = [] := by rw [PState.pad_eq]; exact hd
  have hpo : s.pad.vecOpen = s.vecOpen := by rw [PState.pad_eq]
  have hsz := s.pad_size
  rw [prove_eq] at h
  split at h
  · cases h
  unfold PState.secondPhase PState.createRandomized at h
  simp only [hpd, if_true] at h
  set s2 : PState F G X := { s.pad with
      transcript := s.pad.transcript ++ [.num "m" s.v.length, Msg.point "A_I1" (s.firstCommitments g rnd).AI,
        Msg.point "A_O1" (s.firstCommitments g rnd).AO, Msg.point "S1" (s.firstCommitments g rnd).S] ++ [.sep "r1cs-1phase"],
      pending := none, deferred := [] } with hs2
  have h2 : s2.size = s.size := hsz
  have h3 : s2.vecOpen = s.vecOpen := hpo
  have key := proveTail_cases o g rnd s.size (s.firstCommitments g rnd) s2 h2.ge hcG hcH
  have h' : proveTail o g rnd s.size (s.firstCommitments g rnd) s2 = .ok r := h
  rw [h', h2, h3] at key
  split at key
  · cases key
  rename_i hc
  split at key
  · obtain ⟨m, hm⟩ := key; cases hm
  obtain ⟨tr, -, -, k, -⟩ := key
  refine ⟨by omega, ?_⟩
  by_contra hc
  obtain ⟨m, hm⟩ := k (by omega)
  cases hm

omit [DecidableEq G] in
/-- A Prover in a good state, without second phase, makes the same proofs with its vectors extended by zeros. -/
theorem prove_widen_iff {o : Oracle F G X} {g : Gens G} {rnd : PRand F} {ds : Nat → Nat} {s : PState F G X} (hs : s.Good) (hd : s.deferred = [])
    (hcG : g.capacity ≤ g.Gs.length) (hcH : g.capacity ≤ g.Hs.length) (hds : ∀ j < s.vecOpen.length, ds j ≤ s.size)
    (hch : ∀ tr, o (tr ++ [.chal "y"]) ≠ 0 ∧ o (tr ++ [.chal "u"]) ≠ 0) (r : R1CSProof F G × Transcript F G X) :
    prove o g rnd (s.widen ds) = .ok r ↔ prove o g rnd s = .ok r := by
  refine ⟨fun h => ?_, prove_widen o g rnd ds hd hds⟩
  obtain ⟨h1, h2⟩ := prove_bounds (s := s.widen ds) hd hcG hcH h
  rw [PState.widen_size ds hds] at h1
  rw [PState.widen_length] at h2
  obtain ⟨p, tr, e⟩ := prove_of_good o g rnd hs hd hcG hcH h1 h2 hch
  have := prove_widen o g rnd ds hd hds e
  rw [h] at this
  rw [e, ← this]

end General

end CT
