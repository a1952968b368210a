import Verif.Proofs.Complete

/-! Acceptance of `cheatProve`. -/

namespace CT
open Finset
variable {F G X : Type} [Field F] [AddCommGroup G] [Module F G] [DecidableEq F] [DecidableEq G]

/-- A dishonest `prove` (one phase): `prove` of `bulletproofs/src/r1cs/prover.rs`, except that `A_O` gets the
additional component `<hO, H>`, which shows up as `y^i * hO_i` in the coefficient of degree `op_degree` of
`r(X)`. With `hO = []` it is the honest `prove`. -/
def cheatProve (o : Oracle F G X) (g : Gens G) (rnd : PRand F) (hO : List F) (s : PState F G X) :
    Except Err (R1CSProof F G × Transcript F G X) :=
  let c1 := s.firstCommitments g rnd
  let c1 : Com G := { c1 with AO := c1.AO + msm (g.Hs.take s.size) hO }
  if g.capacity < s.size then .error .invalidGeneratorsLength
  else match s.secondPhase o c1 with
    | .error e => .error e
    | .ok s2 => cheatTail o g rnd hO s.size c1 s2

omit [DecidableEq G] in
theorem cheatProve_nil (o : Oracle F G X) (g : Gens G) (rnd : PRand F) (s : PState F G X) :
    cheatProve o g rnd [] s = prove o g rnd s := by
  classical
  rw [prove_eq]
  unfold cheatProve
  simp only [msm_nil', add_zero, cheatTail_nil]
  rfl

theorem cheatProve_verifies (o : Oracle F G X) (g : Gens G) (rnd : PRand F) (hO : List F) (s : PState F G X)
    (t : VState F G X) (hsync : Synced g s t) (hds : s.deferred = []) (hdt : t.deferred = [])
    (hcG : g.capacity ≤ g.Gs.length) (hcH : g.capacity ≤ g.Hs.length) (hhO : hO.length ≤ s.aL.length)
    (hlin : ∀ c ∈ s.constraints, s.assignment.eval c = 0)
    (hgate : ∀ i < s.aL.length, s.aL.getD i 0 * s.aR.getD i 0 - s.aO.getD i 0 + lastVec s i * hO.getD i 0 = 0)
    {p : R1CSProof F G} {tr : Transcript F G X} (hp : cheatProve o g rnd hO s = .ok (p, tr))
    (h32 : nextPow2 s.size < 2 ^ 32)
    (hne : p.NoIdentity s.vecOpen.length) (r : F) : verify o g r p t = .ok () := by
  unfold cheatProve at hp
  simp only at hp
  by_cases hcap : g.capacity < s.size
  · rw [if_pos hcap] at hp; simp at hp
  rw [if_neg hcap] at hp
  set c : Com G := { s.firstCommitments g rnd with AO := (s.firstCommitments g rnd).AO + msm (g.Hs.take s.size) hO }
    with hc
  have hpd : s.pad.deferred = [] := by rw [PState.pad_eq]; exact hds
  have htd : t.pad.deferred = [] := by unfold VState.pad; rw [VState.padN_eq]; exact hdt
  have hpl := s.pad_length
  have hps := s.pad_size
  have hsy := hsync.pad
  have hpv : s.pad.v = s.v := by rw [PState.pad_eq]
  have hpo : s.pad.vecOpen = s.vecOpen := by rw [PState.pad_eq]
  have hpc : s.pad.constraints = s.constraints := by rw [PState.pad_eq]
  have htV : t.pad.V.length = s.v.length := by rw [hsy.V, List.length_zipWith, hsy.lenV, min_self, hpv]
  have hlR : s.pad.aR.length = s.size := by rw [hsy.stmt.right, ← hsy.stmt.left, hpl]
  have hlO : s.pad.aO.length = s.size := by rw [hsy.stmt.out, ← hsy.stmt.left, hpl]
  have hle := s.aL_le_size
  unfold PState.secondPhase PState.createRandomized at hp
  simp only [hpd, if_true] at hp
  set s2 : PState F G X := { s.pad with
      transcript := s.pad.transcript ++ [.num "m" s.v.length, .point "A_I1" c.AI, .point "A_O1" c.AO,
        .point "S1" c.S] ++ [.sep "r1cs-1phase"],
      pending := none, deferred := [] } with hs2
  have hp2 : cheatTail o g rnd hO s.size c s2 = .ok (p, tr) := hp
  set t2 : VState F G X := { t.pad with
      transcript := t.pad.transcript ++ [.num "m" t.pad.V.length] ++ [.point "A_I1" c.AI, .point "A_O1" c.AO,
        .point "S1" c.S] ++ [.sep "r1cs-1phase"],
      pending := none } with ht2
  have hsz2 : s2.size = s.size := hps
  have hsy2 : Synced g s2 t2 :=
    ⟨⟨hsy.stmt.constraints, hsy.stmt.left, hsy.stmt.right, hsy.stmt.out, rfl,
        by simp [hs2, ht2, hsy.stmt.transcript, htV]⟩, hsy.lenV, hsy.V, hsy.comms⟩
  have has : s2.assignment = s.assignment := s.pad_assignment
  have hgd : ∀ i, s2.aL.getD i 0 = s.aL.getD i 0 ∧ s2.aR.getD i 0 = s.aR.getD i 0 ∧ s2.aO.getD i 0 = s.aO.getD i 0 :=
    fun i => ⟨congrFun (congrArg Assignment.left has) i, congrFun (congrArg Assignment.right has) i,
      congrFun (congrArg Assignment.out has) i⟩
  obtain ⟨e1, e2, e3, hacc⟩ := cheatTail_verifies o g rnd hO s.size c s2 t2 hsy2 hcG hcH (hpl.trans hsz2.symm)
    (by rw [hsz2])
    (by intro v hv; rw [show s2.vecOpen = s.vecOpen from hpo] at hv; exact s.dim_le_size v hv)
    (le_trans hhO hle)
    (by
      rw [List.take_of_length_le (l := s2.aL) (le_of_eq hpl), List.take_of_length_le (l := s2.aR) (le_of_eq hlR)]
      show msm _ _ = _
      rw [hps, msm_cons, msm_append _ _ _ _ (by simp; omega)]
      abel)
    (by
      rw [List.take_of_length_le (l := s2.aO) (le_of_eq hlO)]
      show msm _ _ + _ = _
      rw [hps, msm_cons])
    (by
      show msm _ _ = _
      rw [hps, msm_cons, msm_append _ _ _ _ (by simp; omega)]
      abel)
    (by
      intro i _
      rw [(hgd i).1, (hgd i).2.1, (hgd i).2.2]
      have hlv : lastVec s2 i = lastVec s i := by unfold lastVec; rw [show s2.vecOpen = s.vecOpen from hpo]
      rw [hlv]
      by_cases hi : i < s.aL.length
      · exact hgate i hi
      · rw [getD_of_le s.aL _ _ (by omega), getD_of_le s.aO _ _ (by rw [hsync.stmt.out, ← hsync.stmt.left]; omega),
          getD_of_le hO _ _ (by omega)]
        ring)
    (by
      intro k hk
      rw [has]
      exact hlin k (hpc ▸ hk))
    (by rw [hsz2]; exact h32) hp2
  obtain ⟨tup, hv1, hv2⟩ := hacc (by rw [show s2.vecOpen = s.vecOpen from hpo]; exact hne.T) hne.L hne.R r
  unfold verify
  rw [verificationTuple_eq]
  have hhead : verifyHead o p t = .ok (s.size, t2) := by
    unfold verifyHead VState.createRandomized
    simp only
    rw [if_neg (by simp only [not_or]; exact ⟨hne.AI1, hne.AO1, hne.S1⟩), e1, e2, e3, if_pos htd]
    simp only
    rw [hsy.size, s.pad_size]
  rw [hhead]
  simp only
  rw [hv1]
  exact hv2

end CT
