import Verif.Proofs.CheatVerify
import Verif.Proofs.Sync
import Verif.Spec.Session

/-! From API calls to the tail of the proof: padding, the second phase, completeness. -/

namespace CT
open Finset
variable {F G X : Type} [Field F]

section Pad
omit [Field F] in
theorem PState.size_of_ge (s : PState F G X) (h : ∀ v ∈ s.vecOpen, v.2.length ≤ s.aL.length) :
    s.size = s.aL.length :=
  le_antisymm (by rw [s.size_eq]; exact foldl_max_le (fun v : F × List F => v.2.length) _ _ _ le_rfl h) s.aL_le_size

theorem PState.padN_eq (k : Nat) (s : PState F G X) :
    s.padN k = { s with aL := s.aL ++ List.replicate k 0, aR := s.aR ++ List.replicate k 0,
                        aO := s.aO ++ List.replicate k 0 } := by
  induction k generalizing s with
  | zero => simp [PState.padN]
  | succ k ih =>
    simp only [PState.padN, PState.allocateMultiplier]
    rw [ih]
    simp [List.replicate_succ]

theorem PState.pad_eq (s : PState F G X) :
    s.pad = { s with aL := s.aL ++ List.replicate (s.size - s.aL.length) 0,
                     aR := s.aR ++ List.replicate (s.size - s.aL.length) 0,
                     aO := s.aO ++ List.replicate (s.size - s.aL.length) 0 } := PState.padN_eq _ _

theorem PState.pad_length (s : PState F G X) : s.pad.aL.length = s.size := by
  rw [PState.pad_eq]; simp; have := s.aL_le_size; omega

theorem PState.pad_size (s : PState F G X) : s.pad.size = s.size := by
  rw [PState.size_of_ge, PState.pad_length]
  intro v hv
  rw [PState.pad_length]
  rw [PState.pad_eq] at hv
  exact s.dim_le_size v hv

omit [Field F] in
theorem VState.padN_eq [Field F] (k : Nat) (s : VState F G X) : s.padN k = { s with numVars := s.numVars + k } := by
  induction k generalizing s with
  | zero => simp [VState.padN]
  | succ k ih =>
    simp only [VState.padN, VState.allocateMultiplier]
    rw [ih]
    simp; omega

theorem pad_zero (l : List F) (k i : Nat) : (l ++ List.replicate k 0).getD i 0 = l.getD i 0 := by
  rw [getD_append', getD_replicate']
  split
  · rfl
  · rw [getD_of_le l _ _ (by omega)]; simp

theorem PState.pad_assignment (s : PState F G X) : s.pad.assignment = s.assignment := by
  rw [PState.pad_eq]
  simp only [PState.assignment, pad_zero]

theorem PState.pad_inv {s : PState F G X} (h : s.Inv) : s.pad.Inv := by
  have hs := s.pad_assignment
  refine ⟨?_, ?_, ?_, ?_⟩
  · rw [PState.pad_eq]; simp [h.lenR]
  · rw [PState.pad_eq]; simp [h.lenO]
  · rw [hs]
    intro i _
    by_cases hi : i < s.aL.length
    · exact h.gates i hi
    · simp only [PState.assignment]
      rw [getD_of_le s.aL _ _ (by omega), getD_of_le s.aO _ _ (by rw [h.lenO]; omega), zero_mul]
  · intro i hi
    rw [PState.pad_eq] at hi
    have := h.pend i hi
    rw [PState.pad_length]; exact lt_of_lt_of_le this s.aL_le_size

end Pad

variable [AddCommGroup G] [Module F G]

theorem Synced.pad {g : Gens G} {s : PState F G X} {t : VState F G X} (h : Synced g s t) :
    Synced g s.pad t.pad := by
  have hk : t.size - t.numVars = s.size - s.aL.length := by rw [h.size, h.stmt.left]
  have ht : t.pad = { t with numVars := t.numVars + (s.size - s.aL.length) } := by
    unfold VState.pad; rw [hk, VState.padN_eq]
  rw [ht, PState.pad_eq]
  refine ⟨⟨h.stmt.constraints, ?_, ?_, ?_, h.stmt.pending, h.stmt.transcript⟩, h.lenV, h.V, h.comms⟩
  · simp [h.stmt.left]
  · simp [h.stmt.right]
  · simp [h.stmt.out]

theorem runCallbacks_synced [DecidableEq F] [DecidableEq G] (o : Oracle F G X) (g : Gens G)
    (ps qs : List (Prog F G X Unit)) (h : List.Forall₂ (SameCalls fun _ _ => True) ps qs) (s s2 : PState F G X)
    (t : VState F G X) (hst : Synced g s t) (hi : s.Inv) (hr : runCallbacksP o ps s = .ok s2) :
    ∃ t2, runCallbacksV o qs t = .ok t2 ∧ Synced g s2 t2 ∧ s2.Inv ∧ s.Ext s2 := by
  induction h generalizing s t with
  | nil =>
    simp only [runCallbacksP, Except.ok.injEq] at hr
    subst hr
    exact ⟨t, rfl, hst, hi, .refl _⟩
  | @cons p q ps qs hpq _ ih =>
    simp only [runCallbacksP] at hr
    cases hp : runP o p s with
    | error e => rw [hp] at hr; simp at hr
    | ok res =>
      obtain ⟨a, s1⟩ := res
      rw [hp] at hr
      obtain ⟨b, t1, hq, -, hst1, hvc, hV, -⟩ := sameCalls_run o hpq hst.stmt hp
      obtain ⟨hi1, he1⟩ := runP_inv o hi hp
      have hsy : Synced g s1 t1 :=
        ⟨hst1, by rw [he1.v, he1.vBlinding]; exact hst.lenV, by rw [hV, he1.v, he1.vBlinding]; exact hst.V,
          by rw [hvc, he1.vecOpen]; exact hst.comms⟩
      obtain ⟨t2, h1, h2, h3, h4⟩ := ih s1 t1 hsy hi1 hr
      exact ⟨t2, by simp only [runCallbacksV, hq]; exact h1, h2, h3, he1.trans h4⟩

/-- The second phase run on both sides. -/
theorem createRandomized_synced [DecidableEq F] [DecidableEq G] (o : Oracle F G X) (g : Gens G)
    (s s2 : PState F G X) (t : VState F G X) (hst : Synced g s t)
    (hd : List.Forall₂ (SameCalls fun _ _ => True) s.deferred t.deferred) (hi : s.Inv)
    (hr : s.createRandomized o = .ok s2) :
    ∃ t2, t.createRandomized o = .ok t2 ∧ Synced g s2 t2 ∧ s2.Inv ∧
      PState.Ext { s with pending := none, deferred := s2.deferred } s2 := by
  unfold PState.createRandomized at hr
  simp only at hr
  by_cases hs : s.deferred = []
  · have ht : t.deferred = [] := by
      rw [hs] at hd; exact List.forall₂_nil_left_iff.1 hd
    rw [if_pos hs] at hr
    simp only [Except.ok.injEq] at hr
    subst hr
    refine ⟨_, by unfold VState.createRandomized; simp only; rw [if_pos ht], ?_, ?_, ?_⟩
    · refine ⟨⟨hst.stmt.constraints, hst.stmt.left, hst.stmt.right, hst.stmt.out, rfl, ?_⟩, hst.lenV, hst.V, hst.comms⟩
      simp [hst.stmt.transcript]
    · exact ⟨hi.lenR, hi.lenO, hi.gates, by simp⟩
    · refine ⟨fun v hv => ⟨by cases v <;> exact hv, by cases v <;> rfl⟩, rfl, rfl, rfl, rfl, le_rfl, [], by simp⟩
  · have ht : t.deferred ≠ [] := by
      intro h; rw [h] at hd; exact hs (List.forall₂_nil_right_iff.1 hd)
    rw [if_neg hs] at hr
    have := runCallbacks_synced o g s.deferred t.deferred hd
      { s with pending := none, deferred := [], transcript := s.transcript ++ [.sep "r1cs-2phase"] } s2
      { t with pending := none, deferred := [], transcript := t.transcript ++ [.sep "r1cs-2phase"] }
      ⟨⟨hst.stmt.constraints, hst.stmt.left, hst.stmt.right, hst.stmt.out, rfl, by simp [hst.stmt.transcript]⟩,
        hst.lenV, hst.V, hst.comms⟩ ⟨hi.lenR, hi.lenO, hi.gates, by simp⟩ hr
    obtain ⟨t2, h1, h2, h3, h4⟩ := this
    refine ⟨t2, by unfold VState.createRandomized; simp only; rw [if_neg ht]; exact h1, h2, h3, ?_⟩
    refine ⟨fun v hv => ?_, h4.v, h4.vBlinding, h4.vecOpen, rfl, h4.len, h4.cs⟩
    have := h4.ext v (by cases v <;> exact hv)
    exact ⟨this.1, this.2.trans (by cases v <;> rfl)⟩

omit [AddCommGroup G] [Module F G] in
/-- Without half-open multiplier an extension keeps the first entries. -/
theorem Ext_take {s s2 : PState F G X} (h : s.Ext s2) (hp : s.pending = none) (hi : s.Inv) (hi2 : s2.Inv) :
    s2.aL.take s.aL.length = s.aL ∧ s2.aR.take s.aL.length = s.aR ∧ s2.aO.take s.aL.length = s.aO := by
  have hl := h.len
  have hr := hi.lenR; have ho := hi.lenO; have hr2 := hi2.lenR; have ho2 := hi2.lenO
  refine ⟨?_, ?_, ?_⟩
  · apply ext_getD 0 (by simp; omega)
    intro i hj
    have hj : i < s.aL.length := by simp at hj; omega
    rw [getD_take, if_pos hj]
    exact (h.ext (.multiplierLeft i) hj).2
  · apply ext_getD 0 (by simp; omega)
    intro i hj
    have hj : i < s.aL.length := by simp at hj; omega
    rw [getD_take, if_pos hj]
    exact (h.ext (.multiplierRight i) ⟨by omega, by simp [hp]⟩).2
  · apply ext_getD 0 (by simp; omega)
    intro i hj
    have hj : i < s.aL.length := by simp at hj; omega
    rw [getD_take, if_pos hj]
    exact (h.ext (.multiplierOutput i) ⟨by omega, by simp [hp]⟩).2

variable [DecidableEq F] [DecidableEq G]

/-- The relation kept by a session. -/
structure SessionInv (g : Gens G) (s : PState F G X) (t : VState F G X) : Prop where
  sync : Synced g s t
  inv : s.Inv
  deferred : List.Forall₂ (SameCalls fun _ _ => True) s.deferred t.deferred

omit [DecidableEq F] [DecidableEq G] in
theorem Session.inv {o : Oracle F G X} {g : Gens G} {s : PState F G X} {t : VState F G X} (h : Session o g s t) :
    SessionInv g s t := by
  induction h with
  | new tr =>
    exact ⟨⟨⟨rfl, rfl, rfl, rfl, rfl, rfl⟩, rfl, rfl, rfl⟩,
      ⟨rfl, rfl, fun i hi => by simp [PState.new] at hi, by simp [PState.new]⟩, .nil⟩
  | commit v bl _ ih =>
    obtain ⟨⟨h1, h2, h3, h4⟩, hi, hd⟩ := ih
    refine ⟨⟨⟨h1.constraints, h1.left, h1.right, h1.out, h1.pending, ?_⟩, ?_, ?_, h4⟩,
      ⟨hi.lenR, hi.lenO, hi.gates, hi.pend⟩, hd⟩
    · simp [PState.commit, VState.commit, h1.transcript]
    · simp [PState.commit, h2]
    · simp [PState.commit, VState.commit, h3]
      rw [List.zipWith_append h2.symm]; rfl
  | @commitVec s t s' v bl V vars _ hc ih =>
    obtain ⟨⟨h1, h2, h3, h4⟩, hi, hd⟩ := ih
    unfold PState.commitVec at hc
    simp only at hc
    split at hc
    · simp at hc
    · simp only [Except.ok.injEq, Prod.mk.injEq] at hc
      obtain ⟨⟨rfl, rfl⟩, rfl⟩ := hc
      refine ⟨⟨⟨h1.constraints, h1.left, h1.right, h1.out, h1.pending, ?_⟩, h2, h3, ?_⟩,
        ⟨hi.lenR, hi.lenO, hi.gates, hi.pend⟩, hd⟩
      · simp [VState.commitVec, h1.transcript]
      · simp [VState.commitVec, h4]
  | @gadget s t s' t' α β R p q a b _ hpq hp hq ih =>
    obtain ⟨hsy, hi, hd⟩ := ih
    obtain ⟨b', t'', hq', -, hst1, hvc, hV, hdf⟩ := sameCalls_run o hpq hsy.stmt hp
    rw [hq] at hq'
    simp only [Except.ok.injEq, Prod.mk.injEq] at hq'
    obtain ⟨rfl, rfl⟩ := hq'
    obtain ⟨hi1, he1⟩ := runP_inv o hi hp
    exact ⟨⟨hst1, by rw [he1.v, he1.vBlinding]; exact hsy.lenV, by rw [hV, he1.v, he1.vBlinding]; exact hsy.V,
          by rw [hvc, he1.vecOpen]; exact hsy.comms⟩, hi1, by rw [hdf, he1.deferred]; exact hd⟩
  | randomized _ hpq ih =>
    obtain ⟨⟨h1, h2, h3, h4⟩, hi, hd⟩ := ih
    refine ⟨⟨⟨h1.constraints, h1.left, h1.right, h1.out, h1.pending, h1.transcript⟩, h2, h3, h4⟩,
      ⟨hi.lenR, hi.lenO, hi.gates, hi.pend⟩, ?_⟩
    exact List.rel_append hd (.cons hpq .nil)

omit [DecidableEq G] in
theorem prove_eq (o : Oracle F G X) (g : Gens G) (rnd : PRand F) (s : PState F G X) :
    prove o g rnd s = if g.capacity < s.size then .error .invalidGeneratorsLength
      else match s.secondPhase o (s.firstCommitments g rnd) with
        | .error e => .error e
        | .ok s2 => proveTail o g rnd s.size (s.firstCommitments g rnd) s2 := by
  have h1 : ({ s.pad with transcript := s.pad.transcript ++ [.num "m" s.pad.v.length] } : PState F G X).size = s.size :=
    s.pad_size
  unfold prove
  simp only
  rw [h1]
  split
  · rfl
  · have hv : s.pad.v = s.v := by rw [PState.pad_eq]
    simp only [PState.secondPhase, PState.firstCommitments, PState.pad_size, hv, List.append_assoc, List.cons_append,
      List.nil_append]
    rfl

theorem complete_core (o : Oracle F G X) (g : Gens G) (rnd : PRand F) (s : PState F G X) (t : VState F G X)
    (h : SessionInv g s t) (hcG : g.capacity ≤ g.Gs.length) (hcH : g.capacity ≤ g.Hs.length)
    (htrue : s.TrueStatement o g rnd)
    {p : R1CSProof F G} {tr : Transcript F G X} (hp : prove o g rnd s = .ok (p, tr))
    (h32 : ∀ s2, s.secondPhase o (s.firstCommitments g rnd) = .ok s2 → nextPow2 s2.size < 2 ^ 32)
    (hne : p.NoIdentity s.vecOpen.length) (r : F) : verify o g r p t = .ok () := by
  rw [prove_eq] at hp
  by_cases hcap : g.capacity < s.size
  · rw [if_pos hcap] at hp; simp at hp
  rw [if_neg hcap] at hp
  cases h2 : s.secondPhase o (s.firstCommitments g rnd) with
  | error e => rw [h2] at hp; simp at hp
  | ok s2 =>
  rw [h2] at hp
  simp only at hp
  set c := s.firstCommitments g rnd with hc
  have hpi := PState.pad_inv h.inv
  have hpl := s.pad_length
  have hsy := h.sync.pad
  have hpv : s.pad.v = s.v := by rw [PState.pad_eq]
  have hpd : s.pad.deferred = s.deferred := by rw [PState.pad_eq]
  have hpo : s.pad.vecOpen = s.vecOpen := by rw [PState.pad_eq]
  have htd : t.pad.deferred = t.deferred := by unfold VState.pad; rw [VState.padN_eq]
  have htV : t.pad.V.length = s.v.length := by rw [hsy.V, List.length_zipWith, hsy.lenV, min_self, hpv]
  have hext : PState.Ext { s.pad with pending := none, deferred := s2.deferred } s2 ∧ s2.Inv ∧ ∃ t2,
      VState.createRandomized o { t.pad with transcript := t.pad.transcript ++ [.num "m" t.pad.V.length] ++
        [.point "A_I1" c.AI, .point "A_O1" c.AO, .point "S1" c.S] } = .ok t2 ∧ Synced g s2 t2 := by
    obtain ⟨t2, a1, a2, a3, a4⟩ := createRandomized_synced o g
      { s.pad with transcript := s.pad.transcript ++ [.num "m" s.v.length,
        .point "A_I1" c.AI, .point "A_O1" c.AO, .point "S1" c.S] } s2
      { t.pad with transcript := t.pad.transcript ++ [.num "m" t.pad.V.length] ++
        [.point "A_I1" c.AI, .point "A_O1" c.AO, .point "S1" c.S] }
      ⟨⟨hsy.stmt.constraints, hsy.stmt.left, hsy.stmt.right, hsy.stmt.out, hsy.stmt.pending,
        by simp [hsy.stmt.transcript, htV]⟩, hsy.lenV, hsy.V, hsy.comms⟩
      (by simp only [hpd, htd]; exact h.deferred) ⟨hpi.lenR, hpi.lenO, hpi.gates, hpi.pend⟩ h2
    refine ⟨⟨fun v hv => ?_, a4.v, a4.vBlinding, a4.vecOpen, a4.deferred, a4.len, a4.cs⟩, a3, t2, a1, a2⟩
    have := a4.ext v (by cases v <;> exact hv)
    exact ⟨this.1, this.2.trans (by cases v <;> rfl)⟩
  obtain ⟨hx, hi2, t2, hv2, hsy2⟩ := hext
  have htk := Ext_take hx rfl ⟨hpi.lenR, hpi.lenO, hpi.gates, by simp⟩ hi2
  simp only [hpl] at htk
  have hvo : s2.vecOpen = s.vecOpen := hx.vecOpen.trans hpo
  have hlen2 : s.size ≤ s2.aL.length := by rw [← hpl]; exact hx.len
  have hsz : s2.aL.length = s2.size := (s2.size_of_ge (by
    intro v hv; rw [hvo] at hv; exact le_trans (s.dim_le_size v hv) hlen2)).symm
  have hR : s.pad.aR.length = s.size := by rw [hpi.lenR, hpl]
  have hO : s.pad.aO.length = s.size := by rw [hpi.lenO, hpl]
  rw [← cheatTail_nil] at hp
  obtain ⟨e1, e2, e3, hacc⟩ := cheatTail_verifies o g rnd [] s.size c s2 t2 hsy2 hcG hcH hsz (by omega)
    (by intro v hv; rw [hvo] at hv; exact s.dim_le_size v hv) (by simp)
    (by
      rw [htk.1, htk.2.1, hc]
      show msm _ _ = _
      rw [s.pad_size, msm_cons, msm_append _ _ _ _ (by simp; omega)]
      abel)
    (by
      rw [htk.2.2, hc]
      show msm _ _ = _
      rw [s.pad_size, msm_cons]
      simp)
    (by
      rw [hc]
      show msm _ _ = _
      rw [s.pad_size, msm_cons, msm_append _ _ _ _ (by simp; omega)]
      abel)
    (by
      intro i hi
      have := hi2.gates i (by omega)
      simp only [PState.assignment] at this
      rw [this]; simp)
    (htrue s2 h2) (h32 s2 h2) hp
  obtain ⟨tup, ht1, ht2⟩ := hacc (by rw [hvo]; exact hne.T) hne.L hne.R r
  unfold verify
  rw [verificationTuple_eq]
  have hhead : verifyHead o p t = .ok (s.size, t2) := by
    unfold verifyHead
    simp only
    rw [if_neg (by simp only [not_or]; exact ⟨hne.AI1, hne.AO1, hne.S1⟩), e1, e2, e3, hv2]
    simp only
    rw [hsy.size, s.pad_size]
  rw [hhead]
  simp only
  rw [ht1]
  exact ht2

end CT
