import Verif.Proofs.ProveGood
import Verif.Proofs.Serialize
import Verif.Spec.Codec
import Verif.Props.Anonymity

/-!
What the Prover of a payment sends, and that its vectors are short enough to be encoded.
-/

namespace CT

variable {B : Bool → Type} [∀ p, Field (B p)] [∀ p, DecidableEq (B p)] {C : ∀ p, SWCurve (B p)}
  [∀ p, Module (B (!p)) (C p).Pt] {L : Nat} {K SK S : Type}

theorem mint_point {F G X : Type} [Field F] [DecidableEq F] [AddCommGroup G] [Module F G] [DecidableEq G] {o : Oracle F G X} {sch : SigScheme K SK S F} {g : Gens G}
    (hg : 2 ≤ g.Gs.length) {value : Nat} {pk : K} {pkr : S} {bl : F} {s s' : PState F G X} {a : Coin F S} {c : G} {v : Variable}
    (h : mint o sch g value pk pkr bl s = .ok ((a, c, v), s')) : c = coinPoint g (value : F) (sch.tag (sch.randomizePk pk pkr)) bl := by
  unfold mint at h
  split at h
  · cases h
  rename_i coin c' hn
  unfold coinNew at hn
  simp only at hn
  split at hn
  · cases hn
  simp only [Except.ok.injEq, Prod.mk.injEq] at hn
  obtain ⟨rfl, -⟩ := hn
  split at h
  · cases h
  rename_i V vars s1 hc
  split at h
  · cases h
  split at h
  · cases h
  simp only [Except.ok.injEq, Prod.mk.injEq] at h
  rw [← h.1.2.1, (PState.commitVec_ok hc).1]
  exact msm_wideVec le_rfl hg _ _ _

theorem proveSpend_path {o : ∀ p, SideO C p} {fx : Bool} {prm : SelRerand C} {T : CurveTree L 1 (Pts C)} {rnd : ∀ p, Nat → B (!p)} {coin : Coin (B true) S} {i : Nat}
    {sE sE' : SideP C false} {sO sO' : SideP C true} {path : Path (C false).Pt (C true).Pt} {v : Variable} {nodes : WitPath B (Pts C)}
    (hw : T.witness prm.tree i 0 = .ok nodes) (h : proveSpend o fx prm T rnd coin i sE sO = .ok ((path, v), sE', sO')) : path = proverPath prm nodes rnd := by
  unfold proveSpend treeProverGadget at h
  rw [hw] at h
  split at h
  · cases h
  rename_i path' r s1 s2 hp
  split at h
  · cases h
  split at h
  · split at h
    · simp only [Except.ok.injEq, Prod.mk.injEq] at h
      rw [← h.1.1]
      exact pathProver_path hp
    · cases h
  · cases h

/-- What `pourProvers` sends before the proofs. -/
theorem pourProvers_out {o : ∀ p, SideO C p} {fx : Bool} {prm : SelRerand C} (hg : 2 ≤ (prm.gens false).Gs.length) {sch : SigScheme K SK S (B true)} {T : CurveTree L 1 (Pts C)} {rnd : PourRand C S}
    {in0 in1 : SpendingInfo K SK S (B true)} {val0 val1 : Nat} {pk0 pk1 : K} {sE sE' : SideP C false} {sO sO' : SideP C true}
    {path0 path1 : Path (C false).Pt (C true).Pt} {c0 c1 : (C false).Pt} {nodes0 nodes1 : WitPath B (Pts C)}
    (hw0 : T.witness prm.tree in0.index 0 = .ok nodes0) (hw1 : T.witness prm.tree in1.index 0 = .ok nodes1)
    (h : pourProvers o fx prm sch T rnd in0 in1 val0 pk0 val1 pk1 sE sO = .ok ((path0, path1, c0, c1), sE', sO')) :
    path0 = proverPath prm nodes0 (rnd.path false) ∧ path1 = proverPath prm nodes1 (rnd.path true) ∧
    c0 = coinPoint (F := B (!false)) (prm.gens false) (val0 : B (!false)) (sch.tag (sch.randomizePk pk0 (rnd.pkr false))) (rnd.bl false) ∧
    c1 = coinPoint (F := B (!false)) (prm.gens false) (val1 : B (!false)) (sch.tag (sch.randomizePk pk1 (rnd.pkr true))) (rnd.bl true) := by
  unfold pourProvers at h
  split at h
  · cases h
  rename_i a0 c0' m0 s1 e1
  split at h
  · cases h
  rename_i a1 c1' m1 s2 e2
  split at h
  · cases h
  rename_i p0 v0 s3 u3 e3
  split at h
  · cases h
  rename_i p1 v1 s4 u4 e4
  simp only [Except.ok.injEq, Prod.mk.injEq] at h
  obtain ⟨⟨rfl, rfl, rfl, rfl⟩, -⟩ := h
  exact ⟨proveSpend_path hw0 e3, proveSpend_path hw1 e4, mint_point (F := B (!false)) hg e1, mint_point (F := B (!false)) hg e2⟩

/-- The vectors in a proof of a circuit without second phase are short. -/
theorem prove_fits {F G X : Type} [Field F] [DecidableEq F] [AddCommGroup G] [Module F G] {o : Oracle F G X} {g : Gens G} {rnd : PRand F} {s : PState F G X}
    (hd : s.deferred = []) (hcG : g.capacity ≤ g.Gs.length) (hcH : g.capacity ≤ g.Hs.length) {p : R1CSProof F G} {tr : Transcript F G X}
    (h : prove o g rnd s = .ok (p, tr)) (h64 : nextPow2 s.size < 2 ^ 64) : p.Fits := by
  rw [prove_eq] at h
  split at h
  · cases h
  split at h
  · cases h
  rename_i s2 hs2
  have hs2' : s2.size = s.size := by
    unfold PState.secondPhase PState.createRandomized at hs2
    have hpd : s.pad.deferred = [] := by rw [PState.pad_eq]; exact hd
    simp only [hpd, if_true, Except.ok.injEq] at hs2
    rw [← hs2]
    exact s.pad_size
  obtain ⟨l1, l2, l3⟩ := proveTail_lengths _ _ _ _ _ _ hcG h
  have hk : s2.vecOpen.length ≤ 17 := by
    by_contra hk
    have hc := proveTail_cases o g rnd s.size (s.firstCommitments g rnd) s2 hs2'.ge hcG hcH
    split at hc
    · rw [hc] at h; cases h
    split at hc
    · obtain ⟨m, hc⟩ := hc
      rw [hc] at h; cases h
    · obtain ⟨-, -, -, hc, -⟩ := hc
      obtain ⟨m, hc⟩ := hc (by omega)
      rw [hc] at h; cases h
  have hlog : (nextPow2 s2.size).log2 < 2 ^ 64 := by
    rw [hs2']
    refine lt_of_le_of_lt ?_ h64
    exact Nat.log2_le_self _
  exact ⟨by unfold Fits; rw [l1]; unfold opDegree; omega, by unfold Fits; rw [l2]; exact hlog, by unfold Fits; rw [l3]; exact hlog⟩

/-- If a proof is made, the next power of two of the size is at most the capacity. -/
theorem prove_capacity {F G X : Type} [Field F] [DecidableEq F] [AddCommGroup G] [Module F G] {o : Oracle F G X} {g : Gens G} {rnd : PRand F} {s : PState F G X}
    (hd : s.deferred = []) {p : R1CSProof F G} {tr : Transcript F G X} (h : prove o g rnd s = .ok (p, tr)) : nextPow2 s.size ≤ g.capacity := by
  rw [prove_eq] at h
  split at h
  · cases h
  split at h
  · cases h
  rename_i s2 hs2
  have hs2' : s2.size = s.size := by
    unfold PState.secondPhase PState.createRandomized at hs2
    have hpd : s.pad.deferred = [] := by rw [PState.pad_eq]; exact hd
    simp only [hpd, if_true, Except.ok.injEq] at hs2
    rw [← hs2]
    exact s.pad_size
  by_contra hc
  unfold proveTail at h
  rw [hs2'] at h
  simp only [if_pos (Nat.lt_of_not_le hc)] at h
  cases h

/-- The whole Pour is short. -/
theorem pour_fits {o : ∀ p, SideO C p} {fx : Bool} {prm : SelRerand C} (hg : 2 ≤ (prm.gens false).Gs.length) {sch : SigScheme K SK S (B true)} {T : CurveTree L 1 (Pts C)} {rnd : PourRand C S}
    {in0 in1 : SpendingInfo K SK S (B true)} {val0 val1 : Nat} {pk0 pk1 : K} {sE sE' : SideP C false} {sO sO' : SideP C true}
    {path0 path1 : Path (C false).Pt (C true).Pt} {c0 c1 : (C false).Pt} {nodes0 nodes1 : WitPath B (Pts C)} {P0 P1 : (C false).Pt}
    (hw0 : T.witness prm.tree in0.index 0 = .ok nodes0) (hw1 : T.witness prm.tree in1.index 0 = .ok nodes1)
    (hT0 : T.PathTo prm.tree 0 nodes0 ⟨false, P0⟩) (hT1 : T.PathTo prm.tree 0 nodes1 ⟨false, P1⟩)
    (h : pourProvers o fx prm sch T rnd in0 in1 val0 pk0 val1 pk1 sE sO = .ok ((path0, path1, c0, c1), sE', sO')) (hh : T.height / 2 < 2 ^ 64)
    {pE : R1CSProof (B true) (C false).Pt} {pO : R1CSProof (B false) (C true).Pt} (hE : pE.Fits) (hO : pO.Fits) (k0 k1 : K) :
    Pour.Fits (⟨pE, pO, path0, path1, k0, k1, c0, c1⟩ : PourOf C K) := by
  obtain ⟨rfl, rfl, -, -⟩ := pourProvers_out hg hw0 hw1 h
  obtain ⟨a1, a2⟩ := pathTo_lengths hT0
  obtain ⟨b1, b2⟩ := pathTo_lengths hT1
  have key : ∀ (nodes : WitPath B (Pts C)) (r : ∀ p, Nat → B (!p)), (nodes true).length = (T.height + 1) / 2 → (nodes false).length = T.height / 2 →
      (proverPath prm nodes r).Fits := by
    intro nodes r h1 h2
    refine ⟨?_, ?_⟩
    · unfold Fits proverPath rerandomized
      simp only [List.length_mapIdx]
      omega
    · unfold Fits proverPath rerandomized
      simp only [List.length_dropLast, List.length_mapIdx]
      omega
  exact ⟨hE, hO, key _ _ a1 a2, key _ _ b1 b2⟩

end CT
