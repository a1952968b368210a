import Verif.Proofs.Spike
import Verif.Proofs.CoinCount
import Verif.Proofs.Total
import Verif.Spec.CompletenessError

/-! How often an honest Prover without second phase is rejected. -/

namespace CT
open Finset
set_option linter.unusedSectionVars false
variable {F G X : Type} [Field F] [AddCommGroup G] [Module F G] [DecidableEq F] [DecidableEq G]

/-! ## A run with given challenges -/

/-- When the challenges that are inverted are not zero and no point is the identity, the proof is made and accepted. -/
theorem honest_accepts {o : Oracle F G X} {g : Gens G} (hcG : g.capacity ≤ g.Gs.length) (hcH : g.capacity ≤ g.Hs.length) {s s2 : PState F G X}
    {t t2 : VState F G X} (h : SessionInv g s t) (rnd : PRand F) (e2 : s.secondPhase o (s.firstCommitments g rnd) = .ok s2)
    (htrue : ∀ c ∈ s2.constraints, s2.assignment.eval c = 0) {lg : Nat} (hlg : nextPow2 s2.size = 2 ^ lg) (hcap : 2 ^ lg ≤ g.capacity) (h32 : lg < 32)
    (hmix : ¬ (s2.size - s.size > 0 ∧ s2.vecOpen ≠ [])) (hlab : ¬ ∃ d ∈ tDegrees (opDegree s2.vecOpen.length), tLabelCount ≤ d)
    (hflat : ∀ z, s2.flattened z ≠ none) (k : TailOk g s.size s2 t2)
    (l : s2.aL.take s.size = s.pad.aL ∧ s2.aR.take s.size = s.pad.aR ∧ s2.aO.take s.size = s.pad.aO)
    {y z u x w : F} {us : List F} (hy : y ≠ 0) (hu : ∀ v ∈ us, v ≠ 0) (hus : us.length = lg)
    (hch : HasChallenges o (strategyProof (honestMessages g s.size s2 t2 rnd lg) (honestResponses g s.size s2 t2 rnd lg) y z u x w us) t2 y z u x w us)
    (hid : (strategyProof (honestMessages g s.size s2 t2 rnd lg) (honestResponses g s.size s2 t2 rnd lg) y z u x w us).NoIdentity s.vecOpen.length) :
    HonestAccepted o g rnd s t := by
  set p := strategyProof (honestMessages g s.size s2 t2 rnd lg) (honestResponses g s.size s2 t2 rnd lg) y z u x w us with hp
  have hsz : t2.size = s2.size := k.sync.size
  have hfirst : (⟨p.AI1, p.AO1, p.S1⟩ : Com G) = s.firstCommitments g rnd :=
    (firstOk_iff h rnd (by have := k.le; have : s2.size ≤ 2 ^ lg := by { obtain ⟨K, hK, hK', -⟩ := nextPow2_eq s2.size; omega }; omega) l.1 l.2.1 l.2.2).1 ⟨rfl, rfl, rfl⟩
  have e2' : s.secondPhase o ⟨p.AI1, p.AO1, p.S1⟩ = .ok s2 := by rw [hfirst]; exact e2
  obtain ⟨wt, hwt⟩ : ∃ wt, t2.flattened z = some wt := by
    have := hflat z
    rw [k.sync.flat] at this
    cases hf : t2.flattened z with
    | none => rw [hf] at this; simp at this
    | some wt => exact ⟨wt, rfl⟩
  have hprove : ∃ tr, prove o g rnd s = .ok (p, tr) := by
    have hvl : t2.vecComms.length = s2.vecOpen.length := by rw [k.sync.comms, List.length_map]
    have hvn : t2.vecComms ≠ [] ↔ s2.vecOpen ≠ [] := by rw [← List.length_pos_iff, ← List.length_pos_iff, hvl]
    have hlg' : nextPow2 t2.size = 2 ^ lg := by rw [hsz, hlg]
    have hlen := honestStart_len k rnd hlg' (by omega) (by omega) y z u x w wt hwt
    have hck : honestCheck s.size t2 y z u x w = (⟨y, z, u, x, w⟩ : Guess F).check s.size t2 wt := by simp [honestCheck, hwt]
    have hus' := hch.us
    rw [show p.ipp.L.length = lg by simp [hp, strategyProof, hus]] at hus'
    have hN : (honestCheck s.size t2 y z u x w).N = 2 ^ lg := hlg'
    obtain ⟨tr, htr⟩ := ippLoop_of_honest o (w • g.pc.B) lg
      { honestStart g (honestCheck s.size t2 y z u x w) s2 rnd with t := absorbedW p t2 ++ [.sep "ipp v1", .num "n" (2 ^ lg)] } us hlen hus hu hus'
    refine ⟨tr, (prove_iff_real (c := ⟨y, z, u, x, w⟩) hcG h e2' k l ⟨us, hch⟩ hwt hy rnd tr).2 ⟨by omega, by rw [hsz, hvn]; exact hmix, by rw [hvl]; exact hlab, ?_, ?_⟩⟩
    · rw [← hck]; exact honest_head g s.size s2 t2 rnd lg y z u x w us
    · rw [← hck]
      exact (create_honest _ _ _ s2 rnd _ hN (by omega) (by omega) hlen).trans htr
  obtain ⟨tr, hprove⟩ := hprove
  refine ⟨p, tr, hprove, fun r => complete_core _ g rnd s t h hcG hcH ?_ hprove ?_ hid r⟩
  · intro s3 h3
    rw [← hfirst, e2'] at h3
    obtain rfl : s2 = s3 := by simpa using h3
    exact htrue
  · intro s3 h3
    rw [← hfirst, e2'] at h3
    obtain rfl : s2 = s3 := by simpa using h3
    rw [hlg]
    exact Nat.pow_lt_pow_right (by norm_num) h32

/-! ## Challenges from a tape -/

section
variable {n m M : Nat}

theorem roundChallenges_tape (ω : Draw n m M → F) : ∀ (lr : List (G × G)) (t : Transcript F G X),
    roundChallenges (Draw.oracle ω) lr t = (List.range lr.length).map fun j => Draw.tape ω (t.length + 3 * (j + 1)) := by
  intro lr
  induction lr with
  | nil => intro t; rfl
  | cons a lr ih =>
    intro t
    obtain ⟨L, R⟩ := a
    simp only [roundChallenges, ih, List.length_cons, List.range_succ_eq_map, List.map_cons, List.map_map, List.cons.injEq]
    refine ⟨by simp [Draw.oracle], List.map_congr_left fun j _ => ?_⟩
    simp only [Function.comp, List.length_append, List.length_cons, List.length_nil]
    congr 1
    omega

/-- The number of points `T_d`. -/
def tCount (ncomm : Nat) : Nat := (tDegrees (opDegree ncomm)).length

theorem tCount_le (ncomm : Nat) : tCount ncomm ≤ 2 * (opDegree ncomm + 1) + 1 := by
  unfold tCount tDegrees
  exact (List.length_filter_le _ _).trans (by simp)

/-- Challenges of a run whose transcript has length `P` when the second phase is over. -/
def tapeY (P : Nat) (ω : Draw n m M → F) : F := Draw.tape ω (P + 4)
def tapeZ (P : Nat) (ω : Draw n m M → F) : F := Draw.tape ω (P + 5)
def tapeU (P D : Nat) (ω : Draw n m M → F) : F := Draw.tape ω (P + 5 + D + 1)
def tapeX (P D : Nat) (ω : Draw n m M → F) : F := Draw.tape ω (P + 5 + D + 2)
def tapeW (P D : Nat) (ω : Draw n m M → F) : F := Draw.tape ω (P + 5 + D + 6)
def tapeR (P D : Nat) (ω : Draw n m M → F) (j : Nat) : F := Draw.tape ω (P + 5 + D + 8 + 3 * (j + 1))

theorem hasChallenges_tape (ω : Draw n m M → F) {P lg : Nat} {t2 : VState F G X} (hP : t2.transcript.length = P) (p : R1CSProof F G) (hL : p.ipp.L.length = lg)
    (hR : p.ipp.R.length = lg) :
    HasChallenges (Draw.oracle ω) p t2 (tapeY P ω) (tapeZ P ω) (tapeU P (tCount t2.vecComms.length) ω) (tapeX P (tCount t2.vecComms.length) ω)
      (tapeW P (tCount t2.vecComms.length) ω) ((List.range lg).map (tapeR P (tCount t2.vecComms.length) ω)) := by
  have l1 : (absorbedA p t2).length = P + 3 := by simp [absorbedA, hP]
  have l2 : (absorbedT p t2).length = P + 5 + tCount t2.vecComms.length := by simp [absorbedT, l1, tCount]; omega
  have l3 : (absorbedW p t2).length = P + 5 + tCount t2.vecComms.length + 6 := by simp [absorbedW, l2]
  refine ⟨?_, ?_, ?_, ?_, ?_, ?_⟩
  · simp [Draw.oracle, tapeY, l1]
  · simp [Draw.oracle, tapeZ, l1]
  · simp [Draw.oracle, tapeU, l2]
  · simp [Draw.oracle, tapeX, l2]
  · simp [Draw.oracle, tapeW, l3]
  · rw [roundChallenges_tape]
    simp only [List.length_zip, hL, hR, min_self, List.length_append, List.length_cons, List.length_nil, l3]
    refine List.map_congr_left fun j _ => ?_
    unfold tapeR
    congr 1

theorem tape_update (ω : Draw n m M → F) (c : Draw n m M) (v : F) (hc : ∀ l, c ≠ .chal l) (l : Nat) : Draw.tape (Function.update ω c v) l = Draw.tape ω l := by
  unfold Draw.tape
  split
  · rw [Function.update_of_ne (hc _).symm]
  · rfl

variable [Fintype F]

theorem ncard_tape_zero (l : Nat) (hl : l < M) : Fintype.card F * {ω : Draw n m M → F | Draw.tape ω l = 0}.ncard ≤ Fintype.card (Draw n m M → F) := by
  refine ncard_one _ (.chal ⟨l, hl⟩) fun ω hω v hv => ?_
  simp only [Draw.tape, dif_pos hl, Set.mem_ofPred_eq, Function.update_self] at hω hv
  rw [hω, hv]

theorem smul_unique {a B : G} {x y : F} (hB : B ≠ 0) (h1 : a + x • B = 0) (h2 : a + y • B = 0) : y = x := by
  have : (y - x) • B = 0 := by rw [← sub_eq_zero.2 (h2.trans h1.symm)]; module
  exact sub_eq_zero.1 ((smul_eq_zero.1 this).resolve_right hB)

end

/-! ## The points -/

section Points
variable [Fintype F] {M : Nat} {g : Gens G} {n1 : Nat} {s2 : PState F G X} {t2 : VState F G X} {m lg : Nat}

/-- The messages of a run. -/
abbrev coinMessages (g : Gens G) (s2 : PState F G X) (t2 : VState F G X) (lg : Nat) (ω : Draw s2.size m M → F) : Messages F G :=
  honestMessages g s2.size s2 t2 (Draw.prover ω) lg

theorem ncard_AI1 (hb : g.pc.Bbl ≠ 0) :
    Fintype.card F * {ω : Draw s2.size m M → F | (coinMessages g s2 t2 lg ω).AI1 = 0}.ncard ≤ Fintype.card (Draw s2.size m M → F) := by
  refine ncard_one _ (.blind 0) fun ω hω v hv => ?_
  simp only [coinMessages, honestMessages, realPoints, Draw.prover, Set.mem_ofPred_eq, Function.update_self] at hω hv
  rw [add_comm] at hω hv
  exact smul_unique hb hω hv

theorem ncard_AO1 (hb : g.pc.Bbl ≠ 0) :
    Fintype.card F * {ω : Draw s2.size m M → F | (coinMessages g s2 t2 lg ω).AO1 = 0}.ncard ≤ Fintype.card (Draw s2.size m M → F) := by
  refine ncard_one _ (.blind 1) fun ω hω v hv => ?_
  simp only [coinMessages, honestMessages, realPoints, Draw.prover, Set.mem_ofPred_eq, Function.update_self] at hω hv
  rw [add_comm] at hω hv
  exact smul_unique hb hω hv

theorem ncard_S1 (hb : g.pc.Bbl ≠ 0) :
    Fintype.card F * {ω : Draw s2.size m M → F | (coinMessages g s2 t2 lg ω).S1 = 0}.ncard ≤ Fintype.card (Draw s2.size m M → F) := by
  refine ncard_one _ (.blind 2) fun ω hω v hv => ?_
  have e1 : ∀ i, Function.update ω (.blind 2) v (.sL i) = ω (.sL i) := fun i => Function.update_of_ne (by simp) _ _
  have e2 : ∀ i, Function.update ω (.blind 2) v (.sR i) = ω (.sR i) := fun i => Function.update_of_ne (by simp) _ _
  simp only [coinMessages, honestMessages, realPoints, Draw.prover, Set.mem_ofPred_eq, Function.update_self, e1, e2] at hω hv
  rw [add_comm] at hω hv
  exact smul_unique hb hω hv

theorem ncard_T (hb : g.pc.Bbl ≠ 0) (P : Nat) (d : Nat) (hm : m = 2 * (opDegree t2.vecComms.length + 1) + 1) (hd : d < m) (hne : d ≠ opDegree t2.vecComms.length) :
    Fintype.card F * {ω : Draw s2.size m M → F | ((coinMessages g s2 t2 lg ω).T (tapeY P ω) (tapeZ P ω)).getD d 0 = 0}.ncard ≤ Fintype.card (Draw s2.size m M → F) := by
  have key : ∀ ω : Draw s2.size m M → F, ∀ y z, ((coinMessages g s2 t2 lg ω).T y z).getD d 0 =
      (tpOf (honestCheck s2.size t2 y z 0 0 0) s2 (Draw.prover ω) s2.size).getD d 0 • g.pc.B + ω (.tau ⟨d, hd⟩) • g.pc.Bbl := by
    intro ω y z
    have hop : (honestCheck s2.size t2 y z 0 0 0).op = opDegree t2.vecComms.length := by unfold Check.op; simp [honestCheck, Guess.check]
    simp only [coinMessages, honestMessages, realPoints, hop]
    rw [getD_map_range, if_pos (by omega), if_neg hne]
    simp [PedersenGens.commit, Draw.prover, hd]
  refine ncard_one _ (.tau ⟨d, hd⟩) fun ω hω v hv => ?_
  have e1 : ∀ i, Function.update ω (.tau ⟨d, hd⟩) v (.sL i) = ω (.sL i) := fun i => Function.update_of_ne (by simp) _ _
  have e2 : ∀ i, Function.update ω (.tau ⟨d, hd⟩) v (.sR i) = ω (.sR i) := fun i => Function.update_of_ne (by simp) _ _
  have e3 : ∀ ch : Check F G, tpOf ch s2 (Draw.prover (Function.update ω (.tau ⟨d, hd⟩) v)) s2.size = tpOf ch s2 (Draw.prover ω) s2.size := by
    intro ch
    simp only [tpOf, lpOf, rpOf, sLOf, sROf, Draw.prover, e1, e2]
  simp only [Set.mem_ofPred_eq, key, tapeY, tapeZ, tape_update ω (.tau ⟨d, hd⟩) v (by simp), e3, Function.update_self] at hω hv
  exact smul_unique hb hω hv

/-- The state in which the inner product argument starts, as a function of an entry of `s_L` and an entry of `s_R`. -/
theorem spike_start (k : TailOk g n1 s2 t2) (hn : n1 = s2.size) (hlg : nextPow2 t2.size = 2 ^ lg) (hG : 2 ^ lg ≤ g.Gs.length) (hH : 2 ^ lg ≤ g.Hs.length)
    (y z u x w : F) (wt : Weights F) (hwt : t2.flattened z = some wt) (ω : Draw s2.size m M → F) (i j : Fin s2.size) :
    SpikeState (fun α β => honestStart g (honestCheck s2.size t2 y z u x w) s2 (Draw.prover (Function.update (Function.update ω (.sL i) α) (.sR j) β))) (2 ^ lg) i j
      (x ^ (opDegree t2.vecComms.length + 1)) (x ^ (opDegree t2.vecComms.length + 1) * y ^ (j : Nat)) := by
  subst hn
  have hN : (honestCheck s2.size t2 y z u x w).N = 2 ^ lg := hlg
  have hc : CheckOf s2.size t2 (honestCheck s2.size t2 y z u x w) := ⟨rfl, rfl, rfl, rfl, z, by simp [honestCheck, Guess.check, hwt]⟩
  have hle : s2.size ≤ (honestCheck s2.size t2 y z u x w).N := hc.size_le k
  have hop : (honestCheck s2.size t2 y z u x w).op = opDegree t2.vecComms.length := by unfold Check.op; simp [honestCheck, Guess.check]
  obtain ⟨w1, w2, -⟩ := wt_shape k hc
  have hlen := fun rnd => honestStart_len k rnd hlg hG hH y z u x w wt hwt
  set ch := honestCheck s2.size t2 y z u x w with hch
  have hx : ch.x = x := rfl
  have hy : ch.y = y := rfl
  have hn1 : ch.n1 = s2.size := rfl
  have eL : ∀ rnd : PRand F, ∀ l < 2 ^ lg, (honestStart g ch s2 rnd).a.getD l 0 =
      if l < s2.size then baseL ch s2 l + x ^ (opDegree t2.vecComms.length + 1) * rnd.sL1 l else 0 := by
    intro rnd l hl
    simp only [honestStart]
    rw [lEval_eq ch s2 rnd s2.size (hc.comms_len k) (by rw [hn1]) s2.dim_le_size hle, getD_append']
    simp only [List.length_map, List.length_range]
    split
    · rename_i h
      rw [getD_map_range, if_pos h, hx, hop]
      congr 2
      simp [sLOf, hn1, h]
    · rw [getD_replicate']; split <;> rfl
  have eR : ∀ rnd : PRand F, ∀ l < 2 ^ lg, (honestStart g ch s2 rnd).b.getD l 0 =
      if l < s2.size then baseR ch s2 l + x ^ (opDegree t2.vecComms.length + 1) * (y ^ l * rnd.sR1 l) else
        ((List.range (ch.N - s2.size)).map fun i => - (expIter ch.y ch.N).getD (s2.size + i) 0).getD (l - s2.size) 0 := by
    intro rnd l hl
    simp only [honestStart]
    rw [rEval_eq ch s2 rnd s2.size (hc.comms_len k) w1 w2 hle, getD_append']
    simp only [List.length_map, List.length_range]
    split
    · rename_i h
      rw [getD_map_range, if_pos h, hx, hop, hy]
      congr 3
      simp [sROf, hn1, h]
    · rfl
  have uL : ∀ α β, ∀ l, (Draw.prover (Function.update (Function.update ω (.sL i) α) (.sR j) β)).sL1 l =
      (Draw.prover (Function.update ω (.sL i) 0)).sL1 l + if l = i then α else 0 := by
    intro α β l
    simp only [Draw.prover]
    by_cases hl : l < s2.size
    · simp only [dif_pos hl]
      rw [Function.update_of_ne (by simp)]
      by_cases hli : l = i
      · subst hli; simp
      · have : (⟨l, hl⟩ : Fin s2.size) ≠ i := fun h => hli (congrArg Fin.val h)
        rw [Function.update_of_ne (by simpa using this), Function.update_of_ne (by simpa using this), if_neg hli, add_zero]
    · simp only [dif_neg hl]
      rw [if_neg (by have := i.2; omega), add_zero]
  have uR : ∀ α β, ∀ l, (Draw.prover (Function.update (Function.update ω (.sL i) α) (.sR j) β)).sR1 l =
      (Draw.prover (Function.update ω (.sR j) 0)).sR1 l + if l = j then β else 0 := by
    intro α β l
    simp only [Draw.prover]
    by_cases hl : l < s2.size
    · simp only [dif_pos hl]
      by_cases hli : l = j
      · subst hli; simp
      · have : (⟨l, hl⟩ : Fin s2.size) ≠ j := fun h => hli (congrArg Fin.val h)
        rw [Function.update_of_ne (by simpa using this), Function.update_of_ne (by simp), Function.update_of_ne (by simpa using this), if_neg hli, add_zero]
    · simp only [dif_neg hl]
      rw [if_neg (by have := j.2; omega), add_zero]
  have aOnly : ∀ α β, (honestStart g ch s2 (Draw.prover (Function.update (Function.update ω (.sL i) α) (.sR j) β))).a =
      (honestStart g ch s2 (Draw.prover (Function.update (Function.update ω (.sL i) α) (.sR j) 0))).a := by
    intro α β
    refine ext_getD 0 (by rw [(hlen _).2.2.1, (hlen _).2.2.1]) fun l hl => ?_
    rw [(hlen _).2.2.1] at hl
    rw [eL _ l hl, eL _ l hl, uL, uL]
  have bOnly : ∀ α β, (honestStart g ch s2 (Draw.prover (Function.update (Function.update ω (.sL i) α) (.sR j) β))).b =
      (honestStart g ch s2 (Draw.prover (Function.update (Function.update ω (.sL i) 0) (.sR j) β))).b := by
    intro α β
    refine ext_getD 0 (by rw [(hlen _).2.2.2, (hlen _).2.2.2]) fun l hl => ?_
    rw [(hlen _).2.2.2] at hl
    rw [eR _ l hl, eR _ l hl, uR, uR]
  refine ⟨⟨_, _, (hlen (Draw.prover ω)).1, (hlen (Draw.prover ω)).2.1, fun α β => ⟨rfl, rfl⟩⟩, ⟨_, ?_, aOnly⟩, ⟨_, ?_, bOnly⟩⟩
  · refine ⟨fun l => if l < s2.size then baseL ch s2 l + x ^ (opDegree t2.vecComms.length + 1) * (Draw.prover (Function.update ω (.sL i) 0)).sL1 l else 0,
      fun α => ⟨(hlen _).2.2.1, fun l hl => ?_⟩⟩
    rw [eL _ l hl, uL]
    beta_reduce
    by_cases h1 : l < s2.size
    · rw [if_pos h1, if_pos h1]; split <;> ring
    · rw [if_neg h1, if_neg h1, if_neg (by have := i.2; omega), add_zero]
  · refine ⟨fun l => if l < s2.size then baseR ch s2 l + x ^ (opDegree t2.vecComms.length + 1) * (y ^ l * (Draw.prover (Function.update ω (.sR j) 0)).sR1 l) else
        ((List.range (ch.N - s2.size)).map fun i => - (expIter ch.y ch.N).getD (s2.size + i) 0).getD (l - s2.size) 0,
      fun β => ⟨(hlen _).2.2.2, fun l hl => ?_⟩⟩
    rw [eR _ l hl, uR]
    beta_reduce
    by_cases h1 : l < s2.size
    · rw [if_pos h1, if_pos h1]
      split
      · rename_i e; subst e; ring
      · ring
    · rw [if_neg h1, if_neg h1, if_neg (by have := j.2; omega), add_zero]

/-- The challenges of the inner product argument. -/
abbrev tapeRs (P D lg : Nat) {n : Nat} (ω : Draw n m M → F) : List F := (List.range lg).map (tapeR P D ω)

/-- The challenges that are inverted, `x` and `w` are not zero. -/
def TapeOk (P D lg : Nat) {n : Nat} (ω : Draw n m M → F) : Prop :=
  tapeY P ω ≠ 0 ∧ tapeX P D ω ≠ 0 ∧ tapeW P D ω ≠ 0 ∧ ∀ v ∈ tapeRs P D lg ω, v ≠ 0

theorem half_lt {N lg j : Nat} (hlg : nextPow2 N = 2 ^ lg) (hj : j < lg) : 2 ^ (lg - 1 - j) < N := by
  have h1 := ((nextPow2_iff _ _).1 hlg).2 (by omega)
  have h2 : 2 ^ (lg - 1 - j) ≤ 2 ^ (lg - 1) := Nat.pow_le_pow_right (by norm_num) (by omega)
  have h3 : 2 ^ lg = 2 * 2 ^ (lg - 1) := by rw [← pow_succ']; congr 1; omega
  omega

theorem ncard_LR (k : TailOk g n1 s2 t2) (hn : n1 = s2.size) (hlg : nextPow2 t2.size = 2 ^ lg) (hG : 2 ^ lg ≤ g.Gs.length) (hH : 2 ^ lg ≤ g.Hs.length)
    (hB : g.pc.B ≠ 0) (hflat : ∀ z, t2.flattened z ≠ none) (P D j : Nat) (hj : j < lg) :
    Fintype.card F * {ω : Draw s2.size m M → F | TapeOk P D lg ω ∧ (coinMessages g s2 t2 lg ω).L (tapeY P ω) (tapeZ P ω) (tapeU P D ω) (tapeX P D ω) (tapeW P D ω)
        ((tapeRs P D lg ω).take j) = 0}.ncard ≤ 2 * Fintype.card (Draw s2.size m M → F) ∧
    Fintype.card F * {ω : Draw s2.size m M → F | TapeOk P D lg ω ∧ (coinMessages g s2 t2 lg ω).R (tapeY P ω) (tapeZ P ω) (tapeU P D ω) (tapeX P D ω) (tapeW P D ω)
        ((tapeRs P D lg ω).take j) = 0}.ncard ≤ 2 * Fintype.card (Draw s2.size m M → F) := by
  have hsz : t2.size = s2.size := k.sync.size
  have hhalf : 2 ^ (lg - 1 - j) < s2.size := by rw [← hsz]; exact half_lt hlg hj
  have hpos : 0 < s2.size := lt_of_le_of_lt (Nat.zero_le _) hhalf
  have hupd : ∀ (i i' : Fin s2.size) (ω : Draw s2.size m M → F) (α β : F) (l : Nat),
      Draw.tape (Function.update (Function.update ω (.sL i) α) (.sR i') β) l = Draw.tape ω l := by
    intro i i' ω α β l
    rw [tape_update _ _ _ (by simp), tape_update _ _ _ (by simp)]
  have hupdR : ∀ (i i' : Fin s2.size) (ω : Draw s2.size m M → F) (α β : F),
      tapeR P D (Function.update (Function.update ω (.sL i) α) (.sR i') β) = tapeR P D ω := by
    intro i i' ω α β
    funext l
    exact hupd i i' ω α β _
  have hpre : ∀ ω : Draw s2.size m M → F, ((tapeRs P D lg ω).take j).length = j := by intro ω; simp; omega
  have htk : ∀ ω : Draw s2.size m M → F, TapeOk P D lg ω → ∀ v ∈ (tapeRs P D lg ω).take j, v ≠ 0 := fun ω h v hv => h.2.2.2 v (List.mem_of_mem_take hv)
  constructor
  · refine ncard_bilinear _ (.sL ⟨0, hpos⟩) (.sR ⟨2 ^ (lg - 1 - j), hhalf⟩) (fun ω => (coinMessages g s2 t2 lg ω).L (tapeY P ω) (tapeZ P ω) (tapeU P D ω) (tapeX P D ω)
      (tapeW P D ω) ((tapeRs P D lg ω).take j)) (fun ω hω => hω.2) (by simp) fun ω hω => ?_
    obtain ⟨wt, hwt⟩ := Option.ne_none_iff_exists'.1 (hflat (tapeZ P ω))
    have hs := spike_start k hn hlg hG hH (tapeY P ω) (tapeZ P ω) (tapeU P D ω) (tapeX P D ω) (tapeW P D ω) wt hwt ω ⟨0, hpos⟩ ⟨2 ^ (lg - 1 - j), hhalf⟩
    obtain ⟨r, a, b, Q, hQ, e⟩ := SpikeState.honestL ((tapeRs P D lg ω).take j) (by rw [hpre]; exact hj) (by rw [hpre]; exact hs) (htk ω hω.1)
      (pow_ne_zero _ hω.1.2.1) (mul_ne_zero (pow_ne_zero _ hω.1.2.1) (pow_ne_zero _ hω.1.1)) (smul_ne_zero hω.1.2.2.1 hB)
    refine ⟨r, a, b, Q, hQ, fun α β => ?_⟩
    rw [← e α β]
    simp only [coinMessages, honestMessages, tapeRs, tapeY, tapeZ, tapeU, tapeX, tapeW, hupd, hupdR]
  · refine ncard_bilinear _ (.sL ⟨2 ^ (lg - 1 - j), hhalf⟩) (.sR ⟨0, hpos⟩) (fun ω => (coinMessages g s2 t2 lg ω).R (tapeY P ω) (tapeZ P ω) (tapeU P D ω) (tapeX P D ω)
      (tapeW P D ω) ((tapeRs P D lg ω).take j)) (fun ω hω => hω.2) (by simp) fun ω hω => ?_
    obtain ⟨wt, hwt⟩ := Option.ne_none_iff_exists'.1 (hflat (tapeZ P ω))
    have hs := spike_start k hn hlg hG hH (tapeY P ω) (tapeZ P ω) (tapeU P D ω) (tapeX P D ω) (tapeW P D ω) wt hwt ω ⟨2 ^ (lg - 1 - j), hhalf⟩ ⟨0, hpos⟩
    obtain ⟨r, a, b, Q, hQ, e⟩ := SpikeState.honestR ((tapeRs P D lg ω).take j) (by rw [hpre]; exact hj) (by rw [hpre]; exact hs) (htk ω hω.1)
      (pow_ne_zero _ hω.1.2.1) (mul_ne_zero (pow_ne_zero _ hω.1.2.1) (pow_ne_zero _ hω.1.1)) (smul_ne_zero hω.1.2.2.1 hB)
    refine ⟨r, a, b, Q, hQ, fun α β => ?_⟩
    rw [← e α β]
    simp only [coinMessages, honestMessages, tapeRs, tapeY, tapeZ, tapeU, tapeX, tapeW, hupd, hupdR]

theorem ncard_or {Ω : Type} [Finite Ω] {A B : Set Ω} {Q T a b : Nat} (hA : Q * A.ncard ≤ a * T) (hB : Q * B.ncard ≤ b * T) : Q * (A ∪ B).ncard ≤ (a + b) * T := by
  calc _ ≤ Q * (A.ncard + B.ncard) := Nat.mul_le_mul_left _ (Set.ncard_union_le A B)
    _ ≤ _ := by rw [Nat.mul_add, Nat.add_mul]; omega

/-- The choices for which a challenge is zero or a point is the identity. -/
theorem ncard_bad {n : Nat} (hn2 : n = s2.size) (k : TailOk g n1 s2 t2) (hn : n1 = s2.size) (hlg : nextPow2 t2.size = 2 ^ lg) (hG : 2 ^ lg ≤ g.Gs.length) (hH : 2 ^ lg ≤ g.Hs.length)
    (hB : g.pc.B ≠ 0) (hb : g.pc.Bbl ≠ 0) (hflat : ∀ z, t2.flattened z ≠ none) (hm : m = 2 * (opDegree t2.vecComms.length + 1) + 1) (P D : Nat)
    (hM : P + 5 + D + 8 + 3 * lg < M) :
    Fintype.card F * {ω : Draw n m M → F | ¬ (TapeOk P D lg ω ∧ (strategyProof (honestMessages g n s2 t2 (Draw.prover ω) lg)
        (honestResponses g n s2 t2 (Draw.prover ω) lg) (tapeY P ω) (tapeZ P ω) (tapeU P D ω) (tapeX P D ω) (tapeW P D ω) (tapeRs P D lg ω)).NoIdentity
          t2.vecComms.length)}.ncard ≤ completenessLoss t2.vecComms.length lg * Fintype.card (Draw n m M → F) := by
  subst hn2
  set C := Fintype.card (Draw s2.size m M → F) with hC
  have b1 : Fintype.card F * {ω : Draw s2.size m M → F | (coinMessages g s2 t2 lg ω).AI1 = 0}.ncard ≤ 1 * C := by rw [one_mul]; exact ncard_AI1 hb
  have b2 : Fintype.card F * {ω : Draw s2.size m M → F | (coinMessages g s2 t2 lg ω).AO1 = 0}.ncard ≤ 1 * C := by rw [one_mul]; exact ncard_AO1 hb
  have b3 : Fintype.card F * {ω : Draw s2.size m M → F | (coinMessages g s2 t2 lg ω).S1 = 0}.ncard ≤ 1 * C := by rw [one_mul]; exact ncard_S1 hb
  have b4 : Fintype.card F * {ω : Draw s2.size m M → F | tapeY P ω = 0}.ncard ≤ 1 * C := by rw [one_mul]; exact ncard_tape_zero _ (by omega)
  have b5 : Fintype.card F * {ω : Draw s2.size m M → F | tapeX P D ω = 0}.ncard ≤ 1 * C := by rw [one_mul]; exact ncard_tape_zero _ (by omega)
  have b6 : Fintype.card F * {ω : Draw s2.size m M → F | tapeW P D ω = 0}.ncard ≤ 1 * C := by rw [one_mul]; exact ncard_tape_zero _ (by omega)
  have b7 := ncard_union_bound (Fintype.card F) C (fun j : Fin lg => {ω : Draw s2.size m M → F | tapeR P D ω j = 0}) (fun _ => 1)
    (fun j => by rw [one_mul]; exact ncard_tape_zero _ (by have := j.2; omega))
  have b8 := ncard_union_bound (Fintype.card F) C (fun d : Fin m => {ω : Draw s2.size m M → F | (d : Nat) ≠ opDegree t2.vecComms.length ∧
      ((coinMessages g s2 t2 lg ω).T (tapeY P ω) (tapeZ P ω)).getD d 0 = 0}) (fun _ => 1) (fun d => by
        rw [one_mul]
        by_cases hd : (d : Nat) = opDegree t2.vecComms.length
        · simp [hd]
        · simp only [hd, ne_eq, not_false_eq_true, true_and]
          exact ncard_T hb P d hm d.2 hd)
  have b9 := ncard_union_bound (Fintype.card F) C (fun j : Fin lg => {ω : Draw s2.size m M → F | TapeOk P D lg ω ∧ (coinMessages g s2 t2 lg ω).L (tapeY P ω) (tapeZ P ω)
      (tapeU P D ω) (tapeX P D ω) (tapeW P D ω) ((tapeRs P D lg ω).take j) = 0}) (fun _ => 2) (fun j => (ncard_LR k hn hlg hG hH hB hflat P D j j.2).1)
  have b10 := ncard_union_bound (Fintype.card F) C (fun j : Fin lg => {ω : Draw s2.size m M → F | TapeOk P D lg ω ∧ (coinMessages g s2 t2 lg ω).R (tapeY P ω) (tapeZ P ω)
      (tapeU P D ω) (tapeX P D ω) (tapeW P D ω) ((tapeRs P D lg ω).take j) = 0}) (fun _ => 2) (fun j => (ncard_LR k hn hlg hG hH hB hflat P D j j.2).2)
  have hall := ncard_or b1 (ncard_or b2 (ncard_or b3 (ncard_or b4 (ncard_or b5 (ncard_or b6 (ncard_or b7 (ncard_or b8 (ncard_or b9 b10))))))))
  have hsum : 1 + (1 + (1 + (1 + (1 + (1 + (∑ _j : Fin lg, 1 + (∑ _d : Fin m, 1 + (∑ _j : Fin lg, 2 + ∑ _j : Fin lg, 2)))))))) = completenessLoss t2.vecComms.length lg := by
    simp [completenessLoss, hm]; ring
  rw [hsum] at hall
  refine (Nat.mul_le_mul_left _ (Set.ncard_le_ncard fun ω hω => ?_)).trans hall
  by_contra hout
  simp only [Set.mem_union, Set.mem_iUnion, Set.mem_ofPred_eq, not_or, not_exists, not_and] at hout
  obtain ⟨h1, h2, h3, h4, h5, h6, h7, h8, h9, h10⟩ := hout
  have hT : TapeOk P D lg ω := by
    refine ⟨h4, h5, h6, fun v hv => ?_⟩
    obtain ⟨j, hj, rfl⟩ := List.mem_map.1 hv
    exact h7 ⟨j, List.mem_range.1 hj⟩
  refine hω ⟨hT, ⟨h1, h2, h3, fun d hd hne => ?_, fun Q hQ => ?_, fun Q hQ => ?_⟩⟩
  · have hlen : d < m := by
      simp only [strategyProof, honestMessages, realPoints, List.length_map, List.length_range] at hd
      have hop : (honestCheck s2.size t2 (tapeY P ω) (tapeZ P ω) 0 0 0).op = opDegree t2.vecComms.length := by unfold Check.op; simp [honestCheck, Guess.check]
      rw [hop] at hd
      omega
    exact h8 ⟨d, hlen⟩ hne
  · obtain ⟨j, hj, rfl⟩ := List.mem_map.1 hQ
    have hj : j < lg := by simpa using hj
    exact h9 ⟨j, hj⟩ hT
  · obtain ⟨j, hj, rfl⟩ := List.mem_map.1 hQ
    have hj : j < lg := by simpa using hj
    exact h10 ⟨j, hj⟩ hT

end Points

/-! ## The whole run -/

/-- A Prover without second phase, for any first commitments. -/
theorem onePhase_state {s : PState F G X} (hd : s.deferred = []) (o : Oracle F G X) (c : Com G) :
    s.secondPhase o c = .ok { s.pad with pending := none, transcript := s.pad.transcript ++ [.num "m" s.v.length, .point "A_I1" c.AI, .point "A_O1" c.AO, .point "S1" c.S] ++
      [.sep "r1cs-1phase"] } := by
  have hpd : s.pad.deferred = [] := by rw [PState.pad_eq]; exact hd
  unfold PState.secondPhase PState.createRandomized
  simp only [hpd, if_true]

theorem onePhase_vstate {t : VState F G X} (hd : t.deferred = []) (o : Oracle F G X) (c : Com G) :
    VState.createRandomized o { t.pad with transcript := t.pad.transcript ++ [.num "m" t.pad.V.length] ++ [.point "A_I1" c.AI, .point "A_O1" c.AO, .point "S1" c.S] } =
      .ok { t.pad with pending := none, transcript := t.pad.transcript ++ [.num "m" t.pad.V.length] ++ [.point "A_I1" c.AI, .point "A_O1" c.AO, .point "S1" c.S] ++
        [.sep "r1cs-1phase"] } := by
  have hpd : t.pad.deferred = [] := by unfold VState.pad; rw [VState.padN_eq]; exact hd
  unfold VState.createRandomized
  simp only [hpd, if_true]

theorem honest_error [Fintype F] {g : Gens G} (hcG : g.capacity ≤ g.Gs.length) (hcH : g.capacity ≤ g.Hs.length) (hB : g.pc.B ≠ 0) (hb : g.pc.Bbl ≠ 0)
    {s : PState F G X} {t : VState F G X} (h : SessionInv g s t) (hd : s.deferred = []) (htrue : ∀ c ∈ s.constraints, s.assignment.eval c = 0) (hin : s.InCircuit)
    {lg : Nat} (hlg : nextPow2 s.size = 2 ^ lg) (hcap : 2 ^ lg ≤ g.capacity) (h32 : lg < 32) (h17 : s.vecOpen.length ≤ 17) {m M : Nat}
    (hm : m = 2 * (opDegree s.vecOpen.length + 1) + 1) (hM : s.transcript.length + m + 18 + 3 * lg < M) :
    Fintype.card F * {ω : Draw s.size m M → F | ¬ HonestAccepted (Draw.oracle ω) g (Draw.prover ω) s t}.ncard ≤
      completenessLoss s.vecOpen.length lg * Fintype.card (Draw s.size m M → F) := by
  have htd : t.deferred = [] := by
    have := h.deferred.length_eq
    rw [hd] at this
    exact List.length_eq_zero_iff.1 (by simpa using this.symm)
  have hps : s.pad.vecOpen = s.vecOpen := by rw [PState.pad_eq]
  have hcons : s.pad.constraints = s.constraints := by rw [PState.pad_eq]
  -- every choice of the first commitments
  have tail : ∀ (o : Oracle F G X) (c : Com G), TailOk g s.size
      { s.pad with pending := none, transcript := s.pad.transcript ++ [.num "m" s.v.length, .point "A_I1" c.AI, .point "A_O1" c.AO, .point "S1" c.S] ++ [.sep "r1cs-1phase"] }
      { t.pad with pending := none, transcript := t.pad.transcript ++ [.num "m" t.pad.V.length] ++ [.point "A_I1" c.AI, .point "A_O1" c.AO, .point "S1" c.S] ++
        [.sep "r1cs-1phase"] } ∧ s.pad.aL.take s.size = s.pad.aL ∧ s.pad.aR.take s.size = s.pad.aR ∧ s.pad.aO.take s.size = s.pad.aO := by
    intro o c
    obtain ⟨t2, a1, k, l⟩ := h.tail (onePhase_state hd o c) (by
      intro e he
      have he' : e ∈ s.constraints := by rw [← hcons]; exact he
      rw [← htrue e he']
      exact congrArg (fun a => Assignment.eval a e) s.pad_assignment)
    rw [onePhase_vstate htd o c] at a1
    obtain rfl := Except.ok.inj a1
    exact ⟨k, l⟩
  set S2 : PState F G X := { s.pad with pending := none, transcript := s.pad.transcript ++ [.num "m" s.v.length, .point "A_I1" 0, .point "A_O1" 0, .point "S1" 0] ++
    [.sep "r1cs-1phase"] } with hS2
  set T2 : VState F G X := { t.pad with pending := none, transcript := t.pad.transcript ++ [.num "m" t.pad.V.length] ++ [.point "A_I1" 0, .point "A_O1" 0, .point "S1" 0] ++
        [.sep "r1cs-1phase"] } with hT2
  have k2 : TailOk g s.size S2 T2 := (tail (fun _ => 0) ⟨0, 0, 0⟩).1
  have hsz : S2.size = s.size := s.pad_size
  have hvl : T2.vecComms.length = s.vecOpen.length := by
    rw [k2.sync.comms, List.length_map, show S2.vecOpen = s.pad.vecOpen from rfl, hps]
  have hflatS : ∀ z, S2.flattened z ≠ none := by
    intro z
    rw [← Option.isSome_iff_ne_none, PState.flattened_isSome]
    intro c hc term ht
    have hc' : c ∈ s.constraints := by rw [← hcons]; exact hc
    have hh := hin c hc' term ht
    have hl : s.aL.length ≤ S2.aL.length := by
      change _ ≤ s.pad.aL.length
      rw [PState.pad_eq]; simp
    have hv : S2.v = s.v := by change s.pad.v = _; rw [PState.pad_eq]
    have ho : S2.vecOpen = s.vecOpen := hps
    rw [hv, ho]
    obtain ⟨v, x⟩ := term
    cases v with
    | vectorCommit j i => exact hh
    | committed i => exact hh
    | multiplierLeft i => exact lt_of_lt_of_le hh hl
    | multiplierRight i => exact lt_of_lt_of_le hh hl
    | multiplierOutput i => exact lt_of_lt_of_le hh hl
    | one => trivial
  have hflatT : ∀ z, T2.flattened z ≠ none := by
    intro z hz
    have := hflatS z
    rw [k2.sync.flat, hz] at this
    simp at this
  have hlgS : nextPow2 S2.size = 2 ^ lg := by rw [hsz, hlg]
  have hlgT : nextPow2 T2.size = 2 ^ lg := by rw [k2.sync.size, hsz, hlg]
  set P := T2.transcript.length with hP
  set D := tCount T2.vecComms.length with hD
  have hPlen : P = s.transcript.length + 5 := by
    rw [hP, k2.sync.stmt.transcript]
    have : s.pad.transcript = s.transcript := by rw [PState.pad_eq]
    simp [hS2, this]
  have hDle : D ≤ m := by
    rw [hD, hm, hvl]; exact tCount_le _
  have hbad := ncard_bad (m := m) (M := M) (lg := lg) hsz.symm k2 hsz.symm hlgT (by omega) (by omega) hB hb hflatT (by rw [hvl]; exact hm) P D (by omega)
  rw [hvl] at hbad
  refine (Nat.mul_le_mul_left _ (Set.ncard_le_ncard fun ω hω => ?_)).trans hbad
  intro hgood
  apply hω
  obtain ⟨hT, hid⟩ := hgood
  set c := s.firstCommitments g (Draw.prover ω) with hc
  obtain ⟨k, l⟩ := tail (Draw.oracle ω) c
  have hPc : ({ t.pad with pending := none, transcript := t.pad.transcript ++ [.num "m" t.pad.V.length] ++ [.point "A_I1" c.AI, .point "A_O1" c.AO, .point "S1" c.S] ++
        [.sep "r1cs-1phase"] } : VState F G X).transcript.length = P := by simp [hP, hT2]
  exact honest_accepts (lg := lg) (y := tapeY P ω) (z := tapeZ P ω) (u := tapeU P D ω) (x := tapeX P D ω) (w := tapeW P D ω) (us := tapeRs P D lg ω)
    hcG hcH h (Draw.prover ω) (onePhase_state hd (Draw.oracle ω) c) k.lin hlgS hcap h32
    (by
      rintro ⟨h1, -⟩
      have h1' : S2.size - s.size > 0 := h1
      rw [hsz] at h1'
      omega)
    (by
      rintro ⟨d, hd1, hd2⟩
      rw [show PState.vecOpen _ = s.pad.vecOpen from rfl, hps] at hd1
      simp only [tDegrees, List.mem_filter, List.mem_range] at hd1
      unfold tLabelCount at hd2
      unfold opDegree at hd1
      omega) hflatS k l hT.1 hT.2.2.2 (by simp [tapeRs])
    (hasChallenges_tape ω hPc _ (by simp [strategyProof, tapeRs]) (by simp [strategyProof, tapeRs])) hid

omit [DecidableEq F] [DecidableEq G] in
theorem PState.Good.inCircuit {s : PState F G X} (hs : s.Good) : s.InCircuit := by
  intro c hc t ht
  have hh := hs.hasC c hc t ht
  obtain ⟨v, x⟩ := t
  cases v with
  | vectorCommit j i =>
    obtain ⟨c, h4, h5⟩ := hh
    exact ⟨c.2.length, by simp [h4], h5⟩
  | committed i => exact hh
  | multiplierLeft i => exact hh
  | multiplierRight i => exact hs.toInv.lenR ▸ hh.1
  | multiplierOutput i => exact hs.toInv.lenO ▸ hh.1
  | one => trivial

end CT
