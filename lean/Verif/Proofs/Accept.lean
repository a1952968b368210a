import Verif.Proofs.VerifyEq
import Verif.Proofs.Opening

/-! From openings of all commitments to the two equations, and from the two equations to acceptance. -/

namespace CT
open Finset
variable {F G X : Type} [Field F] [AddCommGroup G] [Module F G]

/-- The polynomial equation, from openings of `V` and `T`. -/
theorem polyDefect_eq_zero (ch : Check F G) (g : Gens G) (T : List G) (v vbl : Nat → F) (tp tau : Nat → F)
    (tx txBl : F)
    (hV : ∀ i < ch.V.length, ch.V.getD i 0 = v i • g.pc.B + vbl i • g.pc.Bbl)
    (hT : ∀ d < 2 * (ch.op + 1) + 1, d ≠ ch.op → T.getD d 0 = tp d • g.pc.B + tau d • g.pc.Bbl)
    (hop : tp ch.op = ∑ i ∈ range ch.V.length, ch.wt.wV.getD i 0 * v i + (ch.wt.wc + ch.delta))
    (htau : tau ch.op = ∑ i ∈ range ch.V.length, ch.wt.wV.getD i 0 * vbl i)
    (htx : tx = ∑ d ∈ range (2 * (ch.op + 1) + 1), ch.x ^ d * tp d)
    (htb : txBl = ∑ d ∈ range (2 * (ch.op + 1) + 1), ch.x ^ d * tau d) :
    ch.polyDefect g T tx txBl = 0 := by
  unfold Check.polyDefect
  have hmem : ch.op ∈ range (2 * (ch.op + 1) + 1) := by simp; omega
  rw [htx, htb, ← Finset.add_sum_erase _ _ hmem, ← Finset.add_sum_erase _ _ hmem, hop, htau]
  have h1 : ∑ i ∈ range ch.V.length, ch.wt.wV.getD i 0 • ch.V.getD i 0 =
      (∑ i ∈ range ch.V.length, ch.wt.wV.getD i 0 * v i) • g.pc.B +
      (∑ i ∈ range ch.V.length, ch.wt.wV.getD i 0 * vbl i) • g.pc.Bbl := by
    rw [Finset.sum_smul, Finset.sum_smul, ← Finset.sum_add_distrib]
    refine Finset.sum_congr rfl fun i hi => ?_
    rw [hV i (mem_range.1 hi)]; module
  have h2 : ∑ d ∈ (range (2 * (ch.op + 1) + 1)).erase ch.op, ch.x ^ d • T.getD d 0 =
      (∑ d ∈ (range (2 * (ch.op + 1) + 1)).erase ch.op, ch.x ^ d * tp d) • g.pc.B +
      (∑ d ∈ (range (2 * (ch.op + 1) + 1)).erase ch.op, ch.x ^ d * tau d) • g.pc.Bbl := by
    rw [Finset.sum_smul, Finset.sum_smul, ← Finset.sum_add_distrib]
    refine Finset.sum_congr rfl fun d hd => ?_
    rw [hT d (mem_range.1 (Finset.mem_of_mem_erase hd)) (Finset.ne_of_mem_erase hd)]; module
  rw [h1, h2]
  module

/-- The inner product equation, from an opening to `lv`, `rv` and a run of the argument. -/
theorem ippDefect_eq_zero [DecidableEq F] (ch : Check F G) (g : Gens G) (p : R1CSProof F G) (o : Oracle F G X)
    (k : Nat) (lv rv : List F) (t t' : Transcript F G X) (us : List F) (gs hs : List G)
    (hl : lv.length = ch.N) (hr : rv.length = ch.N)
    (hop : ch.opened g p.AI1 p.AO1 p.S1 p.AI2 p.AO2 p.S2 p.eBl =
      ∑ i ∈ range ch.N, (ch.factor i * lv.getD i 0) • g.Gs.getD i 0 +
      ∑ i ∈ range ch.N, (ch.factor i * (ch.y⁻¹ ^ i * rv.getD i 0)) • g.Hs.getD i 0)
    (htx : p.tx = innerProduct lv rv)
    (hgs : gs = ch.ippG g) (hhs : hs = ch.ippH g)
    (hL : LoopSpec o (ch.w • g.pc.B) k ⟨gs, hs, lv, rv, t⟩ us p.ipp t') :
    ippDefect ch g p (us.map fun u => u * u) (us.map fun u => u⁻¹ * u⁻¹) (sVec us) = 0 := by
  unfold ippDefect
  have he := hL.eq
  simp only [hgs, hhs] at he
  rw [sub_eq_zero, ← he, hop, htx]
  have hG : msm (ch.ippG g) lv = ∑ i ∈ range ch.N, (ch.factor i * lv.getD i 0) • g.Gs.getD i 0 := by
    rw [msm_eq _ _ ch.N (Or.inr hl.le)]
    refine Finset.sum_congr rfl fun i hi => ?_
    rw [Check.ippG, getD_map_range, if_pos (mem_range.1 hi), smul_smul, mul_comm]
  have hH : msm (ch.ippH g) rv = ∑ i ∈ range ch.N, (ch.factor i * (ch.y⁻¹ ^ i * rv.getD i 0)) • g.Hs.getD i 0 := by
    rw [msm_eq _ _ ch.N (Or.inr hr.le)]
    refine Finset.sum_congr rfl fun i hi => ?_
    rw [Check.ippH, getD_map_range, if_pos (mem_range.1 hi), smul_smul]
    congr 1; ring
  rw [hG, hH]
  abel

variable [DecidableEq F] [DecidableEq G]

/-- Acceptance from the two equations. -/
theorem verifyTail_accepts (o : Oracle F G X) (g : Gens G) (p : R1CSProof F G) (n1 k : Nat) (s : VState F G X)
    (t t' : Transcript F G X) (wt : Weights F) (us : List F)
    (hT : validateT (opDegree s.vecComms.length) p.T (List.range (2 * (opDegree s.vecComms.length + 1) + 1))
        (tailT p s ++ [.chal "y", .chal "z"]) = .ok t)
    (hw : s.flattened (o (tailT p s ++ [.chal "y", .chal "z"])) = some wt)
    (hus : us.length = k) (hLl : p.ipp.L.length = k) (hRl : p.ipp.R.length = k)
    (hN : nextPow2 s.size = 2 ^ k) (hk : k < 32) (hy : o (tailT p s ++ [.chal "y"]) ≠ 0)
    (hc : ippChallenges o (p.ipp.L.zip p.ipp.R) (tailW p t ++ [.sep "ipp v1", .num "n" (2 ^ k)]) = .ok (us, t'))
    (h1 : n1 ≤ s.size) (hcap : 2 ^ k ≤ g.capacity)
    (hG : g.capacity ≤ g.Gs.length) (hH : g.capacity ≤ g.Hs.length)
    (he1 : ∀ r, ippDefect (s.check (tailChals o r p s t (us.map fun u => u * u) (us.map fun u => u⁻¹ * u⁻¹)
      (sVec us)) wt n1 (2 ^ k)) g p (us.map fun u => u * u) (us.map fun u => u⁻¹ * u⁻¹) (sVec us) = 0)
    (he2 : ∀ r, (s.check (tailChals o r p s t (us.map fun u => u * u) (us.map fun u => u⁻¹ * u⁻¹)
      (sVec us)) wt n1 (2 ^ k)).polyDefect g p.T p.tx p.txBl = 0) (r : F) :
    ∃ tup, verifyTail o r p n1 s = .ok tup ∧ checkTuple g tup = .ok () := by
  have e1 : (s.transcript ++ [Msg.point "A_I2" p.AI2, .point "A_O2" p.AO2, .point "S2" p.S2]) ++
      [.chal "y"] ++ [.chal "z"] = tailT p s ++ [.chal "y", .chal "z"] := by simp [tailT]
  have e0 : (s.transcript ++ [Msg.point "A_I2" p.AI2, .point "A_O2" p.AO2, .point "S2" p.S2]) =
    tailT p s := rfl
  have e2 : t ++ [Msg.chal "u"] ++ [.chal "x"] ++
      [.scalar "t_x" p.tx, .scalar "t_x_blinding" p.txBl, .scalar "e_blinding" p.eBl] ++ [.chal "w"] =
      tailW p t := by simp [tailW]
  have hs := verificationScalars_ok o p.ipp k (tailW p t) t' us hk hLl hus hc
  refine ⟨buildTuple p s
        (tailChals o r p s t (us.map fun u => u * u) (us.map fun u => u⁻¹ * u⁻¹) (sVec us))
        n1 s.size (2 ^ k) wt, ?_, ?_⟩
  · unfold verifyTail
    simp only [challengeScalar]
    rw [e1, hT]
    simp only
    rw [hw, e2, hN, hs, e0]
    simp only
    refine (if_neg hy).trans ?_
    simp [tailChals]
  · have hsh := (flattenLoop_apply (Weights.zero_shape _ _ _) hw ⟨0, 0, 0, 0, 0⟩).1
    have hsz : s.size ≤ 2 ^ k := by
      obtain ⟨j, hj, hj', -⟩ := nextPow2_eq s.size
      rw [← hN, hj]; exact hj'
    rw [checkTuple_eq g p s _ n1 s.size (2 ^ k) wt hsh h1 hsz (le_trans s.numVars_le_size hsz)
      (by simp only [tailChals]; rw [sVec_length, hus]) (by simp [tailChals, hus, hLl])
      (by simp [tailChals, hus, hRl]) hG hH, if_neg (by omega)]
    rw [if_pos]
    have h1 := he1 r
    have h2 := he2 r
    rw [h2, smul_zero, add_zero]
    exact h1

omit [Field F] [Module F G] [DecidableEq F] in
/-- The Prover's and the Verifier's way through the `T` points. -/
theorem appendT_validateT (op : Nat) (T Ts : List G) (d : Nat) (t t' : Transcript F G X)
    (hT : T.drop d = Ts) (hne : ∀ i, d ≤ i → i < T.length → i ≠ op → T.getD i 0 ≠ 0)
    (h : appendT op d Ts t = .ok t') : validateT op T (List.range' d Ts.length) t = .ok t' := by
  induction Ts generalizing d t with
  | nil => simpa [appendT, validateT] using h
  | cons P Ps ih =>
    have hd : d < T.length := by
      by_contra hc
      rw [List.drop_of_length_le (by omega)] at hT
      simp at hT
    have hP : T[d]? = some P := by
      have := congrArg List.head? hT
      rw [List.head?_drop] at this
      simpa using this
    have hPs : T.drop (d + 1) = Ps := by
      have := congrArg List.tail hT
      rw [List.tail_drop] at this
      simpa using this
    rw [List.length_cons, List.range'_succ, validateT]
    rw [appendT] at h
    by_cases hop : d = op
    · rw [if_pos hop] at h ⊢
      exact ih (d + 1) t hPs (fun i hi => hne i (by omega)) h
    · rw [if_neg hop] at h ⊢
      cases hl : tLabel d with
      | error e => rw [hl] at h; simp at h
      | ok l =>
        rw [hl] at h
        simp only at h
        rw [hP]
        simp only [validateAndAppendPoint]
        have : P ≠ 0 := by
          have := hne d (le_refl _) hd hop
          rwa [List.getD_eq_getElem?_getD, hP] at this
        rw [if_neg this]
        exact ih (d + 1) _ hPs (fun i hi => hne i (by omega)) h

end CT
