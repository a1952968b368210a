import Verif.Props.Batch
import Verif.Props.Verification

/-! What `batch_verify` checks when the tuples have different sizes, and a prover who makes use of it. -/

namespace CT
open Finset
variable {F G X : Type} [Field F] [AddCommGroup G] [Module F G]

/-- The generators `batch_verify` uses, `verifier.rs:775-779`; `N` is the padded size of the first proof. -/
def batchPoints (g : Gens G) (N : Nat) : List G := [g.pc.B, g.pc.Bbl] ++ g.Gs.take N ++ g.Hs.take N

/-- What a tuple contributes to the check of `batch_verify`: only the first `len` of its scalars for the generators are used (`zip`, `verifier.rs:762-765`), with the generators for the padded
size `N` of the first proof. -/
def Tuple.share (g : Gens G) (N len : Nat) (v : Tuple F G) : G := msm v.points v.scalars + msm (batchPoints g N) (v.fixed.take len)

/-- The weighted sum of the contributions of the tuples after the first. -/
def weightedShares (g : Gens G) (N len : Nat) : List (Tuple F G) → List F → G
  | v :: vs, r :: rs => r • v.share g N len + weightedShares g N len vs rs
  | _, _ => 0

/-- The least number of scalars for generators in any of the tuples. -/
def leastFixed : List (Tuple F G) → List F → Nat → Nat
  | v :: vs, _ :: rs, n => leastFixed vs rs (min n v.fixed.length)
  | _, _, n => n

omit [Field F] [AddCommGroup G] [Module F G] in
theorem leastFixed_le (vs : List (Tuple F G)) (rs : List F) (n : Nat) : leastFixed vs rs n ≤ n := by
  induction vs generalizing rs n with
  | nil => cases rs <;> exact le_refl _
  | cons v vs ih =>
    cases rs with
    | nil => exact le_refl _
    | cons r rs => exact (ih rs _).trans (min_le_left _ _)

theorem batchAccum_shares (g : Gens G) (N : Nat) (vs : List (Tuple F G)) (rs : List F) (acc : Tuple F G) (ha : acc.points.length = acc.scalars.length)
    (hv : ∀ v ∈ vs, v.points.length = v.scalars.length) :
    (batchAccum vs rs acc).points.length = (batchAccum vs rs acc).scalars.length ∧
    msm (batchAccum vs rs acc).points (batchAccum vs rs acc).scalars + msm (batchPoints g N) (batchAccum vs rs acc).fixed =
      acc.share g N (leastFixed vs rs acc.fixed.length) + weightedShares g N (leastFixed vs rs acc.fixed.length) vs rs := by
  induction vs generalizing rs acc with
  | nil => cases rs <;> simp [batchAccum, weightedShares, leastFixed, Tuple.share, ha]
  | cons v vs ih =>
    cases rs with
    | nil => simp [batchAccum, weightedShares, leastFixed, Tuple.share, ha]
    | cons r rs =>
      have hs := hv v (by simp)
      obtain ⟨h1, h2⟩ := ih rs ⟨acc.points ++ v.points, acc.scalars ++ v.scalars.map (· * r), List.zipWith (· + ·) acc.fixed (v.fixed.map (· * r))⟩
        (by simp [ha, hs]) (fun w hw => hv w (by simp [hw]))
      refine ⟨h1, ?_⟩
      rw [batchAccum, h2]
      have hl : (List.zipWith (· + ·) acc.fixed (v.fixed.map (· * r))).length = min acc.fixed.length v.fixed.length := by simp
      simp only [leastFixed, weightedShares, hl]
      have hm := leastFixed_le vs rs (min acc.fixed.length v.fixed.length)
      generalize leastFixed vs rs (min acc.fixed.length v.fixed.length) = m at hm ⊢
      have : (Tuple.mk (acc.points ++ v.points) (acc.scalars ++ v.scalars.map (· * r)) (List.zipWith (· + ·) acc.fixed (v.fixed.map (· * r)))).share g N m =
          acc.share g N m + r • v.share g N m := by
        simp only [Tuple.share, List.take_zipWith, ← List.map_take]
        rw [msm_append _ _ _ _ ha, msm_add _ _ _ (by simp; omega), msm_scale, msm_scale, smul_add]
        abel
      rw [this]
      abel

section
variable [DecidableEq G]

theorem batchVerify_shares (g : Gens G) (v : Tuple F G) (vs : List (Tuple F G)) (rs : List F) (hv : ∀ w ∈ v :: vs, w.points.length = w.scalars.length) :
    batchVerify g rs (v :: vs) = if g.capacity < (v.fixed.length - 2) / 2 then .error .invalidGeneratorsLength
      else if v.share g ((v.fixed.length - 2) / 2) (leastFixed vs rs v.fixed.length) +
        weightedShares g ((v.fixed.length - 2) / 2) (leastFixed vs rs v.fixed.length) vs rs ≠ 0 then .error .verificationError else .ok () := by
  obtain ⟨h1, h2⟩ := batchAccum_shares g ((v.fixed.length - 2) / 2) vs rs v (hv v (by simp)) (fun w hw => hv w (by simp [hw]))
  rw [← h2]
  show checkBatch g ((v.fixed.length - 2) / 2) (batchAccum vs rs v) = _
  unfold checkBatch
  rw [msm_append _ _ _ _ h1]
  rfl
end

/-- The generators a proof of padded size `N2` is checked with, if a proof of padded size `N1 < N2` comes first: the scalars meant for `G` meet the first `N1` elements of `G` and
the first `N1` elements of `H`, those meant for `H` meet nothing. -/
def mixedGens (g : Gens G) (N1 N2 : Nat) : Gens G where
  pc := g.pc
  capacity := N2
  Gs := g.Gs.take N1 ++ g.Hs.take N1 ++ List.replicate (N2 - 2 * N1) 0
  Hs := List.replicate N2 0

theorem msm_replicate_zero (n : Nat) (ss : List F) : msm (List.replicate n (0 : G)) ss = 0 := by
  induction n generalizing ss with
  | zero => simp [msm]
  | succ n ih => cases ss with
    | nil => simp [msm]
    | cons s ss => rw [List.replicate_succ, msm_cons, ih]; simp

theorem msm_left_append (a b : List G) (s : List F) : msm (a ++ b) s = msm a (s.take a.length) + msm b (s.drop a.length) := by
  induction a generalizing s with
  | nil => simp [msm]
  | cons x a ih =>
    cases s with
    | nil => simp [msm]
    | cons y s => simp only [List.cons_append, msm_cons, List.length_cons, List.take_succ_cons, List.drop_succ_cons, ih]; abel

theorem share_mixed (g : Gens G) (N1 N2 : Nat) (h : 2 * N1 ≤ N2) (hG : N1 ≤ g.Gs.length) (hH : N1 ≤ g.Hs.length) (v : Tuple F G) (hv : v.Sized N2) :
    v.share g N1 (2 + 2 * N1) = v.value (mixedGens g N1 N2) N2 := by
  have hl : (batchPoints g N1).length = 2 + 2 * N1 := by simp [batchPoints, hG, hH]; omega
  have hp : [g.pc.B, g.pc.Bbl] ++ (mixedGens g N1 N2).Gs.take N2 ++ (mixedGens g N1 N2).Hs.take N2 =
      batchPoints g N1 ++ List.replicate ((N2 - 2 * N1) + N2) 0 := by
    rw [List.take_of_length_le (by simp [mixedGens, hG, hH]; omega), List.take_of_length_le (by simp [mixedGens])]
    show [g.pc.B, g.pc.Bbl] ++ (g.Gs.take N1 ++ g.Hs.take N1 ++ List.replicate (N2 - 2 * N1) 0) ++ List.replicate N2 0 = _
    rw [List.replicate_add]
    simp only [batchPoints, List.append_assoc]
  unfold Tuple.share Tuple.value
  rw [msm_append _ _ _ _ hv.points]
  show _ = _ + msm ([g.pc.B, g.pc.Bbl] ++ (mixedGens g N1 N2).Gs.take N2 ++ (mixedGens g N1 N2).Hs.take N2) _
  rw [hp, msm_left_append, msm_replicate_zero, add_zero, hl]

theorem share_same (g : Gens G) (N : Nat) (v : Tuple F G) (hv : v.Sized N) : v.share g N (2 + 2 * N) = v.value g N := by
  unfold Tuple.share Tuple.value
  rw [msm_append _ _ _ _ hv.points, List.take_of_length_le hv.fixed.le]
  rfl

variable [DecidableEq F] [DecidableEq G]

/-- A proof that would be accepted with the generators `mixedGens` is accepted in a batch behind a smaller valid proof. -/
theorem mixed_accepted {o : Oracle F G X} {g : Gens G} {i : Item F G X} {p : R1CSProof F G} {t : VState F G X} {r : F} (hi : i.accepted o g)
    (hLR : i.proof.ipp.L.length = i.proof.ipp.R.length) (hp : p.ipp.L.length = p.ipp.R.length) (hlt : i.proof.ipp.L.length < p.ipp.L.length)
    (hG : g.capacity ≤ g.Gs.length) (hH : g.capacity ≤ g.Hs.length)
    (h : verify o (mixedGens g (2 ^ i.proof.ipp.L.length) (2 ^ p.ipp.L.length)) r p t = .ok ()) (rs : List F) :
    verifyItems o g rs [i, ⟨p, t, r⟩] = .ok () := by
  unfold Item.accepted verify at hi
  cases hv : verificationTuple o i.r i.proof i.verifier with
  | error e => rw [hv] at hi; simp at hi
  | ok v =>
  unfold verify at h
  cases hw : verificationTuple o r p t with
  | error e => rw [hw] at h; simp at h
  | ok w =>
  rw [hv] at hi
  rw [hw] at h
  have hsv := verificationTuple_sized hLR hv
  have hsw := verificationTuple_sized hp hw
  have hN : 2 * 2 ^ i.proof.ipp.L.length ≤ 2 ^ p.ipp.L.length := by
    rw [← pow_succ']; exact Nat.pow_le_pow_right (by norm_num) hlt
  replace hi : checkTuple g v = .ok () := hi
  replace h : checkTuple (mixedGens g (2 ^ i.proof.ipp.L.length) (2 ^ p.ipp.L.length)) w = .ok () := h
  rw [checkTuple_value _ _ _ hsv] at hi
  rw [checkTuple_value _ _ _ hsw] at h
  have hc : 2 ^ i.proof.ipp.L.length ≤ g.capacity := by by_contra hc; rw [if_pos (by omega)] at hi; simp at hi
  rw [if_neg (by omega)] at hi
  rw [if_neg (by simp [mixedGens])] at h
  have hv0 : v.value g (2 ^ i.proof.ipp.L.length) = 0 := by by_contra hz; rw [if_pos hz] at hi; simp at hi
  have hw0 : w.value (mixedGens g (2 ^ i.proof.ipp.L.length) (2 ^ p.ipp.L.length)) (2 ^ p.ipp.L.length) = 0 := by
    by_contra hz; rw [if_pos hz] at h; simp at h
  have hfix : (v.fixed.length - 2) / 2 = 2 ^ i.proof.ipp.L.length := by rw [hsv.fixed]; omega
  have hm : [i, ⟨p, t, r⟩].mapM (fun i : Item F G X => verificationTuple o i.r i.proof i.verifier) = .ok [v, w] := by
    simp [List.mapM_cons, hv, hw, bind, Except.bind, pure, Except.pure]
  unfold verifyItems
  rw [hm]
  simp only
  rw [batchVerify_shares g v [w] rs (by simp [hsv.points, hsw.points]), hfix, if_neg (by omega)]
  have hlen : leastFixed [w] rs v.fixed.length = 2 + 2 * 2 ^ i.proof.ipp.L.length := by
    cases rs with
    | nil => exact hsv.fixed
    | cons r rs =>
      have e : leastFixed [w] (r :: rs) v.fixed.length = min v.fixed.length w.fixed.length := by cases rs <;> rfl
      rw [e, hsv.fixed, hsw.fixed]; omega
  rw [hlen, share_same g _ v hsv, hv0]
  cases rs with
  | nil => simp [weightedShares]
  | cons r rs =>
    have e : weightedShares g (2 ^ i.proof.ipp.L.length) (2 + 2 * 2 ^ i.proof.ipp.L.length) [w] (r :: rs) =
      r • w.share g (2 ^ i.proof.ipp.L.length) (2 + 2 * 2 ^ i.proof.ipp.L.length) := by
      cases rs <;> simp [weightedShares]
    rw [e, share_mixed g _ _ hN (by omega) (by omega) w hsw, hw0]
    simp

end CT
