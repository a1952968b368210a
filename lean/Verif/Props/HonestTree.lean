import Verif.Proofs.HonestTree
import Verif.Props.Completeness
import Verif.Proofs.Concrete

/-!
# C09: the honest Prover is a prover that is accepted on trees of challenges

The extraction theorems assume a prover that is accepted on a tree of challenges. This is what the honest Prover is, for every
true statement.
-/

namespace CT
open Finset
variable {F G X : Type} [Field F] [DecidableEq F] [AddCommGroup G] [Module F G] [DecidableEq G]

/-- **C09**, converse: let the Prover make a proof of a true statement. There is a strategy (the messages and the responses as functions of the
challenges received so far), whose proof for the challenges of this run is the proof made, and which is accepted on every tree of challenges
without zeros, as long as the points it sends are not the identity. -/
theorem C09_honest_accepted (o : Oracle F G X) (g : Gens G) (hcG : g.capacity ≤ g.Gs.length) (hcH : g.capacity ≤ g.Hs.length)
    (s : PState F G X) (t : VState F G X) (h : Session o g s t) (rnd : PRand F) (htrue : s.TrueStatement o g rnd)
    {p : R1CSProof F G} {tr : Transcript F G X} (hp : prove o g rnd s = .ok (p, tr)) 
    (h32 : ∀ s2, s.secondPhase o (s.firstCommitments g rnd) = .ok s2 → nextPow2 s2.size < 2 ^ 32) :
    ∃ (t2 : VState F G X) (M : Messages F G) (R : Responses F),
      t.secondPhase o p.AI1 p.AO1 p.S1 = .ok t2 ∧
      (∀ y z u x w us, HasChallenges o p t2 y z u x w us → p = strategyProof M R y z u x w us) ∧
      ∀ fk : Forks F, 0 ∉ fk.Y → (∀ y z u x w pre, 0 ∉ fk.C y z u x w pre) →
        (∀ y z u x w us, fk.Path y z u x w us → us.length = p.ipp.L.length → (strategyProof M R y z u x w us).NoIdentity s.vecOpen.length) →
        AcceptsTree g t t2 M R fk p.ipp.L.length := by
  have hp' := hp
  rw [prove_eq] at hp
  by_cases hcap : g.capacity < s.size
  · rw [if_pos hcap] at hp; simp at hp
  rw [if_neg hcap] at hp
  cases h2 : s.secondPhase o (s.firstCommitments g rnd) with
  | error e => rw [h2] at hp; simp at hp
  | ok s2 =>
  rw [h2] at hp
  simp only at hp
  have hfirst : (⟨p.AI1, p.AO1, p.S1⟩ : Com G) = s.firstCommitments g rnd := by
    obtain ⟨e1, e2, e3⟩ := proveTail_first hp
    rw [e1, e2, e3]
  have htr := htrue s2 h2
  obtain ⟨t2, a1, k, l⟩ := h.inv.tail h2 htr
  have et : t.secondPhase o p.AI1 p.AO1 p.S1 = .ok t2 := by
    unfold VState.secondPhase
    rw [t.pad_fields.2.1, List.append_assoc, List.singleton_append, ← hfirst] at a1
    exact a1
  have E := (proveTail_iff o g rnd s.size _ s2 t2 k.sync p tr).1 hp
  obtain ⟨lg, hlg, -⟩ := nextPow2_eq s2.size
  have hcap' : 2 ^ lg ≤ g.capacity := by rw [← hlg]; exact not_lt.1 E.cap
  have hflat : ∀ z, t2.flattened z ≠ none := flattened_any t2 E.wt
  have own : ∀ y z u x w us, HasChallenges o p t2 y z u x w us →
      p = strategyProof (honestMessages g s.size s2 t2 rnd lg) (honestResponses g s.size s2 t2 rnd lg) y z u x w us ∧ p.ipp.L.length = lg := by
    intro y z u x w us hch
    obtain ⟨wt, hwt⟩ := Option.ne_none_iff_exists'.1 (hflat z)
    exact honest_own hcG hcH h.inv rnd hp' (by rw [hfirst]; exact h2) k l hlg hcap' hch hwt (by have := E.y; rwa [← hch.y])
  have hlab : ¬ ∃ d ∈ tDegrees (opDegree s2.vecOpen.length), tLabelCount ≤ d := by
    obtain ⟨wt, hwt⟩ := Option.ne_none_iff_exists'.1 (hflat (o (absorbedA p t2 ++ [.chal "y", .chal "z"])))
    have hvl : t2.vecComms.length = s2.vecOpen.length := by rw [k.sync.comms, List.length_map]
    rw [← hvl]
    exact ((prove_iff_real (c := ⟨_, _, _, _, _⟩) hcG h.inv (by rw [hfirst]; exact h2) k l ⟨_, rfl, rfl, rfl, rfl, rfl, rfl⟩ hwt E.y rnd tr).1 hp').2.2.1
  have hl32 : lg < 32 := by
    have := h32 s2 h2
    rw [hlg] at this
    exact (Nat.pow_lt_pow_iff_right (by norm_num)).1 this
  obtain ⟨t2', et', key⟩ := honest_tree hcG hcH h.inv rnd h2 htr hlg hcap' hl32 E.ph hlab
    (fun z => by
      rw [k.sync.flat]
      obtain ⟨wt, hwt⟩ := Option.ne_none_iff_exists'.1 (hflat z)
      rw [hwt]; simp)
  rw [← hfirst] at et'
  obtain rfl : p.ipp.L.length = lg := (own _ _ _ _ _ _ ⟨rfl, rfl, rfl, rfl, rfl, rfl⟩).2
  obtain rfl : t2 = t2' := by rw [et] at et'; simpa using et'
  exact ⟨t2, _, _, et, fun y z u x w us hch => (own y z u x w us hch).1, key⟩

/-- Non-vacuity: the session of the second example of C01, with a callback in the second phase. The strategy it gives is
accepted on the tree whose only path has the challenges of this run. (Full trees: the examples of C49 and C56.) -/
example : ∃ (g : Gens ℚ) (t t2 : VState ℚ ℚ Unit) (M : Messages ℚ ℚ) (R : Responses ℚ) (fk : Forks ℚ) (y z u x w v : ℚ),
    fk.Path y z u x w [v] ∧ M.AI2 ≠ 0 ∧ AcceptsTree g t t2 M R fk 1 := by
  have h1 : Session exOracle exGens c01P2b c01V2b := .commit 6 9 (.commit 3 8 (.commit 2 7 (.new [])))
  have h3 : Session exOracle exGens c01P3b.2 c01V3b.2 :=
    .gadget h1 (.refl (R := Eq) (fun _ => rfl) c01Prog2) (eq_ok (by decide +kernel)) (eq_ok (by decide +kernel))
  have h4 := h3.randomized (.refl (fun _ => trivial) c01Callback)
  have h2 : c01P4b.secondPhase exOracle (c01P4b.firstCommitments exGens exRand) = .ok (okOr _) := eq_ok (by decide +kernel)
  have hs2 : ∀ s2, c01P4b.secondPhase exOracle (c01P4b.firstCommitments exGens exRand) = .ok s2 →
      (∀ c ∈ s2.constraints, s2.assignment.eval c = 0) ∧ nextPow2 s2.size < 2 ^ 32 := by
    intro s2 hs
    rw [h2] at hs
    obtain rfl := Except.ok.inj hs
    exact ⟨allZero_iff (by decide +kernel), by decide +kernel⟩
  obtain ⟨p, tr, hp, hid, hA, hlen, hlenR⟩ : ∃ p tr, prove exOracle exGens exRand c01P4b = .ok (p, tr) ∧ p.NoIdentity c01P4b.vecOpen.length ∧
      p.AI2 ≠ 0 ∧ p.ipp.L.length = 1 ∧ p.ipp.R.length = 1 :=
    ⟨(okOr (prove exOracle exGens exRand c01P4b)).1, _, eq_ok (by decide +kernel), by decide +kernel, by decide +kernel, by decide +kernel, by decide +kernel⟩
  obtain ⟨t2, M, R, e, own, key⟩ := C09_honest_accepted exOracle exGens (by decide) (by decide) c01P4b _ h4 exRand
    (fun s2 hs => (hs2 s2 hs).1) hp (fun s2 hs => (hs2 s2 hs).2)
  have hne : ∀ tr : Transcript ℚ ℚ Unit, exOracle tr ≠ 0 := fun tr => by
    show ((tr.length : ℚ) + 2) ≠ 0
    positivity
  have hch : HasChallenges exOracle p t2 _ _ _ _ _ _ := ⟨rfl, rfl, rfl, rfl, rfl, rfl⟩
  have hp1 := own _ _ _ _ _ _ hch
  rw [hlen] at key
  obtain ⟨v, hv, hv0⟩ : ∃ v, roundChallenges exOracle (p.ipp.L.zip p.ipp.R) (absorbedW p t2 ++ [.sep "ipp v1", .num "n" (2 ^ p.ipp.L.length)]) = [v] ∧ v ≠ 0 := by
    obtain ⟨L, hL⟩ := List.length_eq_one_iff.1 hlen
    obtain ⟨R, hR⟩ := List.length_eq_one_iff.1 hlenR
    exact ⟨_, by rw [hL, hR]; rfl, hne _⟩
  rw [hv] at hp1
  set y := exOracle (absorbedA p t2 ++ [.chal "y"]) with hy
  set z := exOracle (absorbedA p t2 ++ [.chal "y", .chal "z"])
  set u := exOracle (absorbedT p t2 ++ [.chal "u"])
  set x := exOracle (absorbedT p t2 ++ [.chal "u", .chal "x"])
  set w := exOracle (absorbedW p t2)
  refine ⟨exGens, _, t2, M, R, ⟨{y}, fun _ => {z}, fun _ _ => {u}, fun _ _ _ => {x}, fun _ _ _ _ => {w}, fun _ _ _ _ _ _ => {v}⟩, y, z, u, x, w, v,
    ⟨by simp, by simp, by simp, by simp, by simp, by simp [InPaths]⟩, ?_, key _ (by simpa using (hne _).symm) (by simpa using hv0.symm) ?_⟩
  · have := congrArg R1CSProof.AI2 hp1
    rw [this] at hA
    exact hA
  · intro y' z' u' x' w' us hpath hl
    obtain ⟨h1, h2, h3, h4, h5, h6⟩ := hpath
    obtain ⟨v', rfl⟩ := List.length_eq_one_iff.1 hl
    simp only [InPaths, Finset.mem_singleton, and_true] at h1 h2 h3 h4 h5 h6
    rw [h1, h2, h3, h4, h5, h6, ← hp1]
    exact hid

end CT
