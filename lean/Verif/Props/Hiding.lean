import Verif.Proofs.Hiding
import Verif.Proofs.Concrete

/-! # Property C40: the proof does not depend on the witness in distribution -/

namespace CT
variable {F G X : Type} [Field F] [AddCommGroup G] [Module F G] [DecidableEq F] [DecidableEq G]

/-- C40. Two Provers `sA`, `sB` made the same calls as the Verifier `t` (so they committed to the same points and stated the same
constraints) with possibly different values, and both statements are true. Every point is a multiple of the blinding generator.
Then for every proof `p` there is a bijection of the random choices under which, for every final transcript `tr`, `sA` produces exactly `p`
and `tr` if and only if `sB` does: the number of random choices leading to a proof is the same for both witnesses. This includes
everything the Prover sends, not only the messages before the inner product argument.

The only condition is that the challenge `x` in this transcript is not 0 (with `x = 0` and an odd number of vector commitments
`l(0)` is the last committed vector). -/
theorem C40_witness_independent (o : Oracle F G X) (g : Gens G)
    (hb : g.pc.Bbl ≠ 0) (hgen : ∀ P : G, ∃ a : F, P = a • g.pc.Bbl)
    (hcG : g.capacity ≤ g.Gs.length) (hcH : g.capacity ≤ g.Hs.length)
    {sA sB : PState F G X} {t : VState F G X} (hA : Session o g sA t) (hB : Session o g sB t)
    (p : R1CSProof F G)
    (tA : ∃ s2, sA.secondPhase o ⟨p.AI1, p.AO1, p.S1⟩ = .ok s2 ∧ ∀ c ∈ s2.constraints, s2.assignment.eval c = 0)
    (tB : ∃ s2, sB.secondPhase o ⟨p.AI1, p.AO1, p.S1⟩ = .ok s2 ∧ ∀ c ∈ s2.constraints, s2.assignment.eval c = 0) :
    ∃ φ : PRand F ≃ PRand F, ∀ tr, (∀ t', (challengeScalar o t' "x").2 <+: tr → (challengeScalar o t' "x").1 ≠ 0) → ∀ rnd, prove o g rnd sA = .ok (p, tr) ↔ prove o g (φ rnd) sB = .ok (p, tr) := by
  have hinj : ∀ a b : F, a • g.pc.Bbl = b • g.pc.Bbl → a = b := by
    intro a b h
    rw [← sub_eq_zero, ← sub_smul] at h
    exact sub_eq_zero.1 ((smul_eq_zero.1 h).resolve_right hb)
  obtain ⟨lg, hlg⟩ : ∃ lg : G →ₗ[F] F, ∀ P, lg P • g.pc.Bbl = P := by
    let e := LinearEquiv.ofBijective (LinearMap.toSpanSingleton F G g.pc.Bbl)
      ⟨fun a b h => hinj a b h, fun P => by obtain ⟨a, rfl⟩ := hgen P; exact ⟨a, rfl⟩⟩
    exact ⟨e.symm, fun P => e.apply_symm_apply P⟩
  obtain ⟨a2, ea, la⟩ := tA
  obtain ⟨b2, eb, lb⟩ := tB
  obtain ⟨t2, h1, k1, l1⟩ := hA.inv.tail ea la
  obtain ⟨t2', h2, k2, l2⟩ := hB.inv.tail eb lb
  obtain rfl : t2 = t2' := by rw [h1] at h2; simpa using h2
  have hsz : sB.size = sA.size := by rw [← hB.inv.sync.size, hA.inv.sync.size]
  have hs2 : b2.size = a2.size := by rw [← k2.sync.size, k1.sync.size]
  rw [hsz] at k2
  refine ⟨⟨twist lg g (proofCheck o sA.size t2 p) a2.size a2 b2, twist lg g (proofCheck o sA.size t2 p) a2.size b2 a2,
    twist_twist lg g _ _ a2 b2, twist_twist lg g _ _ b2 a2⟩, fun tr hx rnd => ⟨fun h => ?_, fun h => ?_⟩⟩
  · exact prove_twist hlg hinj hcG hcH hA.inv hB.inv hsz ea eb k1 k2 l1 l2 hx rnd h
  · have := prove_twist hlg hinj hcG hcH hB.inv hA.inv hsz.symm eb ea (hsz ▸ k2) (hsz ▸ k1) l2 l1 hx _ h
    rw [hsz, hs2] at this
    change prove o g (twist lg g _ _ b2 a2 (twist lg g _ _ a2 b2 rnd)) sA = _ at this
    rwa [twist_twist] at this

/-- C40 for statements without second phase: it is enough that the two witnesses satisfy the constraints. -/
theorem C40_one_phase (o : Oracle F G X) (g : Gens G)
    (hb : g.pc.Bbl ≠ 0) (hgen : ∀ P : G, ∃ a : F, P = a • g.pc.Bbl)
    (hcG : g.capacity ≤ g.Gs.length) (hcH : g.capacity ≤ g.Hs.length)
    {sA sB : PState F G X} {t : VState F G X} (hA : Session o g sA t) (hB : Session o g sB t)
    (dA : sA.deferred = []) (dB : sB.deferred = [])
    (tA : ∀ c ∈ sA.constraints, sA.assignment.eval c = 0) (tB : ∀ c ∈ sB.constraints, sB.assignment.eval c = 0)
    (p : R1CSProof F G) :
    ∃ φ : PRand F ≃ PRand F, ∀ tr, (∀ t', (challengeScalar o t' "x").2 <+: tr → (challengeScalar o t' "x").1 ≠ 0) → ∀ rnd, prove o g rnd sA = .ok (p, tr) ↔ prove o g (φ rnd) sB = .ok (p, tr) := by
  have key : ∀ (s : PState F G X), s.deferred = [] → (∀ c ∈ s.constraints, s.assignment.eval c = 0) → ∀ c : Com G,
      ∃ s2, s.secondPhase o c = .ok s2 ∧ ∀ c ∈ s2.constraints, s2.assignment.eval c = 0 := by
    intro s hd hs c
    have hpd : s.pad.deferred = [] := by rw [PState.pad_eq]; exact hd
    refine ⟨_, by unfold PState.secondPhase PState.createRandomized; simp only; rw [if_pos hpd], fun k hk => ?_⟩
    have hc : s.pad.constraints = s.constraints := by rw [PState.pad_eq]
    rw [← hs k (by rw [← hc]; exact hk)]
    exact congrArg (fun a => Assignment.eval a k) s.pad_assignment
  exact C40_witness_independent o g hb hgen hcG hcH hA hB p (key sA dA tA _) (key sB dB tB _)

section Example

/-- `V_0 * V_1 = W[0]` -/
def c40Prog : Prog ℚ ℚ Unit Unit := do
  let (_, _, o) ← multiply (LC.ofVar (.committed 0)) (LC.ofVar (.committed 1))
  constrain (LC.ofVar o - LC.ofVar (.vectorCommit 0 0))

/-- First witness: `2 * 3 = 6`. -/
def c40A1 : PState ℚ ℚ Unit := (((PState.new []).commit exGens 2 7).2.commit exGens 3 8).2
def c40A2 := (okOr (c40A1.commitVec exGens [6, 1] 9)).2
def c40A := (okOr (runP exOracle c40Prog c40A2)).2
/-- Second witness, with the same three commitments: `12 * 3 = 36`. -/
def c40B1 : PState ℚ ℚ Unit := (((PState.new []).commit exGens 12 6).2.commit exGens 3 8).2
def c40B2 := (okOr (c40B1.commitVec exGens [36, 1] 3)).2
def c40B := (okOr (runP exOracle c40Prog c40B2)).2
/-- The Verifier. -/
def c40T1 : VState ℚ ℚ Unit := (((VState.new []).commit 72).2.commit 83).2
def c40T2 := (c40T1.commitVec 2 105).2
def c40T := (okOr (runV exOracle c40Prog c40T2)).2

/-- Both parties made the same calls. -/
theorem c40_session : Session exOracle exGens c40A c40T := by
  have a1 : Session exOracle exGens c40A1 c40T1 := by
    have := Session.commit (o := exOracle) (g := exGens) 3 8 (.commit 2 7 (.new []))
    rwa [show (((PState.new ([] : Transcript ℚ ℚ Unit)).commit exGens 2 7).1.1) = 72 by decide +kernel,
      show ((((PState.new ([] : Transcript ℚ ℚ Unit)).commit exGens 2 7).2.commit exGens 3 8).1.1) = 83 by decide +kernel] at this
  have a2 : Session exOracle exGens c40A2 c40T2 := by
    have := Session.commitVec (v := [6, 1]) (bl := 9) a1 (eq_ok (x := c40A1.commitVec exGens [6, 1] 9) (by decide +kernel))
    change Session exOracle exGens c40A2 (c40T1.commitVec 2 (msm (exGens.pc.Bbl :: exGens.Gs.take 2) [9, 6, 1])).2 at this
    rwa [show msm (exGens.pc.Bbl :: exGens.Gs.take 2) [(9 : ℚ), 6, 1] = 105 by decide +kernel] at this
  exact
    .gadget a2 (.refl (R := Eq) (fun _ => rfl) c40Prog) (eq_ok (by decide +kernel)) (eq_ok (by decide +kernel))
/-- Non-vacuity of C40: two different witnesses for one statement; the proof made with the first witness is also made with the second one. -/
example : ∃ p tr rnd, c40A.v ≠ c40B.v ∧ c40A.vecOpen ≠ c40B.vecOpen ∧ Session exOracle exGens c40A c40T ∧ Session exOracle exGens c40B c40T ∧
    prove exOracle exGens exRand c40A = .ok (p, tr) ∧ prove exOracle exGens rnd c40B = .ok (p, tr) := by
  have b1 : Session exOracle exGens c40B1 c40T1 := by
    have := Session.commit (o := exOracle) (g := exGens) 3 8 (.commit 12 6 (.new []))
    rwa [show (((PState.new ([] : Transcript ℚ ℚ Unit)).commit exGens 12 6).1.1) = 72 by decide +kernel,
      show ((((PState.new ([] : Transcript ℚ ℚ Unit)).commit exGens 12 6).2.commit exGens 3 8).1.1) = 83 by decide +kernel] at this
  have b2 : Session exOracle exGens c40B2 c40T2 := by
    have := Session.commitVec (v := [36, 1]) (bl := 3) b1 (eq_ok (x := c40B1.commitVec exGens [36, 1] 3) (by decide +kernel))
    change Session exOracle exGens c40B2 (c40T1.commitVec 2 (msm (exGens.pc.Bbl :: exGens.Gs.take 2) [3, 36, 1])).2 at this
    rwa [show msm (exGens.pc.Bbl :: exGens.Gs.take 2) [(3 : ℚ), 36, 1] = 105 by decide +kernel] at this
  have a3 := c40_session
  have b3 : Session exOracle exGens c40B c40T :=
    .gadget b2 (.refl (R := Eq) (fun _ => rfl) c40Prog) (eq_ok (by decide +kernel)) (eq_ok (by decide +kernel))
  have hp : prove exOracle exGens exRand c40A = .ok (okOr _) := eq_ok (by decide +kernel)
  obtain ⟨φ, hφ⟩ := C40_one_phase exOracle exGens (by decide +kernel) (fun P => ⟨P / 10, by
      change P = (P / 10) * 10; ring⟩) (by decide) (by decide) a3 b3 (by decide +kernel) (by decide +kernel)
    (allZero_iff (by decide +kernel)) (allZero_iff (by decide +kernel)) (okOr (prove exOracle exGens exRand c40A)).1
  have hφ := hφ (okOr (prove exOracle exGens exRand c40A)).2 (fun t' _ => by
      change ((t' ++ _).length : ℚ) + 2 ≠ 0
      positivity)
  exact ⟨_, _, φ exRand, by decide +kernel, by decide +kernel, a3, b3, hp, (hφ exRand).1 hp⟩

end Example

end CT
