import Verif.Proofs.Complete
import Verif.Proofs.Concrete

/-! # C01: proofs of true statements verify -/

namespace CT
variable {F G X : Type} [Field F] [DecidableEq F] [AddCommGroup G] [Module F G] [DecidableEq G]

/-- **C01.** A Prover and a Verifier that went through the same session; every constraint, including those
added by second-phase callbacks, evaluates to zero on the Prover's values; `prove` returns a proof none of
whose points the Verifier refuses as identity. Then `verify` accepts it, whatever random scalar `r` the
Verifier draws. (`prove` panics, hence returns no proof, if a challenge it must invert is zero; the
Verifier only handles sizes below `2^32`.) -/
theorem C01_true_statements_verify (o : Oracle F G X) (g : Gens G) (rnd : PRand F) (s : PState F G X)
    (t : VState F G X) (h : Session o g s t) (hcG : g.capacity ≤ g.Gs.length) (hcH : g.capacity ≤ g.Hs.length)
    (htrue : s.TrueStatement o g rnd)
    {p : R1CSProof F G} {tr : Transcript F G X} (hp : prove o g rnd s = .ok (p, tr))
    (h32 : ∀ s2, s.secondPhase o (s.firstCommitments g rnd) = .ok s2 → nextPow2 s2.size < 2 ^ 32)
    (hne : p.NoIdentity s.vecOpen.length) (r : F) : verify o g r p t = .ok () :=
  complete_core o g rnd s t h.inv hcG hcH htrue hp h32 hne r

/-- **C01**, without second-phase callbacks: it is enough that the Prover's values satisfy the constraints it
holds when it calls `prove`. -/
theorem C01_one_phase (o : Oracle F G X) (g : Gens G) (rnd : PRand F) (s : PState F G X)
    (t : VState F G X) (h : Session o g s t) (hcG : g.capacity ≤ g.Gs.length) (hcH : g.capacity ≤ g.Hs.length)
    (hd : s.deferred = []) (htrue : s.Satisfied)
    {p : R1CSProof F G} {tr : Transcript F G X} (hp : prove o g rnd s = .ok (p, tr))
    (h32 : nextPow2 s.size < 2 ^ 32)
    (hne : p.NoIdentity s.vecOpen.length) (r : F) : verify o g r p t = .ok () := by
  have hpd : s.pad.deferred = [] := by rw [PState.pad_eq]; exact hd
  have key : ∀ s2, s.secondPhase o (s.firstCommitments g rnd) = .ok s2 →
      s2.constraints = s.constraints ∧ s2.assignment = s.assignment ∧ s2.size = s.size := by
    intro s2 h2
    unfold PState.secondPhase PState.createRandomized at h2
    simp only [hpd, if_true, Except.ok.injEq] at h2
    subst h2
    refine ⟨by rw [PState.pad_eq], ?_, s.pad_size⟩
    exact s.pad_assignment
  refine C01_true_statements_verify o g rnd s t h hcG hcH ?_ hp (fun s2 h2 => by rw [(key s2 h2).2.2]; exact h32) hne r
  intro s2 h2 c hc
  obtain ⟨h1, h3, -⟩ := key s2 h2
  rw [h3]
  exact htrue.2 c (h1 ▸ hc)

/-! Non-vacuity: over ℚ (as field and as group) a session that commits to 2, 3 and a vector (6, 1),
multiplies the first two and constrains the product to the first entry of the vector; then the same with a
callback that draws a challenge `c` in the second phase and multiplies `c` by the product. `prove` succeeds
without identity points. -/
section Example

def c01Prog : Prog ℚ ℚ Unit Unit := do
  let (_, _, o) ← multiply (LC.ofVar (.committed 0)) (LC.ofVar (.committed 1))
  constrain (LC.ofVar o - LC.ofVar (.vectorCommit 0 0))

def c01Callback : Prog ℚ ℚ Unit Unit := do
  let c ← challenge "c"
  let (_, _, o) ← multiply (LC.ofVar (.multiplierOutput 0)) (LC.const c)
  constrain (LC.ofVar o - (LC.ofVar (.committed 2)).smul c)

def c01P1 : PState ℚ ℚ Unit := (((PState.new []).commit exGens 2 7).2.commit exGens 3 8).2
def c01V1 : VState ℚ ℚ Unit :=
  ((VState.new []).commit (exGens.pc.commit (2 : ℚ) 7)).2.commit (exGens.pc.commit (3 : ℚ) 8) |>.2
def c01P2 := okOr (c01P1.commitVec exGens [6, 1] 9)
def c01V2 := (c01V1.commitVec 2 c01P2.1.1).2
def c01P3 := okOr (runP exOracle c01Prog c01P2.2)
def c01V3 := okOr (runV exOracle c01Prog c01V2)

example : ∃ s t p tr, Session exOracle exGens s t ∧ s.deferred = [] ∧ s.Satisfied ∧
    prove exOracle exGens exRand s = .ok (p, tr) ∧ nextPow2 s.size < 2 ^ 32 ∧ p.NoIdentity s.vecOpen.length ∧
    p.ipp.L.length = 1 ∧ s.vecOpen.length = 1 := by
  have h1 : Session exOracle exGens c01P1 c01V1 := .commit 3 8 (.commit 2 7 (.new []))
  have h2 : Session exOracle exGens c01P2.2 c01V2 := 
    .commitVec (v := [6, 1]) (bl := 9) h1 (eq_ok (x := c01P1.commitVec exGens [6, 1] 9) (by decide +kernel))
  have h3 : Session exOracle exGens c01P3.2 c01V3.2 :=
    .gadget h2 (.refl (R := Eq) (fun _ => rfl) c01Prog) (eq_ok (by decide +kernel)) (eq_ok (by decide +kernel))
  exact ⟨c01P3.2, c01V3.2, (okOr (prove exOracle exGens exRand c01P3.2)).1, _, h3, by decide +kernel,
    ⟨h3.inv.inv.gates, allZero_iff (by decide +kernel)⟩, eq_ok (by decide +kernel), by decide +kernel,
    by decide +kernel, by decide +kernel, by decide +kernel⟩

def c01Prog2 : Prog ℚ ℚ Unit Unit := do
  let (_, _, o) ← multiply (LC.ofVar (.committed 0)) (LC.ofVar (.committed 1))
  constrain (LC.ofVar o - LC.ofVar (.committed 2))

def c01P2b := (c01P1.commit exGens 6 9).2
def c01V2b := (c01V1.commit (exGens.pc.commit (6 : ℚ) 9)).2
def c01P3b := okOr (runP exOracle c01Prog2 c01P2b)
def c01V3b := okOr (runV exOracle c01Prog2 c01V2b)
def c01P4b := c01P3b.2.specifyRandomized c01Callback

example : ∃ s t p tr, Session exOracle exGens s t ∧ s.deferred ≠ [] ∧ s.TrueStatement exOracle exGens exRand ∧
    prove exOracle exGens exRand s = .ok (p, tr) ∧
    (∀ s2, s.secondPhase exOracle (s.firstCommitments exGens exRand) = .ok s2 → nextPow2 s2.size < 2 ^ 32) ∧
    p.NoIdentity s.vecOpen.length ∧ p.ipp.L.length = 1 ∧ p.AI2 ≠ 0 := by
  have h1 : Session exOracle exGens c01P2b c01V2b := .commit 6 9 (.commit 3 8 (.commit 2 7 (.new [])))
  have h3 : Session exOracle exGens c01P3b.2 c01V3b.2 :=
    .gadget h1 (.refl (R := Eq) (fun _ => rfl) c01Prog2) (eq_ok (by decide +kernel)) (eq_ok (by decide +kernel))
  have h4 := h3.randomized (.refl (fun _ => trivial) c01Callback)
  have h2 : c01P4b.secondPhase exOracle (c01P4b.firstCommitments exGens exRand) = .ok (okOr _) :=
    eq_ok (by decide +kernel)
  refine ⟨c01P4b, _, (okOr (prove exOracle exGens exRand c01P4b)).1, _, h4, by simp [c01P4b, PState.specifyRandomized],
    ?_, eq_ok (by decide +kernel), ?_, by decide +kernel, by decide +kernel, by decide +kernel⟩
  · intro s2 hs
    rw [h2] at hs
    obtain rfl := Except.ok.inj hs
    exact allZero_iff (by decide +kernel)
  · intro s2 hs
    rw [h2] at hs
    obtain rfl := Except.ok.inj hs
    decide +kernel

end Example
end CT
