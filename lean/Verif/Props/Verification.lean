import Verif.Proofs.Exact
import Verif.Props.Completeness

/-!
# C41: `verify` checks the two equations of the paper

`Verifier::verify` (`verifier.rs:421-466`) adds up two equations with a random scalar `r` and checks the sum
with one multi-scalar multiplication. For proofs with as many `R` as `L` points this is the same as checking
both equations, except for at most one value of `r`.
-/

namespace CT
variable {F G X : Type} [Field F] [DecidableEq F] [AddCommGroup G] [Module F G] [DecidableEq G]

/-- A proof that passes the checks of the paper is accepted, whatever random scalar the Verifier draws. -/
theorem C41_paper_proofs_accepted (o : Oracle F G X) (g : Gens G) (p : R1CSProof F G) (t : VState F G X)
    (hLR : p.ipp.L.length = p.ipp.R.length)
    (hG : g.capacity ≤ g.Gs.length) (hH : g.capacity ≤ g.Hs.length)
    (h : PaperAccepts o g p t) (r : F) : verify o g r p t = .ok () := by
  rcases verify_cases o g p t hLR hG hH with ⟨hn, -⟩ | ⟨P, Q, hv, hi⟩
  · exact absurd h hn
  · obtain ⟨rfl, rfl⟩ := hi.1 h
    rw [hv r, if_pos (by simp)]

/-- A proof that does not pass the checks of the paper is accepted for at most one value of the random
scalar. -/
theorem C41_other_proofs_rejected (o : Oracle F G X) (g : Gens G) (p : R1CSProof F G) (t : VState F G X)
    (hLR : p.ipp.L.length = p.ipp.R.length)
    (hG : g.capacity ≤ g.Gs.length) (hH : g.capacity ≤ g.Hs.length)
    (h : ¬ PaperAccepts o g p t) (r r' : F) (hr : verify o g r p t = .ok ())
    (hr' : verify o g r' p t = .ok ()) : r = r' := by
  rcases verify_cases o g p t hLR hG hH with ⟨-, e, he⟩ | ⟨P, Q, hv, hi⟩
  · rw [he r] at hr; simp at hr
  · have h1 : P + r • Q = 0 := by
      by_contra hc; rw [hv r, if_neg hc] at hr; simp at hr
    have h2 : P + r' • Q = 0 := by
      by_contra hc; rw [hv r', if_neg hc] at hr'; simp at hr'
    by_contra hne
    apply h
    have h3 : (r - r') • Q = 0 := by
      rw [sub_smul]
      have : P + r • Q - (P + r' • Q) = 0 := by rw [h1, h2, sub_zero]
      rw [← this]; abel
    have hQ : Q = 0 := by
      have := congrArg (fun x => (r - r')⁻¹ • x) h3
      simpa [smul_smul, inv_mul_cancel₀ (sub_ne_zero.2 hne)] using this
    refine hi.2 ⟨?_, hQ⟩
    rw [hQ, smul_zero, add_zero] at h1
    exact h1

/-- Acceptance for every random scalar is acceptance by the paper's verifier. -/
theorem C41_always_accepted_iff (o : Oracle F G X) (g : Gens G) (p : R1CSProof F G) (t : VState F G X)
    (hLR : p.ipp.L.length = p.ipp.R.length)
    (hG : g.capacity ≤ g.Gs.length) (hH : g.capacity ≤ g.Hs.length) :
    (∀ r, verify o g r p t = .ok ()) ↔ PaperAccepts o g p t := by
  refine ⟨fun h => ?_, fun h r => C41_paper_proofs_accepted o g p t hLR hG hH h r⟩
  by_contra hc
  exact zero_ne_one (C41_other_proofs_rejected o g p t hLR hG hH hc (0 : F) 1 (h 0) (h 1))

/-! Non-vacuity: the proof of the first example of C01 passes the checks of the paper; the same proof with
another `t_x` does not, and is rejected for the random scalars 0 and 1. -/
section Example

def c41Proof : R1CSProof ℚ ℚ := (okOr (prove exOracle exGens exRand c01P3.2)).1

example : c41Proof.ipp.L.length = c41Proof.ipp.R.length ∧ PaperAccepts exOracle exGens c41Proof c01V3.2 := by
  have hLR : c41Proof.ipp.L.length = c41Proof.ipp.R.length := by decide +kernel
  refine ⟨hLR, ?_⟩
  by_contra h
  exact zero_ne_one (C41_other_proofs_rejected exOracle exGens _ _ hLR (by decide +kernel) (by decide +kernel) h
    (0 : ℚ) 1 (by decide +kernel) (by decide +kernel))

example : ¬ PaperAccepts exOracle exGens { c41Proof with tx := c41Proof.tx + 1 } c01V3.2 ∧
    verify exOracle exGens 0 { c41Proof with tx := c41Proof.tx + 1 } c01V3.2 = .error .verificationError ∧
    verify exOracle exGens 1 { c41Proof with tx := c41Proof.tx + 1 } c01V3.2 = .error .verificationError := by
  have h0 : verify exOracle exGens 0 { c41Proof with tx := c41Proof.tx + 1 } c01V3.2 = .error .verificationError := by
    decide +kernel
  refine ⟨fun h => ?_, h0, by decide +kernel⟩
  have := C41_paper_proofs_accepted exOracle exGens _ _ (by decide +kernel) (by decide +kernel) (by decide +kernel) h 0
  rw [h0] at this
  simp at this

end Example

end CT
