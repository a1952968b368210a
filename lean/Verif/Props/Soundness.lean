import Verif.Proofs.Extract

/-!
# C09: what can be extracted from a prover whose proofs are accepted

The extractor gets the circuit, the challenges and the *scalars* of a tree of accepting proofs. It outputs, without having seen
a point, a non-trivial relation between the generators or an opening of every commitment to values that
satisfy all constraints. In these theorems the output is chosen before the group, the generators and the points are: it has
to be right for all of them.
-/

namespace CT
open Finset
variable {F : Type} [Field F] [DecidableEq F]

/-- **C09**, in general: either one non-trivial relation between the generators holds whenever the tree is accepted, or one
witness is valid whenever the tree is accepted. What is missing for C09 is the term `cross` in the gates of `Extracted.Valid`,
which is there because of the findings `C09_odd_commitments_forgery` and `C09_even_commitments_forgery`. -/
theorem C09_extraction_partial (c : Circuit F) (R : Responses F) (fk : Forks F) (lg : Nat) (hE : fk.Enough c lg) :
    (∃ r : Relation F, r.NonTrivial (2 ^ lg) ∧ ∀ (G X : Type) [AddCommGroup G] [Module F G] [DecidableEq G] (g : Gens G)
      (t t2 : VState F G X) (M : Messages F G), t.circuit t2 = c → g.capacity ≤ g.Gs.length → g.capacity ≤ g.Hs.length →
      AcceptsTree g t t2 M R fk lg → r.Holds (2 ^ lg) g) ∨
    (∃ e : Extracted F, ∀ (G X : Type) [AddCommGroup G] [Module F G] [DecidableEq G] (g : Gens G)
      (t t2 : VState F G X) (M : Messages F G), t.circuit t2 = c → g.capacity ≤ g.Gs.length → g.capacity ≤ g.Hs.length →
      AcceptsTree g t t2 M R fk lg → e.Valid c (2 ^ lg) g M (t2.vecComms.map (·.1)) t2.V) :=
  extraction c R fk lg hE

/-- **C09** for statements without vector commitments, nothing missing: a relation between the generators, or
values that satisfy every gate and every constraint. -/
theorem C09_no_vector_commitments_partial (c : Circuit F) (R : Responses F) (fk : Forks F) (lg : Nat) (hE : fk.Enough c lg)
    (hdims : c.dims = []) :
    (∃ r : Relation F, r.NonTrivial (2 ^ lg) ∧ ∀ (G X : Type) [AddCommGroup G] [Module F G] [DecidableEq G] (g : Gens G)
      (t t2 : VState F G X) (M : Messages F G), t.circuit t2 = c → g.capacity ≤ g.Gs.length → g.capacity ≤ g.Hs.length →
      AcceptsTree g t t2 M R fk lg → r.Holds (2 ^ lg) g) ∨
    (∃ e : Extracted F, ∀ (G X : Type) [AddCommGroup G] [Module F G] [DecidableEq G] (g : Gens G)
      (t t2 : VState F G X) (M : Messages F G), t.circuit t2 = c → g.capacity ≤ g.Gs.length → g.capacity ≤ g.Hs.length →
      AcceptsTree g t t2 M R fk lg →
        (e.assignment c).Satisfies c.n c.constraints ∧
        e.AI1.Opens (2 ^ lg) g M.AI1 ∧ e.AO1.Opens (2 ^ lg) g M.AO1 ∧ e.AI2.Opens (2 ^ lg) g M.AI2 ∧ e.AO2.Opens (2 ^ lg) g M.AO2 ∧
        ∀ q ∈ c.constraints, committedPart q (fun j => t2.V.getD j 0) =
          committedPart q fun j => e.committed j • g.pc.B + e.committedBl j • g.pc.Bbl) := by
  rcases extraction c R fk lg hE with h | ⟨e, he⟩
  · exact .inl h
  · refine .inr ⟨e, fun G X _ _ _ g t t2 M hc hG hH ha => ?_⟩
    have hv := he G X g t t2 M hc hG hH ha
    have hn : c.n ≤ 2 ^ lg := by subst hc; exact (accepts_solves hE hG hH ha).2.n
    refine ⟨⟨fun i hi => ?_, hv.constraints⟩, hv.AI1, hv.AO1, hv.AI2, hv.AO2, hv.committed⟩
    have hg := hv.gates i (by omega)
    have h0 : e.cross c i = 0 := by
      unfold Extracted.cross
      rw [hdims]
      simp [lDeg, rDeg, opDegree]
    rw [h0, add_zero] at hg
    exact hg

/-- The vector commitments are commitments to known vectors, in terms of the `G` generators only: what a Prover that calls
`commit_vec` computes. -/
def OpenedBy (known : Nat → F × List F) {G : Type} [AddCommGroup G] [Module F G] (N : Nat) (g : Gens G) (comms : List G) : Prop :=
  ∀ j < comms.length, comms.getD j 0 = (known j).1 • g.pc.Bbl + ∑ i ∈ range N, (known j).2.getD i 0 • g.Gs.getD i 0

/-- **C09** for an even number of vector commitments that are known to be commitments to vectors: a relation between the
generators, or an assignment that satisfies every gate and every constraint, and in which the vector variables
are the entries of those vectors. What is missing for C09: an odd number, and commitments the prover
chose with components of the `H` generators. -/
theorem C09_even_commitments_partial (c : Circuit F) (R : Responses F) (fk : Forks F) (lg : Nat) (hE : fk.Enough c lg)
    (heven : c.dims.length % 2 = 0) (known : Nat → F × List F) :
    (∃ r : Relation F, r.NonTrivial (2 ^ lg) ∧ ∀ (G X : Type) [AddCommGroup G] [Module F G] [DecidableEq G] (g : Gens G)
      (t t2 : VState F G X) (M : Messages F G), t.circuit t2 = c → g.capacity ≤ g.Gs.length → g.capacity ≤ g.Hs.length →
      AcceptsTree g t t2 M R fk lg → OpenedBy known (2 ^ lg) g (t2.vecComms.map (·.1)) → r.Holds (2 ^ lg) g) ∨
    (∃ e : Extracted F, (∀ j < c.dims.length, ∀ i < c.first, i < 2 ^ lg → (e.assignment c).vec j i = (known j).2.getD i 0) ∧
      ∀ (G X : Type) [AddCommGroup G] [Module F G] [DecidableEq G] (g : Gens G)
      (t t2 : VState F G X) (M : Messages F G), t.circuit t2 = c → g.capacity ≤ g.Gs.length → g.capacity ≤ g.Hs.length →
      AcceptsTree g t t2 M R fk lg → OpenedBy known (2 ^ lg) g (t2.vecComms.map (·.1)) →
        (e.assignment c).Satisfies c.n c.constraints ∧ e.Valid c (2 ^ lg) g M (t2.vecComms.map (·.1)) t2.V) := by
  rcases extraction c R fk lg hE with ⟨r, hr, h⟩ | ⟨e, he⟩
  · exact .inl ⟨r, hr, fun G X _ _ _ g t t2 M hc hG hH ha _ => h G X g t t2 M hc hG hH ha⟩
  · by_cases hag : ∀ j < c.dims.length, (e.comm j).bl = (known j).1 ∧
        ∀ i < 2 ^ lg, (e.comm j).g i = (known j).2.getD i 0 ∧ (e.comm j).h i = 0
    · refine .inr ⟨e, ?_, fun G X _ _ _ g t t2 M hc hG hH ha hk => ?_⟩
      · intro j hj i hi hN
        show (if i < c.first then (e.comm j).g i else 0) = _
        rw [if_pos hi, ((hag j hj).2 i hN).1]
      · have hv := he G X g t t2 M hc hG hH ha
        have hn : c.n ≤ 2 ^ lg := by subst hc; exact (accepts_solves hE hG hH ha).2.n
        refine ⟨⟨fun i hi => ?_, hv.constraints⟩, hv⟩
        have hg := hv.gates i (by omega)
        have h0 : e.cross c i = 0 := by
          unfold Extracted.cross
          split_ifs with h1
          · refine Finset.sum_eq_zero fun s hs => Finset.sum_eq_zero fun s' hs' => ?_
            have hs := Finset.mem_Ico.1 hs
            have hs' := Finset.mem_Ico.1 hs'
            split_ifs with hd
            · by_cases h2 : s' = 1
              · exfalso
                subst h2
                have hop : opDegree c.dims.length = c.dims.length + 2 := by unfold opDegree; omega
                unfold lDeg rDeg at hd
                rw [hop] at hd
                split_ifs at hd <;> omega
              · have : (e.slot s').h i = 0 := by
                  unfold Extracted.slot
                  rw [if_neg h2]
                  exact ((hag (s' - 2) (by omega)).2 i (by omega)).2
                rw [this, mul_zero]
            · rfl
          · rfl
        rw [h0, add_zero] at hg
        exact hg
    · push Not at hag
      obtain ⟨j, hj, hne⟩ := hag
      refine .inl ⟨⟨0, (e.comm j).bl - (known j).1, fun i => (e.comm j).g i - (known j).2.getD i 0, (e.comm j).h⟩, ?_,
        fun G X _ _ _ g t t2 M hc hG hH ha hk => ?_⟩
      · by_cases hbl : (e.comm j).bl = (known j).1
        · obtain ⟨i, hi, h⟩ := hne hbl
          refine .inr (.inr ⟨i, hi, ?_⟩)
          by_cases hgi : (e.comm j).g i = (known j).2.getD i 0
          · exact .inr (h hgi)
          · exact .inl (sub_ne_zero.2 hgi)
        · exact .inr (.inl (sub_ne_zero.2 hbl))
      · have hv := he G X g t t2 M hc hG hH ha
        have hjl : j < (t2.vecComms.map (·.1)).length := by
          subst hc
          simpa [VState.circuit] using hj
        have h1 := hv.comm j hjl
        have h2 := hk j hjl
        unfold Opening.Opens at h1
        unfold Relation.Holds
        simp only [sub_smul, Finset.sum_sub_distrib, zero_smul, zero_add]
        have h3 := h1.symm.trans h2
        rw [← sub_eq_zero] at h3
        refine Eq.trans ?_ h3
        abel

end CT
