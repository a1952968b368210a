import Verif.Proofs.SoundnessError
import Verif.Props.RangeKnowledge
import Verif.Props.SelectKnowledge
import Verif.Props.Shuffle

/-!
# C69: a prover without a witness is accepted for few challenges only

The soundness error of the interactive protocol, for statements about single-value commitments. `q` is the size of the field (about `2 ^ 255` for the curves in use), and
`soundnessLoss c lg` is linear in the size of the circuit.
-/

namespace CT
open Finset
variable {F : Type} [Field F] [Fintype F] [DecidableEq F]

/-- Whatever the statement is: a prover that is accepted for more than `soundnessLoss c lg / q` of the challenges is accepted on a tree of challenges that is large enough for the
extraction of C09 (and of C49, C56, C57, C67 and C68). -/
theorem C69_accepted_often {G X : Type} [AddCommGroup G] [Module F G] [DecidableEq G] (c : Circuit F) (lg : Nat) (g : Gens G) (t t2 : VState F G X) (M : Messages F G)
    (R : Responses F) (coins : (y z u x w : F) → List F → Oracle F G X) (hI : Interactive coins t t2 M R lg)
    (h : soundnessLoss c lg * Fintype.card F ^ (5 + lg) < acceptedChallenges g t M R lg coins) :
    ∃ fk : Forks F, fk.Enough c lg ∧ AcceptsTree g t t2 M R fk lg :=
  tree_of_often hI h

/-- **C69**, proof of knowledge: there is one extractor `E` for the circuit such that from every prover who is accepted for more than `soundnessLoss c lg / q` of the
challenges it computes, from the scalars sent on some tree of challenges and nothing else, a non-trivial relation between the generators or values that open the commitments and satisfy
all gates and constraints. -/
theorem C69_knowledge_error (c : Circuit F) (hdims : c.dims = []) (lg : Nat) :
    ∃ E : Responses F → Forks F → Relation F ⊕ Extracted F,
      ∀ (G X : Type) [AddCommGroup G] [Module F G] [DecidableEq G] (g : Gens G) (t t2 : VState F G X) (M : Messages F G) (R : Responses F)
        (coins : (y z u x w : F) → List F → Oracle F G X),
        t.circuit t2 = c → g.capacity ≤ g.Gs.length → g.capacity ≤ g.Hs.length → Interactive coins t t2 M R lg →
        soundnessLoss c lg * Fintype.card F ^ (5 + lg) < acceptedChallenges g t M R lg coins →
        ∃ fk : Forks F, match E R fk with
          | .inl r => r.NonTrivial (2 ^ lg) ∧ r.Holds (2 ^ lg) g
          | .inr e => (e.assignment c).Satisfies c.n c.constraints ∧
              ∀ q ∈ c.constraints, committedPart q (fun j => t2.V.getD j 0) = committedPart q fun j => g.pc.commit (e.committed j) (e.committedBl j) := by
  classical
  refine ⟨fun R fk => if hE : fk.Enough c lg then
      if h : ∃ r : Relation F, r.NonTrivial (2 ^ lg) ∧ ∀ (G X : Type) [AddCommGroup G] [Module F G] [DecidableEq G] (g : Gens G)
        (t t2 : VState F G X) (M : Messages F G), t.circuit t2 = c → g.capacity ≤ g.Gs.length → g.capacity ≤ g.Hs.length →
        AcceptsTree g t t2 M R fk lg → r.Holds (2 ^ lg) g then .inl h.choose
      else .inr ((C09_no_vector_commitments_partial c R fk lg hE hdims).resolve_left h).choose
    else .inl ⟨0, 0, 0, 0⟩, fun G X _ _ _ g t t2 M R coins hc hG hH hI h => ?_⟩
  obtain ⟨fk, hE, ha⟩ := tree_of_often hI h
  refine ⟨fk, ?_⟩
  simp only [dif_pos hE]
  split
  · rename_i r hr
    split at hr
    · rename_i hex
      cases hr
      exact ⟨hex.choose_spec.1, hex.choose_spec.2 G X g t t2 M hc hG hH ha⟩
    · cases hr
  · rename_i e he
    split at he
    · cases he
    · rename_i hex
      cases he
      have := ((C09_no_vector_commitments_partial c R fk lg hE hdims).resolve_left hex).choose_spec G X g t t2 M hc hG hH ha
      exact ⟨this.1, by simpa only [commit_eq] using this.2.2.2.2.2⟩

/-- **C69**, soundness: if no values open the commitments of the statement and satisfy its constraints, and the generators are independent, then every prover, however powerful, is accepted with
probability at most `soundnessLoss c lg / q`. -/
theorem C69_false_rejected {G X : Type} [AddCommGroup G] [Module F G] [DecidableEq G] (c : Circuit F) (hdims : c.dims = []) (lg : Nat) (g : Gens G) (t t2 : VState F G X)
    (M : Messages F G) (R : Responses F) (coins : (y z u x w : F) → List F → Oracle F G X) (hc : t.circuit t2 = c) (hG : g.capacity ≤ g.Gs.length) (hH : g.capacity ≤ g.Hs.length)
    (hI : Interactive coins t t2 M R lg) (hindep : ∀ r : Relation F, r.Holds (2 ^ lg) g → ¬ r.NonTrivial (2 ^ lg))
    (hfalse : ¬ ∃ (w : Assignment F) (bl : Nat → F), w.Satisfies c.n c.constraints ∧
      ∀ q ∈ c.constraints, committedPart q (fun j => t2.V.getD j 0) = committedPart q fun j => g.pc.commit (w.committed j) (bl j)) :
    acceptedChallenges g t M R lg coins ≤ soundnessLoss c lg * Fintype.card F ^ (5 + lg) := by
  by_contra h
  obtain ⟨E, hE⟩ := C69_knowledge_error c hdims lg
  obtain ⟨fk, hfk⟩ := hE G X g t t2 M R coins hc hG hH hI (not_le.1 h)
  split at hfk
  · exact hindep _ hfk.2 hfk.1
  · rename_i e _
    exact hfalse ⟨e.assignment c, e.committedBl, hfk⟩

/-- **C69** for range proofs: a commitment that does not hold a number below `2 ^ n` is accepted with probability at most `(2 ^ lg + 2 n + 15 + 7 lg) / q`. Here `2 ^ lg` is `n` rounded up to a
power of two. -/
theorem C69_range_rejected {G X : Type} [AddCommGroup G] [Module F G] [DecidableEq G] (n lg : Nat) (g : Gens G) (tr : Transcript F G X) (V : G) (o : Oracle F G X)
    (t t2 : VState F G X) (M : Messages F G) (R : Responses F) (coins : (y z u x w : F) → List F → Oracle F G X) (ht : rangeVerifier tr V n o = .ok ((), t))
    (hG : g.capacity ≤ g.Gs.length) (hH : g.capacity ≤ g.Hs.length) (hI : Interactive coins t t2 M R lg)
    (hindep : ∀ r : Relation F, r.Holds (2 ^ lg) g → ¬ r.NonTrivial (2 ^ lg)) (hfalse : ∀ k : Nat, k < 2 ^ n → ∀ bl : F, V ≠ g.pc.commit (k : F) bl) :
    acceptedChallenges g t M R lg coins ≤ (2 ^ lg + 2 * n + 15 + 7 * lg) * Fintype.card F ^ (5 + lg) := by
  by_contra h
  have hl : soundnessLoss (rangeCircuit (F := F) n) lg = 2 ^ lg + 2 * n + 15 + 7 * lg := by
    simp [soundnessLoss, rangeCircuit, opDegree]
    ring
  rw [← hl, not_le] at h
  obtain ⟨fk, hE, ha⟩ := tree_of_often hI h
  rcases C49_range_knowledge n lg R fk hE with ⟨r, hr, hh⟩ | ⟨k, hk, bl, hh⟩
  · exact hindep r (hh G X g tr V o t t2 M ht hG hH ha) hr
  · exact hfalse k hk bl (hh G X g tr V o t t2 M ht hG hH ha)

/-- **C69** for selections: a commitment that holds none of the `k` public values is accepted with probability at most `(2 ^ lg + 2 k + 13 + 7 lg) / q`. -/
theorem C69_select_rejected {G X : Type} [AddCommGroup G] [Module F G] [DecidableEq G] (x1 : F) (xs : List F) (lg : Nat) (g : Gens G) (tr : Transcript F G X) (V : G)
    (o : Oracle F G X) (t t2 : VState F G X) (M : Messages F G) (R : Responses F) (coins : (y z u x w : F) → List F → Oracle F G X)
    (ht : selectVerifier tr V (x1 :: xs) o = .ok ((), t)) (hG : g.capacity ≤ g.Gs.length) (hH : g.capacity ≤ g.Hs.length) (hI : Interactive coins t t2 M R lg)
    (hindep : ∀ r : Relation F, r.Holds (2 ^ lg) g → ¬ r.NonTrivial (2 ^ lg)) (hfalse : ∀ v ∈ x1 :: xs, ∀ bl : F, V ≠ g.pc.commit v bl) :
    acceptedChallenges g t M R lg coins ≤ (2 ^ lg + 2 * (xs.length + 1) + 13 + 7 * lg) * Fintype.card F ^ (5 + lg) := by
  by_contra h
  have hl : soundnessLoss (selectCircuit x1 xs) lg = 2 ^ lg + 2 * (xs.length + 1) + 13 + 7 * lg := by
    have : ∀ (x : LC F) (p : LC F) (cs : List (LC F)) n, (selectConstraints x cs p n).length = 2 * cs.length + 1 := by
      intro x p cs
      induction cs generalizing p with
      | nil => intro n; rfl
      | cons v vs ih => intro n; simp [selectConstraints, ih]; ring
    simp [soundnessLoss, selectCircuit, opDegree, this]
    ring
  rw [← hl, not_le] at h
  obtain ⟨fk, hE, ha⟩ := tree_of_often hI h
  rcases C56_select_knowledge x1 xs lg R fk hE with ⟨r, hr, hh⟩ | ⟨v, hv, bl, hh⟩
  · exact hindep r (hh G X g tr V o t t2 M ht hG hH ha) hr
  · exact hfalse v hv bl (hh G X g tr V o t t2 M ht hG hH ha)

omit [Field F] [Fintype F] [DecidableEq F] in
theorem chainConstraints_length [Field F] (z : F) (vs : List Variable) (p : Variable) (n : Nat) : (chainConstraints z vs p n).length = 2 * vs.length := by
  induction vs generalizing p n with
  | nil => rfl
  | cons v vs ih => simp [chainConstraints, ih]; ring

omit [Fintype F] [DecidableEq F] in
theorem productConstraints_length (z : F) (x : List Variable) (n : Nat) : (productConstraints z x n).length = 2 * (x.length - 1) := by
  unfold productConstraints
  have hl := x.length_reverse
  split
  · rename_i a b rest h
    rw [h] at hl
    simp [chainConstraints_length, ← hl]; ring
  · rename_i h
    rcases hx : x.reverse with _ | ⟨a, _ | ⟨b, l⟩⟩
    · rw [hx] at hl; simp [← hl]
    · rw [hx] at hl; simp [← hl]
    · exact absurd hx (h a b l)

omit [Fintype F] [DecidableEq F] in
theorem shuffle_loss (k : Nat) (hk : 2 ≤ k) (c : F) (lg : Nat) : soundnessLoss (shuffleCircuit k c) lg = 2 ^ lg + 4 * k + 11 + 7 * lg := by
  obtain ⟨k, rfl⟩ : ∃ j, k = j + 2 := ⟨k - 2, by omega⟩
  simp [soundnessLoss, shuffleCircuit, opDegree, productConstraints_length, committedVars]
  ring

/-- **C69** for shuffles of `k ≥ 2` values: if the outputs do not open to the inputs in some order, every prover is accepted with probability at most
`(2 ^ lg + 5 k + 10 + 7 lg) / q`. Here the shuffle challenge `c`, which is drawn between the two phases, is one more challenge, there are `q ^ (7 + lg)` choices in all, and
everything the prover sends may depend on `c`. -/
theorem C69_shuffle_rejected {G X : Type} [AddCommGroup G] [Module F G] [DecidableEq G] (k lg : Nat) (hk : 2 ≤ k) (g : Gens G) (tr : Transcript F G X) (Vx Vy : List G)
    (hx : Vx.length = k) (hy : Vy.length = k) (t : VState F G X) (t2 : F → VState F G X) (M : F → Messages F G) (R : F → Responses F) (o : F → Oracle F G X)
    (coins : F → (y z u x w : F) → List F → Oracle F G X) (ht : shuffleVerifier tr Vx Vy = .ok t)
    (h2 : ∀ c, t.secondPhase (o c) (M c).AI1 (M c).AO1 (M c).S1 = .ok (t2 c))
    (hch : ∀ c, o c (beforeShuffle t (M c).AI1 (M c).AO1 (M c).S1 ++ [.chal "shuffle challenge"]) = c)
    (hG : g.capacity ≤ g.Gs.length) (hH : g.capacity ≤ g.Hs.length) (hI : ∀ c, Interactive (coins c) t (t2 c) (M c) (R c) lg)
    (hindep : ∀ r : Relation F, r.Holds (2 ^ lg) g → ¬ r.NonTrivial (2 ^ lg))
    (hfalse : ¬ ∃ x y : List (F × F), (x.map Prod.fst).Perm (y.map Prod.fst) ∧
      Vx = x.map (fun a => g.pc.commit a.1 a.2) ∧ Vy = y.map fun a => g.pc.commit a.1 a.2) :
    ∑ c : F, acceptedChallenges g t (M c) (R c) lg (coins c) ≤ (2 ^ lg + 5 * k + 10 + 7 * lg) * Fintype.card F ^ (6 + lg) := by
  classical
  by_contra h
  set L := 2 ^ lg + 4 * k + 11 + 7 * lg with hL
  set Cs : Finset F := univ.filter fun c => L * Fintype.card F ^ (5 + lg) < acceptedChallenges g t (M c) (R c) lg (coins c) with hCs
  have hC : k ≤ Cs.card := by
    by_contra hc
    refine h ?_
    have hb : ∀ c ∈ (univ : Finset F), acceptedChallenges g t (M c) (R c) lg (coins c) ≤
        (if c ∈ Cs then Fintype.card F ^ (6 + lg) else 0) + L * Fintype.card F ^ (5 + lg) := by
      intro c _
      split
      · exact (acceptedChallenges_le ..).trans (Nat.le_add_right ..)
      · rename_i hc
        simpa [hCs] using hc
    refine (sum_le_sum hb).trans ?_
    rw [sum_add_distrib, ← sum_filter, sum_const, sum_const, filter_mem_eq_inter, univ_inter, smul_eq_mul, smul_eq_mul, card_univ]
    have e : Fintype.card F ^ (6 + lg) = Fintype.card F * Fintype.card F ^ (5 + lg) := by ring
    have : Cs.card * Fintype.card F ^ (6 + lg) ≤ (k - 1) * Fintype.card F ^ (6 + lg) := Nat.mul_le_mul_right _ (by omega)
    have e2 : 2 ^ lg + 5 * k + 10 + 7 * lg = (k - 1) + L := by omega
    rw [e2, add_mul (k - 1)]
    refine Nat.add_le_add this (le_of_eq ?_)
    rw [e]; ring
  have hF : ∀ c, ∃ fk : Forks F, c ∈ Cs → fk.Enough (shuffleCircuit k c) lg ∧ AcceptsTree g t (t2 c) (M c) (R c) fk lg := by
    intro c
    by_cases hc : c ∈ Cs
    · obtain ⟨fk, h⟩ := tree_of_often (c := shuffleCircuit k c) (hI c) (by rw [shuffle_loss k hk]; simpa [hCs] using hc)
      exact ⟨fk, fun _ => h⟩
    · exact ⟨⟨∅, fun _ => ∅, fun _ _ => ∅, fun _ _ _ => ∅, fun _ _ _ _ => ∅, fun _ _ _ _ _ _ => ∅⟩, fun h => absurd h hc⟩
  choose fk hfk using hF
  have ha : ∀ c ∈ Cs, ShuffleAccepted g tr Vx Vy c (R c) (fk c) lg := fun c hc => ⟨o c, t, t2 c, M c, ht, h2 c, hch c, (hfk c hc).2⟩
  rcases C57_shuffle_knowledge k hk lg Cs hC R fk (fun c hc => (hfk c hc).1) with ⟨r, hr, hh⟩ | ⟨x, y, hp, hh⟩
  · exact hindep r (hh G X g tr Vx Vy hG hH hx hy ha) hr
  · exact hfalse ⟨x, y, hp, hh G X g tr Vx Vy hG hH hx hy ha⟩

end CT
