import Verif.Proofs.Shuffle
import Verif.Props.Soundness
import Verif.Proofs.Concrete

/-!
# C57: the shuffle proof

Completeness: if the outputs are the inputs in some order, the proof is made and accepted. Knowledge: a prover that is accepted knows openings
of all the commitments, and the outputs are the inputs in some order (or it knows a relation between the generators).
-/

namespace CT
open Finset

section Complete
variable {F G X : Type} [Field F] [DecidableEq F] [AddCommGroup G] [Module F G] [DecidableEq G]

/-- **C57**, completeness: the outputs are the inputs in some order (each value with a blinding of its own), there are enough generators for
`2 (k - 1)` gates, and the challenges that have to be inverted are not zero. Then a proof is made, the points returned are the commitments to the
inputs and the outputs, and unless a point of the proof happens to be the identity, which Verifiers refuse, the proof is accepted for these
points, whatever random scalar the Verifier draws. -/
theorem C57_shuffle_complete (o : Oracle F G X) (g : Gens G) (rnd : PRand F) (tr : Transcript F G X) (input output : List (F × F))
    (h0 : input ≠ []) (hperm : (input.map Prod.fst).Perm (output.map Prod.fst))
    (hcG : g.capacity ≤ g.Gs.length) (hcH : g.capacity ≤ g.Hs.length) (hcap : nextPow2 (2 * (input.length - 1)) ≤ g.capacity)
    (h32 : nextPow2 (2 * (input.length - 1)) < 2 ^ 32) (hch : ∀ tr, o (tr ++ [.chal "y"]) ≠ 0 ∧ o (tr ++ [.chal "u"]) ≠ 0) :
    ∃ p, shuffleProve o g rnd tr input output = .ok (p, input.map (fun a => g.pc.commit a.1 a.2), output.map fun a => g.pc.commit a.1 a.2) ∧
      (p.NoIdentity 0 → ∀ r, shuffleVerify o g r tr p (input.map fun a => g.pc.commit a.1 a.2) (output.map fun a => g.pc.commit a.1 a.2) = .ok ()) := by
  obtain ⟨s, t, h1, h2, hS⟩ := shuffle_session o g tr h0 (by simpa using hperm.length_eq)
  obtain ⟨hvo, s2, e2, hg, hsz, -⟩ := shuffle_second o g rnd tr h0 hperm h1
  have hin : s2.InCircuit := by
    intro c hc t ht
    have hh := hg.hasC c hc t ht
    obtain ⟨v, x⟩ := t
    cases v with
    | vectorCommit j i =>
      obtain ⟨c, h4, h5⟩ := hh
      exact ⟨c.2.length, by simp [h4], h5⟩
    | committed i => exact hh
    | multiplierLeft i => exact hh
    | multiplierRight i => exact hg.toInv.lenR ▸ hh.1
    | multiplierOutput i => exact hg.toInv.lenO ▸ hh.1
    | one => trivial
  obtain ⟨p, tr', hp⟩ := C38_prove_succeeds o g rnd s s2 t hS hcG hcH e2 (by rw [hsz]; exact hcap) hin (.inl hvo) (by rw [hvo]; simp) hch
  refine ⟨p, ?_, fun hid r => ?_⟩
  · unfold shuffleProve
    simp only [h1, hp]
  · unfold shuffleVerify
    simp only [h2]
    refine C01_true_statements_verify o g rnd s t hS hcG hcH ?_ hp ?_ (by rw [hvo]; exact hid) r
    · intro s2' h'
      rw [e2] at h'
      simp only [Except.ok.injEq] at h'
      subst h'
      exact hg.sat
    · intro s2' h'
      rw [e2] at h'
      simp only [Except.ok.injEq] at h'
      subst h'
      rw [hsz]; exact h32

omit [AddCommGroup G] [Module F G] [DecidableEq G] [DecidableEq F] in
/-- **C57**, the second phase: if the values are not permutations of each other, at most `k - 1` values of the shuffle challenge
leave the Verifier with constraints that can be satisfied. -/
theorem C57_few_challenges (x y : List Variable) (w : Assignment F) (hl : x.length = y.length) (hx : ¬ (x.map w.val).Perm (y.map w.val))
    (Z : Finset F) (h : ∀ z ∈ Z, ∃ (o : Oracle F G X) (t t' : VState F G X) (w' : Assignment F),
      o (t.transcript ++ [.chal "shuffle challenge"]) = z ∧ runV o (shuffleCallback x y) t = .ok ((), t') ∧ t'.SatisfiedBy w' ∧
      x.map w'.val = x.map w.val ∧ y.map w'.val = y.map w.val) : Z.card < x.length := by
  by_contra hc
  refine hx (perm_of_products (by simpa using hl) (Z := Z) (by simpa using hc) fun z hz => ?_)
  obtain ⟨o, t, t', w', rfl, hr, hs, e1, e2⟩ := h z hz
  have := shuffleCallback_sound o hr hs
  rw [← e1, ← e2, List.map_map, List.map_map]
  exact this

end Complete

section Knowledge
variable {F : Type} [Field F]

/-- The constraints of `productFold`: gate `n`, `n + 1`, .. multiplies the previous output by the next value minus `z`. -/
def chainConstraints (z : F) : List Variable → Variable → Nat → List (LC F)
  | [], _, _ => []
  | v :: vs, prev, n => ⟨[(prev, 1), (.multiplierLeft n, -1)]⟩ :: ⟨[(v, 1), (.one, -z), (.multiplierRight n, -1)]⟩ ::
      chainConstraints z vs (.multiplierOutput n) (n + 1)

/-- The constraints of `productGadget` with gates from `n` on. -/
def productConstraints (z : F) (x : List Variable) (n : Nat) : List (LC F) :=
  match x.reverse with
  | a :: b :: rest => ⟨[(a, 1), (.one, -z), (.multiplierLeft n, -1)]⟩ :: ⟨[(b, 1), (.one, -z), (.multiplierRight n, -1)]⟩ ::
      chainConstraints z rest (.multiplierOutput n) (n + 1)
  | _ => []

/-- The circuit of a shuffle of `k` values when the shuffle challenge is `z`. -/
def shuffleCircuit (k : Nat) (z : F) : Circuit F where
  first := 0
  n := 2 * (k - 1)
  m := 2 * k
  dims := []
  constraints := productConstraints z (committedVars 0 k) 0 ++ productConstraints z (committedVars k k) (k - 1) ++
    [⟨[(.multiplierOutput (k - 2), 1), (.multiplierOutput (2 * k - 3), -1)]⟩]

section Run
variable {G X : Type}

theorem productFold_run (o : Oracle F G X) (z : F) (vs : List Variable) (m : Nat) (t : VState F G X) (ht : t.numVars = m + 1) :
    runV o (productFold z vs (.multiplierOutput m)) t = .ok (.multiplierOutput (m + vs.length),
      { t with numVars := m + 1 + vs.length, constraints := t.constraints ++ chainConstraints z vs (.multiplierOutput m) (m + 1) }) := by
  induction vs generalizing m t with
  | nil =>
    obtain ⟨tr, cs, nv, V, vc, df, pe⟩ := t
    simp only at ht
    subst ht
    simp [productFold, runV, pure, chainConstraints]
  | cons v vs ih =>
    have h1 : runV o (productFold z (v :: vs) (.multiplierOutput m)) t =
        runV o (productFold z vs (.multiplierOutput t.numVars)) { t with
          numVars := t.numVars + 1
          constraints := t.constraints ++ [⟨[(.multiplierOutput m, 1), (.multiplierLeft t.numVars, -1)]⟩] ++
            [⟨[(v, 1), (.one, -z), (.multiplierRight t.numVars, -1)]⟩] } := rfl
    rw [h1, ht, ih (m + 1) _ rfl]
    simp [chainConstraints, Nat.add_assoc, Nat.add_comm 1, Nat.add_comm 2]

theorem productGadget_run (o : Oracle F G X) (z : F) (x : List Variable) (hk : 2 ≤ x.length) (t : VState F G X) :
    runV o (productGadget z x) t = .ok (.multiplierOutput (t.numVars + (x.length - 2)),
      { t with numVars := t.numVars + (x.length - 1), constraints := t.constraints ++ productConstraints z x t.numVars }) := by
  unfold productGadget productConstraints
  have hlen : x.reverse.length = x.length := List.length_reverse
  match hr : x.reverse, hlen with
  | [], hlen => simp at hlen; omega
  | [_], hlen => simp at hlen; omega
  | a :: b :: rest, hlen =>
    simp only [List.length_cons] at hlen
    have h1 : runV o (do
          let (_, _, o) ← multiply (LC.ofVar a - LC.const z) (LC.ofVar b - LC.const z)
          productFold z rest o) t =
        runV o (productFold z rest (.multiplierOutput t.numVars)) { t with
          numVars := t.numVars + 1
          constraints := t.constraints ++ [⟨[(a, 1), (.one, -z), (.multiplierLeft t.numVars, -1)]⟩] ++
            [⟨[(b, 1), (.one, -z), (.multiplierRight t.numVars, -1)]⟩] } := rfl
    simp only
    rw [h1, productFold_run o z rest t.numVars _ rfl, show x.length - 2 = rest.length by omega, show x.length - 1 = 1 + rest.length by omega]
    simp [Nat.add_assoc]

theorem shuffleCallback_run (o : Oracle F G X) {k : Nat} (hk : 2 ≤ k) (t : VState F G X) (ht : t.numVars = 0) (hc : t.constraints = []) :
    runV o (shuffleCallback (committedVars 0 k) (committedVars k k)) t = .ok ((), { t with
      transcript := t.transcript ++ [.chal "shuffle challenge"], numVars := 2 * (k - 1),
      constraints := (shuffleCircuit k (o (t.transcript ++ [.chal "shuffle challenge"]))).constraints }) := by
  set z := o (t.transcript ++ [.chal "shuffle challenge"])
  have h1 : runV o (shuffleCallback (committedVars 0 k) (committedVars k k)) t =
      runV o (productGadget z (committedVars 0 k) >>= fun ox => productGadget z (committedVars k k) >>= fun oy =>
        constrain (LC.ofVar ox - LC.ofVar oy)) { t with transcript := t.transcript ++ [.chal "shuffle challenge"] } := rfl
  have hl : ∀ n, (committedVars n k).length = k := fun n => committedVars_length n k
  rw [h1, runV_bind, productGadget_run o z _ (by rw [hl]; exact hk)]
  simp only
  rw [runV_bind, productGadget_run o z _ (by rw [hl]; exact hk)]
  simp only [hl, ht, hc]
  show Except.ok _ = Except.ok _
  have e1 : k - 1 + (k - 1) = 2 * (k - 1) := by omega
  have e2 : k - 1 + (k - 2) = 2 * k - 3 := by omega
  simp only [VState.constrain, shuffleCircuit, List.nil_append, Nat.zero_add, e1, e2]
  rfl

end Run

section Circuit
variable {G X : Type} [DecidableEq F] [AddCommGroup G] [Module F G] [DecidableEq G]

/-- What the Verifier has absorbed when it draws the shuffle challenge. -/
def beforeShuffle (t : VState F G X) (AI AO S : G) : Transcript F G X :=
  t.transcript ++ [.num "m" t.V.length, .point "A_I1" AI, .point "A_O1" AO, .point "S1" S, .sep "r1cs-2phase"]

/-- The Verifier of a shuffle of `k ≥ 2` values after the second phase. -/
theorem shuffleVerifier_circuit {tr : Transcript F G X} {Vx Vy : List G} {k : Nat} (hk : 2 ≤ k) (hx : Vx.length = k) (hy : Vy.length = k)
    {o : Oracle F G X} {t t2 : VState F G X} {AI AO S : G} (h : shuffleVerifier tr Vx Vy = .ok t)
    (h2 : t.secondPhase o AI AO S = .ok t2) :
    t.circuit t2 = shuffleCircuit k (o (beforeShuffle t AI AO S ++ [.chal "shuffle challenge"])) ∧ t2.V = Vx ++ Vy := by
  rw [shuffleVerifier_eq, hx, hy, shuffleV_two hk] at h
  simp only [Except.ok.injEq] at h
  subst h
  unfold VState.secondPhase at h2
  rw [VState.pad_eq] at h2
  simp only [VState.createRandomized, VState.specifyRandomized, VState.new, List.nil_append, runCallbacksV] at h2
  rw [if_neg (by simp), shuffleCallback_run o hk _ (by simp [VState.size]) rfl] at h2
  simp only [Except.ok.injEq] at h2
  subst h2
  simp [VState.circuit, VState.size, shuffleCircuit, beforeShuffle, VState.specifyRandomized, VState.new, hx, hy, Nat.two_mul]

end Circuit

/-- Some constraint has the committed variable as the only committed variable. -/
def Alone (cs : List (LC F)) (j : Nat) : Prop :=
  ∃ c ∈ cs, ∀ {G : Type} [AddCommGroup G] [Module F G] (V : Nat → G), committedPart c V = V j

theorem alone_chain (z : F) (vs : List Variable) (prev : Variable) (n : Nat) {j : Nat}
    (hj : .committed j ∈ vs) : Alone (chainConstraints z vs prev n) j := by
  induction vs generalizing prev n with
  | nil => simp at hj
  | cons v vs ih =>
    rcases List.mem_cons.1 hj with rfl | h
    · exact ⟨⟨[(.committed j, 1), (.one, -z), (.multiplierRight n, -1)]⟩, by simp [chainConstraints], fun V => by simp [committedPart]⟩
    · obtain ⟨c, hc, h'⟩ := ih (.multiplierOutput n) (n + 1) h
      exact ⟨c, by simp [chainConstraints, hc], h'⟩

theorem alone_product (z : F) (x : List Variable) (n : Nat) (hk : 2 ≤ x.length) {j : Nat} (hj : .committed j ∈ x) :
    Alone (productConstraints z x n) j := by
  unfold productConstraints
  have hlen : x.reverse.length = x.length := List.length_reverse
  have hj' : .committed j ∈ x.reverse := List.mem_reverse.2 hj
  match hr : x.reverse, hlen, hj' with
  | [], hlen, _ => simp at hlen; omega
  | [_], hlen, _ => simp at hlen; omega
  | a :: b :: rest, hlen, hj' =>
    rcases List.mem_cons.1 hj' with rfl | h
    · exact ⟨⟨[(.committed j, 1), (.one, -z), (.multiplierLeft n, -1)]⟩, by simp, fun V => by simp [committedPart]⟩
    · rcases List.mem_cons.1 h with rfl | h
      · exact ⟨⟨[(.committed j, 1), (.one, -z), (.multiplierRight n, -1)]⟩, by simp, fun V => by simp [committedPart]⟩
      · obtain ⟨c, hc, h'⟩ := alone_chain z rest (.multiplierOutput n) (n + 1) h
        exact ⟨c, by simp [hc], h'⟩

theorem alone_shuffle {k : Nat} (hk : 2 ≤ k) (z : F) {j : Nat} (hj : j < 2 * k) : Alone (shuffleCircuit k z).constraints j := by
  rcases Nat.lt_or_ge j k with h | h
  · obtain ⟨c, hc, h'⟩ := alone_product z (committedVars 0 k) 0 (by rw [committedVars_length]; exact hk) (j := j)
      (List.mem_map.2 ⟨j, List.mem_range.2 h, by simp⟩)
    exact ⟨c, by simp [shuffleCircuit, hc], h'⟩
  · obtain ⟨c, hc, h'⟩ := alone_product z (committedVars k k) (k - 1) (by rw [committedVars_length]; exact hk) (j := j)
      (List.mem_map.2 ⟨j - k, List.mem_range.2 (by omega), by congr 1; omega⟩)
    exact ⟨c, by simp [shuffleCircuit, hc], h'⟩

/-- What an assignment that satisfies the circuit implies. -/
theorem shuffleCircuit_sound {k : Nat} (hk : 2 ≤ k) (z : F) (w : Assignment F)
    (h : w.Satisfies (2 * (k - 1)) (shuffleCircuit k z).constraints) :
    (((List.range k).map w.committed).map fun a => a - z).prod = (((List.range k).map fun i => w.committed (k + i)).map fun a => a - z).prod := by
  have hr := shuffleCallback_run (fun _ => z) hk (VState.new ([] : Transcript F Unit Unit)) rfl rfl
  have := shuffleCallback_sound (w := w) _ hr h
  simp only [committedVars, List.map_map, Function.comp_def, Assignment.val, Nat.zero_add] at this ⊢
  exact this

variable [DecidableEq F]

/-- A prover is accepted for the commitments `Vx` and `Vy` on a tree of challenges, when the shuffle challenge is `c`. -/
def ShuffleAccepted {G X : Type} [AddCommGroup G] [Module F G] [DecidableEq G] (g : Gens G) (tr : Transcript F G X) (Vx Vy : List G) (c : F) (R : Responses F)
    (fk : Forks F) (lg : Nat) : Prop :=
  ∃ (o : Oracle F G X) (t t2 : VState F G X) (M : Messages F G), shuffleVerifier tr Vx Vy = .ok t ∧
    t.secondPhase o M.AI1 M.AO1 M.S1 = .ok t2 ∧ o (beforeShuffle t M.AI1 M.AO1 M.S1 ++ [.chal "shuffle challenge"]) = c ∧
    AcceptsTree g t t2 M R fk lg

/-- **C57**, knowledge: let a prover of a shuffle of `k ≥ 2` values be accepted on trees of challenges for `k` values of the shuffle challenge.
Then its scalars determine a non-trivial relation between the generators, or openings of all the commitments, in which the values of
the outputs are the values of the inputs in some order. They do not depend on the group, the generators or the points. -/
theorem C57_shuffle_knowledge (k : Nat) (hk : 2 ≤ k) (lg : Nat) (Cs : Finset F) (hC : k ≤ Cs.card) (R : F → Responses F) (fk : F → Forks F)
    (hE : ∀ c ∈ Cs, (fk c).Enough (shuffleCircuit k c) lg) :
    (∃ r : Relation F, r.NonTrivial (2 ^ lg) ∧ ∀ (G X : Type) [AddCommGroup G] [Module F G] [DecidableEq G] (g : Gens G)
      (tr : Transcript F G X) (Vx Vy : List G), g.capacity ≤ g.Gs.length → g.capacity ≤ g.Hs.length → Vx.length = k → Vy.length = k →
      (∀ c ∈ Cs, ShuffleAccepted g tr Vx Vy c (R c) (fk c) lg) → r.Holds (2 ^ lg) g) ∨
    (∃ x y : List (F × F), (x.map Prod.fst).Perm (y.map Prod.fst) ∧ ∀ (G X : Type) [AddCommGroup G] [Module F G] [DecidableEq G] (g : Gens G)
      (tr : Transcript F G X) (Vx Vy : List G), g.capacity ≤ g.Gs.length → g.capacity ≤ g.Hs.length → Vx.length = k → Vy.length = k →
      (∀ c ∈ Cs, ShuffleAccepted g tr Vx Vy c (R c) (fk c) lg) →
      Vx = x.map (fun a => g.pc.commit a.1 a.2) ∧ Vy = y.map fun a => g.pc.commit a.1 a.2) := by
  by_cases hrel : ∃ c ∈ Cs, ∃ r : Relation F, r.NonTrivial (2 ^ lg) ∧ ∀ (G X : Type) [AddCommGroup G] [Module F G] [DecidableEq G] (g : Gens G)
      (t t2 : VState F G X) (M : Messages F G), t.circuit t2 = shuffleCircuit k c → g.capacity ≤ g.Gs.length → g.capacity ≤ g.Hs.length →
      AcceptsTree g t t2 M (R c) (fk c) lg → r.Holds (2 ^ lg) g
  · obtain ⟨c, hc, r, hr, h⟩ := hrel
    refine .inl ⟨r, hr, fun G X _ _ _ g tr Vx Vy hG hH hx hy ha => ?_⟩
    obtain ⟨o, t, t2, M, h1, h2, h3, h4⟩ := ha c hc
    exact h G X g t t2 M (h3 ▸ (shuffleVerifier_circuit hk hx hy h1 h2).1) hG hH h4
  -- openings for every challenge
  have hex : ∀ c, ∃ e : Extracted F, c ∈ Cs → ∀ (G X : Type) [AddCommGroup G] [Module F G] [DecidableEq G] (g : Gens G)
      (tr : Transcript F G X) (Vx Vy : List G), g.capacity ≤ g.Gs.length → g.capacity ≤ g.Hs.length → Vx.length = k → Vy.length = k →
      ShuffleAccepted g tr Vx Vy c (R c) (fk c) lg →
      (e.assignment (shuffleCircuit k c)).Satisfies (2 * (k - 1)) (shuffleCircuit k c).constraints ∧
      ∀ j < 2 * k, (Vx ++ Vy).getD j 0 = g.pc.commit (e.committed j) (e.committedBl j) := by
    intro c
    by_cases hc : c ∈ Cs
    · rcases C09_no_vector_commitments_partial (shuffleCircuit k c) (R c) (fk c) lg (hE c hc) rfl with ⟨r, hr, h⟩ | ⟨e, he⟩
      · exact absurd ⟨c, hc, r, hr, h⟩ hrel
      · refine ⟨e, fun _ G X _ _ _ g tr Vx Vy hG hH hx hy ⟨o, t, t2, M, h1, h2, h3, h4⟩ => ?_⟩
        obtain ⟨h5, h6⟩ := shuffleVerifier_circuit hk hx hy h1 h2
        have := he G X g t t2 M (h3 ▸ h5) hG hH h4
        refine ⟨this.1, fun j hj => ?_⟩
        obtain ⟨q, hq, h'⟩ := alone_shuffle hk c hj
        have h7 := this.2.2.2.2.2 q hq
        rw [h', h', h6] at h7
        simpa [PedersenGens.commit] using h7
    · exact ⟨⟨⟨0, 0, 0⟩, ⟨0, 0, 0⟩, ⟨0, 0, 0⟩, ⟨0, 0, 0⟩, fun _ => ⟨0, 0, 0⟩, 0, 0⟩, fun h => absurd h hc⟩
  choose e he using hex
  obtain ⟨c0, hc0⟩ := Finset.card_pos.1 (lt_of_lt_of_le (by omega : 0 < k) hC)
  by_cases hsame : ∃ c ∈ Cs, ∃ j < 2 * k, (e c).committed j ≠ (e c0).committed j ∨ (e c).committedBl j ≠ (e c0).committedBl j
  · obtain ⟨c, hc, j, hj, hne⟩ := hsame
    refine .inl ⟨⟨(e c).committed j - (e c0).committed j, (e c).committedBl j - (e c0).committedBl j, 0, 0⟩, ?_,
      fun G X _ _ _ g tr Vx Vy hG hH hx hy ha => ?_⟩
    · rcases hne with h | h
      · exact .inl (sub_ne_zero.2 h)
      · exact .inr (.inl (sub_ne_zero.2 h))
    · have h1 := (he c hc G X g tr Vx Vy hG hH hx hy (ha c hc)).2 j hj
      have h2 := (he c0 hc0 G X g tr Vx Vy hG hH hx hy (ha c0 hc0)).2 j hj
      have h3 := h1.symm.trans h2
      simp only [PedersenGens.commit, msm_cons, msm_nil, add_zero] at h3
      simp only [Relation.Holds, Pi.zero_apply, zero_smul, Finset.sum_const_zero, add_zero, sub_smul]
      rw [← sub_eq_zero] at h3
      rw [← h3]; abel
  push Not at hsame
  right
  by_cases hall : ∀ c ∈ Cs, ((e c).assignment (shuffleCircuit k c)).Satisfies (2 * (k - 1)) (shuffleCircuit k c).constraints
  · refine ⟨(List.range k).map fun i => ((e c0).committed i, (e c0).committedBl i),
      (List.range k).map fun i => ((e c0).committed (k + i), (e c0).committedBl (k + i)), ?_, ?_⟩
    · rw [List.map_map, List.map_map]
      refine perm_of_products (by simp) (Z := Cs) (by simpa using hC) fun c hc => ?_
      have := shuffleCircuit_sound hk c _ (hall c hc)
      have a1 : (List.range k).map ((e c).assignment (shuffleCircuit k c)).committed = (List.range k).map (e c0).committed :=
        List.map_congr_left fun i hi => (hsame c hc i (by have := List.mem_range.1 hi; omega)).1
      have a2 : ((List.range k).map fun i => ((e c).assignment (shuffleCircuit k c)).committed (k + i)) =
          (List.range k).map fun i => (e c0).committed (k + i) :=
        List.map_congr_left fun i hi => (hsame c hc (k + i) (by have := List.mem_range.1 hi; omega)).1
      rw [a1, a2] at this
      exact this
    · intro G X _ _ _ g tr Vx Vy hG hH hx hy ha
      have h2 := (he c0 hc0 G X g tr Vx Vy hG hH hx hy (ha c0 hc0)).2
      constructor
      · refine List.ext_getElem (by simp [hx]) fun i h1 h3 => ?_
        have := h2 i (by omega)
        rw [List.getD_eq_getElem?_getD, List.getElem?_append_left h1, List.getElem?_eq_getElem h1] at this
        simpa using this
      · refine List.ext_getElem (by simp [hy]) fun i h1 h3 => ?_
        have := h2 (k + i) (by omega)
        rw [List.getD_eq_getElem?_getD, List.getElem?_append_right (by omega), show k + i - Vx.length = i by omega,
          List.getElem?_eq_getElem h1] at this
        simpa using this
  · refine ⟨[], [], List.Perm.refl _, fun G X _ _ _ g tr Vx Vy hG hH hx hy ha => ?_⟩
    push Not at hall
    obtain ⟨c, hc, h⟩ := hall
    exact absurd (he c hc G X g tr Vx Vy hG hH hx hy (ha c hc)).1 h

/-- The circuit of a shuffle of one value: no gates, one constraint. -/
def singleCircuit : Circuit F where
  first := 0
  n := 0
  m := 2
  dims := []
  constraints := [⟨[(.committed 1, 1), (.committed 0, -1)]⟩]

/-- **C57**, knowledge for `k = 1`: a prover accepted on a tree of challenges knows a non-trivial relation between the generators, or the
difference of the two blindings: every opening of the input is, with this difference added to the blinding, an opening of the output with the
same value. (It need not know an opening: the proof is only about the difference of the two commitments.) -/
theorem C57_single_knowledge (lg : Nat) (R : Responses F) (fk : Forks F) (hE : fk.Enough singleCircuit lg) :
    (∃ r : Relation F, r.NonTrivial (2 ^ lg) ∧ ∀ (G X : Type) [AddCommGroup G] [Module F G] [DecidableEq G] (g : Gens G)
      (tr : Transcript F G X) (Vx Vy : G) (o : Oracle F G X) (t t2 : VState F G X) (M : Messages F G), g.capacity ≤ g.Gs.length → g.capacity ≤ g.Hs.length →
      shuffleVerifier tr [Vx] [Vy] = .ok t → t.secondPhase o M.AI1 M.AO1 M.S1 = .ok t2 → AcceptsTree g t t2 M R fk lg → r.Holds (2 ^ lg) g) ∨
    (∃ d : F, ∀ (G X : Type) [AddCommGroup G] [Module F G] [DecidableEq G] (g : Gens G)
      (tr : Transcript F G X) (Vx Vy : G) (o : Oracle F G X) (t t2 : VState F G X) (M : Messages F G), g.capacity ≤ g.Gs.length → g.capacity ≤ g.Hs.length →
      shuffleVerifier tr [Vx] [Vy] = .ok t → t.secondPhase o M.AI1 M.AO1 M.S1 = .ok t2 → AcceptsTree g t t2 M R fk lg →
      ∀ v bl, Vx = g.pc.commit v bl → Vy = g.pc.commit v (bl + d)) := by
  have circ : ∀ (G X : Type) [AddCommGroup G] [Module F G] [DecidableEq G] (tr : Transcript F G X) (Vx Vy : G) (o : Oracle F G X)
      (t t2 : VState F G X) (M : Messages F G), shuffleVerifier tr [Vx] [Vy] = .ok t → t.secondPhase o M.AI1 M.AO1 M.S1 = .ok t2 →
      t.circuit t2 = singleCircuit ∧ t2.V = [Vx, Vy] := by
    intro G X _ _ _ tr Vx Vy o t t2 M h h2
    rw [shuffleVerifier_eq, List.length_singleton, List.length_singleton, shuffleV_one] at h
    simp only [Except.ok.injEq] at h
    subst h
    unfold VState.secondPhase at h2
    rw [VState.pad_eq] at h2
    simp only [VState.createRandomized, VState.constrain, VState.new, if_pos, Except.ok.injEq] at h2
    subst h2
    simp [VState.circuit, VState.size, singleCircuit, VState.constrain, VState.new]
    rfl
  rcases C09_no_vector_commitments_partial singleCircuit R fk lg hE rfl with ⟨r, hr, h⟩ | ⟨e, he⟩
  · exact .inl ⟨r, hr, fun G X _ _ _ g tr Vx Vy o t t2 M hG hH h1 h2 ha => h G X g t t2 M (circ G X tr Vx Vy o t t2 M h1 h2).1 hG hH ha⟩
  · refine .inr ⟨e.committedBl 1 - e.committedBl 0, fun G X _ _ _ g tr Vx Vy o t t2 M hG hH h1 h2 ha v bl hV => ?_⟩
    obtain ⟨hc, ht⟩ := circ G X tr Vx Vy o t t2 M h1 h2
    have := he G X g t t2 M hc hG hH ha
    have h5 := this.2.2.2.2.2 _ (List.mem_singleton.2 rfl)
    have h6 := this.1.2 _ (List.mem_singleton.2 rfl)
    simp only [Assignment.eval, Extracted.assignment, Assignment.val, List.map_cons, List.map_nil, List.sum_cons, List.sum_nil] at h6
    have h7 : e.committed 1 = e.committed 0 := by linear_combination h6
    simp only [committedPart, List.map_cons, List.map_nil, List.sum_cons, List.sum_nil, ht, h7] at h5
    simp only [PedersenGens.commit, msm_cons, msm_nil, add_zero] at hV ⊢
    simp only [List.getD_cons_succ, List.getD_cons_zero, hV] at h5
    simp only [one_smul, neg_smul, add_zero] at h5
    have h8 : Vy = v • g.pc.B + bl • g.pc.Bbl + (Vy + -(v • g.pc.B + bl • g.pc.Bbl)) := by abel
    rw [h8, h5]
    simp only [add_smul, sub_smul]
    abel

end Knowledge

section Misuse
variable {F G X : Type} [Field F] [DecidableEq F] [AddCommGroup G] [Module F G] [DecidableEq G]

/-- **C57**, limits: lists of different lengths make the Verifier panic, whatever the proof. -/
theorem C57_lengths (tr : Transcript F G X) (Vx Vy : List G) (h : Vx.length ≠ Vy.length) :
    isPanic (shuffleVerifier (F := F) tr Vx Vy) := by
  rw [shuffleVerifier_eq]
  unfold VState.shuffle
  rw [if_pos (by simpa [committedVars_length] using h)]
  trivial

omit [DecidableEq F] [AddCommGroup G] [Module F G] [DecidableEq G] in
/-- **C57**, limits: with no values at all the Verifier panics when it runs the second phase. -/
theorem C57_empty (o : Oracle F G X) (tr : Transcript F G X) (AI AO S : G) :
    ∃ t, shuffleVerifier tr [] [] = .ok t ∧ isPanic (t.secondPhase o AI AO S) := ⟨_, rfl, trivial⟩

end Misuse
end CT
