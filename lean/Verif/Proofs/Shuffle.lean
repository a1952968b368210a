import Mathlib.LinearAlgebra.Lagrange
import Mathlib.Algebra.Polynomial.Roots
import Verif.Model.Shuffle
import Verif.Spec.Acceptance
import Verif.Proofs.GadgetSound
import Verif.Proofs.GadgetComplete
import Verif.Proofs.Cost
import Verif.Props.Completeness
import Verif.Props.Errors

/-! # Helper lemmas for the shuffle proof -/

namespace CT

section Poly
open Polynomial
variable {F : Type} [Field F]

theorem prod_sub_eval (x : List F) (z : F) : (x.map fun a => a - z).prod = (-1) ^ x.length * ((x.map fun a => (X - C a : F[X])).prod).eval z := by
  induction x with
  | nil => simp
  | cons a x ih =>
    rw [List.map_cons, List.prod_cons, ih, List.map_cons, List.prod_cons, Polynomial.eval_mul, List.length_cons, Polynomial.eval_sub,
      Polynomial.eval_X, Polynomial.eval_C]
    ring

/-- Two lists of length `k` whose products of differences agree for `k` values are permutations of each other. -/
theorem perm_of_products {x y : List F} (hl : x.length = y.length) {Z : Finset F} (hZ : x.length ≤ Z.card)
    (h : ∀ z ∈ Z, (x.map fun a => a - z).prod = (y.map fun a => a - z).prod) : x.Perm y := by
  classical
  rcases Nat.eq_zero_or_pos x.length with h0 | hpos
  · rw [List.length_eq_zero_iff.1 h0, List.length_eq_zero_iff.1 (hl.symm.trans h0)]
  have conv : ∀ l : List F, (l.map fun a => (X - C a : F[X])).prod = ((l : Multiset F).map fun a => (X - C a : F[X])).prod := fun l => by
    rw [Multiset.map_coe, Multiset.prod_coe]
  have monic : ∀ l : List F, (l.map fun a => (X - C a : F[X])).prod.Monic := fun l => by
    rw [conv]; exact monic_multiset_prod_of_monic _ _ fun a _ => monic_X_sub_C a
  have deg : ∀ l : List F, (l.map fun a => (X - C a : F[X])).prod.degree = l.length := fun l => by
    rw [degree_eq_natDegree (monic l).ne_zero, conv, natDegree_multiset_prod_X_sub_C_eq_card, Multiset.coe_card]
  have e : (x.map fun a => (X - C a : F[X])).prod = (y.map fun a => (X - C a : F[X])).prod := by
    refine Polynomial.eq_of_degree_sub_lt_of_eval_finset_eq Z ?_ ?_
    · have := degree_sub_lt_left (p := (x.map fun a => (X - C a : F[X])).prod) (q := (y.map fun a => (X - C a : F[X])).prod)
        (by rw [deg, deg, hl]) (monic x).ne_zero (by rw [(monic x).leadingCoeff, (monic y).leadingCoeff])
      rw [deg] at this
      exact this.trans_le (by exact_mod_cast hZ)
    · intro z hz
      have := h z hz
      rw [prod_sub_eval, prod_sub_eval, hl] at this
      exact mul_left_cancel₀ (pow_ne_zero _ (neg_ne_zero.2 one_ne_zero)) this
  have := congrArg Polynomial.roots e
  rw [conv, conv, roots_multiset_prod_X_sub_C, roots_multiset_prod_X_sub_C] at this
  exact Multiset.coe_eq_coe.1 this

end Poly

variable {F G X : Type} [Field F]

section Sound
variable (o : Oracle F G X) {w : Assignment F}

theorem productFold_sound {z : F} {vs : List Variable} {prev r : Variable} {s s' : VState F G X}
    (h : runV o (productFold z vs prev) s = .ok (r, s')) (hs : s'.SatisfiedBy w) :
    w.val r = w.val prev * (vs.map fun v => w.val v - z).prod := by
  induction vs generalizing prev s with
  | nil =>
    obtain ⟨rfl, rfl⟩ := (runV_pure o).1 h
    simp
  | cons v vs ih =>
    unfold productFold at h
    obtain ⟨m, s1, h1, hs1, h2⟩ := runV_step o h hs
    have := multiply_sound o h1 hs1
    rw [ih h2, this.2.2, eval_ofVar, eval_sub, eval_ofVar, eval_const, List.map_cons, List.prod_cons]
    ring

theorem productGadget_sound {z : F} {x : List Variable} {r : Variable} {s s' : VState F G X}
    (h : runV o (productGadget z x) s = .ok (r, s')) (hs : s'.SatisfiedBy w) :
    w.val r = (x.map fun v => w.val v - z).prod := by
  have hx : (x.map fun v => w.val v - z).prod = (x.reverse.map fun v => w.val v - z).prod :=
    (List.Perm.map _ x.reverse_perm.symm).prod_eq
  rw [hx]
  unfold productGadget at h
  split at h
  · rename_i a b rest e
    rw [e]
    obtain ⟨m, s1, h1, hs1, h2⟩ := runV_step o h hs
    have := multiply_sound o h1 hs1
    rw [productFold_sound o h2 hs, this.2.2]
    simp only [eval_sub, eval_ofVar, eval_const, List.map_cons, List.prod_cons]
    ring
  · exact absurd h (runV_panic o)

/-- What a satisfying assignment of the second phase implies. -/
theorem shuffleCallback_sound {x y : List Variable} {s s' : VState F G X}
    (h : runV o (shuffleCallback x y) s = .ok ((), s')) (hs : s'.SatisfiedBy w) :
    let z := o (s.transcript ++ [.chal "shuffle challenge"])
    (x.map fun v => w.val v - z).prod = (y.map fun v => w.val v - z).prod := by
  intro z
  have h : runV o (productGadget z x >>= fun ox => productGadget z y >>= fun oy => constrain (LC.ofVar ox - LC.ofVar oy))
      { s with transcript := s.transcript ++ [.chal "shuffle challenge"] } = .ok ((), s') := h
  obtain ⟨ox, s1, h1, hs1, h2⟩ := runV_step o h hs
  obtain ⟨oy, s2, h3, hs2, h4⟩ := runV_step o h2 hs
  have := constrain_sound o h4 hs
  rw [eval_sub, eval_ofVar, eval_ofVar, productGadget_sound o h1 hs1, productGadget_sound o h3 hs2] at this
  exact sub_eq_zero.1 this

end Sound

section Complete
open PState
variable {o : Oracle F G X}

theorem complete_productFold {z : F} {vs : List Variable} {prev : Variable} {s : PState F G X} (hs : s.Good) (hp : s.Has prev)
    (hvs : ∀ v ∈ vs, s.Has v) :
    Complete o (productFold z vs prev) s fun r s' => s'.Has r ∧
      s'.assignment.val r = s.assignment.val prev * (vs.map fun v => s.assignment.val v - z).prod := by
  induction vs generalizing prev s with
  | nil => exact .pure hs ⟨hp, by simp⟩
  | cons v vs ih =>
    unfold productFold
    have hv := hvs v (by simp)
    refine (complete_multiply hs (hasLC_ofVar hp) (hasLC_sub (hasLC_ofVar hv) hasLC_const)).bind fun m s1 g1 e1 hm => ?_
    obtain ⟨_, _, h3, _, _, h6⟩ := hm
    refine (ih g1 h3 (fun u hu => (e1.ext u (hvs u (by simp [hu]))).1)).mono fun r s2 g2 e2 hr => ⟨hr.1, ?_⟩
    rw [hr.2, h6, eval_ofVar, eval_sub, eval_ofVar, eval_const, List.map_cons, List.prod_cons]
    have : (vs.map fun v => s1.assignment.val v - z) = vs.map fun v => s.assignment.val v - z :=
      List.map_congr_left fun u hu => by rw [(e1.ext u (hvs u (by simp [hu]))).2]
    rw [this]; ring

theorem complete_productGadget {z : F} {x : List Variable} {s : PState F G X} (hs : s.Good) (hk : 2 ≤ x.length)
    (hx : ∀ v ∈ x, s.Has v) :
    Complete o (productGadget z x) s fun r s' => s'.Has r ∧ s'.assignment.val r = (x.map fun v => s.assignment.val v - z).prod := by
  have hp : (x.map fun v => s.assignment.val v - z).prod = (x.reverse.map fun v => s.assignment.val v - z).prod :=
    (List.Perm.map _ x.reverse_perm.symm).prod_eq
  rw [hp]
  unfold productGadget
  have hlen : x.reverse.length = x.length := List.length_reverse
  have hmem : ∀ v ∈ x.reverse, s.Has v := fun v hv => hx v (List.mem_reverse.1 hv)
  match hr : x.reverse, hlen, hmem with
  | [], hlen, _ => simp at hlen; omega
  | [_], hlen, _ => simp at hlen; omega
  | a :: b :: rest, hlen, hmem =>
    have ha := hmem a (by simp)
    have hb := hmem b (by simp)
    refine (complete_multiply hs (hasLC_sub (hasLC_ofVar ha) hasLC_const) (hasLC_sub (hasLC_ofVar hb) hasLC_const)).bind
      fun m s1 g1 e1 hm => ?_
    obtain ⟨_, _, h3, _, _, h6⟩ := hm
    refine (complete_productFold g1 h3 (fun u hu => (e1.ext u (hmem u (by simp [hu]))).1)).mono fun r s2 g2 e2 hr => ⟨hr.1, ?_⟩
    rw [hr.2, h6]
    simp only [eval_sub, eval_ofVar, eval_const, List.map_cons, List.prod_cons]
    have : (rest.map fun v => s1.assignment.val v - z) = rest.map fun v => s.assignment.val v - z :=
      List.map_congr_left fun u hu => by rw [(e1.ext u (hmem u (by simp [hu]))).2]
    rw [this]; ring

theorem complete_shuffleCallback {x y : List Variable} {s : PState F G X} (hs : s.Good) (hk : 2 ≤ x.length) (hk' : 2 ≤ y.length)
    (hx : ∀ v ∈ x, s.Has v) (hy : ∀ v ∈ y, s.Has v) (h : (x.map s.assignment.val).Perm (y.map s.assignment.val)) :
    Complete o (shuffleCallback x y) s fun _ _ => True := by
  set z := o (s.transcript ++ [.chal "shuffle challenge"])
  set s0 : PState F G X := { s with transcript := s.transcript ++ [.chal "shuffle challenge"] }
  have hs0 : s0.Good := ⟨⟨hs.toInv.lenR, hs.toInv.lenO, hs.toInv.gates, hs.toInv.pend⟩, hs.hasC, hs.sat⟩
  have he0 : s.Ext s0 := ⟨fun v hv => ⟨by cases v <;> exact hv, by cases v <;> rfl⟩, rfl, rfl, rfl, rfl, le_refl _, [], by simp [s0]⟩
  have key : Complete o (productGadget z x >>= fun ox => productGadget z y >>= fun oy => constrain (LC.ofVar ox - LC.ofVar oy)) s0
      fun _ _ => True := by
    refine (complete_productGadget hs0 hk (fun v hv => (he0.ext v (hx v hv)).1)).bind fun ox s1 g1 e1 h1 => ?_
    have hy1 : ∀ v ∈ y, s1.Has v := fun v hv => (e1.ext v (he0.ext v (hy v hv)).1).1
    refine (complete_productGadget g1 hk' hy1).bind fun oy s2 g2 e2 h2 => ?_
    refine complete_constrain g2 (hasLC_sub (hasLC_ofVar (e2.ext _ h1.1).1) (hasLC_ofVar h2.1)) ?_
    rw [eval_sub, eval_ofVar, eval_ofVar, (e2.ext _ h1.1).2, h1.2, h2.2, sub_eq_zero]
    have a1 : (x.map fun v => s0.assignment.val v - z) = (x.map s.assignment.val).map fun a => a - z := by
      rw [List.map_map]
      exact List.map_congr_left fun v hv => by rw [(he0.ext v (hx v hv)).2]; rfl
    have a2 : (y.map fun v => s1.assignment.val v - z) = (y.map s.assignment.val).map fun a => a - z := by
      rw [List.map_map]
      exact List.map_congr_left fun v hv => by rw [(e1.ext v (he0.ext v (hy v hv)).1).2, (he0.ext v (hy v hv)).2]; rfl
    rw [a1, a2]
    exact (h.map _).prod_eq
  obtain ⟨a, s', h1, h2, h3, -⟩ := key
  exact ⟨a, s', h1, h2, he0.trans h3, trivial⟩

end Complete

section Cost

theorem costs_productFold (z : F) (vs : List Variable) (prev : Variable) :
    Costs (productFold z vs prev : Prog F G X Variable) vs.length 0 (2 * vs.length) := by
  induction vs generalizing prev with
  | nil => exact .pure _
  | cons v vs ih => exact (Costs.multiply fun m => ih m.2.2).cast rfl rfl rfl

theorem costs_productGadget (z : F) (x : List Variable) :
    Costs (productGadget z x : Prog F G X Variable) (x.length - 1) 0 (2 * (x.length - 1)) := by
  unfold productGadget
  split
  · rename_i a b rest e
    have hl := congrArg List.length e
    simp only [List.length_reverse, List.length_cons] at hl
    exact (Costs.multiply fun m => costs_productFold z rest m.2.2).cast (by omega) rfl (by omega)
  · exact .fail ..

theorem costs_shuffleCallback (x y : List Variable) :
    Costs (shuffleCallback x y : Prog F G X Unit) ((x.length - 1) + (y.length - 1)) 0 (2 * (x.length - 1) + 2 * (y.length - 1) + 1) :=
  (Costs.challenge fun z => (costs_productGadget z x).bind fun _ => (costs_productGadget z y).bind fun _ => .constrain (.pure ())).cast
    (by omega) rfl (by omega)

end Cost

section Commit
set_option linter.unusedSectionVars false
variable [DecidableEq F] [AddCommGroup G] [Module F G] [DecidableEq G]

theorem PState.commitAll_eq (g : Gens G) (s : PState F G X) (l : List (F × F)) :
    (s.commitAll g l).1.1 = l.map (fun a => g.pc.commit a.1 a.2) ∧
    (s.commitAll g l).1.2 = (List.range l.length).map (fun i => .committed (s.v.length + i)) ∧
    (s.commitAll g l).2 = { s with
      v := s.v ++ l.map Prod.fst
      vBlinding := s.vBlinding ++ l.map Prod.snd
      transcript := s.transcript ++ l.map fun a => .point "V" (g.pc.commit a.1 a.2) } := by
  induction l generalizing s with
  | nil => simp [PState.commitAll]
  | cons a l ih =>
    obtain ⟨h1, h2, h3⟩ := ih (s.commit g a.1 a.2).2
    refine ⟨?_, ?_, ?_⟩
    · rw [List.map_cons, ← h1]; rfl
    · rw [List.length_cons, List.range_succ_eq_map, List.map_cons, List.map_map]
      refine congrArg₂ List.cons rfl (h2.trans (List.map_congr_left fun i _ => ?_))
      simp [PState.commit, Nat.add_assoc, Nat.add_comm 1]
    · exact h3.trans (by simp [PState.commit])

theorem VState.commitAll_eq (t : VState F G X) (l : List G) :
    (t.commitAll l).1 = (List.range l.length).map (fun i => .committed (t.V.length + i)) ∧
    (t.commitAll l).2 = { t with V := t.V ++ l, transcript := t.transcript ++ l.map fun P => .point "V" P } := by
  induction l generalizing t with
  | nil => simp [VState.commitAll]
  | cons a l ih =>
    obtain ⟨h2, h3⟩ := ih (t.commit a).2
    refine ⟨?_, ?_⟩
    · rw [List.length_cons, List.range_succ_eq_map, List.map_cons, List.map_map]
      refine congrArg₂ List.cons rfl (h2.trans (List.map_congr_left fun i _ => ?_))
      simp [VState.commit, Nat.add_assoc, Nat.add_comm 1]
    · exact h3.trans (by simp [VState.commit])

theorem commitAll_session (o : Oracle F G X) (g : Gens G) (l : List (F × F)) {s : PState F G X} {t : VState F G X} (h : Session o g s t) :
    Session o g (s.commitAll g l).2 (t.commitAll (s.commitAll g l).1.1).2 := by
  induction l generalizing s t with
  | nil => exact h
  | cons a l ih => exact ih (h.commit a.1 a.2)

/-- The variables of the `k` commitments made after `n` others. -/
def committedVars (n k : Nat) : List Variable := (List.range k).map fun i => .committed (n + i)

/-- The Prover that made all the commitments. -/
def shuffleCommitted (g : Gens G) (tr : Transcript F G X) (input output : List (F × F)) : PState F G X :=
  (((PState.new (shuffleTranscript tr input.length)).commitAll g input).2.commitAll g output).2

theorem shuffleCommitted_eq (g : Gens G) (tr : Transcript F G X) (input output : List (F × F)) :
    shuffleCommitted g tr input output = { (PState.new (shuffleTranscript tr input.length)) with
      v := input.map Prod.fst ++ output.map Prod.fst, vBlinding := input.map Prod.snd ++ output.map Prod.snd,
      transcript := (PState.new (shuffleTranscript tr input.length)).transcript ++ input.map (fun a => .point "V" (g.pc.commit a.1 a.2)) ++
        output.map fun a => .point "V" (g.pc.commit a.1 a.2) } := by
  unfold shuffleCommitted
  rw [(PState.commitAll_eq g _ output).2.2, (PState.commitAll_eq g _ input).2.2]
  simp [PState.new]

theorem shuffleProver_eq (g : Gens G) (tr : Transcript F G X) (input output : List (F × F)) :
    shuffleProver g tr input output =
      match (shuffleCommitted g tr input output).shuffle (committedVars 0 input.length) (committedVars input.length output.length) with
      | .error e => .error e
      | .ok s => .ok ((input.map fun a => g.pc.commit a.1 a.2, output.map fun a => g.pc.commit a.1 a.2), s) := by
  have h : ((PState.new (shuffleTranscript tr input.length)).commitAll g input).2.v.length = input.length := by
    rw [(PState.commitAll_eq g _ input).2.2]; simp [PState.new]
  unfold shuffleProver
  simp only [(PState.commitAll_eq g _ input).1, (PState.commitAll_eq g _ input).2.1, (PState.commitAll_eq g _ output).1,
    (PState.commitAll_eq g _ output).2.1, h]
  rfl

theorem shuffleVerifier_eq (tr : Transcript F G X) (input output : List G) :
    shuffleVerifier (F := F) tr input output =
      VState.shuffle { (VState.new (shuffleTranscript tr input.length) : VState F G X) with
        V := input ++ output, transcript := (VState.new (F := F) (shuffleTranscript tr input.length)).transcript ++ input.map (fun P => .point "V" P) ++
          output.map fun P => .point "V" P } (committedVars 0 input.length) (committedVars input.length output.length) := by
  unfold shuffleVerifier
  simp only [(VState.commitAll_eq _ _).1, (VState.commitAll_eq _ _).2]
  simp [VState.new, committedVars]

theorem committedVars_length (n k : Nat) : (committedVars n k).length = k := by simp [committedVars]

theorem shuffle_two {k : Nat} (hk : 2 ≤ k) (s : PState F G X) :
    s.shuffle (committedVars 0 k) (committedVars k k) = .ok (s.specifyRandomized (shuffleCallback (committedVars 0 k) (committedVars k k))) := by
  unfold PState.shuffle
  rw [if_neg (by simp [committedVars_length])]
  split
  · rename_i a b h1 h2
    have := congrArg List.length h1
    simp [committedVars_length] at this
    omega
  · rfl

theorem shuffleV_two {k : Nat} (hk : 2 ≤ k) (t : VState F G X) :
    t.shuffle (committedVars 0 k) (committedVars k k) = .ok (t.specifyRandomized (shuffleCallback (committedVars 0 k) (committedVars k k))) := by
  unfold VState.shuffle
  rw [if_neg (by simp [committedVars_length])]
  split
  · rename_i a b h1 h2
    have := congrArg List.length h1
    simp [committedVars_length] at this
    omega
  · rfl

theorem shuffle_one (s : PState F G X) :
    s.shuffle (committedVars 0 1) (committedVars 1 1) = .ok (s.constrain (LC.ofVar (.committed 1) - LC.ofVar (.committed 0))) := rfl

theorem shuffleV_one (t : VState F G X) :
    t.shuffle (committedVars 0 1) (committedVars 1 1) = .ok (t.constrain (LC.ofVar (.committed 1) - LC.ofVar (.committed 0))) := rfl

/-- The session of an honest proof. -/
theorem shuffle_session (o : Oracle F G X) (g : Gens G) (tr : Transcript F G X) {input output : List (F × F)} (h0 : input ≠ [])
    (hl : input.length = output.length) : ∃ s t,
      shuffleProver g tr input output =
        .ok ((input.map fun a => g.pc.commit a.1 a.2, output.map fun a => g.pc.commit a.1 a.2), s) ∧
      shuffleVerifier tr (input.map fun a => g.pc.commit a.1 a.2) (output.map fun a => g.pc.commit a.1 a.2) = .ok t ∧
      Session o g s t := by
  have hS := commitAll_session o g output (commitAll_session o g input (.new (shuffleTranscript tr input.length)))
  rw [(PState.commitAll_eq g _ output).1, (PState.commitAll_eq g _ input).1] at hS
  change Session o g (shuffleCommitted g tr input output) _ at hS
  rw [(VState.commitAll_eq _ _).2, (VState.commitAll_eq _ _).2] at hS
  rw [shuffleProver_eq, shuffleVerifier_eq]
  simp only [List.length_map, ← hl]
  rcases Nat.lt_or_ge input.length 2 with h1 | h2
  · have : input.length = 1 := by
      have := List.length_pos_iff.2 h0; omega
    rw [this] at hS ⊢
    rw [shuffle_one, shuffleV_one]
    refine ⟨_, _, rfl, rfl, ?_⟩
    refine .gadget (α := Unit) (β := Unit) (R := Eq) (p := constrain (LC.ofVar (.committed 1) - LC.ofVar (.committed 0))) (a := ()) (b := ()) ?_
      (.refl (fun _ => rfl) _) rfl rfl
    simpa [VState.new] using hS
  · rw [shuffle_two h2, shuffleV_two h2]
    refine ⟨_, _, rfl, rfl, ?_⟩
    refine .randomized ?_ (.refl (fun _ => trivial) _)
    simpa [VState.new] using hS

/-- The honest second phase. -/
theorem shuffle_second_any (o : Oracle F G X) (g : Gens G) (cm : Com G) (tr : Transcript F G X) {input output : List (F × F)} (h0 : input ≠ [])
    (hp : (input.map Prod.fst).Perm (output.map Prod.fst)) {V : List G × List G} {s : PState F G X}
    (h : shuffleProver g tr input output = .ok (V, s)) :
    s.vecOpen = [] ∧ ∃ s2, s.secondPhase o cm = .ok s2 ∧ s2.Good ∧ s2.size = 2 * (input.length - 1) ∧ s2.vecOpen = [] := by
  have hl : input.length = output.length := by simpa using hp.length_eq
  rw [shuffleProver_eq, ← hl] at h
  set s0 := shuffleCommitted g tr input output with hs0
  have e0 := shuffleCommitted_eq g tr input output
  have hv : s0.v = input.map Prod.fst ++ output.map Prod.fst := by rw [hs0, e0]
  have hg0 : ∀ (tr' : Transcript F G X) (d : List (Prog F G X Unit)), PState.Good { s0 with transcript := tr', deferred := d } := by
    intro tr' d
    rw [hs0, e0]
    exact ⟨⟨rfl, rfl, fun i hi => by simp [PState.new] at hi, fun i hi => by simp [PState.new] at hi⟩, by simp [PState.new], by simp [PState.new]⟩
  have haL : s0.aL = [] := by rw [hs0, e0]; rfl
  have hvo : s0.vecOpen = [] := by rw [hs0, e0]; rfl
  have hpe : s0.pending = none := by rw [hs0, e0]; rfl
  have hde : s0.deferred = [] := by rw [hs0, e0]; rfl
  have hval1 : ∀ a : Assignment F, (∀ i, a.committed i = s0.v.getD i 0) → (committedVars 0 input.length).map a.val = input.map Prod.fst := by
    intro a ha
    refine List.ext_getElem (by simp [committedVars]) fun i h1 h2 => ?_
    simp only [committedVars, List.length_map, List.length_range] at h1
    simp only [committedVars, List.getElem_map, List.getElem_range, Assignment.val, ha, hv]
    rw [List.getD_eq_getElem?_getD, List.getElem?_append_left (by simp; omega)]
    simp [h1]
  have hval2 : ∀ a : Assignment F, (∀ i, a.committed i = s0.v.getD i 0) → (committedVars input.length input.length).map a.val = output.map Prod.fst := by
    intro a ha
    refine List.ext_getElem (by simp [committedVars, hl]) fun i h1 h2 => ?_
    simp only [committedVars, List.length_map, List.length_range] at h1
    simp only [committedVars, List.getElem_map, List.getElem_range, Assignment.val, ha, hv]
    rw [List.getD_eq_getElem?_getD, List.getElem?_append_right (by simp)]
    have : i < output.length := by omega
    simp [this]
  have hhas : ∀ s' : PState F G X, s'.v = s0.v → ∀ n, n ≤ input.length → ∀ v ∈ committedVars n input.length, s'.Has v := by
    intro s' hs' n hn v hvm
    obtain ⟨i, hi, rfl⟩ := List.mem_map.1 hvm
    have := List.mem_range.1 hi
    change n + i < s'.v.length
    rw [hs', hv]; simp; omega
  rcases Nat.lt_or_ge input.length 2 with h1 | h2
  · have hk1 : input.length = 1 := by
      have := List.length_pos_iff.2 h0; omega
    rw [hk1] at h hval1 hval2 hhas
    rw [shuffle_one] at h
    simp only [Except.ok.injEq, Prod.mk.injEq] at h
    obtain ⟨-, rfl⟩ := h
    refine ⟨hvo, ?_⟩
    have hpad : (s0.constrain (LC.ofVar (.committed 1) - LC.ofVar (.committed 0))).pad = s0.constrain (LC.ofVar (.committed 1) - LC.ofVar (.committed 0)) := by
      simp [PState.pad, PState.size, PState.constrain, hvo, PState.padN]
    unfold PState.secondPhase
    rw [hpad]
    unfold PState.createRandomized
    rw [if_pos (by exact hde)]
    refine ⟨_, rfl, ?_, ?_, hvo⟩
    · have hc : Complete o (constrain (LC.ofVar (.committed 1) - LC.ofVar (.committed 0)) : Prog F G X Unit) { s0 with transcript := s0.transcript, deferred := s0.deferred } fun _ _ => True := by
        refine complete_constrain (hg0 _ _) (PState.hasLC_sub (PState.hasLC_ofVar (hhas _ rfl 1 (le_refl _) _ (by simp [committedVars])))
          (PState.hasLC_ofVar (hhas _ rfl 0 (by omega) _ (by simp [committedVars])))) ?_
        rw [eval_sub, eval_ofVar, eval_ofVar]
        have a1 := hval1 s0.assignment (fun i => rfl)
        have a2 := hval2 s0.assignment (fun i => rfl)
        obtain ⟨x, hx⟩ := List.length_eq_one_iff.1 hk1
        obtain ⟨y, hy⟩ := List.length_eq_one_iff.1 (hl ▸ hk1)
        rw [hx] at hp a1
        rw [hy] at hp a2
        simp only [committedVars, List.range_one, List.map_cons, List.map_nil, List.cons.injEq, and_true] at a1 a2
        simp only [List.map_cons, List.map_nil, List.perm_singleton, List.cons.injEq, and_true] at hp
        exact sub_eq_zero.2 (a2.trans (hp.symm.trans a1.symm))
      obtain ⟨a, s', hr, hg, -⟩ := hc
      obtain ⟨rfl, rfl⟩ : a = () ∧ s' = s0.constrain (LC.ofVar (.committed 1) - LC.ofVar (.committed 0)) := by
        have : Except.ok ((), s0.constrain (LC.ofVar (.committed 1) - LC.ofVar (.committed 0))) = Except.ok (a, s') := hr
        simp only [Except.ok.injEq, Prod.mk.injEq] at this
        exact ⟨rfl, this.2.symm⟩
      refine ⟨⟨hg.toInv.lenR, hg.toInv.lenO, hg.toInv.gates, by simp⟩, fun c hc t ht => ?_, hg.sat⟩
      have := hg.hasC c hc t ht
      obtain ⟨v, x⟩ := t
      cases v with
      | multiplierRight i => exact ⟨this.1, by simp⟩
      | multiplierOutput i => exact ⟨this.1, by simp⟩
      | _ => exact this
    · simp [PState.size, PState.constrain, hvo, haL, hk1]
  · rw [shuffle_two h2] at h
    simp only [Except.ok.injEq, Prod.mk.injEq] at h
    obtain ⟨-, rfl⟩ := h
    refine ⟨hvo, ?_⟩
    set cb : Prog F G X Unit := shuffleCallback (committedVars 0 input.length) (committedVars input.length input.length)
    have hpad : (s0.specifyRandomized cb).pad = s0.specifyRandomized cb := by
      simp [PState.pad, PState.size, PState.specifyRandomized, hvo, PState.padN]
    unfold PState.secondPhase
    rw [hpad]
    unfold PState.createRandomized
    rw [if_neg (by simp [PState.specifyRandomized])]
    have hdef : (s0.specifyRandomized cb).deferred = [cb] := by simp [PState.specifyRandomized, hde]
    simp only [hdef, runCallbacksP]
    have hcb : ∀ tr', Complete o cb { s0 with pending := none, transcript := tr', deferred := [] } fun _ _ => True := by
      intro tr'
      have := hg0 tr' []
      rw [show ({ s0 with transcript := tr', deferred := [] } : PState F G X) = { s0 with pending := none, transcript := tr', deferred := [] } by rw [hpe]] at this
      refine complete_shuffleCallback this (by rw [committedVars_length]; exact h2) (by rw [committedVars_length]; exact h2)
        (fun v hv => by apply hhas _ _ 0 (by omega) v hv; rfl) (fun v hv => by apply hhas _ _ _ (le_refl _) v hv; rfl) ?_
      rw [hval1 _ (fun i => rfl), hval2 _ (fun i => rfl)]
      exact hp
    obtain ⟨a, s', hr, hg, he, -⟩ := hcb ((s0.specifyRandomized cb).transcript ++ [.num "m" (s0.specifyRandomized cb).v.length,
      .point "A_I1" cm.AI, .point "A_O1" cm.AO,
      .point "S1" cm.S] ++ [.sep "r1cs-2phase"])
    have hr' : runP o cb { s0.specifyRandomized cb with
        pending := none, deferred := [], transcript := (s0.specifyRandomized cb).transcript ++ [.num "m" (s0.specifyRandomized cb).v.length,
          .point "A_I1" cm.AI, .point "A_O1" cm.AO,
          .point "S1" cm.S] ++ [.sep "r1cs-2phase"] } = .ok (a, s') := hr
    rw [hr']
    refine ⟨s', rfl, hg, ?_, he.vecOpen.trans hvo⟩
    have hm := ((costs_shuffleCallback (G := G) (X := X) (F := F) (committedVars 0 input.length) (committedVars input.length input.length)).runP o hr).multipliers
    simp only [PState.metrics, haL, committedVars_length, spare, List.length_nil] at hm
    have : s'.vecOpen = [] := he.vecOpen.trans hvo
    simp only [PState.size, this]
    simp
    omega

theorem shuffle_second (o : Oracle F G X) (g : Gens G) (rnd : PRand F) (tr : Transcript F G X) {input output : List (F × F)} (h0 : input ≠ [])
    (hp : (input.map Prod.fst).Perm (output.map Prod.fst)) {V : List G × List G} {s : PState F G X}
    (h : shuffleProver g tr input output = .ok (V, s)) :
    s.vecOpen = [] ∧ ∃ s2, s.secondPhase o (s.firstCommitments g rnd) = .ok s2 ∧ s2.Good ∧ s2.size = 2 * (input.length - 1) ∧ s2.vecOpen = [] :=
  shuffle_second_any o g _ tr h0 hp h

end Commit

end CT
