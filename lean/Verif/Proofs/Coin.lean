import Verif.Model.Coin
import Verif.Proofs.Membership

/-!
# Lemmas about the circuits of `coin.rs`
-/

namespace CT

set_option linter.unusedSectionVars false

theorem unwrap_ok {α : Type} {x : Except Err α} {a : α} : unwrap x = .ok a ↔ x = .ok a := by
  cases x with
  | ok b => rfl
  | error e => cases e <;> simp [unwrap]

theorem constrain_satisfiedBy {F G X : Type} [Field F] {s : VState F G X} {lc : LC F} {w : Assignment F}
    (h : (s.constrain lc).SatisfiedBy w) : s.SatisfiedBy w ∧ w.eval lc = 0 :=
  ⟨⟨h.1, fun c hc => h.2 c (by simp [VState.constrain, hc])⟩, h.2 lc (by simp [VState.constrain])⟩

section Mint
variable {F G X : Type} [Field F] (o : Oracle F G X)

theorem verifyMint_ok {c : G} {s s' : VState F G X} {v : Variable} (h : verifyMint o c s = .ok (v, s')) :
    v = .vectorCommit s.vecComms.length 0 ∧ s'.vecComms = s.vecComms ++ [(c, 2)] ∧
    ∀ w, s'.SatisfiedBy w → s.SatisfiedBy w ∧ ∃ k < 2 ^ 64, w.vec s.vecComms.length 0 = (k : Nat) := by
  simp only [verifyMint, VState.commitVec] at h
  have e : ((List.range 2).map fun i => Variable.vectorCommit s.vecComms.length i)[0]? = some (.vectorCommit s.vecComms.length 0) := rfl
  rw [e] at h
  simp only at h
  split at h
  · cases h
  · rename_i u s2 hr
    rw [unwrap_ok] at hr
    simp only [Except.ok.injEq, Prod.mk.injEq] at h
    obtain ⟨rfl, rfl⟩ := h
    refine ⟨rfl, runV_vecComms o hr, fun w hw => ⟨(SatisfiedBy_of_run o hr hw :), ?_⟩⟩
    obtain ⟨k, hk, e⟩ := rangeProof_sound o hr hw
    exact ⟨k, hk, by simpa [Assignment.val] using e⟩
end Mint

section
variable {B : Bool → Type} [∀ p, Field (B p)] [∀ p, DecidableEq (B p)] {C : ∀ p, SWCurve (B p)}
  {L M : Nat} [NeZero M]

/-- What a loop of the path gadget does to the Verifier: it commits to every parent except the root. -/
theorem verifierLoop_ok {p : Bool} (o : SideO C p) {fx : Bool} {prm : SelRerand C} {T : CurveTree L M (Pts C)} {rootHere : Bool}
    {child : Nat → Option (C (!p)).Pt} (ps : List (C p).Pt) : ∀ (i : Nat) {s s' : SideV C p},
    verifierLoop o fx prm T rootHere child i ps s = .ok s' →
    s'.vecComms = s.vecComms ++ (if i = 0 ∧ rootHere = true then ps.tail else ps).map (·, L) ∧
    ∀ w, s'.SatisfiedBy w → s.SatisfiedBy w := by
  induction ps with
  | nil =>
    intro i s s' h
    simp only [verifierLoop, Except.ok.injEq] at h
    subst h
    simp
  | cons parent ps ih =>
    intro i s s' h
    simp only [verifierLoop] at h
    cases hc : child i with
    | none => simp [hc] at h
    | some c =>
      simp only [hc] at h
      split at h
      · cases h
      · rename_i children s1 hch
        split at h
        · cases h
        · rename_i u s2 hr
          obtain ⟨e2, m2⟩ := ih (i + 1) h
          have e1 := runV_vecComms o hr
          have m1 : ∀ w, s2.SatisfiedBy w → s1.SatisfiedBy w := fun w hw => (SatisfiedBy_of_run o hr hw :)
          rw [if_neg (by simp)] at e2
          unfold verifierChildren at hch
          by_cases hroot : i = 0 ∧ rootHere = true
          · rw [if_pos (by simp [hroot])] at hch
            cases hx : rootSiblings prm p T with
            | error e => rw [hx] at hch; cases hch
            | ok xs =>
              rw [hx] at hch
              simp only [Except.map, Except.ok.injEq, Prod.mk.injEq] at hch
              obtain ⟨-, rfl⟩ := hch
              refine ⟨?_, fun w hw => m1 w (m2 w hw)⟩
              rw [e2, e1, if_pos hroot]; simp
          · rw [if_neg (by simpa using hroot)] at hch
            simp only [Except.ok.injEq, Prod.mk.injEq] at hch
            obtain ⟨-, rfl⟩ := hch
            refine ⟨?_, fun w hw => ?_⟩
            · rw [e2, e1, if_neg hroot]; simp [VState.commitVec]
            · have := m1 w (m2 w hw)
              exact this

/-- The even half of the path gadget commits to the even nodes of the path, without the root. -/
theorem evenVerifier_ok {o : SideO C false} {fx : Bool} {prm : SelRerand C} {T : CurveTree L M (Pts C)}
    {path path' : Path (C false).Pt (C true).Pt} (hr : addRoot T path = .ok path') {s s' : SideV C false}
    (h : evenVerifierGadget o fx prm T path' s = .ok s') :
    s'.vecComms = s.vecComms ++ path.even.map (·, L) ∧ path'.selected = path.selected ∧ ∀ w, s'.SatisfiedBy w → s.SatisfiedBy w := by
  unfold addRoot at hr
  cases T with
  | odd n =>
    simp only at hr
    split at hr
    · rename_i hl
      simp only [Except.ok.injEq] at hr
      subst hr
      simp only [evenVerifierGadget, pathRootIsOdd, List.length_cons, hl, if_true] at h
      obtain ⟨a, b⟩ := verifierLoop_ok o _ 0 h
      exact ⟨by simpa using a, rfl, b⟩
    · cases hr
  | even n =>
    simp only at hr
    split at hr
    · rename_i hl
      simp only [Except.ok.injEq] at hr
      subst hr
      simp only [evenVerifierGadget, pathRootIsOdd, List.length_cons] at h
      rw [if_neg (by omega), if_pos hl] at h
      obtain ⟨a, b⟩ := verifierLoop_ok o _ 0 h
      exact ⟨by simpa using a, rfl, b⟩
    · cases hr

end

section
variable {B : Bool → Type} [∀ p, Field (B p)] [∀ p, DecidableEq (B p)] {C : ∀ p, SWCurve (B p)}
  {L : Nat} {K : Type}

theorem verifySpendEven_ok {o : SideO C false} {fx : Bool} {prm : SelRerand C} {tag : B true} {T : CurveTree L 1 (Pts C)}
    {path path' : Path (C false).Pt (C true).Pt} (hr : addRoot T path = .ok path') {s s' : SideV C false} {v : Variable}
    (h : verifySpendEven o fx prm tag T path' s = .ok (v, s')) :
    2 ≤ L ∧ v = .vectorCommit (s.vecComms.length + path.even.length) 0 ∧
    s'.vecComms = s.vecComms ++ path.even.map (·, L) ++ [(path.selected, L)] ∧
    (∃ s1, evenVerifierGadget o fx prm T path' s = .ok s1 ∧ s1.vecComms <+: s'.vecComms ∧ ∀ w, s'.SatisfiedBy w → s1.SatisfiedBy w) ∧
    ∀ w, s'.SatisfiedBy w → s.SatisfiedBy w ∧ w.vec (s.vecComms.length + path.even.length) 1 = tag := by
  unfold verifySpendEven at h
  cases hg : evenVerifierGadget o fx prm T path' s with
  | error e => rw [hg] at h; cases h
  | ok s1 =>
    rw [hg] at h
    obtain ⟨e1, e2, e3⟩ := evenVerifier_ok hr hg
    simp only [VState.commitVec] at h
    have el : s1.vecComms.length = s.vecComms.length + path.even.length := by rw [e1]; simp
    split at h
    · rename_i v1 v0 h1 h0
      simp only [Except.ok.injEq, Prod.mk.injEq] at h
      obtain ⟨rfl, rfl⟩ := h
      have hL : 2 ≤ L := by
        have := (List.getElem?_eq_some_iff.1 h1).1
        simp at this; omega
      have g1 : v1 = .vectorCommit s1.vecComms.length 1 := by
        simp [List.getElem?_map, List.getElem?_range (show 1 < L by omega)] at h1; exact h1.symm
      have g0 : v0 = .vectorCommit s1.vecComms.length 0 := by
        simp [List.getElem?_map, List.getElem?_range (show 0 < L by omega)] at h0; exact h0.symm
      subst g1 g0
      refine ⟨hL, by rw [el], by simp [VState.constrain, e1, e2], ⟨s1, rfl, ⟨_, rfl⟩, fun w hw => ?_⟩, fun w hw => ?_⟩
      · exact (constrain_satisfiedBy hw).1
      · obtain ⟨a, b⟩ := constrain_satisfiedBy hw
        refine ⟨e3 w a, ?_⟩
        rw [el] at b
        simp only [eval_sub, eval_ofVar, eval_const, Assignment.val] at b
        exact sub_eq_zero.1 b
    · cases h

/-- The layout of the even circuit of a Pour. -/
theorem pourEvenCircuit_ok {o : SideO C false} {fx : Bool} {prm : SelRerand C} {tag : K → B true} {T : CurveTree L 1 (Pts C)} {pk0 pk1 : K}
    {c0 c1 : (C false).Pt} {path0 path1 path0' path1' : Path (C false).Pt (C true).Pt} (hr0 : addRoot T path0 = .ok path0')
    (hr1 : addRoot T path1 = .ok path1') {s s' : SideV C false} (h0 : s.vecComms = [])
    (h : pourEvenCircuit o fx prm tag T pk0 pk1 c0 c1 path0' path1' s = .ok s') :
    2 ≤ L ∧
    s'.vecComms = [(c0, 2), (c1, 2)] ++ path0.even.map (·, L) ++ [(path0.selected, L)] ++ path1.even.map (·, L) ++ [(path1.selected, L)] ∧
    (∃ a a' b b', evenVerifierGadget o fx prm T path0' a = .ok a' ∧ evenVerifierGadget o fx prm T path1' b = .ok b' ∧
      a'.vecComms <+: s'.vecComms ∧ b'.vecComms <+: s'.vecComms ∧
      ∀ w, s'.SatisfiedBy w → a'.SatisfiedBy w ∧ b'.SatisfiedBy w) ∧
    ∀ w, s'.SatisfiedBy w →
      (∃ k < 2 ^ 64, w.vec 0 0 = (k : Nat)) ∧ (∃ k < 2 ^ 64, w.vec 1 0 = (k : Nat)) ∧
      w.vec (2 + path0.even.length) 1 = tag pk0 ∧ w.vec (3 + path0.even.length + path1.even.length) 1 = tag pk1 ∧
      w.vec 0 0 + w.vec 1 0 = w.vec (2 + path0.even.length) 0 + w.vec (3 + path0.even.length + path1.even.length) 0 := by
  unfold pourEvenCircuit at h
  cases h1 : verifyMint o c0 s with
  | error e => rw [h1] at h; cases h
  | ok r1 =>
    obtain ⟨m0, s1⟩ := r1
    rw [h1] at h; simp only at h
    cases h2 : verifyMint o c1 s1 with
    | error e => rw [h2] at h; cases h
    | ok r2 =>
      obtain ⟨m1, s2⟩ := r2
      rw [h2] at h; simp only at h
      cases h3 : verifySpendEven o fx prm (tag pk0) T path0' s2 with
      | error e => rw [h3] at h; cases h
      | ok r3 =>
        obtain ⟨v0, s3⟩ := r3
        rw [h3] at h; simp only at h
        cases h4 : verifySpendEven o fx prm (tag pk1) T path1' s3 with
        | error e => rw [h4] at h; cases h
        | ok r4 =>
          obtain ⟨v1, s4⟩ := r4
          rw [h4] at h
          simp only [Except.ok.injEq] at h
          subst h
          obtain ⟨a1, a2, a3⟩ := verifyMint_ok o h1
          obtain ⟨b1, b2, b3⟩ := verifyMint_ok o h2
          obtain ⟨c1', c2, c3, ⟨a', c5, c6, c7⟩, c4⟩ := verifySpendEven_ok hr0 h3
          obtain ⟨d1, d2, d3, ⟨b', d5, d6, d7⟩, d4⟩ := verifySpendEven_ok hr1 h4
          have hpre : s3.vecComms <+: s4.vecComms := by rw [d3, List.append_assoc]; exact List.prefix_append _ _
          rw [h0] at a1 a2 a3
          rw [a2] at b1 b2 b3
          rw [b2] at c2 c3 c4
          rw [c3] at d2 d3 d4
          simp only [List.nil_append, List.length_nil, List.length_append, List.length_map,
            List.length_cons, Nat.zero_add, Nat.reduceAdd] at a1 a3 b1 b3 c2 c4 d2 d4
          have e3 : 2 + path0.even.length + 1 + path1.even.length = 3 + path0.even.length + path1.even.length := by omega
          rw [e3] at d2 d4
          subst a1 b1 c2 d2
          refine ⟨c1', by simp [VState.constrain, d3], ⟨s2, a', s3, b', c5, d5, c6.trans hpre, d6, fun w hw => ?_⟩, fun w hw => ?_⟩
          · obtain ⟨w4, _⟩ := constrain_satisfiedBy hw
            exact ⟨c7 w (d4 w w4).1, d7 w w4⟩
          obtain ⟨w4, wb⟩ := constrain_satisfiedBy hw
          obtain ⟨w3, t1⟩ := d4 w w4
          obtain ⟨w2, t0⟩ := c4 w w3
          obtain ⟨w1, k1⟩ := b3 w w2
          obtain ⟨_, k0⟩ := a3 w w1
          refine ⟨k0, k1, t0, t1, ?_⟩
          simp only [balance, eval_sub, eval_add, eval_ofVar, Assignment.val] at wb
          rw [sub_sub, sub_eq_zero] at wb
          exact wb

end

end CT
