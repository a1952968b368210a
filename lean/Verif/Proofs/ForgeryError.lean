import Verif.Proofs.Membership
import Verif.Proofs.TreeForge
import Verif.Proofs.Cost

/-! Which points a forger cannot use, and the size of the forged statement. -/

namespace CT

section
variable {F : Type} [Field F] [DecidableEq F] {C : SWCurve F}

/-- All points but `3 windows + 1` can take the place of the re-randomised point. -/
theorem attackable_off {lambda : Nat} {h : C.Pt} {ts : List (Table F)} (hts : buildTables C (windows lambda) h = some ts) {P : C.Pt} (hP : P ≠ 0) (r : Nat) :
    ∃ bad : List C.Pt, bad.length = 3 * windows lambda + 1 ∧ ∀ Q, Q ∉ bad → Attackable C lambda h r P Q ∧ Q ≠ 0 := by
  let c : Nat → C.Pt := fun k => (partialScalar (windows lambda) (fun i => windowIndex lambda r (i + 1)) (windows lambda) -
    partialScalar (windows lambda) (fun i => windowIndex lambda r (i + 1)) k) • h
  let e : Nat → C.Pt := fun k => tableScalar (windows lambda) (k + 1) (windowIndex lambda r (k + 1)) • h
  have hw : 1 ≤ windows lambda := by simp [windows]
  refine ⟨(List.range (windows lambda - 1)).flatMap (fun k => [P + c (k + 1), P + c (k + 1) + e (k + 1), P + c (k + 1) - e (k + 1)]) ++ [P + c 1, P, P + P, 0], ?_, fun Q hQ => ?_⟩
  · rw [List.length_append, List.length_flatMap]
    simp
    omega
  · simp only [List.mem_append, List.mem_flatMap, List.mem_range, List.mem_cons, List.not_mem_nil, or_false, not_or, not_exists, not_and] at hQ
    obtain ⟨h1, h2, h3, h4, h5⟩ := hQ
    refine ⟨⟨fun k hk1 hk2 => ?_, ?_, hP, ?_, ?_, ?_⟩, h5⟩
    · obtain ⟨g1, g2, g3⟩ := h1 (k - 1) (by omega)
      rw [show k - 1 + 1 = k by omega] at g1 g2 g3
      refine ⟨?_, ?_, ?_, ?_⟩
      · intro E
        exact g1 (by change Q - P - c k = 0 at E; rw [sub_sub, sub_eq_zero] at E; exact E)
      · obtain ⟨tb, htb⟩ : ∃ tb, ts[k]? = some tb :=
          ⟨_, List.getElem?_eq_getElem (by rw [(buildTables_spec hts).1]; exact hk2)⟩
        obtain ⟨hc, E⟩ := new?_some (entry_spec (r := r) hts htb)
        unfold entryAt at E
        rw [E]
        exact C.pt_ne_zero _
      · intro E
        change Q - P - c k = e k at E
        exact g2 (by rw [sub_sub, sub_eq_iff_eq_add'] at E; exact E)
      · intro E
        change Q - P - c k = - e k at E
        exact g3 (by rw [sub_sub, sub_eq_iff_eq_add'] at E; rw [E]; abel)
    · intro E
      exact h2 (by rw [sub_eq_iff_eq_add'] at E; exact E)
    · intro E
      exact h3 (sub_eq_zero.1 E)
    · intro E
      exact h4 (by rw [eq_sub_iff_add_eq] at E; exact E.symm)
    · intro E
      rw [neg_sub, eq_sub_iff_add_eq] at E
      exact h5 (by simpa using E)

end

section
variable {B : Bool → Type} [∀ p, Field (B p)] [∀ p, DecidableEq (B p)] {C : ∀ p, SWCurve (B p)} {L M : Nat} [NeZero M] {p : Bool}

/-- Two Verifiers in such states have circuits of the same size and the same vector commitments. -/
structure SameShape {F G X : Type} (t t' : VState F G X) : Prop where
  vars : t.numVars = t'.numVars
  pend : spare t.pending = spare t'.pending
  comms : t.vecComms = t'.vecComms

theorem verifierLoop_shape (o : SideO C p) (fx : Bool) {prm : SelRerand C} (h3 : 3 ≤ (prm.layer (!p)).lambda) (T : CurveTree L M (Pts C)) (rootHere : Bool)
    (child child' : Nat → Option (C (!p)).Pt) (ps : List (C p).Pt) : ∀ (i : Nat) {t t' u u' : SideV C p}, SameShape t t' →
    verifierLoop o fx prm T rootHere child i ps t = .ok u → verifierLoop o fx prm T rootHere child' i ps t' = .ok u' → SameShape u u' := by
  induction ps with
  | nil =>
    intro i t t' u u' h h1 h2
    simp only [verifierLoop, Except.ok.injEq] at h1 h2
    subst h1 h2
    exact h
  | cons a ps ih =>
    intro i t t' u u' h h1 h2
    rw [verifierLoop] at h1 h2
    cases hc : child i with
    | none => simp [hc] at h1
    | some c =>
      cases hc' : child' i with
      | none => simp [hc'] at h2
      | some c' =>
        simp only [hc] at h1
        simp only [hc'] at h2
        split at h1
        · cases h1
        rename_i ch s1 e1
        split at h2
        · cases h2
        rename_i ch' s1' e1'
        have k : ch.length = ch'.length ∧ SameShape s1 s1' := by
          unfold verifierChildren at e1 e1'
          split at e1
          · rename_i hr
            rw [if_pos hr] at e1'
            cases hx : rootSiblings prm p T with
            | error e => rw [hx] at e1; cases e1
            | ok xs =>
              rw [hx] at e1 e1'
              simp only [Except.map, Except.ok.injEq, Prod.mk.injEq] at e1 e1'
              obtain ⟨rfl, rfl⟩ := e1
              obtain ⟨rfl, rfl⟩ := e1'
              exact ⟨rfl, h⟩
          · rename_i hr
            rw [if_neg hr] at e1'
            simp only [Except.ok.injEq, Prod.mk.injEq] at e1 e1'
            obtain ⟨rfl, rfl⟩ := e1
            obtain ⟨rfl, rfl⟩ := e1'
            exact ⟨by simp [VState.commitVec], h.vars, h.pend, by simp [VState.commitVec, h.comms]⟩
        split at h1
        · cases h1
        rename_i x s2 r1
        split at h2
        · cases h2
        rename_i x' s2' r2
        refine ih (i + 1) ?_ h1 h2
        obtain ⟨⟨a1, -, -⟩, a2⟩ := (costs_singleLevel (C (!p)) fx (prm.layer (!p)) h3 c ch none none).growsV r1
        obtain ⟨⟨b1, -, -⟩, b2⟩ := (costs_singleLevel (C (!p)) fx (prm.layer (!p)) h3 c' ch' none none).growsV r2
        simp only [VState.metrics] at a1 b1
        refine ⟨?_, ?_, ?_⟩
        · rw [a1, b1, k.1, k.2.vars, k.2.pend]
        · rw [a2, b2, k.2.pend]
        · rw [runV_vecComms _ r1, runV_vecComms _ r2, k.2.comms]

/-- The size of the Verifier's circuit does not depend on the selected point. -/
theorem treeVerifier_shape {oE : SideO C false} {oO : SideO C true} {fx : Bool} {prm : SelRerand C} (h3 : ∀ p, 3 ≤ (prm.layer p).lambda) {T : CurveTree L M (Pts C)}
    {path : Path (C false).Pt (C true).Pt} {Q Q' Q'' : (C false).Pt} {tE uE uE' : SideV C false} {tO uO uO' : SideV C true}
    (h : treeVerifierGadget oE oO fx prm T path tE tO = .ok (Q', uE, uO))
    (h' : treeVerifierGadget oE oO fx prm T { path with selected := Q } tE tO = .ok (Q'', uE', uO')) : SameShape uE uE' ∧ SameShape uO uO' := by
  unfold treeVerifierGadget at h h'
  split at h
  · cases h
  rename_i P hP
  have hP' : addRoot T { path with selected := Q } = .ok { P with selected := Q } := by
    cases T with
    | even n =>
      simp only [addRoot] at hP ⊢
      split at hP
      · rename_i hl; rw [if_pos hl]; cases hP; rfl
      · cases hP
    | odd n =>
      simp only [addRoot] at hP ⊢
      split at hP
      · rename_i hl; rw [if_pos hl]; cases hP; rfl
      · cases hP
  rw [hP'] at h'
  simp only [evenVerifierGadget, oddVerifierGadget] at h h'
  rw [show pathRootIsOdd { P with selected := Q } = pathRootIsOdd P from rfl] at h'
  cases hr : pathRootIsOdd P with
  | error e => simp [hr] at h
  | ok re =>
    simp only [hr] at h h'
    split at h
    · cases h
    rename_i vE e1
    split at h
    · cases h
    rename_i vO e2
    split at h'
    · cases h'
    rename_i vE' e1'
    split at h'
    · cases h'
    rename_i vO' e2'
    simp only [Except.ok.injEq, Prod.mk.injEq] at h h'
    obtain ⟨-, rfl, rfl⟩ := h
    obtain ⟨-, rfl, rfl⟩ := h'
    exact ⟨verifierLoop_shape oE fx (h3 _) T _ _ _ P.even 0 ⟨rfl, rfl, rfl⟩ e1 e1', verifierLoop_shape oO fx (h3 _) T _ _ _ P.odd 0 ⟨rfl, rfl, rfl⟩ e2 e2'⟩

end

end CT
