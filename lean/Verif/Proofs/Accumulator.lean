import Verif.Model.Accumulator
import Verif.Proofs.TreeComplete
import Verif.Proofs.PourComplete
import Verif.Props.Membership
import Verif.Props.Batch

/-! The accumulator: the leaf is opened and the element selected; helper lemmas. -/

namespace CT

section Open
variable {F G X : Type} [Field F] [AddCommGroup G] [Module F G]

/-- Committing to a vector and selecting one of its entries succeeds for both. -/
theorem open_select {o : Oracle F G X} {g : Gens G} {s : PState F G X} {t : VState F G X} (h : Session o g s t) (hs : s.Good)
    {ys : List F} (bl : F) (hg : ys.length ≤ g.Gs.length) {e : F} (he : e ∈ ys) :
    ∃ s1 s2 t2, s.commitVec g ys bl = .ok ((msm (g.pc.Bbl :: g.Gs.take ys.length) (bl :: ys),
        (List.range ys.length).map fun i => .vectorCommit s.vecOpen.length i), s1) ∧
      runP o (select (LC.const e) (((List.range ys.length).map fun i => Variable.vectorCommit s.vecOpen.length i).map LC.ofVar)) s1 = .ok ((), s2) ∧
      runV o (select (LC.const e) ((t.commitVec ys.length (msm (g.pc.Bbl :: g.Gs.take ys.length) (bl :: ys))).1.map LC.ofVar))
        (t.commitVec ys.length (msm (g.pc.Bbl :: g.Gs.take ys.length) (bl :: ys))).2 = .ok ((), t2) ∧
      Session o g s2 t2 ∧ s2.Good ∧ s2.deferred = s.deferred := by
  obtain ⟨V, s1, c1, c2, c3, c4, -⟩ := commitVec_good hs ys bl hg
  obtain ⟨hV, -, -⟩ := PState.commitVec_ok c1
  subst hV
  have hses := h.commitVec c1
  have hcl : t.vecComms.length = s.vecOpen.length := h.comms_length
  have hvars : (t.commitVec ys.length (msm (g.pc.Bbl :: g.Gs.take ys.length) (bl :: ys))).1 =
      (List.range ys.length).map fun i => Variable.vectorCommit s.vecOpen.length i := by
    simp [VState.commitVec, hcl]
  have hhas : ∀ lc ∈ (((List.range ys.length).map fun i => Variable.vectorCommit s.vecOpen.length i).map (LC.ofVar (F := F))), s1.HasLC lc := by
    intro lc hlc
    simp only [List.map_map, List.mem_map, List.mem_range, Function.comp] at hlc
    obtain ⟨i, hi, rfl⟩ := hlc
    exact PState.hasLC_ofVar ⟨(bl, ys), by rw [c4]; simp, hi⟩
  obtain ⟨⟨⟩, s2, r1, r2, r3, -⟩ := complete_select (o := o) c2 (x := LC.const e) PState.hasLC_const hhas (by
    obtain ⟨i, hi, rfl⟩ := List.getElem_of_mem he
    refine ⟨LC.ofVar (.vectorCommit s.vecOpen.length i), ?_, ?_⟩
    · simp only [List.map_map, List.mem_map, List.mem_range, Function.comp]
      exact ⟨i, hi, rfl⟩
    · rw [eval_ofVar, eval_const]
      simp [Assignment.val, PState.assignment, c4, List.getD_eq_getElem?_getD, hi])
  obtain ⟨⟨⟩, t2, k1, -⟩ := sameCalls_run o (.refl (R := Eq) (fun _ => rfl)
    (select (LC.const e) (((List.range ys.length).map fun i => Variable.vectorCommit s.vecOpen.length i).map LC.ofVar))) hses.inv.sync.stmt r1
  refine ⟨s1, s2, t2, c1, r1, by rw [hvars]; exact k1, hses.gadget (.refl (R := Eq) (fun _ => rfl) _) r1 k1, r2, r3.deferred.trans c3⟩

end Open

section
variable {B : Bool → Type} [∀ p, Field (B p)] [∀ p, DecidableEq (B p)] {C : ∀ p, SWCurve (B p)}
  [∀ p, Module (B (!p)) (C p).Pt] {L M : Nat} [NeZero M]

theorem accLeaf_eq {prm : SelRerand C} {ys : List (B (!false))} {Q : (C false).Pt} (h : accLeaf prm ys = some Q) :
    ys.length ≤ (prm.gens false).Gs.length ∧ Q = msm ((prm.gens false).Gs.take ys.length) ys := by
  unfold accLeaf layerCommit? layerGens at h
  simp only [Nat.mul_zero, List.drop_zero, Nat.zero_add, Nat.mul_one, List.length_take] at h
  split at h
  · cases h
  · rename_i hl
    simp only [Option.some.injEq] at h
    exact ⟨by omega, by rw [← h, msm_cons, zero_smul, zero_add]⟩

theorem accLeaf_some {prm : SelRerand C} {ys : List (B (!false))} (h : ys.length ≤ (prm.gens false).Gs.length) :
    accLeaf prm ys = some (msm ((prm.gens false).Gs.take ys.length) ys) := by
  unfold accLeaf layerCommit? layerGens
  simp only [Nat.mul_zero, List.drop_zero, Nat.zero_add, Nat.mul_one, List.length_take]
  rw [if_neg (by omega), msm_cons, zero_smul, zero_add]

omit [∀ p, Module (B (!p)) (C p).Pt] in
theorem accVerifiers_ok {o : ∀ p, SideO C p} {fx : Bool} {prm : SelRerand C} {T : CurveTree L M (Pts C)}
    {dom : ∀ p, Transcript (B (!p)) (C p).Pt (C (!p)).Pt} {width : Nat} {e : B (!false)} {path : Path (C false).Pt (C true).Pt}
    {tE : SideV C false} {tO : SideV C true} :
    accVerifiers o fx prm T dom width e path = .ok (tE, tO) ↔
      ∃ tE1, treeVerifierGadget (o false) (o true) fx prm T path (.new (dom false)) (.new (dom true)) = .ok (path.selected, tE1, tO) ∧
        runV (o false) (select (LC.const e) ((tE1.commitVec width path.selected).1.map LC.ofVar)) (tE1.commitVec width path.selected).2 = .ok ((), tE) := by
  unfold accVerifiers treeVerifierGadget accEvenVerifier
  cases hr : addRoot T path with
  | error e => simp
  | ok path' =>
    simp only
    cases hE : evenVerifierGadget (o false) fx prm T path' (.new (dom false)) with
    | error e => simp
    | ok tE1 =>
      have hsel : path'.selected = path.selected := (evenVerifier_ok hr hE).2.1
      simp only [hsel]
      cases hO : oddVerifierGadget (o true) fx prm T path' (.new (dom true)) with
      | error e =>
        refine ⟨fun h => ?_, fun ⟨_, h, _⟩ => by cases h⟩
        split at h <;> cases h
      | ok tO1 =>
        simp only [Except.ok.injEq, Prod.mk.injEq, true_and]
        constructor
        · intro h
          cases hS : runV (o false) (select (LC.const e) ((tE1.commitVec width path.selected).1.map LC.ofVar)) (tE1.commitVec width path.selected).2 with
          | error e => rw [hS] at h; cases h
          | ok x =>
            rw [hS] at h
            simp only [Except.map, Except.ok.injEq, Prod.mk.injEq] at h
            obtain ⟨rfl, rfl⟩ := h
            exact ⟨tE1, ⟨rfl, rfl⟩, hS⟩
        · rintro ⟨_, ⟨rfl, rfl⟩, h⟩
          rw [h]
          rfl

/-- The batch is accepted exactly when both batches of `C10` are. -/
theorem accVerify_iff {o : ∀ p, SideO C p} {fx : Bool} {prm : SelRerand C} {T : CurveTree L M (Pts C)}
    {dom : ∀ p, Transcript (B (!p)) (C p).Pt (C (!p)).Pt} {width : Nat} {e : B (!false)} {rs : ∀ p, List (B (!p))}
    (proofs : List ((∀ p, B (!p)) × AccProof C)) (tE : AccProof C → SideV C false) (tO : AccProof C → SideV C true)
    (h : ∀ x ∈ proofs, accVerifiers o fx prm T dom width e x.2.path = .ok (tE x.2, tO x.2)) :
    accVerify o fx prm T dom width e rs proofs = .ok () ↔
      verifyItems (o false) (prm.gens false) (rs false) (proofs.map fun x => ⟨x.2.even, tE x.2, x.1 false⟩) = .ok () ∧
      verifyItems (o true) (prm.gens true) (rs true) (proofs.map fun x => ⟨x.2.odd, tO x.2, x.1 true⟩) = .ok () := by
  have key : ∀ ps : List ((∀ p, B (!p)) × AccProof C), (∀ x ∈ ps, accVerifiers o fx prm T dom width e x.2.path = .ok (tE x.2, tO x.2)) →
      ∀ vE vO, (∃ vs, ps.mapM (fun x => accTuples o fx prm T dom width e x.1 x.2) = .ok vs ∧ vs.map (·.1) = vE ∧ vs.map (·.2) = vO) ↔
        (ps.map fun x => (⟨x.2.even, tE x.2, x.1 false⟩ : Item _ _ _)).mapM (fun i => verificationTuple (o false) i.r i.proof i.verifier) = .ok vE ∧
        (ps.map fun x => (⟨x.2.odd, tO x.2, x.1 true⟩ : Item _ _ _)).mapM (fun i => verificationTuple (o true) i.r i.proof i.verifier) = .ok vO := by
    intro ps
    induction ps with
    | nil =>
      intro _ vE vO
      constructor
      · rintro ⟨vs, h1, rfl, rfl⟩
        cases h1
        exact ⟨rfl, rfl⟩
      · rintro ⟨h1, h2⟩
        cases h1; cases h2
        exact ⟨[], rfl, rfl, rfl⟩
    | cons x ps ih =>
      intro hx vE vO
      have hx0 := hx x (by simp)
      have ih := ih fun y hy => hx y (by simp [hy])
      simp only [List.map_cons, List.mapM_cons, bind, Except.bind]
      unfold accTuples
      rw [hx0]
      simp only
      cases h1 : verificationTuple (o false) (x.1 false) x.2.even (tE x.2) with
      | error e => simp
      | ok v1 =>
        simp only
        cases h2 : verificationTuple (o true) (x.1 true) x.2.odd (tO x.2) with
        | error e =>
          simp
        | ok v2 =>
          simp only
          have ih := ih
          constructor
          · rintro ⟨vs, k1, k2, k3⟩
            cases hm : ps.mapM (fun x => accTuples o fx prm T dom width e x.1 x.2) with
            | error e => unfold accTuples at hm; rw [hm] at k1; cases k1
            | ok ws =>
              obtain ⟨a, b⟩ := (ih (ws.map (·.1)) (ws.map (·.2))).1 ⟨ws, hm, rfl, rfl⟩
              unfold accTuples at hm
              rw [hm] at k1
              cases k1
              rw [a, b, ← k2, ← k3]
              exact ⟨rfl, rfl⟩
          · rintro ⟨k1, k2⟩
            cases hE : (ps.map fun x => (⟨x.2.even, tE x.2, x.1 false⟩ : Item _ _ _)).mapM (fun i => verificationTuple (o false) i.r i.proof i.verifier) with
            | error e => rw [hE] at k1; cases k1
            | ok wE =>
              cases hO : (ps.map fun x => (⟨x.2.odd, tO x.2, x.1 true⟩ : Item _ _ _)).mapM (fun i => verificationTuple (o true) i.r i.proof i.verifier) with
              | error e => rw [hO] at k2; cases k2
              | ok wO =>
                obtain ⟨ws, m1, m2, m3⟩ := (ih wE wO).2 ⟨hE, hO⟩
                unfold accTuples at m1
                rw [hE] at k1; cases k1
                rw [hO] at k2; cases k2
                exact ⟨(v1, v2) :: ws, by rw [m1]; rfl, by simp [m2], by simp [m3]⟩
  have key := key proofs h
  unfold accVerify verifyItems
  constructor
  · intro hv
    cases hm : proofs.mapM (fun x => accTuples o fx prm T dom width e x.1 x.2) with
    | error e => rw [hm] at hv; cases hv
    | ok vs =>
      rw [hm] at hv
      simp only at hv
      obtain ⟨a, b⟩ := (key _ _).1 ⟨vs, hm, rfl, rfl⟩
      rw [a, b]
      simp only
      cases hb : batchVerify (prm.gens false) (rs false) (vs.map (·.1)) with
      | error e => rw [hb] at hv; cases hv
      | ok u => rw [hb] at hv; exact ⟨rfl, hv⟩
  · rintro ⟨k1, k2⟩
    cases hE : (proofs.map fun x => (⟨x.2.even, tE x.2, x.1 false⟩ : Item _ _ _)).mapM (fun i => verificationTuple (o false) i.r i.proof i.verifier) with
    | error e => rw [hE] at k1; cases k1
    | ok wE =>
      cases hO : (proofs.map fun x => (⟨x.2.odd, tO x.2, x.1 true⟩ : Item _ _ _)).mapM (fun i => verificationTuple (o true) i.r i.proof i.verifier) with
      | error e => rw [hO] at k2; cases k2
      | ok wO =>
        obtain ⟨ws, m1, rfl, rfl⟩ := (key wE wO).2 ⟨hE, hO⟩
        rw [hE] at k1; rw [hO] at k2
        simp only at k1 k2
        rw [m1]
        simp only [k1]
        exact k2

end

end CT
