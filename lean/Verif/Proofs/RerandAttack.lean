import Verif.Proofs.GadgetSync
import Verif.Proofs.RerandComplete

/-! A Prover that satisfies the code's re-randomisation constraints for unrelated commitments. -/

namespace CT
set_option linter.unusedSectionVars false
variable {F G X : Type} [Field F] [DecidableEq F] {o : Oracle F G X} {C : SWCurve F}

theorem sameCalls_cheat (C : SWCurve F) (lambda : Nat) (ts : List (Table F))
    (hlen : ts.length = windows lambda) (c : PointRep C) (hw : c.witness = none) (P0 : C.Pt)
    (xT yT : LC F) (r : Nat) (P : C.Pt) :
    SameCalls (G := G) (X := X) Eq
      (cheatRerandomize C lambda ts c.x c.y P0 xT yT r P)
      (reRandomize C false lambda ts c xT yT none) := by
  unfold cheatRerandomize reRandomize
  rw [if_neg (by omega), List.take_of_length_le (by omega)]
  refine SameCalls.bind (R := fun a b => a.2 = b.2) ?_ fun a b hab => ?_
  · cases ts with
    | nil => exact .fail
    | cons t ts =>
      unfold rerandLoop
      refine SameCalls.bind (R := fun a b => a.2 = b.2) ?_ fun a b hab => sync_rerandLoop _ _ _ _ _ _ hab
      exact (sync_rerandStepBody _ _ _ _ _ _ _ _ _ _).bind fun a b hab => .pure hab
  · obtain ⟨acc, ax, ay⟩ := a
    obtain ⟨acc', ax', ay'⟩ := b
    simp only [Prod.mk.injEq] at hab
    obtain ⟨rfl, rfl⟩ := hab
    rw [hw]
    refine SameCalls.bind (R := fun _ b => b = (none, none)) ?_ fun a b hb => ?_
    · simp only [rerandFinalMatch]
      cases hf : rerandFinalWitness C P0 acc with
      | none => exact .fail
      | some f => exact .pure rfl
    subst hb
    apply sync_checked; rfl

/-- The chain of additions that ends in `Q - P` after adding the entries selected by `r` avoids the
exceptional cases. -/
structure Attackable (C : SWCurve F) (lambda : Nat) (h : C.Pt) (r : Nat) (P Q : C.Pt) : Prop where
  gen : ∀ k, 1 ≤ k → k < windows lambda → C.DiffX
      (Q - P - (partialScalar (windows lambda) (fun i => windowIndex lambda r (i + 1))
        (windows lambda) - partialScalar (windows lambda) (fun i => windowIndex lambda r (i + 1)) k) • h)
      (tableScalar (windows lambda) (k + 1) (windowIndex lambda r (k + 1)) • h)
  first : Q - P ≠ (partialScalar (windows lambda)
      (fun i => windowIndex lambda r (i + 1)) (windows lambda) -
      partialScalar (windows lambda) (fun i => windowIndex lambda r (i + 1)) 1) • h
  fin : C.DiffX P (Q - P)

theorem complete_attack {lambda : Nat} {h : C.Pt} {ts : List (Table F)}
    (hts : buildTables C (windows lambda) h = some ts) {s : PState F G X} (hs : s.Good)
    {cx cy xT yT : LC F} {P Q : C.Pt} (hc : s.Rep C P (cx, cy)) (hQ : s.Rep C Q (xT, yT)) {r : Nat}
    (ha : Attackable C lambda h r P Q) :
    Complete o (cheatRerandomize C lambda ts cx cy P xT yT r (Q - P -
      (partialScalar (windows lambda) (fun i => windowIndex lambda r (i + 1)) (windows lambda) -
          partialScalar (windows lambda) (fun i => windowIndex lambda r (i + 1)) 1) • h)) s
      fun _ _ => True := by
  have hl := (buildTables_spec hts).1
  cases ts with
  | nil => simp [windows] at hl
  | cons tb ts =>
    have hlen : windows lambda = ts.length + 1 := by simpa using hl.symm
    have hsum : ∀ k, ((List.range k).map fun l => entryAt C lambda r h (l + 1)).sum =
        (partialScalar (windows lambda) (fun i => windowIndex lambda r (i + 1)) (k + 1) -
          partialScalar (windows lambda) (fun i => windowIndex lambda r (i + 1)) 1) • h := by
      intro k
      have e := entries_sum lambda r h (k + 1)
      have e1 := entries_sum lambda r h 1
      rw [List.range_succ_eq_map] at e
      simp only [List.map_cons, List.map_map, List.sum_cons] at e
      simp only [List.range_one, List.map_cons, List.map_nil, List.sum_cons, List.sum_nil,
        add_zero] at e1
      rw [sub_smul, ← e, ← e1]
      simp only [Function.comp_def, Nat.succ_eq_add_one]
      abel
    have hA : ∀ k, (Q - P -
      (partialScalar (windows lambda) (fun i => windowIndex lambda r (i + 1)) (windows lambda) -
          partialScalar (windows lambda) (fun i => windowIndex lambda r (i + 1)) 1) • h) +
          ((List.range k).map fun l => entryAt C lambda r h (l + 1)).sum =
        Q - P - (partialScalar (windows lambda) (fun i => windowIndex lambda r (i + 1))
        (windows lambda) - partialScalar (windows lambda)
          (fun i => windowIndex lambda r (i + 1)) (k + 1)) • h := by
      intro k
      rw [hsum]
      simp only [sub_smul]
      abel
    have hall := hA ts.length
    rw [← hlen, sub_self, zero_smul, sub_zero] at hall
    refine complete_cheat (r := r) hs hts hc hQ ?_ ?_ ?_ ?_
    · exact sub_ne_zero.2 ha.first
    · intro k hk
      rw [hA]
      exact ha.gen (k + 1) (by omega) (by omega)
    · rw [hall]; abel
    · rw [hall]; exact ha.fin

theorem attackable_of_unrelated {lambda : Nat} {h : C.Pt} {ts : List (Table F)}
    (hts : buildTables C (windows lambda) h = some ts) {P Q : C.Pt} (hP : P ≠ 0) (hQ : Q ≠ 0)
    (hrel : ¬ ∃ r : ℤ, Q = P + r • h) (h2 : Q ≠ P + P) : Attackable C lambda h 0 P Q := by
  have hno : ∀ z : ℤ, Q - P ≠ z • h := by
    intro z e; exact hrel ⟨z, by rw [← e]; abel⟩
  refine ⟨fun k hk1 hk2 => ⟨?_, ?_, ?_, ?_⟩, hno _, hP, ?_, ?_, ?_⟩
  · intro e
    exact hno _ (sub_eq_zero.1 e)
  · obtain ⟨tb, htb⟩ : ∃ tb, ts[k]? = some tb :=
      ⟨_, List.getElem?_eq_getElem (by rw [(buildTables_spec hts).1]; exact hk2)⟩
    obtain ⟨hc, e⟩ := new?_some (entry_spec (r := 0) hts htb)
    unfold entryAt at e
    rw [e]
    exact C.pt_ne_zero _
  · intro e
    rw [sub_eq_iff_eq_add, ← add_smul] at e
    exact hno _ e
  · intro e
    rw [sub_eq_iff_eq_add, ← neg_smul, ← add_smul] at e
    exact hno _ e
  · intro e
    exact hno 0 (by rw [zero_smul]; exact e)
  · intro e
    exact h2 (by rw [eq_sub_iff_add_eq] at e; exact e.symm)
  · intro e
    rw [neg_sub, eq_sub_iff_add_eq] at e
    exact hQ (by simpa using e)

end CT
