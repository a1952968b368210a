import Verif.Proofs.Extract
import Verif.Proofs.Exact

/-! # The circuit of a Verifier without deferred callbacks and vector commitments -/

namespace CT
open Finset
variable {F G X : Type} [Field F]

/-- The circuit of such a Verifier, after its gadgets. -/
def VState.onePhase (t : VState F G X) : Circuit F where
  first := t.numVars
  n := t.numVars
  m := t.V.length
  dims := []
  constraints := t.constraints

theorem onePhase_circuit {o : Oracle F G X} {t t2 : VState F G X} {AI AO S : G} (hd : t.deferred = []) (hc : t.vecComms = [])
    (h : t.secondPhase o AI AO S = .ok t2) : t.circuit t2 = t.onePhase ∧ t2.V = t.V := by
  unfold VState.secondPhase at h
  rw [VState.pad_eq] at h
  simp only [VState.createRandomized, hd, if_pos, Except.ok.injEq] at h
  subst h
  simp [VState.circuit, VState.size, VState.onePhase, hc]

variable [DecidableEq F]

/-- A tree of accepting runs has a path. -/
theorem AcceptsTree.second [AddCommGroup G] [Module F G] [DecidableEq G] {c : Circuit F} {lg : Nat} {R : Responses F} {fk : Forks F}
    (hE : fk.Enough c lg) {g : Gens G} {t t2 : VState F G X} {M : Messages F G} (ha : AcceptsTree g t t2 M R fk lg) :
    ∃ o, t.secondPhase o M.AI1 M.AO1 M.S1 = .ok t2 := by
  obtain ⟨y, hy⟩ := Finset.card_pos.1 (lt_of_lt_of_le (by positivity) hE.Y.2)
  obtain ⟨z, hz⟩ := Finset.card_pos.1 (lt_of_lt_of_le (by positivity) (hE.Z y))
  obtain ⟨u, hu⟩ := Finset.card_pos.1 (lt_of_lt_of_le (by positivity) (hE.U y z).2)
  obtain ⟨x, hx⟩ := Finset.card_pos.1 (lt_of_lt_of_le (by positivity) (hE.X y z u))
  obtain ⟨w, hw⟩ := Finset.card_pos.1 (lt_of_lt_of_le (by positivity) (hE.W y z u x).2)
  obtain ⟨us, hl, hus⟩ := exists_path (hE.C y z u x w) lg []
  obtain ⟨o', h, -⟩ := ha y z u x w us ⟨hy, hz, hu, hx, hw, hus⟩ hl
  exact ⟨o', h⟩

end CT
