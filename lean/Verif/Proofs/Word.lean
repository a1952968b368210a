import Verif.Model.Word
import Verif.Proofs.TreeWitness

/-! Helper lemmas about indices computed with machine integers. -/

namespace CT
variable {L M : Nat} {B P : Bool → Type} {p : Bool}
variable [∀ p, Field (B p)] [∀ p, AddCommGroup (P p)]

theorem Machine.pow_exact {m : Machine} {L e : Nat} (h : L ^ e < m.size) : m.pow L e = .ok (L ^ e) := if_pos h

theorem Machine.childIndex_exact {m : Machine} {h index : Nat} (hL : 0 < L) (hlt : L ^ (h + 1) < m.size) :
    m.childIndex L (h + 1) index = .ok (index / L ^ h % L) := by
  have h1 : L ^ h < m.size := lt_of_le_of_lt (Nat.pow_le_pow_right hL (by omega)) hlt
  have p1 : L ^ (h + 1) ≠ 0 := (Nat.pow_pos hL).ne'
  have p2 : L ^ h ≠ 0 := (Nat.pow_pos hL).ne'
  simp only [Machine.childIndex, Nat.add_sub_cancel, Machine.pow_exact hlt, Machine.pow_exact h1, if_neg p1, if_neg p2]
  rw [← childIndex_eq, CT.childIndex, Nat.add_sub_cancel]

/-- If the capacity fits, the machine computes the same as with unbounded numbers. -/
theorem node_machine_exact (m : Machine) (prm : TreeParams B P) (hL : 0 < L) (index : Nat) (i : Fin M) (h : Nat) (hlt : L ^ h < m.size) :
    ∀ {p : Bool} (n : Node L M P p) (acc : WitPath B P), n.Uniform h →
    n.machineWitness m prm index i acc = n.witness prm index i acc := by
  induction h with
  | zero =>
    intro p n acc hu
    cases n with
    | leaf c => simp only [Node.machineWitness, Node.witness]
    | branch => exact absurd hu.2.1 (by omega)
  | succ h ih =>
    intro p n acc hu
    cases n with
    | leaf c => exact absurd hu.1 (by omega)
    | branch comm ch hh e =>
      obtain ⟨rfl, _, hu⟩ := hu
      have hd : index / L ^ h % L < L := Nat.mod_lt _ hL
      simp only [Node.machineWitness, Node.witness, Machine.childIndex_exact hL hlt, childIndex_eq, dif_pos hd]
      have huk := hu ⟨_, hd⟩
      cases hk : ch ⟨_, hd⟩ with
      | empty => simp only [Slot.machineWitness, Slot.witness]
      | node c =>
        rw [hk] at huk
        simp only [Slot.machineWitness, Slot.witness]
        exact ih (lt_of_le_of_lt (Nat.pow_le_pow_right hL (by omega)) hlt) c _ huk

/-- The path depends only on the digits of the index. -/
theorem node_witness_congr (prm : TreeParams B P) (a b : Nat) (i : Fin M) (h : Nat) :
    (∀ k < h, a / L ^ k % L = b / L ^ k % L) →
    ∀ {p : Bool} (n : Node L M P p) (acc : WitPath B P), n.Uniform h → n.witness prm a i acc = n.witness prm b i acc := by
  induction h with
  | zero =>
    intro _ p n acc hu
    cases n with
    | leaf c => simp only [Node.witness]
    | branch => exact absurd hu.2.1 (by omega)
  | succ h ih =>
    intro hab p n acc hu
    cases n with
    | leaf c => exact absurd hu.1 (by omega)
    | branch comm ch hh e =>
      obtain ⟨rfl, _, hu⟩ := hu
      simp only [Node.witness, childIndex_eq, hab h (by omega)]
      by_cases hd : b / L ^ h % L < L
      · rw [dif_pos hd, dif_pos hd]
        have huk := hu ⟨_, hd⟩
        cases hk : ch ⟨_, hd⟩ with
        | empty => simp only [Slot.witness]
        | node c =>
          rw [hk] at huk
          simp only [Slot.witness]
          exact ih (fun k hk => hab k (by omega)) c _ huk
      · rw [dif_neg hd, dif_neg hd]

/-- Whatever path the machine returns is the path of some index, which agrees with the given one in all digits whose computation does not
overflow. -/
theorem node_machine_ok (m : Machine) (prm : TreeParams B P) (hL : 0 < L) (index : Nat) (i : Fin M) (h : Nat) :
    ∀ {p : Bool} (n : Node L M P p) (acc nodes : WitPath B P), n.Uniform h → n.machineWitness m prm index i acc = .ok nodes →
    ∃ j < L ^ h, (∀ k < h, L ^ (k + 1) < m.size → j / L ^ k % L = index / L ^ k % L) ∧ n.witness prm j i acc = .ok nodes := by
  induction h with
  | zero =>
    intro p n acc nodes hu e
    cases n with
    | leaf c => exact ⟨0, by simp, by simp, by simpa only [Node.machineWitness, Node.witness] using e⟩
    | branch => exact absurd hu.2.1 (by omega)
  | succ h ih =>
    intro p n acc nodes hu e
    cases n with
    | leaf c => exact absurd hu.1 (by omega)
    | branch comm ch hh el =>
      obtain ⟨rfl, _, hu⟩ := hu
      simp only [Node.machineWitness] at e
      cases hc : m.childIndex L (h + 1) index with
      | error er => simp [hc] at e
      | ok k =>
        simp only [hc] at e
        by_cases hk : k < L
        · rw [dif_pos hk] at e
          have huk := hu ⟨_, hk⟩
          cases hs : ch ⟨_, hk⟩ with
          | empty => simp [hs, Slot.machineWitness] at e
          | node c =>
            rw [hs] at huk e
            simp only [Slot.machineWitness] at e
            obtain ⟨j, hj, hd, hw⟩ := ih c _ nodes huk e
            have hP : 0 < L ^ h := Nat.pow_pos hL
            have htop : (j + L ^ h * k) / L ^ h % L = k := by
              rw [Nat.add_mul_div_left _ _ hP, Nat.div_eq_of_lt hj, Nat.zero_add, Nat.mod_eq_of_lt hk]
            have hlow : ∀ k' < h, (j + L ^ h * k) / L ^ k' % L = j / L ^ k' % L := by
              intro k' hk'
              have e1 : L ^ h = L ^ k' * (L * L ^ (h - k' - 1)) := by
                rw [← pow_succ', ← pow_add]; congr 1; omega
              rw [e1, Nat.mul_assoc, Nat.add_mul_div_left _ _ (Nat.pow_pos hL), Nat.mul_assoc, Nat.add_mul_mod_self_left]
            refine ⟨j + L ^ h * k, ?_, fun k' hk' hlt => ?_, ?_⟩
            · rw [pow_succ]
              calc j + L ^ h * k < L ^ h + L ^ h * k := by omega
                _ = L ^ h * (k + 1) := by ring
                _ ≤ L ^ h * L := Nat.mul_le_mul_left _ hk
            · rcases Nat.lt_succ_iff_lt_or_eq.1 hk' with h1 | rfl
              · rw [hlow k' h1]; exact hd k' h1 hlt
              · rw [htop]
                rw [Machine.childIndex_exact hL hlt] at hc
                exact (Except.ok.inj hc).symm
            · simp only [Node.witness, childIndex_eq, htop, dif_pos hk, hs, Slot.witness]
              rw [node_witness_congr prm _ j i h hlow c _ huk]
              exact hw
        · simp [dif_neg hk] at e

end CT
