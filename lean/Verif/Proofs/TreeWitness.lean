import Verif.Proofs.Tree

/-! The witness of a path. -/

namespace CT
variable {L M : Nat} {B P : Bool → Type} {p : Bool}
variable [∀ p, Field (B p)] [∀ p, AddCommGroup (P p)] [∀ p, Module (B (!p)) (P p)]

theorem childIndex_eq (L h index : Nat) : childIndex L (h + 1) index = index / L ^ h % L := by
  rw [childIndex, Nat.add_sub_cancel, pow_succ, Nat.mod_mul_right_div_self]

omit [∀ p, Module (B (!p)) (P p)] in
theorem xCoordinates_getD (prm : TreeParams B P) (ch : Fin L → Slot L M P p) (i : Fin M) (k : Fin L) :
    (xCoordinates prm ch i).getD k 0 = (ch k).x prm i := by
  simp [xCoordinates, List.getD_eq_getElem?_getD]

omit [∀ p, Module (B (!p)) (P p)] in
theorem x_mem_xCoordinates (prm : TreeParams B P) (ch : Fin L → Slot L M P p) (i : Fin M) (k : Fin L) :
    (ch k).x prm i ∈ xCoordinates prm ch i := by
  simp only [xCoordinates, List.mem_ofFn]
  exact ⟨k, rfl⟩

theorem node_witness (prm : TreeParams B P) (hL : 0 < L) (index : Nat) (i : Fin M) (h : Nat) :
    ∀ {p : Bool} (n : Node L M P p) (acc : WitPath B P), n.Uniform h → n.Committed prm →
    (∀ leaf, n.follow (digits L h index) = some leaf → ∃ w : WPath B P p, w.length = h ∧ w.Along prm i leaf n ∧
      w.From prm L i leaf (n.commitment i) ∧ n.witness prm index i acc = .ok fun q => acc q ++ w.nodes q) ∧
    (n.follow (digits L h index) = none → ∃ m, n.witness prm index i acc = .error (.panic m)) := by
  induction h with
  | zero =>
    intro p n acc hu hc
    cases n with
    | leaf c =>
      simp only [Node.follow, digits, if_true]
      refine ⟨fun leaf h => ⟨.nil, rfl, ?_, ?_, ?_⟩, by simp⟩
      · simpa [WPath.Along] using h
      · simpa [WPath.From, Node.commitment] using h
      · simp [Node.witness, WPath.nodes]
    | branch => exact absurd hu.2.1 (by omega)
  | succ h ih =>
    intro p n acc hu hc
    cases n with
    | leaf c => exact absurd hu.1 (by omega)
    | branch comm ch hh e =>
      obtain ⟨rfl, _, hu⟩ := hu
      obtain ⟨hc0, hc⟩ := hc
      have hd : index / L ^ h % L < L := Nat.mod_lt _ hL
      simp only [digits, Node.follow, Node.witness, childIndex_eq, dif_pos hd]
      have huk := hu ⟨_, hd⟩
      have hck := hc ⟨_, hd⟩
      have hx := x_mem_xCoordinates prm ch i ⟨_, hd⟩
      cases hk : ch ⟨_, hd⟩ with
      | empty => simp [Slot.follow, Slot.witness]
      | node c =>
        rw [hk] at huk hck hx
        simp only [Slot.follow, Slot.witness]
        obtain ⟨h1, h2⟩ := ih c (Function.update acc p (acc p ++ [⟨xCoordinates prm ch i, c.commitment i⟩])) huk hck
        refine ⟨fun leaf hf => ?_, h2⟩
        obtain ⟨w, hw, hal, hfrom, hwit⟩ := h1 leaf hf
        refine ⟨.cons ⟨xCoordinates prm ch i, c.commitment i⟩ w, by simp [WPath.length, hw], ⟨rfl, _, c, hk, rfl, hal⟩, ?_, ?_⟩
        · refine ⟨xCoordinates_length prm ch i, ?_, hx, hfrom⟩
          simp only [Node.commitment, hc0, xCoordinates_getD]
        · rw [hwit]
          congr 1
          funext q
          simp only [WPath.nodes]
          by_cases hq : q = p
          · subst hq; simp
          · simp [Function.update_of_ne hq]

omit [∀ p, Field (B p)] [∀ p, AddCommGroup (P p)] [∀ p, Module (B (!p)) (P p)] in
theorem nodes_length_cons {p : Bool} (w : Wit B P p) (rest : WPath B P (!p)) :
    ((WPath.cons w rest).nodes false).length + ((WPath.cons w rest).nodes true).length =
      (rest.nodes false).length + (rest.nodes true).length + 1 := by
  cases p <;> simp [WPath.nodes] <;> omega

omit [∀ p, Field (B p)] [∀ p, AddCommGroup (P p)] [∀ p, Module (B (!p)) (P p)] in
theorem nodes_length {p : Bool} (w : WPath B P p) : (w.nodes false).length + (w.nodes true).length = w.length := by
  induction w with
  | nil => rfl
  | cons w rest ih => rw [nodes_length_cons, ih]; rfl

theorem tree_witness {prm : TreeParams B P} (hL : 0 < L) (index : Nat) (i : Fin M) {h : Nat} {t : CurveTree L M P}
    {ls : List (Σ p, P p)} (hs : t.Stores prm h ls) :
    (∀ leaf, ls[index % L ^ h]? = some leaf → ∃ nodes, t.witness prm index i = .ok nodes ∧ t.PathTo prm i nodes leaf) ∧
    (ls[index % L ^ h]? = none → ∃ m, t.witness prm index i = .error (.panic m)) := by
  have hf := hs.follow (index % L ^ h) (Nat.mod_lt _ (Nat.pow_pos hL))
  rw [digits_mod] at hf
  rw [← hf]
  cases t with
  | even n =>
    obtain ⟨h1, h2⟩ := node_witness prm hL index i h n (fun _ => []) hs.uniform hs.committed
    refine ⟨fun leaf e => ?_, fun e => ?_⟩
    · obtain ⟨w, hw, hal, hfrom, hwit⟩ := h1 leaf e
      have hh : n.height = h := hs.height
      refine ⟨w.nodes, ?_, w, rfl, hal, hfrom, by rw [hw, hh]⟩
      simp only [CurveTree.witness, CurveTree.witnessNodes, hwit, List.nil_append, bind, Except.bind, CurveTree.height]
      exact if_pos (by rw [nodes_length, hw, hh])
    · obtain ⟨m, hm⟩ := h2 e
      exact ⟨m, by simp only [CurveTree.witness, CurveTree.witnessNodes, hm]; rfl⟩
  | odd n =>
    obtain ⟨h1, h2⟩ := node_witness prm hL index i h n (fun _ => []) hs.uniform hs.committed
    refine ⟨fun leaf e => ?_, fun e => ?_⟩
    · obtain ⟨w, hw, hal, hfrom, hwit⟩ := h1 leaf e
      have hh : n.height = h := hs.height
      refine ⟨w.nodes, ?_, w, rfl, hal, hfrom, by rw [hw, hh]⟩
      simp only [CurveTree.witness, CurveTree.witnessNodes, hwit, List.nil_append, bind, Except.bind, CurveTree.height]
      exact if_pos (by rw [nodes_length, hw, hh])
    · obtain ⟨m, hm⟩ := h2 e
      exact ⟨m, by simp only [CurveTree.witness, CurveTree.witnessNodes, hm]; rfl⟩

end CT
