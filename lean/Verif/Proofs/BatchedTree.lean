import Verif.Proofs.TreeComplete
import Verif.Model.BatchedTree

/-! The `M` paths of a batched witness, and the joined path. -/

namespace CT

theorem seqFin_ok {ε α : Type} {n : Nat} {f : Fin n → Except ε α} {g : Fin n → α} :
    seqFin f = .ok g ↔ ∀ i, f i = .ok (g i) := by
  induction n with
  | zero =>
    refine ⟨fun _ i => i.elim0, fun _ => ?_⟩
    simp only [seqFin, Except.ok.injEq]
    funext i; exact i.elim0
  | succ n ih =>
    unfold seqFin
    constructor
    · intro h
      cases h0 : f 0 with
      | error e => simp [h0] at h
      | ok a =>
        cases h1 : seqFin fun i => f i.succ with
        | error e => simp [h0, h1] at h
        | ok g' =>
          simp only [h0, h1, Except.ok.injEq] at h
          subst h
          intro i
          refine Fin.cases ?_ (fun i => ?_) i
          · rw [h0]; rfl
          · rw [ih.1 h1 i]; rfl
    · intro h
      have h1 : seqFin (fun i : Fin n => f i.succ) = .ok fun i => g i.succ := ih.2 fun i => h i.succ
      rw [h 0, h1]
      simp only [Except.ok.injEq]
      funext i
      refine Fin.cases rfl (fun i => rfl) i

theorem mapM_forall2_ok {ε α β : Type} {f : α → Except ε β} {l : List α} {l' : List β} :
    l.mapM f = .ok l' ↔ List.Forall₂ (fun a b => f a = .ok b) l l' := by
  induction l generalizing l' with
  | nil => simp [pure, Except.pure, eq_comm]
  | cons a l ih =>
    rw [List.mapM_cons]
    cases h : f a with
    | error e =>
      simp only [bind, Except.bind]
      refine ⟨fun h => (by cases h), fun h' => ?_⟩
      cases h' with
      | cons h1 _ => rw [h] at h1; cases h1
    | ok b =>
      simp only [bind, Except.bind]
      cases h2 : l.mapM f with
      | error e =>
        simp only
        refine ⟨fun h => (by cases h), fun h' => ?_⟩
        cases h' with
        | cons _ h3 => rw [ih.2 h3] at h2; cases h2
      | ok bs =>
        simp only [pure, Except.pure, Except.ok.injEq]
        constructor
        · rintro rfl; exact .cons h (ih.1 h2)
        · intro h'
          cases h' with
          | cons h1 h3 =>
            rw [h] at h1; rw [ih.2 h3] at h2
            cases h1; cases h2; rfl

section Transpose
variable {M : Nat} [NeZero M] {α : Type}

/-- `l` is the list of arrays of the `i`-th entries of the lists. -/
def Transposed (ws : Fin M → List α) (l : List (Fin M → α)) : Prop :=
  l.length = (ws 0).length ∧ ∀ (i : Nat) f, l[i]? = some f → ∀ j, (ws j)[i]? = some (f j)

theorem transposeWit_ok {ws : Fin M → List α} {l : List (Fin M → α)} (h : transposeWit ws = .ok l) : Transposed ws l := by
  have h := mapM_forall2_ok.1 h
  have hl : l.length = (ws 0).length := by rw [← h.length_eq]; simp
  refine ⟨hl, fun i f hf j => ?_⟩
  obtain ⟨hi, rfl⟩ := List.getElem?_eq_some_iff.1 hf
  have := List.Forall₂.get h (i := i) (by simpa [hl] using hi) hi
  simp only [List.get_eq_getElem, List.getElem_range] at this
  split at this
  · rename_i hh
    have e := Except.ok.inj this
    rw [← e, List.getElem?_eq_getElem (hh j)]
  · cases this

theorem exists_transposeWit {ws : Fin M → List α} (h : ∀ j, (ws j).length = (ws 0).length) : ∃ l, transposeWit ws = .ok l := by
  refine ⟨List.ofFn fun i : Fin (ws 0).length => fun j => (ws j)[i.val]'(by rw [h j]; exact i.2), mapM_forall2_ok.2 ?_⟩
  refine List.forall₂_iff_get.2 ⟨by simp, fun i h1 h2 => ?_⟩
  have hi : i < (ws 0).length := by simpa using h1
  simp only [List.get_eq_getElem, List.getElem_range, List.getElem_ofFn]
  rw [dif_pos (fun j => by rw [h j]; exact hi)]

theorem Transposed.eq_map {β : Type} {ws : Fin M → List α} {l : List (Fin M → α)} (h : Transposed ws l) {g : (Fin M → α) → β}
    {l' : List β} (hl : l'.length = (ws 0).length)
    (h' : ∀ (i : Nat) n, l'[i]? = some n → ∃ f, (∀ j, (ws j)[i]? = some (f j)) ∧ n = g f) : l' = l.map g := by
  apply List.ext_getElem?
  intro i
  by_cases hi : i < (ws 0).length
  · obtain ⟨f, hf, e⟩ := h' i _ (List.getElem?_eq_getElem (by omega))
    rw [List.getElem?_eq_getElem (by omega), e, List.getElem?_map, List.getElem?_eq_getElem (by rw [h.1]; exact hi)]
    have := h.2 i _ (List.getElem?_eq_getElem (by rw [h.1]; exact hi))
    simp only [Option.map_some, Option.some.injEq]
    congr 1
    funext j
    have := (hf j).symm.trans (this j)
    exact Option.some.inj this
  · rw [List.getElem?_eq_none (by omega), List.getElem?_eq_none (by rw [List.length_map, h.1]; omega)]

end Transpose

section Flatten
variable {α : Type} {L : Nat}

theorem flatten_ofFn_length {M : Nat} {ss : Fin M → List α} (h : ∀ j, (ss j).length = L) :
    (List.ofFn ss).flatten.length = M * L := by
  rw [List.length_flatten, List.map_ofFn]
  have : (List.length ∘ ss) = fun _ => L := funext h
  rw [this, List.sum_ofFn]; simp

theorem flatten_ofFn_getElem? {M : Nat} {ss : Fin M → List α} (h : ∀ j, (ss j).length = L) (j : Fin M) {k : Nat} (hk : k < L) :
    (List.ofFn ss).flatten[L * j + k]? = (ss j)[k]? := by
  induction M with
  | zero => exact j.elim0
  | succ M ih =>
    rw [List.ofFn_succ, List.flatten_cons]
    refine Fin.cases ?_ (fun j => ?_) j
    · simp only [Fin.val_zero, Nat.mul_zero, Nat.zero_add]
      rw [List.getElem?_append_left (by rw [h 0]; exact hk)]
    · simp only [Fin.val_succ]
      rw [List.getElem?_append_right (by rw [h 0, Nat.mul_succ]; omega), h 0, ← ih (fun j => h j.succ) j]
      congr 1
      rw [Nat.mul_succ]; omega

theorem flatten_ofFn_chunk {M : Nat} {ss : Fin M → List α} (h : ∀ j, (ss j).length = L) (j : Fin M) :
    ((List.ofFn ss).flatten.drop (j * L)).take L = ss j := by
  apply List.ext_getElem?
  intro k
  rw [List.getElem?_take]
  split
  · rename_i hk
    rw [List.getElem?_drop, Nat.mul_comm, flatten_ofFn_getElem? h j hk]
  · rename_i hk
    rw [List.getElem?_eq_none (by rw [h j]; omega)]

theorem sum_flatten {F G : Type} [Field F] [AddCommGroup G] [Module F G] {M : Nat} {ss : Fin M → List F}
    (h : ∀ j, (ss j).length = L) (gs : List G) :
    (∑ k : Fin (L * M), (List.ofFn ss).flatten.getD k 0 • gs.getD k 0) =
      ∑ j : Fin M, ∑ k : Fin L, (ss j).getD k 0 • gs.getD (j * L + k) 0 := by
  have e : ∀ n, n = M * L → (∑ k : Fin n, (List.ofFn ss).flatten.getD k 0 • gs.getD k 0) =
      ∑ k : Fin (M * L), (List.ofFn ss).flatten.getD k 0 • gs.getD k 0 := by rintro n rfl; rfl
  rw [e _ (Nat.mul_comm _ _), ← finProdFinEquiv.sum_comp, Fintype.sum_prod_type]
  refine Finset.sum_congr rfl fun j _ => Finset.sum_congr rfl fun k _ => ?_
  have e1 : ((finProdFinEquiv (j, k) : Fin (M * L)) : Nat) = L * j + k := by
    simp [finProdFinEquiv, Nat.add_comm]
  rw [e1, List.getD_eq_getElem?_getD, flatten_ofFn_getElem? h j k.2, ← List.getD_eq_getElem?_getD, Nat.mul_comm]

end Flatten

section Join
variable {L M : Nat} [NeZero M] {B P : Bool → Type} [∀ p, Field (B p)] [∀ p, AddCommGroup (P p)] [∀ p, Module (B (!p)) (P p)]

/-- `M` paths of the same length, the `j`-th with the generators of tree `j`, joined. -/
theorem join_path {prm : TreeParams B P} {leaf : Fin M → P false} (h : Nat) : ∀ {p : Bool} (ws : Fin M → WPath B P p) (c : Fin M → P p),
    (∀ j, (ws j).length = h) → (∀ j, (ws j).From prm L j ⟨false, leaf j⟩ (c j)) →
    ∃ w : WPath B P p, w.length = h ∧ w.Commits prm (L * M) ⟨false, ∑ j, leaf j⟩ (∑ j, c j) ∧
      ∀ q, (∀ j, (w.nodes q).length = ((ws j).nodes q).length) ∧
        ∀ (i : Nat) n, (w.nodes q)[i]? = some n → ∃ f, (∀ j, ((ws j).nodes q)[i]? = some (f j)) ∧ n = joinWit f := by
  induction h with
  | zero =>
    intro p ws c hl hf
    have hnil : ∀ j, ws j = .nil := fun j => by
      have := hl j
      cases hw : ws j with
      | nil => rfl
      | cons w r => rw [hw] at this; simp [WPath.length] at this
    refine ⟨.nil, rfl, ?_, fun q => ⟨fun j => by rw [hnil j], fun i n hn => by simp [WPath.nodes] at hn⟩⟩
    cases p with
    | true =>
      have := hf 0
      rw [hnil 0] at this
      simp [WPath.From] at this
    | false =>
      have : ∀ j, c j = leaf j := fun j => by
        have := hf j
        rw [hnil j] at this
        simpa [WPath.From] using this
      simp only [WPath.Commits, this]
  | succ h ih =>
    intro p ws c hl hf
    have hcons : ∀ j, ∃ w r, ws j = .cons w r := fun j => by
      have := hl j
      cases hw : ws j with
      | nil => rw [hw] at this; simp [WPath.length] at this
      | cons w r => exact ⟨w, r, rfl⟩
    choose w r hwr using hcons
    obtain rfl : ws = fun j => .cons (w j) (r j) := funext hwr
    obtain ⟨w', k1, k2, k3⟩ := ih r (fun j => (w j).child) (fun j => by simpa [WPath.length] using hl j)
      (fun j => (hf j).2.2.2)
    refine ⟨.cons (joinWit w) w', by simp [WPath.length, k1], ⟨?_, ?_, k2⟩, fun q => ?_⟩
    · rw [Nat.mul_comm]; exact flatten_ofFn_length fun j => (hf j).1
    · rw [show (joinWit w).siblings = (List.ofFn fun j => (w j).siblings).flatten from rfl, sum_flatten (fun j => (hf j).1)]
      exact Finset.sum_congr rfl fun j _ => (hf j).2.1
    · obtain ⟨a, b⟩ := k3 q
      simp only [WPath.nodes]
      by_cases hq : q = p
      · subst hq
        simp only [Function.update_self, List.length_cons]
        refine ⟨fun j => by rw [a j], fun i n hn => ?_⟩
        cases i with
        | zero =>
          simp only [List.getElem?_cons_zero, Option.some.injEq] at hn
          exact ⟨w, fun j => rfl, hn.symm⟩
        | succ i =>
          simp only [List.getElem?_cons_succ] at hn
          exact b i n hn
      · simp only [Function.update_of_ne hq]
        exact ⟨a, b⟩

omit [NeZero M] [∀ p, Module (B (!p)) (P p)] in
theorem along_head {prm : TreeParams B P} {i : Fin M} {leaf : Σ p, P p} {p : Bool} {w : WPath B P p} {comm : Fin M → P p}
    {ch : Fin L → Slot L M P (!p)} {hh e : Nat} (h : w.Along prm i leaf (.branch comm ch hh e)) {x : Wit B P p}
    (hx : (w.nodes p)[0]? = some x) : x.siblings = xCoordinates prm ch i := by
  cases w with
  | nil => exact h.elim
  | cons w rest =>
    simp only [WPath.nodes, Function.update_self, List.getElem?_cons_zero, Option.some.injEq] at hx
    subst hx
    exact h.1

end Join

section Joined
variable {B : Bool → Type} [∀ p, Field (B p)] [∀ p, DecidableEq (B p)] {C : ∀ p, SWCurve (B p)}
  [∀ p, Module (B (!p)) (C p).Pt] {L M : Nat} [NeZero M] {p : Bool}

/-- What the proofs need to know about the joined path. -/
structure Joined (prm : SelRerand C) (T : CurveTree L M (Pts C)) {p : Bool} (n : Node L M (Pts C) p)
    (nodes : MultiWitPath M B (Pts C)) (leaf : Fin M → (C false).Pt) (w : WPath B (Pts C) p) : Prop where
  eq : w.nodes = nodes.join
  commits : w.Commits prm.tree (L * M) ⟨false, ∑ j, leaf j⟩ (∑ j, n.commitment j)
  len : w.length = n.height
  root : ∀ x, (w.nodes p)[0]? = some x → multiRootSiblings prm p T = .ok x.siblings
  sib : ∀ q (k : Nat) f, (nodes q)[k]? = some f → ∀ j, (f j).siblings.length = L ∧
    (C (!q)).xField ((f j).child + (prm.layer (!q)).delta) ∈ (f j).siblings
  last : ∀ f, (nodes true).getLast? = some f → ∀ j, (f j).child = leaf j

omit [∀ p, DecidableEq (B p)] [∀ p, Module (B (!p)) (C p).Pt] [NeZero M] in
theorem last_child {leaf : (C false).Pt} {q : Bool} {c : (C q).Pt} {w : WPath B (Pts C) q} (h : Aligned leaf q c w) {k : Nat}
    {x : Wit B (Pts C) true} (hk : k + 1 = (w.nodes true).length) (hx : (w.nodes true)[k]? = some x) : x.child = leaf := by
  cases q with
  | false =>
    have hl := even_lengths h
    refine child_of_aligned (f := fun w : Wit B (Pts C) true => w.child) (l := w.nodes true)
        (m := (w.parents c false ++ [leaf]).tail) (i := k) ?_ hx ?_
    · rw [← h.2]; rfl
    · rw [List.getElem?_tail, List.getElem?_append_right (by rw [parents_length]; omega), parents_length]
      rw [show k + 1 - (w.nodes false).length = 0 by omega]; rfl
  | true =>
    have hl := odd_lengths h
    refine child_of_aligned h.2 hx ?_
    rw [List.getElem?_append_right (by rw [parents_length]; omega), parents_length]
    rw [show k - (w.nodes false).length = 0 by omega]; rfl

theorem joined_aux {prm : SelRerand C} {T : CurveTree L M (Pts C)} {n : Node L M (Pts C) p}
    (hrs : ∀ comm ch hh e, n = .branch comm ch hh e →
      multiRootSiblings prm p T = .ok (List.ofFn fun i => xCoordinates prm.tree ch i).flatten)
    {nodes : MultiWitPath M B (Pts C)} {leaf : Fin M → (C false).Pt} {ns : Fin M → WitPath B (Pts C)}
    (ht : ∀ q, Transposed (fun j => ns j q) (nodes q))
    (hw : ∀ j, ∃ w : WPath B (Pts C) p, w.nodes = ns j ∧ w.Along prm.tree j ⟨false, leaf j⟩ n ∧
      w.From prm.tree L j ⟨false, leaf j⟩ (n.commitment j) ∧ w.length = n.height) :
    ∃ w, Joined prm T n nodes leaf w := by
  choose ws h1 h2 h3 h4 using hw
  obtain ⟨w, k1, k2, k3⟩ := join_path n.height ws (fun j => n.commitment j) h4 h3
  have hnodes : w.nodes = nodes.join := by
    funext q
    obtain ⟨a, b⟩ := k3 q
    refine (ht q).eq_map (g := joinWit) ?_ ?_
    · rw [a 0, h1 0]
    · intro i n hn
      obtain ⟨f, hf, e⟩ := b i n hn
      exact ⟨f, fun j => by rw [← h1 j]; exact hf j, e⟩
  refine ⟨w, hnodes, k2, k1, ?_, ?_, ?_⟩
  · intro x hx
    obtain ⟨f, hf, rfl⟩ := (k3 p).2 0 x hx
    cases hn : n with
    | leaf c =>
      have := h4 0
      rw [hn] at this
      have hnil : ws 0 = .nil := by
        cases hw : ws 0 with
        | nil => rfl
        | cons w r => rw [hw] at this; simp [WPath.length, Node.height] at this
      have := hf 0
      rw [hnil] at this
      simp [WPath.nodes] at this
    | branch comm ch hh e =>
      rw [hrs comm ch hh e hn]
      have : (fun j => (f j).siblings) = fun j => xCoordinates prm.tree ch j := by
        funext j
        have h2 := h2 j
        rw [hn] at h2
        exact along_head h2 (hf j)
      simp only [joinWit]
      rw [this]
  · intro q k f hf j
    have := (ht q).2 k f hf j
    exact from_nodes (h3 j) q k (f j) (by rw [h1 j]; exact this)
  · intro f hf j
    rw [List.getLast?_eq_getElem?] at hf
    have hx := (ht true).2 _ f hf j
    have hl : ((ws j).nodes true).length = (nodes true).length := by
      rw [← (k3 true).1 j, hnodes]; simp [MultiWitPath.join]
    have h0 : (nodes true).length - 1 < (nodes true).length := (List.getElem?_eq_some_iff.1 hf).1
    exact last_child (aligned (ws j) _ (h3 j)) (k := (nodes true).length - 1) (by omega) (by rw [h1 j]; exact hx)

/-- The joined path of a tree. -/
theorem joined_even {prm : SelRerand C} {n : Node L M (Pts C) false} {nodes : MultiWitPath M B (Pts C)}
    {leaf : Fin M → (C false).Pt} {ns : Fin M → WitPath B (Pts C)} (ht : ∀ q, Transposed (fun j => ns j q) (nodes q))
    (hw : ∀ j, (CurveTree.even n).PathTo prm.tree j (ns j) ⟨false, leaf j⟩) : ∃ w, Joined prm (.even n) n nodes leaf w :=
  joined_aux (by rintro comm ch hh e rfl; rfl) ht hw

theorem joined_odd {prm : SelRerand C} {n : Node L M (Pts C) true} {nodes : MultiWitPath M B (Pts C)}
    {leaf : Fin M → (C false).Pt} {ns : Fin M → WitPath B (Pts C)} (ht : ∀ q, Transposed (fun j => ns j q) (nodes q))
    (hw : ∀ j, (CurveTree.odd n).PathTo prm.tree j (ns j) ⟨false, leaf j⟩) : ∃ w, Joined prm (.odd n) n nodes leaf w :=
  joined_aux (by rintro comm ch hh e rfl; rfl) ht hw

end Joined

end CT
