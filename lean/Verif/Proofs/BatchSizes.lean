import Verif.Proofs.Theft
import Verif.Props.BatchedTree
import Verif.Spec.BatchSizes

/-! What the batched gadget adds to both Provers. -/

namespace CT

section
variable {F G : Type} [Field F] [DecidableEq F] {M bits : Nat}

theorem costs_leavesLoop (C : SWCurve F) (fx : Bool) (prm : LayerParams C) (hb : prm.lambda = bits) (h3 : 3 ≤ bits) (leaf : Fin M → C.Pt) (w : Option (Fin M → C.Pt)) (r : Option (Fin M → Nat))
    {L : Nat} (hL : 1 ≤ L) (chunks : List (List (LC F))) (hn : ∀ ch ∈ chunks, ch.length = L) : ∀ i,
    ∃ c, Costs (leavesLoop C fx prm leaf w r i chunks : Prog F G C.Pt Unit) (levelGates L bits * chunks.length) (levelAllocations bits * chunks.length) c := by
  induction chunks with
  | nil => exact fun i => ⟨0, .pure _⟩
  | cons ch chunks ih =>
    intro i
    obtain ⟨c, hc⟩ := ih (fun x hx => hn x (List.mem_cons_of_mem _ hx)) (i + 1)
    simp only [leavesLoop]
    split
    · rename_i hi
      have h1 := costs_singleLevel (G := G) C fx prm (by rw [hb]; exact h3) (leaf ⟨i, hi⟩) ch (w.map fun f => f ⟨i, hi⟩) (r.map fun f => f ⟨i, hi⟩)
      have hl := hn ch List.mem_cons_self
      refine ⟨_, (h1.bind fun _ => hc).cast ?_ ?_ rfl⟩
      · rw [List.length_cons, Nat.mul_succ, hb, hl, levelGates]; omega
      · rw [List.length_cons, Nat.mul_succ, hb, levelAllocations]; omega
    · exact ⟨0, .fail ..⟩

theorem chunksExact_lengths {α : Type} {M n : Nat} (hn : n ≠ 0) {l : List α} (hl : l.length = M * n) :
    (chunksExact n l).length = M ∧ ∀ ch ∈ chunksExact n l, ch.length = n := by
  refine ⟨?_, ?_⟩
  · simp only [chunksExact, List.length_map, List.length_range, hl]
    exact Nat.mul_div_cancel M (Nat.pos_of_ne_zero hn)
  · intro ch h
    simp only [chunksExact, List.mem_map, List.mem_range, hl] at h
    obtain ⟨i, hi, rfl⟩ := h
    rw [Nat.mul_div_cancel M (Nat.pos_of_ne_zero hn)] at hi
    rw [List.length_take, List.length_drop, hl]
    have : (i + 1) * n ≤ M * n := Nat.mul_le_mul_right n hi
    rw [Nat.succ_mul] at this
    omega

theorem costs_leavesLevel (C : SWCurve F) (fx : Bool) (prm : LayerParams C) (hb : prm.lambda = bits) (h3 : 3 ≤ bits) (leaf : Fin M → C.Pt) (w : Option (Fin M → C.Pt)) (r : Option (Fin M → Nat))
    {L : Nat} (hL : 1 ≤ L) (hM : M ≠ 0) (children : List (LC F)) (hl : children.length = M * L) :
    ∃ c, Costs (leavesLevel C fx prm leaf children w r : Prog F G C.Pt Unit) (levelGates L bits * M) (levelAllocations bits * M) c := by
  have hd : children.length / M = L := by rw [hl]; exact Nat.mul_div_cancel_left L (Nat.pos_of_ne_zero hM)
  unfold leavesLevel
  rw [hd]
  split
  · exact ⟨0, .fail ..⟩
  · obtain ⟨h1, h2⟩ := chunksExact_lengths (n := L) (by omega) hl
    have := costs_leavesLoop (G := G) C fx prm hb h3 leaf w r hL (chunksExact L children) h2 0
    rw [h1] at this
    exact this

end

section
variable {B : Bool → Type} [∀ p, Field (B p)] [∀ p, DecidableEq (B p)] {C : ∀ p, SWCurve (B p)}
  [∀ p, Module (B (!p)) (C p).Pt] {L M bits : Nat}

omit [∀ p, Field (B p)] [∀ p, DecidableEq (B p)] [∀ p, Module (B (!p)) (C p).Pt] in
theorem length_flatten_const {α : Type} {n : Nat} (f : Fin M → List α) (h : ∀ j, (f j).length = n) : (List.ofFn f).flatten.length = M * n := by
  rw [List.length_flatten, List.map_ofFn]
  have : (List.length ∘ f) = fun _ => n := funext h
  rw [this, List.ofFn_const, List.sum_replicate, smul_eq_mul]

theorem joinWit_length {p : Bool} {ws : Fin M → Wit B (Pts C) p} (hw : ∀ j, (ws j).siblings.length = L) : (joinWit ws).siblings.length = M * L :=
  length_flatten_const _ hw

theorem multiProverLevel_gets {p : Bool} {o : SideO C p} {fx : Bool} {prm : SelRerand C} (hb : (prm.layer (!p)).lambda = bits) (h3 : 3 ≤ bits)
    (hL : 1 ≤ L) (hM : M ≠ 0) {ws : Fin M → Wit B (Pts C) p} (hw : ∀ j, (ws j).siblings.length = L) {pr : B (!p)} {cr : B (!!p)} {s s' : SideP C p}
    (h : multiProverLevel o fx prm ws pr cr s = .ok s') :
    s.Gets s' (batchGates L M bits) (batchAllocations M bits) (if pr = 0 then 0 else 1) (M * L) := by
  unfold multiProverLevel at h
  split at h
  · cases h
  rename_i children s1 hc
  have h0 := proverChildren_gets (joinWit_length hw) hc
  cases hr : runP o (singleLevelBatched (C (!p)) fx M (prm.layer (!p)) ((∑ j, (ws j).child) + cr • prm.h (!p)) children
      (some (List.ofFn fun j => (ws j).child + (prm.layer (!p)).delta)) (some (prm.toNat (!!p) cr))) s1 with
  | error e => rw [hr] at h; cases h
  | ok v =>
    rw [hr] at h
    simp only [Except.map, Except.ok.injEq] at h
    subst h
    have k := (costs_singleLevelBatched (C (!p)) fx M L hM (by omega) (prm.layer (!p)) (by rw [hb]; exact h3) _ children h0.1 _ _).gets (x := v.1) (s' := v.2) hr
    refine (h0.2.trans k).cast ?_ ?_ (by omega) (.inr (by omega))
    · rw [hb, batchGates, show L - 1 + 7 = L + 6 by omega]; omega
    · rw [hb, batchAllocations]; omega

theorem multiProverLeaves_gets {p : Bool} {o : SideO C p} {fx : Bool} {prm : SelRerand C} (hb : (prm.layer (!p)).lambda = bits) (h3 : 3 ≤ bits)
    (hL : 1 ≤ L) (hM : M ≠ 0) {ws : Fin M → Wit B (Pts C) p} (hw : ∀ j, (ws j).siblings.length = L) {pr : B (!p)} {lr : Fin M → B (!!p)} {s s' : SideP C p}
    (h : multiProverLeaves o fx prm ws pr lr s = .ok s') :
    s.Gets s' (levelGates L bits * M) (levelAllocations bits * M) (if pr = 0 then 0 else 1) (M * L) := by
  unfold multiProverLeaves at h
  split at h
  · cases h
  rename_i children s1 hc
  have h0 := proverChildren_gets (joinWit_length hw) hc
  cases hr : runP o (leavesLevel (C (!p)) fx (prm.layer (!p)) (fun j => (ws j).child + lr j • prm.h (!p)) children
      (some fun j => (ws j).child + (prm.layer (!p)).delta) (some fun j => prm.toNat (!!p) (lr j))) s1 with
  | error e => rw [hr] at h; cases h
  | ok v =>
    rw [hr] at h
    simp only [Except.map, Except.ok.injEq] at h
    subst h
    obtain ⟨c, hc⟩ := costs_leavesLevel (G := (C p).Pt) (C (!p)) fx (prm.layer (!p)) hb h3 (fun j => (ws j).child + lr j • prm.h (!p)) (some fun j => (ws j).child + (prm.layer (!p)).delta)
      (some fun j => prm.toNat (!!p) (lr j)) hL hM children h0.1
    have k := hc.gets (x := v.1) (s' := v.2) hr
    exact (h0.2.trans k).cast (by omega) (by omega) (by omega) (.inr (by omega))

theorem multiProverLoop_gets {p : Bool} {o : SideO C p} {fx : Bool} {prm : SelRerand C} (hb : (prm.layer (!p)).lambda = bits) (h3 : 3 ≤ bits)
    (hL : 1 ≤ L) (hM : M ≠ 0) {rnd : ∀ p, Nat → B (!p)} {nodes : MultiWitPath M B (Pts C)} {re : Bool} (hre : rootIsEven nodes.join = .ok re)
    (ws : List (Fin M → Wit B (Pts C) p)) : ∀ (i : Nat), (∀ w ∈ ws, ∀ j, (w j).siblings.length = L) →
    (∀ j < ws.length, re = !p → i + j ≠ 0 → rnd p (i + j - 1) ≠ 0) → (∀ j < ws.length, re ≠ !p → rnd p (i + j) ≠ 0) →
    ∀ {s s' : SideP C p}, multiProverLoop o fx prm nodes rnd i ws s = .ok s' →
      s.Gets s' (batchGates L M bits * ws.length) (batchAllocations M bits * ws.length)
        (if re = !p ∧ i = 0 then ws.length - 1 else ws.length) (M * L) := by
  induction ws with
  | nil =>
    intro i _ _ _ s s' h
    simp only [multiProverLoop, Except.ok.injEq] at h
    subst h
    exact (PState.Gets.refl s (M * L)).cast (by simp) (by simp) (by simp) (.inr le_rfl)
  | cons w ws ih =>
    intro i hw hr hn s s' h
    simp only [multiProverLoop, hre] at h
    split at h
    · cases h
    rename_i s1 h1
    have k1 := multiProverLevel_gets hb h3 hL hM (hw w List.mem_cons_self) h1
    have k2 := ih (i + 1) (fun v hv => hw v (List.mem_cons_of_mem _ hv))
      (fun j hj e _ => by
        have := hr (j + 1) (by simpa using hj) e (by omega)
        rwa [show i + (j + 1) = i + 1 + j by omega] at this)
      (fun j hj e => by
        have := hn (j + 1) (by simpa using hj) e
        rwa [show i + (j + 1) = i + 1 + j by omega] at this) h
    refine (k1.trans k2).cast ?_ ?_ ?_ (.inr (by simp))
    · rw [List.length_cons, Nat.mul_succ, Nat.add_comm]
    · rw [List.length_cons, Nat.mul_succ, Nat.add_comm]
    · rw [if_neg (by omega : ¬ (re = !p ∧ i + 1 = 0)), List.length_cons]
      unfold parentScalar
      by_cases e : re = !p
      · rw [if_pos e]
        by_cases hi : i = 0
        · rw [if_pos hi, if_pos rfl, if_pos ⟨e, hi⟩]; omega
        · have := hr 0 (by simp) e (by omega)
          rw [if_neg hi, if_neg (show rnd p (i - 1) ≠ 0 from this), if_neg (fun h => hi h.2)]; omega
      · have := hn 0 (by simp) e
        rw [if_neg e, if_neg (show rnd p i ≠ 0 from this), if_neg (fun h => e h.1)]; omega

/-- What the batched gadget adds to both Provers, and the number of points of the path. -/
theorem multiTreeProver_gets [NeZero M] {prm : SelRerand C} (hb : ∀ p, (prm.layer p).lambda = bits) (h3 : 3 ≤ bits) (hg : prm.tree.EnoughGens L M) (hL : 2 ≤ L)
    {set : List (C false).Pt} {height : Option Nat} {fuel : Nat} {T : CurveTree L M (Pts C)}
    (ht : fromSet prm.tree set height fuel = some (.ok T)) (hfuel : set.length + height.getD 0 ≤ fuel) (h0 : T.height ≠ 0)
    {oE : SideO C false} {oO : SideO C true} {fx : Bool} {rnd : ∀ p, Nat → B (!p)} {leafR : Fin M → B (!false)}
    (hE : ∀ j, j + 1 < (T.height + 1) / 2 → rnd false j ≠ 0) (hO : ∀ j < T.height / 2, rnd true j ≠ 0)
    {sE sE' : SideP C false} {sO sO' : SideP C true} {indices : Fin M → Nat} {path : MultiPath (C false).Pt (C true).Pt M} {r : Fin M → B (!false)}
    (hp : multiTreeProverGadget oE oO fx prm rnd leafR T indices sE sO = .ok ((path, r), sE', sO')) :
    sE.Gets sE' (batchGates L M bits * (T.height / 2)) (batchAllocations M bits * (T.height / 2)) ((T.height - 1) / 2) (M * L) ∧
    sO.Gets sO' (batchGates L M bits * ((T.height - 1) / 2) + levelGates L bits * M) (batchAllocations M bits * ((T.height - 1) / 2) + levelAllocations bits * M) (T.height / 2) (M * L) ∧
    path.odd.length = T.height / 2 ∧ path.even.length = (T.height - 1) / 2 := by
  have hM := NeZero.ne M
  unfold multiTreeProverGadget at hp
  cases hw : T.multiWitness prm.tree indices with
  | error e => simp [hw] at hp
  | ok nodes =>
    simp only [hw] at hp
    obtain ⟨ns, n1, n2⟩ := multiWitness_ok hw
    have hleaf : ∀ j, ∃ leaf, T.PathTo prm.tree j (ns j) ⟨false, leaf⟩ := by
      intro j
      obtain ⟨a, b⟩ := C26_witness_every_index hg hL ht hfuel j (indices j)
      cases hl : set[indices j % L ^ T.height]? with
      | none =>
        obtain ⟨m, hm⟩ := b hl
        rw [n1 j] at hm
        exact absurd hm (by simp)
      | some leaf =>
        obtain ⟨nodes', h1, h2⟩ := a leaf hl
        rw [n1 j] at h1
        cases h1
        exact ⟨leaf, h2⟩
    choose leaf hl2 using hleaf
    obtain ⟨⟨re, hre⟩, hsib⟩ := multi_ready n2 hl2
    have hsib' : ∀ q, ∀ f ∈ nodes q, ∀ j, (f j).siblings.length = L := by
      intro q f hf j
      obtain ⟨k, hk⟩ := List.mem_iff_getElem?.1 hf
      exact (hsib q k f hk j).1
    obtain ⟨l1, l2⟩ := pathTo_lengths (hl2 0)
    have lt : (nodes true).length = (T.height + 1) / 2 := by rw [(n2 true).1, l1]
    have lf : (nodes false).length = T.height / 2 := by rw [(n2 false).1, l2]
    have hrt : re = true ↔ T.height % 2 = 0 := by
      unfold rootIsEven at hre
      simp only [MultiWitPath.join, List.length_map, lt, lf] at hre
      split at hre
      · rw [← Except.ok.inj hre]; simp only [true_iff]; omega
      · split at hre
        · rw [← Except.ok.inj hre]; simp only [Bool.false_eq_true, false_iff]; omega
        · cases hre
    unfold multiPathProverGadget at hp
    split at hp
    · cases hp
    rename_i s1 e1
    split at hp
    · cases hp
    rename_i s2 e2
    simp only [Except.ok.injEq, Prod.mk.injEq] at hp
    obtain ⟨⟨rfl, -⟩, rfl, rfl⟩ := hp
    have k1 := multiProverLoop_gets (hb _) h3 (by omega : 1 ≤ L) hM hre (nodes false) 0 (hsib' false)
      (fun j hj _ hj0 => hE _ (by rw [lf] at hj; omega))
      (fun j hj e => hE _ (by
        have : ¬ re = true := e
        rw [hrt] at this
        rw [lf] at hj; omega)) e1
    unfold multiProverOdd at e2
    split at e2
    · rename_i hn
      rw [List.getLast?_eq_none_iff] at hn
      rw [hn] at lt
      simp only [List.length_nil] at lt
      omega
    rename_i last hlast
    split at e2
    · cases e2
    rename_i s3 e3
    simp only [hre] at e2
    have hdl : (nodes true).dropLast.length = (T.height - 1) / 2 := by rw [List.length_dropLast, lt]; omega
    have k2 := multiProverLoop_gets (hb _) h3 (by omega : 1 ≤ L) hM hre (nodes true).dropLast 0 (fun f hf => hsib' true f (List.mem_of_mem_dropLast hf))
      (fun j hj _ hj0 => hO _ (by rw [hdl] at hj; omega))
      (fun j hj e => hO _ (by rw [hdl] at hj; omega)) e3
    have k3 := multiProverLeaves_gets (hb _) h3 (by omega : 1 ≤ L) hM (hsib' true last (List.mem_of_getLast? hlast)) e2
    refine ⟨k1.cast (by rw [lf]) (by rw [lf]) ?_ (.inr le_rfl), (k2.trans k3).cast (by rw [hdl]) (by rw [hdl]) ?_ (.inr (by simp)), ?_, ?_⟩
    · rw [lf]
      by_cases e : re = true
      · have hev : T.height % 2 = 0 := hrt.1 e
        rw [if_pos ⟨e, rfl⟩]; omega
      · have hev : ¬ T.height % 2 = 0 := fun h => e (hrt.2 h)
        rw [if_neg (fun h => e h.1)]; omega
    · rw [hdl, lt]
      unfold parentScalar
      by_cases e : re = true
      · have hev : T.height % 2 = 0 := hrt.1 e
        have hz := hO ((T.height + 1) / 2 - 1) (by omega)
        subst e
        simp only [Bool.not_true, Bool.true_eq_false, false_and, if_false]
        rw [if_neg hz]; omega
      · have hev : ¬ T.height % 2 = 0 := fun h => e (hrt.2 h)
        have e' : re = false := by simpa using e
        subst e'
        simp only [Bool.not_true, true_and, if_true]
        by_cases h1 : T.height = 1
        · rw [h1]; simp
        · rw [if_neg (show ¬ (T.height + 1) / 2 - 1 = 0 by omega), if_neg (hO ((T.height + 1) / 2 - 1 - 1) (by omega))]; omega
    · simp [multiProverPath, rerandomized, MultiWitPath.join, lf]
    · simp only [multiProverPath, rerandomized, MultiWitPath.join, List.length_dropLast, List.length_mapIdx, List.length_map, lt]; omega

end
end CT
