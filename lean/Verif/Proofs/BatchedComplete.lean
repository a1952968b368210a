import Verif.Proofs.BatchedSession
import Verif.Spec.BatchedTree

/-! An honest Prover succeeds on a batched path. -/

namespace CT

section Lists
variable {α β : Type}

theorem chunksExact_getElem? {k : Nat} {l : List α} {i : Nat} {c : List α} (h : (chunksExact k l)[i]? = some c) :
    c = (l.drop (i * k)).take k := by
  unfold chunksExact at h
  rw [List.getElem?_map] at h
  obtain ⟨j, hj, rfl⟩ := Option.map_eq_some_iff.1 h
  have hi := (List.getElem?_eq_some_iff.1 hj)
  obtain ⟨hi, rfl⟩ := hi
  simp

theorem mem_of_map_eq {f : α → β} {l : List α} {m : List β} (h : l.map f = m) {b : β} (hb : b ∈ m) : ∃ a ∈ l, f a = b := by
  rw [← h] at hb; simpa using hb

end Lists

section Batch
variable {F : Type} [Field F] [DecidableEq F] {C : SWCurve F}

theorem batchOk_of {w : Assignment F} : ∀ (chunks : List (List (LC F))) (pts : List C.Pt) (first : Bool) (S : C.Pt),
    chunks.length = pts.length → (∀ P ∈ pts, P ≠ 0) →
    (∀ (i : Nat) ch P, chunks[i]? = some ch → pts[i]? = some P → ∃ lc ∈ ch, w.eval lc = C.xField P) →
    (∀ (i : Nat) P, pts[i]? = some P → (first = false ∨ 0 < i) → C.DiffX (S + (pts.take i).sum) P) →
    BatchOk C w first S chunks pts := by
  intro chunks
  induction chunks with
  | nil =>
    intro pts first S hl _ _ _
    obtain rfl : pts = [] := by simpa using hl.symm
    simp [BatchOk]
  | cons ch chunks ih =>
    intro pts first S hl h0 h1 h2
    match pts, hl with
    | P :: pts, hl =>
      refine ⟨h0 P (by simp), h1 0 ch P rfl rfl, fun hf => ?_, ?_⟩
      · simpa using h2 0 P rfl (.inl hf)
      · refine ih pts false (S + P) (by simpa using hl) (fun Q hQ => h0 Q (by simp [hQ])) (fun i c Q hc hQ => h1 (i + 1) c Q hc hQ) ?_
        intro i Q hQ _
        have := h2 (i + 1) Q hQ (.inr (by omega))
        simpa [add_assoc] using this

end Batch

variable {B : Bool → Type} [∀ p, Field (B p)] [∀ p, DecidableEq (B p)] {C : ∀ p, SWCurve (B p)}
  [∀ p, Module (B (!p)) (C p).Pt] {L M : Nat} {p : Bool}

theorem children_values {prm : SelRerand C} {w : Wit B (Pts C) p} (pr : B (!p)) {s : SideP C p} (hs : s.Good)
    (hg : w.siblings.length ≤ (prm.gens p).Gs.length) :
    ∃ ch s1, proverChildren prm p w pr s = .ok (ch, s1) ∧ s1.Good ∧ (∀ lc ∈ ch, s1.HasLC lc) ∧
      ch.map s1.assignment.eval = w.siblings ∧ s1.deferred = s.deferred ∧ s.vecOpen <+: s1.vecOpen := by
  by_cases h0 : pr = 0
  · refine ⟨w.siblings.map LC.const, s, ?_, hs, ?_, ?_, rfl, List.prefix_refl _⟩
    · unfold proverChildren; rw [if_pos h0]
    · intro lc hlc
      obtain ⟨x, -, rfl⟩ := List.mem_map.1 hlc
      exact PState.hasLC_const
    · rw [List.map_map]
      conv_rhs => rw [← List.map_id w.siblings]
      exact List.map_congr_left fun x _ => eval_const _ _
  · obtain ⟨V, s1, c1, c2, c3, c4, -⟩ := commitVec_good (g := prm.gens p) hs w.siblings pr hg
    refine ⟨((List.range w.siblings.length).map fun i => Variable.vectorCommit s.vecOpen.length i).map LC.ofVar, s1, ?_, c2,
      ?_, ?_, c3, ⟨_, c4.symm⟩⟩
    · unfold proverChildren; rw [if_neg h0, c1]
    · intro lc hlc
      simp only [List.map_map, List.mem_map, List.mem_range, Function.comp] at hlc
      obtain ⟨i, hi, rfl⟩ := hlc
      exact PState.hasLC_ofVar ⟨(pr, w.siblings), by rw [c4]; simp, hi⟩
    · apply List.ext_getElem (by simp)
      intro i h1 h2
      simp only [List.map_map, List.getElem_map, List.getElem_range, Function.comp]
      rw [eval_ofVar]
      simp [Assignment.val, PState.assignment, c4, List.getD_eq_getElem?_getD, h2]

omit [∀ p, Module (B (!p)) (C p).Pt] in
/-- The `j`-th chunk has the values of the siblings of the `j`-th node. -/
theorem chunk_values {ws : Fin M → Wit B (Pts C) p} (hsib : ∀ j, (ws j).siblings.length = L) {f : LC (B (!p)) → B (!p)}
    {ch : List (LC (B (!p)))} (h : ch.map f = (joinWit ws).siblings) (j : Fin M) :
    ((ch.drop (j * L)).take L).map f = (ws j).siblings := by
  rw [List.map_take, List.map_drop, h]
  exact flatten_ofFn_chunk hsib j

theorem sum_take_ofFn {G : Type} [AddCommGroup G] (f : Fin M → G) (j : Fin M) :
    ((List.ofFn f).take j).sum = ∑ i : Fin j.val, f ⟨i, i.2.trans j.2⟩ := by
  have : (List.ofFn f).take j = List.ofFn fun i : Fin j.val => f ⟨i, i.2.trans j.2⟩ := by
    apply List.ext_getElem (by simp)
    intro i h1 h2
    simp
  rw [this, List.sum_ofFn]

theorem multi_level_complete (o : SideO C p) (fx : Bool) {prm : SelRerand C} (hv : prm.Valid) (hM : M ≠ 0) (hL : L ≠ 0)
    {ws : Fin M → Wit B (Pts C) p} {pr : B (!p)} {cr : B (!!p)} {s : SideP C p} (hs : s.Good)
    (hg : L * M ≤ (prm.gens p).Gs.length) (hsib : ∀ j, (ws j).siblings.length = L)
    (hmem : ∀ j, (C (!p)).xField ((ws j).child + (prm.layer (!p)).delta) ∈ (ws j).siblings)
    (hav : prm.BatchAvoids (!p) (fun j => (ws j).child) cr) :
    ∃ s', multiProverLevel o fx prm ws pr cr s = .ok s' ∧ s'.Good ∧ s'.deferred = s.deferred ∧ s.vecOpen <+: s'.vecOpen := by
  have hjl : (joinWit ws).siblings.length = M * L := flatten_ofFn_length hsib
  obtain ⟨ch, s1, h4, h1, h2, h3, h5, h6⟩ := children_values (w := joinWit ws) pr hs (by rw [hjl, Nat.mul_comm]; exact hg)
  have hlen : ch.length = M * L := by rw [← hjl, ← h3]; simp
  have hr : cr • prm.h (!p) = prm.toNat (!!p) cr • prm.h (!p) := by
    rw [← Nat.cast_smul_eq_nsmul (B (!!p)), hv.cast]
  have hcl : (chunksExact L ch).length = M := by
    rw [chunksExact_length, hlen, Nat.mul_div_cancel _ (Nat.pos_of_ne_zero hL)]
  have hsum : (List.ofFn fun j => (ws j).child + (prm.layer (!p)).delta).sum =
      (∑ j, (ws j).child) + M • (prm.layer (!p)).delta := by
    rw [List.sum_ofFn, Finset.sum_add_distrib]; simp
  obtain ⟨a1, a2, a3, a4⟩ := hav
  obtain ⟨s', g1, g2, -, g4⟩ := C27_batched_level_complete (G := (C p).Pt) (X := (C (!p)).Pt) o (hv.a (!p)) fx hM hL (hv.windows (!p))
    (hv.tables (!p)) h1 (rc := (∑ j, (ws j).child) + cr • prm.h (!p)) hlen h2
    (pts := List.ofFn fun j => (ws j).child + (prm.layer (!p)).delta)
    (batchOk_of _ _ _ _ (by simp [hcl]) (by
        intro P hP
        obtain ⟨j, rfl⟩ := List.mem_ofFn.1 hP
        exact a2 j) (by
        intro i c P hc hP
        obtain ⟨hi, rfl⟩ := List.getElem?_eq_some_iff.1 hP
        rw [chunksExact_getElem? hc]
        have hi' : i < M := by simpa using hi
        rw [List.getElem_ofFn]
        exact mem_of_map_eq (chunk_values hsib h3 ⟨i, hi'⟩) (hmem ⟨i, hi'⟩)) (by
        intro i P hP h0
        obtain ⟨hi, rfl⟩ := List.getElem?_eq_some_iff.1 hP
        have hi' : i < M := by simpa using hi
        rw [List.getElem_ofFn, zero_add]
        rw [sum_take_ofFn _ ⟨i, hi'⟩]
        exact a3 ⟨i, hi'⟩ (by rcases h0 with h | h; · cases h
                              · exact h)))
    (r := prm.toNat (!!p) cr) (hv.bits (!p) cr)
    (by rw [hsum, ← hr]; abel)
    (by
      intro e
      refine a4.2.2.2 ?_
      rw [eq_neg_iff_add_eq_zero, ← e, ← List.sum_ofFn, hsum]; abel) a1 (by
        rw [List.sum_ofFn, ← hr]
        exact a4)
  refine ⟨s', ?_, g2, g4.deferred.trans h5, by rw [g4.vecOpen]; exact h6⟩
  unfold multiProverLevel multiProverChildren
  simp only [h4, g1, Except.map]

theorem leavesLoop_complete {F G : Type} [Field F] [DecidableEq F] {C : SWCurve F} [AddCommGroup G] [Module F G]
    (o : Oracle F G C.Pt) (ha : C.a = 0) (fx : Bool)
    {prm : LayerParams C} (hm : windows prm.lambda ≠ 1) {h : C.Pt}
    (hts : buildTables C (windows prm.lambda) h = some prm.tables) {leaf child : Fin M → C.Pt} {r : Fin M → Nat}
    (hr : ∀ j, r j < 2 ^ prm.lambda) (hrc : ∀ j, leaf j = child j + r j • h) (hne : ∀ j, leaf j + prm.delta ≠ 0)
    (hok : ∀ j, ChainOk C prm.lambda h (r j)) (hfin : ∀ j, C.DiffX (child j + prm.delta) (r j • h))
    (chunks : List (List (LC F))) : ∀ (i : Nat) {s : PState F G C.Pt}, s.Good → i + chunks.length ≤ M →
    (∀ c ∈ chunks, ∀ lc ∈ c, s.HasLC lc) →
    (∀ (k : Nat) c (hk : i + k < M), chunks[k]? = some c →
      ∃ lc ∈ c, s.assignment.eval lc = C.xField (child ⟨i + k, hk⟩ + prm.delta)) →
    ∃ s', runP o (leavesLoop C fx prm leaf (some fun j => child j + prm.delta) (some r) i chunks) s = .ok ((), s') ∧
      s'.Good ∧ s.Ext s' := by
  induction chunks with
  | nil => intro i s hs _ _ _; exact ⟨s, rfl, hs, .refl s⟩
  | cons c cs ih =>
    intro i s hs hl hlc hmem
    have hi : i < M := by simp at hl; omega
    unfold leavesLoop
    rw [dif_pos hi]
    obtain ⟨s1, g1, g2, -, g4⟩ := C21_single_level_complete o ha fx hm hts hs (rc := leaf ⟨i, hi⟩) (child := child ⟨i, hi⟩)
      (hlc c (by simp)) (hr ⟨i, hi⟩) (hrc _) (hne _) (hmem 0 c hi rfl) (hok _) (hfin _)
    obtain ⟨s2, k1, k2, k3⟩ := ih (i + 1) g2 (by simp at hl; omega)
      (fun c' hc lc hl => g4.hasLC (hlc c' (by simp [hc]) lc hl))
      (fun k c' hk hc => by
        obtain ⟨lc, h1, h2⟩ := hmem (k + 1) c' (by omega) hc
        refine ⟨lc, h1, ?_⟩
        rw [g4.eval (hlc c' (by simp [List.mem_of_getElem? hc]) lc h1), h2]
        congr 3
        exact Fin.ext (by simp; omega))
    refine ⟨s2, ?_, k2, g4.trans k3⟩
    exact (runP_bind_ok _).2 ⟨_, _, g1, k1⟩

theorem multi_leaves_complete (o : SideO C p) (fx : Bool) {prm : SelRerand C} (hv : prm.Valid) (hM : M ≠ 0) (hL : L ≠ 0)
    {ws : Fin M → Wit B (Pts C) p} {pr : B (!p)} {lr : Fin M → B (!!p)} {s : SideP C p} (hs : s.Good)
    (hg : L * M ≤ (prm.gens p).Gs.length) (hsib : ∀ j, (ws j).siblings.length = L)
    (hmem : ∀ j, (C (!p)).xField ((ws j).child + (prm.layer (!p)).delta) ∈ (ws j).siblings)
    (hav : ∀ j, prm.Avoids (!p) (ws j).child (lr j)) :
    ∃ s', multiProverLeaves o fx prm ws pr lr s = .ok s' ∧ s'.Good ∧ s'.deferred = s.deferred ∧ s.vecOpen <+: s'.vecOpen := by
  have hjl : (joinWit ws).siblings.length = M * L := flatten_ofFn_length hsib
  obtain ⟨ch, s1, h4, h1, h2, h3, h5, h6⟩ := children_values (w := joinWit ws) pr hs (by rw [hjl, Nat.mul_comm]; exact hg)
  have hlen : ch.length = M * L := by rw [← hjl, ← h3]; simp
  have hr : ∀ j, lr j • prm.h (!p) = prm.toNat (!!p) (lr j) • prm.h (!p) := fun j => by
    rw [← Nat.cast_smul_eq_nsmul (B (!!p)), hv.cast]
  have hdiv : ch.length / M = L := by rw [hlen, Nat.mul_div_cancel_left _ (Nat.pos_of_ne_zero hM)]
  have hcl : (chunksExact L ch).length = M := by
    rw [chunksExact_length, hlen, Nat.mul_div_cancel _ (Nat.pos_of_ne_zero hL)]
  obtain ⟨s', g1, g2, g4⟩ := leavesLoop_complete (G := (C p).Pt) o (hv.a (!p)) fx (hv.windows (!p)) (hv.tables (!p))
    (leaf := fun j => (ws j).child + lr j • prm.h (!p)) (child := fun j => (ws j).child)
    (r := fun j => prm.toNat (!!p) (lr j)) (fun j => hv.bits (!p) (lr j)) (fun j => by rw [hr])
    (fun j e => (hav j).2.2.2.2 (by rw [eq_neg_iff_add_eq_zero, ← e]; abel)) (fun j => (hav j).1)
    (fun j => by rw [← hr]; exact (hav j).2) (chunksExact L ch) 0 h1 (by omega)
    (fun c hc lc hlc => by
      obtain ⟨i, hi⟩ := List.getElem?_of_mem hc
      rw [chunksExact_getElem? hi] at hlc
      exact h2 lc (List.mem_of_mem_drop (List.mem_of_mem_take hlc)))
    (fun k c hk hc => by
      rw [chunksExact_getElem? hc]
      have := mem_of_map_eq (chunk_values hsib h3 ⟨0 + k, hk⟩) (hmem ⟨0 + k, hk⟩)
      simpa using this)
  refine ⟨s', ?_, g2, g4.deferred.trans h5, by rw [g4.vecOpen]; exact h6⟩
  unfold multiProverLeaves multiProverChildren leavesLevel
  simp only [h4, hdiv, if_neg hL, g1, Except.map]

theorem multi_side_complete (o : SideO C p) (fx : Bool) {prm : SelRerand C} (hv : prm.Valid) (hM : M ≠ 0) (hL : L ≠ 0)
    (hg : L * M ≤ (prm.gens p).Gs.length)
    {rnd : ∀ p, Nat → B (!p)} {nodes : MultiWitPath M B (Pts C)} {re : Bool} (hre : rootIsEven nodes.join = .ok re)
    (ns : List (Fin M → Wit B (Pts C) p)) : ∀ (i : Nat),
    (∀ (k : Nat) w, ns[k]? = some w → (∀ j, (w j).siblings.length = L ∧
      (C (!p)).xField ((w j).child + (prm.layer (!p)).delta) ∈ (w j).siblings) ∧
      prm.BatchAvoids (!p) (fun j => (w j).child) (rnd (!p) (i + k))) →
    ∀ {s : SideP C p}, s.Good → ∃ s', multiProverLoop o fx prm nodes rnd i ns s = .ok s' ∧ s'.Good ∧
      s'.deferred = s.deferred ∧ s.vecOpen <+: s'.vecOpen := by
  induction ns with
  | nil => intro i _ s hs; exact ⟨s, rfl, hs, rfl, List.prefix_refl _⟩
  | cons w ns ih =>
    intro i hk s hs
    obtain ⟨h1, h3⟩ := hk 0 w rfl
    obtain ⟨s1, k1, k2, k3, k4⟩ := multi_level_complete o fx hv hM hL (pr := parentScalar rnd re p i) hs hg
      (fun j => (h1 j).1) (fun j => (h1 j).2) h3
    obtain ⟨s2, l1, l2, l3, l4⟩ := ih (i + 1) (fun k w hw => by
      have := hk (k + 1) w hw
      rwa [show i + (k + 1) = i + 1 + k by omega] at this) k2
    refine ⟨s2, ?_, l2, l3.trans k3, k4.trans l4⟩
    simp only [multiProverLoop, hre]
    rw [show rnd (!p) i = rnd (!p) (i + 0) from rfl, k1]
    exact l1

theorem multi_path_complete (oE : SideO C false) (oO : SideO C true) (fx : Bool) {prm : SelRerand C} (hv : prm.Valid) (hM : M ≠ 0)
    (hL : L ≠ 0) (hg : prm.tree.EnoughGens L M) {nodes : MultiWitPath M B (Pts C)} (hre : ∃ re, rootIsEven nodes.join = .ok re)
    (hsib : ∀ q (k : Nat) f, (nodes q)[k]? = some f → ∀ j, (f j).siblings.length = L ∧
      (C (!q)).xField ((f j).child + (prm.layer (!q)).delta) ∈ (f j).siblings)
    {rnd : ∀ p, Nat → B (!p)} {leafR : Fin M → B (!false)} (hav : prm.MultiAvoids nodes rnd leafR)
    {sE : SideP C false} {sO : SideP C true} (hsE : sE.Good) (hsO : sO.Good) :
    ∃ path r sE' sO', multiPathProverGadget oE oO fx prm rnd leafR nodes sE sO = .ok ((path, r), sE', sO') ∧
      sE'.Good ∧ sO'.Good ∧ sE'.deferred = sE.deferred ∧ sO'.deferred = sO.deferred ∧ sE.vecOpen <+: sE'.vecOpen := by
  obtain ⟨re, hre⟩ := hre
  obtain ⟨s1, a1, a2, a3, a4⟩ := multi_side_complete oE fx hv hM hL (hg false) (rnd := rnd) hre (nodes false) 0
    (fun k w hw => ⟨hsib _ k w hw, by rw [Nat.zero_add]; exact hav.1 _ k w hw (by simp)⟩) hsE
  have hodd : ∃ s2, multiProverOdd oO fx prm nodes rnd leafR sO = .ok s2 ∧ s2.Good ∧ s2.deferred = sO.deferred := by
    unfold multiProverOdd
    cases hlast : (nodes true).getLast? with
    | none => exact ⟨sO, rfl, hsO, rfl⟩
    | some last =>
      obtain ⟨s2, b1, b2, b3, -⟩ := multi_side_complete oO fx hv hM hL (hg true) (rnd := rnd) hre (nodes true).dropLast 0
        (fun k w hw => by
          have hk : k < (nodes true).dropLast.length := (List.getElem?_eq_some_iff.1 hw).1
          rw [List.length_dropLast] at hk
          rw [List.getElem?_dropLast, if_pos (by omega)] at hw
          exact ⟨hsib _ k w hw, by rw [Nat.zero_add]; exact hav.1 _ k w hw (fun _ => by omega)⟩) hsO
      have hl := hlast
      rw [List.getLast?_eq_getElem?] at hl
      obtain ⟨s3, d1, d2, d3, -⟩ := multi_leaves_complete oO fx hv hM hL
        (pr := parentScalar rnd re true ((nodes true).length - 1)) (lr := leafR) b2 (hg true)
        (fun j => (hsib _ _ _ hl j).1) (fun j => (hsib _ _ _ hl j).2) (hav.2 last hlast)
      exact ⟨s3, by simp only [b1, hre]; exact d1, d2, d3.trans b3⟩
  obtain ⟨s2, b1, b2, b3⟩ := hodd
  exact ⟨_, _, s1, s2, by unfold multiPathProverGadget; simp only [a1, b1]; rfl, a2, b2, a3, b3, a4⟩

end CT
