import Verif.Proofs.BatchedForge
import Verif.Proofs.BatchSizes

/-! The cheating Prover of batches as a function of public data. -/

namespace CT

section
variable {M : Nat}

theorem cheatLeaves_complete_at {F G : Type} [Field F] [DecidableEq F] {C : SWCurve F} [AddCommGroup G] [Module F G]
    (o : Oracle F G C.Pt) (ha : C.a = 0) {prm : LayerParams C} {h : C.Pt}
    (hts : buildTables C (windows prm.lambda) h = some prm.tables) {leaf child : Fin M → C.Pt} {r : Fin M → Nat}
    (hne : ∀ j, leaf j + prm.delta ≠ 0) (hc0 : ∀ j, child j ≠ 0)
    (hat : ∀ j, Attackable C prm.lambda h (r j) (child j) (leaf j + prm.delta))
    (chunks : List (List (LC F))) : ∀ (i : Nat) {s : PState F G C.Pt}, s.Good → i + chunks.length ≤ M →
    (∀ c ∈ chunks, ∀ lc ∈ c, s.HasLC lc) →
    (∀ (k : Nat) c (hk : i + k < M), chunks[k]? = some c → ∃ lc ∈ c, s.assignment.eval lc = C.xField (child ⟨i + k, hk⟩)) →
    ∃ s', runP o (cheatLeaves C prm leaf child r (fun j => cheatStart C prm h (leaf j) (child j) (r j)) i chunks) s = .ok ((), s') ∧ s'.Good ∧ s.Ext s' := by
  induction chunks with
  | nil => intro i s hs _ _ _; exact ⟨s, rfl, hs, .refl s⟩
  | cons c cs ih =>
    intro i s hs hl hlc hmem
    have hi : i < M := by simp at hl; omega
    obtain ⟨⟨⟩, s1, g1, g2, g4, -⟩ := complete_cheatSingleLevel_at (o := o) hs ha hts (hlc c (by simp)) (hne ⟨i, hi⟩) (hc0 _)
      (hmem 0 c hi rfl) (hat ⟨i, hi⟩)
    obtain ⟨s2, k1, k2, k3⟩ := ih (i + 1) g2 (by simp at hl; omega)
      (fun c' hc lc hl => g4.hasLC (hlc c' (by simp [hc]) lc hl))
      (fun k c' hk hc => by
        obtain ⟨lc, h1, h2⟩ := hmem (k + 1) c' (by omega) hc
        refine ⟨lc, h1, ?_⟩
        rw [g4.eval (hlc c' (by simp [List.mem_of_getElem? hc]) lc h1), h2]
        congr 2
        exact Fin.ext (by simp; omega))
    refine ⟨s2, ?_, k2, g4.trans k3⟩
    unfold cheatLeaves
    rw [dif_pos hi]
    exact (runP_bind_ok _).2 ⟨_, _, g1, k1⟩

end

section
variable {F G X : Type}

/-- Two runs that cost the same lead to circuits of the same size. -/
theorem PState.Gets.swap {s u t t' : PState F G X} {m a k d m' a' : Nat} (h : s.Gets t m a k d) (h1 : u.Gets t m' a' 0 0) (h2 : u.Gets t' m' a' 0 0) : s.Gets t' m a k d := by
  obtain ⟨l1, e1, z1, -⟩ := h1.vecs
  obtain ⟨l2, e2, z2, -⟩ := h2.vecs
  obtain ⟨l, e, z, b⟩ := h.vecs
  rw [List.length_eq_zero_iff] at z1 z2
  subst z1 z2
  rw [List.append_nil] at e1 e2
  exact ⟨by rw [h2.len, ← h1.len, h.len], by rw [h2.pend, ← h1.pend, h.pend], ⟨l, by rw [e2, ← e1, e], z, b⟩, by rw [h2.deferred, ← h1.deferred, h.deferred]⟩

end

variable {B : Bool → Type} [∀ p, Field (B p)] [∀ p, DecidableEq (B p)] {C : ∀ p, SWCurve (B p)}
  [∀ p, Module (B (!p)) (C p).Pt] {L M : Nat}

/-- The forger on the level of the leaves: they select the leaves of the witnesses, like an honest Prover, and then claim that the points `Q j` are their re-randomisations. -/
def forgeLeaves (o : SideO C true) (prm : SelRerand C) (ws : Fin M → Wit B (Pts C) true) (pr : B (!true)) (Q : Fin M → (C (!true)).Pt) (s : SideP C true) : Except Err (SideP C true) :=
  match multiProverChildren prm true ws pr s with
  | .error e => .error e
  | .ok (children, s) =>
    (runP o (cheatLeaves (C (!true)) (prm.layer (!true)) Q (fun j => (ws j).child + (prm.layer (!true)).delta) (fun _ => 0)
      (fun j => cheatStart (C (!true)) (prm.layer (!true)) (prm.h (!true)) (Q j) ((ws j).child + (prm.layer (!true)).delta) 0) 0 (chunksExact (children.length / M) children)) s).map (·.2)

/-- The forger on a batch: they are given the stored witnesses of any `M` leaves and `M` points, and no secret about these points. -/
def forgeMultiPath (oE : SideO C false) (oO : SideO C true) (prm : SelRerand C) (rnd : ∀ p, Nat → B (!p)) (nodes : MultiWitPath M B (Pts C)) (Q : Fin M → (C false).Pt)
    (sE : SideP C false) (sO : SideP C true) : Except Err (MultiPath (C false).Pt (C true).Pt M × SideP C false × SideP C true) :=
  match multiProverLoop oE false prm nodes rnd 0 (nodes false) sE, multiProverLoop oO false prm nodes rnd 0 (nodes true).dropLast sO, rootIsEven nodes.join, (nodes true).getLast? with
  | .ok sE, .ok sO, .ok re, some last =>
    (forgeLeaves oO prm last (parentScalar rnd re true ((nodes true).length - 1)) Q sO).map fun sO => ({ multiProverPath prm nodes rnd (fun _ => 0) with selected := Q }, sE, sO)
  | _, _, _, _ => .error (.panic "no path")

variable [NeZero M]

/-- The last nodes on the odd curve are those above the leaves. -/
theorem multi_last {prm : SelRerand C} {T : CurveTree L M (Pts C)} {nodes : MultiWitPath M B (Pts C)} {leaf : Fin M → (C false).Pt} {ns : Fin M → WitPath B (Pts C)}
    (ht : ∀ q, Transposed (fun j => ns j q) (nodes q)) (hw : ∀ j, T.PathTo prm.tree j (ns j) ⟨false, leaf j⟩) (h0 : T.height ≠ 0) :
    ∃ last, (nodes true).getLast? = some last ∧ ∀ j, (last j).child = leaf j := by
  obtain ⟨l1, -⟩ := pathTo_lengths (hw 0)
  cases hl : (nodes true).getLast? with
  | none =>
    rw [List.getLast?_eq_none_iff] at hl
    have := (ht true).1
    rw [hl, l1] at this
    simp only [List.length_nil] at this
    omega
  | some last =>
    refine ⟨last, rfl, ?_⟩
    cases T with
    | even n => obtain ⟨w, hJ⟩ := joined_even ht hw; exact hJ.last last hl
    | odd n => obtain ⟨w, hJ⟩ := joined_odd ht hw; exact hJ.last last hl

theorem batch_forge_at (oE : SideO C false) (oO : SideO C true) {prm : SelRerand C} (hv : prm.Valid) {bits : Nat} (hb : ∀ p, (prm.layer p).lambda = bits) (h3 : 3 ≤ bits) (hg : prm.tree.EnoughGens L M)
    (hL : 1 ≤ L) {T : CurveTree L M (Pts C)} {nodes : MultiWitPath M B (Pts C)} {leaf : Fin M → (C (!true)).Pt}
    {ns : Fin M → WitPath B (Pts C)}
    (ht : ∀ q, Transposed (fun j => ns j q) (nodes q)) (hw : ∀ j, T.PathTo prm.tree j (ns j) ⟨false, leaf j⟩)
    (h0 : T.height ≠ 0) {rnd : ∀ p, Nat → B (!p)}
    (hE : ∀ j, j + 1 < (T.height + 1) / 2 → rnd false j ≠ 0) (hO : ∀ j < T.height / 2, rnd true j ≠ 0)
    (hav : ∀ p (k : Nat) f, (nodes p)[k]? = some f → (p = true → k + 1 < (nodes true).length) →
      prm.BatchAvoids (!p) (fun j => (f j).child) (rnd (!p) k))
    {Q : Fin M → (C (!true)).Pt} (hQ0 : ∀ j, Q j + (prm.layer (!true)).delta ≠ 0) (hx0 : ∀ j, leaf j + (prm.layer (!true)).delta ≠ 0)
    (hat : ∀ j, Attackable (C (!true)) (prm.layer (!true)).lambda (prm.h (!true)) 0 (leaf j + (prm.layer (!true)).delta)
      (Q j + (prm.layer (!true)).delta))
    {sE : SideP C false} {sO : SideP C true} {tE : SideV C false} {tO : SideV C true}
    (hsE : Session oE (prm.gens false) sE tE) (hsO : Session oO (prm.gens true) sO tO) (gE : sE.Good) (gO : sO.Good)
    {leafR : Fin M → B (!!true)} {path : MultiPath (C false).Pt (C true).Pt M} {r : Fin M → B (!false)} {hE' : SideP C false} {hO' : SideP C true}
    (hp : multiPathProverGadget oE oO false prm rnd leafR nodes sE sO = .ok ((path, r), hE', hO')) {m a k d : Nat} (hgets : sO.Gets hO' m a k d) :
    ∃ sO' tE' tO', forgeMultiPath oE oO prm rnd nodes Q sE sO = .ok ({ multiProverPath prm nodes rnd (fun _ => 0) with selected := Q }, hE', sO') ∧
      multiTreeVerifierGadget oE oO false prm T { multiProverPath prm nodes rnd (fun _ => 0) with selected := Q } tE tO = .ok (Q, tE', tO') ∧
      Session oE (prm.gens false) hE' tE' ∧ Session oO (prm.gens true) sO' tO' ∧ hE'.Good ∧ sO'.Good ∧ sO.Gets sO' m a k d := by
  have hM : M ≠ 0 := NeZero.ne M
  have hL0 : L ≠ 0 := by omega
  obtain ⟨⟨re, hre⟩, hsib⟩ := multi_ready ht hw
  obtain ⟨s1, a1, a2, a3, -⟩ := multi_side_complete oE false hv hM hL0 (hg false) (rnd := rnd) hre (nodes false) 0
    (fun k w hw => ⟨hsib _ k w hw, by rw [Nat.zero_add]; exact hav _ k w hw (by simp)⟩) gE
  obtain ⟨s3, b1, b2, b3, -⟩ := multi_side_complete oO false hv hM hL0 (hg true) (rnd := rnd) hre (nodes true).dropLast 0
    (fun k w hw => by
      have hk : k < (nodes true).dropLast.length := (List.getElem?_eq_some_iff.1 hw).1
      rw [List.length_dropLast] at hk
      rw [List.getElem?_dropLast, if_pos (by omega)] at hw
      exact ⟨hsib _ k w hw, by rw [Nat.zero_add]; exact hav _ k w hw (fun _ => by omega)⟩) gO
  obtain ⟨re', last, lp, rootHere, child, t3, tE', f1, f2, f3, -, f5, f6, f7, f8⟩ :=
    multi_frame ht hw h0 (leafR := fun _ => 0) hE hO hsE hsO a1 b1
  have hl := f2
  rw [List.getLast?_eq_getElem?] at hl
  have hsib' := fun j => (hsib _ _ _ hl j).1
  have hjl : (joinWit last).siblings.length = M * L := flatten_ofFn_length hsib'
  obtain ⟨ch, s4, h4, h1, h2, h3', h5, h6⟩ := children_values (w := joinWit last)
    (parentScalar rnd re' true ((nodes true).length - 1)) b2 (by rw [hjl, Nat.mul_comm]; exact hg true)
  obtain ⟨t4, d1, d2⟩ := multi_children_session f7 f6 h4
  have hlen : ch.length = M * L := by rw [← hjl, ← h3']; simp
  have hdiv : ch.length / M = L := by rw [hlen, Nat.mul_div_cancel_left _ (Nat.pos_of_ne_zero hM)]
  obtain ⟨hcl, hcl'⟩ := chunksExact_lengths hL0 hlen
  have hlf : leaf = fun j => (last j).child := funext fun j => (f3 j).symm
  subst hlf
  obtain ⟨s5, g1, g2, g4⟩ := cheatLeaves_complete_at (G := (C true).Pt) oO (hv.a (!true)) (hv.tables (!true))
    (leaf := Q) (child := fun j => (last j).child + (prm.layer (!true)).delta) (r := fun _ => 0) hQ0 hx0 hat (chunksExact L ch) 0 h1 (by omega)
    (fun c hc lc hlc => by
      obtain ⟨i, hi⟩ := List.getElem?_of_mem hc
      rw [chunksExact_getElem? hi] at hlc
      exact h2 lc (List.mem_of_mem_drop (List.mem_of_mem_take hlc)))
    (fun k c hk hc => by
      rw [chunksExact_getElem? hc]
      have := mem_of_map_eq (chunk_values hsib' h3' ⟨0 + k, hk⟩) (hsib _ _ _ hl ⟨0 + k, hk⟩).2
      simpa using this)
  have hsc := sameCalls_cheatLeaves (G := (C true).Pt) (buildTables_spec (hv.tables (!true))).1 Q
    (fun j => (last j).child + (prm.layer (!true)).delta) (fun _ => 0)
    (fun j => cheatStart (C (!true)) (prm.layer (!true)) (prm.h (!true)) (Q j) ((last j).child + (prm.layer (!true)).delta) 0) (chunksExact L ch) 0
  obtain ⟨⟨⟩, t5, v1, -⟩ := sameCalls_run oO hsc d2.inv.sync.stmt g1
  have hh : hE' = s1 ∧ multiProverLeaves oO false prm last (parentScalar rnd re' true ((nodes true).length - 1)) leafR s3 = .ok hO' := by
    unfold multiPathProverGadget multiProverOdd at hp
    simp only [a1, f2, b1, f1] at hp
    split at hp
    · cases hp
    rename_i s' e'
    simp only [Except.ok.injEq, Prod.mk.injEq] at hp
    obtain ⟨-, rfl, rfl⟩ := hp
    exact ⟨rfl, e'⟩
  obtain ⟨rfl, hh⟩ := hh
  refine ⟨s5, tE', t5, ?_, f8 Q ch t4 t5 d1 ?_, f5, d2.gadget hsc g1 v1, a2, g2, ?_⟩
  · unfold forgeMultiPath forgeLeaves
    simp only [a1, b1, f1, f2, show multiProverChildren prm true last (parentScalar rnd re' true ((nodes true).length - 1)) s3 = .ok (ch, s4) from h4, hdiv]
    rw [g1]
    rfl
  · unfold leavesLevel
    rw [if_neg (by rw [hdiv]; exact hL0), hdiv]
    exact v1
  · unfold multiProverLeaves at hh
    rw [show multiProverChildren prm true last (parentScalar rnd re' true ((nodes true).length - 1)) s3 = .ok (ch, s4) from h4] at hh
    simp only at hh
    cases hr : runP oO (leavesLevel (C (!true)) false (prm.layer (!true)) (fun j => (last j).child + leafR j • prm.h (!true)) ch
      (some fun j => (last j).child + (prm.layer (!true)).delta) (some fun j => prm.toNat (!!true) (leafR j))) s4 with
    | error e => rw [hr] at hh; cases hh
    | ok v =>
      rw [hr] at hh
      simp only [Except.map, Except.ok.injEq] at hh
      subst hh
      obtain ⟨c, hc⟩ := costs_leavesLevel (G := (C true).Pt) (C (!true)) false (prm.layer (!true)) (hb _) h3 (fun j => (last j).child + leafR j • prm.h (!true))
        (some fun j => (last j).child + (prm.layer (!true)).delta) (some fun j => prm.toNat (!!true) (leafR j)) hL hM ch hlen
      obtain ⟨c', hc'⟩ := costs_leavesLoop (G := (C true).Pt) (C (!true)) false (prm.layer (!true)) (hb _) h3 Q none none hL (chunksExact L ch) hcl' 0
      rw [hcl] at hc'
      exact hgets.swap (hc.gets (x := v.1) (s' := v.2) hr) ((hsc.costs hc').gets g1)

end CT
