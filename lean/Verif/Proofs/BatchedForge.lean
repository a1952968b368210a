import Verif.Props.BatchedTree
import Verif.Proofs.TreeForge

/-! A cheating Prover on a batch: honest on every level but the leaves. -/

namespace CT

section
variable {M : Nat}

/-- The loop over the leaves with cheating witnesses. -/
def cheatLeaves {G F : Type} [Field F] [DecidableEq F] (C : SWCurve F) (prm : LayerParams C) (leaf child : Fin M → C.Pt)
    (r : Fin M → Nat) (P : Fin M → C.Pt) : Nat → List (List (LC F)) → Prog F G C.Pt Unit
  | _, [] => pure ()
  | i, chunk :: chunks =>
    if h : i < M then do
      cheatSingleLevel C prm (leaf ⟨i, h⟩) chunk (child ⟨i, h⟩) (r ⟨i, h⟩) (P ⟨i, h⟩)
      cheatLeaves C prm leaf child r P (i + 1) chunks
    else panic "index out of bounds"

theorem sameCalls_cheatLeaves {G F : Type} [Field F] [DecidableEq F] {C : SWCurve F} {prm : LayerParams C}
    (hl : prm.tables.length = windows prm.lambda) (leaf child : Fin M → C.Pt) (r : Fin M → Nat) (P : Fin M → C.Pt)
    (chunks : List (List (LC F))) : ∀ i, SameCalls (G := G) Eq (cheatLeaves C prm leaf child r P i chunks)
      (leavesLoop C false prm leaf none none i chunks) := by
  induction chunks with
  | nil => intro i; exact SameCalls.refl (fun _ => rfl) _
  | cons c cs ih =>
    intro i
    unfold cheatLeaves leavesLoop
    split
    · exact (sameCalls_cheatSingleLevel hl _ c _ _ _).bind fun _ _ _ => ih (i + 1)
    · exact SameCalls.refl (fun _ => rfl) _

theorem cheatLeaves_complete {F G : Type} [Field F] [DecidableEq F] {C : SWCurve F} [AddCommGroup G] [Module F G]
    (o : Oracle F G C.Pt) (ha : C.a = 0) {prm : LayerParams C} {h : C.Pt}
    (hts : buildTables C (windows prm.lambda) h = some prm.tables) {leaf child : Fin M → C.Pt} {r : Fin M → Nat}
    (hne : ∀ j, leaf j + prm.delta ≠ 0) (hc0 : ∀ j, child j ≠ 0)
    (hat : ∀ j, Attackable C prm.lambda h (r j) (child j) (leaf j + prm.delta))
    (chunks : List (List (LC F))) : ∀ (i : Nat) {s : PState F G C.Pt}, s.Good → i + chunks.length ≤ M →
    (∀ c ∈ chunks, ∀ lc ∈ c, s.HasLC lc) →
    (∀ (k : Nat) c (hk : i + k < M), chunks[k]? = some c → ∃ lc ∈ c, s.assignment.eval lc = C.xField (child ⟨i + k, hk⟩)) →
    ∃ P s', runP o (cheatLeaves C prm leaf child r P i chunks) s = .ok ((), s') ∧ s'.Good ∧ s.Ext s' := by
  induction chunks with
  | nil => intro i s hs _ _ _; exact ⟨fun _ => 0, s, rfl, hs, .refl s⟩
  | cons c cs ih =>
    intro i s hs hl hlc hmem
    have hi : i < M := by simp at hl; omega
    obtain ⟨Q, ⟨⟩, s1, g1, g2, g4, -⟩ := complete_cheatSingleLevel (o := o) hs ha hts (hlc c (by simp)) (hne ⟨i, hi⟩) (hc0 _)
      (hmem 0 c hi rfl) (hat ⟨i, hi⟩)
    obtain ⟨P, s2, k1, k2, k3⟩ := ih (i + 1) g2 (by simp at hl; omega)
      (fun c' hc lc hl => g4.hasLC (hlc c' (by simp [hc]) lc hl))
      (fun k c' hk hc => by
        obtain ⟨lc, h1, h2⟩ := hmem (k + 1) c' (by omega) hc
        refine ⟨lc, h1, ?_⟩
        rw [g4.eval (hlc c' (by simp [List.mem_of_getElem? hc]) lc h1), h2]
        congr 2
        exact Fin.ext (by simp; omega))
    have hP : ∀ (cs : List (List (LC F))) k, i < k → cheatLeaves (G := G) C prm leaf child r (Function.update P ⟨i, hi⟩ Q) k cs =
        cheatLeaves C prm leaf child r P k cs := by
      intro cs
      induction cs with
      | nil => intro k _; rfl
      | cons a as iha =>
        intro k hk
        unfold cheatLeaves
        split
        · rename_i hkM
          rw [Function.update_of_ne (by intro e; have := congrArg Fin.val e; simp at this; omega), iha (k + 1) (by omega)]
        · rfl
    refine ⟨Function.update P ⟨i, hi⟩ Q, s2, ?_, k2, g4.trans k3⟩
    unfold cheatLeaves
    rw [dif_pos hi, hP cs (i + 1) (by omega), Function.update_self]
    exact (runP_bind_ok _).2 ⟨_, _, g1, k1⟩

end

variable {B : Bool → Type} [∀ p, Field (B p)] [∀ p, DecidableEq (B p)] {C : ∀ p, SWCurve (B p)}
  [∀ p, Module (B (!p)) (C p).Pt] {L M : Nat} [NeZero M]

theorem batch_forge (oE : SideO C false) (oO : SideO C true) {prm : SelRerand C} (hv : prm.Valid) (hg : prm.tree.EnoughGens L M)
    (hL : L ≠ 0) {T : CurveTree L M (Pts C)} {nodes : MultiWitPath M B (Pts C)} {leaf : Fin M → (C (!true)).Pt}
    {ns : Fin M → WitPath B (Pts C)}
    (ht : ∀ q, Transposed (fun j => ns j q) (nodes q)) (hw : ∀ j, T.PathTo prm.tree j (ns j) ⟨false, leaf j⟩)
    (h0 : T.height ≠ 0) {rnd : ∀ p, Nat → B (!p)}
    (hE : ∀ j, j + 1 < (T.height + 1) / 2 → rnd false j ≠ 0) (hO : ∀ j < T.height / 2, rnd true j ≠ 0)
    (hav : ∀ p (k : Nat) f, (nodes p)[k]? = some f → (p = true → k + 1 < (nodes true).length) →
      prm.BatchAvoids (!p) (fun j => (f j).child) (rnd (!p) k))
    {Q : Fin M → (C (!true)).Pt} (hQ0 : ∀ j, Q j + (prm.layer (!true)).delta ≠ 0) (hx0 : ∀ j, leaf j + (prm.layer (!true)).delta ≠ 0)
    {r : Fin M → Nat}
    (hat : ∀ j, Attackable (C (!true)) (prm.layer (!true)).lambda (prm.h (!true)) (r j) (leaf j + (prm.layer (!true)).delta)
      (Q j + (prm.layer (!true)).delta))
    {sE : SideP C false} {sO : SideP C true} {tE : SideV C false} {tO : SideV C true}
    (hsE : Session oE (prm.gens false) sE tE) (hsO : Session oO (prm.gens true) sO tO) (gE : sE.Good) (gO : sO.Good) :
    ∃ path sE' sO' tE' tO', path.selected = Q ∧ multiTreeVerifierGadget oE oO false prm T path tE tO = .ok (Q, tE', tO') ∧
      Session oE (prm.gens false) sE' tE' ∧ Session oO (prm.gens true) sO' tO' ∧ sE'.Good ∧ sO'.Good ∧
      sE'.deferred = sE.deferred ∧ sO'.deferred = sO.deferred := by
  have hM : M ≠ 0 := NeZero.ne M
  obtain ⟨⟨re, hre⟩, hsib⟩ := multi_ready ht hw
  obtain ⟨s1, a1, a2, a3, -⟩ := multi_side_complete oE false hv hM hL (hg false) (rnd := rnd) hre (nodes false) 0
    (fun k w hw => ⟨hsib _ k w hw, by rw [Nat.zero_add]; exact hav _ k w hw (by simp)⟩) gE
  obtain ⟨s3, b1, b2, b3, -⟩ := multi_side_complete oO false hv hM hL (hg true) (rnd := rnd) hre (nodes true).dropLast 0
    (fun k w hw => by
      have hk : k < (nodes true).dropLast.length := (List.getElem?_eq_some_iff.1 hw).1
      rw [List.length_dropLast] at hk
      rw [List.getElem?_dropLast, if_pos (by omega)] at hw
      exact ⟨hsib _ k w hw, by rw [Nat.zero_add]; exact hav _ k w hw (fun _ => by omega)⟩) gO
  obtain ⟨re', last, lp, rootHere, child, t3, tE', f1, f2, f3, -, f5, f6, f7, f8⟩ :=
    multi_frame ht hw h0 (leafR := fun _ => 0) hE hO hsE hsO a1 b1
  have hl := f2
  rw [List.getLast?_eq_getElem?] at hl
  have hsib' := fun j => (hsib _ _ _ hl j).1
  have hjl : (joinWit last).siblings.length = M * L := flatten_ofFn_length hsib'
  obtain ⟨ch, s4, h4, h1, h2, h3, h5, h6⟩ := children_values (w := joinWit last)
    (parentScalar rnd re' true ((nodes true).length - 1)) b2 (by rw [hjl, Nat.mul_comm]; exact hg true)
  obtain ⟨t4, d1, d2⟩ := multi_children_session f7 f6 h4
  have hlen : ch.length = M * L := by rw [← hjl, ← h3]; simp
  have hdiv : ch.length / M = L := by rw [hlen, Nat.mul_div_cancel_left _ (Nat.pos_of_ne_zero hM)]
  have hcl : (chunksExact L ch).length = M := by
    rw [chunksExact_length, hlen, Nat.mul_div_cancel _ (Nat.pos_of_ne_zero hL)]
  obtain ⟨P, s5, g1, g2, g4⟩ := cheatLeaves_complete (G := (C true).Pt) oO (hv.a (!true)) (hv.tables (!true))
    (leaf := Q) (child := fun j => leaf j + (prm.layer (!true)).delta) (r := r) hQ0 hx0 hat (chunksExact L ch) 0 h1 (by omega)
    (fun c hc lc hlc => by
      obtain ⟨i, hi⟩ := List.getElem?_of_mem hc
      rw [chunksExact_getElem? hi] at hlc
      exact h2 lc (List.mem_of_mem_drop (List.mem_of_mem_take hlc)))
    (fun k c hk hc => by
      rw [chunksExact_getElem? hc]
      have := mem_of_map_eq (chunk_values hsib' h3 ⟨0 + k, hk⟩) (hsib _ _ _ hl ⟨0 + k, hk⟩).2
      rw [f3] at this
      simpa using this)
  have hsc := sameCalls_cheatLeaves (G := (C true).Pt) (buildTables_spec (hv.tables (!true))).1 Q
    (fun j => leaf j + (prm.layer (!true)).delta) r P (chunksExact L ch) 0
  obtain ⟨⟨⟩, t5, v1, -⟩ := sameCalls_run oO hsc d2.inv.sync.stmt g1
  refine ⟨{ multiProverPath prm nodes rnd (fun _ => 0) with selected := Q }, s1, s5, tE', t5, rfl, f8 Q ch t4 t5 d1 ?_, f5,
    d2.gadget hsc g1 v1, a2, g2, a3, g4.deferred.trans (h5.trans b3)⟩
  unfold leavesLevel
  rw [if_neg (by rw [hdiv]; exact hL), hdiv]
  exact v1

end CT
