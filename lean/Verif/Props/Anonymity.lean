import Verif.Spec.Coin
import Verif.Props.Hiding
import Verif.Props.TreeGadgets

/-!
# C50: the path does not show which leaf was selected
-/

namespace CT

variable {B : Bool → Type} [∀ p, Field (B p)] [∀ p, DecidableEq (B p)] {C : ∀ p, SWCurve (B p)} [∀ p, Module (B (!p)) (C p).Pt] {L M : Nat}

/-- The `k`-th node below the root on the path that lies on curve `q`: the child of the `k`-th node on the other curve (the identity if there is none). -/
def childAt (nodes : WitPath B (Pts C)) : (q : Bool) → Nat → (C q).Pt
  | false, k => ((nodes true)[k]?.map (·.child)).getD 0
  | true, k => ((nodes false)[k]?.map (·.child)).getD 0

theorem rerandomized_eq {prm : SelRerand C} {nodes nodes' : WitPath B (Pts C)} {rnd rnd' : ∀ p, Nat → B (!p)} {p : Bool}
    (hl : (nodes p).length = (nodes' p).length)
    (h : ∀ k, childAt nodes (!p) k + rnd (!p) k • prm.h (!p) = childAt nodes' (!p) k + rnd' (!p) k • prm.h (!p)) :
    rerandomized prm nodes rnd p = rerandomized prm nodes' rnd' p := by
  unfold rerandomized
  apply List.ext_getElem?
  intro k
  rw [List.getElem?_mapIdx, List.getElem?_mapIdx]
  have hk : ((nodes p)[k]?.map (·.child)).getD 0 + rnd (!p) k • prm.h (!p) = ((nodes' p)[k]?.map (·.child)).getD 0 + rnd' (!p) k • prm.h (!p) := by
    have := h k
    cases p <;> exact this
  rcases Nat.lt_or_ge k (nodes p).length with hlt | hge
  · rw [List.getElem?_eq_getElem hlt, List.getElem?_eq_getElem (hl ▸ hlt)] at hk ⊢
    simpa using hk
  · rw [List.getElem?_eq_none hge, List.getElem?_eq_none (hl ▸ hge)]
    rfl

/-- The change of the scalars which moves a path to another one. -/
def shift (lg : ∀ p, (C p).Pt → B (!p)) (nodes nodes' : WitPath B (Pts C)) (p : Bool) (k : Nat) : B (!p) :=
  lg p (childAt nodes p k - childAt nodes' p k)

theorem rerandomized_shift {prm : SelRerand C} {lg : ∀ p, (C p).Pt → B (!p)} (hlg : ∀ p P, lg p P • prm.h p = P) {nodes nodes' : WitPath B (Pts C)}
    (hl : ∀ p, (nodes p).length = (nodes' p).length) (rnd : ∀ p, Nat → B (!p)) (p : Bool) :
    rerandomized prm nodes rnd p = rerandomized prm nodes' (rnd + shift lg nodes nodes') p := by
  have key : ∀ q (a b : (C q).Pt) (x : B (!q)), a + x • prm.h q = b + (x + lg q (a - b)) • prm.h q := by
    intro q a b x
    rw [add_smul, hlg]; abel
  exact rerandomized_eq (hl p) fun k => key _ _ _ _

theorem pathProver_path {oE : SideO C false} {oO : SideO C true} {fx : Bool} {prm : SelRerand C} {rnd : ∀ p, Nat → B (!p)} {nodes : WitPath B (Pts C)}
    {sE sE' : SideP C false} {sO sO' : SideP C true} {path : Path (C false).Pt (C true).Pt} {r : B true}
    (h : pathProverGadget oE oO fx prm rnd nodes sE sO = .ok ((path, r), sE', sO')) : path = proverPath prm nodes rnd := by
  unfold pathProverGadget at h
  split at h
  · cases h
  · split at h
    · cases h
    · simp only [Except.ok.injEq, Prod.mk.injEq] at h
      exact h.1.1.symm

/-- For every proof, a bijection of the choices of the Prover under which `prove` returns this proof, with the same transcript, for both states. -/
def SameProofs {F G X : Type} [Field F] [DecidableEq F] [AddCommGroup G] [Module F G] [DecidableEq G] (o : Oracle F G X) (g : Gens G) (sA sB : PState F G X) : Prop :=
  ∀ p, ∃ φ : PRand F ≃ PRand F, ∀ tr, (∀ t', (challengeScalar o t' "x").2 <+: tr → (challengeScalar o t' "x").1 ≠ 0) →
    ∀ rnd, prove o g rnd sA = .ok (p, tr) ↔ prove o g (φ rnd) sB = .ok (p, tr)

/-- **C50**. Let `T` be a tree made by `from_set` and `i`, `i'` two of its indices, and let the blinding generators generate the two groups. There is a bijection of
the re-randomisation scalars (it depends on `T`, `i` and `i'` only, and makes up for the differences between the nodes of the two paths) such that for all scalars that are usable for `i` and whose image is usable for `i'`: with the
scalars and `i`, and with their image and `i'`, the Prover returns exactly the same path, the Verifier does the same, and for every pair of
proofs that can be sent there is a bijection of the remaining choices of the Prover under which both Provers send these proofs. So
the index cannot be determined from what is sent, not even with unlimited computing power. The Provers may start in different states, as long as they are
synchronised with the same Verifier: what was stated before may also depend on the index.

Excluded: the scalars of `SpendOk` (for which the path is not accepted or the Prover panics), and transcripts with the challenge `x = 0`. -/
theorem C50_path_anonymous [NeZero M] {prm : SelRerand C} (hv : prm.Valid) (hg : prm.tree.EnoughGens L M) (hL : 2 ≤ L)
    (hcap : ∀ p, (prm.gens p).capacity ≤ (prm.gens p).Gs.length ∧ (prm.gens p).capacity ≤ (prm.gens p).Hs.length)
    (hb : ∀ p, prm.h p ≠ 0) (hgen : ∀ p (P : (C p).Pt), ∃ a : B (!p), P = a • prm.h p)
    {set : List (C false).Pt} {height : Option Nat} {fuel : Nat} {T : CurveTree L M (Pts C)}
    (ht : fromSet prm.tree set height fuel = some (.ok T)) (hfuel : set.length + height.getD 0 ≤ fuel) (h0 : T.height ≠ 0)
    (oE : SideO C false) (oO : SideO C true) (fx : Bool) {i i' : Nat} (hi : i < set.length) (hi' : i' < set.length) :
    ∃ φ : (∀ p, Nat → B (!p)) ≃ (∀ p, Nat → B (!p)), (∀ nodes nodes', T.witness prm.tree i 0 = .ok nodes → T.witness prm.tree i' 0 = .ok nodes' →
        ∀ rnd p k, childAt nodes' p k + φ rnd p k • prm.h p = childAt nodes p k + rnd p k • prm.h p) ∧
      ∀ rnd, SpendOk prm T i rnd → SpendOk prm T i' (φ rnd) →
      ∀ (sA sB : ∀ p, SideP C p) (t : ∀ p, SideV C p),
      Session oE (prm.gens false) (sA false) (t false) → Session oO (prm.gens true) (sA true) (t true) →
      Session oE (prm.gens false) (sB false) (t false) → Session oO (prm.gens true) (sB true) (t true) →
      (∀ p, (sA p).Good ∧ (sA p).deferred = [] ∧ (sB p).Good ∧ (sB p).deferred = []) →
      ∃ path r r' sEA sOA sEB sOB tE tO,
        treeProverGadget oE oO fx prm rnd T i 0 (sA false) (sA true) = .ok ((path, r), sEA, sOA) ∧
        treeProverGadget oE oO fx prm (φ rnd) T i' 0 (sB false) (sB true) = .ok ((path, r'), sEB, sOB) ∧
        path.selected = set[i] + (show B (!false) from r) • prm.h false ∧ path.selected = set[i'] + (show B (!false) from r') • prm.h false ∧
        treeVerifierGadget oE oO fx prm T path (t false) (t true) = .ok (path.selected, tE, tO) ∧
        Session oE (prm.gens false) sEA tE ∧ Session oE (prm.gens false) sEB tE ∧ Session oO (prm.gens true) sOA tO ∧ Session oO (prm.gens true) sOB tO ∧
        SameProofs oE (prm.gens false) sEA sEB ∧ SameProofs oO (prm.gens true) sOA sOB := by
  obtain ⟨nodes, w1, p1⟩ := C26_witness_partial hg hL ht hfuel 0 hi
  obtain ⟨nodes', w2, p2⟩ := C26_witness_partial hg hL ht hfuel 0 hi'
  obtain ⟨l1, l2⟩ := pathTo_lengths p1
  obtain ⟨l1', l2'⟩ := pathTo_lengths p2
  have hl : ∀ p, (nodes p).length = (nodes' p).length := Bool.forall_bool.2 ⟨l2.trans l2'.symm, l1.trans l1'.symm⟩
  choose lg hlg using hgen
  have hM : 1 ≤ M := Nat.one_le_iff_ne_zero.2 (NeZero.ne M)
  have hg' : ∀ p, L ≤ (prm.gens p).Gs.length := fun p => le_trans (Nat.le_mul_of_pos_right L hM) (hg p)
  refine ⟨Equiv.addRight (shift lg nodes nodes'), ?_, fun rnd hr hr' sA sB t a1 a2 b1 b2 hgd => ?_⟩
  · intro n n' e e' rnd p k
    cases Except.ok.inj (w1.symm.trans e)
    cases Except.ok.inj (w2.symm.trans e')
    change _ + (rnd p k + lg p (childAt nodes p k - childAt nodes' p k)) • prm.h p = _
    rw [add_smul, ← hlg]; abel
  obtain ⟨path, r, sEA, sOA, k1, k2, k3, k4, k5, -⟩ := path_complete oE oO fx hv hg' p1 (rnd := rnd) (hr.avoids nodes w1) (hgd false).1 (hgd true).1
  obtain ⟨path', r', sEB, sOB, m1, m2, m3, m4, m5, -⟩ := path_complete oE oO fx hv hg' p2 (rnd := rnd + shift lg nodes nodes') (hr'.avoids nodes' w2)
    (hgd false).2.2.1 (hgd true).2.2.1
  obtain ⟨tE, tO, v1, v2, v3⟩ := path_session p1 h0 (fun j hj => hr.even j (by omega)) (fun j hj => hr.odd j (by omega)) a1 a2 k1
  obtain ⟨tE', tO', u1, u2, u3⟩ := path_session p2 h0 (fun j hj => hr'.even j (by omega)) (fun j hj => hr'.odd j (by omega)) b1 b2 m1
  have hpath : path' = path := by
    rw [pathProver_path k1, pathProver_path m1]
    unfold proverPath
    rw [rerandomized_shift (fun p P => (hlg p P).symm) hl rnd true, rerandomized_shift (fun p P => (hlg p P).symm) hl rnd false]
  subst hpath
  have hsel : path'.selected = set[i] + (show B (!false) from r) • prm.h false := by
    have := v1
    unfold treeVerifierGadget at this
    split at this
    · cases this
    rename_i q hq
    split at this
    · cases this
    split at this
    · cases this
    simp only [Except.ok.injEq, Prod.mk.injEq] at this
    rw [← this.1]
    unfold addRoot at hq
    split at hq <;> split at hq <;> cases hq <;> rfl
  rw [v1] at u1
  simp only [Except.ok.injEq, Prod.mk.injEq] at u1
  obtain ⟨e1, rfl, rfl⟩ := u1
  refine ⟨path', r, r', sEA, sOA, sEB, sOB, tE, tO, by unfold treeProverGadget; rw [w1]; exact k1, by unfold treeProverGadget; rw [w2]; exact m1, hsel,
    hsel.trans e1, by rw [v1, hsel], v2, u2, v3, u3, fun p => ?_, fun p => ?_⟩
  · exact C40_one_phase oE (prm.gens false) (hb false) (fun P => ⟨lg false P, hlg false P⟩) (hcap false).1 (hcap false).2 v2 u2
      (k4.trans (hgd false).2.1) (m4.trans (hgd false).2.2.2) k2.satisfied.2 m2.satisfied.2 p
  · exact C40_one_phase oO (prm.gens true) (hb true) (fun P => ⟨lg true P, hlg true P⟩) (hcap true).1 (hcap true).2 v3 u3
      (k5.trans (hgd true).2.1) (m5.trans (hgd true).2.2.2) k3.satisfied.2 m3.satisfied.2 p

section Example
open Curve19

theorem spendOk_rnd : SpendOk prm T 2 rnd where
  even := by rw [height_T]; intro j hj; omega
  odd := by intro j _; change (2 : ZMod 19) ≠ 0; decide
  avoids := by intro nodes' hw; rw [← Except.ok.inj (witness_T.symm.trans hw)]; exact avoids_T

/-- The scalars 13 and 9 move leaf 0 of the tree and its parent to where 5 and 2 move leaf 2 and its parent. -/
theorem moved : ∀ (p : Bool) (x : ZMod 19), childAt (C := Cs) nodes_0 p 0 + (x • h : Curve19.C.Pt) = childAt (C := Cs) nodes p 0 + (rnd p 0 : ZMod 19) • (h : Curve19.C.Pt) →
    x = if p then 9 else 13 := by decide +kernel

/-- Usable scalars for leaf 0. -/
theorem spendOk_moved {r : ∀ p : Bool, Nat → Curve19.B (!p)} (h1 : r false 0 = (13 : ZMod 19)) (h2 : r true 0 = (9 : ZMod 19)) : SpendOk prm T 0 r where
  even := by rw [height_T]; intro j hj; omega
  odd := by
    rw [height_T]
    intro j hj
    obtain rfl : j = 0 := by omega
    rw [h2]
    change (9 : ZMod 19) ≠ 0
    decide
  avoids := by
    have key : ∀ p, ∀ w ∈ (nodes_0 p).map (·.child), prm.Avoids (!p) w (if p then (13 : ZMod 19) else (9 : ZMod 19)) := by decide +kernel
    have hl : ∀ p, (nodes_0 p).length = 1 := by decide +kernel
    intro nodes' hw p k w hk
    rw [← Except.ok.inj (witness_0.symm.trans hw)] at hk
    have hk0 : k = 0 := by
      have := (List.getElem?_eq_some_iff.1 hk).1
      rw [hl p] at this
      omega
    subst hk0
    have := key p _ (List.mem_map.2 ⟨w, List.mem_of_getElem? hk, rfl⟩)
    cases p
    · rw [show r (!false) 0 = (9 : ZMod 19) from h2]; exact this
    · rw [show r (!true) 0 = (13 : ZMod 19) from h1]; exact this

set_option maxRecDepth 4000 in
/-- Non-vacuity of `C50_path_anonymous`: the leaves `11h` and `3h` of the tree with the leaves `3h, 5h, 11h`, and the scalars 5 and 2. -/
example (fx : Bool) : ∃ (r' : ∀ p : Bool, Nat → Curve19.B (!p)) (path : Path Curve19.C.Pt Curve19.C.Pt) (sEA sEB : SideP Cs false) (sOA sOB : SideP Cs true) (a b : ZMod 19),
    treeProverGadget (o false) (o true) fx prm rnd T 2 0 (.new []) (.new []) = .ok ((path, a), sEA, sOA) ∧
    treeProverGadget (o false) (o true) fx prm r' T 0 0 (.new []) (.new []) = .ok ((path, b), sEB, sOB) ∧
    path.selected = 11 • h + a • h ∧ path.selected = 3 • h + b • h ∧
    SameProofs (o false) (prm.gens false) sEA sEB ∧ SameProofs (o true) (prm.gens true) sOA sOB := by
  have hh : ∀ p, prm.h p ≠ 0 := by
    have : (h : Curve19.C.Pt) ≠ 0 := by decide +kernel
    exact fun _ => this
  obtain ⟨φ, h1, h2⟩ := C50_path_anonymous valid tree_gens le_rfl
    (fun p => by obtain ⟨h1, h2, h3⟩ := gens_length p; rw [h1, h2, h3]; exact ⟨le_rfl, le_rfl⟩) hh
    (fun p P => ⟨(log P : ZMod 19), by
      have : (log P : ZMod 19).val • h = P := by
        rw [ZMod.val_natCast, mod_smul, log_spec]
      exact (this.symm.trans (mulPt_eq _ _).symm)⟩)
    fromSet_T (by decide) (by rw [height_T]; decide) (o false) (o true) fx (i := 2) (i' := 0) (by decide) (by decide)
  have h3 := h1 nodes nodes_0 witness_T witness_0 rnd
  have gnew : ∀ p, PState.Good (PState.new [] : SideP Cs p) := fun p =>
    ⟨⟨rfl, rfl, by intro i hi; simp [PState.new] at hi, by simp [PState.new]⟩, by simp [PState.new], by simp [PState.new]⟩
  obtain ⟨path, r, r', sEA, sOA, sEB, sOB, tE, tO, k1, k2, k3, k4, -, -, -, -, -, k5, k6⟩ := h2 rnd spendOk_rnd
    (spendOk_moved (moved false _ (h3 false 0)) (moved true _ (h3 true 0))) (fun _ => .new []) (fun _ => .new []) (fun _ => .new [])
    (Session.new []) (Session.new []) (Session.new []) (Session.new []) (fun p => ⟨gnew p, rfl, gnew p, rfl⟩)
  exact ⟨_, path, sEA, sEB, sOA, sOB, r, r', k1, k2, k3, k4, k5, k6⟩

end Example

end CT
