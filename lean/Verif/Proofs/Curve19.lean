import Verif.Proofs.Curve61
import Verif.Proofs.Concrete
import Verif.Spec.TreeGadgets
import Mathlib.Algebra.Module.ZMod

/-! A "cycle" of curves for non-vacuity examples: `y² = x³ + 10` over `F_19` has order 19, so it is its own partner. There is no
point with `x = 0`. -/

namespace CT.Curve19

instance : Fact (Nat.Prime 19) := ⟨by norm_num⟩

/-- `y² = x³ + 10` over `F_19`. -/
def C : SWCurve (ZMod 19) := ⟨0, 10, by decide⟩

/-- The base point. -/
def h : C.Pt := C.pt (x := 1) (y := 7) (by decide : (7 : ZMod 19) ^ 2 = 1 ^ 3 + 0 * 1 + 10)

theorem order_all (P : C.Pt) : (19 : ℕ) • P = 0 := by
  have key : ∀ x y : ZMod 19, ∀ hh : C.OnCurve x y, 19 • C.pt hh = 0 := by decide +kernel
  cases P with
  | zero => exact smul_zero _
  | some x y hh => exact key x y ((C.equation_iff x y).1 hh.1)

theorem mod_smul {n : ℕ} {P : C.Pt} : (n % 19) • P = n • P := by
  conv_rhs => rw [← Nat.div_add_mod n 19, add_smul, mul_comm, mul_smul, order_all, smul_zero, zero_add]

/-! Multiplication by a scalar from a table of logarithms, so that the kernel can run examples. -/

def pt' (x y : ZMod 19) (h : y ^ 2 = x ^ 3 + 0 * x + 10) : C.Pt := C.pt (x := x) (y := y) h

/-- The multiples of `h`. -/
def multiples : List C.Pt := [0, pt' 1 7 (by decide), pt' 9 13 (by decide), pt' 6 13 (by decide), pt' 18 3 (by decide), pt' 4 6 (by decide), pt' 12 3 (by decide), pt' 11 7 (by decide), pt' 7 12 (by decide), pt' 8 3 (by decide), pt' 8 16 (by decide), pt' 7 7 (by decide), pt' 11 12 (by decide), pt' 12 16 (by decide), pt' 4 13 (by decide), pt' 18 16 (by decide), pt' 6 6 (by decide), pt' 9 6 (by decide), pt' 1 12 (by decide)]

/-- For each `x` the first `k` with `k • h = (x, y)`, and `y`. -/
def logs : List (Nat × Nat) := [(0, 0), (1, 7), (0, 0), (0, 0), (5, 6), (0, 0), (3, 13), (8, 12), (9, 3), (2, 13), (0, 0), (7, 7), (6, 3), (0, 0), (0, 0), (0, 0), (0, 0), (0, 0), (4, 3)]

/-- The `k < 19` with `P = k • h`. -/
def log : C.Pt → Nat
  | .zero => 0
  | .some x y _ => match logs.getD x.val (0, 0) with
    | (k, y0) => if y.val == y0 then k else 19 - k

theorem log_spec (P : C.Pt) : log P • h = P := by
  have key : ∀ x y : ZMod 19, ∀ hh : C.OnCurve x y, log (C.pt hh) • h = C.pt hh := by decide +kernel
  cases P with
  | zero => rfl
  | some x y hh => exact key x y ((C.equation_iff x y).1 hh.1)

theorem multiples_spec {k : Nat} (hk : k < 19) : multiples.getD k 0 = k • h := by
  have key : ∀ k < 19, multiples.getD k 0 = k • h := by decide +kernel
  exact key k hk

/-- `r • P`. -/
def mulPt (r : ZMod 19) (P : C.Pt) : C.Pt := multiples.getD (r.val * log P % 19) 0

theorem mulPt_eq (r : ZMod 19) (P : C.Pt) : mulPt r P = r.val • P := by
  unfold mulPt
  rw [multiples_spec (Nat.mod_lt _ (by decide)), mod_smul, mul_smul, log_spec]

instance : Module (ZMod 19) C.Pt where
  smul := mulPt
  one_smul P := by change mulPt 1 P = P; rw [mulPt_eq, show (1 : ZMod 19).val = 1 from rfl, one_smul]
  mul_smul r s P := by
    change mulPt (r * s) P = mulPt r (mulPt s P)
    rw [mulPt_eq, mulPt_eq, mulPt_eq, ZMod.val_mul, smul_smul, mod_smul]
  smul_zero r := by change mulPt r 0 = 0; rw [mulPt_eq]; exact smul_zero _
  smul_add r P Q := by change mulPt r (P + Q) = mulPt r P + mulPt r Q; rw [mulPt_eq, mulPt_eq, mulPt_eq]; exact smul_add _ _ _
  add_smul r s P := by
    change mulPt (r + s) P = mulPt r P + mulPt s P
    rw [mulPt_eq, mulPt_eq, mulPt_eq, ZMod.val_add, ← add_smul, mod_smul]
  zero_smul P := by change mulPt 0 P = 0; rw [mulPt_eq, ZMod.val_zero, zero_smul]

/-! ## Parameters and a tree with three leaves, `L = 2`, `M = 1` -/

abbrev B : Bool → Type := fun _ => ZMod 19
abbrev Cs : ∀ p, SWCurve (B p) := fun _ => C

instance : ∀ p, Module (B (!p)) (Cs p).Pt := fun _ => inferInstanceAs (Module (ZMod 19) C.Pt)

def gs (n a : Nat) : List C.Pt := (List.range n).map fun k => ((k * k + a) % 18 + 1) • h

/-- Bulletproofs generators of capacity 512, `Δ = h`, three windows. -/
def prm : SelRerand Cs where
  gens _ := ⟨⟨4 • h, h⟩, 512, gs 512 1, gs 512 3⟩
  layer _ := ⟨h, (buildTables C (windows 6) h).getD [], 6⟩
  toNat _ x := x.val

theorem gens_length (p : Bool) : (prm.gens p).Gs.length = 512 ∧ (prm.gens p).Hs.length = 512 ∧ (prm.gens p).capacity = 512 := by
  simp [prm, gs]

theorem gens_enough (p : Bool) : 2 ≤ (prm.gens p).Gs.length := by
  rw [(gens_length p).1]; decide

theorem tree_gens : prm.tree.EnoughGens 2 1 := fun p => gens_enough p

def set : List C.Pt := [3 • h, 5 • h, 11 • h]

instance {L M : Nat} : Inhabited (CurveTree L M (Pts Cs)) := ⟨.even (.leaf 0)⟩

/-- The tree of height 2. -/
def T : CurveTree 2 1 (Pts Cs) :=
  match fromSet prm.tree set none 10 with
  | some (.ok t) => t
  | _ => default

theorem fromSet_T : fromSet prm.tree set none 10 = some (.ok T) := by
  have h : (match fromSet (L := 2) (M := 1) prm.tree set none 10 with
    | some (.ok _) => true
    | _ => false) = true := by decide +kernel
  unfold T
  split at h
  · rename_i t e; rw [e]
  · simp at h

theorem height_T : T.height = 2 := by decide +kernel

/-- The scalars drawn by the Prover. -/
def rnd : ∀ p : Bool, Nat → B (!p) := fun p _ => if p then (2 : ZMod 19) else (5 : ZMod 19)

/-- Some challenges. -/
def o (p : Bool) : SideO Cs p := fun t => ((t.length % 18 + 1 : Nat) : ZMod 19)

theorem valid : prm.Valid where
  a _ := rfl
  tables _ := by
    have : (buildTables C (CT.windows 6) h).isSome = true := by decide +kernel
    obtain ⟨ts, e⟩ := Option.isSome_iff_exists.1 this
    change buildTables C (CT.windows 6) h = some ((buildTables C (CT.windows 6) h).getD [])
    rw [e]; rfl
  windows _ := by change CT.windows 6 ≠ 1; decide
  cast _ x := by change ((ZMod.val (x : ZMod 19) : ℕ) : ZMod 19) = x; exact ZMod.natCast_zmod_val x
  bits _ x := lt_trans (ZMod.val_lt (x : ZMod 19)) (by change 19 < 2 ^ 6; decide)

instance (P Q : C.Pt) : Decidable (C.DiffX P Q) := by unfold SWCurve.DiffX; infer_instance

instance (l r : Nat) : Decidable (ChainOk C l h r) :=
  decidable_of_iff (∀ k < windows l, 1 ≤ k → C.DiffX ((((r % 8 ^ k : Nat) : Int) + offs k) • h)
      (tableScalar (windows l) (k + 1) (r / 8 ^ k % 8) • h)) ⟨fun h k a b => h k b a, fun h k a b => h k b a⟩

instance (p : Bool) (c : C.Pt) (r : ZMod 19) : Decidable (prm.Avoids p c r) := by
  change Decidable (ChainOk C 6 h r.val ∧ C.DiffX (c + h) (r • h))
  infer_instance

/-- The witness for leaf 2. -/
def nodes : WitPath B (Pts Cs) :=
  match T.witness prm.tree 2 0 with
  | .ok n => n
  | .error _ => fun _ => []

theorem witness_T : T.witness prm.tree 2 0 = .ok nodes := by
  have h : (match T.witness prm.tree 2 0 with
    | .ok _ => true
    | _ => false) = true := by decide +kernel
  unfold nodes
  split at h
  · rename_i t e; rw [e]
  · simp at h

/-- The witness for leaf 0. -/
def nodes_0 : WitPath B (Pts Cs) :=
  match T.witness prm.tree 0 0 with
  | .ok n => n
  | .error _ => fun _ => []

theorem witness_0 : T.witness prm.tree 0 0 = .ok nodes_0 := by
  have h : (match T.witness prm.tree 0 0 with
    | .ok _ => true
    | _ => false) = true := by decide +kernel
  unfold nodes_0
  split at h
  · rename_i t e; rw [e]
  · simp at h

theorem avoids_T (p : Bool) (k : Nat) (w : Wit B (Pts Cs) p) (hw : (nodes p)[k]? = some w) :
    prm.Avoids (!p) w.child (rnd (!p) k) := by
  have key : ∀ p, ∀ w ∈ (nodes p).map (·.child), prm.Avoids (!p) w (rnd (!p) 0) := by decide +kernel
  exact key p _ (List.mem_map.2 ⟨w, List.mem_of_getElem? hw, rfl⟩)

/-- Blinding values. -/
def pr (a : Nat) : PRand (ZMod 19) :=
  ⟨(a * a + 1 : Nat), (a + 2 : Nat), (2 * a + 3 : Nat), fun i => (i * i + a : Nat), fun i => (2 * i + a * a + 1 : Nat), 4, 5, 6,
    fun i => (i + 3 : Nat), fun i => (i + 7 : Nat), fun i => (i * i + a : Nat)⟩

/-- Run the Prover's gadget on the witness `nodes` and the Verifier's gadget on the path, make both proofs and verify them; true if
everything succeeds. -/
def accepted (rnd : ∀ p, Nat → B (!p)) (T : CurveTree 2 1 (Pts Cs)) (nodes : WitPath B (Pts Cs)) (a b : Nat) : Bool :=
  match pathProverGadget (o false) (o true) false prm rnd nodes (.new []) (.new []) with
  | .error _ => false
  | .ok ((path, _), sE, sO) =>
    match treeVerifierGadget (o false) (o true) false prm T path (.new []) (.new []) with
    | .error _ => false
    | .ok (_, tE, tO) =>
      match prove (o false) (prm.gens false) (pr a) sE with
      | .error _ => false
      | .ok (pE, _) =>
        match prove (o true) (prm.gens true) (pr b) sO with
        | .error _ => false
        | .ok (pO, _) =>
          isOk (verify (o false) (prm.gens false) (7 : ZMod 19) pE tE) && isOk (verify (o true) (prm.gens true) (8 : ZMod 19) pO tO)

theorem accepted_iff {rnd : ∀ p, Nat → B (!p)} {T : CurveTree 2 1 (Pts Cs)} {nodes : WitPath B (Pts Cs)} {a b : Nat}
    (h : accepted rnd T nodes a b = true) :
    ∃ path r sE sO x tE tO pE trE pO trO,
      pathProverGadget (o false) (o true) false prm rnd nodes (.new []) (.new []) = .ok ((path, r), sE, sO) ∧
      treeVerifierGadget (o false) (o true) false prm T path (.new []) (.new []) = .ok (x, tE, tO) ∧
      prove (o false) (prm.gens false) (pr a) sE = .ok (pE, trE) ∧ prove (o true) (prm.gens true) (pr b) sO = .ok (pO, trO) ∧
      verify (o false) (prm.gens false) (7 : ZMod 19) pE tE = .ok () ∧
      verify (o true) (prm.gens true) (8 : ZMod 19) pO tO = .ok () := by
  unfold accepted at h
  split at h
  · simp at h
  rename_i path r sE sO h1
  split at h
  · simp at h
  rename_i x tE tO h2
  split at h
  · simp at h
  rename_i pE trE h3
  split at h
  · simp at h
  rename_i pO trO h4
  rw [Bool.and_eq_true] at h
  refine ⟨path, r, sE, sO, x, tE, tO, pE, trE, pO, trO, h1, h2, h3, h4, ?_, ?_⟩
  · have h := h.1; unfold isOk at h; split at h
    · assumption
    · simp at h
  · have h := h.2; unfold isOk at h; split at h
    · assumption
    · simp at h

end CT.Curve19
