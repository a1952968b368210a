import Verif.Model.Tree

/-!
# The select-and-rerandomize gadgets for whole paths

`relations/src/curve_tree_prover.rs:153-371`, `curve_tree_verifier.rs`. As in `Tree.lean` the even curve is `false`, the
odd one `true`. The Prover for curve `p` works over the scalar field `B (!p)` of curve `p`, which is the
base field of the other curve.

Simplifications: `M ≥ 1`; the feature `parallel` (which runs the two independent provers concurrently) is
modelled in `Parallel.lean`; `debug_assert` is modelled in `Debug.lean`, this is the release profile.
-/

namespace CT

variable {B : Bool → Type} [∀ p, Field (B p)] [∀ p, DecidableEq (B p)] {C : ∀ p, SWCurve (B p)}
  [∀ p, Module (B (!p)) (C p).Pt] {L M : Nat}

/-- The points of the two curves. -/
abbrev Pts (C : ∀ p, SWCurve (B p)) : Bool → Type := fun p => (C p).Pt

/-- The Prover for curve `p`. -/
abbrev SideP (C : ∀ p, SWCurve (B p)) (p : Bool) := PState (B (!p)) (C p).Pt (C (!p)).Pt
/-- The Verifier for curve `p`. -/
abbrev SideV (C : ∀ p, SWCurve (B p)) (p : Bool) := VState (B (!p)) (C p).Pt (C (!p)).Pt
/-- The challenges of the proof system for curve `p`. -/
abbrev SideO (C : ∀ p, SWCurve (B p)) (p : Bool) := Oracle (B (!p)) (C p).Pt (C (!p)).Pt

/-- `SelRerandParameters`, `curve_tree.rs:12-24`, with `SingleLayerParameters`,
`single_level_select_and_rerandomize.rs:18-40`, for both curves. `toNat` is `into_bigint` of the scalar field. -/
structure SelRerand (C : ∀ p, SWCurve (B p)) where
  gens : ∀ p, Gens (C p).Pt
  layer : ∀ p, LayerParams (C p)
  toNat : ∀ p, B p → Nat

/-- The parameters used for building trees. -/
def SelRerand.tree (prm : SelRerand C) : TreeParams B (Pts C) where
  gens := prm.gens
  delta p := (prm.layer p).delta
  xc p := (C p).xField

/-- The base `pc_gens.B_blinding` of curve `p`. -/
def SelRerand.h (prm : SelRerand C) (p : Bool) : (C p).Pt := (prm.gens p).pc.Bbl

/-! ## Prover -/

/-- The variables for the children: constants below the root (recognised by the parent's scalar being zero), the
opening of the parent otherwise; `curve_tree_prover.rs:331-346`. -/
def proverChildren (prm : SelRerand C) (p : Bool) (w : Wit B (Pts C) p) (parentR : B (!p)) (s : SideP C p) :
    Except Err (List (LC (B (!p))) × SideP C p) :=
  if parentR = 0 then .ok (w.siblings.map LC.const, s)
  else
    match s.commitVec (prm.gens p) w.siblings parentR with
    | .error e => .error e
    | .ok ((_, vars), s) => .ok (vars.map LC.ofVar, s)

/-- `single_level_select_and_rerandomize_prover_gadget` and its helper, `curve_tree_prover.rs:320-371`. -/
def proverLevel {p : Bool} (o : SideO C p) (fx : Bool) (prm : SelRerand C) (w : Wit B (Pts C) p) (parentR : B (!p))
    (childR : B (!!p)) (s : SideP C p) : Except Err (SideP C p) :=
  match proverChildren prm p w parentR s with
  | .error e => .error e
  | .ok (children, s) =>
    (runP o (singleLevel (C (!p)) fx (prm.layer (!p)) (w.child + childR • prm.h (!p)) children
      (some (w.child + (prm.layer (!p)).delta)) (some (prm.toNat (!!p) childR))) s).map (·.2)

/-- `root_is_even`, `curve_tree_prover.rs:170-180`. -/
def rootIsEven {B P : Bool → Type} (nodes : WitPath B P) : Except Err Bool :=
  if (nodes false).length = (nodes true).length then .ok true
  else if (nodes false).length + 1 = (nodes true).length then .ok false
  else .error (.panic "assertion failed: even_internal_nodes.len() + 1 == odd_internal_nodes.len()")

/-- The parent's scalar at level `i` of side `p`, `curve_tree_prover.rs:228-237` (even) and `250-259` (odd). `rnd p j` is the
`j`-th scalar drawn for curve `p`. Once `rootIsEven` has returned, the indices are in range. -/
def parentScalar (rnd : ∀ p, Nat → B (!p)) (rootEven : Bool) (p : Bool) (i : Nat) : B (!p) :=
  if rootEven = !p then (if i = 0 then 0 else rnd p (i - 1)) else rnd p i

/-- The loops `prove_even` and `prove_odd`, `curve_tree_prover.rs:226-247` and `248-269`. -/
def proverLoop {p : Bool} (o : SideO C p) (fx : Bool) (prm : SelRerand C) (nodes : WitPath B (Pts C))
    (rnd : ∀ p, Nat → B (!p)) : Nat → List (Wit B (Pts C) p) → SideP C p → Except Err (SideP C p)
  | _, [], s => .ok s
  | i, w :: ws, s =>
    match rootIsEven nodes with
    | .error e => .error e
    | .ok rootEven =>
      match proverLevel o fx prm w (parentScalar rnd rootEven p i) (rnd (!p) i) s with
      | .error e => .error e
      | .ok s => proverLoop o fx prm nodes rnd (i + 1) ws s

/-- The re-randomised children of the nodes on side `p`, `curve_tree_prover.rs:203-213` and `217-231`: the `i`-th one is
re-randomised by the `i`-th scalar drawn for the other curve. -/
def rerandomized (prm : SelRerand C) (nodes : WitPath B (Pts C)) (rnd : ∀ p, Nat → B (!p)) (p : Bool) :
    List (C (!p)).Pt :=
  (nodes p).mapIdx fun i w => w.child + rnd (!p) i • prm.h (!p)

/-- The path returned by the Prover, `curve_tree_prover.rs:193-231, 274-281`: the re-randomised child of the last odd node is the
selected leaf (the default value, the identity, if there is no odd node). -/
def proverPath (prm : SelRerand C) (nodes : WitPath B (Pts C)) (rnd : ∀ p, Nat → B (!p)) :
    Path (C false).Pt (C true).Pt where
  selected := (rerandomized prm nodes rnd true).getLast?.getD 0
  odd := rerandomized prm nodes rnd false
  even := (rerandomized prm nodes rnd true).dropLast

/-- `CurveTreeWitnessPath::select_and_rerandomize_prover_gadget`, `curve_tree_prover.rs:186-293`. -/
def pathProverGadget (oE : SideO C false) (oO : SideO C true) (fx : Bool) (prm : SelRerand C) (rnd : ∀ p, Nat → B (!p))
    (nodes : WitPath B (Pts C)) (sE : SideP C false) (sO : SideP C true) :
    Except Err ((Path (C false).Pt (C true).Pt × B true) × SideP C false × SideP C true) :=
  match proverLoop oE fx prm nodes rnd 0 (nodes false) sE with
  | .error e => .error e
  | .ok sE =>
    match proverLoop oO fx prm nodes rnd 0 (nodes true) sO with
    | .error e => .error e
    | .ok sO =>
      .ok ((proverPath prm nodes rnd,
        if nodes true = [] then 0 else rnd false ((nodes true).length - 1)), sE, sO)

/-- `CurveTree::select_and_rerandomize_prover_gadget`, `curve_tree_prover.rs:115-131`. -/
def treeProverGadget (oE : SideO C false) (oO : SideO C true) (fx : Bool) (prm : SelRerand C) (rnd : ∀ p, Nat → B (!p))
    (t : CurveTree L M (Pts C)) (index : Nat) (treeIndex : Fin M) (sE : SideP C false) (sO : SideP C true) :
    Except Err ((Path (C false).Pt (C true).Pt × B true) × SideP C false × SideP C true) :=
  match t.witness prm.tree index treeIndex with
  | .error e => .error e
  | .ok nodes => pathProverGadget oE oO fx prm rnd nodes sE sO

/-! ## Verifier -/

/-- `select_and_rerandomize_verification_commitments`, `curve_tree_verifier.rs:23-47`. -/
def addRoot [NeZero M] {P : Bool → Type} (t : CurveTree L M P) (path : Path (P false) (P true)) :
    Except Err (Path (P false) (P true)) :=
  match t with
  | .odd n =>
    if path.even.length = path.odd.length then .ok { path with odd := n.commitment 0 :: path.odd }
    else .error (.panic "assertion failed: even_commitments.len() == odd_commitments.len()")
  | .even n =>
    if path.even.length + 1 = path.odd.length then .ok { path with even := n.commitment 0 :: path.even }
    else .error (.panic "assertion failed: even_commitments.len() + 1 == odd_commitments.len()")

/-- The x-coordinates of the root's children, `curve_tree_verifier.rs:110-126` and `168-184`: the root must be a branch on curve
`p`. -/
def rootSiblings [NeZero M] (prm : SelRerand C) : (p : Bool) → CurveTree L M (Pts C) → Except Err (List (B (!p)))
  | false, .even (.branch _ children _ _) => .ok (xCoordinates prm.tree children 0)
  | true, .odd (.branch _ children _ _) => .ok (xCoordinates prm.tree children 0)
  | _, _ => .error (.panic "explicit panic")

/-- The variables for the children of a parent, `curve_tree_verifier.rs:109-135` and `167-193`. -/
def verifierChildren [NeZero M] (prm : SelRerand C) (t : CurveTree L M (Pts C)) (p isRoot : Bool) (parent : (C p).Pt)
    (s : SideV C p) : Except Err (List (LC (B (!p))) × SideV C p) :=
  if isRoot then (rootSiblings prm p t).map fun xs => (xs.map LC.const, s)
  else .ok ((s.commitVec L parent).1.map LC.ofVar, (s.commitVec L parent).2)

/-- The loops of `even_verifier_gadget` and `odd_verifier_gadget`, `curve_tree_verifier.rs:103-143` and `157-201`, over the parents
of curve `p`; `child i` is the point looked up for parent `i`. -/
def verifierLoop [NeZero M] {p : Bool} (o : SideO C p) (fx : Bool) (prm : SelRerand C) (t : CurveTree L M (Pts C)) (rootHere : Bool)
    (child : Nat → Option (C (!p)).Pt) : Nat → List (C p).Pt → SideV C p → Except Err (SideV C p)
  | _, [], s => .ok s
  | i, parent :: parents, s =>
    match child i with
    | none => .error (.panic "index out of bounds")
    | some c =>
      match verifierChildren prm t p (decide (i = 0) && rootHere) parent s with
      | .error e => .error e
      | .ok (children, s) =>
        match runV o (singleLevel (C (!p)) fx (prm.layer (!p)) c children none none) s with
        | .error e => .error e
        | .ok (_, s) => verifierLoop o fx prm t rootHere child (i + 1) parents s

/-- The parity check at the start of the two gadgets, `curve_tree_verifier.rs:97-101` and `152-156`. -/
def pathRootIsOdd {P0 P1 : Type} (path : Path P0 P1) : Except Err Bool :=
  if path.even.length + 1 = path.odd.length then .ok true
  else if path.even.length = path.odd.length then .ok false
  else .error (.panic "assertion failed: even_commitments.len() == odd_commitments.len()")

/-- `even_verifier_gadget`, `curve_tree_verifier.rs:92-144`. -/
def evenVerifierGadget [NeZero M] (o : SideO C false) (fx : Bool) (prm : SelRerand C) (t : CurveTree L M (Pts C))
    (path : Path (C false).Pt (C true).Pt) (s : SideV C false) : Except Err (SideV C false) :=
  match pathRootIsOdd path with
  | .error e => .error e
  | .ok rootIsOdd =>
    verifierLoop o fx prm t (!rootIsOdd) (fun i => path.odd[if rootIsOdd then i + 1 else i]?) 0 path.even s

/-- `odd_verifier_gadget`, `curve_tree_verifier.rs:146-202`. -/
def oddVerifierGadget [NeZero M] (o : SideO C true) (fx : Bool) (prm : SelRerand C) (t : CurveTree L M (Pts C))
    (path : Path (C false).Pt (C true).Pt) (s : SideV C true) : Except Err (SideV C true) :=
  match pathRootIsOdd path with
  | .error e => .error e
  | .ok rootIsOdd =>
    verifierLoop o fx prm t rootIsOdd
      (fun i => if i < path.odd.length - 1 then path.even[if rootIsOdd then i else i + 1]? else some path.selected)
      0 path.odd s

/-- `select_and_rerandomize_verifier_gadget`, `curve_tree_verifier.rs:59-77` (release profile). -/
def treeVerifierGadget [NeZero M] (oE : SideO C false) (oO : SideO C true) (fx : Bool) (prm : SelRerand C)
    (t : CurveTree L M (Pts C)) (path : Path (C false).Pt (C true).Pt) (sE : SideV C false) (sO : SideV C true) :
    Except Err ((C false).Pt × SideV C false × SideV C true) :=
  match addRoot t path with
  | .error e => .error e
  | .ok path =>
    match evenVerifierGadget oE fx prm t path sE with
    | .error e => .error e
    | .ok sE =>
      match oddVerifierGadget oO fx prm t path sO with
      | .error e => .error e
      | .ok sO => .ok (path.selected, sE, sO)

end CT
