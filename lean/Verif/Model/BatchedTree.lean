import Verif.Model.TreeGadgets

/-!
# The batched select-and-rerandomize gadgets

`relations/src/batched_curve_tree_prover.rs`, `batched_curve_tree_verifier.rs`: `M` paths in the `M` trees stored in one
`CurveTree<L, M, ..>`, with one commitment per level for the sum of the `M` nodes, except for the `M` leaves, which are
re-randomised one by one. Conventions and simplifications as in `TreeGadgets.lean`; in particular `M ≥ 1` (for `M = 0` the
code panics with an index out of bounds or a division by zero).
-/

namespace CT

/-! ## Witness -/

/-- `CurveTreeWitnessMultiPath`, `batched_curve_tree_prover.rs:95-108`. -/
abbrev MultiWitPath (M : Nat) (B P : Bool → Type) := ∀ p, List (Fin M → Wit B P p)

/-- Evaluate `f 0`, `f 1`, … in order and collect the results, or stop at the first error. -/
def seqFin {ε α : Type} : {n : Nat} → (Fin n → Except ε α) → Except ε (Fin n → α)
  | 0, _ => .ok fun i => i.elim0
  | _ + 1, f =>
    match f 0 with
    | .error e => .error e
    | .ok a =>
      match seqFin fun i => f i.succ with
      | .error e => .error e
      | .ok g => .ok (Fin.cons a g)

/-- The loops which turn `M` paths into one path of arrays, `batched_curve_tree_prover.rs:67-74` and `76-83`: as many as the
first path has nodes; a shorter path panics. -/
def transposeWit {M : Nat} [NeZero M] {α : Type} (ws : Fin M → List α) : Except Err (List (Fin M → α)) :=
  (List.range (ws 0).length).mapM fun i =>
    if h : ∀ j, i < (ws j).length then .ok fun j => (ws j)[i]'(h j)
    else .error (.panic "index out of bounds")

section
variable {L M : Nat} {B P : Bool → Type} [∀ p, Field (B p)] [∀ p, AddCommGroup (P p)] [∀ p, Module (B (!p)) (P p)]

/-- `select_and_rerandomize_prover_multi_witness`, `batched_curve_tree_prover.rs:54-92`. -/
def CurveTree.multiWitness [NeZero M] (prm : TreeParams B P) (indices : Fin M → Nat) (t : CurveTree L M P) :
    Except Err (MultiWitPath M B P) :=
  match seqFin fun j => t.witness prm (indices j) j with
  | .error e => .error e
  | .ok ws =>
    match transposeWit fun j => ws j false with
    | .error e => .error e
    | .ok evens =>
      match transposeWit fun j => ws j true with
      | .error e => .error e
      | .ok odds =>
        if t.height = evens.length + odds.length then
          .ok fun
            | false => evens
            | true => odds
        else .error (.panic "assertion failed: height")

/-- The `M` nodes of one level taken together: the concatenation of their siblings, `batched_curve_tree_prover.rs:349-352` and
`355-358`, and the sum of the selected children, `154-157`, `174-177` and `320-325`. -/
def joinWit {p : Bool} (ws : Fin M → Wit B P p) : Wit B P p where
  siblings := (List.ofFn fun j => (ws j).siblings).flatten
  child := ∑ j, (ws j).child

/-- The joined nodes of all levels. -/
def MultiWitPath.join (nodes : MultiWitPath M B P) : WitPath B P := fun p => (nodes p).map joinWit

end

variable {B : Bool → Type} [∀ p, Field (B p)] [∀ p, DecidableEq (B p)] {C : ∀ p, SWCurve (B p)}
  [∀ p, Module (B (!p)) (C p).Pt] {L M : Nat}

/-! ## Prover -/

/-- `allocate_multi_node_variables`, `batched_curve_tree_prover.rs:341-371`: the same decision as for a single path, made for
the concatenated siblings. -/
def multiProverChildren (prm : SelRerand C) (p : Bool) (ws : Fin M → Wit B (Pts C) p) (parentR : B (!p)) (s : SideP C p) :
    Except Err (List (LC (B (!p))) × SideP C p) :=
  proverChildren prm p (joinWit ws) parentR s

/-- `single_level_batched_select_and_rerandomize_prover_gadget`, `batched_curve_tree_prover.rs:302-339`. -/
def multiProverLevel {p : Bool} (o : SideO C p) (fx : Bool) (prm : SelRerand C) (ws : Fin M → Wit B (Pts C) p)
    (parentR : B (!p)) (childR : B (!!p)) (s : SideP C p) : Except Err (SideP C p) :=
  match multiProverChildren prm p ws parentR s with
  | .error e => .error e
  | .ok (children, s) =>
    (runP o (singleLevelBatched (C (!p)) fx M (prm.layer (!p)) ((∑ j, (ws j).child) + childR • prm.h (!p)) children
      (some (List.ofFn fun j => (ws j).child + (prm.layer (!p)).delta)) (some (prm.toNat (!!p) childR))) s).map (·.2)

/-- The loop over the chunks of the last level, `batched_curve_tree_prover.rs:261-274` and
`batched_curve_tree_verifier.rs:242-251`: chunk `i` is used for the `i`-th leaf. `leaf` are the public points, `w` and `r`
the Prover's witnesses and scalars. -/
def leavesLoop {G F : Type} [Field F] [DecidableEq F] (C : SWCurve F) (fx : Bool) (prm : LayerParams C) (leaf : Fin M → C.Pt)
    (w : Option (Fin M → C.Pt)) (r : Option (Fin M → Nat)) : Nat → List (List (LC F)) → Prog F G C.Pt Unit
  | _, [] => pure ()
  | i, chunk :: chunks =>
    if h : i < M then do
      singleLevel C fx prm (leaf ⟨i, h⟩) chunk (w.map fun f => f ⟨i, h⟩) (r.map fun f => f ⟨i, h⟩)
      leavesLoop C fx prm leaf w r (i + 1) chunks
    else panic "index out of bounds"

/-- The last level, `batched_curve_tree_prover.rs:258-274` and `batched_curve_tree_verifier.rs:240-251`: the variables are
split into chunks of `len / M`. -/
def leavesLevel {G F : Type} [Field F] [DecidableEq F] (C : SWCurve F) (fx : Bool) (prm : LayerParams C) (leaf : Fin M → C.Pt)
    (children : List (LC F)) (w : Option (Fin M → C.Pt)) (r : Option (Fin M → Nat)) : Prog F G C.Pt Unit :=
  if children.length / M = 0 then panic "chunk size must be non-zero"
  else leavesLoop C fx prm leaf w r 0 (chunksExact (children.length / M) children)

/-- The branch of `prove_odd` for the last level, `batched_curve_tree_prover.rs:249-275`. -/
def multiProverLeaves {p : Bool} (o : SideO C p) (fx : Bool) (prm : SelRerand C) (ws : Fin M → Wit B (Pts C) p)
    (parentR : B (!p)) (leafR : Fin M → B (!!p)) (s : SideP C p) : Except Err (SideP C p) :=
  match multiProverChildren prm p ws parentR s with
  | .error e => .error e
  | .ok (children, s) =>
    (runP o (leavesLevel (C (!p)) fx (prm.layer (!p)) (fun j => (ws j).child + leafR j • prm.h (!p)) children
      (some fun j => (ws j).child + (prm.layer (!p)).delta) (some fun j => prm.toNat (!!p) (leafR j))) s).map (·.2)

/-- The batched levels of the loops `prove_even` and `prove_odd`, `batched_curve_tree_prover.rs:204-225` and `228-248`.
`root_is_even` and the choice of the parent's scalar are as for a single path (the message of the panic differs). -/
def multiProverLoop {p : Bool} (o : SideO C p) (fx : Bool) (prm : SelRerand C) (nodes : MultiWitPath M B (Pts C))
    (rnd : ∀ p, Nat → B (!p)) : Nat → List (Fin M → Wit B (Pts C) p) → SideP C p → Except Err (SideP C p)
  | _, [], s => .ok s
  | i, w :: ws, s =>
    match rootIsEven nodes.join with
    | .error e => .error e
    | .ok rootEven =>
      match multiProverLevel o fx prm w (parentScalar rnd rootEven p i) (rnd (!p) i) s with
      | .error e => .error e
      | .ok s => multiProverLoop o fx prm nodes rnd (i + 1) ws s

/-- `prove_odd`, `batched_curve_tree_prover.rs:228-277`: the levels before the last one are batched. -/
def multiProverOdd (o : SideO C true) (fx : Bool) (prm : SelRerand C) (nodes : MultiWitPath M B (Pts C))
    (rnd : ∀ p, Nat → B (!p)) (leafR : Fin M → B (!false)) (s : SideP C true) : Except Err (SideP C true) :=
  match (nodes true).getLast? with
  | none => .ok s
  | some last =>
    match multiProverLoop o fx prm nodes rnd 0 (nodes true).dropLast s with
    | .error e => .error e
    | .ok s =>
      match rootIsEven nodes.join with
      | .error e => .error e
      | .ok rootEven => multiProverLeaves o fx prm last (parentScalar rnd rootEven true ((nodes true).length - 1)) leafR s

/-- The path returned by the Prover, `batched_curve_tree_prover.rs:144-202, 284-291`. -/
def multiProverPath (prm : SelRerand C) (nodes : MultiWitPath M B (Pts C)) (rnd : ∀ p, Nat → B (!p))
    (leafR : Fin M → B (!false)) : MultiPath (C false).Pt (C true).Pt M where
  selected j := match (nodes true).getLast? with
    | none => 0
    | some last => ((last j).child + (show B (!!true) from leafR j) • prm.h (!true) : (C (!true)).Pt)
  odd := rerandomized prm nodes.join rnd false
  even := (rerandomized prm nodes.join rnd true).dropLast

/-- `CurveTreeWitnessMultiPath::batched_select_and_rerandomize_prover_gadget`, `batched_curve_tree_prover.rs:129-292`. `rnd p j`
is the `j`-th scalar drawn for inner nodes of curve `p`, `leafR j` the scalar drawn for leaf `j`. -/
def multiPathProverGadget (oE : SideO C false) (oO : SideO C true) (fx : Bool) (prm : SelRerand C) (rnd : ∀ p, Nat → B (!p))
    (leafR : Fin M → B (!false)) (nodes : MultiWitPath M B (Pts C)) (sE : SideP C false) (sO : SideP C true) :
    Except Err ((MultiPath (C false).Pt (C true).Pt M × (Fin M → B (!false))) × SideP C false × SideP C true) :=
  match multiProverLoop oE fx prm nodes rnd 0 (nodes false) sE with
  | .error e => .error e
  | .ok sE =>
    match multiProverOdd oO fx prm nodes rnd leafR sO with
    | .error e => .error e
    | .ok sO =>
      .ok ((multiProverPath prm nodes rnd leafR, fun j => if nodes true = [] then 0 else leafR j), sE, sO)

/-- `CurveTree::batched_select_and_rerandomize_prover_gadget`, `batched_curve_tree_prover.rs:29-51`. -/
def multiTreeProverGadget [NeZero M] (oE : SideO C false) (oO : SideO C true) (fx : Bool) (prm : SelRerand C)
    (rnd : ∀ p, Nat → B (!p)) (leafR : Fin M → B (!false)) (t : CurveTree L M (Pts C)) (indices : Fin M → Nat)
    (sE : SideP C false) (sO : SideP C true) :
    Except Err ((MultiPath (C false).Pt (C true).Pt M × (Fin M → B (!false))) × SideP C false × SideP C true) :=
  match t.multiWitness prm.tree indices with
  | .error e => .error e
  | .ok nodes => multiPathProverGadget oE oO fx prm rnd leafR nodes sE sO

/-! ## Verifier -/

/-- `batched_select_and_rerandomize_verification_commitments`, `batched_curve_tree_verifier.rs:24-57`. -/
def addRoots {P : Bool → Type} [∀ p, AddCommGroup (P p)] (t : CurveTree L M P) (path : MultiPath (P false) (P true) M) :
    Except Err (MultiPath (P false) (P true) M) :=
  match t with
  | .odd n =>
    if path.even.length = path.odd.length then .ok { path with odd := (∑ i, n.commitment i) :: path.odd }
    else .error (.panic "assertion failed: even_commitments.len() == odd_commitments.len()")
  | .even n =>
    if path.even.length + 1 = path.odd.length then .ok { path with even := (∑ i, n.commitment i) :: path.even }
    else .error (.panic "assertion failed: even_commitments.len() + 1 == odd_commitments.len()")

/-- The x-coordinates of the root's children in the `M` trees, `batched_curve_tree_verifier.rs:123-150` and `193-219`. -/
def multiRootSiblings (prm : SelRerand C) : (p : Bool) → CurveTree L M (Pts C) → Except Err (List (B (!p)))
  | false, .even (.branch _ children _ _) => .ok (List.ofFn fun i => xCoordinates prm.tree children i).flatten
  | true, .odd (.branch _ children _ _) => .ok (List.ofFn fun i => xCoordinates prm.tree children i).flatten
  | _, _ => .error (.panic "explicit panic")

/-- The variables for the children of a parent, `batched_curve_tree_verifier.rs:121-160` and `190-228`. -/
def multiVerifierChildren (prm : SelRerand C) (t : CurveTree L M (Pts C)) (p isRoot : Bool) (parent : (C p).Pt)
    (s : SideV C p) : Except Err (List (LC (B (!p))) × SideV C p) :=
  match (if isRoot then (multiRootSiblings prm p t).map fun xs => (xs.map LC.const, s)
    else .ok ((s.commitVec (L * M) parent).1.map LC.ofVar, (s.commitVec (L * M) parent).2)) with
  | .error e => .error e
  | .ok (children, s) =>
    if children.length = M * L then .ok (children, s)
    else .error (.panic "assertion failed: variables.len() == M * L")

/-- The batched levels of the two loops, `batched_curve_tree_verifier.rs:115-169` and `183-238`; `child i` is the point looked up
for parent `i`. -/
def multiVerifierLoop {p : Bool} (o : SideO C p) (fx : Bool) (prm : SelRerand C) (t : CurveTree L M (Pts C)) (rootHere : Bool)
    (child : Nat → Option (C (!p)).Pt) : Nat → List (C p).Pt → SideV C p → Except Err (SideV C p)
  | _, [], s => .ok s
  | i, parent :: parents, s =>
    match multiVerifierChildren prm t p (decide (i = 0) && rootHere) parent s with
    | .error e => .error e
    | .ok (children, s) =>
      match child i with
      | none => .error (.panic "index out of bounds")
      | some c =>
        match runV o (singleLevelBatched (C (!p)) fx M (prm.layer (!p)) c children none none) s with
        | .error e => .error e
        | .ok (_, s) => multiVerifierLoop o fx prm t rootHere child (i + 1) parents s

/-- The parity check at the start of the two gadgets, `batched_curve_tree_verifier.rs:109-113` and `178-182`. -/
def multiPathRootIsOdd {P0 P1 : Type} (path : MultiPath P0 P1 M) : Except Err Bool :=
  if path.even.length + 1 = path.odd.length then .ok true
  else if path.even.length = path.odd.length then .ok false
  else .error (.panic "assertion failed: even_commitments.len() == odd_commitments.len()")

/-- `even_verifier_gadget`, `batched_curve_tree_verifier.rs:103-170`. -/
def multiEvenVerifierGadget (o : SideO C false) (fx : Bool) (prm : SelRerand C) (t : CurveTree L M (Pts C))
    (path : MultiPath (C false).Pt (C true).Pt M) (s : SideV C false) : Except Err (SideV C false) :=
  match multiPathRootIsOdd path with
  | .error e => .error e
  | .ok rootIsOdd =>
    multiVerifierLoop o fx prm t (!rootIsOdd) (fun i => path.odd[if rootIsOdd then i + 1 else i]?) 0 path.even s

/-- `odd_verifier_gadget`, `batched_curve_tree_verifier.rs:172-254`: the levels before the last one are batched. -/
def multiOddVerifierGadget (o : SideO C true) (fx : Bool) (prm : SelRerand C) (t : CurveTree L M (Pts C))
    (path : MultiPath (C false).Pt (C true).Pt M) (s : SideV C true) : Except Err (SideV C true) :=
  match multiPathRootIsOdd path with
  | .error e => .error e
  | .ok rootIsOdd =>
    match path.odd.getLast? with
    | none => .ok s
    | some last =>
      match multiVerifierLoop o fx prm t rootIsOdd (fun i => path.even[if rootIsOdd then i else i + 1]?) 0
          path.odd.dropLast s with
      | .error e => .error e
      | .ok s =>
        match multiVerifierChildren prm t true (decide (path.odd.length - 1 = 0) && rootIsOdd) last s with
        | .error e => .error e
        | .ok (children, s) =>
          (runV o (leavesLevel (C false) fx (prm.layer false) path.selected children none none) s).map (·.2)

/-- `batched_select_and_rerandomize_verifier_gadget`, `batched_curve_tree_verifier.rs:69-87` (release profile), with
`get_rerandomized_leaves`, `99-101`. -/
def multiTreeVerifierGadget (oE : SideO C false) (oO : SideO C true) (fx : Bool) (prm : SelRerand C)
    (t : CurveTree L M (Pts C)) (path : MultiPath (C false).Pt (C true).Pt M) (sE : SideV C false) (sO : SideV C true) :
    Except Err ((Fin M → (C false).Pt) × SideV C false × SideV C true) :=
  match addRoots t path with
  | .error e => .error e
  | .ok path =>
    match multiEvenVerifierGadget oE fx prm t path sE with
    | .error e => .error e
    | .ok sE =>
      match multiOddVerifierGadget oO fx prm t path sO with
      | .error e => .error e
      | .ok sO => .ok (path.selected, sE, sO)

end CT
