import Mathlib.Data.Set.Basic
import Mathlib.Logic.Function.Basic
import Verif.Model.BatchedTree
import Verif.Model.Coin

/-!
# The feature `parallel`

Both crates switch on the feature `parallel` by default (`bulletproofs/Cargo.toml:36-39`, `relations/Cargo.toml:28-30`). With it, some
pieces of the code run as tasks of a thread pool: `rayon::join` at `curve_tree_prover.rs:283`, `batched_curve_tree_prover.rs:282`,
`coin.rs:236-247`, `coin.rs:499-510`, `coin.rs:530-549` and `coin.rs:649-652`, and `rayon::scope` at `prover.rs:598-653`. This file models
that code: programs with fork and join over a shared memory, and the executions of such a program, in which the scheduler picks the task that
makes the next step.

Simplifications: an action on a cell of the memory is one step, and some actions stand for several lines of code (a call of
`verify_mint`, for example); the parallelism inside the arkworks crates (`ark-ec/parallel` and so on) is not modelled; random numbers
are arguments, as everywhere in the model.
-/

namespace CT

/-! ## Programs with fork and join -/

/-- A program over a memory whose cells have the types `σ i`. -/
inductive Proc {ι : Type} (σ : ι → Type) : Type → Type 1 where
  /-- The task is finished: a value, or a panic. -/
  | ret {α : Type} (r : Except Err α) : Proc σ α
  /-- One step: replace the content `s` of cell `i` by `f s` and continue with `k s`. -/
  | act {α : Type} (i : ι) (f : σ i → σ i) (k : σ i → Proc σ α) : Proc σ α
  /-- `rayon::join(a, b)`, then `k`. -/
  | join {α β γ : Type} (a : Proc σ β) (b : Proc σ γ) (k : β × γ → Proc σ α) : Proc σ α

namespace Proc
variable {ι : Type} {σ : ι → Type} {α β γ : Type}

/-- The result of `rayon::join` when both tasks are finished: "if a single closure panics, that panic will be propagated; if both
closures panic, `join` will panic with the panic value from the first closure" (documentation of `rayon::join`). -/
def joined (ra : Except Err β) (rb : Except Err γ) (k : β × γ → Proc σ α) : Proc σ α :=
  match ra, rb with
  | .error e, _ => .ret (.error e)
  | .ok _, .error e => .ret (.error e)
  | .ok x, .ok y => k (x, y)

variable [DecidableEq ι]

/-- One step of an execution: any task that is not finished may be the one that moves. Both tasks of a `join` are always
run to their end. -/
inductive Step : {α : Type} → Proc σ α × (∀ i, σ i) → Proc σ α × (∀ i, σ i) → Prop where
  | act {α : Type} (i : ι) (f : σ i → σ i) (k : σ i → Proc σ α) (m : ∀ i, σ i) :
      Step (.act i f k, m) (k (m i), Function.update m i (f (m i)))
  | left {α β γ : Type} {a a' : Proc σ β} {m m' : ∀ i, σ i} (b : Proc σ γ) (k : β × γ → Proc σ α) :
      Step (a, m) (a', m') → Step (.join a b k, m) (.join a' b k, m')
  | right {α β γ : Type} {b b' : Proc σ γ} {m m' : ∀ i, σ i} (a : Proc σ β) (k : β × γ → Proc σ α) :
      Step (b, m) (b', m') → Step (.join a b k, m) (.join a b' k, m')
  | joined {α β γ : Type} (ra : Except Err β) (rb : Except Err γ) (k : β × γ → Proc σ α) (m : ∀ i, σ i) :
      Step (.join (.ret ra) (.ret rb) k, m) (joined ra rb k, m)

/-- The program without the feature: the first task, then (unless it panics) the second one. The memory is the one at the end or at
the panic. -/
def run : {α : Type} → Proc σ α → (∀ i, σ i) → Except Err α × (∀ i, σ i)
  | _, .ret r, m => (r, m)
  | _, .act i f k, m => run (k (m i)) (Function.update m i (f (m i)))
  | _, .join a b k, m =>
    match run a m with
    | (.error e, m) => (.error e, m)
    | (.ok x, m) =>
      match run b m with
      | (.error e, m) => (.error e, m)
      | (.ok y, m) => run (k (x, y)) m

omit [DecidableEq ι] in
/-- Sequencing. -/
def bind : {α : Type} → Proc σ α → (α → Proc σ β) → Proc σ β
  | _, .ret (.ok a), f => f a
  | _, .ret (.error e), _ => .ret (.error e)
  | _, .act i g k, f => .act i g fun s => (k s).bind f
  | _, .join a b k, f => .join a b fun xy => (k xy).bind f

omit [DecidableEq ι] in
/-- A function that works on cell `i`, as one step. When it panics the content stays. -/
def call (i : ι) (g : σ i → Except Err (α × σ i)) : Proc σ α :=
  .act i (fun s => match g s with | .ok (_, s) => s | .error _ => s) fun s => .ret ((g s).map (·.1))

omit [DecidableEq ι] in
/-- The program uses the cells of `I` only. -/
def Uses (I : Set ι) : {α : Type} → Proc σ α → Prop
  | _, .ret _ => True
  | _, .act i _ k => i ∈ I ∧ ∀ s, (k s).Uses I
  | _, .join a b k => a.Uses I ∧ b.Uses I ∧ ∀ xy, (k xy).Uses I

omit [DecidableEq ι] in
/-- Tasks that run at the same time use different cells. -/
def Separated : {α : Type} → Proc σ α → Prop
  | _, .ret _ => True
  | _, .act _ _ k => ∀ s, (k s).Separated
  | _, .join a b k => a.Separated ∧ b.Separated ∧ (∃ I J, Disjoint I J ∧ a.Uses I ∧ b.Uses J) ∧ ∀ xy, (k xy).Separated

end Proc

/-! ## The memory of the parallel code -/

/-- The variables tasks work on: the two Provers, the two Verifiers, the options `A_I1`, `A_O1`, `S1` of `prover.rs:597` for each of the two
Provers, the two copies of paths of `coin.rs:501` and `506`, and a place for `verify_signatures`, which changes nothing. -/
inductive Cell where
  | prover (p : Bool)
  | verifier (p : Bool)
  | com (p : Bool) (k : Fin 3)
  | path (k : Bool)
  | sig
deriving DecidableEq

section
variable {B : Bool → Type} [∀ p, Field (B p)] [∀ p, DecidableEq (B p)] {C : ∀ p, SWCurve (B p)}
  [∀ p, Module (B (!p)) (C p).Pt] {L M : Nat} {K SK S : Type}

/-- The types of the variables. -/
abbrev Mem (C : ∀ p, SWCurve (B p)) : Cell → Type
  | .prover p => SideP C p
  | .verifier p => SideV C p
  | .com p _ => Option (C p).Pt
  | .path _ => Path (C false).Pt (C true).Pt
  | .sig => Unit

/-- A function that works on the Prover for curve `p`. -/
def onProver {α : Type} (p : Bool) (g : SideP C p → Except Err (α × SideP C p)) : Proc (Mem C) α := Proc.call (.prover p) g
/-- A function that works on the Verifier for curve `p`. -/
def onVerifier {α : Type} (p : Bool) (g : SideV C p → Except Err (α × SideV C p)) : Proc (Mem C) α := Proc.call (.verifier p) g

/-! ## Gadgets run by a Prover -/

/-- A gadget run by the Prover for curve `p`, one step for each operation of the constraint system (`prover.rs:82-185`). -/
def progProc {α : Type} (p : Bool) (o : SideO C p) : Prog (B (!p)) (C p).Pt (C (!p)).Pt α → Proc (Mem C) α
  | .pure a => .ret (.ok a)
  | .fail e => .ret (.error e)
  | .multiply l r k => (onProver p fun s => s.multiply l r).bind fun v => progProc p o (k v)
  | .allocate a k => (onProver p fun s => s.allocate a).bind fun v => progProc p o (k v)
  | .allocateMultiplier a k => (onProver p fun s => s.allocateMultiplier a).bind fun v => progProc p o (k v)
  | .constrain lc k => (onProver p fun s => .ok ((), s.constrain lc)).bind fun _ => progProc p o k
  | .append msg k => (onProver p fun s => .ok ((), { s with transcript := s.transcript ++ [msg] })).bind fun _ => progProc p o k
  | .challenge label k =>
    (onProver p fun s => .ok ((challengeScalar o s.transcript label).1,
      { s with transcript := (challengeScalar o s.transcript label).2 })).bind fun c => progProc p o (k c)

/-- One round of the loops `prove_even` and `prove_odd`, `curve_tree_prover.rs:320-371`. -/
def levelProc {p : Bool} (o : SideO C p) (fx : Bool) (prm : SelRerand C) (w : Wit B (Pts C) p) (parentR : B (!p))
    (childR : B (!!p)) : Proc (Mem C) Unit :=
  (onProver p (proverChildren prm p w parentR)).bind fun children =>
    (progProc p o (singleLevel (C (!p)) fx (prm.layer (!p)) (w.child + childR • prm.h (!p)) children
      (some (w.child + (prm.layer (!p)).delta)) (some (prm.toNat (!!p) childR)))).bind fun _ => .ret (.ok ())

/-- The closures `prove_even` and `prove_odd`, `curve_tree_prover.rs:235-255` and `258-278`. -/
def loopProc {p : Bool} (o : SideO C p) (fx : Bool) (prm : SelRerand C) (nodes : WitPath B (Pts C))
    (rnd : ∀ p, Nat → B (!p)) : Nat → List (Wit B (Pts C) p) → Proc (Mem C) Unit
  | _, [] => .ret (.ok ())
  | i, w :: ws =>
    match rootIsEven nodes with
    | .error e => .ret (.error e)
    | .ok rootEven =>
      (levelProc o fx prm w (parentScalar rnd rootEven p i) (rnd (!p) i)).bind fun _ => loopProc o fx prm nodes rnd (i + 1) ws

/-- `select_and_rerandomize_prover_gadget` of a witness path with the feature `parallel`, `curve_tree_prover.rs:186-293`. -/
def pathProc (o : ∀ p, SideO C p) (fx : Bool) (prm : SelRerand C) (rnd : ∀ p, Nat → B (!p)) (nodes : WitPath B (Pts C)) :
    Proc (Mem C) (Path (C false).Pt (C true).Pt × B true) :=
  .join (loopProc (o false) fx prm nodes rnd 0 (nodes false)) (loopProc (o true) fx prm nodes rnd 0 (nodes true)) fun _ =>
    .ret (.ok (proverPath prm nodes rnd, if nodes true = [] then 0 else rnd false ((nodes true).length - 1)))

/-- `CurveTree::select_and_rerandomize_prover_gadget` with the feature `parallel`, `curve_tree_prover.rs:115-131`. -/
def treeProc (o : ∀ p, SideO C p) (fx : Bool) (prm : SelRerand C) (rnd : ∀ p, Nat → B (!p)) (t : CurveTree L M (Pts C))
    (index : Nat) (treeIndex : Fin M) : Proc (Mem C) (Path (C false).Pt (C true).Pt × B true) :=
  match t.witness prm.tree index treeIndex with
  | .error e => .ret (.error e)
  | .ok nodes => pathProc o fx prm rnd nodes

/-! ## Batched paths -/

/-- One batched round, `batched_curve_tree_prover.rs:302-339`. -/
def multiLevelProc {p : Bool} (o : SideO C p) (fx : Bool) (prm : SelRerand C) (ws : Fin M → Wit B (Pts C) p)
    (parentR : B (!p)) (childR : B (!!p)) : Proc (Mem C) Unit :=
  (onProver p (multiProverChildren prm p ws parentR)).bind fun children =>
    (progProc p o (singleLevelBatched (C (!p)) fx M (prm.layer (!p)) ((∑ j, (ws j).child) + childR • prm.h (!p)) children
      (some (List.ofFn fun j => (ws j).child + (prm.layer (!p)).delta)) (some (prm.toNat (!!p) childR)))).bind fun _ => .ret (.ok ())

/-- The batched levels, `batched_curve_tree_prover.rs:204-225` and `228-248`. -/
def multiLoopProc {p : Bool} (o : SideO C p) (fx : Bool) (prm : SelRerand C) (nodes : MultiWitPath M B (Pts C))
    (rnd : ∀ p, Nat → B (!p)) : Nat → List (Fin M → Wit B (Pts C) p) → Proc (Mem C) Unit
  | _, [] => .ret (.ok ())
  | i, w :: ws =>
    match rootIsEven nodes.join with
    | .error e => .ret (.error e)
    | .ok rootEven =>
      (multiLevelProc o fx prm w (parentScalar rnd rootEven p i) (rnd (!p) i)).bind fun _ =>
        multiLoopProc o fx prm nodes rnd (i + 1) ws

/-- The last level, `batched_curve_tree_prover.rs:249-276`. -/
def leavesProc {p : Bool} (o : SideO C p) (fx : Bool) (prm : SelRerand C) (ws : Fin M → Wit B (Pts C) p)
    (parentR : B (!p)) (leafR : Fin M → B (!!p)) : Proc (Mem C) Unit :=
  (onProver p (multiProverChildren prm p ws parentR)).bind fun children =>
    (progProc p o (leavesLevel (C (!p)) fx (prm.layer (!p)) (fun j => (ws j).child + leafR j • prm.h (!p)) children
      (some fun j => (ws j).child + (prm.layer (!p)).delta) (some fun j => prm.toNat (!!p) (leafR j)))).bind fun _ => .ret (.ok ())

/-- `prove_odd`, `batched_curve_tree_prover.rs:228-277`. -/
def multiOddProc (o : SideO C true) (fx : Bool) (prm : SelRerand C) (nodes : MultiWitPath M B (Pts C))
    (rnd : ∀ p, Nat → B (!p)) (leafR : Fin M → B (!false)) : Proc (Mem C) Unit :=
  match (nodes true).getLast? with
  | none => .ret (.ok ())
  | some last =>
    (multiLoopProc o fx prm nodes rnd 0 (nodes true).dropLast).bind fun _ =>
      match rootIsEven nodes.join with
      | .error e => .ret (.error e)
      | .ok rootEven => leavesProc o fx prm last (parentScalar rnd rootEven true ((nodes true).length - 1)) leafR

/-- `batched_select_and_rerandomize_prover_gadget` with the feature `parallel`, `batched_curve_tree_prover.rs:129-292`. -/
def multiPathProc (o : ∀ p, SideO C p) (fx : Bool) (prm : SelRerand C) (rnd : ∀ p, Nat → B (!p)) (leafR : Fin M → B (!false))
    (nodes : MultiWitPath M B (Pts C)) : Proc (Mem C) (MultiPath (C false).Pt (C true).Pt M × (Fin M → B (!false))) :=
  .join (multiLoopProc (o false) fx prm nodes rnd 0 (nodes false)) (multiOddProc (o true) fx prm nodes rnd leafR) fun _ =>
    .ret (.ok (multiProverPath prm nodes rnd leafR, fun j => if nodes true = [] then 0 else leafR j))

/-! ## The proof -/

/-- A task that writes one of the three commitments, for example `A_I1 = Some(..)`, `prover.rs:600-612`. -/
def setCom (p : Bool) (k : Fin 3) (v : Option (C p).Pt) : Proc (Mem C) Unit :=
  Proc.call (.com p k) fun _ => .ok ((), v)

/-- `A_I1.unwrap()` and so on, `prover.rs:655`. -/
def takeCom (p : Bool) (k : Fin 3) : Proc (Mem C) (C p).Pt :=
  Proc.call (σ := Mem C) (.com p k) fun v => match v with
    | none => .error (.panic "called `Option::unwrap()` on a `None` value")
    | some c => .ok (c, some c)

/-- `prove_and_return_transcript` with the feature `parallel`, `prover.rs:502-1195`: the first commitments are computed by
three tasks (`prover.rs:584-655`). The tasks borrow the secrets, which do not change meanwhile. -/
def proveProc (p : Bool) (o : SideO C p) (g : Gens (C p).Pt) (rnd : PRand (B (!p))) :
    Proc (Mem C) (R1CSProof (B (!p)) (C p).Pt × Transcript (B (!p)) (C p).Pt (C (!p)).Pt) :=
  (onProver p fun s =>
    let s := s.pad
    let s := { s with transcript := s.transcript ++ [.num "m" s.v.length] }
    if g.capacity < s.size then .error .invalidGeneratorsLength else .ok (s, s)).bind fun s =>
  let n1 := s.size
  (setCom p 0 none).bind fun _ => (setCom p 1 none).bind fun _ => (setCom p 2 none).bind fun _ =>
  .join
    (.join (setCom p 0 (some (msm (g.pc.Bbl :: (g.Gs.take n1 ++ g.Hs.take n1)) (rnd.i1 :: (s.aL ++ s.aR)))))
      (setCom p 1 (some (msm (g.pc.Bbl :: g.Gs.take n1) (rnd.o1 :: s.aO)))) fun _ => .ret (.ok ()))
    (setCom p 2 (some (msm (g.pc.Bbl :: (g.Gs.take n1 ++ g.Hs.take n1))
      (rnd.s1 :: ((List.range n1).map rnd.sL1 ++ (List.range n1).map rnd.sR1))))) fun _ =>
  (takeCom p 0).bind fun AI => (takeCom p 1).bind fun AO => (takeCom p 2).bind fun S1 =>
  onProver p fun s =>
    let s := { s with transcript := s.transcript ++ [Msg.point "A_I1" AI, Msg.point "A_O1" AO, Msg.point "S1" S1] }
    match s.createRandomized o with
    | .error e => .error e
    | .ok s => (proveTail o g rnd n1 ⟨AI, AO, S1⟩ s).map fun r => (r, s)

/-- `unwrap()` on the result of a program. -/
def unwrapProc {σ : Cell → Type} : {α : Type} → Proc σ α → Proc σ α
  | _, .ret r => .ret (unwrap r)
  | _, .act i f k => .act i f fun s => unwrapProc (k s)
  | _, .join a b k => .join (unwrapProc a) (unwrapProc b) fun xy => unwrapProc (k xy)

/-! ## Paying -/

/-- `Coin::prove_spend` with the feature `parallel`, `coin.rs:100-135`. -/
def spendProc (o : ∀ p, SideO C p) (fx : Bool) (prm : SelRerand C) (T : CurveTree L 1 (Pts C)) (rnd : ∀ p, Nat → B (!p))
    (coin : Coin (B true) S) (index : Nat) : Proc (Mem C) (Path (C false).Pt (C true).Pt × Variable) :=
  (treeProc o fx prm rnd T index 0).bind fun pr =>
  onProver false fun sE =>
    match sE.commitVec (prm.gens false) [(coin.value : B true), coin.tag] (coin.blinding + pr.2) with
    | .error e => .error e
    | .ok ((point, vars), sE) =>
      if pr.1.selected = point then
        match vars[1]?, vars[0]? with
        | some v1, some v0 => .ok ((pr.1, v0), sE.constrain (LC.ofVar v1 - LC.const coin.tag))
        | _, _ => .error (.panic "index out of bounds")
      else .error (.panic "assertion failed: `(left == right)`")

/-- The part of `prove_pour` before the two proofs, with the feature `parallel`, `coin.rs:186-223`. -/
def pourProversProc (o : ∀ p, SideO C p) (fx : Bool) (prm : SelRerand C) (sch : SigScheme K SK S (B true)) (T : CurveTree L 1 (Pts C))
    (rnd : PourRand C S) (in0 in1 : SpendingInfo K SK S (B true)) (val0 : Nat) (pk0 : K) (val1 : Nat) (pk1 : K) :
    Proc (Mem C) (Path (C false).Pt (C true).Pt × Path (C false).Pt (C true).Pt × (C false).Pt × (C false).Pt) :=
  (onProver false (mint (o false) sch (prm.gens false) val0 pk0 (rnd.pkr false) (rnd.bl false))).bind fun m0 =>
  (onProver false (mint (o false) sch (prm.gens false) val1 pk1 (rnd.pkr true) (rnd.bl true))).bind fun m1 =>
  (spendProc o fx prm T (rnd.path false) in0.coin in0.index).bind fun s0 =>
  (spendProc o fx prm T (rnd.path true) in1.coin in1.index).bind fun s1 =>
  onProver false fun s => .ok ((s0.1, s1.1, m0.2.1, m1.2.1), s.constrain (balance m0.2.2 m1.2.2 s0.2 s1.2))

/-- `prove_pour` with the feature `parallel`, `coin.rs:164-292`. -/
def pourProc (o : ∀ p, SideO C p) (fx : Bool) (prm : SelRerand C) (sch : SigScheme K SK S (B true)) (cod : Codec (PourOf C K))
    (T : CurveTree L 1 (Pts C)) (rnd : PourRand C S) (in0 in1 : SpendingInfo K SK S (B true)) (val0 : Nat) (pk0 : K) (val1 : Nat)
    (pk1 : K) : Proc (Mem C) (SignedTx S) :=
  (pourProversProc o fx prm sch T rnd in0 in1 val0 pk0 val1 pk1).bind fun pc =>
  .join (unwrapProc (proveProc false (o false) (prm.gens false) rnd.even)) (unwrapProc (proveProc true (o true) (prm.gens true) rnd.odd))
    fun proofs =>
    let bytes := cod.enc ⟨proofs.1.1, proofs.2.1, pc.1, pc.2.1, in0.randomizedPk, in1.randomizedPk, pc.2.2.1, pc.2.2.2⟩
    let sig0 := sch.randomizeSig (sch.sign in0.sk bytes (rnd.sig false)) in0.coin.pkRandomness
    let sig1 := sch.randomizeSig (sch.sign in1.sk bytes (rnd.sig true)) in1.coin.pkRandomness
    .ret (.ok ⟨sig0.response, sig0.challenge, sig1.response, sig1.challenge, bytes⟩)

/-! ## Verifying a payment -/

/-- The closures of `coin.rs:500-504` and `505-509`: a copy of the path gets the root. -/
def rootProc (T : CurveTree L 1 (Pts C)) (k : Bool) (path : Path (C false).Pt (C true).Pt) :
    Proc (Mem C) (Path (C false).Pt (C true).Pt) :=
  (Proc.call (.path k) fun _ => .ok ((), path)).bind fun _ =>
  Proc.call (.path k) fun path => (addRoot T path).map fun path => (path, path)

/-- `even_verification_gadget`, `coin.rs:421-458`. -/
def evenVerifyProc (o : SideO C false) (fx : Bool) (prm : SelRerand C) (tag : K → B true) (T : CurveTree L 1 (Pts C))
    (dom : Transcript (B true) (C false).Pt (C true).Pt) (r : B true) (pour : PourOf C K) (path0 path1 : Path (C false).Pt (C true).Pt) :
    Proc (Mem C) (Tuple (B true) (C false).Pt) :=
  (onVerifier false fun _ => .ok ((), .new dom)).bind fun _ =>
  (onVerifier false (verifyMint o pour.minted0)).bind fun m0 =>
  (onVerifier false (verifyMint o pour.minted1)).bind fun m1 =>
  (onVerifier false (verifySpendEven o fx prm (tag pour.pk0) T path0)).bind fun s0 =>
  (onVerifier false (verifySpendEven o fx prm (tag pour.pk1) T path1)).bind fun s1 =>
  (onVerifier false fun s => .ok ((), s.constrain (balance m0 m1 s0 s1))).bind fun _ =>
  onVerifier false fun s => (unwrap (verificationTuple o r pour.evenProof s)).map fun v => (v, s)

/-- `odd_verification_gadget`, `coin.rs:461-487`. -/
def oddVerifyProc (o : SideO C true) (fx : Bool) (prm : SelRerand C) (T : CurveTree L 1 (Pts C))
    (dom : Transcript (B false) (C true).Pt (C false).Pt) (r : B false) (pour : PourOf C K) (path0 path1 : Path (C false).Pt (C true).Pt) :
    Proc (Mem C) (Tuple (B false) (C true).Pt) :=
  (onVerifier true fun _ => .ok ((), .new dom)).bind fun _ =>
  (onVerifier true fun s => (oddVerifierGadget o fx prm T path0 s).map fun s => ((), s)).bind fun _ =>
  (onVerifier true fun s => (oddVerifierGadget o fx prm T path1 s).map fun s => ((), s)).bind fun _ =>
  onVerifier true fun s => (unwrap (verificationTuple o r pour.oddProof s)).map fun v => (v, s)

/-- `Pour::verification_gadget` with the feature `parallel`, `coin.rs:490-574`. -/
def pourVerifyProc (o : ∀ p, SideO C p) (fx : Bool) (prm : SelRerand C) (tag : K → B true) (T : CurveTree L 1 (Pts C))
    (dom : ∀ p, Transcript (B (!p)) (C p).Pt (C (!p)).Pt) (rE : B true) (rO : B false) (pour : PourOf C K) :
    Proc (Mem C) (Tuple (B true) (C false).Pt × Tuple (B false) (C true).Pt) :=
  .join (rootProc T false pour.path0) (rootProc T true pour.path1) fun paths =>
  .join (evenVerifyProc (o false) fx prm tag T (dom false) rE pour paths.1 paths.2)
    (oddVerifyProc (o true) fx prm T (dom true) rO pour paths.1 paths.2) fun vts => .ret (.ok vts)

/-- `SignedTx::verification_gadget` with the feature `parallel`, `coin.rs:637-659`. -/
def txVerifyProc (o : ∀ p, SideO C p) (fx : Bool) (prm : SelRerand C) (sch : SigScheme K SK S (B true)) (cod : Codec (PourOf C K))
    (T : CurveTree L 1 (Pts C)) (dom : ∀ p, Transcript (B (!p)) (C p).Pt (C (!p)).Pt) (rE : B true) (rO : B false) (tx : SignedTx S) :
    Proc (Mem C) (Tuple (B true) (C false).Pt × Tuple (B false) (C true).Pt) :=
  match cod.dec tx.pourBytes with
  | none => .ret (.error (.panic "called `Result::unwrap()` on an `Err` value"))
  | some (pour, _) =>
    .join (Proc.call .sig fun u => (verifySignatures sch tx pour.pk0 pour.pk1).map fun _ => ((), u))
      (pourVerifyProc o fx prm sch.tag T dom rE rO pour) fun r => .ret (.ok r.2)

end

end CT
