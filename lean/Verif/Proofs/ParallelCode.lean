import Verif.Proofs.Parallel

/-!
# The code with the feature `parallel`: which cells its tasks use, and what it gives when run sequentially
-/

namespace CT
open Proc

variable {B : Bool → Type} [∀ p, Field (B p)] [∀ p, DecidableEq (B p)] {C : ∀ p, SWCurve (B p)}
  [∀ p, Module (B (!p)) (C p).Pt] {L M : Nat} {K SK S : Type}

/-! ## Gadgets run by one Prover -/

omit [(p : Bool) → Module (B !p) (C p).Pt] [∀ p, DecidableEq (B p)] in
theorem does_prog {α : Type} (p : Bool) (o : SideO C p) : ∀ c : Prog (B (!p)) (C p).Pt (C (!p)).Pt α,
    (progProc p o c).Uses {.prover p} ∧ (progProc p o c).Separated ∧ Does (progProc p o c) (.prover p) (runP o c)
  | .pure a => ⟨trivial, trivial, does_ret _ (.ok a)⟩
  | .fail e => ⟨trivial, trivial, does_ret _ (.error e)⟩
  | .multiply l r k =>
    ⟨.bind _ _ (uses_call _ _) fun v => (does_prog p o (k v)).1, .bind _ _ (separated_call _ _) fun v => (does_prog p o (k v)).2.1,
      ((does_call _ _).bind fun v => (does_prog p o (k v)).2.2).congr fun s => by
        simp only [runP]; cases s.multiply l r <;> rfl⟩
  | .allocate a k =>
    ⟨.bind _ _ (uses_call _ _) fun v => (does_prog p o (k v)).1, .bind _ _ (separated_call _ _) fun v => (does_prog p o (k v)).2.1,
      ((does_call _ _).bind fun v => (does_prog p o (k v)).2.2).congr fun s => by
        simp only [runP]; cases s.allocate a <;> rfl⟩
  | .allocateMultiplier a k =>
    ⟨.bind _ _ (uses_call _ _) fun v => (does_prog p o (k v)).1, .bind _ _ (separated_call _ _) fun v => (does_prog p o (k v)).2.1,
      ((does_call _ _).bind fun v => (does_prog p o (k v)).2.2).congr fun s => by
        simp only [runP]; cases s.allocateMultiplier a <;> rfl⟩
  | .constrain lc k =>
    ⟨.bind _ _ (uses_call _ _) fun _ => (does_prog p o k).1, .bind _ _ (separated_call _ _) fun _ => (does_prog p o k).2.1,
      ((does_call _ _).bind fun _ => (does_prog p o k).2.2).congr fun s => rfl⟩
  | .append msg k =>
    ⟨.bind _ _ (uses_call _ _) fun _ => (does_prog p o k).1, .bind _ _ (separated_call _ _) fun _ => (does_prog p o k).2.1,
      ((does_call _ _).bind fun _ => (does_prog p o k).2.2).congr fun s => rfl⟩
  | .challenge label k =>
    ⟨.bind _ _ (uses_call _ _) fun c => (does_prog p o (k c)).1, .bind _ _ (separated_call _ _) fun c => (does_prog p o (k c)).2.1,
      ((does_call _ _).bind fun c => (does_prog p o (k c)).2.2).congr fun s => rfl⟩

/-- A program that uses the Prover for curve `p` only, as `g` does. -/
def Good (p : Bool) (c : Proc (Mem C) Unit) (g : SideP C p → Except Err (SideP C p)) : Prop :=
  c.Uses {.prover p} ∧ c.Separated ∧ Does c (.prover p) fun s => (g s).map fun s => ((), s)

theorem good_level {p : Bool} (o : SideO C p) (fx : Bool) (prm : SelRerand C) (w : Wit B (Pts C) p) (parentR : B (!p))
    (childR : B (!!p)) : Good p (levelProc o fx prm w parentR childR) (proverLevel o fx prm w parentR childR) := by
  refine ⟨?_, ?_, ?_⟩
  · exact .bind _ _ (uses_call _ _) fun v => .bind _ _ (does_prog p o _).1 fun _ => trivial
  · exact .bind _ _ (separated_call _ _) fun v => .bind _ _ (does_prog p o _).2.1 fun _ => trivial
  · refine ((does_call _ _).bind fun v => ((does_prog p o _).2.2.bind fun _ => does_ret _ (.ok ()))).congr fun s => ?_
    unfold proverLevel
    rcases proverChildren prm p w parentR s with e | ⟨children, s⟩
    · rfl
    · simp only
      rcases runP o _ s with e | ⟨a, s⟩ <;> rfl

theorem good_loop {p : Bool} (o : SideO C p) (fx : Bool) (prm : SelRerand C) (nodes : WitPath B (Pts C))
    (rnd : ∀ p, Nat → B (!p)) (ws : List (Wit B (Pts C) p)) : ∀ i,
    Good p (loopProc o fx prm nodes rnd i ws) (proverLoop o fx prm nodes rnd i ws) := by
  induction ws with
  | nil => exact fun i => ⟨trivial, trivial, does_ret _ (.ok ())⟩
  | cons w ws ih =>
    intro i
    simp only [loopProc]
    rcases hr : rootIsEven nodes with e | b
    · refine ⟨trivial, trivial, (does_ret _ (.error e)).congr fun s => ?_⟩
      simp only [proverLoop, hr]
      rfl
    · have h := good_level o fx prm w (parentScalar rnd b p i) (rnd (!p) i)
      refine ⟨.bind _ _ h.1 fun _ => (ih (i + 1)).1, .bind _ _ h.2.1 fun _ => (ih (i + 1)).2.1,
        (h.2.2.bind fun _ => (ih (i + 1)).2.2).congr fun s => ?_⟩
      simp only [proverLoop, hr]
      rcases proverLevel o fx prm w (parentScalar rnd b p i) (rnd (!p) i) s with e | s <;> rfl

theorem good_multiLevel {p : Bool} (o : SideO C p) (fx : Bool) (prm : SelRerand C) (ws : Fin M → Wit B (Pts C) p) (parentR : B (!p))
    (childR : B (!!p)) : Good p (multiLevelProc o fx prm ws parentR childR) (multiProverLevel o fx prm ws parentR childR) := by
  refine ⟨?_, ?_, ?_⟩
  · exact .bind _ _ (uses_call _ _) fun v => .bind _ _ (does_prog p o _).1 fun _ => trivial
  · exact .bind _ _ (separated_call _ _) fun v => .bind _ _ (does_prog p o _).2.1 fun _ => trivial
  · refine ((does_call _ _).bind fun v => ((does_prog p o _).2.2.bind fun _ => does_ret _ (.ok ()))).congr fun s => ?_
    unfold multiProverLevel
    rcases multiProverChildren prm p ws parentR s with e | ⟨children, s⟩
    · rfl
    · simp only
      rcases runP o _ s with e | ⟨a, s⟩ <;> rfl

theorem good_leaves {p : Bool} (o : SideO C p) (fx : Bool) (prm : SelRerand C) (ws : Fin M → Wit B (Pts C) p) (parentR : B (!p))
    (leafR : Fin M → B (!!p)) : Good p (leavesProc o fx prm ws parentR leafR) (multiProverLeaves o fx prm ws parentR leafR) := by
  refine ⟨?_, ?_, ?_⟩
  · exact .bind _ _ (uses_call _ _) fun v => .bind _ _ (does_prog p o _).1 fun _ => trivial
  · exact .bind _ _ (separated_call _ _) fun v => .bind _ _ (does_prog p o _).2.1 fun _ => trivial
  · refine ((does_call _ _).bind fun v => ((does_prog p o _).2.2.bind fun _ => does_ret _ (.ok ()))).congr fun s => ?_
    unfold multiProverLeaves
    rcases multiProverChildren prm p ws parentR s with e | ⟨children, s⟩
    · rfl
    · simp only
      rcases runP o _ s with e | ⟨a, s⟩ <;> rfl

theorem good_multiLoop {p : Bool} (o : SideO C p) (fx : Bool) (prm : SelRerand C) (nodes : MultiWitPath M B (Pts C))
    (rnd : ∀ p, Nat → B (!p)) (ws : List (Fin M → Wit B (Pts C) p)) : ∀ i,
    Good p (multiLoopProc o fx prm nodes rnd i ws) (multiProverLoop o fx prm nodes rnd i ws) := by
  induction ws with
  | nil => exact fun i => ⟨trivial, trivial, does_ret _ (.ok ())⟩
  | cons w ws ih =>
    intro i
    simp only [multiLoopProc]
    rcases hr : rootIsEven nodes.join with e | b
    · refine ⟨trivial, trivial, (does_ret _ (.error e)).congr fun s => ?_⟩
      simp only [multiProverLoop, hr]
      rfl
    · have h := good_multiLevel o fx prm w (parentScalar rnd b p i) (rnd (!p) i)
      refine ⟨.bind _ _ h.1 fun _ => (ih (i + 1)).1, .bind _ _ h.2.1 fun _ => (ih (i + 1)).2.1,
        (h.2.2.bind fun _ => (ih (i + 1)).2.2).congr fun s => ?_⟩
      simp only [multiProverLoop, hr]
      rcases multiProverLevel o fx prm w (parentScalar rnd b p i) (rnd (!p) i) s with e | s <;> rfl

theorem good_multiOdd (o : SideO C true) (fx : Bool) (prm : SelRerand C) (nodes : MultiWitPath M B (Pts C))
    (rnd : ∀ p, Nat → B (!p)) (leafR : Fin M → B (!false)) :
    Good true (multiOddProc o fx prm nodes rnd leafR) (multiProverOdd o fx prm nodes rnd leafR) := by
  unfold multiOddProc multiProverOdd
  rcases (nodes true).getLast? with _ | last
  · exact ⟨trivial, trivial, does_ret _ (.ok ())⟩
  · have h := good_multiLoop o fx prm nodes rnd (nodes true).dropLast 0
    simp only
    rcases rootIsEven nodes.join with e | b
    · refine ⟨.bind _ _ h.1 fun _ => trivial, .bind _ _ h.2.1 fun _ => trivial,
        (h.2.2.bind fun _ => does_ret _ (.error e)).congr fun s => ?_⟩
      show _ = Except.map _ (match multiProverLoop o fx prm nodes rnd 0 (nodes true).dropLast s with
        | .error _ => _
        | .ok _ => _)
      rcases multiProverLoop o fx prm nodes rnd 0 (nodes true).dropLast s with e | s <;> rfl
    · have h' := good_leaves o fx prm last (parentScalar rnd b true ((nodes true).length - 1)) leafR
      refine ⟨.bind _ _ h.1 fun _ => h'.1, .bind _ _ h.2.1 fun _ => h'.2.1, (h.2.2.bind fun _ => h'.2.2).congr fun s => ?_⟩
      show _ = Except.map _ (match multiProverLoop o fx prm nodes rnd 0 (nodes true).dropLast s with
        | .error _ => _
        | .ok _ => _)
      rcases multiProverLoop o fx prm nodes rnd 0 (nodes true).dropLast s with e | s <;> rfl

/-! ## Both Provers -/

omit [(p : Bool) → Module (B !p) (C p).Pt] in
/-- Replace both Provers. -/
def setProvers (m : ∀ i, Mem C i) (sE : SideP C false) (sO : SideP C true) : ∀ i, Mem C i :=
  Function.update (Function.update m (.prover false) sE) (.prover true) sO

/-- The sequential program does to the two Provers what `g` does, and nothing else. -/
def Does2 {α : Type} (c : Proc (Mem C) α) (g : SideP C false → SideP C true → Except Err (α × SideP C false × SideP C true)) : Prop :=
  ∀ m, match g (m (.prover false)) (m (.prover true)) with
    | .ok (a, sE, sO) => c.run m = (.ok a, setProvers m sE sO)
    | .error e => (c.run m).1 = .error e

omit [(p : Bool) → Module (B !p) (C p).Pt] [∀ p, DecidableEq (B p)] in
theorem setProvers_even (m : ∀ i, Mem C i) (sE : SideP C false) (sO : SideP C true) : setProvers m sE sO (.prover false) = sE := by
  simp [setProvers]

omit [(p : Bool) → Module (B !p) (C p).Pt] [∀ p, DecidableEq (B p)] in
theorem setProvers_odd (m : ∀ i, Mem C i) (sE : SideP C false) (sO : SideP C true) : setProvers m sE sO (.prover true) = sO := by
  simp [setProvers]

omit [(p : Bool) → Module (B !p) (C p).Pt] [∀ p, DecidableEq (B p)] in
theorem setProvers_setProvers (m : ∀ i, Mem C i) (sE sE' : SideP C false) (sO sO' : SideP C true) :
    setProvers (setProvers m sE sO) sE' sO' = setProvers m sE' sO' := by
  funext i
  by_cases h1 : i = .prover true
  · subst h1; simp [setProvers]
  · by_cases h2 : i = .prover false
    · subst h2; simp [setProvers]
    · simp [setProvers, h1, h2]

omit [(p : Bool) → Module (B !p) (C p).Pt] [∀ p, DecidableEq (B p)] in
theorem Does2.bind {α β : Type} {c : Proc (Mem C) α} {f : α → Proc (Mem C) β}
    {g : SideP C false → SideP C true → Except Err (α × SideP C false × SideP C true)}
    {h : α → SideP C false → SideP C true → Except Err (β × SideP C false × SideP C true)} (hc : Does2 c g)
    (hf : ∀ a, Does2 (f a) (h a)) :
    Does2 (c.bind f) fun sE sO => match g sE sO with
      | .error e => .error e
      | .ok (a, sE, sO) => h a sE sO := by
  intro m
  have h1 := hc m
  rw [run_bind]
  rcases hg : g (m (.prover false)) (m (.prover true)) with e | ⟨a, sE, sO⟩
  · rw [hg] at h1
    simp only at h1
    rcases hr : c.run m with ⟨r, m'⟩
    rw [hr] at h1
    simp only at h1
    subst h1
    simp only [hg]
  · rw [hg] at h1
    simp only at h1
    have h2 := hf a (setProvers m sE sO)
    rw [setProvers_even, setProvers_odd] at h2
    simp only [h1, hg]
    rcases hh : h a sE sO with e | ⟨b, sE', sO'⟩
    · rw [hh] at h2
      exact h2
    · rw [hh] at h2
      simp only [setProvers_setProvers] at h2
      exact h2

omit [(p : Bool) → Module (B !p) (C p).Pt] [∀ p, DecidableEq (B p)] in
theorem Does2.congr {α : Type} {c : Proc (Mem C) α}
    {g g' : SideP C false → SideP C true → Except Err (α × SideP C false × SideP C true)} (hc : Does2 c g)
    (h : ∀ sE sO, g sE sO = g' sE sO) : Does2 c g' := by
  have : g = g' := funext fun _ => funext fun _ => h _ _
  exact this ▸ hc

omit [(p : Bool) → Module (B !p) (C p).Pt] [∀ p, DecidableEq (B p)] in
theorem does2_ret {α : Type} (r : Except Err α) : Does2 (.ret (σ := Mem C) r) fun sE sO => r.map fun a => (a, sE, sO) := by
  intro m
  cases r with
  | error e => simp [run, Except.map]
  | ok a =>
    simp only [run, Except.map, setProvers, Function.update_eq_self]

omit [(p : Bool) → Module (B !p) (C p).Pt] [∀ p, DecidableEq (B p)] in
theorem does2_even {α : Type} {c : Proc (Mem C) α} {g : SideP C false → Except Err (α × SideP C false)} (h : Does c (.prover false) g) :
    Does2 c fun sE sO => (g sE).map fun r => (r.1, r.2, sO) := by
  intro m
  have h1 := h m
  rcases hg : g (m (.prover false)) with e | ⟨a, sE⟩
  · rw [hg] at h1
    simp only [hg]
    exact h1
  · rw [hg] at h1
    simp only at h1
    simp only [hg, Except.map]
    rw [h1, setProvers]
    congr 1
    have : m (.prover true) = Function.update m (.prover false) sE (.prover true) := by simp
    rw [this, Function.update_eq_self]

omit [(p : Bool) → Module (B !p) (C p).Pt] [∀ p, DecidableEq (B p)] in
theorem does2_join {α : Type} {a b : Proc (Mem C) Unit} {gE : SideP C false → Except Err (SideP C false)}
    {gO : SideP C true → Except Err (SideP C true)} (ha : Good false a gE) (hb : Good true b gO) (x : α) :
    Does2 (.join a b fun _ => .ret (.ok x)) fun sE sO =>
      match gE sE with
      | .error e => .error e
      | .ok sE =>
        match gO sO with
        | .error e => .error e
        | .ok sO => .ok (x, sE, sO) := by
  intro m
  have h1 := ha.2.2 m
  simp only [run] at h1 ⊢
  rcases hg : gE (m (.prover false)) with e | sE
  · rw [hg] at h1
    simp only [Except.map] at h1
    rcases hr : a.run m with ⟨r, m'⟩
    rw [hr] at h1
    simp only at h1
    subst h1
    simp only
  · rw [hg] at h1
    simp only [Except.map] at h1
    have h2 := hb.2.2 (Function.update m (.prover false) sE)
    have h3 : Function.update m (.prover false) sE (.prover true) = m (.prover true) := by simp
    simp only [h3] at h2
    simp only [h1]
    rcases hh : gO (m (.prover true)) with e | sO
    · rw [hh] at h2
      simp only [Except.map] at h2
      rcases hr : b.run (Function.update m (.prover false) sE) with ⟨r, m'⟩
      rw [hr] at h2
      simp only at h2
      subst h2
      simp only
    · rw [hh] at h2
      simp only [Except.map] at h2
      simp only [h2]
      rfl

omit [(p : Bool) → Module (B !p) (C p).Pt] [∀ p, DecidableEq (B p)] in
theorem separated_join {α : Type} {a b : Proc (Mem C) Unit} {gE : SideP C false → Except Err (SideP C false)}
    {gO : SideP C true → Except Err (SideP C true)} (ha : Good false a gE) (hb : Good true b gO) (x : α) :
    (Proc.join a b fun _ => .ret (.ok x)).Separated :=
  ⟨ha.2.1, hb.2.1, ⟨_, _, by simp, ha.1, hb.1⟩, fun _ => trivial⟩

theorem does_path (o : ∀ p, SideO C p) (fx : Bool) (prm : SelRerand C) (rnd : ∀ p, Nat → B (!p)) (nodes : WitPath B (Pts C)) :
    (pathProc o fx prm rnd nodes).Separated ∧
      Does2 (pathProc o fx prm rnd nodes) (pathProverGadget (o false) (o true) fx prm rnd nodes) :=
  ⟨separated_join (good_loop _ _ _ _ _ _ _) (good_loop _ _ _ _ _ _ _) _,
    (does2_join (good_loop _ _ _ _ _ _ _) (good_loop _ _ _ _ _ _ _) _).congr fun _ _ => rfl⟩

theorem does_multiPath (o : ∀ p, SideO C p) (fx : Bool) (prm : SelRerand C) (rnd : ∀ p, Nat → B (!p)) (leafR : Fin M → B (!false))
    (nodes : MultiWitPath M B (Pts C)) :
    (multiPathProc o fx prm rnd leafR nodes).Separated ∧
      Does2 (multiPathProc o fx prm rnd leafR nodes) (multiPathProverGadget (o false) (o true) fx prm rnd leafR nodes) :=
  ⟨separated_join (good_multiLoop _ _ _ _ _ _ _) (good_multiOdd _ _ _ _ _ _) _,
    (does2_join (good_multiLoop _ _ _ _ _ _ _) (good_multiOdd _ _ _ _ _ _) _).congr fun _ _ => rfl⟩

theorem does_tree (o : ∀ p, SideO C p) (fx : Bool) (prm : SelRerand C) (rnd : ∀ p, Nat → B (!p)) (t : CurveTree L M (Pts C))
    (index : Nat) (ti : Fin M) : (treeProc o fx prm rnd t index ti).Separated ∧
      Does2 (treeProc o fx prm rnd t index ti) (treeProverGadget (o false) (o true) fx prm rnd t index ti) := by
  unfold treeProc treeProverGadget
  rcases t.witness prm.tree index ti with e | nodes
  · exact ⟨trivial, does2_ret (.error e)⟩
  · exact does_path o fx prm rnd nodes

theorem does_spend (o : ∀ p, SideO C p) (fx : Bool) (prm : SelRerand C) (T : CurveTree L 1 (Pts C)) (rnd : ∀ p, Nat → B (!p))
    (coin : Coin (B true) S) (index : Nat) : (spendProc o fx prm T rnd coin index).Separated ∧
      Does2 (spendProc o fx prm T rnd coin index) (proveSpend o fx prm T rnd coin index) := by
  have h := does_tree o fx prm rnd T index 0
  refine ⟨.bind _ _ h.1 fun _ => separated_call _ _, (h.2.bind fun _ => does2_even (does_call _ _)).congr fun sE sO => ?_⟩
  unfold proveSpend
  rcases treeProverGadget (o false) (o true) fx prm rnd T index 0 sE sO with e | ⟨⟨path, r⟩, sE, sO⟩
  · rfl
  · simp only
    rcases sE.commitVec (prm.gens false) [(coin.value : B true), coin.tag] (coin.blinding + r) with e | ⟨⟨point, vars⟩, sE⟩
    · rfl
    · simp only
      split
      · rcases vars[1]? with _ | v1 <;> rcases vars[0]? with _ | v0 <;> rfl
      · rfl

/-! ## The proof -/

/-- The variables used by `prove` for curve `p`. -/
def proveCells (p : Bool) : Set Cell := fun i => i = .prover p ∨ ∃ k, i = .com p k

theorem uses_prove (p : Bool) (o : SideO C p) (g : Gens (C p).Pt) (rnd : PRand (B (!p))) :
    (proveProc p o g rnd).Uses (proveCells p) := by
  have hp : ∀ {α : Type} (f : SideP C p → Except Err (α × SideP C p)), (onProver p f).Uses (proveCells p) :=
    fun f => Uses.mono (I := {.prover p}) (by rintro _ rfl; exact .inl rfl) _ (uses_call (σ := Mem C) (.prover p) f)
  have hs : ∀ k v, (setCom (C := C) p k v).Uses (proveCells p) :=
    fun k v => Uses.mono (I := {.com p k}) (by rintro _ rfl; exact .inr ⟨k, rfl⟩) _ (uses_call _ _)
  have ht : ∀ k, (takeCom (C := C) p k).Uses (proveCells p) :=
    fun k => Uses.mono (I := {.com p k}) (by rintro _ rfl; exact .inr ⟨k, rfl⟩) _ (uses_call _ _)
  exact .bind _ _ (hp _) fun s => .bind _ _ (hs _ _) fun _ => .bind _ _ (hs _ _) fun _ => .bind _ _ (hs _ _) fun _ =>
    ⟨⟨hs _ _, hs _ _, fun _ => trivial⟩, hs _ _, fun _ => .bind _ _ (ht _) fun _ => .bind _ _ (ht _) fun _ => .bind _ _ (ht _) fun _ =>
      hp _⟩

theorem separated_prove (p : Bool) (o : SideO C p) (g : Gens (C p).Pt) (rnd : PRand (B (!p))) :
    (proveProc p o g rnd).Separated := by
  have hs : ∀ k v, (setCom (C := C) p k v).Uses {.com p k} := fun k v => uses_call _ _
  have hd : ∀ k v, (setCom (C := C) p k v).Separated := fun k v => separated_call _ _
  have ht : ∀ k, (takeCom (C := C) p k).Separated := fun k => separated_call _ _
  refine .bind _ _ (separated_call _ _) fun s => .bind _ _ (hd _ _) fun _ => .bind _ _ (hd _ _) fun _ => .bind _ _ (hd _ _) fun _ =>
    ⟨⟨hd _ _, hd _ _, ⟨{.com p 0}, {.com p 1}, by simp, hs _ _, hs _ _⟩, fun _ => trivial⟩, hd _ _,
      ⟨{.com p 0, .com p 1}, {.com p 2}, by simp, ⟨?_, ?_, fun _ => trivial⟩, hs _ _⟩,
      fun _ => .bind _ _ (ht _) fun _ => .bind _ _ (ht _) fun _ => .bind _ _ (ht _) fun _ => separated_call _ _⟩
  · exact Uses.mono (by simp) _ (hs _ _)
  · exact Uses.mono (by simp) _ (hs _ _)

omit [∀ p, DecidableEq (B p)] [∀ p, Module (B (!p)) (C p).Pt] in
theorem run_takeCom (p : Bool) (k : Fin 3) (c : (C p).Pt) (m : ∀ i, Mem C i) (h : m (.com p k) = some c) :
    (takeCom p k).run m = (.ok c, m) := by
  simp only [takeCom, call, run, h, Except.map]
  rw [← h, Function.update_eq_self]

theorem run_prove (p : Bool) (o : SideO C p) (g : Gens (C p).Pt) (rnd : PRand (B (!p))) (m : ∀ i, Mem C i) :
    ((proveProc p o g rnd).run m).1 = prove o g rnd (m (.prover p)) := by
  unfold prove
  simp only
  set s1 : SideP C p := { (PState.pad (m (.prover p))) with transcript := (PState.pad (m (.prover p))).transcript ++
      [.num "m" (PState.pad (m (.prover p))).v.length] } with hs1
  by_cases h : g.capacity < s1.size
  · simp only [proveProc, run_bind, onProver, call, run, ← hs1, if_pos h]
    rfl
  · have hset : ∀ k v (m : ∀ i, Mem C i), (setCom (C := C) p k v).run m = (.ok (), Function.update m (.com p k) v) :=
      fun k v m => rfl
    have h1 : (onProver p fun s : SideP C p =>
        let s := s.pad
        let s : SideP C p := { s with transcript := s.transcript ++ [.num "m" s.v.length] }
        if g.capacity < s.size then .error .invalidGeneratorsLength else .ok (s, s)).run m
        = (.ok s1, Function.update m (.prover p) s1) := by
      simp only [onProver, call, run, ← hs1, if_neg h]
      rfl
    unfold proveProc
    simp only [run_bind, h1, hset, run, if_neg h]
    rw [run_takeCom p 0 _ _ (by simp; rfl)]
    simp only
    rw [run_takeCom p 1 _ _ (by simp; rfl)]
    simp only
    rw [run_takeCom p 2 _ _ (by simp; rfl)]
    simp only [onProver, call, run]
    rw [Function.update_of_ne (by simp), Function.update_of_ne (by simp), Function.update_of_ne (by simp),
      Function.update_of_ne (by simp), Function.update_of_ne (by simp), Function.update_of_ne (by simp), Function.update_self]
    simp only [commit1]
    rcases PState.createRandomized o _ with e | s
    · rfl
    · simp only
      rcases proveTail o g rnd _ _ s with e | r <;> rfl

/-! ## `unwrap` -/

omit [∀ p, Module (B (!p)) (C p).Pt] [∀ p, DecidableEq (B p)] in
theorem run_unwrap : ∀ {α : Type} (c : Proc (Mem C) α) (m : ∀ i, Mem C i),
    (unwrapProc c).run m = (unwrap (c.run m).1, (c.run m).2)
  | _, .ret _, _ => rfl
  | _, .act i f k, m => run_unwrap (k (m i)) _
  | _, .join a b k, m => by
    simp only [unwrapProc, run, run_unwrap a m]
    rcases a.run m with ⟨ra, ma⟩
    cases ra with
    | error e => cases e <;> rfl
    | ok x =>
      simp only [unwrap, run_unwrap b ma]
      rcases b.run ma with ⟨rb, mb⟩
      cases rb with
      | error e => cases e <;> rfl
      | ok y => exact run_unwrap (k (x, y)) mb

theorem uses_unwrap {σ : Cell → Type} {I : Set Cell} : ∀ {α : Type} (c : Proc σ α), c.Uses I → (unwrapProc c).Uses I
  | _, .ret _, _ => trivial
  | _, .act _ _ k, h => ⟨h.1, fun s => uses_unwrap (k s) (h.2 s)⟩
  | _, .join a b k, h => ⟨uses_unwrap a h.1, uses_unwrap b h.2.1, fun xy => uses_unwrap (k xy) (h.2.2 xy)⟩

theorem separated_unwrap {σ : Cell → Type} : ∀ {α : Type} (c : Proc σ α), c.Separated → (unwrapProc c).Separated
  | _, .ret _, _ => trivial
  | _, .act _ _ k, h => fun s => separated_unwrap (k s) (h s)
  | _, .join a b k, h => by
    obtain ⟨h1, h2, ⟨I, J, h3, h4, h5⟩, h6⟩ := h
    exact ⟨separated_unwrap a h1, separated_unwrap b h2, ⟨I, J, h3, uses_unwrap a h4, uses_unwrap b h5⟩,
      fun xy => separated_unwrap (k xy) (h6 xy)⟩

/-! ## Paying -/

theorem does_pourProvers (o : ∀ p, SideO C p) (fx : Bool) (prm : SelRerand C) (sch : SigScheme K SK S (B true))
    (T : CurveTree L 1 (Pts C)) (rnd : PourRand C S) (in0 in1 : SpendingInfo K SK S (B true)) (val0 : Nat) (pk0 : K) (val1 : Nat)
    (pk1 : K) : (pourProversProc o fx prm sch T rnd in0 in1 val0 pk0 val1 pk1).Separated ∧
      Does2 (pourProversProc o fx prm sch T rnd in0 in1 val0 pk0 val1 pk1) (pourProvers o fx prm sch T rnd in0 in1 val0 pk0 val1 pk1) := by
  refine ⟨.bind _ _ (separated_call _ _) fun _ => .bind _ _ (separated_call _ _) fun _ => .bind _ _ (does_spend _ _ _ _ _ _ _).1 fun _ =>
    .bind _ _ (does_spend _ _ _ _ _ _ _).1 fun _ => separated_call _ _,
    ((does2_even (does_call _ _)).bind fun _ => (does2_even (does_call _ _)).bind fun _ => (does_spend _ _ _ _ _ _ _).2.bind fun _ =>
      (does_spend _ _ _ _ _ _ _).2.bind fun _ => does2_even (does_call _ _)).congr fun sE sO => ?_⟩
  unfold pourProvers
  rcases mint (o false) sch (prm.gens false) val0 pk0 (rnd.pkr false) (rnd.bl false) sE with e | ⟨⟨_, c0, m0⟩, sE⟩
  · rfl
  simp only [Except.map]
  rcases mint (o false) sch (prm.gens false) val1 pk1 (rnd.pkr true) (rnd.bl true) sE with e | ⟨⟨_, c1, m1⟩, sE⟩
  · rfl
  simp only
  rcases proveSpend o fx prm T (rnd.path false) in0.coin in0.index sE sO with e | ⟨⟨path0, s0⟩, sE, sO⟩
  · rfl
  simp only
  rcases proveSpend o fx prm T (rnd.path true) in1.coin in1.index sE sO with e | ⟨⟨path1, s1⟩, sE, sO⟩
  · rfl
  rfl

theorem disjoint_proveCells : Disjoint (proveCells false) (proveCells true) := by
  rw [Set.disjoint_left]
  rintro i (rfl | ⟨k, rfl⟩) (h | ⟨k', h⟩) <;> cases h

theorem separated_pour (o : ∀ p, SideO C p) (fx : Bool) (prm : SelRerand C) (sch : SigScheme K SK S (B true)) (cod : Codec (PourOf C K))
    (T : CurveTree L 1 (Pts C)) (rnd : PourRand C S) (in0 in1 : SpendingInfo K SK S (B true)) (val0 : Nat) (pk0 : K) (val1 : Nat)
    (pk1 : K) : (pourProc o fx prm sch cod T rnd in0 in1 val0 pk0 val1 pk1).Separated :=
  .bind _ _ (does_pourProvers _ _ _ _ _ _ _ _ _ _ _ _).1 fun _ =>
    ⟨separated_unwrap _ (separated_prove _ _ _ _), separated_unwrap _ (separated_prove _ _ _ _),
      ⟨proveCells false, proveCells true, disjoint_proveCells, uses_unwrap _ (uses_prove _ _ _ _), uses_unwrap _ (uses_prove _ _ _ _)⟩,
      fun _ => trivial⟩

theorem run_pour (o : ∀ p, SideO C p) (fx : Bool) (prm : SelRerand C) (sch : SigScheme K SK S (B true)) (cod : Codec (PourOf C K))
    (T : CurveTree L 1 (Pts C)) (rnd : PourRand C S) (in0 in1 : SpendingInfo K SK S (B true)) (val0 : Nat) (pk0 : K) (val1 : Nat)
    (pk1 : K) (m : ∀ i, Mem C i) : ((pourProc o fx prm sch cod T rnd in0 in1 val0 pk0 val1 pk1).run m).1 =
      provePour o fx prm sch cod T rnd in0 in1 val0 pk0 val1 pk1 (m (.prover false)) (m (.prover true)) := by
  have h := (does_pourProvers o fx prm sch T rnd in0 in1 val0 pk0 val1 pk1).2 m
  unfold pourProc provePour
  rw [run_bind]
  rcases hp : pourProvers o fx prm sch T rnd in0 in1 val0 pk0 val1 pk1 (m (.prover false)) (m (.prover true)) with
    e | ⟨⟨path0, path1, c0, c1⟩, sE, sO⟩
  · rw [hp] at h
    simp only at h
    rcases hr : (pourProversProc o fx prm sch T rnd in0 in1 val0 pk0 val1 pk1).run m with ⟨r, m'⟩
    rw [hr] at h
    simp only at h
    subst h
    rfl
  · rw [hp] at h
    simp only at h
    simp only [h, run, run_unwrap]
    set m1 := setProvers m sE sO with hm1
    have hE := run_prove false (o false) (prm.gens false) rnd.even m1
    have hfr := (run_frame _ (uses_prove false (o false) (prm.gens false) rnd.even) m1 m1 fun _ _ => rfl).2.2 (.prover true)
      (by rintro (h | ⟨k, h⟩) <;> cases h)
    rcases hr : (proveProc false (o false) (prm.gens false) rnd.even).run m1 with ⟨rE, m2⟩
    rw [hr] at hE hfr
    simp only [hm1, setProvers_even, setProvers_odd] at hE hfr
    rw [← hE]
    rcases hu : unwrap rE with e | ⟨pE, tE⟩
    · rfl
    · have hO := run_prove true (o true) (prm.gens true) rnd.odd m2
      rw [hfr] at hO
      simp only
      rcases hr' : (proveProc true (o true) (prm.gens true) rnd.odd).run m2 with ⟨rO, m3⟩
      rw [hr'] at hO
      simp only at hO
      rw [← hO]
      rcases hu' : unwrap rO with e | ⟨pO, tO⟩
      · rfl
      · rfl

/-! ## Verifying a payment -/

/-- The variables used by the verification of a Pour. -/
def verifyCells : Set Cell := fun i => i ≠ .sig

omit [∀ p, DecidableEq (B p)] [∀ p, Module (B (!p)) (C p).Pt] in
theorem uses_root (T : CurveTree L 1 (Pts C)) (k : Bool) (path : Path (C false).Pt (C true).Pt) : (rootProc T k path).Uses {.path k} :=
  .bind _ _ (uses_call _ _) fun _ => uses_call _ _

omit [∀ p, DecidableEq (B p)] [∀ p, Module (B (!p)) (C p).Pt] in
theorem separated_root (T : CurveTree L 1 (Pts C)) (k : Bool) (path : Path (C false).Pt (C true).Pt) : (rootProc T k path).Separated :=
  .bind _ _ (separated_call _ _) fun _ => separated_call _ _

omit [∀ p, Module (B (!p)) (C p).Pt] in
theorem uses_even (o : SideO C false) (fx : Bool) (prm : SelRerand C) (tag : K → B true) (T : CurveTree L 1 (Pts C))
    (dom : Transcript (B true) (C false).Pt (C true).Pt) (r : B true) (pour : PourOf C K) (path0 path1 : Path (C false).Pt (C true).Pt) :
    (evenVerifyProc o fx prm tag T dom r pour path0 path1).Uses {.verifier false} :=
  .bind _ _ (uses_call _ _) fun _ => .bind _ _ (uses_call _ _) fun _ => .bind _ _ (uses_call _ _) fun _ => .bind _ _ (uses_call _ _) fun _ =>
    .bind _ _ (uses_call _ _) fun _ => .bind _ _ (uses_call _ _) fun _ => uses_call _ _

omit [∀ p, Module (B (!p)) (C p).Pt] in
theorem separated_even (o : SideO C false) (fx : Bool) (prm : SelRerand C) (tag : K → B true) (T : CurveTree L 1 (Pts C))
    (dom : Transcript (B true) (C false).Pt (C true).Pt) (r : B true) (pour : PourOf C K) (path0 path1 : Path (C false).Pt (C true).Pt) :
    (evenVerifyProc o fx prm tag T dom r pour path0 path1).Separated :=
  .bind _ _ (separated_call _ _) fun _ => .bind _ _ (separated_call _ _) fun _ => .bind _ _ (separated_call _ _) fun _ =>
    .bind _ _ (separated_call _ _) fun _ => .bind _ _ (separated_call _ _) fun _ => .bind _ _ (separated_call _ _) fun _ =>
    separated_call _ _

omit [∀ p, Module (B (!p)) (C p).Pt] in
theorem uses_odd (o : SideO C true) (fx : Bool) (prm : SelRerand C) (T : CurveTree L 1 (Pts C))
    (dom : Transcript (B false) (C true).Pt (C false).Pt) (r : B false) (pour : PourOf C K) (path0 path1 : Path (C false).Pt (C true).Pt) :
    (oddVerifyProc o fx prm T dom r pour path0 path1).Uses {.verifier true} :=
  .bind _ _ (uses_call _ _) fun _ => .bind _ _ (uses_call _ _) fun _ => .bind _ _ (uses_call _ _) fun _ => uses_call _ _

omit [∀ p, Module (B (!p)) (C p).Pt] in
theorem separated_odd (o : SideO C true) (fx : Bool) (prm : SelRerand C) (T : CurveTree L 1 (Pts C))
    (dom : Transcript (B false) (C true).Pt (C false).Pt) (r : B false) (pour : PourOf C K) (path0 path1 : Path (C false).Pt (C true).Pt) :
    (oddVerifyProc o fx prm T dom r pour path0 path1).Separated :=
  .bind _ _ (separated_call _ _) fun _ => .bind _ _ (separated_call _ _) fun _ => .bind _ _ (separated_call _ _) fun _ => separated_call _ _

omit [∀ p, Module (B (!p)) (C p).Pt] in
theorem uses_pourVerify (o : ∀ p, SideO C p) (fx : Bool) (prm : SelRerand C) (tag : K → B true) (T : CurveTree L 1 (Pts C))
    (dom : ∀ p, Transcript (B (!p)) (C p).Pt (C (!p)).Pt) (rE : B true) (rO : B false) (pour : PourOf C K) :
    (pourVerifyProc o fx prm tag T dom rE rO pour).Uses verifyCells := by
  have h : ∀ i, i ≠ .sig → {i} ⊆ verifyCells := by rintro i hi _ rfl; exact hi
  exact ⟨Uses.mono (h _ (by simp)) _ (uses_root _ _ _), Uses.mono (h _ (by simp)) _ (uses_root _ _ _), fun _ =>
    ⟨Uses.mono (h _ (by simp)) _ (uses_even _ _ _ _ _ _ _ _ _ _), Uses.mono (h _ (by simp)) _ (uses_odd _ _ _ _ _ _ _ _ _),
      fun _ => trivial⟩⟩

omit [∀ p, Module (B (!p)) (C p).Pt] in
theorem separated_pourVerify (o : ∀ p, SideO C p) (fx : Bool) (prm : SelRerand C) (tag : K → B true) (T : CurveTree L 1 (Pts C))
    (dom : ∀ p, Transcript (B (!p)) (C p).Pt (C (!p)).Pt) (rE : B true) (rO : B false) (pour : PourOf C K) :
    (pourVerifyProc o fx prm tag T dom rE rO pour).Separated :=
  ⟨separated_root _ _ _, separated_root _ _ _, ⟨_, _, by simp, uses_root _ _ _, uses_root _ _ _⟩, fun _ =>
    ⟨separated_even _ _ _ _ _ _ _ _ _ _, separated_odd _ _ _ _ _ _ _ _ _,
      ⟨_, _, by simp, uses_even _ _ _ _ _ _ _ _ _ _, uses_odd _ _ _ _ _ _ _ _ _⟩, fun _ => trivial⟩⟩

omit [∀ p, Module (B (!p)) (C p).Pt] in
theorem separated_txVerify (o : ∀ p, SideO C p) (fx : Bool) (prm : SelRerand C) (sch : SigScheme K SK S (B true)) (cod : Codec (PourOf C K))
    (T : CurveTree L 1 (Pts C)) (dom : ∀ p, Transcript (B (!p)) (C p).Pt (C (!p)).Pt) (rE : B true) (rO : B false) (tx : SignedTx S) :
    (txVerifyProc o fx prm sch cod T dom rE rO tx).Separated := by
  unfold txVerifyProc
  rcases cod.dec tx.pourBytes with _ | ⟨pour, _⟩
  · trivial
  · refine ⟨separated_call _ _, separated_pourVerify _ _ _ _ _ _ _ _ _, ⟨_, verifyCells, ?_, uses_call _ _, uses_pourVerify _ _ _ _ _ _ _ _ _⟩,
      fun _ => trivial⟩
    rw [Set.disjoint_left]
    rintro _ rfl h
    exact h rfl

omit [∀ p, DecidableEq (B p)] [∀ p, Module (B (!p)) (C p).Pt] in
theorem Does.result {α : Type} {c : Proc (Mem C) α} {i : Cell} {g : Mem C i → Except Err (α × Mem C i)} (h : Does c i g)
    (m : ∀ i, Mem C i) : (c.run m).1 = (g (m i)).map (·.1) := by
  have h := h m
  rcases hg : g (m i) with e | ⟨a, s⟩
  · rw [hg] at h
    exact h
  · rw [hg] at h
    simp only at h
    rw [h]
    rfl

omit [∀ p, DecidableEq (B p)] [∀ p, Module (B (!p)) (C p).Pt] in
theorem run_root (T : CurveTree L 1 (Pts C)) (k : Bool) (path : Path (C false).Pt (C true).Pt) (m : ∀ i, Mem C i) :
    ((rootProc T k path).run m).1 = addRoot T path := by
  refine (Does.result ((does_call _ _).bind fun _ => does_call _ _) m).trans ?_
  simp only
  rcases addRoot T path with e | a <;> rfl

omit [∀ p, Module (B (!p)) (C p).Pt] in
theorem run_even (o : SideO C false) (fx : Bool) (prm : SelRerand C) (tag : K → B true) (T : CurveTree L 1 (Pts C))
    (dom : Transcript (B true) (C false).Pt (C true).Pt) (r : B true) (pour : PourOf C K) (path0 path1 : Path (C false).Pt (C true).Pt)
    (m : ∀ i, Mem C i) : ((evenVerifyProc o fx prm tag T dom r pour path0 path1).run m).1 =
      match pourEvenCircuit o fx prm tag T pour.pk0 pour.pk1 pour.minted0 pour.minted1 path0 path1 (.new dom) with
      | .error e => .error e
      | .ok s => unwrap (verificationTuple o r pour.evenProof s) := by
  unfold evenVerifyProc
  refine (Does.result ((does_call _ _).bind fun _ => (does_call _ _).bind fun _ => (does_call _ _).bind fun _ =>
    (does_call _ _).bind fun _ => (does_call _ _).bind fun _ => (does_call _ _).bind fun _ => does_call _ _) m).trans ?_
  simp only [pourEvenCircuit]
  rcases verifyMint o pour.minted0 (.new dom) with e | ⟨m0, s⟩
  · rfl
  simp only
  rcases verifyMint o pour.minted1 s with e | ⟨m1, s⟩
  · rfl
  simp only
  rcases verifySpendEven o fx prm (tag pour.pk0) T path0 s with e | ⟨s0, s⟩
  · rfl
  simp only
  rcases verifySpendEven o fx prm (tag pour.pk1) T path1 s with e | ⟨s1, s⟩
  · rfl
  simp only
  rcases unwrap (verificationTuple o r pour.evenProof _) with e | v <;> rfl

omit [∀ p, Module (B (!p)) (C p).Pt] in
theorem run_odd (o : SideO C true) (fx : Bool) (prm : SelRerand C) (T : CurveTree L 1 (Pts C))
    (dom : Transcript (B false) (C true).Pt (C false).Pt) (r : B false) (pour : PourOf C K) (path0 path1 : Path (C false).Pt (C true).Pt)
    (m : ∀ i, Mem C i) : ((oddVerifyProc o fx prm T dom r pour path0 path1).run m).1 =
      match pourOddCircuit o fx prm T path0 path1 (.new dom) with
      | .error e => .error e
      | .ok s => unwrap (verificationTuple o r pour.oddProof s) := by
  unfold oddVerifyProc
  refine (Does.result ((does_call _ _).bind fun _ => (does_call _ _).bind fun _ => (does_call _ _).bind fun _ => does_call _ _) m).trans ?_
  simp only [pourOddCircuit]
  rcases oddVerifierGadget o fx prm T path0 (.new dom) with e | s
  · rfl
  simp only [Except.map]
  rcases oddVerifierGadget o fx prm T path1 s with e | s
  · rfl
  simp only
  rcases unwrap (verificationTuple o r pour.oddProof _) with e | v <;> rfl

/-- Two results, the first panic counts. -/
def bothThen {α β γ : Type} (ra : Except Err β) (rb : Except Err γ) (rk : β × γ → Except Err α) : Except Err α :=
  match ra with
  | .error e => .error e
  | .ok x => match rb with
    | .error e => .error e
    | .ok y => rk (x, y)

omit [∀ p, Module (B (!p)) (C p).Pt] [∀ p, DecidableEq (B p)] in
/-- The result of two tasks, run one after the other, when the result of the second one does not depend on the memory. -/
theorem run_join_result {α β γ : Type} (a : Proc (Mem C) β) (b : Proc (Mem C) γ) (k : β × γ → Proc (Mem C) α) {ra : Except Err β}
    {rb : Except Err γ} {rk : β × γ → Except Err α} (ha : ∀ m, (a.run m).1 = ra) (hb : ∀ m, (b.run m).1 = rb)
    (hk : ∀ xy m, ((k xy).run m).1 = rk xy) (m : ∀ i, Mem C i) :
    ((Proc.join a b k).run m).1 = bothThen ra rb rk := by
  simp only [run]
  have h1 := ha m
  rcases hr1 : a.run m with ⟨r, m1⟩
  rw [hr1] at h1
  simp only at h1
  subst h1
  rcases r with e | x
  · rfl
  have h2 := hb m1
  rcases hr2 : b.run m1 with ⟨r, m2⟩
  rw [hr2] at h2
  simp only at h2
  subst h2
  rcases r with e | y
  · simp only [bothThen, hr2]
  · simp only [bothThen, hr2]
    exact hk (x, y) m2

omit [∀ p, Module (B (!p)) (C p).Pt] in
theorem run_pourVerify (o : ∀ p, SideO C p) (fx : Bool) (prm : SelRerand C) (tag : K → B true) (T : CurveTree L 1 (Pts C))
    (dom : ∀ p, Transcript (B (!p)) (C p).Pt (C (!p)).Pt) (rE : B true) (rO : B false) (pour : PourOf C K) :
    ∃ r, (∀ m, ((pourVerifyProc o fx prm tag T dom rE rO pour).run m).1 = r) ∧
      ∀ v, r = .ok v ↔ pourVerification o fx prm tag T dom rE rO pour = .ok v := by
  refine ⟨_, run_join_result _ _ _ (run_root _ _ _) (run_root _ _ _) fun xy => run_join_result _ _ _ (run_even _ _ _ _ _ _ _ _ _ _)
    (run_odd _ _ _ _ _ _ _ _ _) fun _ _ => rfl, fun v => ?_⟩
  unfold pourVerification pourCircuits
  simp only [bothThen]
  rcases addRoot T pour.path0 with e | path0
  · simp
  simp only
  rcases addRoot T pour.path1 with e | path1
  · simp
  simp only
  rcases pourEvenCircuit (o false) fx prm tag T pour.pk0 pour.pk1 pour.minted0 pour.minted1 path0 path1 (.new (dom false)) with e | tE
  · simp
  simp only
  rcases pourOddCircuit (o true) fx prm T path0 path1 (.new (dom true)) with e | tO
  · rcases unwrap (verificationTuple (o false) rE pour.evenProof tE) with e' | vE <;> simp
  simp only
  rcases unwrap (verificationTuple (o false) rE pour.evenProof tE) with e' | vE
  · rfl
  simp only
  rcases unwrap (verificationTuple (o true) rO pour.oddProof tO) with e' | vO <;> rfl

omit [∀ p, Module (B (!p)) (C p).Pt] in
theorem run_txVerify (o : ∀ p, SideO C p) (fx : Bool) (prm : SelRerand C) (sch : SigScheme K SK S (B true)) (cod : Codec (PourOf C K))
    (T : CurveTree L 1 (Pts C)) (dom : ∀ p, Transcript (B (!p)) (C p).Pt (C (!p)).Pt) (rE : B true) (rO : B false) (tx : SignedTx S)
    (m : ∀ i, Mem C i) : ∀ v, ((txVerifyProc o fx prm sch cod T dom rE rO tx).run m).1 = .ok v ↔
      signedTxVerification o fx prm sch cod T dom rE rO tx = .ok v := by
  intro v
  unfold txVerifyProc signedTxVerification
  rcases cod.dec tx.pourBytes with _ | ⟨pour, _⟩
  · simp [run]
  obtain ⟨r, h1, h2⟩ := run_pourVerify o fx prm sch.tag T dom rE rO pour
  simp only
  have hsig : ∀ m : ∀ i, Mem C i, ((Proc.call (σ := Mem C) .sig fun u =>
      (verifySignatures sch tx pour.pk0 pour.pk1).map fun _ => ((), u)).run m).1 = verifySignatures sch tx pour.pk0 pour.pk1 := by
    intro m
    refine (Does.result (does_call _ _) m).trans ?_
    rcases verifySignatures sch tx pour.pk0 pour.pk1 with e | _ <;> rfl
  rw [run_join_result _ _ _ hsig h1 (fun _ _ => rfl)]
  simp only [bothThen]
  rcases verifySignatures sch tx pour.pk0 pour.pk1 with e | _
  · simp
  · simp only
    rw [← h2 v]
    rcases r with e | y <;> simp

end CT
