import Verif.Proofs.ParallelCode

/-!
# C52: the feature `parallel` does not change results

An execution of a program (`Verif/Model/Parallel.lean`) is a sequence of steps; at each step the scheduler picks the task that moves.
-/

namespace CT
open Proc

/-! ## Specification -/

section
variable {ι : Type} {σ : ι → Type} {α : Type} [DecidableEq ι]

/-- Some schedule takes the program `c`, started in the memory `m`, to its end, with result `r` and memory `m'`. -/
def EndsWith (c : Proc σ α) (m : ∀ i, σ i) (r : Except Err α) (m' : ∀ i, σ i) : Prop :=
  Relation.ReflTransGen Step (c, m) (.ret r, m')

/-- Whatever the scheduler does, the program is never stuck and comes to an end. -/
def AlwaysEnds (c : Proc σ α) (m : ∀ i, σ i) : Prop :=
  (∀ c' m', Relation.ReflTransGen Step (c, m) (c', m') → (∃ r, c' = .ret r) ∨ ∃ y, Step (c', m') y) ∧
    ¬ ∃ x : ℕ → Proc σ α × (∀ i, σ i), x 0 = (c, m) ∧ ∀ n, Step (x n) (x (n + 1))

/-! ## Any program -/

/-- C52: when tasks that run at the same time use different variables, every execution comes to an end, with the result of the sequential
program; and unless this is a panic, with its memory. -/
theorem C52_schedules (c : Proc σ α) (hc : c.Separated) (m : ∀ i, σ i) :
    AlwaysEnds c m ∧ (∃ r m', EndsWith c m r m') ∧
      ∀ r m', EndsWith c m r m' → r = (c.run m).1 ∧ ∀ a, r = .ok a → m' = (c.run m).2 := by
  refine ⟨⟨fun c' m' _ => progress c' m', fun ⟨x, _, h⟩ => terminates x h⟩, finishes c m, fun r m' h => ?_⟩
  obtain ⟨_, h1, h2⟩ := run_steps h hc
  exact ⟨h1.symm, fun a ha => (h2 a (h1.trans ha)).symm⟩

end

/-- Two tasks that add to their own counters, and one that reads both. -/
def twoCounters (same : Bool) : Proc (fun _ : Bool => Nat) (Nat × Nat) :=
  .join (.act false (· + 1) fun s => .ret (.ok s)) (.act (!same) (· * 10) fun s => .ret (.ok s)) fun xy => .ret (.ok xy)

/-- The tasks of `twoCounters false` are separated, and their steps can come in both orders. -/
example : (twoCounters false).Separated ∧ (twoCounters false).run (fun _ => 7) =
    (.ok (7, 7), Function.update (Function.update (fun _ => 7) false 8) true 70) :=
  ⟨⟨fun _ => trivial, fun _ => trivial, ⟨{false}, {true}, by simp, ⟨rfl, fun _ => trivial⟩, ⟨rfl, fun _ => trivial⟩⟩, fun _ => trivial⟩, rfl⟩

/-- The hypothesis matters: two tasks that use one counter give different results under different schedules. -/
theorem C52_race : ∃ m m', EndsWith (twoCounters true) (fun _ => 7) (.ok (7, 8)) m ∧
    EndsWith (twoCounters true) (fun _ => 7) (.ok (70, 7)) m' := by
  refine ⟨Function.update (Function.update (fun _ => 7) false 8) false 80,
    Function.update (Function.update (fun _ => 7) false 70) false 71, ?_, ?_⟩
  · exact .head (.left _ _ (.act _ _ _ _)) (.head (.right _ _ (.act _ _ _ _)) (.single (.joined (.ok 7) (.ok 8) _ _)))
  · exact .head (.right _ _ (.act _ _ _ _)) (.head (.left _ _ (.act _ _ _ _)) (.single (.joined (.ok 70) (.ok 7) _ _)))

/-! ## The code -/

variable {B : Bool → Type} [∀ p, Field (B p)] [∀ p, DecidableEq (B p)] {C : ∀ p, SWCurve (B p)}
  [∀ p, Module (B (!p)) (C p).Pt] {L M : Nat} {K SK S : Type}

/-- C52: whatever the schedule, `prove` with its three concurrent tasks returns what the sequential `prove` returns. -/
theorem C52_prove_parallel (p : Bool) (o : SideO C p) (g : Gens (C p).Pt) (rnd : PRand (B (!p))) (m : ∀ i, Mem C i) :
    AlwaysEnds (proveProc p o g rnd) m ∧
      ∀ r m', EndsWith (proveProc p o g rnd) m r m' → r = prove o g rnd (m (.prover p)) := by
  obtain ⟨h1, _, h2⟩ := C52_schedules _ (separated_prove p o g rnd) m
  exact ⟨h1, fun r m' h => (h2 r m' h).1.trans (run_prove p o g rnd m)⟩

/-- C52: whatever the schedule, the two concurrent loops of the select-and-rerandomize gadget give the path and leave the two Provers
in the states of the sequential gadget, or panic as it does. -/
theorem C52_path_parallel (o : ∀ p, SideO C p) (fx : Bool) (prm : SelRerand C) (rnd : ∀ p, Nat → B (!p))
    (t : CurveTree L M (Pts C)) (index : Nat) (ti : Fin M) (m : ∀ i, Mem C i) :
    AlwaysEnds (treeProc o fx prm rnd t index ti) m ∧
      ∀ r m', EndsWith (treeProc o fx prm rnd t index ti) m r m' →
        match treeProverGadget (o false) (o true) fx prm rnd t index ti (m (.prover false)) (m (.prover true)) with
        | .ok (a, sE, sO) => r = .ok a ∧ m' (.prover false) = sE ∧ m' (.prover true) = sO
        | .error e => r = .error e := by
  obtain ⟨h, hd⟩ := does_tree o fx prm rnd t index ti
  obtain ⟨h1, _, h2⟩ := C52_schedules _ h m
  refine ⟨h1, fun r m' hr => ?_⟩
  obtain ⟨h3, h4⟩ := h2 r m' hr
  have hd := hd m
  rcases hg : treeProverGadget (o false) (o true) fx prm rnd t index ti (m (.prover false)) (m (.prover true)) with e | ⟨a, sE, sO⟩
  · rw [hg] at hd
    exact h3.trans hd
  · rw [hg] at hd
    simp only at hd ⊢
    have h5 : r = .ok a := by rw [h3, hd]
    rw [h4 a h5, hd]
    exact ⟨h5, setProvers_even m sE sO, setProvers_odd m sE sO⟩

/-- C52: the same for batched paths. -/
theorem C52_batched_parallel (o : ∀ p, SideO C p) (fx : Bool) (prm : SelRerand C) (rnd : ∀ p, Nat → B (!p)) (leafR : Fin M → B (!false))
    (nodes : MultiWitPath M B (Pts C)) (m : ∀ i, Mem C i) :
    AlwaysEnds (multiPathProc o fx prm rnd leafR nodes) m ∧
      ∀ r m', EndsWith (multiPathProc o fx prm rnd leafR nodes) m r m' →
        match multiPathProverGadget (o false) (o true) fx prm rnd leafR nodes (m (.prover false)) (m (.prover true)) with
        | .ok (a, sE, sO) => r = .ok a ∧ m' (.prover false) = sE ∧ m' (.prover true) = sO
        | .error e => r = .error e := by
  obtain ⟨h, hd⟩ := does_multiPath o fx prm rnd leafR nodes
  obtain ⟨h1, _, h2⟩ := C52_schedules _ h m
  refine ⟨h1, fun r m' hr => ?_⟩
  obtain ⟨h3, h4⟩ := h2 r m' hr
  have hd := hd m
  rcases hg : multiPathProverGadget (o false) (o true) fx prm rnd leafR nodes (m (.prover false)) (m (.prover true)) with
    e | ⟨a, sE, sO⟩
  · rw [hg] at hd
    exact h3.trans hd
  · rw [hg] at hd
    simp only at hd ⊢
    have h5 : r = .ok a := by rw [h3, hd]
    rw [h4 a h5, hd]
    exact ⟨h5, setProvers_even m sE sO, setProvers_odd m sE sO⟩

/-- C52: whatever the schedule, `prove_pour` returns the transaction, or panics with the message, of the sequential `prove_pour`. -/
theorem C52_pour_parallel (o : ∀ p, SideO C p) (fx : Bool) (prm : SelRerand C) (sch : SigScheme K SK S (B true)) (cod : Codec (PourOf C K))
    (T : CurveTree L 1 (Pts C)) (rnd : PourRand C S) (in0 in1 : SpendingInfo K SK S (B true)) (val0 : Nat) (pk0 : K) (val1 : Nat)
    (pk1 : K) (m : ∀ i, Mem C i) :
    AlwaysEnds (pourProc o fx prm sch cod T rnd in0 in1 val0 pk0 val1 pk1) m ∧
      ∀ r m', EndsWith (pourProc o fx prm sch cod T rnd in0 in1 val0 pk0 val1 pk1) m r m' →
        r = provePour o fx prm sch cod T rnd in0 in1 val0 pk0 val1 pk1 (m (.prover false)) (m (.prover true)) := by
  obtain ⟨h1, _, h2⟩ := C52_schedules _ (separated_pour o fx prm sch cod T rnd in0 in1 val0 pk0 val1 pk1) m
  exact ⟨h1, fun r m' h => (h2 r m' h).1.trans (run_pour o fx prm sch cod T rnd in0 in1 val0 pk0 val1 pk1 m)⟩

omit [∀ p, Module (B (!p)) (C p).Pt] in
/-- C52: whatever the schedule, the verification of a transaction returns the verification tuples the sequential code returns, and
panics when the sequential code panics. -/
theorem C52_verification_parallel (o : ∀ p, SideO C p) (fx : Bool) (prm : SelRerand C) (sch : SigScheme K SK S (B true))
    (cod : Codec (PourOf C K)) (T : CurveTree L 1 (Pts C)) (dom : ∀ p, Transcript (B (!p)) (C p).Pt (C (!p)).Pt) (rE : B true) (rO : B false)
    (tx : SignedTx S) (m : ∀ i, Mem C i) :
    AlwaysEnds (txVerifyProc o fx prm sch cod T dom rE rO tx) m ∧
      ∀ r m', EndsWith (txVerifyProc o fx prm sch cod T dom rE rO tx) m r m' →
        ∀ v, r = .ok v ↔ signedTxVerification o fx prm sch cod T dom rE rO tx = .ok v := by
  obtain ⟨h1, _, h2⟩ := C52_schedules _ (separated_txVerify o fx prm sch cod T dom rE rO tx) m
  refine ⟨h1, fun r m' h v => ?_⟩
  rw [(h2 r m' h).1]
  exact run_txVerify o fx prm sch cod T dom rE rO tx m v

end CT
