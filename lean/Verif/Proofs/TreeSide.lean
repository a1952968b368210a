import Verif.Proofs.TreeWitness
import Verif.Proofs.GadgetSync
import Verif.Proofs.Complete
import Verif.Model.TreeGadgets
import Mathlib.Data.Nat.Bits

/-! The Prover and the Verifier on one of the two curves. -/

namespace CT

theorem msm_eq_sum {F G : Type} [Field F] [AddCommGroup G] [Module F G] {n : Nat} {gs : List G} {v : List F}
    (hv : v.length = n) (hg : n ≤ gs.length) : msm (gs.take n) v = ∑ k : Fin n, v.getD k 0 • gs.getD k 0 := by
  have e : v = List.ofFn fun k : Fin n => v.getD k 0 := by
    apply List.ext_getElem (by simpa using hv)
    intro k h1 h2
    simp [List.getD_eq_getElem?_getD, h1]
  conv_lhs => rw [e]
  rw [msm_ofFn n _ _ (by simpa using hg)]
  refine Finset.sum_congr rfl fun k _ => ?_
  simp [List.getD_eq_getElem?_getD]

section Parents
variable {B P : Bool → Type} {p : Bool}

/-- The commitments of the nodes of a path starting at `c`. -/
def WPath.parents {B P : Bool → Type} : {p : Bool} → P p → WPath B P p → ∀ q, List (P q)
  | _, _, .nil => fun _ => []
  | p, c, .cons w rest => Function.update (rest.parents w.child) p (c :: rest.parents w.child p)

theorem parents_length {p : Bool} (w : WPath B P p) (c : P p) (q : Bool) :
    (w.parents c q).length = (w.nodes q).length := by
  induction w with
  | nil => rfl
  | @cons p w rest ih =>
    simp only [WPath.parents, WPath.nodes]
    by_cases hq : q = p
    · subst hq; simp [ih]
    · simp [Function.update_of_ne hq, ih]

theorem take_nodes_zero {p : Bool} (w : WPath B P p) (d : Nat) (x : Wit B P p) (hx : ((w.take d).nodes p)[0]? = some x) :
    (w.nodes p)[0]? = some x := by
  cases w with
  | nil => cases d <;> simp [WPath.take, WPath.nodes] at hx
  | cons w rest => 
    cases d with
    | zero => simp [WPath.take, WPath.nodes] at hx
    | succ d => simpa [WPath.take, WPath.nodes] using hx

theorem graft_nodes_zero {p : Bool} (w : WPath B P p) (h0 : w.length ≠ 0) (w2 : WPath B P false) (x : Wit B P p)
    (hx : ((w.graft w2).nodes p)[0]? = some x) : (w.nodes p)[0]? = some x := by
  cases w with
  | nil => simp [WPath.length] at h0
  | cons w rest => cases p <;> simpa [WPath.graft, WPath.nodes] using hx

variable [∀ p, Field (B p)] [∀ p, AddCommGroup (P p)] [∀ p, Module (B (!p)) (P p)]

/-- Like `From`, with the first generators and without the condition on the child: on every level the parent is the commitment
to `L` siblings. -/
def WPath.Commits {B P : Bool → Type} [∀ p, Field (B p)] [∀ p, AddCommGroup (P p)] [∀ p, Module (B (!p)) (P p)]
    (prm : TreeParams B P) (L : Nat) (leaf : Σ p, P p) : {p : Bool} → P p → WPath B P p → Prop
  | p, c, .nil => (⟨p, c⟩ : Σ p, P p) = leaf
  | p, c, .cons w rest =>
    w.siblings.length = L ∧ c = ∑ k : Fin L, w.siblings.getD k 0 • (prm.gens p).Gs.getD k 0 ∧ rest.Commits prm L leaf w.child

theorem WPath.From.commits {prm : TreeParams B P} {L : Nat} {leaf : Σ p, P p} {p : Bool} {w : WPath B P p} {c : P p}
    (h : w.From prm L 0 leaf c) : w.Commits prm L leaf c := by
  induction w with
  | nil => exact h
  | cons w rest ih =>
    refine ⟨h.1, ?_, ih h.2.2.2⟩
    have := h.2.1
    simpa only [Nat.zero_mul, Nat.zero_add] using this

theorem from_mem {prm : TreeParams B P} {L idx : Nat} {leaf : Σ p, P p} {p : Bool} (w : WPath B P p) (c : P p)
    (h : w.From prm L idx leaf c) (q : Bool) (i : Nat) (n : Wit B P q) (hn : (w.nodes q)[i]? = some n) :
    n.siblings.length = L ∧ prm.xc (!q) (n.child + prm.delta (!q)) ∈ n.siblings := by
  induction w generalizing i with
  | nil => simp [WPath.nodes] at hn
  | @cons p w rest ih =>
    obtain ⟨h1, h2, h3, h4⟩ := h
    simp only [WPath.nodes] at hn
    by_cases hq : q = p
    · subst hq
      simp only [Function.update_self] at hn
      cases i with
      | zero =>
        simp only [List.getElem?_cons_zero, Option.some.injEq] at hn
        subst hn
        exact ⟨h1, h3⟩
      | succ i =>
        simp only [List.getElem?_cons_succ] at hn
        exact ih _ h4 i hn
    · simp only [Function.update_of_ne hq] at hn
      exact ih _ h4 i hn

theorem parents_commit {prm : TreeParams B P} {L : Nat} {leaf : Σ p, P p} {p : Bool} (w : WPath B P p) (c : P p)
    (h : w.Commits prm L leaf c) (q : Bool) (i : Nat) (n : Wit B P q) (d : P q)
    (hn : (w.nodes q)[i]? = some n) (hd : (w.parents c q)[i]? = some d) :
    n.siblings.length = L ∧ d = ∑ k : Fin L, n.siblings.getD k 0 • (prm.gens q).Gs.getD k 0 := by
  induction w generalizing i with
  | nil => simp [WPath.nodes] at hn
  | @cons p w rest ih =>
    obtain ⟨h1, h2, h4⟩ := h
    simp only [WPath.parents, WPath.nodes] at hn hd
    by_cases hq : q = p
    · subst hq
      simp only [Function.update_self] at hn hd
      cases i with
      | zero =>
        simp only [List.getElem?_cons_zero, Option.some.injEq] at hn hd
        subst hn; subst hd
        exact ⟨h1, h2⟩
      | succ i =>
        simp only [List.getElem?_cons_succ] at hn hd
        exact ih _ h4 i hn hd
    · simp only [Function.update_of_ne hq] at hn hd
      exact ih _ h4 i hn hd

/-- How the children of the nodes on one curve are the commitments on the other one. -/
def Aligned (leaf : P false) : (p : Bool) → P p → WPath B P p → Prop
  | false, c, w => (w.nodes false).map (·.child) = w.parents c true ∧
      c :: (w.nodes true).map (·.child) = w.parents c false ++ [leaf]
  | true, c, w => c :: (w.nodes false).map (·.child) = w.parents c true ∧
      (w.nodes true).map (·.child) = w.parents c false ++ [leaf]

theorem aligned_of_commits {prm : TreeParams B P} {L : Nat} {leaf : P false} {p : Bool} (w : WPath B P p) (c : P p)
    (h : w.Commits prm L ⟨false, leaf⟩ c) : Aligned leaf p c w := by
  induction w with
  | @nil p =>
    cases p with
    | false =>
      simp only [WPath.Commits, Sigma.mk.injEq, heq_eq_eq, true_and] at h
      subst h
      exact ⟨rfl, rfl⟩
    | true => simp [WPath.Commits] at h
  | @cons p w rest ih =>
    have h4 := ih _ h.2.2
    cases p with
    | false =>
      obtain ⟨a, b⟩ : Aligned leaf true w.child rest := h4
      refine ⟨?_, ?_⟩
      · simpa [WPath.nodes, WPath.parents] using a
      · simpa [WPath.nodes, WPath.parents] using b
    | true =>
      obtain ⟨a, b⟩ : Aligned leaf false w.child rest := h4
      refine ⟨?_, ?_⟩
      · simpa [WPath.nodes, WPath.parents] using a
      · simpa [WPath.nodes, WPath.parents] using b

theorem aligned {prm : TreeParams B P} {L idx : Nat} {leaf : P false} {p : Bool} (w : WPath B P p) (c : P p)
    (h : w.From prm L idx ⟨false, leaf⟩ c) : Aligned leaf p c w := by
  induction w with
  | @nil p =>
    cases p with
    | false =>
      simp only [WPath.From, Sigma.mk.injEq, heq_eq_eq, true_and] at h
      subst h
      exact ⟨rfl, rfl⟩
    | true => simp [WPath.From] at h
  | @cons p w rest ih =>
    have h4 := ih _ h.2.2.2
    cases p with
    | false =>
      obtain ⟨a, b⟩ : Aligned leaf true w.child rest := h4
      refine ⟨?_, ?_⟩
      · simpa [WPath.nodes, WPath.parents] using a
      · simpa [WPath.nodes, WPath.parents] using b
    | true =>
      obtain ⟨a, b⟩ : Aligned leaf false w.child rest := h4
      refine ⟨?_, ?_⟩
      · simpa [WPath.nodes, WPath.parents] using a
      · simpa [WPath.nodes, WPath.parents] using b

theorem take_from {prm : TreeParams B P} {L idx : Nat} {leaf : Σ p, P p} {p : Bool} (w : WPath B P p) (c : P p)
    (h : w.From prm L idx leaf c) (d : Nat) (hd : d ≤ w.length) :
    (w.take d).length = d ∧ ∃ x : Σ p, P p, x.1 = d.bodd.xor p ∧ (w.take d).From prm L idx x c := by
  induction w generalizing d with
  | @nil p =>
    obtain rfl : d = 0 := by simpa [WPath.length] using hd
    exact ⟨rfl, ⟨p, c⟩, by simp, rfl⟩
  | @cons p w rest ih =>
    cases d with
    | zero => exact ⟨rfl, ⟨p, c⟩, by simp, rfl⟩
    | succ d =>
      obtain ⟨a, x, e, b⟩ := ih _ h.2.2.2 d (by simpa [WPath.length] using hd)
      refine ⟨by simp [WPath.take, WPath.length, a], x, ?_, h.1, h.2.1, h.2.2.1, b⟩
      rw [e, Nat.bodd_succ]; cases d.bodd <;> cases p <;> rfl

theorem graft_from {prm : TreeParams B P} {L idx : Nat} {l1 : P false} {leaf : Σ p, P p} {p : Bool} (w : WPath B P p) (c : P p)
    (h : w.From prm L idx ⟨false, l1⟩ c) (w2 : WPath B P false) (h2 : w2.From prm L idx leaf l1) :
    (w.graft w2).From prm L idx leaf c ∧ (w.graft w2).length = w.length + w2.length := by
  induction w with
  | @nil p =>
    cases p with
    | false =>
      simp only [WPath.From, Sigma.mk.injEq, heq_eq_eq, true_and] at h
      subst h
      exact ⟨h2, by simp [WPath.graft, WPath.length]⟩
    | true => simp [WPath.From] at h
  | @cons p w rest ih =>
    obtain ⟨a, b⟩ := ih _ h.2.2.2
    cases p <;> exact ⟨⟨h.1, h.2.1, h.2.2.1, a⟩, by simp only [WPath.graft, WPath.length] at *; omega⟩

end Parents

variable {B : Bool → Type} [∀ p, Field (B p)] [∀ p, DecidableEq (B p)] {C : ∀ p, SWCurve (B p)}
  [∀ p, Module (B (!p)) (C p).Pt] {L M : Nat} [NeZero M] {p : Bool}

/-- What Prover and Verifier have to agree on at level `i` of side `p`. -/
structure LevelOk (L : Nat) (prm : SelRerand C) (rs : Except Err (List (B (!p)))) (rnd : ∀ p, Nat → B (!p)) (rootHere : Bool)
    (pr : B (!p)) (child : Option (C (!p)).Pt) (i : Nat) (w : Wit B (Pts C) p) (parent : (C p).Pt) : Prop where
  child : child = some (w.child + rnd (!p) i • prm.h (!p))
  len : w.siblings.length = L
  root : (decide (i = 0) && rootHere) = true → pr = 0 ∧ rs = .ok w.siblings
  nonroot : (decide (i = 0) && rootHere) = false → pr ≠ 0 ∧
    parent = (∑ k : Fin L, w.siblings.getD k 0 • (prm.gens p).Gs.getD k 0) + pr • prm.h p

/-- The Verifier's variables for the `n` children of a parent; the children of the root are `rs`. -/
def childVars (n : Nat) (rs : Except Err (List (B (!p)))) (isRoot : Bool) (parent : (C p).Pt)
    (s : SideV C p) : Except Err (List (LC (B (!p))) × SideV C p) :=
  if isRoot then rs.map fun xs => (xs.map LC.const, s)
  else .ok ((s.commitVec n parent).1.map LC.ofVar, (s.commitVec n parent).2)

/-- The children are represented by the same variables for Prover and Verifier. -/
theorem children_session {o : SideO C p} {prm : SelRerand C} {rs : Except Err (List (B (!p)))}
    {rnd : ∀ p, Nat → B (!p)} {rootHere : Bool} {pr : B (!p)} {child : Option (C (!p)).Pt} {i : Nat}
    {w : Wit B (Pts C) p} {parent : (C p).Pt} (hl : LevelOk L prm rs rnd rootHere pr child i w parent)
    {s s1 : SideP C p} {t : SideV C p} (h : Session o (prm.gens p) s t) {ch : List (LC (B (!p)))}
    (hp : proverChildren prm p w pr s = .ok (ch, s1)) :
    ∃ t1, childVars L rs (decide (i = 0) && rootHere) parent t = .ok (ch, t1) ∧ Session o (prm.gens p) s1 t1 := by
  cases hroot : (decide (i = 0) && rootHere) with
  | true =>
    obtain ⟨h1, h2⟩ := hl.root hroot
    unfold proverChildren at hp
    rw [if_pos h1] at hp
    simp only [Except.ok.injEq, Prod.mk.injEq] at hp
    obtain ⟨rfl, rfl⟩ := hp
    exact ⟨t, by unfold childVars; rw [if_pos rfl, h2]; rfl, h⟩
  | false =>
    obtain ⟨h1, h2⟩ := hl.nonroot hroot
    unfold proverChildren at hp
    rw [if_neg h1] at hp
    cases hc : s.commitVec (prm.gens p) w.siblings pr with
    | error e => simp [hc] at hp
    | ok x =>
      obtain ⟨⟨V, vars⟩, s2⟩ := x
      rw [hc] at hp
      simp only [Except.ok.injEq, Prod.mk.injEq] at hp
      obtain ⟨rfl, rfl⟩ := hp
      have hs := h.commitVec hc
      have hlen : s.vecOpen.length = t.vecComms.length := by rw [h.inv.sync.comms]; simp
      have hV : V = parent ∧ vars = (List.range L).map fun k => .vectorCommit t.vecComms.length k := by
        unfold PState.commitVec at hc
        simp only at hc
        split at hc
        · simp at hc
        · rename_i hg
          simp only [Except.ok.injEq, Prod.mk.injEq] at hc
          obtain ⟨⟨rfl, rfl⟩, -⟩ := hc
          rw [hl.len, hlen] at *
          refine ⟨?_, rfl⟩
          have hgl : L ≤ (prm.gens p).Gs.length := by
            simp [hl.len] at hg; omega
          have := msm_eq_sum (n := L) hl.len hgl
          rw [h2, ← this]
          simp only [msm, List.zipWith_cons_cons, List.sum_cons]
          rw [add_comm]; rfl
      obtain ⟨rfl, rfl⟩ := hV
      rw [hl.len] at hs
      exact ⟨_, by unfold childVars; rw [if_neg (by simp)]; rfl, hs⟩

theorem level_session {o : SideO C p} {fx : Bool} {prm : SelRerand C} {T : CurveTree L M (Pts C)}
    {rnd : ∀ p, Nat → B (!p)} {rootHere : Bool} {pr : B (!p)} {child : Option (C (!p)).Pt} {i : Nat}
    {w : Wit B (Pts C) p} {parent : (C p).Pt} (hl : LevelOk L prm (rootSiblings prm p T) rnd rootHere pr child i w parent)
    {s s' : SideP C p} {t : SideV C p} (h : Session o (prm.gens p) s t)
    (hp : proverLevel o fx prm w pr (rnd (!p) i) s = .ok s') :
    ∃ c ch t1 t', child = some c ∧ verifierChildren prm T p (decide (i = 0) && rootHere) parent t = .ok (ch, t1) ∧
      runV o (singleLevel (C (!p)) fx (prm.layer (!p)) c ch none none) t1 = .ok ((), t') ∧
      Session o (prm.gens p) s' t' := by
  unfold proverLevel at hp
  cases hpc : proverChildren prm p w pr s with
  | error e => rw [hpc] at hp; cases hp
  | ok x =>
    obtain ⟨ch, s1⟩ := x
    obtain ⟨t1, hvc, hs⟩ := children_session hl h hpc
    simp only [hpc] at hp
    cases hr : runP o (singleLevel (C (!p)) fx (prm.layer (!p)) (w.child + rnd (!p) i • prm.h (!p)) ch
      (some (w.child + (prm.layer (!p)).delta)) (some (prm.toNat (!!p) (rnd (!p) i)))) s1 with
    | error e => rw [hr] at hp; simp [Except.map] at hp
    | ok x =>
      obtain ⟨⟨⟩, s2⟩ := x
      rw [hr] at hp
      simp only [Except.map, Except.ok.injEq] at hp
      subst hp
      have hsc := sync_singleLevel (G := (C p).Pt) fx (prm.layer (!p)) (w.child + rnd (!p) i • prm.h (!p)) ch
        (some (w.child + (prm.layer (!p)).delta)) (some (prm.toNat (!!p) (rnd (!p) i)))
      obtain ⟨⟨⟩, t', ht', -⟩ := sameCalls_run o hsc hs.inv.sync.stmt hr
      exact ⟨_, ch, t1, t', hl.child, hvc, ht', hs.gadget hsc hr ht'⟩

theorem side_session {o : SideO C p} {fx : Bool} {prm : SelRerand C} {T : CurveTree L M (Pts C)}
    {rnd : ∀ p, Nat → B (!p)} {rootHere re : Bool} {nodes : WitPath B (Pts C)} (hre : rootIsEven nodes = .ok re)
    {child : Nat → Option (C (!p)).Pt} (ns : List (Wit B (Pts C) p)) :
    ∀ (i : Nat) (ps : List (C p).Pt), ns.length = ps.length →
    (∀ k w par, ns[k]? = some w → ps[k]? = some par →
      LevelOk L prm (rootSiblings prm p T) rnd rootHere (parentScalar rnd re p (i + k)) (child (i + k)) (i + k) w par) →
    ∀ {s s' : SideP C p} {t : SideV C p}, Session o (prm.gens p) s t →
    proverLoop o fx prm nodes rnd i ns s = .ok s' →
    ∃ t', verifierLoop o fx prm T rootHere child i ps t = .ok t' ∧ Session o (prm.gens p) s' t' := by
  induction ns with
  | nil =>
    intro i ps hl _ s s' t h hp
    obtain rfl : ps = [] := by simpa using hl.symm
    simp only [proverLoop, Except.ok.injEq] at hp
    subst hp
    exact ⟨t, rfl, h⟩
  | cons w ns ih =>
    intro i ps hl hk s s' t h hp
    match ps, hl with
    | par :: ps, hl =>
      simp only [proverLoop, hre] at hp
      cases hlev : proverLevel o fx prm w (parentScalar rnd re p i) (rnd (!p) i) s with
      | error e => simp [hlev] at hp
      | ok s1 =>
        simp only [hlev] at hp
        obtain ⟨c, ch, t1, t2, h1, h2, h3, h4⟩ := level_session (hk 0 w par rfl rfl) h hlev
        obtain ⟨t', h5, h6⟩ := ih (i + 1) ps (by simpa using hl)
          (fun k w par hw hp => by
            have := hk (k + 1) w par hw hp
            rwa [show i + (k + 1) = i + 1 + k by omega] at this) h4 hp
        refine ⟨t', ?_, h6⟩
        simp only [Nat.add_zero] at h1 h2
        unfold verifierLoop
        simp only [h1, h2, h3]
        exact h5

end CT
