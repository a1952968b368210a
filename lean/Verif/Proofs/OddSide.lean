import Verif.Proofs.OpenLevel
import Verif.Proofs.TreeComplete

/-! One of the two curves of a path, the first level run for a child that is not among the children. -/

namespace CT

section
variable {F G X α : Type} [Field F]

/-- What the Prover does to its values does not depend on the constraints so far. -/
theorem runP_with_constraints (o : Oracle F G X) (p : Prog F G X α) : ∀ {s s' : PState F G X} {a : α}, runP o p s = .ok (a, s') →
    ∃ new, ∀ cs, runP o p { s with constraints := cs } = .ok (a, { s' with constraints := cs ++ new }) := by
  induction p with
  | pure x =>
    intro s s' a h
    simp only [runP, Except.ok.injEq, Prod.mk.injEq] at h
    obtain ⟨rfl, rfl⟩ := h
    exact ⟨[], fun cs => by simp [runP]⟩
  | fail e => intro s s' a h; simp [runP] at h
  | multiply l r k ih =>
    intro s s' a h
    simp only [runP] at h
    cases hm : s.multiply l r with
    | error e => simp [hm] at h
    | ok x =>
      obtain ⟨v, s1⟩ := x
      simp only [hm] at h
      obtain ⟨new, hn⟩ := ih v h
      have key : ∃ n1, ∀ cs, PState.multiply { s with constraints := cs } l r = .ok (v, { s1 with constraints := cs ++ n1 }) := by
        unfold PState.multiply at hm ⊢
        refine ⟨[⟨l.terms ++ [(.multiplierLeft s.aL.length, -1)]⟩, ⟨r.terms ++ [(.multiplierRight s.aR.length, -1)]⟩], fun cs => ?_⟩
        have he : ∀ lc, PState.eval? { s with constraints := cs } lc = s.eval? lc := by
          intro lc
          unfold PState.eval?
          generalize lc.terms = l
          induction l with
          | nil => rfl
          | cons t l ih =>
            obtain ⟨v, c⟩ := t
            cases v <;> simp only [PState.evalTerms?, PState.val?, ih]
        rw [he, he]
        cases hl : s.eval? l with
        | none => simp [hl] at hm
        | some lv =>
          cases hr : s.eval? r with
          | none => simp [hl, hr] at hm
          | some rv =>
            simp only [hl, hr, Except.ok.injEq, Prod.mk.injEq] at hm ⊢
            obtain ⟨rfl, rfl⟩ := hm
            exact ⟨rfl, by simp [PState.constrain]⟩
      obtain ⟨n1, hn1⟩ := key
      refine ⟨n1 ++ new, fun cs => ?_⟩
      simp only [runP, hn1]
      rw [hn, List.append_assoc]
  | allocate x k ih =>
    intro s s' a h
    simp only [runP] at h
    cases hm : s.allocate x with
    | error e => simp [hm] at h
    | ok y =>
      obtain ⟨v, s1⟩ := y
      simp only [hm] at h
      obtain ⟨new, hn⟩ := ih v h
      refine ⟨new, fun cs => ?_⟩
      have : PState.allocate { s with constraints := cs } x = .ok (v, { s1 with constraints := cs }) := by
        unfold PState.allocate at hm ⊢
        cases x with
        | none => simp at hm
        | some x =>
          simp only at hm ⊢
          cases hp : s.pending with
          | none =>
            simp only [hp, Except.ok.injEq, Prod.mk.injEq] at hm ⊢
            obtain ⟨rfl, rfl⟩ := hm
            exact ⟨rfl, rfl⟩
          | some i =>
            simp only [hp] at hm ⊢
            cases hi : s.aL[i]? with
            | none => simp [hi] at hm
            | some l =>
              simp only [hi, Except.ok.injEq, Prod.mk.injEq] at hm ⊢
              obtain ⟨rfl, rfl⟩ := hm
              exact ⟨rfl, rfl⟩
      simp only [runP, this]
      exact hn cs
  | allocateMultiplier x k ih =>
    intro s s' a h
    simp only [runP] at h
    cases hm : s.allocateMultiplier x with
    | error e => simp [hm] at h
    | ok y =>
      obtain ⟨v, s1⟩ := y
      simp only [hm] at h
      obtain ⟨new, hn⟩ := ih v h
      refine ⟨new, fun cs => ?_⟩
      have : PState.allocateMultiplier { s with constraints := cs } x = .ok (v, { s1 with constraints := cs }) := by
        unfold PState.allocateMultiplier at hm ⊢
        cases x with
        | none => simp at hm
        | some x =>
          simp only [Except.ok.injEq, Prod.mk.injEq] at hm ⊢
          obtain ⟨rfl, rfl⟩ := hm
          exact ⟨rfl, rfl⟩
      simp only [runP, this]
      exact hn cs
  | constrain lc k ih =>
    intro s s' a h
    simp only [runP] at h
    obtain ⟨new, hn⟩ := ih h
    exact ⟨[lc] ++ new, fun cs => by simp only [runP, PState.constrain]; rw [← List.append_assoc]; exact hn (cs ++ [lc])⟩
  | append m k ih =>
    intro s s' a h
    simp only [runP] at h
    obtain ⟨new, hn⟩ := ih h
    exact ⟨new, fun cs => hn cs⟩
  | challenge l k ih =>
    intro s s' a h
    simp only [runP] at h
    obtain ⟨new, hn⟩ := ih _ h
    exact ⟨new, fun cs => hn cs⟩

/-- The real level gives the Prover the same values as the open one. -/
theorem open_runP [DecidableEq F] {C : SWCurve F} (o : Oracle F G C.Pt) (fx : Bool) (prm : LayerParams C) (rc : C.Pt)
    {children : List (LC F)} {wit : Option C.Pt} {r : Option Nat} {s s' : PState F G C.Pt}
    (hrun : runP o (singleLevelOpen C fx prm rc children wit r) s = .ok ((), s')) :
    ∃ cs, runP o (singleLevel C fx prm rc children wit r) s = .ok ((), { s' with constraints := cs }) := by
  unfold singleLevelOpen at hrun
  obtain ⟨_, s1, h1, g1⟩ := (runP_bind_ok o).1 hrun
  obtain ⟨xv, s2, h2, g2⟩ := (runP_bind_ok o).1 g1
  obtain ⟨⟨⟩, s3, h3, g3⟩ := (runP_bind_ok o).1 g2
  cases children with
  | nil => simp [selectOpen, panic, runP] at h3
  | cons x1 xs =>
    simp only [selectOpen] at h3
    obtain ⟨lc, s4, h4, g4⟩ := (runP_bind_ok o).1 h3
    simp only [Pure.pure, runP, Except.ok.injEq, Prod.mk.injEq, true_and] at g4
    subst g4
    obtain ⟨new, hn⟩ := runP_with_constraints o _ g3
    refine ⟨s4.constraints ++ [lc] ++ new, ?_⟩
    unfold singleLevel
    refine (runP_bind_ok o).2 ⟨(), s1, h1, (runP_bind_ok o).2 ⟨xv, s2, h2, (runP_bind_ok o).2
      ⟨(), s4.constrain lc, ?_, hn _⟩⟩⟩
    simp only [select]
    exact (runP_bind_ok o).2 ⟨_, _, h4, rfl⟩

end

variable {B : Bool → Type} [∀ p, Field (B p)] [∀ p, DecidableEq (B p)] {C : ∀ p, SWCurve (B p)}
  [∀ p, Module (B (!p)) (C p).Pt] {L M : Nat} {p : Bool}

theorem proverLoop_constraints (o : SideO C p) (fx : Bool) {prm : SelRerand C} {rnd : ∀ p, Nat → B (!p)} {nodes : WitPath B (Pts C)}
    (ns : List (Wit B (Pts C) p)) : ∀ (i : Nat) {s s' : SideP C p}, proverLoop o fx prm nodes rnd i ns s = .ok s' →
    ∀ cs, ∃ cs', proverLoop o fx prm nodes rnd i ns { s with constraints := cs } = .ok { s' with constraints := cs' } := by
  induction ns with
  | nil =>
    intro i s s' h cs
    simp only [proverLoop, Except.ok.injEq] at h
    subst h
    exact ⟨cs, rfl⟩
  | cons w ns ih =>
    intro i s s' h cs
    simp only [proverLoop] at h ⊢
    cases hre : rootIsEven nodes with
    | error e => simp [hre] at h
    | ok re =>
      simp only [hre] at h ⊢
      cases hl : proverLevel o fx prm w (parentScalar rnd re p i) (rnd (!p) i) s with
      | error e => simp [hl] at h
      | ok s1 =>
        simp only [hl] at h
        have key : ∃ c1, proverLevel o fx prm w (parentScalar rnd re p i) (rnd (!p) i) { s with constraints := cs } =
            .ok { s1 with constraints := c1 } := by
          unfold proverLevel at hl ⊢
          cases hc : proverChildren prm p w (parentScalar rnd re p i) s with
          | error e => simp [hc] at hl
          | ok x =>
            obtain ⟨ch, s2⟩ := x
            have hc' : proverChildren prm p w (parentScalar rnd re p i) { s with constraints := cs } =
                .ok (ch, { s2 with constraints := cs }) := by
              unfold proverChildren PState.commitVec at hc ⊢
              split at hc
              · rename_i h0
                rw [if_pos h0]
                simp only [Except.ok.injEq, Prod.mk.injEq] at hc
                obtain ⟨rfl, rfl⟩ := hc
                rfl
              · rename_i h0
                rw [if_neg h0]
                simp only at hc ⊢
                split at hc
                · simp at hc
                · rename_i h1
                  split at h1
                  · simp at h1
                  · rename_i h2
                    rw [if_neg h2]
                    simp only [Except.ok.injEq, Prod.mk.injEq] at h1 hc ⊢
                    obtain ⟨⟨rfl, rfl⟩, rfl⟩ := h1
                    obtain ⟨rfl, rfl⟩ := hc
                    exact ⟨rfl, rfl⟩
            simp only [hc] at hl
            simp only [hc']
            cases hr : runP o (singleLevel (C (!p)) fx (prm.layer (!p)) (w.child + rnd (!p) i • prm.h (!p)) ch
              (some (w.child + (prm.layer (!p)).delta)) (some (prm.toNat (!!p) (rnd (!p) i)))) s2 with
            | error e => simp [hr, Except.map] at hl
            | ok y =>
              obtain ⟨⟨⟩, s3⟩ := y
              simp only [hr, Except.map, Except.ok.injEq] at hl
              subst hl
              obtain ⟨new, hn⟩ := runP_with_constraints o _ hr
              exact ⟨_, by rw [hn cs]; rfl⟩
        obtain ⟨c1, hc1⟩ := key
        simp only [hc1]
        exact ih (i + 1) h c1

/-- `side_complete` with the vectors committed to. -/
theorem side_complete_vec (o : SideO C p) (fx : Bool) {prm : SelRerand C} (hv : prm.Valid) (hg : L ≤ (prm.gens p).Gs.length)
    {rnd : ∀ p, Nat → B (!p)} {nodes : WitPath B (Pts C)} {re : Bool} (hre : rootIsEven nodes = .ok re)
    (ns : List (Wit B (Pts C) p)) : ∀ (i : Nat),
    (∀ k w, ns[k]? = some w → w.siblings.length = L ∧
      (C (!p)).xField (w.child + (prm.layer (!p)).delta) ∈ w.siblings ∧ prm.Avoids (!p) w.child (rnd (!p) (i + k)) ∧
      parentScalar rnd re p (i + k) ≠ 0) →
    ∀ {s : SideP C p}, s.Good → ∃ s', proverLoop o fx prm nodes rnd i ns s = .ok s' ∧ s'.Good ∧ s'.deferred = s.deferred ∧
      s'.vecOpen = s.vecOpen ++ ns.mapIdx fun k w => (parentScalar rnd re p (i + k), w.siblings) := by
  induction ns with
  | nil => intro i _ s hs; exact ⟨s, rfl, hs, rfl, by simp⟩
  | cons w ns ih =>
    intro i hk s hs
    obtain ⟨h1, h2, h3, h4⟩ := hk 0 w rfl
    obtain ⟨s1, k1, k2, k3, k4⟩ := level_complete o fx hv (pr := parentScalar rnd re p i) hs (by omega) h2 h3
    obtain ⟨s2, l1, l2, l3, l4⟩ := ih (i + 1) (fun k w hw => by
      have := hk (k + 1) w hw
      rwa [show i + (k + 1) = i + 1 + k by omega] at this) k2
    refine ⟨s2, ?_, l2, l3.trans k3, ?_⟩
    · simp only [proverLoop, hre]
      rw [show rnd (!p) i = rnd (!p) (i + 0) from rfl, k1]
      exact l1
    · rw [Nat.add_zero] at h4
      rw [l4, k4, if_neg h4, List.mapIdx_cons, List.append_assoc]
      simp only [Nat.add_zero, List.singleton_append]
      congr 3
      funext k w
      rw [show i + (k + 1) = i + 1 + k by omega]

variable [NeZero M]

omit [∀ p, Module (B (!p)) (C p).Pt] in
/-- The loop adds constraints without the output of an earlier gate, whatever the constraints so far. -/
theorem clear_verifierLoop (o : SideO C p) (fx : Bool) (prm : SelRerand C) (T : CurveTree L M (Pts C)) (rootHere : Bool)
    (child : Nat → Option (C (!p)).Pt) {m : Nat} (ps : List (C p).Pt) : ∀ (i : Nat) {t t' : SideV C p}, m < t.numVars →
    verifierLoop o fx prm T rootHere child i ps t = .ok t' →
    m < t'.numVars ∧ ∃ new, t'.constraints = t.constraints ++ new ∧ (∀ c ∈ new, c.Clear m) ∧
      ∀ cs, verifierLoop o fx prm T rootHere child i ps { t with constraints := cs } =
        .ok { t' with constraints := cs ++ new } := by
  induction ps with
  | nil =>
    intro i t t' hm h
    simp only [verifierLoop, Except.ok.injEq] at h
    subst h
    exact ⟨hm, [], by simp, by simp, fun cs => by simp [verifierLoop]⟩
  | cons par ps ih =>
    intro i t t' hm h
    simp only [verifierLoop] at h ⊢
    cases hc : child i with
    | none => simp [hc] at h
    | some c =>
      simp only [hc] at h ⊢
      cases hv : verifierChildren prm T p (decide (i = 0) && rootHere) par t with
      | error e => simp [hv] at h
      | ok x =>
        obtain ⟨ch, t1⟩ := x
        simp only [hv] at h
        have key : (∀ lc ∈ ch, lc.Clear m) ∧ m < t1.numVars ∧ t1.constraints = t.constraints ∧
            ∀ cs, verifierChildren prm T p (decide (i = 0) && rootHere) par { t with constraints := cs } =
              .ok (ch, { t1 with constraints := cs }) := by
          unfold verifierChildren at hv ⊢
          split at hv
          · rename_i h0
            cases hrs : rootSiblings prm p T with
            | error e => simp [hrs, Except.map] at hv
            | ok xs =>
              simp only [hrs, Except.map, Except.ok.injEq, Prod.mk.injEq] at hv
              obtain ⟨rfl, rfl⟩ := hv
              refine ⟨?_, hm, rfl, fun cs => by rw [if_pos h0]; rfl⟩
              intro lc hlc
              obtain ⟨y, -, rfl⟩ := List.mem_map.1 hlc
              exact clear_const _
          · rename_i h0
            simp only [Except.ok.injEq, Prod.mk.injEq] at hv
            obtain ⟨rfl, rfl⟩ := hv
            refine ⟨?_, hm, rfl, fun cs => by rw [if_neg h0]; rfl⟩
            intro lc hlc
            simp only [VState.commitVec, List.map_map, List.mem_map] at hlc
            obtain ⟨y, -, rfl⟩ := hlc
            exact clear_ofVar (by simp)
        obtain ⟨k1, k2, k3, k4⟩ := key
        cases hr : runV o (singleLevel (C (!p)) fx (prm.layer (!p)) c ch none none) t1 with
        | error e => simp [hr] at h
        | ok y =>
          obtain ⟨⟨⟩, t2⟩ := y
          simp only [hr] at h
          obtain ⟨l1, -, n1, l2, l3, l4⟩ := (clear_singleLevel fx (prm.layer (!p)) c k1 none none).run o k2 hr
          obtain ⟨q1, n2, q2, q3, q4⟩ := ih (i + 1) l1 h
          refine ⟨q1, n1 ++ n2, by rw [q2, l2, k3, List.append_assoc], ?_, fun cs => ?_⟩
          · intro c hc
            rcases List.mem_append.1 hc with hc | hc
            · exact l3 c hc
            · exact q3 c hc
          · simp only [k4, l4]
            rw [q4, List.append_assoc]

/-- The Prover's code run from a fresh state for a first child that need not be among the children: Prover and
Verifier agree on the statement, and it holds once the output of gate `L - 1` is set to zero. -/
theorem side_odd (o : SideO C p) (fx : Bool) {prm : SelRerand C} (hv : prm.Valid) (hg : L ≤ (prm.gens p).Gs.length) (hL : 2 ≤ L)
    {T : CurveTree L M (Pts C)} {rnd : ∀ p, Nat → B (!p)} {rootHere re : Bool} {nodes : WitPath B (Pts C)}
    (hre : rootIsEven nodes = .ok re) {child : Nat → Option (C (!p)).Pt} {ns : List (Wit B (Pts C) p)}
    {x : Wit B (Pts C) p} {ps : List (C p).Pt} {par : (C p).Pt} (hlen : ns.length = ps.length)
    (hk : ∀ k w par', (x :: ns)[k]? = some w → (par :: ps)[k]? = some par' →
      LevelOk L prm (rootSiblings prm _ T) rnd rootHere (parentScalar rnd re p k) (child k) k w par')
    (hmem : ∀ w ∈ ns, (C (!p)).xField (w.child + (prm.layer (!p)).delta) ∈ w.siblings)
    (hav : ∀ (k : Nat) (w : Wit B (Pts C) p), (x :: ns)[k]? = some w → prm.Avoids (!p) w.child (rnd (!p) k))
    (tr : Transcript (B (!p)) (C p).Pt (C (!p)).Pt) :
    ∃ (s : SideP C p) (t : SideV C p), proverLoop o fx prm nodes rnd 0 (x :: ns) (.new tr) = .ok s ∧
      verifierLoop o fx prm T rootHere child 0 (par :: ps) (.new tr) = .ok t ∧ Session o (prm.gens p) s t ∧ s.deferred = [] ∧
      s.vecOpen = ((x :: ns).mapIdx fun k w => (parentScalar rnd re p k, w.siblings)).drop (if rootHere then 1 else 0) ∧
      ∀ c ∈ s.constraints, ({ s with aO := s.aO.set (L - 1) 0 } : SideP C p).assignment.eval c = 0 := by
  have hS0 : (PState.new tr : SideP C p).Good :=
    ⟨⟨rfl, rfl, by intro i hi; simp [PState.new] at hi, by simp [PState.new]⟩, by simp [PState.new], by simp [PState.new]⟩
  have hses : Session o (prm.gens p) (.new tr) (.new tr) := .new tr
  have hl := hk 0 x par rfl rfl
  have hx := hav 0 x rfl
  -- the children of the first node
  obtain ⟨ch, s1, c1, c2, c3, c4, c5, c6⟩ : ∃ ch s1, proverChildren prm p x (parentScalar rnd re p 0) (.new tr) = .ok (ch, s1) ∧
      s1.Good ∧ (∀ lc ∈ ch, s1.HasLC lc) ∧ ch.length = L ∧ s1.deferred = [] ∧
      s1.vecOpen = (if parentScalar rnd re p 0 = 0 then [] else [(parentScalar rnd re p 0, x.siblings)]) := by
    obtain ⟨y, ys, hy⟩ : ∃ y ys, x.siblings = y :: ys := by
      cases hs : x.siblings with
      | nil => have := hl.len; rw [hs] at this; simp at this; omega
      | cons y ys => exact ⟨y, ys, rfl⟩
    obtain ⟨ch, s1, h4, h1, h2, h3, h5, h6⟩ := children_complete (parentScalar rnd re p 0) hS0 (by rw [hl.len]; exact hg)
      (x := y) (by rw [hy]; simp)
    refine ⟨ch, s1, h4, h1, h2, ?_, h5, by rw [h6]; rfl⟩
    unfold proverChildren PState.commitVec at h4
    split at h4
    · simp only [Except.ok.injEq, Prod.mk.injEq] at h4
      rw [← h4.1, List.length_map, hl.len]
    · simp only at h4
      split at h4
      · simp at h4
      · rename_i h7
        split at h7
        · simp at h7
        · simp only [Except.ok.injEq, Prod.mk.injEq] at h7 h4
          rw [← h4.1, ← h7.1.2, List.length_map, List.length_map, List.length_range, hl.len]
  obtain ⟨t1, d1, d2⟩ := children_session hl hses c1
  change verifierChildren prm T p (decide (0 = 0) && rootHere) par (.new tr) = _ at d1
  have ht1 : t1.numVars = 0 ∧ t1.pending = none ∧ t1.constraints = [] ∧ ∀ lc ∈ ch, lc.Clear (L - 1) := by
    unfold verifierChildren at d1
    split at d1
    · cases hrs : rootSiblings prm p T with
      | error e => simp [hrs, Except.map] at d1
      | ok xs =>
        simp only [hrs, Except.map, Except.ok.injEq, Prod.mk.injEq] at d1
        obtain ⟨rfl, rfl⟩ := d1
        refine ⟨rfl, rfl, rfl, ?_⟩
        intro lc hlc
        obtain ⟨y, -, rfl⟩ := List.mem_map.1 hlc
        exact clear_const _
    · simp only [Except.ok.injEq, Prod.mk.injEq] at d1
      obtain ⟨rfl, rfl⟩ := d1
      refine ⟨rfl, rfl, rfl, ?_⟩
      intro lc hlc
      simp only [VState.commitVec, List.map_map, List.mem_map] at hlc
      obtain ⟨y, -, rfl⟩ := hlc
      exact clear_ofVar (by simp)
  -- the open level
  have hr : rnd (!p) 0 • prm.h (!p) = prm.toNat (!!p) (rnd (!p) 0) • prm.h (!p) := by
    rw [← Nat.cast_smul_eq_nsmul (B (!!p)), hv.cast]
  obtain ⟨⟨⟩, s2, e1, e2, e3, -⟩ := complete_open (o := o) c2 (hv.a (!p)) (fx := fx) (hv.windows (!p)) (hv.tables (!p))
    (rc := x.child + rnd (!p) 0 • prm.h (!p)) (child := x.child) c3 (by intro e; rw [e] at c4; simp at c4; omega)
    (r := prm.toNat (!!p) (rnd (!p) 0)) (hv.bits (!p) _) (by rw [hr])
    (by
      intro e
      refine hx.2.2.2.2 ?_
      rw [eq_neg_iff_add_eq_zero, ← e]; abel) hx.1 (by rw [← hr]; exact hx.2)
  have hsc := sameCalls_open (G := (C p).Pt) fx (prm.layer (!p)) (x.child + rnd (!p) 0 • prm.h (!p)) ch
    (some (x.child + (prm.layer (!p)).delta)) (some (prm.toNat (!!p) (rnd (!p) 0)))
  obtain ⟨⟨⟩, t2, f1, -⟩ := sameCalls_run o hsc d2.inv.sync.stmt e1
  have hopen : Session o (prm.gens p) s2 t2 := d2.gadget hsc e1 f1
  obtain ⟨m1, A, N, m2, m3, m4⟩ := open_run o fx (prm.layer (!p)) _ (by omega) (m := L - 1)
    (by simp only [VState.allocate, ht1.2.1, ht1.1, c4]; omega) ht1.2.2.2 f1
  -- the rest of the path
  have hps : ∀ k, k < ns.length → parentScalar rnd re p (1 + k) ≠ 0 := by
    intro k hkl
    obtain ⟨par', hp⟩ : ∃ par', ps[k]? = some par' := ⟨_, List.getElem?_eq_getElem (by omega)⟩
    obtain ⟨w, hw⟩ : ∃ w, ns[k]? = some w := ⟨_, List.getElem?_eq_getElem hkl⟩
    have := (hk (k + 1) w par' hw hp).nonroot (by simp)
    rw [Nat.add_comm]; exact this.1
  have hk1 : ∀ k w par', ns[k]? = some w → ps[k]? = some par' →
      LevelOk L prm (rootSiblings prm _ T) rnd rootHere (parentScalar rnd re p (1 + k)) (child (1 + k)) (1 + k) w par' := by
    intro k w par' hw hp
    rw [Nat.add_comm]
    exact hk (k + 1) w par' hw hp
  obtain ⟨s3, g1, g2, g3, g4⟩ := side_complete_vec o fx hv hg (rnd := rnd) hre ns 1
    (fun k w hw => by
      have hkl : k < ns.length := (List.getElem?_eq_some_iff.1 hw).1
      obtain ⟨par', hp⟩ : ∃ par', ps[k]? = some par' := ⟨_, List.getElem?_eq_getElem (by omega)⟩
      refine ⟨(hk1 k w par' hw hp).len, hmem w (List.mem_of_getElem? hw), ?_, hps k hkl⟩
      rw [Nat.add_comm]; exact hav (k + 1) w hw) e2
  obtain ⟨t3, i1, i2⟩ := side_session hre (T := T) (rootHere := rootHere) (child := child) ns 1 ps hlen hk1 hopen g1
  obtain ⟨j1, N', j2, j3, j4⟩ := clear_verifierLoop o fx prm T rootHere child ps 1 m1 i1
  -- the real run
  obtain ⟨cs, q1⟩ := open_runP o fx (prm.layer (!p)) _ e1
  obtain ⟨cs', q2⟩ := proverLoop_constraints o fx ns 1 g1 cs
  have hP : proverLoop o fx prm nodes rnd 0 (x :: ns) (.new tr) = .ok { s3 with constraints := cs' } := by
    have hlev : proverLevel o fx prm x (parentScalar rnd re p 0) (rnd (!p) 0) (.new tr) = .ok { s2 with constraints := cs } := by
      unfold proverLevel
      simp only [c1, q1, Except.map]
    simp only [proverLoop, hre, hlev]
    exact q2
  obtain ⟨t, hV, hS⟩ := side_session hre (T := T) (rootHere := rootHere) (child := child) (x :: ns) 0 (par :: ps)
    (by simp [hlen]) (fun k w par' hw hp => by rw [Nat.zero_add]; exact hk k w par' hw hp) hses hP
  have ht : t = { t3 with constraints := t1.constraints ++ (A ++ LC.ofVar (.multiplierOutput (L - 1)) :: N) ++ N' } := by
    have := j4 (t1.constraints ++ (A ++ LC.ofVar (.multiplierOutput (L - 1)) :: N))
    simp only [decide_true] at d1
    rw [verifierLoop] at hV
    simp only [hl.child, decide_true, d1, m4] at hV
    exact Except.ok.inj (hV.symm.trans this)
  refine ⟨_, t, hP, hV, hS, g3.trans (e3.deferred.trans c5), ?_, ?_⟩
  · change s3.vecOpen = _
    rw [g4, e3.vecOpen, c6, List.mapIdx_cons]
    have hfun : (fun (i : Nat) (w : Wit B (Pts C) p) => (parentScalar rnd re p (i + 1), w.siblings)) =
        fun (i : Nat) (w : Wit B (Pts C) p) => (parentScalar rnd re p (1 + i), w.siblings) := by
      funext i w; rw [Nat.add_comm]
    rw [hfun]
    cases rootHere with
    | true =>
      rw [if_pos (hl.root (by simp)).1]
      simp
    | false =>
      rw [if_neg (hl.nonroot (by simp)).1]
      simp
  · intro c hc
    have hcs : cs' = A ++ LC.ofVar (.multiplierOutput (L - 1)) :: N ++ N' := by
      have := hS.inv.sync.stmt.constraints
      rw [ht] at this
      change t1.constraints ++ (A ++ LC.ofVar (.multiplierOutput (L - 1)) :: N) ++ N' = cs' at this
      rw [← this, ht1.2.2.1]; simp
    have hmem' : c ∈ A ++ LC.ofVar (.multiplierOutput (L - 1)) :: N ++ N' := hcs ▸ hc
    have hclear : ∀ c ∈ s3.constraints, c.Clear (L - 1) := by
      intro c hc
      rw [← i2.inv.sync.stmt.constraints, j2, m2, ht1.2.2.1, List.nil_append] at hc
      rcases List.mem_append.1 hc with h | h
      · exact m3 c h
      · exact j3 c h
    have hold : c ∈ s3.constraints ∨ c = LC.ofVar (.multiplierOutput (L - 1)) := by
      rw [← i2.inv.sync.stmt.constraints, j2, m2, ht1.2.2.1]
      simp only [List.mem_append, List.mem_cons, List.nil_append] at hmem' ⊢
      rcases hmem' with (h | h | h) | h
      · exact .inl (.inl (.inl h))
      · exact .inr h
      · exact .inl (.inl (.inr h))
      · exact .inl (.inr h)
    rcases hold with h | rfl
    · rw [← g2.sat c h]
      refine Clear.eval (hclear c h) ?_
      intro v hv
      cases v with
      | multiplierOutput i =>
        have : L - 1 ≠ i := fun e => hv (by rw [e])
        simp [Assignment.val, PState.assignment, List.getD_eq_getElem?_getD, List.getElem?_set_ne this]
      | _ => rfl
    · rw [eval_ofVar]
      by_cases hlt : L - 1 < s3.aO.length
      · simp [Assignment.val, PState.assignment, List.getD_eq_getElem?_getD, hlt]
      · simp [Assignment.val, PState.assignment, List.getD_eq_getElem?_getD, hlt]

end CT
