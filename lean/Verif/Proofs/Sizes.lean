import Verif.Spec.Sizes
import Verif.Proofs.Cost
import Verif.Proofs.Serialize
import Verif.Proofs.TreeComplete
import Verif.Proofs.Hiding

namespace CT
set_option linter.unusedSectionVars false

section
variable {F G X α : Type} [Field F]

theorem Costs.runP_frame {p : Prog F G X α} {m a c : Nat} (h : Costs p m a c) (o : Oracle F G X) :
    ∀ {s : PState F G X} {x : α} {s' : PState F G X}, CT.runP o p s = .ok (x, s') →
      spare s'.pending = (spare s.pending + a) % 2 ∧ s'.vecOpen = s.vecOpen ∧ s'.deferred = s.deferred := by
  induction h with
  | pure x =>
    intro s y s' h
    simp only [CT.runP, Except.ok.injEq, Prod.mk.injEq] at h
    obtain ⟨-, rfl⟩ := h
    refine ⟨?_, rfl, rfl⟩
    unfold spare; split <;> simp
  | fail e m a c => intro s y s' h; simp [CT.runP] at h
  | multiply _ ih =>
    intro s y s' h
    simp only [CT.runP] at h
    split at h
    case h_2 => cases h
    rename_i v s1 hs
    have := ih v h
    unfold PState.multiply at hs
    split at hs
    case h_2 => cases hs
    simp only [Except.ok.injEq, Prod.mk.injEq] at hs
    obtain ⟨-, rfl⟩ := hs
    exact this
  | allocate _ ih =>
    intro s y s' h
    simp only [CT.runP] at h
    split at h
    case h_2 => cases h
    rename_i v s1 hs
    have := ih v h
    unfold PState.allocate at hs
    split at hs
    · cases hs
    split at hs
    · rename_i hp
      simp only [Except.ok.injEq, Prod.mk.injEq] at hs
      obtain ⟨-, rfl⟩ := hs
      refine ⟨?_, this.2⟩
      have := this.1
      simp only [spare, Option.isSome_some, if_true] at this
      simp only [hp, spare, Option.isSome_none, Bool.false_eq_true, if_false]
      omega
    · rename_i i hp
      split at hs
      · cases hs
      simp only [Except.ok.injEq, Prod.mk.injEq] at hs
      obtain ⟨-, rfl⟩ := hs
      refine ⟨?_, this.2⟩
      have := this.1
      simp only [spare, Option.isSome_none, Bool.false_eq_true, if_false] at this
      simp only [hp, spare, Option.isSome_some, if_true]
      omega
  | allocateMultiplier _ ih =>
    intro s y s' h
    simp only [CT.runP] at h
    split at h
    case h_2 => cases h
    rename_i v s1 hs
    have := ih v h
    unfold PState.allocateMultiplier at hs
    split at hs
    · cases hs
    simp only [Except.ok.injEq, Prod.mk.injEq] at hs
    obtain ⟨-, rfl⟩ := hs
    exact this
  | constrain _ ih =>
    intro s y s' h
    simp only [CT.runP] at h
    exact (ih h :)
  | append _ ih =>
    intro s y s' h
    simp only [CT.runP] at h
    exact (ih h :)
  | challenge _ ih =>
    intro s y s' h
    simp only [CT.runP] at h
    exact (ih _ h :)

/-- From `s` to `t` a Prover has got `m` multipliers, `a` calls of `allocate` and `k` vector commitments of dimension at most `d`. -/
structure PState.Gets (s t : PState F G X) (m a k d : Nat) : Prop where
  len : t.aL.length = s.aL.length + m + (a + 1 - spare s.pending) / 2
  pend : spare t.pending = (spare s.pending + a) % 2
  vecs : ∃ l, t.vecOpen = s.vecOpen ++ l ∧ l.length = k ∧ ∀ v ∈ l, v.2.length ≤ d
  deferred : t.deferred = s.deferred

theorem PState.Gets.refl (s : PState F G X) (d : Nat) : s.Gets s 0 0 0 d := by
  have := spare_le s.pending
  exact ⟨by omega, by omega, ⟨[], by simp⟩, rfl⟩

theorem PState.Gets.trans {s t u : PState F G X} {m a k d m' a' k' d' : Nat} (h : s.Gets t m a k d) (h' : t.Gets u m' a' k' d') :
    s.Gets u (m + m') (a + a') (k + k') (max d d') := by
  have := spare_le s.pending
  obtain ⟨h1, h2, ⟨l, e1, e2, e3⟩, h5⟩ := h
  obtain ⟨k1, k2, ⟨l', f1, f2, f3⟩, k5⟩ := h'
  rw [h2] at k1 k2
  refine ⟨by rw [k1, h1]; omega, by omega, ⟨l ++ l', by rw [f1, e1, List.append_assoc], by rw [List.length_append, e2, f2], ?_⟩, k5.trans h5⟩
  intro v hv
  rcases List.mem_append.1 hv with hv | hv
  · exact (e3 v hv).trans (le_max_left _ _)
  · exact (f3 v hv).trans (le_max_right _ _)

theorem PState.Gets.cast {s t : PState F G X} {m a k d m' a' k' d' : Nat} (h : s.Gets t m a k d) (hm : m = m') (ha : a = a') (hk : k = k')
    (hd : k' = 0 ∨ d ≤ d') : s.Gets t m' a' k' d' := by
  subst hm ha hk
  obtain ⟨l, e1, e2, e3⟩ := h.vecs
  refine ⟨h.len, h.pend, ⟨l, e1, e2, fun v hv => ?_⟩, h.deferred⟩
  rcases hd with rfl | hd
  · rw [List.length_eq_zero_iff.1 e2] at hv; cases hv
  · exact (e3 v hv).trans hd

theorem Costs.gets {p : Prog F G X α} {m a c : Nat} (h : Costs p m a c) {o : Oracle F G X} {s s' : PState F G X} {x : α}
    (hr : CT.runP o p s = .ok (x, s')) : s.Gets s' m a 0 0 := by
  obtain ⟨h1, h2, h3⟩ := h.runP_frame o hr
  exact ⟨(h.runP o hr).multipliers, h1, ⟨[], by simp [h2]⟩, h3⟩

theorem commitVec_gets [AddCommGroup G] [Module F G] {g : Gens G} {s s' : PState F G X} {v : List F} {bl : F} {r : G × List Variable}
    (h : s.commitVec g v bl = .ok (r, s')) : s.Gets s' 0 0 1 v.length ∧ r.2.length = v.length := by
  unfold PState.commitVec at h
  simp only at h
  split at h
  · cases h
  simp only [Except.ok.injEq, Prod.mk.injEq] at h
  obtain ⟨rfl, rfl⟩ := h
  have := spare_le s.pending
  refine ⟨⟨?_, ?_, ⟨[(bl, v)], by simp⟩, rfl⟩, by simp⟩
  · simp only; omega
  · simp only; omega

theorem constrain_gets (s : PState F G X) (lc : LC F) : s.Gets (s.constrain lc) 0 0 0 0 := by
  have h := PState.Gets.refl s 0
  exact ⟨h.len, h.pend, h.vecs, h.deferred⟩

theorem PState.size_of_max {t : PState F G X} {n : Nat} (h : t.aL.length ≤ n) (hd : ∀ v ∈ t.vecOpen, v.2.length ≤ n)
    (he : t.aL.length = n ∨ ∃ v ∈ t.vecOpen, v.2.length = n) : t.size = n := by
  unfold PState.size
  have key : ∀ (l : List (F × List F)) (k : Nat), k ≤ n → (∀ v ∈ l, v.2.length ≤ n) → (k = n ∨ ∃ v ∈ l, v.2.length = n) →
      l.foldl (fun n v => max n v.2.length) k = n := by
    intro l
    induction l with
    | nil => intro k _ _ h; rcases h with h | ⟨v, hv, -⟩; exacts [h, absurd hv (by simp)]
    | cons v l ih =>
      intro k hk hn h
      rw [List.foldl_cons]
      have hv := hn v List.mem_cons_self
      refine ih _ (max_le hk hv) (fun w hw => hn w (List.mem_cons_of_mem _ hw)) ?_
      rcases h with h | ⟨w, hw, h⟩
      · exact .inl (by omega)
      · rcases List.mem_cons.1 hw with rfl | hw
        · exact .inl (by omega)
        · exact .inr ⟨w, hw, h⟩
  exact key _ _ h hd he

/-- What a fresh Prover has got. -/
theorem PState.Gets.fresh {tr : Transcript F G X} {t : PState F G X} {m a k d : Nat} (h : (PState.new tr : PState F G X).Gets t m a k d) :
    t.aL.length = m + (a + 1) / 2 ∧ t.vecOpen.length = k ∧ t.deferred = [] ∧ ∀ v ∈ t.vecOpen, v.2.length ≤ d := by
  obtain ⟨h1, h2, ⟨l, e1, e2, e3⟩, h5⟩ := h
  have e : (PState.new tr : PState F G X).aL.length = 0 := rfl
  have e2' : spare (PState.new tr : PState F G X).pending = 0 := rfl
  have e3' : (PState.new tr : PState F G X).vecOpen = [] := rfl
  rw [e, e2'] at h1
  rw [e3', List.nil_append] at e1
  exact ⟨by rw [h1]; omega, by rw [e1, e2], h5, by rw [e1]; exact e3⟩

theorem PState.Gets.size {tr : Transcript F G X} {t : PState F G X} {m a k d : Nat} (h : (PState.new tr : PState F G X).Gets t m a k d)
    (hd : k = 0 ∨ d ≤ m + (a + 1) / 2) : t.size = m + (a + 1) / 2 := by
  obtain ⟨h1, h2, -, h4⟩ := h.fresh
  refine PState.size_of_max h1.le (fun v hv => ?_) (.inl h1)
  rcases hd with rfl | hd
  · rw [List.length_eq_zero_iff.1 h2] at hv; cases hv
  · exact (h4 v hv).trans hd

end

section
variable {F G X : Type} [Field F] [DecidableEq F] [AddCommGroup G] [DecidableEq G] [Module F G] {cF : Codec F} {cG : Codec G}

theorem proveTail_second {o : Oracle F G X} {g : Gens G} {rnd : PRand F} {n1 : Nat} {c1 : Com G} {s : PState F G X}
    {p : R1CSProof F G} {tr : Transcript F G X} (hp : proveTail o g rnd n1 c1 s = .ok (p, tr)) :
    p.AI2 = (commit2 g rnd s n1 s.size).AI ∧ p.AO2 = (commit2 g rnd s n1 s.size).AO ∧ p.S2 = (commit2 g rnd s n1 s.size).S := by
  unfold proveTail at hp
  simp only [challengeScalar] at hp
  split at hp
  · simp at hp
  split at hp
  · simp at hp
  split at hp
  · simp at hp
  by_cases hy : o (s.transcript ++ [.point "A_I2" (commit2 g rnd s n1 s.size).AI, .point "A_O2" (commit2 g rnd s n1 s.size).AO,
      .point "S2" (commit2 g rnd s n1 s.size).S] ++ [.chal "y"]) = 0
  · exact absurd ((if_pos hy).symm.trans hp) (by simp)
  replace hp := (if_neg hy).symm.trans hp
  split at hp
  · simp at hp
  split at hp
  · simp at hp
  simp only [Except.ok.injEq, Prod.mk.injEq] at hp
  rw [← hp.1]
  exact ⟨rfl, rfl, rfl⟩

end

section
variable {B : Bool → Type} [∀ p, Field (B p)] [∀ p, DecidableEq (B p)] {C : ∀ p, SWCurve (B p)}
  [∀ p, Module (B (!p)) (C p).Pt] {L : Nat} {bits : Nat}

theorem proverLevel_gets {p : Bool} {o : SideO C p} {fx : Bool} {prm : SelRerand C} (hb : (prm.layer (!p)).lambda = bits) (h3 : 3 ≤ bits)
    (hL : 1 ≤ L) {w : Wit B (Pts C) p} (hw : w.siblings.length = L) {pr : B (!p)} {cr : B (!!p)} {s s' : SideP C p}
    (h : proverLevel o fx prm w pr cr s = .ok s') :
    s.Gets s' (levelGates L bits) (levelAllocations bits) (if pr = 0 then 0 else 1) L := by
  unfold proverLevel at h
  split at h
  · cases h
  rename_i children s1 hc
  have h0 : children.length = L ∧ s.Gets s1 0 0 (if pr = 0 then 0 else 1) L := by
    unfold proverChildren at hc
    by_cases hp : pr = 0
    · rw [if_pos hp] at hc
      simp only [Except.ok.injEq, Prod.mk.injEq] at hc
      obtain ⟨rfl, rfl⟩ := hc
      rw [if_pos hp]
      exact ⟨by rw [List.length_map]; exact hw, .refl _ _⟩
    · rw [if_neg hp] at hc
      rw [if_neg hp]
      split at hc
      · cases hc
      rename_i x vars s2 hv
      simp only [Except.ok.injEq, Prod.mk.injEq] at hc
      obtain ⟨rfl, rfl⟩ := hc
      obtain ⟨k1, k2⟩ := commitVec_gets hv
      exact ⟨by rw [List.length_map]; exact k2.trans hw, k1.cast rfl rfl rfl (.inr hw.le)⟩
  cases hr : runP o (singleLevel (C (!p)) fx (prm.layer (!p)) (w.child + cr • prm.h (!p)) children
      (some (w.child + (prm.layer (!p)).delta)) (some (prm.toNat (!!p) cr))) s1 with
  | error e => rw [hr] at h; cases h
  | ok v =>
    rw [hr] at h
    simp only [Except.map, Except.ok.injEq] at h
    subst h
    have k := (costs_singleLevel (C (!p)) fx (prm.layer (!p)) (by rw [hb]; exact h3) _ children _ _).gets (x := v.1) (s' := v.2) hr
    refine (h0.2.trans k).cast ?_ ?_ (by omega) (.inr (by omega))
    · rw [h0.1, hb, levelGates]; omega
    · rw [hb, levelAllocations]; omega

theorem proverLoop_gets {p : Bool} {o : SideO C p} {fx : Bool} {prm : SelRerand C} (hb : (prm.layer (!p)).lambda = bits) (h3 : 3 ≤ bits)
    (hL : 1 ≤ L) {rnd : ∀ p, Nat → B (!p)} {nodes : WitPath B (Pts C)} {re : Bool} (hre : rootIsEven nodes = .ok re)
    (ws : List (Wit B (Pts C) p)) : ∀ (i : Nat), (∀ w ∈ ws, w.siblings.length = L) →
    (∀ j < ws.length, re = !p → i + j ≠ 0 → rnd p (i + j - 1) ≠ 0) → (∀ j < ws.length, re ≠ !p → rnd p (i + j) ≠ 0) →
    ∀ {s s' : SideP C p}, proverLoop o fx prm nodes rnd i ws s = .ok s' →
      s.Gets s' (levelGates L bits * ws.length) (levelAllocations bits * ws.length)
        (if re = !p ∧ i = 0 then ws.length - 1 else ws.length) L := by
  induction ws with
  | nil =>
    intro i _ _ _ s s' h
    simp only [proverLoop, Except.ok.injEq] at h
    subst h
    exact (PState.Gets.refl s L).cast (by simp) (by simp) (by simp) (.inr le_rfl)
  | cons w ws ih =>
    intro i hw hr hn s s' h
    simp only [proverLoop, hre] at h
    split at h
    · cases h
    rename_i s1 h1
    have k1 := proverLevel_gets hb h3 hL (hw w List.mem_cons_self) h1
    have k2 := ih (i + 1) (fun v hv => hw v (List.mem_cons_of_mem _ hv))
      (fun j hj e _ => by
        have := hr (j + 1) (by simpa using hj) e (by omega)
        rwa [show i + (j + 1) = i + 1 + j by omega] at this)
      (fun j hj e => by
        have := hn (j + 1) (by simpa using hj) e
        rwa [show i + (j + 1) = i + 1 + j by omega] at this) h
    refine (k1.trans k2).cast ?_ ?_ ?_ (by omega)
    · rw [List.length_cons, Nat.mul_succ, Nat.add_comm]
    · rw [List.length_cons, Nat.mul_succ, Nat.add_comm]
    · rw [if_neg (by omega : ¬ (re = !p ∧ i + 1 = 0)), List.length_cons]
      unfold parentScalar
      by_cases e : re = !p
      · rw [if_pos e]
        by_cases hi : i = 0
        · rw [if_pos hi, if_pos rfl, if_pos ⟨e, hi⟩]; omega
        · have := hr 0 (by simp) e (by omega)
          rw [if_neg hi, if_neg (show rnd p (i - 1) ≠ 0 from this), if_neg (fun h => hi h.2)]; omega
      · have := hn 0 (by simp) e
        rw [if_neg e, if_neg (show rnd p i ≠ 0 from this), if_neg (fun h => e h.1)]; omega

end
end CT
