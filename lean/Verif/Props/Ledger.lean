import Verif.Props.Spend

/-!
# C54: histories of payments
-/

namespace CT

variable {B : Bool → Type} [∀ p, Field (B p)] [∀ p, DecidableEq (B p)] {C : ∀ p, SWCurve (B p)}
  [∀ p, Module (B (!p)) (C p).Pt] {L : Nat} {K S : Type}

theorem amountAt_append_left {F : Type} {coins minted : List (Coin F S)} {i : Nat} (h : i < coins.length) :
    amountAt (coins ++ minted) i = amountAt coins i := by
  unfold amountAt; rw [List.getElem?_append_left h]

theorem amountAt_of {F : Type} {coins : List (Coin F S)} {i : Nat} {a : Coin F S} (h : coins[i]? = some a) : amountAt coins i = a.value := by
  unfold amountAt; rw [h]; rfl

theorem sum_amountAt {F : Type} (coins : List (Coin F S)) : ((List.range coins.length).map (amountAt coins)).sum = (coins.map (·.value)).sum := by
  congr 1
  apply List.ext_getElem
  · simp
  · intro i h1 h2
    simp only [List.length_map] at h2
    simp [amountAt, h2]

/-- What the payments of a history amount to. -/
structure Balanced (tag : K → B true) (used : List (B true)) (coins minted : List (Coin (B true) S)) (spent : List Nat) (ps : List (LedgerTx C L K)) : Prop where
  spentBy : SpentBy tag coins.length (coins ++ minted) spent ps
  nodup : spent.Nodup
  fresh : ∀ i ∈ spent, ∃ a, (coins ++ minted)[i]? = some a ∧ a.tag ∉ used
  field : ((minted.map (·.value)).sum : B true) = ((spent.map (amountAt (coins ++ minted))).sum : Nat)
  int : ∀ q, CharP (B true) q → 2 ^ 65 ≤ q → (minted.map (·.value)).sum = (spent.map (amountAt (coins ++ minted))).sum

set_option maxHeartbeats 1600000 in
theorem ledger_aux [Inhabited S] {prm : SelRerand C} (hv : prm.Valid) (hg : prm.tree.EnoughGens L 1) (hx0 : ∀ p y, ¬ (C p).OnCurve 0 y)
    {tag : K → B true} (ps : List (LedgerTx C L K)) : ∀ (leaves : List (C false).Pt) (used : List (B true)),
    LedgerTakes true prm tag leaves used ps →
    ∃ vs : Nat → ∀ p, List (List (Window (B (!p)))), ∀ coins : List (Coin (B true) S), CoinsOf prm coins leaves → (∀ a ∈ coins, a.value < 2 ^ 64) →
      ∀ (w : Nat → ∀ p, Assignment (B (!p))) (bl : Nat → ∀ p, Nat → B (!p)), (∀ (i : Nat) pay, ps[i]? = some pay → pay.Witness prm (w i) (bl i)) →
      ∃ k ≤ ps.length, ∃ minted : List (Coin (B true) S), CoinsOf prm (coins ++ minted) (leavesAfter leaves (ps.take k)) ∧
        (∀ a ∈ minted, a.value < 2 ^ 64) ∧ MintedBy minted k w bl ∧
        ((∃ pay, ps[k]? = some pay ∧ PourRelation prm pay.T (coins ++ minted) pay.t [pay.pour.spent0, pay.pour.spent1] (vs k) (w k) (bl k)) ∨
          (k = ps.length ∧ ∃ spent, Balanced tag used coins minted spent ps)) := by
  induction ps with
  | nil =>
    intro leaves used _
    refine ⟨fun _ _ => [], fun coins hc _ w bl _ => ⟨0, le_rfl, [], ?_, by simp, ⟨rfl, by simp⟩, .inr ⟨rfl, [], ?_⟩⟩⟩
    · simpa [leavesAfter] using hc
    · exact ⟨⟨rfl, by simp⟩, by simp, by simp, by simp, by simp⟩
  | cons pay ps ih =>
    intro leaves used h
    obtain ⟨ha, hne, hf0, hf1, hrest⟩ := h
    obtain ⟨vs0, key⟩ := pour_spends (S := S) hv hg hx0 ha.tree ha.fuel ha.height ha.circuits ha.len0 ha.len1 ha.even ha.odd ha.selected
    obtain ⟨vs, hvs⟩ := ih _ _ hrest
    obtain ⟨c0, c1, -, -, -⟩ := pour_amounts ha.circuits
    refine ⟨fun k => match k with | 0 => vs0 | k + 1 => vs k, fun coins hc hval w bl hw => ?_⟩
    have hw0 := hw 0 pay rfl
    rcases key coins hc hval (w 0) (fun p => (hw0 p).1) (bl 0) (fun p => (hw0 p).2) with
      ⟨a0, m0, a1, m1, v0, v1, b0, b1, e0, e1, t0, t1, bal, bali⟩ | hrel
    swap
    · exact ⟨0, Nat.zero_le _, [], by simpa [leavesAfter] using hc, by simp, ⟨rfl, by simp⟩, .inl ⟨pay, rfl, by simpa using hrel⟩⟩
    have op0 := (hw0 false).2 0 _ _ c0
    have op1 := (hw0 false).2 1 _ _ c1
    let n0 : Coin (B true) S := ⟨v0, (w 0 false).vec 0 1, bl 0 false 0, default⟩
    let n1 : Coin (B true) S := ⟨v1, (w 0 false).vec 1 1, bl 0 false 1, default⟩
    have hn0 : Coin.commitment (F := B (!false)) (G := (C false).Pt) (prm.gens false) n0 = pay.pour.minted0 := by
      rw [op0]
      simp only [Fin.sum_univ_two, Coin.commitment, n0]
      erw [e0]; rfl
    have hn1 : Coin.commitment (F := B (!false)) (G := (C false).Pt) (prm.gens false) n1 = pay.pour.minted1 := by
      rw [op1]
      simp only [Fin.sum_univ_two, Coin.commitment, n1]
      erw [e1]; rfl
    have hc' : CoinsOf prm (coins ++ [n0, n1]) (leaves ++ [pay.pour.minted0, pay.pour.minted1]) := by
      unfold CoinsOf at hc ⊢
      rw [List.map_append, hc, ← hn0, ← hn1]; rfl
    have hval' : ∀ a ∈ coins ++ [n0, n1], a.value < 2 ^ 64 := by
      intro a ha'
      simp only [List.mem_append, List.mem_cons, List.not_mem_nil, or_false] at ha'
      rcases ha' with h | rfl | rfl
      exacts [hval a h, b0, b1]
    obtain ⟨k, hk, minted, q1, q2, q3, q4⟩ := hvs (coins ++ [n0, n1]) hc' hval' (fun i => w (i + 1)) (fun i => bl (i + 1))
      (fun i p hp => hw (i + 1) p (by simpa using hp))
    have hcat : coins ++ [n0, n1] ++ minted = coins ++ n0 :: n1 :: minted := by simp
    rw [hcat] at q1 q4
    refine ⟨k + 1, by simpa using hk, n0 :: n1 :: minted, ?_, ?_, ?_, ?_⟩
    · simpa [leavesAfter] using q1
    · intro a ha'
      simp only [List.mem_cons] at ha'
      rcases ha' with rfl | rfl | h
      exacts [b0, b1, q2 a h]
    · refine ⟨by simp [q3.1]; omega, fun i hi => ?_⟩
      cases i with
      | zero => exact ⟨n0, n1, rfl, rfl, ⟨e0, rfl, rfl⟩, ⟨e1, rfl, rfl⟩⟩
      | succ i =>
        obtain ⟨x0, x1, h1, h2, h3, h4⟩ := q3.2 i (by omega)
        refine ⟨x0, x1, ?_, ?_, h3, h4⟩
        · rw [show 2 * (i + 1) = 2 * i + 1 + 1 by ring]; simpa using h1
        · rw [show 2 * (i + 1) + 1 = 2 * i + 1 + 1 + 1 by ring]; simpa using h2
    rcases q4 with ⟨p', hp', hrel⟩ | ⟨rfl, spent, hb⟩
    · exact .inl ⟨p', by simpa using hp', hrel⟩
    right
    obtain ⟨i0, hi0⟩ := List.mem_iff_getElem?.1 m0
    obtain ⟨i1, hi1⟩ := List.mem_iff_getElem?.1 m1
    have l0 : i0 < coins.length := (List.getElem?_eq_some_iff.1 hi0).1
    have l1 : i1 < coins.length := (List.getElem?_eq_some_iff.1 hi1).1
    have g0 : (coins ++ n0 :: n1 :: minted)[i0]? = some a0 := by rw [List.getElem?_append_left l0]; exact hi0
    have g1 : (coins ++ n0 :: n1 :: minted)[i1]? = some a1 := by rw [List.getElem?_append_left l1]; exact hi1
    have hne' : i0 ≠ i1 := by
      rintro rfl
      rw [hi0] at hi1
      exact hne (by rw [← t0, ← t1, Option.some.inj hi1])
    have hnin : ∀ i a, (coins ++ n0 :: n1 :: minted)[i]? = some a → (a.tag = tag pay.pour.pk0 ∨ a.tag = tag pay.pour.pk1) → i ∉ spent := by
      intro i a hi ht hs
      obtain ⟨a', h1, h2⟩ := hb.fresh i hs
      rw [hcat, hi] at h1
      rw [← Option.some.inj h1] at h2
      rcases ht with h | h <;> simp [h] at h2
    refine ⟨rfl, i0 :: i1 :: spent, ⟨⟨?_, ?_⟩, ?_, ?_, ?_, ?_⟩⟩
    · simp [hb.spentBy.1]; omega
    · intro i pay' hi
      cases i with
      | zero =>
        rw [List.getElem?_cons_zero, Option.some.injEq] at hi
        rw [← hi]
        exact ⟨i0, i1, a0, a1, rfl, rfl, by simpa using l0, by simpa using l1, g0, g1, t0, t1⟩
      | succ i =>
        obtain ⟨j0, j1, x0, x1, h1, h2, h3, h4, h5, h6, h7, h8⟩ := hb.spentBy.2 i pay' (by simpa using hi)
        rw [hcat] at h5 h6
        simp only [List.length_append, List.length_cons, List.length_nil] at h3 h4
        refine ⟨j0, j1, x0, x1, ?_, ?_, by omega, by omega, h5, h6, h7, h8⟩
        · rw [show 2 * (i + 1) = 2 * i + 1 + 1 by ring]; simpa using h1
        · rw [show 2 * (i + 1) + 1 = 2 * i + 1 + 1 + 1 by ring]; simpa using h2
    · simp only [List.nodup_cons, List.mem_cons, not_or]
      exact ⟨⟨hne', hnin _ _ g0 (.inl t0)⟩, hnin _ _ g1 (.inr t1), hb.nodup⟩
    · intro i hi
      simp only [List.mem_cons] at hi
      rcases hi with rfl | rfl | hi
      · exact ⟨a0, g0, by rw [t0]; exact hf0⟩
      · exact ⟨a1, g1, by rw [t1]; exact hf1⟩
      · obtain ⟨a, h1, h2⟩ := hb.fresh i hi
        rw [hcat] at h1
        simp only [List.mem_cons, not_or] at h2
        exact ⟨a, h1, h2.2.2⟩
    · have := hb.field
      rw [hcat] at this
      simp only [List.map_cons, List.sum_cons, amountAt_of g0, amountAt_of g1, Nat.cast_add, n0, n1] at this ⊢
      rw [this, ← add_assoc, ← add_assoc, bal]
    · intro q hq hq'
      have := hb.int q hq hq'
      rw [hcat] at this
      simp only [List.map_cons, List.sum_cons, amountAt_of g0, amountAt_of g1, n0, n1] at this ⊢
      have := bali q hq hq'
      omega

theorem unspent_add {F : Type} (coins : List (Coin F S)) (spent : List Nat) (hn : spent.Nodup) (hs : ∀ i ∈ spent, i < coins.length) :
    unspent coins spent + (spent.map (amountAt coins)).sum = (coins.map (·.value)).sum := by
  rw [← sum_amountAt, unspent]
  have hp : ((List.range coins.length).filter (· ∈ spent)).Perm spent := by
    rw [List.perm_ext_iff_of_nodup (List.nodup_range.filter _) hn]
    intro i
    simp only [List.mem_filter, List.mem_range, decide_eq_true_eq]
    exact ⟨fun h => h.2, fun h => ⟨hs i h, h⟩⟩
  rw [← (hp.map (amountAt coins)).sum_eq, add_comm]
  generalize List.range coins.length = l
  induction l with
  | nil => rfl
  | cons a l ih =>
    by_cases h : a ∈ spent <;> simp [h] at ih ⊢ <;> omega

/-- **C54** for the repaired `re_randomize` (`fx = true`): start a ledger with the coins `init` (amounts below `2^64`) and let it take any number of payments `ps`
(`LedgerTakes`: each is against the tree of all coins so far, and shows two tags that are new and different). There are variables, known from the public history, such that for
all witnesses of the payments, with `k` the number of payments before the first that contains a linear relation between the generators: the leaves of the tree
are commitments to the initial coins and the coins `minted` by the `k` payments, all amounts below `2^64`; and if there is no such payment, then each payment has spent two
coins that existed before it and have the tags it shows, no coin has been spent twice, minted and spent amounts have the same sum in the field, and (if its characteristic is at least
`2^65`) the total of the unspent coins is the total of the initial coins.

Missing, and false of the code: the repair (`C44_inflation`), that the code compares the two tags of a payment (`C46_same_coin_twice`), the height of the
paths (C24). The witnesses are what C09 extracts. -/
theorem C54_ledger_partial [Inhabited S] {prm : SelRerand C} (hv : prm.Valid) (hg : prm.tree.EnoughGens L 1) (hx0 : ∀ p y, ¬ (C p).OnCurve 0 y)
    {tag : K → B true} {init : List (Coin (B true) S)} {leaves : List (C false).Pt} (hinit : CoinsOf prm init leaves)
    (hval : ∀ a ∈ init, a.value < 2 ^ 64) {ps : List (LedgerTx C L K)} (hps : LedgerTakes true prm tag leaves [] ps) :
    ∃ vs : Nat → ∀ p, List (List (Window (B (!p)))),
      ∀ (w : Nat → ∀ p, Assignment (B (!p))) (bl : Nat → ∀ p, Nat → B (!p)), (∀ (i : Nat) pay, ps[i]? = some pay → pay.Witness prm (w i) (bl i)) →
      ∃ k ≤ ps.length, ∃ minted : List (Coin (B true) S), CoinsOf prm (init ++ minted) (leavesAfter leaves (ps.take k)) ∧
        (∀ a ∈ init ++ minted, a.value < 2 ^ 64) ∧ MintedBy minted k w bl ∧
        ((∃ pay, ps[k]? = some pay ∧ PourRelation prm pay.T (init ++ minted) pay.t [pay.pour.spent0, pay.pour.spent1] (vs k) (w k) (bl k)) ∨
          (k = ps.length ∧ ∃ spent : List Nat, spent.Nodup ∧ SpentBy tag init.length (init ++ minted) spent ps ∧
            ((minted.map (·.value)).sum : B true) = ((spent.map (amountAt (init ++ minted))).sum : Nat) ∧
            ∀ q, CharP (B true) q → 2 ^ 65 ≤ q → unspent (init ++ minted) spent = (init.map (·.value)).sum)) := by
  obtain ⟨vs, h⟩ := ledger_aux (S := S) hv hg hx0 ps leaves [] hps
  refine ⟨vs, fun w bl hw => ?_⟩
  obtain ⟨k, hk, minted, h1, h2, h3, h4⟩ := h init hinit hval w bl hw
  refine ⟨k, hk, minted, h1, ?_, h3, ?_⟩
  · intro a ha
    rcases List.mem_append.1 ha with h | h
    exacts [hval a h, h2 a h]
  rcases h4 with h4 | ⟨rfl, spent, hb⟩
  · exact .inl h4
  refine .inr ⟨rfl, spent, hb.nodup, hb.spentBy, hb.field, fun q hq hq' => ?_⟩
  have e := unspent_add (init ++ minted) spent hb.nodup fun i hi => by
    obtain ⟨a, ha, -⟩ := hb.fresh i hi
    exact (List.getElem?_eq_some_iff.1 ha).1
  rw [← hb.int q hq hq', List.map_append, List.sum_append] at e
  omega

end CT
