import Verif.Proofs.TreeSide

/-! Prover and Verifier agree on the path. -/

namespace CT
variable {B : Bool → Type} [∀ p, Field (B p)] [∀ p, DecidableEq (B p)] {C : ∀ p, SWCurve (B p)}
  [∀ p, Module (B (!p)) (C p).Pt] {L M : Nat} [NeZero M] {p : Bool}

theorem rerandomized_getElem? (prm : SelRerand C) (nodes : WitPath B (Pts C)) (rnd : ∀ p, Nat → B (!p)) (p : Bool) (i : Nat) :
    (rerandomized prm nodes rnd p)[i]? = (nodes p)[i]?.map fun w => w.child + rnd (!p) i • prm.h (!p) := by
  simp [rerandomized]

theorem rerandomized_length (prm : SelRerand C) (nodes : WitPath B (Pts C)) (rnd : ∀ p, Nat → B (!p)) (p : Bool) :
    (rerandomized prm nodes rnd p).length = (nodes p).length := by
  simp [rerandomized]

omit [∀ p, DecidableEq (B p)] [∀ p, Module (B (!p)) (C p).Pt] in
theorem even_lengths {leaf : (C false).Pt} {c : (C false).Pt} {w : WPath B (Pts C) false} (h : Aligned leaf false c w) :
    (w.nodes false).length = (w.nodes true).length := by
  have := congrArg List.length h.1
  simpa [parents_length] using this

omit [∀ p, DecidableEq (B p)] [∀ p, Module (B (!p)) (C p).Pt] in
theorem odd_lengths {leaf : (C false).Pt} {c : (C true).Pt} {w : WPath B (Pts C) true} (h : Aligned leaf true c w) :
    (w.nodes false).length + 1 = (w.nodes true).length := by
  have := congrArg List.length h.1
  simpa [parents_length] using this

theorem child_of_aligned {α β : Type} {f : α → β} {l : List α} {m : List β} {i : Nat} {a : α} {b : β} (h : l.map f = m)
    (ha : l[i]? = some a) (hb : m[i]? = some b) : f a = b := by
  subst h
  rw [List.getElem?_map, ha] at hb
  exact Option.some.inj hb

theorem getLast_rerandomized (prm : SelRerand C) (nodes : WitPath B (Pts C)) (rnd : ∀ p, Nat → B (!p)) {n : Nat}
    (hn : (nodes true).length = n + 1) :
    (rerandomized prm nodes rnd true)[n]? = some (proverPath prm nodes rnd).selected := by
  have hl := rerandomized_length prm nodes rnd true
  simp only [proverPath]
  rw [List.getLast?_eq_getElem?, hl, hn, Nat.add_sub_cancel]
  rw [List.getElem?_eq_getElem (by omega)]
  rfl

theorem even_getElem? (prm : SelRerand C) (nodes : WitPath B (Pts C)) (rnd : ∀ p, Nat → B (!p)) {n i : Nat}
    (hn : (nodes true).length = n + 1) (hi : i < n) :
    (proverPath prm nodes rnd).even[i]? = (rerandomized prm nodes rnd true)[i]? := by
  simp only [proverPath]
  rw [List.dropLast_eq_take, List.getElem?_take, if_pos]
  rw [rerandomized_length, hn]; omega

/-- The levels on the even curve agree, root on the even curve. -/
theorem even_levels_E {prm : SelRerand C}
    {c : (C false).Pt} {rs : Except Err (List (B (!false)))} {w : WPath B (Pts C) false} {leaf : (C false).Pt}
    (hal : ∀ x, (w.nodes false)[0]? = some x → rs = .ok x.siblings)
    (hw : w.Commits prm.tree L ⟨false, leaf⟩ c) {rnd : ∀ p, Nat → B (!p)}
    (hE : ∀ i, i + 1 < (w.nodes true).length → rnd false i ≠ 0) (_hO : ∀ i < (w.nodes false).length, rnd true i ≠ 0)
    {m : Nat} (hm : (w.nodes true).length = m + 1) {P : Path (C false).Pt (C true).Pt} (hP : P = proverPath prm w.nodes rnd)
    (k : Nat) (x : Wit B (Pts C) false) (par : (C false).Pt) (hx : (w.nodes false)[k]? = some x) (hpar : (c :: P.even)[k]? = some par) :
    LevelOk L prm rs rnd true (parentScalar rnd true false k)
      (P.odd[if (false : Bool) = true then k + 1 else k]?) k x par := by
  have hA := aligned_of_commits w _ hw
  have hlen := even_lengths hA
  have hk : k < (w.nodes false).length := (List.getElem?_eq_some_iff.1 hx).1
  obtain ⟨d, hd⟩ : ∃ d, (w.parents (c) false)[k]? = some d :=
    ⟨_, List.getElem?_eq_getElem (by rw [parents_length]; exact hk)⟩
  obtain ⟨c1, c2⟩ := parents_commit w _ hw false k x d hx hd
  refine ⟨?_, c1, ?_, ?_⟩
  · simp only [Bool.false_eq_true, if_false, hP, proverPath]
    rw [rerandomized_getElem?, hx]; rfl
  · intro h
    simp only [Bool.and_true, decide_eq_true_eq] at h
    subst h
    exact ⟨rfl, hal x hx⟩
  · intro h
    simp only [Bool.and_true, decide_eq_false_iff_not] at h
    obtain ⟨k, rfl⟩ : ∃ j, k = j + 1 := ⟨k - 1, by omega⟩
    have hps : parentScalar rnd true false (k + 1) = rnd false k := by simp [parentScalar]
    rw [hps]
    refine ⟨hE k (by omega), ?_⟩
    rw [List.getElem?_cons_succ, hP, even_getElem? prm w.nodes rnd hm (by omega), rerandomized_getElem?] at hpar
    obtain ⟨y, hy, rfl⟩ := Option.map_eq_some_iff.1 hpar
    have hy2 : y.child = d := by
      refine child_of_aligned (f := fun w : Wit B (Pts C) true => w.child) (l := w.nodes true)
        (m := (w.parents (c) false ++ [leaf]).tail) (i := k) ?_ hy ?_
      · rw [← hA.2]; rfl
      · rw [List.getElem?_tail, List.getElem?_append_left (by rw [parents_length]; exact hk), hd]
    exact congrArg (· + rnd false k • prm.h false) (hy2.trans c2)

/-- The levels on the odd curve agree, root on the even curve. -/
theorem even_levels_O {prm : SelRerand C}
    {c : (C false).Pt} {rs : Except Err (List (B (!true)))} {w : WPath B (Pts C) false} {leaf : (C false).Pt}
    (hw : w.Commits prm.tree L ⟨false, leaf⟩ c) {rnd : ∀ p, Nat → B (!p)}
    (_hE : ∀ i, i + 1 < (w.nodes true).length → rnd false i ≠ 0) (hO : ∀ i < (w.nodes false).length, rnd true i ≠ 0)
    {m : Nat} (hm : (w.nodes true).length = m + 1) {P : Path (C false).Pt (C true).Pt} (hP : P = proverPath prm w.nodes rnd)
    (k : Nat) (x : Wit B (Pts C) true) (par : (C true).Pt) (hx : (w.nodes true)[k]? = some x) (hpar : (P.odd)[k]? = some par) :
    LevelOk L prm rs rnd false (parentScalar rnd true true k)
      (if k < P.odd.length - 1 then (c :: P.even)[if (false : Bool) = true then k else k + 1]?
        else some P.selected) k x par := by
  have hA := aligned_of_commits w _ hw
  have hlen := even_lengths hA
  have hco : P.odd.length = m + 1 := by
    simp [hP, proverPath, rerandomized_length, hlen, hm]
  have hk : k < (w.nodes true).length := (List.getElem?_eq_some_iff.1 hx).1
  obtain ⟨d, hd⟩ : ∃ d, (w.parents (c) true)[k]? = some d :=
    ⟨_, List.getElem?_eq_getElem (by rw [parents_length]; exact hk)⟩
  obtain ⟨c1, c2⟩ := parents_commit w _ hw true k x d hx hd
  refine ⟨?_, c1, by simp, ?_⟩
  · simp only [Bool.false_eq_true, if_false, List.getElem?_cons_succ, hco, Nat.add_sub_cancel]
    have e : (rerandomized prm w.nodes rnd true)[k]? = some (x.child + rnd (!true) k • prm.h (!true)) := by
      rw [rerandomized_getElem?, hx]; rfl
    split
    · rw [hP, even_getElem? prm w.nodes rnd hm (by omega), e]
    · obtain rfl : k = m := by omega
      rw [← e, getLast_rerandomized prm w.nodes rnd hm, hP]
  · intro _
    have hps : parentScalar rnd true true k = rnd true k := by simp [parentScalar]
    rw [hps]
    refine ⟨hO k (by omega), ?_⟩
    rw [hP] at hpar
    simp only [proverPath] at hpar
    rw [rerandomized_getElem?] at hpar
    obtain ⟨y, hy, rfl⟩ := Option.map_eq_some_iff.1 hpar
    have hy2 : y.child = d := child_of_aligned hA.1 hy hd
    exact congrArg (· + rnd true k • prm.h true) (hy2.trans c2)

/-- The levels on the even curve agree, root on the odd curve. -/
theorem odd_levels_E {prm : SelRerand C}
    {c : (C true).Pt} {rs : Except Err (List (B (!false)))} {w : WPath B (Pts C) true} {leaf : (C false).Pt}
    (hw : w.Commits prm.tree L ⟨false, leaf⟩ c) {rnd : ∀ p, Nat → B (!p)}
    (hE : ∀ i, i + 1 < (w.nodes true).length → rnd false i ≠ 0) (_hO : ∀ i < (w.nodes false).length, rnd true i ≠ 0)
    {m : Nat} (hm : (w.nodes true).length = m + 1) {P : Path (C false).Pt (C true).Pt} (hP : P = proverPath prm w.nodes rnd)
    (k : Nat) (x : Wit B (Pts C) false) (par : (C false).Pt) (hx : (w.nodes false)[k]? = some x) (hpar : (P.even)[k]? = some par) :
    LevelOk L prm rs rnd false (parentScalar rnd false false k)
      ((c :: P.odd)[if (true : Bool) = true then k + 1 else k]?) k x par := by
  have hA := aligned_of_commits w _ hw
  have hlen := odd_lengths hA
  have hk : k < (w.nodes false).length := (List.getElem?_eq_some_iff.1 hx).1
  obtain ⟨d, hd⟩ : ∃ d, (w.parents (c) false)[k]? = some d :=
    ⟨_, List.getElem?_eq_getElem (by rw [parents_length]; exact hk)⟩
  obtain ⟨c1, c2⟩ := parents_commit w _ hw false k x d hx hd
  refine ⟨?_, c1, by simp, ?_⟩
  · simp only [if_true, List.getElem?_cons_succ, hP, proverPath]
    rw [rerandomized_getElem?, hx]; rfl
  · intro _
    have hps : parentScalar rnd false false k = rnd false k := by simp [parentScalar]
    rw [hps]
    refine ⟨hE k (by omega), ?_⟩
    rw [hP, even_getElem? prm w.nodes rnd hm (by omega), rerandomized_getElem?] at hpar
    obtain ⟨y, hy, rfl⟩ := Option.map_eq_some_iff.1 hpar
    have hy2 : y.child = d := by
      refine child_of_aligned hA.2 hy ?_
      rw [List.getElem?_append_left (by rw [parents_length]; exact hk), hd]
    exact congrArg (· + rnd false k • prm.h false) (hy2.trans c2)

/-- The levels on the odd curve agree, root on the odd curve. -/
theorem odd_levels_O {prm : SelRerand C}
    {c : (C true).Pt} {rs : Except Err (List (B (!true)))} {w : WPath B (Pts C) true} {leaf : (C false).Pt}
    (hal : ∀ x, (w.nodes true)[0]? = some x → rs = .ok x.siblings)
    (hw : w.Commits prm.tree L ⟨false, leaf⟩ c) {rnd : ∀ p, Nat → B (!p)}
    (_hE : ∀ i, i + 1 < (w.nodes true).length → rnd false i ≠ 0) (hO : ∀ i < (w.nodes false).length, rnd true i ≠ 0)
    {m : Nat} (hm : (w.nodes true).length = m + 1) {P : Path (C false).Pt (C true).Pt} (hP : P = proverPath prm w.nodes rnd)
    (k : Nat) (x : Wit B (Pts C) true) (par : (C true).Pt) (hx : (w.nodes true)[k]? = some x) (hpar : (c :: P.odd)[k]? = some par) :
    LevelOk L prm rs rnd true (parentScalar rnd false true k)
      (if k < (c :: P.odd).length - 1 then P.even[if (true : Bool) = true then k else k + 1]?
        else some P.selected) k x par := by
  have hA := aligned_of_commits w _ hw
  have hlen := odd_lengths hA
  have hco : P.odd.length = m := by
    simp [hP, proverPath, rerandomized_length]; omega
  have hk : k < (w.nodes true).length := (List.getElem?_eq_some_iff.1 hx).1
  obtain ⟨d, hd⟩ : ∃ d, (w.parents (c) true)[k]? = some d :=
    ⟨_, List.getElem?_eq_getElem (by rw [parents_length]; exact hk)⟩
  obtain ⟨c1, c2⟩ := parents_commit w _ hw true k x d hx hd
  refine ⟨?_, c1, ?_, ?_⟩
  · simp only [if_true, List.length_cons, hco, Nat.add_sub_cancel]
    have e : (rerandomized prm w.nodes rnd true)[k]? = some (x.child + rnd (!true) k • prm.h (!true)) := by
      rw [rerandomized_getElem?, hx]; rfl
    split
    · rw [hP, even_getElem? prm w.nodes rnd hm (by omega), e]
    · obtain rfl : k = m := by omega
      rw [← e, getLast_rerandomized prm w.nodes rnd hm, hP]
  · intro h
    simp only [Bool.and_true, decide_eq_true_eq] at h
    subst h
    exact ⟨rfl, hal x hx⟩
  · intro h
    simp only [Bool.and_true, decide_eq_false_iff_not] at h
    obtain ⟨k, rfl⟩ : ∃ j, k = j + 1 := ⟨k - 1, by omega⟩
    have hps : parentScalar rnd false true (k + 1) = rnd true k := by simp [parentScalar]
    rw [hps]
    refine ⟨hO k (by omega), ?_⟩
    rw [List.getElem?_cons_succ, hP] at hpar
    simp only [proverPath] at hpar
    rw [rerandomized_getElem?] at hpar
    obtain ⟨y, hy, rfl⟩ := Option.map_eq_some_iff.1 hpar
    have hy2 : y.child = d := by
      refine child_of_aligned (f := fun w : Wit B (Pts C) false => w.child) (l := w.nodes false)
        (m := (w.parents (c) true).tail) (i := k) ?_ hy ?_
      · rw [← hA.1]; rfl
      · rw [List.getElem?_tail, hd]
    exact congrArg (· + rnd true k • prm.h true) (hy2.trans c2)

/-- Root on the even curve. -/
theorem even_session_commits {oE : SideO C false} {oO : SideO C true} {fx : Bool} {prm : SelRerand C}
    {n : Node L M (Pts C) false} {w : WPath B (Pts C) false} {leaf : (C false).Pt}
    (hal : ∀ x, (w.nodes false)[0]? = some x → rootSiblings prm false (CurveTree.even n) = .ok x.siblings)
    (hw : w.Commits prm.tree L ⟨false, leaf⟩ (n.commitment 0)) (h0 : w.length ≠ 0) {rnd : ∀ p, Nat → B (!p)}
    (hE : ∀ i, i + 1 < (w.nodes true).length → rnd false i ≠ 0) (hO : ∀ i < (w.nodes false).length, rnd true i ≠ 0)
    {sE sE' : SideP C false} {sO sO' : SideP C true} {tE : SideV C false} {tO : SideV C true}
    (hsE : Session oE (prm.gens false) sE tE) (hsO : Session oO (prm.gens true) sO tO)
    {path : Path (C false).Pt (C true).Pt} {r : B (!false)}
    (hp : pathProverGadget oE oO fx prm rnd w.nodes sE sO = .ok ((path, r), sE', sO')) :
    ∃ tE' tO', treeVerifierGadget oE oO fx prm (CurveTree.even n) path tE tO = .ok (leaf + r • prm.h false, tE', tO') ∧
      Session oE (prm.gens false) sE' tE' ∧ Session oO (prm.gens true) sO' tO' := by
  have hA := aligned_of_commits w _ hw
  have hlen := even_lengths hA
  have hsum := nodes_length w
  obtain ⟨m, hm⟩ : ∃ m, (w.nodes true).length = m + 1 := ⟨(w.nodes true).length - 1, by omega⟩
  have hre : rootIsEven w.nodes = .ok true := by unfold rootIsEven; rw [if_pos hlen]
  unfold pathProverGadget at hp
  cases hpe : proverLoop oE fx prm w.nodes rnd 0 (w.nodes false) sE with
  | error e => simp [hpe] at hp
  | ok s1 =>
  cases hpo : proverLoop oO fx prm w.nodes rnd 0 (w.nodes true) sO with
  | error e => simp [hpe, hpo] at hp
  | ok s2 =>
  simp only [hpe, hpo, Except.ok.injEq, Prod.mk.injEq] at hp
  obtain ⟨⟨rfl, rfl⟩, rfl, rfl⟩ := hp
  have hce : (proverPath prm w.nodes rnd).even.length = m := by
    simp [proverPath, rerandomized_length, hm]
  have hco : (proverPath prm w.nodes rnd).odd.length = m + 1 := by
    simp [proverPath, rerandomized_length, hlen, hm]
  set P := proverPath prm w.nodes rnd with hP
  have hroot : addRoot (CurveTree.even n) P = .ok { P with even := n.commitment 0 :: P.even } := by
    unfold addRoot; simp only; rw [if_pos (by omega)]
  have hpar : pathRootIsOdd { P with even := n.commitment 0 :: P.even } = .ok false := by
    unfold pathRootIsOdd; simp only [List.length_cons]; rw [if_neg (by omega), if_pos (by omega)]
  -- even side
  have hside1 : ∃ t', verifierLoop oE fx prm (CurveTree.even n) true
      (fun i => P.odd[if (false : Bool) = true then i + 1 else i]?) 0 (n.commitment 0 :: P.even) tE = .ok t' ∧
      Session oE (prm.gens false) s1 t' := by
    refine side_session hre (w.nodes false) 0 _ (by simp [hce, hlen, hm]) ?_ hsE hpe
    intro k x par hx hpar
    rw [Nat.zero_add]
    exact even_levels_E hal hw hE hO hm hP k x par hx hpar
  have hside2 : ∃ t', verifierLoop oO fx prm (CurveTree.even n) false
      (fun i => if i < P.odd.length - 1 then (n.commitment 0 :: P.even)[if (false : Bool) = true then i else i + 1]?
        else some P.selected) 0 P.odd tO = .ok t' ∧ Session oO (prm.gens true) s2 t' := by
    refine side_session hre (w.nodes true) 0 _ (by omega) ?_ hsO hpo
    intro k x par hx hpar
    rw [Nat.zero_add]
    exact even_levels_O hw hE hO hm hP k x par hx hpar
  obtain ⟨tE', g1, g2⟩ := hside1
  obtain ⟨tO', g3, g4⟩ := hside2
  refine ⟨tE', tO', ?_, g2, g4⟩
  have hsel : P.selected = leaf + (if w.nodes true = [] then 0 else rnd false ((w.nodes true).length - 1)) • prm.h false := by
    have e := getLast_rerandomized prm w.nodes rnd hm
    rw [rerandomized_getElem?] at e
    obtain ⟨y, hy, hs⟩ := Option.map_eq_some_iff.1 e
    have hy2 : y.child = leaf := by
      refine child_of_aligned (f := fun w : Wit B (Pts C) true => w.child) (l := w.nodes true)
          (m := (w.parents (n.commitment 0) false ++ [leaf]).tail) (i := m) ?_ hy ?_
      · rw [← hA.2]; rfl
      · rw [List.getElem?_tail, List.getElem?_append_right (by rw [parents_length]; omega), parents_length]
        rw [show m + 1 - (w.nodes false).length = 0 by omega]; rfl
    rw [if_neg (by intro h; rw [h] at hm; simp at hm), hm, Nat.add_sub_cancel, ← hy2]
    exact hs.symm
  unfold treeVerifierGadget
  simp only [hroot, evenVerifierGadget, oddVerifierGadget, hpar, Bool.not_false]
  rw [g1]
  simp only
  rw [g3]
  simp only
  rw [hsel]

/-- Root on the even curve, for a path with every child among its siblings. -/
theorem even_session {oE : SideO C false} {oO : SideO C true} {fx : Bool} {prm : SelRerand C}
    {n : Node L M (Pts C) false} {w : WPath B (Pts C) false} {leaf : (C false).Pt}
    (hal : ∀ x, (w.nodes false)[0]? = some x → rootSiblings prm false (CurveTree.even n) = .ok x.siblings)
    (hw : w.From prm.tree L 0 ⟨false, leaf⟩ (n.commitment 0)) (h0 : w.length ≠ 0) {rnd : ∀ p, Nat → B (!p)}
    (hE : ∀ i, i + 1 < (w.nodes true).length → rnd false i ≠ 0) (hO : ∀ i < (w.nodes false).length, rnd true i ≠ 0)
    {sE sE' : SideP C false} {sO sO' : SideP C true} {tE : SideV C false} {tO : SideV C true}
    (hsE : Session oE (prm.gens false) sE tE) (hsO : Session oO (prm.gens true) sO tO)
    {path : Path (C false).Pt (C true).Pt} {r : B (!false)}
    (hp : pathProverGadget oE oO fx prm rnd w.nodes sE sO = .ok ((path, r), sE', sO')) :
    ∃ tE' tO', treeVerifierGadget oE oO fx prm (CurveTree.even n) path tE tO = .ok (leaf + r • prm.h false, tE', tO') ∧
      Session oE (prm.gens false) sE' tE' ∧ Session oO (prm.gens true) sO' tO' :=
  even_session_commits hal hw.commits h0 hE hO hsE hsO hp

/-- Root on the odd curve. -/
theorem odd_session_commits {oE : SideO C false} {oO : SideO C true} {fx : Bool} {prm : SelRerand C}
    {n : Node L M (Pts C) true} {w : WPath B (Pts C) true} {leaf : (C false).Pt}
    (hal : ∀ x, (w.nodes true)[0]? = some x → rootSiblings prm true (CurveTree.odd n) = .ok x.siblings)
    (hw : w.Commits prm.tree L ⟨false, leaf⟩ (n.commitment 0)) {rnd : ∀ p, Nat → B (!p)}
    (hE : ∀ i, i + 1 < (w.nodes true).length → rnd false i ≠ 0) (hO : ∀ i < (w.nodes false).length, rnd true i ≠ 0)
    {sE sE' : SideP C false} {sO sO' : SideP C true} {tE : SideV C false} {tO : SideV C true}
    (hsE : Session oE (prm.gens false) sE tE) (hsO : Session oO (prm.gens true) sO tO)
    {path : Path (C false).Pt (C true).Pt} {r : B (!false)}
    (hp : pathProverGadget oE oO fx prm rnd w.nodes sE sO = .ok ((path, r), sE', sO')) :
    ∃ tE' tO', treeVerifierGadget oE oO fx prm (CurveTree.odd n) path tE tO = .ok (leaf + r • prm.h false, tE', tO') ∧
      Session oE (prm.gens false) sE' tE' ∧ Session oO (prm.gens true) sO' tO' := by
  have hA := aligned_of_commits w _ hw
  have hlen := odd_lengths hA
  obtain ⟨m, hm⟩ : ∃ m, (w.nodes true).length = m + 1 := ⟨(w.nodes true).length - 1, by omega⟩
  have hre : rootIsEven w.nodes = .ok false := by unfold rootIsEven; rw [if_neg (by omega), if_pos hlen]
  unfold pathProverGadget at hp
  cases hpe : proverLoop oE fx prm w.nodes rnd 0 (w.nodes false) sE with
  | error e => simp [hpe] at hp
  | ok s1 =>
  cases hpo : proverLoop oO fx prm w.nodes rnd 0 (w.nodes true) sO with
  | error e => simp [hpe, hpo] at hp
  | ok s2 =>
  simp only [hpe, hpo, Except.ok.injEq, Prod.mk.injEq] at hp
  obtain ⟨⟨rfl, rfl⟩, rfl, rfl⟩ := hp
  have hce : (proverPath prm w.nodes rnd).even.length = m := by
    simp [proverPath, rerandomized_length, hm]
  have hco : (proverPath prm w.nodes rnd).odd.length = m := by
    simp [proverPath, rerandomized_length]; omega
  set P := proverPath prm w.nodes rnd with hP
  have hroot : addRoot (CurveTree.odd n) P = .ok { P with odd := n.commitment 0 :: P.odd } := by
    unfold addRoot; simp only; rw [if_pos (by omega)]
  have hpar : pathRootIsOdd { P with odd := n.commitment 0 :: P.odd } = .ok true := by
    unfold pathRootIsOdd; simp only [List.length_cons]; rw [if_pos (by omega)]
  have hside1 : ∃ t', verifierLoop oE fx prm (CurveTree.odd n) false
      (fun i => (n.commitment 0 :: P.odd)[if (true : Bool) = true then i + 1 else i]?) 0 P.even tE = .ok t' ∧
      Session oE (prm.gens false) s1 t' := by
    refine side_session hre (w.nodes false) 0 _ (by omega) ?_ hsE hpe
    intro k x par hx hpar
    rw [Nat.zero_add]
    exact odd_levels_E hw hE hO hm hP k x par hx hpar
  have hside2 : ∃ t', verifierLoop oO fx prm (CurveTree.odd n) true
      (fun i => if i < (n.commitment 0 :: P.odd).length - 1 then P.even[if (true : Bool) = true then i else i + 1]?
        else some P.selected) 0 (n.commitment 0 :: P.odd) tO = .ok t' ∧ Session oO (prm.gens true) s2 t' := by
    refine side_session hre (w.nodes true) 0 _ (by simp; omega) ?_ hsO hpo
    intro k x par hx hpar
    rw [Nat.zero_add]
    exact odd_levels_O hal hw hE hO hm hP k x par hx hpar
  obtain ⟨tE', g1, g2⟩ := hside1
  obtain ⟨tO', g3, g4⟩ := hside2
  refine ⟨tE', tO', ?_, g2, g4⟩
  have hsel : P.selected = leaf + (if w.nodes true = [] then 0 else rnd false ((w.nodes true).length - 1)) • prm.h false := by
    have e := getLast_rerandomized prm w.nodes rnd hm
    rw [rerandomized_getElem?] at e
    obtain ⟨y, hy, hs⟩ := Option.map_eq_some_iff.1 e
    have hy2 : y.child = leaf := by
      refine child_of_aligned hA.2 hy ?_
      rw [List.getElem?_append_right (by rw [parents_length]; omega), parents_length]
      rw [show m - (w.nodes false).length = 0 by omega]; rfl
    rw [if_neg (by intro h; rw [h] at hm; simp at hm), hm, Nat.add_sub_cancel, ← hy2]
    exact hs.symm
  unfold treeVerifierGadget
  simp only [if_true] at g1 g3
  simp only [hroot, evenVerifierGadget, oddVerifierGadget, hpar, Bool.not_true, if_true]
  rw [g1]
  simp only
  rw [g3]
  simp only
  rw [hsel]

/-- Root on the odd curve, for a path with every child among its siblings. -/
theorem odd_session {oE : SideO C false} {oO : SideO C true} {fx : Bool} {prm : SelRerand C}
    {n : Node L M (Pts C) true} {w : WPath B (Pts C) true} {leaf : (C false).Pt}
    (hal : ∀ x, (w.nodes true)[0]? = some x → rootSiblings prm true (CurveTree.odd n) = .ok x.siblings)
    (hw : w.From prm.tree L 0 ⟨false, leaf⟩ (n.commitment 0)) {rnd : ∀ p, Nat → B (!p)}
    (hE : ∀ i, i + 1 < (w.nodes true).length → rnd false i ≠ 0) (hO : ∀ i < (w.nodes false).length, rnd true i ≠ 0)
    {sE sE' : SideP C false} {sO sO' : SideP C true} {tE : SideV C false} {tO : SideV C true}
    (hsE : Session oE (prm.gens false) sE tE) (hsO : Session oO (prm.gens true) sO tO)
    {path : Path (C false).Pt (C true).Pt} {r : B (!false)}
    (hp : pathProverGadget oE oO fx prm rnd w.nodes sE sO = .ok ((path, r), sE', sO')) :
    ∃ tE' tO', treeVerifierGadget oE oO fx prm (CurveTree.odd n) path tE tO = .ok (leaf + r • prm.h false, tE', tO') ∧
      Session oE (prm.gens false) sE' tE' ∧ Session oO (prm.gens true) sO' tO' :=
  odd_session_commits hal hw.commits hE hO hsE hsO hp

end CT
