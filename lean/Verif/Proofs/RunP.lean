import Verif.Proofs.Run

/-! Helper lemmas about the Prover: invariant, extension order, completeness triples. -/

namespace CT
open Assignment

set_option linter.unusedSectionVars false
set_option linter.unusedVariables false

variable {F G X α β γ : Type} [Field F]

namespace PState

theorem Good.satisfied {s : PState F G X} (h : s.Good) : s.Satisfied := ⟨h.toInv.gates, h.sat⟩

theorem Ext.refl (s : PState F G X) : s.Ext s :=
  ⟨fun _ h => ⟨h, rfl⟩, rfl, rfl, rfl, rfl, le_refl _, [], by simp⟩

theorem Ext.trans {a b c : PState F G X} (h1 : a.Ext b) (h2 : b.Ext c) : a.Ext c := by
  refine ⟨fun v hv => ?_, h2.v.trans h1.v, h2.vBlinding.trans h1.vBlinding,
    h2.vecOpen.trans h1.vecOpen, h2.deferred.trans h1.deferred, le_trans h1.len h2.len, ?_⟩
  · obtain ⟨x, y⟩ := h1.ext v hv
    obtain ⟨x', y'⟩ := h2.ext v x
    exact ⟨x', y'.trans y⟩
  · obtain ⟨l1, e1⟩ := h1.cs; obtain ⟨l2, e2⟩ := h2.cs
    exact ⟨l1 ++ l2, by rw [e2, e1, List.append_assoc]⟩

theorem Ext.hasLC {s s' : PState F G X} (h : s.Ext s') {lc : LC F} (hl : s.HasLC lc) :
    s'.HasLC lc := fun t ht => (h.ext _ (hl t ht)).1

theorem Ext.eval {s s' : PState F G X} (h : s.Ext s') {lc : LC F} (hl : s.HasLC lc) :
    s'.assignment.eval lc = s.assignment.eval lc := by
  unfold Assignment.eval
  congr 1
  apply List.map_congr_left
  intro t ht
  rw [(h.ext _ (hl t ht)).2]

section HasLC
variable {s : PState F G X}

theorem hasLC_add {a b : LC F} (ha : s.HasLC a) (hb : s.HasLC b) : s.HasLC (a + b) := by
  intro t ht
  have : t ∈ a.terms ++ b.terms := ht
  rcases List.mem_append.1 this with h | h
  · exact ha t h
  · exact hb t h

theorem hasLC_neg {a : LC F} (ha : s.HasLC a) : s.HasLC (-a) := by
  intro t ht
  have : t ∈ a.terms.map fun t => (t.1, -t.2) := ht
  obtain ⟨u, hu, rfl⟩ := List.mem_map.1 this
  exact ha u hu

theorem hasLC_sub {a b : LC F} (ha : s.HasLC a) (hb : s.HasLC b) : s.HasLC (a - b) := by
  intro t ht
  have : t ∈ a.terms ++ b.terms.map fun t => (t.1, -t.2) := ht
  rcases List.mem_append.1 this with h | h
  · exact ha t h
  · obtain ⟨u, hu, rfl⟩ := List.mem_map.1 h
    exact hb u hu

theorem hasLC_smul {a : LC F} {c : F} (ha : s.HasLC a) : s.HasLC (a.smul c) := by
  intro t ht
  obtain ⟨u, hu, rfl⟩ := List.mem_map.1 ht
  exact ha u hu

theorem hasLC_ofVar {v : Variable} (h : s.Has v) : s.HasLC (LC.ofVar v) := by
  intro t ht
  simp only [LC.ofVar, List.mem_singleton] at ht
  subst ht; exact h

theorem hasLC_const {c : F} : s.HasLC (LC.const c) := by
  intro t ht
  simp only [LC.const, List.mem_singleton] at ht
  subst ht; trivial

theorem hasLC_empty : s.HasLC (LC.empty) := by
  intro t ht
  simp [LC.empty] at ht

end HasLC

theorem val?_eq {s : PState F G X} (hi : s.Inv) {v : Variable} (h : s.Has v) :
    s.val? v = some (s.assignment.val v) := by
  cases v with
  | vectorCommit j i =>
    obtain ⟨o, ho, hi'⟩ := h
    simp [val?, ho, Assignment.val, assignment, List.getD, hi']
  | committed i =>
    have : i < s.v.length := h
    simp [val?, Assignment.val, assignment, List.getD, this]
  | multiplierLeft i =>
    have : i < s.aL.length := h
    simp [val?, Assignment.val, assignment, List.getD, this]
  | multiplierRight i =>
    have : i < s.aR.length := h.1
    simp [val?, Assignment.val, assignment, List.getD, this]
  | multiplierOutput i =>
    have : i < s.aO.length := h.1
    simp [val?, Assignment.val, assignment, List.getD, this]
  | one => rfl

theorem eval?_eq {s : PState F G X} (hi : s.Inv) {lc : LC F} (h : s.HasLC lc) :
    s.eval? lc = some (s.assignment.eval lc) := by
  obtain ⟨l⟩ := lc
  unfold eval?
  induction l with
  | nil => simp [evalTerms?]
  | cons t l ih =>
    have ht := val?_eq hi (h t (by simp))
    have hl := ih (fun u hu => h u (by simp at hu ⊢; exact .inr hu))
    simp only [evalTerms?, ht, hl, eval_mk_cons]
    rfl

end PState

section RunP
variable (o : Oracle F G X)

theorem runP_bind' (p : Prog F G X α) (f : α → Prog F G X β) (s : PState F G X) :
    runP o (p.bind f) s = match runP o p s with
      | .ok (a, s') => runP o (f a) s'
      | .error e => .error e := by
  induction p generalizing s with
  | pure a => rfl
  | fail e => rfl
  | multiply l r k ih =>
    simp only [Prog.bind, runP]
    cases s.multiply l r with
    | error e => rfl
    | ok v => exact ih _ _
  | allocate a k ih =>
    simp only [Prog.bind, runP]
    cases s.allocate a with
    | error e => rfl
    | ok v => exact ih _ _
  | allocateMultiplier a k ih =>
    simp only [Prog.bind, runP]
    cases s.allocateMultiplier a with
    | error e => rfl
    | ok v => exact ih _ _
  | constrain lc k ih => simp only [Prog.bind, runP]; exact ih _
  | append m k ih => simp only [Prog.bind, runP]; exact ih _
  | challenge l k ih => simp only [Prog.bind, runP]; exact ih _ _

theorem runP_bind (p : Prog F G X α) (f : α → Prog F G X β) (s : PState F G X) :
    runP o (p >>= f) s = match runP o p s with
      | .ok (a, s') => runP o (f a) s'
      | .error e => .error e := runP_bind' o p f s

theorem runP_bind_ok {p : Prog F G X α} {f : α → Prog F G X β} {s s' : PState F G X} {b : β} :
    runP o (p >>= f) s = .ok (b, s') ↔
      ∃ a s1, runP o p s = .ok (a, s1) ∧ runP o (f a) s1 = .ok (b, s') := by
  rw [runP_bind]
  cases h : runP o p s with
  | error e => simp
  | ok r => obtain ⟨a, s1⟩ := r; simp

/-- The program succeeds for the Prover, leaves a good state and establishes `Q`. -/
def Complete (p : Prog F G X α) (s : PState F G X) (Q : α → PState F G X → Prop) : Prop :=
  ∃ a s', runP o p s = .ok (a, s') ∧ s'.Good ∧ s.Ext s' ∧ Q a s'

variable {o}

theorem Complete.bind {p : Prog F G X α} {f : α → Prog F G X β} {s : PState F G X}
    {Q : α → PState F G X → Prop} {R : β → PState F G X → Prop} (h : Complete o p s Q)
    (hf : ∀ a s', s'.Good → s.Ext s' → Q a s' → Complete o (f a) s' R) :
    Complete o (p >>= f) s R := by
  obtain ⟨a, s1, h1, h2, h3, h4⟩ := h
  obtain ⟨b, s2, g1, g2, g3, g4⟩ := hf a s1 h2 h3 h4
  exact ⟨b, s2, by rw [runP_bind, h1]; exact g1, g2, h3.trans g3, g4⟩

theorem Complete.pure {a : α} {s : PState F G X} {Q : α → PState F G X → Prop} (hs : s.Good)
    (h : Q a s) : Complete o (Pure.pure a) s Q :=
  ⟨a, s, rfl, hs, .refl s, h⟩

theorem Complete.mono {p : Prog F G X α} {s : PState F G X}
    {Q R : α → PState F G X → Prop} (h : Complete o p s Q)
    (hQ : ∀ a s', s'.Good → s.Ext s' → Q a s' → R a s') : Complete o p s R := by
  obtain ⟨a, s1, h1, h2, h3, h4⟩ := h
  exact ⟨a, s1, h1, h2, h3, hQ a s1 h2 h3 h4⟩

/-- A state with one more (consistent) multiplier and more constraints. -/
def PState.push (s : PState F G X) (l r : F) (t : Transcript F G X) (cs : List (LC F)) :
    PState F G X :=
  { s with transcript := t, aL := s.aL ++ [l], aR := s.aR ++ [r], aO := s.aO ++ [l * r],
           constraints := s.constraints ++ cs }

/-- Pushing a consistent multiplier extends the state. -/
theorem push_ext {s : PState F G X} (hs : s.Inv) (l r : F) (t : Transcript F G X)
    (cs : List (LC F)) :
    s.Ext (s.push l r t cs) := by
  refine ⟨fun v hv => ?_, rfl, rfl, rfl, rfl, by simp [PState.push], cs, rfl⟩
  cases v with
  | vectorCommit j i => exact ⟨hv, rfl⟩
  | committed i => exact ⟨hv, rfl⟩
  | one => exact ⟨trivial, rfl⟩
  | multiplierLeft i =>
    have h : i < s.aL.length := hv
    refine ⟨?_, ?_⟩
    · simp only [PState.Has, PState.push, List.length_append]; omega
    · simp [Assignment.val, PState.push, PState.assignment, List.getD, List.getElem?_append_left h]
  | multiplierRight i =>
    have h : i < s.aR.length := hv.1
    refine ⟨⟨?_, hv.2⟩, ?_⟩
    · simp only [PState.push, List.length_append]; omega
    · simp [Assignment.val, PState.push, PState.assignment, List.getD, List.getElem?_append_left h]
  | multiplierOutput i =>
    have h : i < s.aO.length := hv.1
    refine ⟨⟨?_, hv.2⟩, ?_⟩
    · simp only [PState.push, List.length_append]; omega
    · simp [Assignment.val, PState.push, PState.assignment, List.getD, List.getElem?_append_left h]

theorem push_inv {s : PState F G X} (hs : s.Inv) (l r : F) (t : Transcript F G X)
    (cs : List (LC F)) :
    (s.push l r t cs).Inv := by
  obtain ⟨h1, h2, h3, h4⟩ := hs
  refine ⟨by simp [PState.push, h1], by simp [PState.push, h2], ?_, ?_⟩
  · intro i hi
    simp only [PState.push, List.length_append, List.length_singleton] at hi
    by_cases h : i < s.aL.length
    · have := h3 i h
      simp only [PState.assignment, PState.push, List.getD] at this ⊢
      rw [List.getElem?_append_left h, List.getElem?_append_left (by omega),
        List.getElem?_append_left (by omega)]
      exact this
    · have : i = s.aL.length := by omega
      subst this
      simp only [PState.assignment, PState.push, List.getD]
      rw [List.getElem?_append_right (le_refl _), List.getElem?_append_right (by omega),
        List.getElem?_append_right (by omega)]
      simp [h1, h2]
  · intro i hi
    have := h4 i hi
    simp only [PState.push, List.length_append]; omega

theorem push_good {s : PState F G X} (hs : s.Good) (l r : F) (t : Transcript F G X)
    (cs : List (LC F))
    (hcs : ∀ c ∈ cs, (s.push l r t cs).HasLC c ∧ (s.push l r t cs).assignment.eval c = 0) :
    (s.push l r t cs).Good := by
  have he := push_ext hs.toInv l r t cs
  refine ⟨push_inv hs.toInv l r t _, ?_, ?_⟩
  · intro c hc
    rcases List.mem_append.1 hc with h | h
    · exact he.hasLC (hs.hasC c h)
    · exact (hcs c h).1
  · intro c hc
    rcases List.mem_append.1 hc with h | h
    · rw [he.eval (hs.hasC c h)]; exact hs.sat c h
    · exact (hcs c h).2

/-- New multiplier variables and their values. -/
theorem push_vars {s : PState F G X} (hs : s.Inv) (l r : F) (t : Transcript F G X)
    (cs : List (LC F)) :
    let s' := s.push l r t cs
    (s'.Has (.multiplierLeft s.aL.length) ∧ s'.assignment.val (.multiplierLeft s.aL.length) = l) ∧
    (s'.Has (.multiplierRight s.aR.length) ∧
      s'.assignment.val (.multiplierRight s.aR.length) = r) ∧
    (s'.Has (.multiplierOutput s.aO.length) ∧
      s'.assignment.val (.multiplierOutput s.aO.length) = l * r) := by
  obtain ⟨h1, h2, h3, h4⟩ := hs
  refine ⟨⟨?_, ?_⟩, ⟨⟨?_, ?_⟩, ?_⟩, ⟨⟨?_, ?_⟩, ?_⟩⟩
  · simp [PState.Has, PState.push]
  · simp [Assignment.val, PState.push, PState.assignment]
  · simp [PState.push]
  · intro h; have := h4 _ h; omega
  · simp [Assignment.val, PState.push, PState.assignment]
  · simp [PState.push]
  · intro h; have := h4 _ h; omega
  · simp [Assignment.val, PState.push, PState.assignment]

theorem complete_multiply {s : PState F G X} (hs : s.Good) {l r : LC F} (hl : s.HasLC l)
    (hr : s.HasLC r) :
    Complete o (multiply l r) s fun v s' =>
      s'.Has v.1 ∧ s'.Has v.2.1 ∧ s'.Has v.2.2 ∧
      s'.assignment.val v.1 = s.assignment.eval l ∧
      s'.assignment.val v.2.1 = s.assignment.eval r ∧
      s'.assignment.val v.2.2 = s.assignment.eval l * s.assignment.eval r := by
  have el := PState.eval?_eq hs.toInv hl
  have er := PState.eval?_eq hs.toInv hr
  let lv := s.assignment.eval l
  let rv := s.assignment.eval r
  let cs : List (LC F) := [⟨l.terms ++ [(.multiplierLeft s.aL.length, -1)]⟩,
    ⟨r.terms ++ [(.multiplierRight s.aR.length, -1)]⟩]
  have he := push_ext hs.toInv lv rv s.transcript cs
  have hv := push_vars hs.toInv lv rv s.transcript cs
  have hg := push_good hs lv rv s.transcript cs (by
    intro c hc
    simp only [cs, List.mem_cons, List.not_mem_nil, or_false] at hc
    rcases hc with rfl | rfl
    · refine ⟨?_, ?_⟩
      · intro t ht
        rcases List.mem_append.1 ht with h | h
        · exact he.hasLC hl t h
        · rw [List.mem_singleton] at h; subst h; exact hv.1.1
      · rw [eval_mk_append, he.eval hl]
        simp only [eval_mk_cons, eval_nil]
        rw [hv.1.2]; simp only [lv]; ring
    · refine ⟨?_, ?_⟩
      · intro t ht
        rcases List.mem_append.1 ht with h | h
        · exact he.hasLC hr t h
        · rw [List.mem_singleton] at h; subst h; exact hv.2.1.1
      · rw [eval_mk_append, he.eval hr]
        simp only [eval_mk_cons, eval_nil]
        rw [hv.2.1.2]; simp only [rv]; ring)
  refine ⟨(.multiplierLeft s.aL.length, .multiplierRight s.aR.length,
    .multiplierOutput s.aO.length), _, ?_, hg, he, hv.1.1, hv.2.1.1, hv.2.2.1, hv.1.2, hv.2.1.2,
    hv.2.2.2⟩
  simp [multiply, runP, PState.multiply, PState.push, el, er, PState.constrain, cs, lv, rv]

theorem complete_allocateMultiplier {s : PState F G X} (hs : s.Good) (a b : F) :
    Complete o (allocateMultiplier (some (a, b))) s fun v s' =>
      s'.Has v.1 ∧ s'.Has v.2.1 ∧ s'.Has v.2.2 ∧
      s'.assignment.val v.1 = a ∧ s'.assignment.val v.2.1 = b ∧
      s'.assignment.val v.2.2 = a * b := by
  have he := push_ext hs.toInv a b s.transcript []
  have hg := push_good hs a b s.transcript [] (by simp)
  have hv := push_vars hs.toInv a b s.transcript []
  refine ⟨(.multiplierLeft s.aL.length, .multiplierRight s.aR.length,
    .multiplierOutput s.aO.length), _, ?_, hg, he, hv.1.1, hv.2.1.1, hv.2.2.1, hv.1.2, hv.2.1.2,
    hv.2.2.2⟩
  simp [allocateMultiplier, runP, PState.allocateMultiplier, PState.push]

theorem complete_constrain {s : PState F G X} (hs : s.Good) {lc : LC F} (hl : s.HasLC lc)
    (h0 : s.assignment.eval lc = 0) :
    Complete o (constrain lc) s fun _ _ => True := by
  refine ⟨(), s.constrain lc, rfl, ⟨⟨hs.toInv.lenR, hs.toInv.lenO, hs.toInv.gates, hs.toInv.pend⟩, ?_, ?_⟩,
    ⟨fun v hv => ⟨by cases v <;> exact hv, by cases v <;> rfl⟩, rfl, rfl, rfl, rfl, le_refl _, [lc], rfl⟩, trivial⟩
  · intro c hc
    rcases List.mem_append.1 hc with h | h
    · exact hs.hasC c h
    · rw [List.mem_singleton] at h; subst h; exact hl
  · intro c hc
    rcases List.mem_append.1 hc with h | h
    · exact hs.sat c h
    · rw [List.mem_singleton] at h; subst h; exact h0

theorem complete_append {s : PState F G X} (hs : s.Good) (m : Msg F G X) :
    Complete o (appendMsg m) s fun _ _ => True := by
  refine ⟨(), _, rfl, ⟨⟨hs.toInv.lenR, hs.toInv.lenO, hs.toInv.gates, hs.toInv.pend⟩, hs.hasC, hs.sat⟩, ⟨fun v hv => ⟨by cases v <;> exact hv, by cases v <;> rfl⟩, rfl, rfl, rfl, rfl, le_refl _, [], by simp⟩, trivial⟩

/-- The state after `allocate` with no half-open multiplier. -/
theorem alloc_left_good {s : PState F G X} (hs : s.Good) (hp : s.pending = none) (x : F) :
    let s' : PState F G X := { s with
      pending := some s.aL.length, aL := s.aL ++ [x], aR := s.aR ++ [0], aO := s.aO ++ [0] }
    s'.Good ∧ s.Ext s' ∧ s'.Has (.multiplierLeft s.aL.length) ∧
      s'.assignment.val (.multiplierLeft s.aL.length) = x := by
  intro s'
  obtain ⟨h1, h2, h3, h4⟩ := hs.toInv
  have he : s.Ext s' := by
    refine ⟨fun v hv => ?_, rfl, rfl, rfl, rfl, by simp [s'], [], by simp [s']⟩
    cases v with
    | vectorCommit j i => exact ⟨hv, rfl⟩
    | committed i => exact ⟨hv, rfl⟩
    | one => exact ⟨trivial, rfl⟩
    | multiplierLeft i =>
      have h : i < s.aL.length := hv
      refine ⟨?_, ?_⟩
      · simp only [PState.Has, s', List.length_append]; omega
      · simp [Assignment.val, s', PState.assignment, List.getD, List.getElem?_append_left h]
    | multiplierRight i =>
      have h : i < s.aR.length := hv.1
      refine ⟨⟨?_, ?_⟩, ?_⟩
      · simp only [s', List.length_append]; omega
      · simp only [s', ne_eq, Option.some.injEq]; omega
      · simp [Assignment.val, s', PState.assignment, List.getD, List.getElem?_append_left h]
    | multiplierOutput i =>
      have h : i < s.aO.length := hv.1
      refine ⟨⟨?_, ?_⟩, ?_⟩
      · simp only [s', List.length_append]; omega
      · simp only [s', ne_eq, Option.some.injEq]; omega
      · simp [Assignment.val, s', PState.assignment, List.getD, List.getElem?_append_left h]
  refine ⟨⟨⟨by simp [s', h1], by simp [s', h2], ?_, ?_⟩, ?_, ?_⟩, he, ?_, ?_⟩
  · intro i hi
    simp only [s', List.length_append, List.length_singleton] at hi
    by_cases h : i < s.aL.length
    · have := h3 i h
      simp only [PState.assignment, s', List.getD] at this ⊢
      rw [List.getElem?_append_left h, List.getElem?_append_left (by omega),
        List.getElem?_append_left (by omega)]
      exact this
    · have : i = s.aL.length := by omega
      subst this
      simp only [PState.assignment, s', List.getD]
      rw [List.getElem?_append_right (le_refl _), List.getElem?_append_right (by omega),
        List.getElem?_append_right (by omega)]
      simp [h1, h2]
  · intro i hi
    simp only [s', Option.some.injEq] at hi
    simp only [s', List.length_append, List.length_singleton]; omega
  · intro c hc; exact he.hasLC (hs.hasC c hc)
  · intro c hc; rw [he.eval (hs.hasC c hc)]; exact hs.sat c hc
  · simp [PState.Has, s']
  · simp [Assignment.val, s', PState.assignment]

/-- The state after `allocate` filling the half-open multiplier `i`. -/
theorem alloc_right_good {s : PState F G X} (hs : s.Good) {i : Nat} (hp : s.pending = some i)
    {l : F} (hl : s.aL[i]? = some l) (x : F) :
    let s' : PState F G X := { s with
      pending := none, aR := s.aR.set i x, aO := s.aO.set i (l * x) }
    s'.Good ∧ s.Ext s' ∧ s'.Has (.multiplierRight i) ∧
      s'.assignment.val (.multiplierRight i) = x := by
  intro s'
  obtain ⟨h1, h2, h3, h4⟩ := hs.toInv
  have hi := h4 i hp
  have he : s.Ext s' := by
    refine ⟨fun v hv => ?_, rfl, rfl, rfl, rfl, by simp [s'], [], by simp [s']⟩
    cases v with
    | vectorCommit j i => exact ⟨hv, rfl⟩
    | committed i => exact ⟨hv, rfl⟩
    | one => exact ⟨trivial, rfl⟩
    | multiplierLeft i => exact ⟨hv, rfl⟩
    | multiplierRight k =>
      obtain ⟨hk, hne⟩ := hv
      have hik : i ≠ k := by rintro rfl; exact hne hp
      refine ⟨⟨by simpa [s'] using hk, by simp [s']⟩, ?_⟩
      simp [Assignment.val, s', PState.assignment, List.getD, List.getElem?_set_ne hik]
    | multiplierOutput k =>
      obtain ⟨hk, hne⟩ := hv
      have hik : i ≠ k := by rintro rfl; exact hne hp
      refine ⟨⟨by simpa [s'] using hk, by simp [s']⟩, ?_⟩
      simp [Assignment.val, s', PState.assignment, List.getD, List.getElem?_set_ne hik]
  refine ⟨⟨⟨by simp [s', h1], by simp [s', h2], ?_, by simp [s']⟩, ?_, ?_⟩, he, ?_, ?_⟩
  · intro k hk
    have hk' : k < s.aL.length := hk
    by_cases h : i = k
    · subst h
      simp only [PState.assignment, s', List.getD, hl]
      rw [List.getElem?_set_self (by omega), List.getElem?_set_self (by omega)]
      simp
    · have := h3 k hk'
      simp only [PState.assignment, s', List.getD] at this ⊢
      rw [List.getElem?_set_ne h, List.getElem?_set_ne h]
      exact this
  · intro c hc; exact he.hasLC (hs.hasC c hc)
  · intro c hc; rw [he.eval (hs.hasC c hc)]; exact hs.sat c hc
  · exact ⟨by simp [s']; omega, by simp [s']⟩
  · simp only [Assignment.val, s', PState.assignment, List.getD]
    rw [List.getElem?_set_self (by omega)]; rfl

theorem complete_allocate {s : PState F G X} (hs : s.Good) (x : F) :
    Complete o (allocate (some x)) s fun v s' => s'.Has v ∧ s'.assignment.val v = x := by
  cases hp : s.pending with
  | none =>
    obtain ⟨a, b, c, d⟩ := alloc_left_good hs hp x
    exact ⟨_, _, by simp [allocate, runP, PState.allocate, hp], a, b, c, d⟩
  | some i =>
    have hi := hs.toInv.pend i hp
    obtain ⟨a, b, c, d⟩ := alloc_right_good hs hp (List.getElem?_eq_getElem hi) x
    exact ⟨_, _, by simp [allocate, runP, PState.allocate, hp, hi], a, b, c, d⟩

theorem complete_orPanic {a : α} {p : Option α} {s : PState F G X} (hs : s.Good)
    {Q : α → PState F G X → Prop} (h : p = some a) (hq : Q a s) {m : String} :
    Complete o (match p with | some a => .pure a | none => panic m) s Q := by
  subst h; exact .pure hs hq

end RunP
end CT
