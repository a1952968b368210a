import Verif.Proofs.Schedule
import Verif.Proofs.Complete

/-!
Zeros at the end of committed vectors change nothing: a Prover whose committed vectors are extended by zeros makes the same proof, as long as the
vectors are not longer than the number of multipliers.
-/

namespace CT
variable {F G X : Type} [Field F]

/-- Extends a vector by zeros to (at least) the given length. -/
def padTo (d : Nat) (v : List F) : List F := v ++ List.replicate (d - v.length) 0

theorem padTo_length (d : Nat) (v : List F) : (padTo d v).length = max d v.length := by
  simp [padTo]; omega

theorem padTo_getD (d : Nat) (v : List F) (i : Nat) : (padTo d v).getD i 0 = v.getD i 0 := by
  unfold padTo
  rw [getD_append']
  split
  · rfl
  · rename_i h
    rw [getD_of_le v i 0 (by omega)]
    simp [List.getD_eq_getElem?_getD, List.getElem?_replicate]
    split <;> rfl

theorem padTo_of_le {d : Nat} {v : List F} (h : d ≤ v.length) : padTo d v = v := by
  unfold padTo; rw [Nat.sub_eq_zero_of_le h]; simp

/-- The Prover with its `j`-th committed vector extended to length `ds j`. -/
def PState.widen (ds : Nat → Nat) (s : PState F G X) : PState F G X :=
  { s with vecOpen := s.vecOpen.mapIdx fun j c => (c.1, padTo (ds j) c.2) }

theorem PState.widen_get (ds : Nat → Nat) (s : PState F G X) (j : Nat) :
    (s.widen ds).vecOpen[j]? = s.vecOpen[j]?.map fun c => (c.1, padTo (ds j) c.2) := by
  simp [PState.widen]

theorem PState.widen_length (ds : Nat → Nat) (s : PState F G X) : (s.widen ds).vecOpen.length = s.vecOpen.length := by
  simp [PState.widen]

theorem PState.widen_getD (ds : Nat → Nat) (s : PState F G X) (j i : Nat) :
    ((s.widen ds).vecOpen.getD j (0, [])).2.getD i 0 = (s.vecOpen.getD j (0, [])).2.getD i 0 := by
  rw [List.getD_eq_getElem?_getD (l := (s.widen ds).vecOpen), PState.widen_get, List.getD_eq_getElem?_getD (l := s.vecOpen)]
  cases s.vecOpen[j]? with
  | none => rfl
  | some c => exact padTo_getD _ _ _

theorem PState.widen_assignment (ds : Nat → Nat) (s : PState F G X) : (s.widen ds).assignment = s.assignment := by
  unfold PState.assignment
  simp only [PState.widen_getD]
  rfl

theorem PState.widen_val? (ds : Nat → Nat) {s : PState F G X} {v : Variable} {x : F} (h : s.val? v = some x) : (s.widen ds).val? v = some x := by
  cases v with
  | vectorCommit j i =>
    simp only [PState.val?, bind, Option.bind_eq_some_iff] at h ⊢
    obtain ⟨c, hc, hi⟩ := h
    refine ⟨(c.1, padTo (ds j) c.2), by rw [PState.widen_get, hc]; rfl, ?_⟩
    change (padTo (ds j) c.2)[i]? = some x
    unfold padTo
    rw [List.getElem?_append_left (List.getElem?_eq_some_iff.1 hi).1]
    exact hi
  | multiplierLeft i => exact h
  | multiplierRight i => exact h
  | multiplierOutput i => exact h
  | committed i => exact h
  | one => exact h

theorem PState.widen_eval? (ds : Nat → Nat) {s : PState F G X} (ts : List (Variable × F)) : ∀ {x : F}, s.evalTerms? ts = some x →
    (s.widen ds).evalTerms? ts = some x := by
  induction ts with
  | nil => intro x h; exact h
  | cons t ts ih =>
    intro x h
    simp only [PState.evalTerms?, bind, Option.bind_eq_some_iff, pure, Option.some.injEq] at h ⊢
    obtain ⟨a, h1, b, h2, h3⟩ := h
    exact ⟨a, PState.widen_val? ds h1, b, ih h2, h3⟩

/-- A gadget that the Prover can run is run in the same way on the extended vectors. -/
theorem runP_widen (o : Oracle F G X) (ds : Nat → Nat) {α : Type} (p : Prog F G X α) : ∀ {s s' : PState F G X} {a : α}, runP o p s = .ok (a, s') →
    runP o p (s.widen ds) = .ok (a, s'.widen ds) := by
  induction p with
  | pure a => intro s s' b h; simp only [runP, Except.ok.injEq, Prod.mk.injEq] at h ⊢; obtain ⟨rfl, rfl⟩ := h; exact ⟨rfl, rfl⟩
  | fail e => intro s s' b h; cases h
  | multiply l r k ih =>
    intro s s' b h
    rw [runP] at h ⊢
    cases hm : s.multiply l r with
    | error e => rw [hm] at h; cases h
    | ok x =>
      obtain ⟨v, s1⟩ := x
      rw [hm] at h
      have : (s.widen ds).multiply l r = .ok (v, s1.widen ds) := by
        unfold PState.multiply at hm ⊢
        split at hm
        · rename_i lv rv h1 h2
          rw [show (s.widen ds).eval? l = some lv from PState.widen_eval? ds _ h1, show (s.widen ds).eval? r = some rv from PState.widen_eval? ds _ h2]
          simp only [Except.ok.injEq, Prod.mk.injEq] at hm ⊢
          obtain ⟨rfl, rfl⟩ := hm
          exact ⟨rfl, rfl⟩
        · cases hm
      rw [this]
      exact ih v h
  | allocate a k ih =>
    intro s s' b h
    rw [runP] at h ⊢
    cases hm : s.allocate a with
    | error e => rw [hm] at h; cases h
    | ok x =>
      obtain ⟨v, s1⟩ := x
      rw [hm] at h
      have : (s.widen ds).allocate a = .ok (v, s1.widen ds) := by
        unfold PState.allocate at hm ⊢
        cases a with
        | none => cases hm
        | some sc =>
          have hpd : (s.widen ds).pending = s.pending := rfl
          have haL : (s.widen ds).aL = s.aL := rfl
          simp only [hpd, haL] at hm ⊢
          cases hp : s.pending with
          | none =>
            rw [hp] at hm
            simp only [Except.ok.injEq, Prod.mk.injEq] at hm ⊢
            obtain ⟨rfl, rfl⟩ := hm
            exact ⟨rfl, rfl⟩
          | some i =>
            rw [hp] at hm
            simp only at hm ⊢
            cases hl : s.aL[i]? with
            | none => rw [hl] at hm; cases hm
            | some l =>
              rw [hl] at hm
              simp only [Except.ok.injEq, Prod.mk.injEq] at hm ⊢
              obtain ⟨rfl, rfl⟩ := hm
              exact ⟨rfl, rfl⟩
      rw [this]
      exact ih v h
  | allocateMultiplier a k ih =>
    intro s s' b h
    rw [runP] at h ⊢
    cases hm : s.allocateMultiplier a with
    | error e => rw [hm] at h; cases h
    | ok x =>
      obtain ⟨v, s1⟩ := x
      rw [hm] at h
      have : (s.widen ds).allocateMultiplier a = .ok (v, s1.widen ds) := by
        unfold PState.allocateMultiplier at hm ⊢
        cases a with
        | none => cases hm
        | some sc =>
          obtain ⟨l, r⟩ := sc
          simp only [Except.ok.injEq, Prod.mk.injEq] at hm ⊢
          obtain ⟨rfl, rfl⟩ := hm
          exact ⟨rfl, rfl⟩
      rw [this]
      exact ih v h
  | constrain lc k ih => intro s s' b h; rw [runP] at h ⊢; exact ih h
  | append m k ih => intro s s' b h; rw [runP] at h ⊢; exact ih h
  | challenge l k ih => intro s s' b h; rw [runP] at h ⊢; exact ih _ h

/-- The weights with the rows of the committed vectors extended. -/
def Weights.widen (ds : Nat → Nat) (w : Weights F) : Weights F := { w with wVC := w.wVC.mapIdx fun j r => padTo (ds j) r }

theorem Weights.widen_getD (ds : Nat → Nat) (w : Weights F) (j i : Nat) :
    ((w.widen ds).wVC.getD j []).getD i 0 = (w.wVC.getD j []).getD i 0 := by
  rw [List.getD_eq_getElem?_getD (l := (w.widen ds).wVC), List.getD_eq_getElem?_getD (l := w.wVC)]
  simp only [Weights.widen, List.getElem?_mapIdx]
  cases w.wVC[j]? with
  | none => rfl
  | some c => exact padTo_getD _ _ _

theorem addAt?_padTo (d : Nat) {v v' : List F} {i : Nat} {x : F} (h : addAt? v i x = some v') : addAt? (padTo d v) i x = some (padTo d v') := by
  unfold addAt? at h ⊢
  split at h
  · rename_i hi
    simp only [Option.some.injEq] at h
    rw [if_pos (by rw [padTo_length]; omega)]
    subst h
    simp only [Option.some.injEq]
    unfold padTo
    rw [List.length_modify]
    apply List.ext_getElem?
    intro k
    simp only [List.getElem?_modify, List.getElem?_append, List.length_modify]
    by_cases hk : i = k
    · subst hk; simp [hi]
    · simp [hk]
  · cases h

theorem flattenTerm_widen (ds : Nat → Nat) (b : Bool) (e : F) {w w' : Weights F} {t : Variable × F} (h : flattenTerm b e w t = some w') :
    flattenTerm b e (w.widen ds) t = some (w'.widen ds) := by
  obtain ⟨v, x⟩ := t
  cases v with
  | multiplierLeft i =>
    simp only [flattenTerm, Option.map_eq_some_iff] at h ⊢
    obtain ⟨a, h1, rfl⟩ := h
    exact ⟨a, h1, rfl⟩
  | multiplierRight i =>
    simp only [flattenTerm, Option.map_eq_some_iff] at h ⊢
    obtain ⟨a, h1, rfl⟩ := h
    exact ⟨a, h1, rfl⟩
  | multiplierOutput i =>
    simp only [flattenTerm, Option.map_eq_some_iff] at h ⊢
    obtain ⟨a, h1, rfl⟩ := h
    exact ⟨a, h1, rfl⟩
  | committed i =>
    simp only [flattenTerm, Option.map_eq_some_iff] at h ⊢
    obtain ⟨a, h1, rfl⟩ := h
    exact ⟨a, h1, rfl⟩
  | vectorCommit j i =>
    simp only [flattenTerm] at h ⊢
    cases hj : w.wVC[j]? with
    | none => rw [hj] at h; cases h
    | some row =>
      rw [hj] at h
      have : (w.widen ds).wVC[j]? = some (padTo (ds j) row) := by simp [Weights.widen, hj]
      rw [this]
      simp only [Option.map_eq_some_iff] at h ⊢
      obtain ⟨a, h1, rfl⟩ := h
      refine ⟨_, addAt?_padTo (ds j) h1, ?_⟩
      unfold Weights.widen
      simp only [Weights.mk.injEq, true_and, and_true]
      apply List.ext_getElem?
      intro k
      rw [List.getElem?_mapIdx, List.getElem?_set, List.getElem?_set, List.length_mapIdx, List.getElem?_mapIdx]
      by_cases hk : j = k
      · subst hk
        by_cases hl : j < w.wVC.length
        · simp [hl]
        · simp [hl]
      · simp [hk]
  | one =>
    simp only [flattenTerm] at h ⊢
    split at h
    · rename_i hb; rw [if_pos hb]; simp only [Option.some.injEq] at h ⊢; subst h; rfl
    · rename_i hb; rw [if_neg hb]; simp only [Option.some.injEq] at h ⊢; subst h; rfl

theorem flattenTerms_widen (ds : Nat → Nat) (b : Bool) (e : F) (ts : List (Variable × F)) : ∀ {w w' : Weights F}, flattenTerms b e ts w = some w' →
    flattenTerms b e ts (w.widen ds) = some (w'.widen ds) := by
  induction ts with
  | nil => intro w w' h; simp only [flattenTerms, Option.some.injEq] at h ⊢; rw [h]
  | cons t ts ih =>
    intro w w' h
    rw [flattenTerms] at h ⊢
    cases h1 : flattenTerm b e w t with
    | none => rw [h1] at h; cases h
    | some w1 => rw [h1] at h; rw [flattenTerm_widen ds b e h1]; exact ih h

theorem flattenLoop_widen (ds : Nat → Nat) (b : Bool) (z : F) (cs : List (LC F)) : ∀ {e : F} {w w' : Weights F}, flattenLoop b z cs e w = some w' →
    flattenLoop b z cs e (w.widen ds) = some (w'.widen ds) := by
  induction cs with
  | nil => intro e w w' h; simp only [flattenLoop, Option.some.injEq] at h ⊢; rw [h]
  | cons c cs ih =>
    intro e w w' h
    rw [flattenLoop] at h ⊢
    cases h1 : flattenTerms b e c.terms w with
    | none => rw [h1] at h; cases h
    | some w1 => rw [h1] at h; rw [flattenTerms_widen ds b e _ h1]; exact ih h

theorem flattened_widen (ds : Nat → Nat) {s : PState F G X} {z : F} {wt : Weights F} (h : s.flattened z = some wt) :
    (s.widen ds).flattened z = some (wt.widen ds) := by
  unfold PState.flattened at h ⊢
  rw [← flattenLoop_widen ds false z s.constraints h]
  congr 1
  unfold Weights.zero Weights.widen PState.widen
  simp only [Weights.mk.injEq, true_and, and_true]
  apply List.ext_getElem?
  intro k
  simp only [List.getElem?_map, List.getElem?_mapIdx]
  cases s.vecOpen[k]? with
  | none => rfl
  | some c =>
    simp only [Option.map_some, Option.some.injEq, padTo_length]
    unfold padTo
    rw [List.length_replicate, ← List.replicate_add]
    congr 1; omega


theorem PState.widen_size (ds : Nat → Nat) {s : PState F G X} (h : ∀ j < s.vecOpen.length, ds j ≤ s.size) : (s.widen ds).size = s.size := by
  apply le_antisymm
  · rw [(s.widen ds).size_eq]
    refine foldl_max_le (fun v : F × List F => v.2.length) _ _ _ s.aL_le_size ?_
    intro v hv
    obtain ⟨j, hj, e⟩ := List.getElem_of_mem hv
    have hj' : j < s.vecOpen.length := by rw [PState.widen_length] at hj; exact hj
    have := PState.widen_get ds s j
    rw [List.getElem?_eq_getElem hj, List.getElem?_eq_getElem hj', e] at this
    simp only [Option.map_some, Option.some.injEq] at this
    subst this
    rw [padTo_length]
    exact max_le (h j hj') (s.dim_le_size _ (List.getElem_mem hj'))
  · rw [s.size_eq]
    refine foldl_max_le (fun v : F × List F => v.2.length) _ _ _ (s.widen ds).aL_le_size ?_
    intro v hv
    obtain ⟨j, hj, rfl⟩ := List.getElem_of_mem hv
    have hm := PState.widen_get ds s j
    rw [List.getElem?_eq_getElem hj] at hm
    have := (s.widen ds).dim_le_size _ (List.mem_of_getElem? hm)
    rw [padTo_length] at this
    exact le_trans (le_max_right _ _) this

theorem PState.widen_pad (ds : Nat → Nat) {s : PState F G X} (h : ∀ j < s.vecOpen.length, ds j ≤ s.size) : (s.widen ds).pad = s.pad.widen ds := by
  rw [PState.pad_eq, PState.pad_eq, PState.widen_size ds h]
  rfl

theorem VecPoly.Rep.unique {p q : VecPoly F} {D n : Nat} {f f' : Nat → Nat → F} (hp : p.Rep D n f) (hq : q.Rep D n f')
    (hf : ∀ d < D, ∀ i < n, f d i = f' d i) : p = q := by
  apply List.ext_getElem (hp.len.trans hq.len.symm)
  intro d h1 h2
  have hd : d < D := by rw [← hp.len]; exact h1
  have r1 := hp.row _ (List.getElem_mem h1)
  have r2 := hq.row _ (List.getElem_mem h2)
  apply List.ext_getElem (r1.trans r2.symm)
  intro i g1 g2
  have hi : i < n := by rw [← r1]; exact g1
  have e1 := hp.get d i hd hi
  have e2 := hq.get d i hd hi
  rw [getD_of_lt _ _ _ h1, getD_of_lt _ _ _ g1] at e1
  rw [getD_of_lt _ _ _ h2, getD_of_lt _ _ _ g2] at e2
  rw [e1, e2, hf d hd i hi]

theorem lPoly_widen (ds : Nat → Nat) (s : PState F G X) (wt : Weights F) (yinv : List F) {n : Nat} {sL : List F} (hs : sL.length ≤ n)
    (hv : ∀ v ∈ s.vecOpen, v.2.length ≤ n) (hd : ∀ j < s.vecOpen.length, ds j ≤ n) :
    let op := opDegree s.vecOpen.length
    lPoly (s.widen ds) (wt.widen ds) yinv n op (opSplits op) sL = lPoly s wt yinv n op (opSplits op) sL := by
  intro op
  have h1 := lPoly_rep s wt yinv n sL hs hv
  have h2 := lPoly_rep (s.widen ds) (wt.widen ds) yinv n sL hs (by
    intro v hv'
    obtain ⟨j, hj, rfl⟩ := List.getElem_of_mem hv'
    have hj' : j < s.vecOpen.length := by rw [PState.widen_length] at hj; exact hj
    have := PState.widen_get ds s j
    rw [List.getElem?_eq_getElem hj, List.getElem?_eq_getElem hj'] at this
    simp only [Option.map_some, Option.some.injEq] at this
    rw [this, padTo_length]
    exact max_le (hd j hj') (hv _ (List.getElem_mem hj')))
  simp only [PState.widen_length] at h2
  refine h2.unique h1 fun d _ i _ => ?_
  simp only [lSlot, PState.widen_getD]
  rfl

theorem rPoly_widen (ds : Nat → Nat) (s : PState F G X) (wt : Weights F) (ypow : List F) {n : Nat} (sR : List F)
    (hv : ∀ v ∈ wt.wVC, v.length ≤ n) (hw : s.vecOpen.length = wt.wVC.length) (hd : ∀ j < s.vecOpen.length, ds j ≤ n) :
    let op := opDegree s.vecOpen.length
    rPoly (s.widen ds) (wt.widen ds) ypow n op (opSplits op) sR = rPoly s wt ypow n op (opSplits op) sR := by
  intro op
  have h1 := rPoly_rep s wt ypow n sR hv hw
  have h2 := rPoly_rep (s.widen ds) (wt.widen ds) ypow n sR (by
    intro v hv'
    obtain ⟨j, hj, rfl⟩ := List.getElem_of_mem hv'
    have hj' : j < wt.wVC.length := by simpa [Weights.widen] using hj
    simp only [Weights.widen, List.getElem_mapIdx, padTo_length]
    exact max_le (hd j (by omega)) (hv _ (List.getElem_mem hj'))) (by rw [PState.widen_length, hw]; simp [Weights.widen])
  simp only [PState.widen_length] at h2
  refine h2.unique h1 fun d _ i _ => ?_
  simp only [rSlot, Weights.widen_getD]
  rfl


variable [DecidableEq F] [AddCommGroup G] [Module F G]

theorem proveTail_widen (o : Oracle F G X) (g : Gens G) (rnd : PRand F) (ds : Nat → Nat) {n1 : Nat} {c1 : Com G} {s : PState F G X}
    (hn1 : n1 ≤ s.size) (hd : ∀ j < s.vecOpen.length, ds j ≤ s.size) {r : R1CSProof F G × Transcript F G X}
    (h : proveTail o g rnd n1 c1 s = .ok r) : proveTail o g rnd n1 c1 (s.widen ds) = .ok r := by
  have hne : ((s.widen ds).vecOpen ≠ []) = (s.vecOpen ≠ []) := by
    simp only [ne_eq, ← List.length_eq_zero_iff, PState.widen_length]
  have hbl : (s.widen ds).vecOpen.map (·.1) = s.vecOpen.map (·.1) := by
    apply List.ext_getElem?
    intro k
    simp only [List.getElem?_map, PState.widen_get]
    cases s.vecOpen[k]? <;> rfl
  have hc2 : ∀ n, commit2 g rnd (s.widen ds) n1 n = commit2 g rnd s n1 n := fun n => rfl
  unfold proveTail at h ⊢
  simp only [PState.widen_length, PState.widen_size ds hd, hbl, hc2] at h ⊢
  split at h
  · cases h
  rename_i hcap
  rw [if_neg hcap]
  split at h
  · cases h
  rename_i hph
  rw [if_neg (by rw [hne]; exact hph)]
  split at h
  · cases h
  rename_i wt hwt
  have hwt' := flattened_widen ds hwt
  have htr : (s.widen ds).transcript = s.transcript := rfl
  have hvb : (s.widen ds).vBlinding = s.vBlinding := rfl
  rw [htr, hvb]
  rw [hwt']
  have hdims : wt.wVC.map List.length = s.vecOpen.map fun v => v.2.length := (flattenLoop_apply (Weights.zero_shape _ _ _) hwt ⟨0, 0, 0, 0, 0⟩).1.wVC
  have hwvc : ∀ v ∈ wt.wVC, v.length ≤ s.size := by
    intro v hv
    have : v.length ∈ wt.wVC.map List.length := List.mem_map_of_mem hv
    rw [hdims] at this
    obtain ⟨x, hx, e⟩ := List.mem_map.1 this
    rw [← e]; exact s.dim_le_size x hx
  have hwvl : s.vecOpen.length = wt.wVC.length := by
    have := congrArg List.length hdims
    simpa using this.symm
  simp only [lPoly_widen ds s wt _ (n := s.size) (sL := (List.range n1).map rnd.sL1 ++ (List.range (s.size - n1)).map rnd.sL2)
    (by simp; omega) (fun v hv => s.dim_le_size v hv) hd, rPoly_widen ds s wt _ _ hwvc hwvl hd]
  exact h

theorem prove_widen (o : Oracle F G X) (g : Gens G) (rnd : PRand F) (ds : Nat → Nat) {s : PState F G X} (hdef : s.deferred = [])
    (hd : ∀ j < s.vecOpen.length, ds j ≤ s.size) {r : R1CSProof F G × Transcript F G X}
    (h : prove o g rnd s = .ok r) : prove o g rnd (s.widen ds) = .ok r := by
  have hpd : s.pad.deferred = [] := by rw [PState.pad_eq]; exact hdef
  have hpo : s.pad.vecOpen = s.vecOpen := by rw [PState.pad_eq]
  have hwp := PState.widen_pad ds hd
  have hsz := PState.widen_size ds (s := s.pad) (by rw [hpo, s.pad_size]; exact hd)
  unfold prove PState.createRandomized at h ⊢
  rw [hwp]
  have hsz1 : ∀ tr, ({ s.pad.widen ds with transcript := tr, deferred := [] } : PState F G X).size = s.pad.size := fun _ => hsz
  have hsz2 : ∀ tr, ({ s.pad with transcript := tr, deferred := [] } : PState F G X).size = s.pad.size := fun _ => rfl
  have e2 : (s.pad.widen ds).deferred = [] := hpd
  simp only [hpd, e2, if_true] at h ⊢
  rw [hsz1]
  rw [hsz2] at h
  split at h
  · cases h
  rename_i hcap
  rw [if_neg hcap]
  refine proveTail_widen o g rnd ds ?_ ?_ h
  · exact le_refl s.pad.size
  · intro j hj
    exact (hd j (by rw [← hpo]; exact hj)).trans (le_of_eq s.pad_size.symm)

end CT
