import Verif.Proofs.ExtractBasis
import Verif.Proofs.Flatten

/-! From the coefficient of the circuit equation to gates and constraints. -/

namespace CT
open Finset

namespace Sys
variable {F : Type} [Field F]

/-- `u ^ 2 * E u` is a polynomial of degree at most 4 in `u`, with coefficient `v` of degree 2. -/
def HasC2 (E : F → F) (v : F) : Prop := ∃ c : Nat → F, c 2 = v ∧ ∀ u ≠ 0, u ^ 2 * E u = ∑ d ∈ range 5, u ^ d * c d

theorem HasC2.add {E E' : F → F} {v v' : F} (h : HasC2 E v) (h' : HasC2 E' v') : HasC2 (fun u => E u + E' u) (v + v') := by
  obtain ⟨c, hc, h⟩ := h
  obtain ⟨c', hc', h'⟩ := h'
  refine ⟨fun d => c d + c' d, by simp only [hc, hc'], fun u hu => ?_⟩
  simp only [mul_add, Finset.sum_add_distrib]
  rw [h u hu, h' u hu]

theorem HasC2.smul {E : F → F} {v : F} (a : F) (h : HasC2 E v) : HasC2 (fun u => a * E u) (a * v) := by
  obtain ⟨c, hc, h⟩ := h
  refine ⟨fun d => a * c d, by simp only [hc], fun u hu => ?_⟩
  have := h u hu
  calc u ^ 2 * (a * E u) = a * (u ^ 2 * E u) := by ring
    _ = _ := by rw [this, Finset.mul_sum]; exact Finset.sum_congr rfl fun d _ => by ring

theorem HasC2.const (a : F) : HasC2 (fun _ => a) a :=
  ⟨fun d => if d = 2 then a else 0, rfl, fun u _ => by simp⟩

theorem HasC2.sum (n : Nat) {E : Nat → F → F} {v : Nat → F} (h : ∀ i < n, HasC2 (E i) (v i)) :
    HasC2 (fun u => ∑ i ∈ range n, E i u) (∑ i ∈ range n, v i) := by
  induction n with
  | zero => simpa using HasC2.const (0 : F)
  | succ n ih =>
    simp only [Finset.sum_range_succ]
    exact (ih fun i hi => h i (by omega)).add (h n (by omega))

theorem HasC2.congr {E E' : F → F} {v v' : F} (h : HasC2 E v) (he : ∀ u, E' u = E u) (hv : v' = v) : HasC2 E' v' := by
  have : E' = E := funext he
  rw [this, hv]; exact h

theorem HasC2.zero {E : F → F} {v : F} (h : HasC2 E v) {U : Finset F} (hU : 0 ∉ U ∧ 5 ≤ U.card) (hz : ∀ u ∈ U, E u = 0) : v = 0 := by
  obtain ⟨c, hc, h⟩ := h
  rw [← hc]
  refine vandermonde_zero 5 c U hU.2 (fun u hu => ?_) 2 (by norm_num)
  have hu0 : u ≠ 0 := fun h0 => hU.1 (h0 ▸ hu)
  have := h u hu0
  rw [hz u hu, mul_zero] at this
  simpa using this.symm

variable {S : Sys F}

theorem HasC2.lin (i : Nat) (a b : F) : HasC2 (fun u => (S.fac u i)⁻¹ * (a + u * b)) (if i < S.n1 then a else b) := by
  unfold fac
  split_ifs with h
  · exact ⟨fun d => if d = 2 then a else if d = 3 then b else 0, rfl, fun u _ => by simp [Finset.sum_range_succ]; ring⟩
  · refine ⟨fun d => if d = 1 then a else if d = 2 then b else 0, rfl, fun u hu => ?_⟩
    simp [Finset.sum_range_succ]
    field_simp

theorem HasC2.prod (i : Nat) (a b a' b' : F) :
    HasC2 (fun u => (S.fac u i)⁻¹ ^ 2 * ((a + u * b) * (a' + u * b'))) ((if i < S.n1 then a else b) * (if i < S.n1 then a' else b')) := by
  unfold fac
  split_ifs with h
  · exact ⟨fun d => if d = 2 then a * a' else if d = 3 then a * b' + b * a' else if d = 4 then b * b' else 0, rfl,
      fun u _ => by simp [Finset.sum_range_succ]; ring⟩
  · refine ⟨fun d => if d = 0 then a * a' else if d = 1 then a * b' + b * a' else if d = 2 then b * b' else 0, rfl, fun u hu => ?_⟩
    simp [Finset.sum_range_succ]
    field_simp
    ring

/-- The part of slot `s` that counts for index `i`. -/
def wG (S : Sys F) (P : Sym F → Gen S.N → F) (i s : Nat) : F := if i < S.n1 then cG (S.slotA P s) i else cG (S.slotB P s) i
def wH (S : Sys F) (P : Sym F → Gen S.N → F) (i s : Nat) : F := if i < S.n1 then cH (S.slotA P s) i else cH (S.slotB P s) i

variable [DecidableEq F] {fk : Forks F} {Q : Nat} {P : Sym F → Gen S.N → F}

theorem u_level (hE : S.Enough fk Q) (hP : ∀ q : Gen S.N, P q.sym = Pi.single q 1) (hs : S.Solves fk P)
    {y z : F} (hy : y ∈ fk.Y) (hz : z ∈ fk.Z y) :
    ∑ i ∈ range S.N, (y ^ i * (S.pairs (S.wG P i) (S.wH P i) - S.wG P i 1) +
      (∑ s ∈ range (S.k + 2), S.wG P i s * S.omega z i s) + S.wH P i 0 * (S.wt z).wR.getD i 0) =
    ∑ j ∈ range S.m, (S.wt z).wV.getD j 0 * P (.V j) .B + (S.wt z).wc := by
  rw [← sub_eq_zero, sub_eq_add_neg]
  refine HasC2.zero (E := fun u => ∑ i ∈ range S.N, (y ^ i * ((S.fac u i)⁻¹ ^ 2 * S.pairs (S.sG P u i) (S.sH P u i)) +
      -1 * (y ^ i * ((S.fac u i)⁻¹ * S.sG P u i 1)) +
      (S.fac u i)⁻¹ * (∑ s ∈ range (S.k + 2), S.sG P u i s * S.omega z i s) +
      (S.fac u i)⁻¹ * (S.sH P u i 0 * (S.wt z).wR.getD i 0)) +
      - (∑ j ∈ range S.m, (S.wt z).wV.getD j 0 * P (.V j) .B + (S.wt z).wc)) ?_ (hE.U y z) ?_
  · refine HasC2.add (HasC2.sum _ fun i _ => ?_) (HasC2.const _)
    have h1 : HasC2 (fun u => (S.fac u i)⁻¹ ^ 2 * S.pairs (S.sG P u i) (S.sH P u i)) (S.pairs (S.wG P i) (S.wH P i)) := by
      unfold pairs
      refine HasC2.congr (HasC2.sum (S.k + 3) (E := fun s u => ∑ s' ∈ range (S.k + 3), if S.e s + S.e s' = S.op then
        (S.fac u i)⁻¹ ^ 2 * (S.sG P u i s * S.sH P u i s') else 0) fun s _ => HasC2.sum (S.k + 3) (v := fun s' =>
          if S.e s + S.e s' = S.op then S.wG P i s * S.wH P i s' else 0) fun s' _ => ?_) (fun u => ?_) rfl
      · split_ifs
        · exact HasC2.prod i _ _ _ _
        · exact HasC2.const 0
      · simp only [Finset.mul_sum, mul_ite, mul_zero]
    have h2 : HasC2 (fun u => (S.fac u i)⁻¹ * S.sG P u i 1) (S.wG P i 1) := HasC2.lin i _ _
    have h3 : HasC2 (fun u => (S.fac u i)⁻¹ * (∑ s ∈ range (S.k + 2), S.sG P u i s * S.omega z i s))
        (∑ s ∈ range (S.k + 2), S.wG P i s * S.omega z i s) := by
      refine HasC2.congr (HasC2.sum (S.k + 2) (E := fun s u => S.omega z i s * ((S.fac u i)⁻¹ * S.sG P u i s))
        (v := fun s => S.omega z i s * S.wG P i s) fun s _ => (HasC2.lin i _ _).smul _) (fun u => ?_) ?_
      · rw [Finset.mul_sum]
        exact Finset.sum_congr rfl fun s _ => by ring
      · exact Finset.sum_congr rfl fun s _ => by ring
    have h4 : HasC2 (fun u => (S.fac u i)⁻¹ * (S.sH P u i 0 * (S.wt z).wR.getD i 0)) (S.wH P i 0 * (S.wt z).wR.getD i 0) :=
      HasC2.congr ((HasC2.lin (S := S) i (cH (S.slotA P 0) i) (cH (S.slotB P 0) i)).smul ((S.wt z).wR.getD i 0))
        (fun u => by unfold sH; ring) (by unfold wH; ring)
    exact HasC2.congr ((((h1.smul (y ^ i)).add ((h2.smul (y ^ i)).smul (-1))).add h3).add h4) (fun u => rfl) (by ring)
  · intro u hu
    have := x_level hE hP hs hy hz hu
    rw [← this, ← sub_eq_add_neg, sub_eq_zero]
    exact Finset.sum_congr rfl fun i _ => by ring

/-! ### Gates -/

omit [DecidableEq F] in
theorem pairs_split (A B : Nat → F) : S.pairs A B = A 0 * B 0 +
    ∑ s ∈ Ico 1 (S.k + 2), ∑ s' ∈ Ico 1 (S.k + 2), if S.e s + S.e s' = S.op then A s * B s' else 0 := by
  have hsplit : ∀ f : Nat → F, ∑ s ∈ range (S.k + 3), f s = f 0 + ∑ s ∈ Ico 1 (S.k + 2), f s + f (S.k + 2) := by
    intro f
    rw [Finset.sum_range_succ, Finset.range_eq_Ico, Finset.sum_eq_sum_Ico_succ_bot (by omega)]
  have hne : ∀ s < S.k + 3, s ≠ 0 → S.e s + S.e 0 ≠ S.op := by
    intro s hs h0 h
    have := S.e_zero.1
    exact h0 (S.e_inj hs (by omega) (by omega))
  unfold pairs
  rw [hsplit]
  have h0 : (∑ s' ∈ range (S.k + 3), if S.e 0 + S.e s' = S.op then A 0 * B s' else 0) = A 0 * B 0 := by
    rw [Finset.sum_eq_single 0]
    · rw [if_pos S.e_zero.1]
    · intro s' hs' h; rw [if_neg]; rw [Nat.add_comm]; exact hne s' (mem_range.1 hs') h
    · intro hh; exact absurd (mem_range.2 (by omega)) hh
  have hl : (∑ s' ∈ range (S.k + 3), if S.e (S.k + 2) + S.e s' = S.op then A (S.k + 2) * B s' else 0) = 0 := by
    refine Finset.sum_eq_zero fun s' _ => ?_
    rw [if_neg]; rw [S.e_last]; omega
  rw [h0, hl, add_zero]
  congr 1
  refine Finset.sum_congr rfl fun s hs => ?_
  have hs := Finset.mem_Ico.1 hs
  rw [hsplit, if_neg (hne s (by omega) (by omega)), if_neg (by rw [S.e_last]; omega), zero_add, add_zero]

/-- What the slots add to gate `i`. -/
def crossW (S : Sys F) (P : Sym F → Gen S.N → F) (i : Nat) : F :=
  if i < S.n1 then ∑ s ∈ Ico 1 (S.k + 2), ∑ s' ∈ Ico 1 (S.k + 2),
    if lDeg S.op s + lDeg S.op s' = S.op then cG (S.slotA P s) i * cH (S.slotA P s') i else 0 else 0

omit [DecidableEq F] in
theorem pairs_cross (i : Nat) : S.pairs (S.wG P i) (S.wH P i) = S.wG P i 0 * S.wH P i 0 + S.crossW P i := by
  rw [pairs_split]
  congr 1
  have he : ∀ s ∈ Ico 1 (S.k + 2), S.e s = lDeg S.op s := by
    intro s hs
    unfold e; rw [if_pos (Finset.mem_Ico.1 hs).2]
  unfold crossW
  split_ifs with hi
  · refine Finset.sum_congr rfl fun s hs => Finset.sum_congr rfl fun s' hs' => ?_
    rw [he s hs, he s' hs']
    unfold wG wH
    rw [if_pos hi, if_pos hi]
  · refine Finset.sum_eq_zero fun s hs => Finset.sum_eq_zero fun s' hs' => ?_
    unfold wG wH
    rw [if_neg hi, if_neg hi]
    have hs := Finset.mem_Ico.1 hs
    have hs' := Finset.mem_Ico.1 hs'
    split_ifs with h
    · by_cases h1 : s = 1
      · by_cases h2 : s' = 1
        · exfalso
          subst h1 h2
          rw [S.e_one] at h
          have := S.e_zero.2
          omega
        · have : S.slotB P s' = 0 := by unfold slotB; rw [if_neg (by omega), if_neg h2, if_pos hs'.2]
          rw [this]; simp [cH]
      · have : S.slotB P s = 0 := by unfold slotB; rw [if_neg (by omega), if_neg h1, if_pos hs.2]
        rw [this]; simp [cG]
    · rfl

/-- The assignment. -/
def wit (S : Sys F) (P : Sym F → Gen S.N → F) : Assignment F where
  left i := S.wG P i 0
  right i := S.wH P i 0
  out i := S.wG P i 1
  committed j := P (.V j) .B
  vec j i := if i < S.n1 then cG (P (.C j)) i else 0

/-- The weights are those of a circuit. -/
structure Flat (S : Sys F) (fk : Forks F) (c : Circuit F) : Prop where
  k : S.k = c.dims.length
  m : S.m = c.m
  n1 : S.n1 = c.first
  n : c.n ≤ S.N
  dims : ∀ d ∈ c.dims, d ≤ S.N
  shape : ∀ y ∈ fk.Y, ∀ z ∈ fk.Z y, (S.wt z).Shape c.n c.m c.dims
  apply : ∀ y ∈ fk.Y, ∀ z ∈ fk.Z y, ∀ w : Assignment F, (S.wt z).apply w = weightedConstraints c.constraints z w

omit [DecidableEq F] in
theorem apply_eq {c : Circuit F} {wt : Weights F} {N k : Nat} (hsh : wt.Shape c.n c.m c.dims) (hk : k = c.dims.length) (hn : c.n ≤ N)
    (hd : ∀ d ∈ c.dims, d ≤ N) (w : Assignment F) :
    wt.apply w = ∑ i ∈ range N, (wt.wL.getD i 0 * w.left i + wt.wR.getD i 0 * w.right i + wt.wO.getD i 0 * w.out i +
      ∑ j ∈ range k, (wt.wVC.getD j []).getD i 0 * w.vec j i) - ∑ j ∈ range c.m, wt.wV.getD j 0 * w.committed j - wt.wc := by
  unfold Weights.apply
  have hlen : wt.wVC.length = k := by rw [hk, ← hsh.wVC, List.length_map]
  simp only [Finset.sum_add_distrib]
  rw [sum_getD_extend wt.wL N (by rw [hsh.wL]; exact hn), sum_getD_extend wt.wR N (by rw [hsh.wR]; exact hn),
    sum_getD_extend wt.wO N (by rw [hsh.wO]; exact hn), hsh.wV, Finset.sum_comm (s := range N), hlen]
  congr 3
  refine Finset.sum_congr rfl fun j hj => ?_
  refine (sum_getD_extend _ N ?_ _).symm
  have hj := mem_range.1 hj
  rw [getD_of_lt _ _ _ (by omega)]
  refine hd _ ?_
  rw [← hsh.wVC]
  exact List.mem_map_of_mem (List.getElem_mem _)

theorem circuit_equation (hE : S.Enough fk Q) (hP : ∀ q : Gen S.N, P q.sym = Pi.single q 1) (hs : S.Solves fk P) {c : Circuit F}
    (hc : S.Flat fk c) {y z : F} (hy : y ∈ fk.Y) (hz : z ∈ fk.Z y) :
    ∑ i ∈ range S.N, y ^ i * ((S.wit P).left i * (S.wit P).right i + S.crossW P i - (S.wit P).out i) +
      weightedConstraints c.constraints z (S.wit P) = 0 := by
  rw [← hc.apply y hy z hz, apply_eq (hc.shape y hy z hz) hc.k hc.n hc.dims]
  have h := u_level hE hP hs hy hz
  have e1 : ∀ i, ∑ s ∈ range (S.k + 2), S.wG P i s * S.omega z i s =
      (S.wt z).wL.getD i 0 * (S.wit P).left i + (S.wt z).wO.getD i 0 * (S.wit P).out i +
      ∑ j ∈ range S.k, ((S.wt z).wVC.getD j []).getD i 0 * (S.wit P).vec j i := by
    intro i
    rw [sum_slots]
    have e2 : ∀ j ∈ range S.k, S.wG P i (j + 2) * S.omega z i (j + 2) = ((S.wt z).wVC.getD j []).getD i 0 * (S.wit P).vec j i := by
      intro j hj
      have hj := mem_range.1 hj
      have h1 : S.omega z i (j + 2) = ((S.wt z).wVC.getD j []).getD i 0 := by simp [omega]
      have h2 : S.wG P i (j + 2) = (S.wit P).vec j i := by
        unfold wG wit slotA slotB
        have : j + 2 < S.k + 2 := by omega
        simp [hj, cG]
      rw [h1, h2, mul_comm]
    rw [Finset.sum_congr rfl e2]
    simp [omega, wit]
    ring
  have e3 : ∀ i ∈ range S.N, y ^ i * (S.pairs (S.wG P i) (S.wH P i) - S.wG P i 1) + (∑ s ∈ range (S.k + 2), S.wG P i s * S.omega z i s) +
        S.wH P i 0 * (S.wt z).wR.getD i 0 =
      y ^ i * ((S.wit P).left i * (S.wit P).right i + S.crossW P i - (S.wit P).out i) +
      ((S.wt z).wL.getD i 0 * (S.wit P).left i + (S.wt z).wR.getD i 0 * (S.wit P).right i + (S.wt z).wO.getD i 0 * (S.wit P).out i +
        ∑ j ∈ range S.k, ((S.wt z).wVC.getD j []).getD i 0 * (S.wit P).vec j i) := by
    intro i _
    rw [e1, pairs_cross]
    simp only [wit]
    ring
  rw [Finset.sum_congr rfl e3, Finset.sum_add_distrib] at h
  rw [← hc.m]
  simp only [wit] at h ⊢
  linear_combination h

/-- Gates and constraints. -/
theorem gates_constraints {c : Circuit F} (hE : S.Enough fk c.constraints.length) (hP : ∀ q : Gen S.N, P q.sym = Pi.single q 1)
    (hs : S.Solves fk P) (hc : S.Flat fk c) :
    (∀ i < S.N, (S.wit P).left i * (S.wit P).right i + S.crossW P i = (S.wit P).out i) ∧
    ∀ q ∈ c.constraints, (S.wit P).eval q = 0 := by
  have hz : ∀ y ∈ fk.Y, ∀ d < c.constraints.length + 1, (fun d => if d = 0 then
      ∑ i ∈ range S.N, y ^ i * ((S.wit P).left i * (S.wit P).right i + S.crossW P i - (S.wit P).out i)
      else (S.wit P).eval (c.constraints.getD (d - 1) ⟨[]⟩)) d = 0 := by
    intro y hy
    refine vandermonde_zero _ _ (fk.Z y) (hE.Z y) fun z hz => ?_
    have h := circuit_equation hE hP hs hc hy hz
    unfold weightedConstraints at h
    rw [Finset.sum_range_succ']
    refine Eq.trans ?_ h
    simp [add_comm]
  constructor
  · have hy : ∀ d < S.N, (S.wit P).left d * (S.wit P).right d + S.crossW P d - (S.wit P).out d = 0 := by
      refine vandermonde_zero S.N _ fk.Y hE.Y.2 fun y hy => ?_
      simpa using hz y hy 0 (by omega)
    exact fun i hi => sub_eq_zero.1 (hy i hi)
  · intro q hq
    obtain ⟨y, hy⟩ := hE.exY
    obtain ⟨n, hn, rfl⟩ := List.getElem_of_mem hq
    have := hz y hy (n + 1) (by omega)
    simp only [Nat.add_sub_cancel, if_neg (Nat.succ_ne_zero n)] at this
    rw [getD_of_lt _ _ _ hn] at this
    exact this

/-! ### Single-value commitments -/

omit [DecidableEq F] in
theorem eval_committed (v : Nat → F) (q : LC F) :
    (Assignment.mk (fun _ => 0) (fun _ => 0) (fun _ => 0) v (fun _ _ => 0)).eval q -
      (Assignment.mk (fun _ => 0) (fun _ => 0) (fun _ => 0) (fun _ => 0) (fun _ _ => 0)).eval q = committedPart q v := by
  unfold Assignment.eval committedPart
  induction q.terms with
  | nil => simp
  | cons t ts ih =>
    simp only [List.map_cons, List.sum_cons]
    rw [← ih]
    obtain ⟨x, a⟩ := t
    cases x <;> simp [Assignment.val]; ring

omit [DecidableEq F] in
theorem committedPart_map {G G' : Type} [AddCommGroup G] [Module F G] [AddCommGroup G'] [Module F G'] (f : G →ₗ[F] G') (q : LC F)
    (V : Nat → G) : committedPart q (fun j => f (V j)) = f (committedPart q V) := by
  unfold committedPart
  induction q.terms with
  | nil => simp
  | cons t ts ih =>
    simp only [List.map_cons, List.sum_cons, map_add, ih]
    congr 1
    obtain ⟨x, a⟩ := t
    cases x <;> simp

/-- If the weighted sum of points vanishes for all weights, it vanishes for every constraint. -/
theorem committed_zero {c : Circuit F} (hE : S.Enough fk c.constraints.length) (hc : S.Flat fk c) {G : Type} [AddCommGroup G] [Module F G]
    (V : Nat → G) (h : ∀ y ∈ fk.Y, ∀ z ∈ fk.Z y, ∑ j ∈ range S.m, (S.wt z).wV.getD j 0 • V j = 0) :
    ∀ q ∈ c.constraints, committedPart q V = 0 := by
  intro q hq
  rw [← Module.forall_dual_apply_eq_zero_iff F]
  intro φ
  rw [← committedPart_map φ]
  obtain ⟨y, hy⟩ := hE.exY
  have key : ∀ d < c.constraints.length + 1, (fun d => if d = 0 then 0 else
      committedPart (c.constraints.getD (d - 1) ⟨[]⟩) (fun j => φ (V j))) d = 0 := by
    refine vandermonde_zero _ _ (fk.Z y) (hE.Z y) fun z hz => ?_
    have h1 := congrArg φ (h y hy z hz)
    simp only [map_sum, map_smul, map_zero, smul_eq_mul] at h1
    have a1 := hc.apply y hy z hz (Assignment.mk (fun _ => 0) (fun _ => 0) (fun _ => 0) (fun j => φ (V j)) (fun _ _ => 0))
    have a2 := hc.apply y hy z hz (Assignment.mk (fun _ => 0) (fun _ => 0) (fun _ => 0) (fun _ => 0) (fun _ _ => 0))
    rw [apply_eq (hc.shape y hy z hz) hc.k hc.n hc.dims] at a1 a2
    rw [← hc.m] at a1 a2
    simp only [h1] at a1
    simp only [mul_zero, Finset.sum_const_zero, add_zero, sub_zero, zero_sub] at a1 a2
    have a3 : weightedConstraints c.constraints z (Assignment.mk (fun _ => 0) (fun _ => 0) (fun _ => 0) (fun j => φ (V j)) (fun _ _ => 0)) -
        weightedConstraints c.constraints z (Assignment.mk (fun _ => 0) (fun _ => 0) (fun _ => 0) (fun _ => 0) (fun _ _ => 0)) = 0 := by
      rw [← a1, ← a2, sub_self]
    unfold weightedConstraints at a3
    rw [← Finset.sum_sub_distrib] at a3
    rw [Finset.sum_range_succ']
    refine Eq.trans ?_ a3
    have e0 : ∀ x : F, x + z ^ 0 • (if 0 = 0 then (0 : F) else committedPart (c.constraints.getD (0 - 1) ⟨[]⟩) fun j => φ (V j)) = x := by
      intro x; simp
    rw [e0]
    refine Finset.sum_congr rfl fun d _ => ?_
    rw [← mul_sub, eval_committed, if_neg (Nat.succ_ne_zero _), Nat.add_sub_cancel, smul_eq_mul]
  obtain ⟨n, hn, rfl⟩ := List.getElem_of_mem hq
  have := key (n + 1) (by omega)
  simp only [Nat.add_sub_cancel, if_neg (Nat.succ_ne_zero n)] at this
  rw [getD_of_lt _ _ _ hn] at this
  exact this

/-- The coordinates of the single-value commitments other than `B` and `Bbl` do not matter. -/
theorem V_coords (hE : S.Enough fk Q) (hP : ∀ q : Gen S.N, P q.sym = Pi.single q 1) (hs : S.Solves fk P) (q : Gen S.N)
    (hq : q ≠ .B) (hq' : q ≠ .Bbl) : ∀ y ∈ fk.Y, ∀ z ∈ fk.Z y, ∑ j ∈ range S.m, (S.wt z).wV.getD j 0 • P (.V j) q = 0 := by
  intro y hy z hz
  obtain ⟨u, hu⟩ := hE.exU S y z
  refine S.poly_coeff (hE.X y z u) (T := fun d => P (.T y z d) q) fun x hx => ?_
  have h := congrFun (hs.poly y hy z hz u hu x hx) q
  unfold polyDef at h
  simp only [Pi.add_apply, Pi.sub_apply, Pi.smul_apply, Finset.sum_apply, P_B hP, P_Bbl hP, if_neg hq, if_neg hq',
    smul_zero, add_zero, sub_zero, Pi.zero_apply] at h
  exact h

end Sys

end CT
