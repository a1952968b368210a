import Verif.Proofs.Accept
import Verif.Props.Schedule

/-!
# A Prover that may put an `H` part into `A_O`

`cheatTail` is `proveTail` with one more argument: a vector `hO` committed on the `H` generators in
`A_O1`. With `hO = []` it is the honest Prover. One analysis serves completeness (C01) and the
counterexample to soundness (C09).
-/

namespace CT
open Finset
variable {F G X : Type} [Field F]

/-- Add `v` to the coefficient vector of degree `d`. -/
def addRow (p : VecPoly F) (d : Nat) (v : Nat → F) : VecPoly F :=
  p.modify d fun row => (List.range row.length).map fun i => row.getD i 0 + v i

theorem addRow_zero (p : VecPoly F) (d : Nat) (v : Nat → F) (h : ∀ i, v i = 0) : addRow p d v = p := by
  unfold addRow
  have : (fun row : List F => (List.range row.length).map fun i => row.getD i 0 + v i) = id := by
    funext row
    simp only [h, add_zero]
    exact (eq_map_range row 0).symm
  rw [this]
  exact List.modify_id d p

theorem addRow_rep {p : VecPoly F} {D n : Nat} {f : Nat → Nat → F} (h : p.Rep D n f) (d : Nat) (v : Nat → F) :
    (addRow p d v).Rep D n fun e i => f e i + if e = d then v i else 0 where
  len := by simp [addRow, h.len]
  row := by
    intro w hw
    obtain ⟨i, hi, rfl⟩ := List.mem_iff_getElem.1 hw
    simp only [addRow, List.length_modify] at hi
    simp only [addRow, List.getElem_modify]
    split
    · simp [h.row _ (List.getElem_mem hi)]
    · exact h.row _ (List.getElem_mem hi)
  get := by
    intro e i he hi
    have he' : e < p.length := by rw [h.len]; exact he
    rw [getD_of_lt (addRow p d v) e _ (by simpa [addRow] using he')]
    simp only [addRow, List.getElem_modify]
    have hg := h.get e i he hi
    rw [getD_of_lt _ _ _ he'] at hg
    split
    · rename_i hde
      rw [getD_map_range, h.row _ (List.getElem_mem he'), if_pos hi, hg, if_pos hde.symm]
    · rename_i hde
      rw [hg, if_neg (Ne.symm hde), add_zero]

theorem Rep_evalF {p : VecPoly F} {D n : Nat} {f : Nat → Nat → F} (h : p.Rep D n f) (hD : 0 < D) (x : F) :
    (p.eval x).length = n ∧ ∀ i < n, (p.eval x).getD i 0 = ∑ e ∈ range D, x ^ e * f e i := by
  have hh : (p.headD []).length = n := by
    rw [headD_eq, getD_of_lt _ _ _ (by rw [h.len]; omega)]
    exact h.row _ (List.getElem_mem _)
  refine ⟨by rw [VecPoly.eval_length, hh], fun i hi => ?_⟩
  rw [VecPoly.eval_getD _ _ _ (by omega), h.len]
  exact Finset.sum_congr rfl fun e he => by rw [h.get e i (mem_range.1 he) hi]

theorem slot_sum (k : Nat) (deg : Nat → Nat) (hdeg : ∀ j < k + 2, deg j ≤ opDegree k)
    (V : Nat → F) (sv x : F) :
    ∑ e ∈ range (opDegree k + 2), x ^ e * ((∑ j ∈ range (k + 2), if e = deg j then V j else 0) +
      if e = opDegree k + 1 then sv else 0) =
    ∑ j ∈ range (k + 2), x ^ deg j * V j + x ^ (opDegree k + 1) * sv := by
  have : ∀ d ∈ range (opDegree k + 2), x ^ d * ((∑ j ∈ range (k + 2), if d = deg j then V j else 0) +
      if d = opDegree k + 1 then sv else 0) =
      (∑ j ∈ range (k + 2), if d = deg j then x ^ deg j * V j else 0) +
        if d = opDegree k + 1 then x ^ (opDegree k + 1) * sv else 0 := by
    intro d hd
    rw [mul_add, Finset.mul_sum]
    have key : ∀ (e : Nat) (v : F), x ^ d * (if d = e then v else 0) = if d = e then x ^ e * v else 0 := by
      intro e v
      split
      · rename_i h; rw [h]
      · rw [mul_zero]
    simp only [key]
  rw [Finset.sum_congr rfl this, Finset.sum_add_distrib, Finset.sum_comm, Finset.sum_ite_eq',
    if_pos (by simp)]
  congr 1
  refine Finset.sum_congr rfl fun j hj => ?_
  rw [Finset.sum_ite_eq', if_pos]
  have := hdeg j (mem_range.1 hj)
  simp; omega

/-- The committed vector whose left degree is `0`, if there is one: the last one if their number is
odd. -/
def lastVec (s : PState F G X) (i : Nat) : F :=
  if s.vecOpen.length % 2 = 1 then (s.vecOpen.getD (s.vecOpen.length - 1) (0, [])).2.getD i 0 else 0

theorem slot_zero (s : PState F G X) (wt : Weights F) (yinv : List F) (i : Nat) :
    (∑ j ∈ range (s.vecOpen.length + 2), if 0 = opDegree s.vecOpen.length -
      slotR (opDegree s.vecOpen.length) j then lSlot s wt yinv j i else 0) = lastVec s i := by
  unfold lastVec
  generalize hk : s.vecOpen.length = k
  obtain ⟨m, hm, hop, -⟩ := opDegree_pos k
  have hop' : opDegree k = 2 * (1 + k / 2) := by unfold opDegree; omega
  have hmk : m = 1 + k / 2 := by omega
  rw [hop]
  by_cases hodd : k % 2 = 1
  · rw [if_pos hodd, Finset.sum_eq_single (k + 1)]
    · rw [if_pos]
      · simp only [lSlot, if_neg (by omega : ¬ k + 1 = 0), if_neg (by omega : ¬ k + 1 = 1)]
        rfl
      · unfold slotR
        rw [if_neg (by omega), if_neg (by omega), if_neg (by omega)]
        omega
    · intro j hj hne
      have hj := mem_range.1 hj
      rw [if_neg]
      unfold slotR
      split
      · omega
      · split
        · omega
        · split <;> omega
    · intro h; simp at h
  · rw [if_neg hodd]
    apply Finset.sum_eq_zero
    intro j hj
    have hj := mem_range.1 hj
    rw [if_neg]
    unfold slotR
    split
    · omega
    · split
      · omega
      · split <;> omega

/-- The coefficient changes by the product of the constant coefficient of `l` with what was added. -/
theorem coeff_addRow {l r : VecPoly F} {n op : Nat} {f h : Nat → Nat → F} (hl : l.Rep (op + 2) n f)
    (hr : r.Rep (op + 2) n h) (v : Nat → F) :
    (VecPoly.innerProduct l (addRow r op v)).getD op 0 =
      (VecPoly.innerProduct l r).getD op 0 + ∑ i ∈ range n, f 0 i * v i := by
  have hr' := addRow_rep hr op v
  have row : ∀ {p : VecPoly F} {f : Nat → Nat → F}, p.Rep (op + 2) n f → ∀ e < op + 2, (p.getD e []).length = n := by
    intro p f hp e he
    rw [getD_of_lt _ _ _ (by rw [hp.len]; exact he)]
    exact hp.row _ (List.getElem_mem _)
  have ip : ∀ {r : VecPoly F} {h : Nat → Nat → F}, r.Rep (op + 2) n h → ∀ e ≤ op,
      CT.innerProduct (l.getD e []) (r.getD (op - e) []) = ∑ i ∈ range n, f e i * h (op - e) i := by
    intro r h hr e he
    rw [innerProduct_eq _ _ n (Or.inl (row hl e (by omega)).le)]
    refine Finset.sum_congr rfl fun i hi => ?_
    rw [hl.get e i (by omega) (mem_range.1 hi), hr.get (op - e) i (by omega) (mem_range.1 hi)]
  have co : ∀ {r : VecPoly F} {h : Nat → Nat → F}, r.Rep (op + 2) n h →
      (VecPoly.innerProduct l r).getD op 0 = ∑ e ∈ range (op + 1), ∑ i ∈ range n, f e i * h (op - e) i := by
    intro r h hr
    rw [VecPoly.innerProduct_getD _ _ _ (by rw [hl.len, hr.len]; omega), hl.len, hr.len]
    refine Finset.sum_congr rfl fun e he => ?_
    have he := mem_range.1 he
    rw [if_pos (by omega), ip hr e (by omega)]
  rw [co hr, co hr']
  simp only [mul_add, Finset.sum_add_distrib]
  congr 1
  rw [Finset.sum_eq_single 0]
  · refine Finset.sum_congr rfl fun i _ => ?_
    rw [if_pos (by omega)]
  · intro e he hne
    have he := mem_range.1 he
    apply Finset.sum_eq_zero
    intro i _
    rw [if_neg (by omega), mul_zero]
  · intro h; simp at h

variable [DecidableEq F] [AddCommGroup G] [Module F G] [DecidableEq G]

/-- `proveTail` with an `H` part `hO` in `A_O1`. -/
def cheatTail (o : Oracle F G X) (g : Gens G) (rnd : PRand F) (hO : List F) (n1 : Nat) (c1 : Com G)
    (s : PState F G X) : Except Err (R1CSProof F G × Transcript F G X) :=
  let ncomm := s.vecOpen.length
  let op := opDegree ncomm
  let ops := opSplits op
  let n := s.size
  let n2 := n - n1
  let paddedN := nextPow2 n
  let pad := paddedN - n
  if g.capacity < paddedN then .error .invalidGeneratorsLength
  else if n2 > 0 ∧ s.vecOpen ≠ [] then
    .error (.panic "assertion failed: !has_2nd_phase_commitments || vec_open.is_empty()")
  else
    let i2 := if n2 > 0 then rnd.i2 else 0
    let o2 := if n2 > 0 then rnd.o2 else 0
    let s2 := if n2 > 0 then rnd.s2 else 0
    let c2 := commit2 g rnd s n1 n
    let t := s.transcript ++ [.point "A_I2" c2.AI, .point "A_O2" c2.AO, .point "S2" c2.S]
    let (y, t) := challengeScalar o t "y"
    let (z, t) := challengeScalar o t "z"
    match s.flattened z with
    | none => .error (.panic "flattened_constraints: index out of bounds")
    | some wt =>
      if y = 0 then .error (.panic "y.inverse().unwrap()")
      else
        let yinv := expIter y⁻¹ paddedN
        let ypow := expIter y paddedN
        let sL := (List.range n1).map rnd.sL1 ++ (List.range n2).map rnd.sL2
        let sR := (List.range n1).map rnd.sR1 ++ (List.range n2).map rnd.sR2
        let lp := lPoly s wt yinv n op ops sL
        let rp := addRow (rPoly s wt ypow n op ops sR) op fun i => ypow.getD i 0 * hO.getD i 0
        let tp := VecPoly.innerProduct lp rp
        let T := (List.range (2 * (op + 1) + 1)).map fun d =>
          if d = op then 0 else g.pc.commit (tp.getD d 0) (rnd.tau d)
        match appendT op 0 T t with
        | .error e => .error e
        | .ok t =>
          let (u, t) := challengeScalar o t "u"
          let (x, t) := challengeScalar o t "x"
          let tbl := (List.range (2 * (op + 1) + 1)).map fun d =>
            if d = op then innerProduct wt.wV s.vBlinding else rnd.tau d
          let tx := polyEval tp x
          let txBl := polyEval tbl x
          let lv := lp.eval x ++ List.replicate pad 0
          let rv := rp.eval x ++ ((List.range pad).map fun i => - ypow.getD (n + i) 0)
          let eBl := eEval x (eTerms op ops (rnd.i1 + u * i2) (rnd.o1 + u * o2) (rnd.s1 + u * s2)
            (s.vecOpen.map (·.1))) 1
          let t := t ++ [.scalar "t_x" tx, .scalar "t_x_blinding" txBl, .scalar "e_blinding" eBl]
          let (w, t) := challengeScalar o t "w"
          let Q := w • g.pc.B
          let Gf := List.replicate n1 1 ++ List.replicate (n2 + pad) u
          let Hf := List.zipWith (· * ·) yinv Gf
          match ippCreate o Q Gf Hf (g.Gs.take paddedN) (g.Hs.take paddedN) lv rv t with
          | .error e => .error e
          | .ok (ipp, t) =>
            .ok (⟨c1.AI, c1.AO, c1.S, c2.AI, c2.AO, c2.S, T, tx, txBl, eBl, ipp⟩, t)

omit [DecidableEq G] in
theorem cheatTail_nil [DecidableEq G] (o : Oracle F G X) (g : Gens G) (rnd : PRand F) (n1 : Nat) (c1 : Com G)
    (s : PState F G X) : cheatTail o g rnd [] n1 c1 s = proveTail o g rnd n1 c1 s := by
  unfold cheatTail proveTail
  have h : ∀ (p : VecPoly F) (d : Nat) (yp : List F),
      addRow p d (fun i => yp.getD i 0 * ([] : List F).getD i 0) = p :=
    fun p d yp => addRow_zero _ _ _ fun i => by simp
  simp only [h]
  rfl

end CT
