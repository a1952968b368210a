import Verif.Proofs.ExtractPoly

/-! The equations of a tree in the free module over the generators: a witness. -/

namespace CT
open Finset

namespace Sys
variable {F : Type} [Field F] (S : Sys F)

section coords
variable {S} {P : Sym F → Gen S.N → F} (hP : ∀ q : Gen S.N, P q.sym = Pi.single q 1)
include hP

theorem P_B (q : Gen S.N) : P .B q = if q = .B then 1 else 0 := by
  have := hP .B
  simp only [Gen.sym] at this
  rw [this, Pi.single_apply]

theorem P_Bbl (q : Gen S.N) : P .Bbl q = if q = .Bbl then 1 else 0 := by
  have := hP .Bbl
  simp only [Gen.sym] at this
  rw [this, Pi.single_apply]

theorem P_G {i : Nat} (hi : i < S.N) (q : Gen S.N) : P (.G i) q = if q = .G ⟨i, hi⟩ then 1 else 0 := by
  have := hP (.G ⟨i, hi⟩)
  simp only [Gen.sym] at this
  rw [this, Pi.single_apply]

theorem P_H {i : Nat} (hi : i < S.N) (q : Gen S.N) : P (.H i) q = if q = .H ⟨i, hi⟩ then 1 else 0 := by
  have := hP (.H ⟨i, hi⟩)
  simp only [Gen.sym] at this
  rw [this, Pi.single_apply]

theorem sumG_at (c : Nat → F) (q : Gen S.N) : (∑ i ∈ range S.N, c i • P (.G i)) q = match q with
    | .G i => c i
    | _ => 0 := by
  rw [Finset.sum_apply]
  cases q with
  | G j =>
    rw [Finset.sum_eq_single j.1]
    · simp [P_G hP j.2]
    · intro b hb hne
      rw [Pi.smul_apply, P_G hP (mem_range.1 hb), if_neg, smul_zero]
      intro h; injection h with h; exact hne (by rw [h])
    · intro h; exact absurd (mem_range.2 j.2) h
  | _ => exact Finset.sum_eq_zero fun i hi => by rw [Pi.smul_apply, P_G hP (mem_range.1 hi)]; simp

theorem sumH_at (c : Nat → F) (q : Gen S.N) : (∑ i ∈ range S.N, c i • P (.H i)) q = match q with
    | .H i => c i
    | _ => 0 := by
  rw [Finset.sum_apply]
  cases q with
  | H j =>
    rw [Finset.sum_eq_single j.1]
    · simp [P_H hP j.2]
    · intro b hb hne
      rw [Pi.smul_apply, P_H hP (mem_range.1 hb), if_neg, smul_zero]
      intro h; injection h with h; exact hne (by rw [h])
    · intro h; exact absurd (mem_range.2 j.2) h
  | _ => exact Finset.sum_eq_zero fun i hi => by rw [Pi.smul_apply, P_H hP (mem_range.1 hi)]; simp

theorem comb_at (cg ch : Nat → F) (w : F) (a b : Nat → F) (c : F) (q : Gen S.N) :
    comb S.N (fun i => if i < S.N then cg i • P (.G i) else 0) (fun i => if i < S.N then ch i • P (.H i) else 0) (w • P .B) a b c q =
      match q with
      | .B => c * w
      | .Bbl => 0
      | .G i => a i * cg i
      | .H i => b i * ch i := by
  have e1 : ∑ i ∈ range S.N, a i • (if i < S.N then cg i • P (.G i) else 0) = ∑ i ∈ range S.N, (a i * cg i) • P (.G i) :=
    Finset.sum_congr rfl fun i hi => by rw [if_pos (mem_range.1 hi), smul_smul]
  have e2 : ∑ i ∈ range S.N, b i • (if i < S.N then ch i • P (.H i) else 0) = ∑ i ∈ range S.N, (b i * ch i) • P (.H i) :=
    Finset.sum_congr rfl fun i hi => by rw [if_pos (mem_range.1 hi), smul_smul]
  unfold comb
  rw [e1, e2, Pi.add_apply, Pi.add_apply, sumG_at hP, sumH_at hP, Pi.smul_apply, Pi.smul_apply, P_B hP]
  cases q <;> simp

theorem basis_indep {cg ch : Nat → F} {w : F} (hg : ∀ i, cg i ≠ 0) (hh : ∀ i, ch i ≠ 0) (hw : w ≠ 0) :
    Indep F S.N (fun i => if i < S.N then cg i • P (.G i) else 0) (fun i => if i < S.N then ch i • P (.H i) else 0) (w • P .B) := by
  intro a b c h
  refine ⟨fun i hi => ?_, fun i hi => ?_, ?_⟩
  · have := congrFun h (.G ⟨i, hi⟩)
    rw [comb_at hP] at this
    exact (mul_eq_zero.1 this).resolve_right (hg i)
  · have := congrFun h (.H ⟨i, hi⟩)
    rw [comb_at hP] at this
    exact (mul_eq_zero.1 this).resolve_right (hh i)
  · have := congrFun h .B
    rw [comb_at hP] at this
    exact (mul_eq_zero.1 this).resolve_right hw

end coords

variable {S}
/-- The coordinate of `G i`. -/
def cG (v : Gen S.N → F) (i : Nat) : F := if h : i < S.N then v (.G ⟨i, h⟩) else 0
/-- The coordinate of `H i`. -/
def cH (v : Gen S.N → F) (i : Nat) : F := if h : i < S.N then v (.H ⟨i, h⟩) else 0

variable [DecidableEq F] {fk : Forks F} {Q : Nat} {P : Sym F → Gen S.N → F}

omit [DecidableEq F] in
theorem fac_ne {u : F} (hu : u ≠ 0) (i : Nat) : S.fac u i ≠ 0 := by
  unfold fac; split_ifs
  · exact one_ne_zero
  · exact hu

/-- The inner product argument in the free module. -/
theorem open_coords (hE : S.Enough fk Q) (hP : ∀ q : Gen S.N, P q.sym = Pi.single q 1) (hs : S.Solves fk P)
    {y z u x : F} (hy : y ∈ fk.Y) (hz : z ∈ fk.Z y) (hu : u ∈ fk.U y z) (hx : x ∈ fk.X y z u) :
    S.openDef P y z u x .B = 0 ∧
    S.resp.tx y z u x = ∑ i ∈ range S.N, y ^ i * (S.fac u i)⁻¹ ^ 2 * (cG (S.openDef P y z u x) i * cH (S.openDef P y z u x) i) := by
  have hy0 : y ≠ 0 := fun h => hE.Y.1 (h ▸ hy)
  have hu0 : u ≠ 0 := fun h => (hE.U y z).1 (h ▸ hu)
  set s := ∑ i ∈ range S.N, y ^ i * (S.fac u i)⁻¹ ^ 2 * (cG (S.openDef P y z u x) i * cH (S.openDef P y z u x) i) with hs0
  have key : ∀ w ∈ fk.W y z u x, S.openDef P y z u x .B + w • (S.resp.tx y z u x - s) = 0 := by
    intro w hw
    have hw0 : w ≠ 0 := fun h => (hE.W y z u x).1 (h ▸ hw)
    obtain ⟨av, bv, h⟩ := ipp_extract (hE.C y z u x w) (fun l => P (.L y z u x w l)) (fun l => P (.R y z u x w l)) (S.resp.a y z u x w)
      (S.resp.b y z u x w) (w • P .B) S.lg [] (S.openDef P y z u x + S.resp.tx y z u x • (w • P .B))
      (fun i => if i < S.N then S.fac u i • P (.G i) else 0)
      (fun i => if i < S.N then (S.fac u i * y⁻¹ ^ i) • P (.H i) else 0)
      (basis_indep hP (fac_ne hu0) (fun i => mul_ne_zero (fac_ne hu0 i) (pow_ne_zero _ (inv_ne_zero hy0))) hw0)
      (fun us hl hp => hs.ipp y z u x w us ⟨hy, hz, hu, hx, hw, hp⟩ hl)
    have hc := fun q => (congrFun h q).trans (comb_at hP (S.fac u) (fun i => S.fac u i * y⁻¹ ^ i) w av bv _ q)
    have hG : ∀ i < S.N, cG (S.openDef P y z u x) i = av i * S.fac u i := by
      intro i hi
      have := hc (.G ⟨i, hi⟩)
      simp only [Pi.add_apply, Pi.smul_apply, P_B hP, reduceCtorEq, if_false, smul_zero, add_zero] at this
      unfold cG
      rw [dif_pos hi, this]
    have hH : ∀ i < S.N, cH (S.openDef P y z u x) i = bv i * (S.fac u i * y⁻¹ ^ i) := by
      intro i hi
      have := hc (.H ⟨i, hi⟩)
      simp only [Pi.add_apply, Pi.smul_apply, P_B hP, reduceCtorEq, if_false, smul_zero, add_zero] at this
      unfold cH
      rw [dif_pos hi, this]
    have hsum : s = ∑ i ∈ range S.N, av i * bv i := by
      rw [hs0]
      refine Finset.sum_congr rfl fun i hi => ?_
      rw [hG i (mem_range.1 hi), hH i (mem_range.1 hi)]
      have h1 := fac_ne (S := S) hu0 i
      have h2 : y ^ i ≠ 0 := pow_ne_zero _ hy0
      rw [inv_pow y i]
      field_simp
    have hB := hc .B
    simp only [Pi.add_apply, Pi.smul_apply, P_B hP, if_true, smul_eq_mul, mul_one] at hB
    have hB' : S.openDef P y z u x .B + S.resp.tx y z u x * w = s * w := hB.trans (by rw [hsum]; rfl)
    rw [smul_eq_mul]
    linear_combination hB'
  obtain ⟨h1, h2⟩ := two_zero (hE.W y z u x).2 key
  exact ⟨h1, sub_eq_zero.1 h2⟩

omit [DecidableEq F] in
theorem open_at (hP : ∀ q : Gen S.N, P q.sym = Pi.single q 1) (y z u x : F) (q : Gen S.N) (hq : q ≠ .Bbl) :
    S.openDef P y z u x q = ∑ s ∈ range (S.k + 3), x ^ S.e s * (S.slotA P s q + u * S.slotB P s q) +
      match q with
      | .G i => S.fac u i * (x ^ S.e 0 * (y⁻¹ ^ i.1 * (S.wt z).wR.getD i 0))
      | .H i => S.fac u i * (y⁻¹ ^ i.1 * S.rPub z x i - 1)
      | _ => 0 := by
  unfold openDef
  rw [Pi.add_apply, Pi.add_apply, Pi.sub_apply, sumG_at hP, sumH_at hP, Pi.smul_apply, P_Bbl hP, if_neg hq, Finset.sum_apply]
  simp only [Pi.smul_apply, Pi.add_apply, smul_eq_mul, mul_zero, sub_zero]
  cases q <;> simp

theorem slots_B (hE : S.Enough fk Q) (hP : ∀ q : Gen S.N, P q.sym = Pi.single q 1) (hs : S.Solves fk P) :
    ∀ s < S.k + 3, S.slotA P s .B = 0 ∧ S.slotB P s .B = 0 := by
  obtain ⟨y, hy⟩ := hE.exY
  obtain ⟨z, hz⟩ := hE.exZ S y
  intro s hs'
  refine two_zero (le_trans (by norm_num) (hE.U y z).2) fun u hu => ?_
  refine S.slots_zero (hE.X y z u) (fun s => S.slotA P s .B + u • S.slotB P s .B) (fun x hx => ?_) s hs'
  have h := (open_coords hE hP hs hy hz hu hx).1
  rw [open_at hP _ _ _ _ _ (by simp)] at h
  simpa using h

/-! ### The coefficient of the circuit equation -/

omit [DecidableEq F] in
theorem coeff_pairs (α β : Nat → F) (r : F) :
    (∑ s ∈ range (S.k + 3), ∑ s' ∈ range (S.k + 3), if S.e s + S.e s' = S.op then (α s + if s = 0 then r else 0) * β s' else 0) =
      (∑ s ∈ range (S.k + 3), ∑ s' ∈ range (S.k + 3), if S.e s + S.e s' = S.op then α s * β s' else 0) + r * β 0 := by
  have h : ∀ s s', (if S.e s + S.e s' = S.op then (α s + if s = 0 then r else 0) * β s' else 0) =
      (if S.e s + S.e s' = S.op then α s * β s' else 0) + if s = 0 then if S.e 0 + S.e s' = S.op then r * β s' else 0 else 0 := by
    intro s s'
    by_cases hs : s = 0
    · subst hs; split_ifs <;> simp_all; ring
    · simp [hs]
  simp only [h, Finset.sum_add_distrib]
  congr 1
  rw [Finset.sum_eq_single 0, Finset.sum_eq_single 0]
  · simp [S.e_zero.1]
  · intro s' hs' hne
    simp only [if_true]
    rw [if_neg]
    intro hh
    have := S.e_zero.1
    exact hne (S.e_inj (mem_range.1 hs') (by omega) (by omega))
  · intro hh; exact absurd (mem_range.2 (by omega)) hh
  · intro s _ hne
    simp [hne]
  · intro hh; exact absurd (mem_range.2 (by omega)) hh

omit [DecidableEq F] in
theorem coeff_weights (α ω : Nat → F) :
    (∑ s ∈ range (S.k + 3), ∑ s' ∈ range (S.k + 2), if S.e s + rDeg S.op s' = S.op then α s * ω s' else 0) =
      ∑ s ∈ range (S.k + 2), α s * ω s := by
  rw [Finset.sum_range_succ, Finset.sum_eq_zero (s := range (S.k + 2)) (f := fun s' => if S.e (S.k + 2) + rDeg S.op s' = S.op then _ else 0),
    add_zero]
  · refine Finset.sum_congr rfl fun s hs => ?_
    have he := S.e_add (mem_range.1 hs)
    rw [Finset.sum_eq_single s]
    · rw [if_pos he]
    · intro s' _ hne
      rw [if_neg]
      intro hh
      exact hne (S.rDeg_inj (by omega))
    · intro hh; exact absurd hs hh
  · intro s' _
    rw [if_neg]
    rw [S.e_last]; omega

omit [DecidableEq F] in
theorem coeff_one (α : Nat → F) : (∑ s ∈ range (S.k + 3), if S.e s = S.op then α s else 0) = α 1 := by
  rw [Finset.sum_eq_single 1]
  · rw [if_pos S.e_one]
  · intro s hs hne
    rw [if_neg]
    intro hh
    exact hne (S.e_inj (mem_range.1 hs) (by omega) (by rw [hh, S.e_one]))
  · intro hh; exact absurd (mem_range.2 (by omega)) hh

/-- The `G i` coordinate of slot `s`, second-phase part multiplied by `u`. -/
def sG (S : Sys F) (P : Sym F → Gen S.N → F) (u : F) (i s : Nat) : F := cG (S.slotA P s) i + u * cG (S.slotB P s) i
/-- The `H i` coordinate of slot `s`. -/
def sH (S : Sys F) (P : Sym F → Gen S.N → F) (u : F) (i s : Nat) : F := cH (S.slotA P s) i + u * cH (S.slotB P s) i

/-- Products of slots whose degrees add up to the degree of the circuit equation. -/
def pairs (S : Sys F) (A B : Nat → F) : F :=
  ∑ s ∈ range (S.k + 3), ∑ s' ∈ range (S.k + 3), if S.e s + S.e s' = S.op then A s * B s' else 0

theorem x_level (hE : S.Enough fk Q) (hP : ∀ q : Gen S.N, P q.sym = Pi.single q 1) (hs : S.Solves fk P)
    {y z u : F} (hy : y ∈ fk.Y) (hz : z ∈ fk.Z y) (hu : u ∈ fk.U y z) :
    ∑ i ∈ range S.N, (y ^ i * ((S.fac u i)⁻¹ ^ 2 * S.pairs (S.sG P u i) (S.sH P u i)) - y ^ i * ((S.fac u i)⁻¹ * S.sG P u i 1) +
      (S.fac u i)⁻¹ * (∑ s ∈ range (S.k + 2), S.sG P u i s * S.omega z i s) +
      (S.fac u i)⁻¹ * (S.sH P u i 0 * (S.wt z).wR.getD i 0)) =
    ∑ j ∈ range S.m, (S.wt z).wV.getD j 0 * P (.V j) .B + (S.wt z).wc := by
  have hy0 : y ≠ 0 := fun h => hE.Y.1 (h ▸ hy)
  have hu0 : u ≠ 0 := fun h => (hE.U y z).1 (h ▸ hu)
  set α : Nat → Nat → F := fun i s => S.sG P u i s + if s = 0 then S.fac u i * (y⁻¹ ^ i * (S.wt z).wR.getD i 0) else 0 with hα
  set t : Nat → Nat → F := fun d i => y ^ i * (S.fac u i)⁻¹ ^ 2 *
    ((∑ s ∈ range (S.k + 3), ∑ s' ∈ range (S.k + 3), if S.e s + S.e s' = d then α i s * S.sH P u i s' else 0) +
      S.fac u i * y⁻¹ ^ i * (∑ s ∈ range (S.k + 3), ∑ s' ∈ range (S.k + 2), if S.e s + rDeg S.op s' = d then α i s * S.omega z i s' else 0) -
      S.fac u i * (∑ s ∈ range (S.k + 3), if S.e s = d then α i s else 0)) with ht
  have htx : ∀ x ∈ fk.X y z u, S.resp.tx y z u x = ∑ d ∈ range (2 * (S.op + 1) + 1), x ^ d * ∑ i ∈ range S.N, t d i := by
    intro x hx
    rw [(open_coords hE hP hs hy hz hu hx).2]
    have hG : ∀ i < S.N, cG (S.openDef P y z u x) i = ∑ s ∈ range (S.k + 3), x ^ S.e s * α i s := by
      intro i hi
      unfold cG
      rw [dif_pos hi, open_at hP _ _ _ _ _ (by simp)]
      have e1 : ∀ r : F, (∑ s ∈ range (S.k + 3), x ^ S.e s * if s = 0 then r else 0) = x ^ S.e 0 * r := by
        intro r
        rw [Finset.sum_eq_single 0]
        · simp
        · intro s _ hne; simp [hne]
        · intro hh; exact absurd (mem_range.2 (by omega)) hh
      have e2 : ∑ s ∈ range (S.k + 3), x ^ S.e s * α i s = ∑ s ∈ range (S.k + 3), x ^ S.e s * S.sG P u i s +
          x ^ S.e 0 * (S.fac u i * (y⁻¹ ^ i * (S.wt z).wR.getD i 0)) := by
        rw [← e1, ← Finset.sum_add_distrib]
        exact Finset.sum_congr rfl fun s _ => mul_add _ _ _
      have e3 : ∑ s ∈ range (S.k + 3), x ^ S.e s * S.sG P u i s =
          ∑ s ∈ range (S.k + 3), x ^ S.e s * (S.slotA P s (.G ⟨i, hi⟩) + u * S.slotB P s (.G ⟨i, hi⟩)) := by
        refine Finset.sum_congr rfl fun s _ => ?_
        unfold sG cG
        rw [dif_pos hi, dif_pos hi]
      rw [e2, e3]; ring
    have hH : ∀ i < S.N, cH (S.openDef P y z u x) i = ∑ s ∈ range (S.k + 3), x ^ S.e s * S.sH P u i s +
        S.fac u i * y⁻¹ ^ i * S.rPub z x i - S.fac u i := by
      intro i hi
      unfold cH
      rw [dif_pos hi, open_at hP _ _ _ _ _ (by simp)]
      have : ∑ s ∈ range (S.k + 3), x ^ S.e s * S.sH P u i s =
          ∑ s ∈ range (S.k + 3), x ^ S.e s * (S.slotA P s (.H ⟨i, hi⟩) + u * S.slotB P s (.H ⟨i, hi⟩)) := by
        refine Finset.sum_congr rfl fun s _ => ?_
        unfold sH cH
        rw [dif_pos hi, dif_pos hi]
      rw [this]; ring
    simp only [Finset.mul_sum (s := range S.N)]
    rw [Finset.sum_comm]
    refine Finset.sum_congr rfl fun i hi => ?_
    rw [hG i (mem_range.1 hi), hH i (mem_range.1 hi)]
    have hle : ∀ s, S.e s ≤ S.op + 1 := S.e_le
    have p1 := prod_by_degree (2 * (S.op + 1) + 1) (S.k + 3) (S.k + 3) S.e S.e (fun s _ s' _ => by have := hle s; have := hle s'; omega) x
      (α i) (S.sH P u i)
    have p2 := prod_by_degree (2 * (S.op + 1) + 1) (S.k + 3) (S.k + 2) S.e (rDeg S.op)
      (fun s _ s' hs' => by have := hle s; have := S.rDeg_le hs'; omega) x (α i) (S.omega z i)
    have p3 := by_degree (G := F) (2 * (S.op + 1) + 1) (S.k + 3) S.e (fun s _ => by have := hle s; omega) x (α i)
    simp only [smul_eq_mul] at p3
    have e3 : ∑ d ∈ range (2 * (S.op + 1) + 1), x ^ d * t d i = y ^ i * (S.fac u i)⁻¹ ^ 2 *
        ((∑ s ∈ range (S.k + 3), x ^ S.e s * α i s) * (∑ s ∈ range (S.k + 3), x ^ S.e s * S.sH P u i s) +
          S.fac u i * y⁻¹ ^ i * ((∑ s ∈ range (S.k + 3), x ^ S.e s * α i s) * (∑ s ∈ range (S.k + 2), x ^ rDeg S.op s * S.omega z i s)) -
          S.fac u i * (∑ s ∈ range (S.k + 3), x ^ S.e s * α i s)) := by
      rw [p1, p2, p3]
      simp only [ht, Finset.mul_sum (s := range (2 * (S.op + 1) + 1))]
      rw [← Finset.sum_add_distrib, ← Finset.sum_sub_distrib, Finset.mul_sum]
      refine Finset.sum_congr rfl fun d _ => ?_
      ring
    rw [e3]
    unfold rPub
    ring
  have hcoef := S.poly_coeff (hE.X y z u)
    (A := (∑ j ∈ range S.m, (S.wt z).wV.getD j 0 * P (.V j) .B + ((S.wt z).wc + S.delta y z)) - ∑ i ∈ range S.N, t S.op i)
    (T := fun d => P (.T y z d) .B - ∑ i ∈ range S.N, t d i) (fun x hx => by
      have h := congrFun (hs.poly y hy z hz u hu x hx) .B
      unfold polyDef at h
      simp only [Pi.add_apply, Pi.sub_apply, Pi.smul_apply, Finset.sum_apply, P_B hP, P_Bbl hP, if_true, reduceCtorEq, if_false,
        smul_eq_mul, mul_one, mul_zero, add_zero, Pi.zero_apply] at h
      rw [htx x hx, ← Finset.add_sum_erase _ _ (mem_range.2 (show S.op < 2 * (S.op + 1) + 1 by omega))] at h
      simp only [smul_eq_mul, mul_sub, Finset.sum_sub_distrib]
      linear_combination h)
  have htop : ∀ i ∈ range S.N, t S.op i =
      (y ^ i * ((S.fac u i)⁻¹ ^ 2 * S.pairs (S.sG P u i) (S.sH P u i)) - y ^ i * ((S.fac u i)⁻¹ * S.sG P u i 1) +
      (S.fac u i)⁻¹ * (∑ s ∈ range (S.k + 2), S.sG P u i s * S.omega z i s) +
      (S.fac u i)⁻¹ * (S.sH P u i 0 * (S.wt z).wR.getD i 0)) + y⁻¹ ^ i * (S.wt z).wR.getD i 0 * (S.wt z).wL.getD i 0 := by
    intro i _
    have h1 := fac_ne (S := S) hu0 i
    have h2 : y ^ i ≠ 0 := pow_ne_zero _ hy0
    simp only [ht]
    rw [coeff_weights, coeff_one]
    simp only [hα]
    rw [coeff_pairs]
    have e1 : ∑ s ∈ range (S.k + 2), (S.sG P u i s + if s = 0 then S.fac u i * (y⁻¹ ^ i * (S.wt z).wR.getD i 0) else 0) * S.omega z i s =
        ∑ s ∈ range (S.k + 2), S.sG P u i s * S.omega z i s + S.fac u i * (y⁻¹ ^ i * (S.wt z).wR.getD i 0) * (S.wt z).wL.getD i 0 := by
      simp only [add_mul, Finset.sum_add_distrib]
      congr 1
      rw [Finset.sum_eq_single 0]
      · simp [omega]
      · intro s _ hne; simp [hne]
      · intro hh; exact absurd (mem_range.2 (by omega)) hh
    rw [e1]
    unfold pairs
    simp only [one_ne_zero, if_false, add_zero]
    generalize ∑ s ∈ range (S.k + 2), S.sG P u i s * S.omega z i s = q1
    generalize (∑ s ∈ range (S.k + 3), ∑ s' ∈ range (S.k + 3), if S.e s + S.e s' = S.op then S.sG P u i s * S.sH P u i s' else 0) = q2
    rw [inv_pow y i]
    field_simp
    ring
  rw [Finset.sum_congr rfl htop, Finset.sum_add_distrib] at hcoef
  unfold delta at hcoef
  linear_combination -hcoef

end Sys

end CT
