import Verif.Proofs.ExtractWitness
import Verif.Props.Verification

/-! Extraction: from a tree of accepting proofs to a relation between the generators or a witness. -/

namespace CT
open Finset

section ipp
variable {F G X : Type} [Field F] [AddCommGroup G] [Module F G]

theorem ippDef_congr (L R : List F → G) (a b : List F → F) (Q : G) (us pre : List F) (P : G) {gs gs' hs hs' : Nat → G}
    (hg : ∀ i < 2 ^ us.length, gs i = gs' i) (hh : ∀ i < 2 ^ us.length, hs i = hs' i) :
    ippDef L R a b Q us pre P gs hs = ippDef L R a b Q us pre P gs' hs' := by
  induction us generalizing pre P gs gs' hs hs' with
  | nil => simp only [ippDef]; rw [hg 0 (by simp), hh 0 (by simp)]
  | cons u us ih =>
    simp only [ippDef]
    have : 2 ^ (u :: us).length = 2 ^ us.length + 2 ^ us.length := by rw [List.length_cons, pow_succ]; ring
    rw [this] at hg hh
    refine ih _ _ (fun i hi => ?_) (fun i hi => ?_)
    · rw [hg i (by omega), hg (2 ^ us.length + i) (by omega)]
    · rw [hh i (by omega), hh (2 ^ us.length + i) (by omega)]

theorem halve_getD' (p q : F) (gs : List G) (n i : Nat) (h : gs.length = n + n) (hi : i < n) :
    (halve p q gs).getD i 0 = p • gs.getD i 0 + q • gs.getD (n + i) 0 := by
  have h2 : gs.length / 2 = n := by omega
  unfold halve
  rw [h2, getD_of_lt _ _ _ (by simpa using hi)]
  simp

theorem rounds_ippDef (o : Oracle F G X) (L R : List F → G) (a b : List F → F) (Q : G) (us pre : List F) (t : Transcript F G X) (P : G)
    (gs hs : List G) (hg : gs.length = 2 ^ us.length) (hh : hs.length = 2 ^ us.length)
    (hc : roundChallenges o ((List.range us.length).map fun i => (L (pre ++ us.take i), R (pre ++ us.take i))) t = us)
    (h : RoundByRound o Q (a (pre ++ us)) (b (pre ++ us))
      ((List.range us.length).map fun i => (L (pre ++ us.take i), R (pre ++ us.take i))) t P gs hs) :
    ippDef L R a b Q us pre P (fun i => gs.getD i 0) (fun i => hs.getD i 0) = 0 := by
  induction us generalizing pre t P gs hs with
  | nil =>
    simp only [List.append_nil, List.length_nil, List.range_zero, List.map_nil, RoundByRound] at h
    simp only [ippDef]
    rw [h, sub_self]
  | cons u us ih =>
    have hlen : 2 ^ (u :: us).length = 2 ^ us.length + 2 ^ us.length := by rw [List.length_cons, pow_succ]; ring
    rw [hlen] at hg hh
    have hmap : ((List.range (u :: us).length).map fun i => (L (pre ++ (u :: us).take i), R (pre ++ (u :: us).take i))) =
        (L pre, R pre) :: ((List.range us.length).map fun i => (L ((pre ++ [u]) ++ us.take i), R ((pre ++ [u]) ++ us.take i))) := by
      rw [List.length_cons, List.range_succ_eq_map]
      simp [List.map_map, Function.comp_def]
    rw [hmap] at hc h
    simp only [roundChallenges, List.cons.injEq] at hc
    simp only [RoundByRound] at h
    obtain ⟨hu, hc⟩ := hc
    obtain ⟨-, -, h⟩ := h
    rw [hu] at h
    have hl1 : (halve u⁻¹ u gs).length = 2 ^ us.length := by unfold halve; rw [List.length_map, List.length_range]; omega
    have hl2 : (halve u u⁻¹ hs).length = 2 ^ us.length := by unfold halve; rw [List.length_map, List.length_range]; omega
    have := ih (pre ++ [u]) _ _ _ _ hl1 hl2 hc
      (by rw [List.append_assoc]; exact h)
    simp only [ippDef]
    refine Eq.trans ?_ this
    refine ippDef_congr _ _ _ _ _ _ _ _ (fun i hi => ?_) (fun i hi => ?_)
    · exact (halve_getD' _ _ gs _ i hg hi).symm
    · exact (halve_getD' _ _ hs _ i hh hi).symm

end ipp

section assembly
variable {F : Type} [Field F]

theorem Gen.sum_univ {M : Type} [AddCommMonoid M] {N : Nat} (f : Gen N → M) :
    ∑ q, f q = f .B + f .Bbl + ∑ i : Fin N, f (.G i) + ∑ i : Fin N, f (.H i) := by
  let e : Gen N ≃ (Unit ⊕ Unit) ⊕ (Fin N ⊕ Fin N) :=
    { toFun := fun | .B => .inl (.inl ()) | .Bbl => .inl (.inr ()) | .G i => .inr (.inl i) | .H i => .inr (.inr i)
      invFun := fun | .inl (.inl _) => .B | .inl (.inr _) => .Bbl | .inr (.inl i) => .G i | .inr (.inr i) => .H i
      left_inv := by intro q; cases q <;> rfl
      right_inv := by rintro ((_ | _) | (_ | _)) <;> rfl }
  rw [Fintype.sum_equiv e f (fun q => f (e.symm q)) (fun q => by simp)]
  simp only [Fintype.sum_sum_type, Fintype.sum_unique]
  simp only [add_assoc]
  rfl

/-- The weights of a circuit. -/
def Circuit.weights (c : Circuit F) (z : F) : Option (Weights F) :=
  flattenLoop true z c.constraints z (Weights.zero c.n c.m c.dims)

/-- The scalars of the equations. -/
def Circuit.sys (c : Circuit F) (R : Responses F) (lg : Nat) : Sys F where
  k := c.dims.length
  m := c.m
  n1 := c.first
  lg := lg
  wt z := (c.weights z).getD (Weights.zero 0 0 [])
  resp := R

variable {G X : Type} [AddCommGroup G] [Module F G]

/-- The points of a tree of proofs. -/
def treePts (g : Gens G) (t2 : VState F G X) (M : Messages F G) : Sym F → G
  | .B => g.pc.B
  | .Bbl => g.pc.Bbl
  | .G i => g.Gs.getD i 0
  | .H i => g.Hs.getD i 0
  | .AI1 => M.AI1
  | .AO1 => M.AO1
  | .S1 => M.S1
  | .AI2 => M.AI2
  | .AO2 => M.AO2
  | .S2 => M.S2
  | .C j => (t2.vecComms.map (·.1)).getD j 0
  | .V j => t2.V.getD j 0
  | .T y z d => (M.T y z).getD d 0
  | .L y z u x w pre => M.L y z u x w pre
  | .R y z u x w pre => M.R y z u x w pre

variable [DecidableEq F] [DecidableEq G]

omit [DecidableEq F] [DecidableEq G] in
theorem sys_polyDef (g : Gens G) (t t2 : VState F G X) (M : Messages F G) (R : Responses F) (lg : Nat) {y z u x w : F} {us : List F}
    (hl : us.length = lg) {o : Oracle F G X} {wt : Weights F} (hw : t2.flattened z = some wt)
    (hch : HasChallenges o (strategyProof M R y z u x w us) t2 y z u x w us) :
    ((t.circuit t2).sys R lg).polyDef (treePts g t2 M) y z u x =
      (paperCheck o (strategyProof M R y z u x w us) t t2 wt).polyDefect g (M.T y z) (R.tx y z u x) (R.txBl y z u x) := by
  have hwt : ((t.circuit t2).sys R lg).wt z = wt := by
    show ((t.circuit t2).weights z).getD _ = wt
    have : (t.circuit t2).weights z = some wt := hw
    rw [this]; rfl
  have hop : ((t.circuit t2).sys R lg).op = (paperCheck o (strategyProof M R y z u x w us) t t2 wt).op := by
    simp [Sys.op, Check.op, Circuit.sys, VState.circuit, paperCheck]
  have hN : ((t.circuit t2).sys R lg).N = (paperCheck o (strategyProof M R y z u x w us) t t2 wt).N := by
    simp [Sys.N, Circuit.sys, paperCheck, strategyProof, hl]
  have hy : (paperCheck o (strategyProof M R y z u x w us) t t2 wt).y = y := hch.y
  have hx : (paperCheck o (strategyProof M R y z u x w us) t t2 wt).x = x := hch.x
  have hd : ((t.circuit t2).sys R lg).delta y z = (paperCheck o (strategyProof M R y z u x w us) t t2 wt).delta := by
    unfold Sys.delta Check.delta
    rw [hwt, hN, hy]; rfl
  unfold Sys.polyDef Check.polyDefect
  rw [hwt, hop, hd, hx]
  rfl

omit [DecidableEq F] [DecidableEq G] in
theorem sys_openDef (g : Gens G) (t t2 : VState F G X) (M : Messages F G) (R : Responses F) (lg : Nat) {y z u x w : F} {us : List F}
    (hl : us.length = lg) {o : Oracle F G X} {wt : Weights F} (hw : t2.flattened z = some wt)
    (hch : HasChallenges o (strategyProof M R y z u x w us) t2 y z u x w us) :
    ((t.circuit t2).sys R lg).openDef (treePts g t2 M) y z u x =
      (paperCheck o (strategyProof M R y z u x w us) t t2 wt).opened g M.AI1 M.AO1 M.S1 M.AI2 M.AO2 M.S2 (R.eBl y z u x) := by
  have hwt : ((t.circuit t2).sys R lg).wt z = wt := by
    show ((t.circuit t2).weights z).getD _ = wt
    have : (t.circuit t2).weights z = some wt := hw
    rw [this]; rfl
  set ch := paperCheck o (strategyProof M R y z u x w us) t t2 wt with hchdef
  set S := (t.circuit t2).sys R lg with hS
  have hk : S.k = ch.comms.length := by simp [hS, hchdef, Circuit.sys, VState.circuit, paperCheck]
  have hop : S.op = ch.op := by unfold Sys.op Check.op; rw [hk]
  have hN : S.N = ch.N := by
    simp [hS, hchdef, Sys.N, Circuit.sys, paperCheck, strategyProof, hl]
  have hy : ch.y = y := hch.y
  have hx : ch.x = x := hch.x
  have hu : ch.u = u := hch.u
  have hfac : ∀ i, S.fac u i = ch.factor i := by
    intro i; unfold Sys.fac Check.factor; rw [hu]; rfl
  have e0 : S.e 0 = lDeg ch.op 0 := by unfold Sys.e; rw [if_pos (by omega), hop]
  have hr : ∀ i, S.rPub z x i = ch.rPublic i := by
    intro i
    unfold Sys.rPub Check.rPublic
    rw [sum_slots, hop, hx, hk]
    simp only [Sys.omega, hwt]
    congr 1
  have hsl : ∑ s ∈ range (S.k + 3), x ^ S.e s • (S.slotA (treePts g t2 M) s + u • S.slotB (treePts g t2 M) s) =
      ∑ j ∈ range ch.comms.length, ch.x ^ lDeg ch.op (j + 2) • ch.comms.getD j 0 +
      ch.x ^ lDeg ch.op 0 • (M.AI1 + ch.u • M.AI2) + ch.x ^ lDeg ch.op 1 • (M.AO1 + ch.u • M.AO2) +
      ch.x ^ (ch.op + 1) • (M.S1 + ch.u • M.S2) := by
    rw [Finset.sum_range_succ, Finset.sum_range_succ', Finset.sum_range_succ', hx, hu, ← hk]
    have h1 : ∀ j ∈ range S.k, x ^ S.e (j + 1 + 1) • (S.slotA (treePts g t2 M) (j + 1 + 1) + u • S.slotB (treePts g t2 M) (j + 1 + 1)) =
        x ^ lDeg ch.op (j + 2) • ch.comms.getD j 0 := by
      intro j hj
      have hj := mem_range.1 hj
      have : S.e (j + 1 + 1) = lDeg ch.op (j + 2) := by unfold Sys.e; rw [if_pos (by omega), hop]
      rw [this]
      unfold Sys.slotA Sys.slotB
      rw [if_neg (by omega), if_neg (by omega), if_pos (by omega), if_neg (by omega), if_neg (by omega), if_pos (by omega), smul_zero, add_zero]
      rfl
    have h2 : S.e (0 + 1) = lDeg ch.op 1 := by unfold Sys.e; rw [if_pos (by omega), hop]
    rw [Finset.sum_congr rfl h1, h2, e0, S.e_last, hop]
    have h3 : S.slotA (treePts g t2 M) (S.k + 2) = M.S1 := by
      unfold Sys.slotA; rw [if_neg (by omega), if_neg (by omega), if_neg (by omega)]; rfl
    have h4 : S.slotB (treePts g t2 M) (S.k + 2) = M.S2 := by
      unfold Sys.slotB; rw [if_neg (by omega), if_neg (by omega), if_neg (by omega)]; rfl
    rw [h3, h4]
    have h5 : S.slotA (treePts g t2 M) 0 = M.AI1 := rfl
    have h6 : S.slotB (treePts g t2 M) 0 = M.AI2 := rfl
    have h7 : S.slotA (treePts g t2 M) (0 + 1) = M.AO1 := rfl
    have h8 : S.slotB (treePts g t2 M) (0 + 1) = M.AO2 := rfl
    rw [h5, h6, h7, h8]
    abel
  unfold Sys.openDef Check.opened
  rw [hsl, hN, e0, hwt]
  simp only [hfac, hr, hy, hx]
  rfl

/-- The equations of an accepted tree. -/
theorem accepts_path {g : Gens G} {t t2 : VState F G X} {M : Messages F G} {R : Responses F} {fk : Forks F} {lg : Nat}
    (hG : g.capacity ≤ g.Gs.length) (hH : g.capacity ≤ g.Hs.length) (h : AcceptsTree g t t2 M R fk lg)
    {y z u x w : F} {us : List F} (hp : fk.Path y z u x w us) (hl : us.length = lg) :
    ((t.circuit t2).sys R lg).polyDef (treePts g t2 M) y z u x = 0 ∧ ((t.circuit t2).sys R lg).ippEq (treePts g t2 M) y z u x w us = 0 ∧
    (∃ wt, t2.flattened z = some wt) ∧ t2.size ≤ 2 ^ lg := by
  obtain ⟨o, h2, hch, r, r', hne, hv, hv'⟩ := h y z u x w us hp hl
  have hpa : PaperAccepts o g (strategyProof M R y z u x w us) t := by
    by_contra hc
    exact hne (C41_other_proofs_rejected o g _ t (by simp [strategyProof]) hG hH hc r r' hv hv')
  obtain ⟨t2', wt, hsh, hpoly, hipp⟩ := hpa
  have ht2 : t2' = t2 := by
    have := hsh.second
    rw [show (strategyProof M R y z u x w us).AI1 = M.AI1 from rfl, show (strategyProof M R y z u x w us).AO1 = M.AO1 from rfl,
      show (strategyProof M R y z u x w us).S1 = M.S1 from rfl, h2] at this
    exact (Except.ok.inj this).symm
  subst ht2
  have hw : t2'.flattened z = some wt := by rw [← hch.z]; exact hsh.weights
  have hlen : (strategyProof M R y z u x w us).ipp.L.length = us.length := by simp [strategyProof]
  refine ⟨?_, ?_, ⟨wt, hw⟩, ?_⟩
  · rw [sys_polyDef g t t2' M R lg hl hw hch]; exact hpoly
  · have hzip : (strategyProof M R y z u x w us).ipp.L.zip (strategyProof M R y z u x w us).ipp.R =
        (List.range us.length).map fun i => (M.L y z u x w ([] ++ us.take i), M.R y z u x w ([] ++ us.take i)) := by
      simp only [strategyProof, List.nil_append]
      rw [List.zip_map']
    have hcw : (paperCheck o (strategyProof M R y z u x w us) t t2' wt).w = w := hch.w
    have hus := hch.us
    rw [hzip] at hipp hus
    rw [hcw] at hipp
    have hN : (paperCheck o (strategyProof M R y z u x w us) t t2' wt).N = 2 ^ us.length := by simp [paperCheck, hlen]
    have := rounds_ippDef o (M.L y z u x w) (M.R y z u x w) (R.a y z u x w) (R.b y z u x w) _ us [] _ _ _ _
      (by simp [Check.ippG, hN]) (by simp [Check.ippH, hN]) hus hipp
    unfold Sys.ippEq
    refine Eq.trans ?_ this
    rw [sys_openDef g t t2' M R lg hl hw hch]
    have hSN : ((t.circuit t2').sys R lg).N = 2 ^ us.length := by simp [Sys.N, Circuit.sys, hl]
    refine ippDef_congr _ _ _ _ _ _ _ _ (fun i hi => ?_) (fun i hi => ?_)
    · rw [if_pos (by rw [hSN]; exact hi), getD_of_lt _ _ _ (by simpa [Check.ippG, hN] using hi)]
      simp only [Check.ippG, List.getElem_map, List.getElem_range]
      congr 1
      unfold Sys.fac Check.factor
      rw [← hch.u]; rfl
    · rw [if_pos (by rw [hSN]; exact hi), getD_of_lt _ _ _ (by simpa [Check.ippH, hN] using hi)]
      simp only [Check.ippH, List.getElem_map, List.getElem_range]
      congr 1
      unfold Sys.fac Check.factor
      rw [← hch.u, ← hch.y]; rfl
  · have := hsh.size
    rw [hlen, hl] at this
    exact this

omit [Field F] [AddCommGroup G] [Module F G] [DecidableEq F] [DecidableEq G] in
theorem VState.dim_le_size (s : VState F G X) (v) (hv : v ∈ s.vecComms) : v.2 ≤ s.size := by
  have : ∀ (l : List (G × Nat)) (a : Nat), (∀ v ∈ l, v.2 ≤ l.foldl (fun n v => max v.2 n) a) ∧ a ≤ l.foldl (fun n v => max v.2 n) a := by
    intro l
    induction l with
    | nil => intro a; simp
    | cons x l ih =>
      intro a
      simp only [List.foldl_cons]
      have h := ih (max x.2 a)
      refine ⟨fun v hv => ?_, le_trans (le_max_right _ _) h.2⟩
      rcases List.mem_cons.1 hv with rfl | hv
      · exact le_trans (le_max_left _ _) h.2
      · exact h.1 v hv
  exact (this s.vecComms s.numVars).1 v hv

theorem exists_path {Cs : List F → Finset F} (hC : FourChallenges Cs) (n : Nat) (pre : List F) :
    ∃ us : List F, us.length = n ∧ InPaths Cs pre us := by
  induction n generalizing pre with
  | zero => exact ⟨[], rfl, trivial⟩
  | succ n ih =>
    have : (Cs pre).Nonempty := by
      have := (hC pre).2
      have h2 := Finset.card_image_le (s := Cs pre) (f := (· ^ 2))
      exact Finset.card_pos.1 (by omega)
    obtain ⟨u, hu⟩ := this
    obtain ⟨us, hl, hp⟩ := ih (pre ++ [u])
    exact ⟨u :: us, by simp [hl], hu, hp⟩

theorem Forks.Enough.sys {c : Circuit F} {fk : Forks F} {lg : Nat} (h : fk.Enough c lg) (R : Responses F) :
    (c.sys R lg).Enough fk c.constraints.length :=
  ⟨h.Y, h.Z, h.U, h.X, h.W, h.C⟩

theorem accepts_solves {g : Gens G} {t t2 : VState F G X} {M : Messages F G} {R : Responses F} {fk : Forks F} {lg : Nat}
    (hE : fk.Enough (t.circuit t2) lg)
    (hG : g.capacity ≤ g.Gs.length) (hH : g.capacity ≤ g.Hs.length) (h : AcceptsTree g t t2 M R fk lg) :
    ((t.circuit t2).sys R lg).Solves fk (treePts g t2 M) ∧ ((t.circuit t2).sys R lg).Flat fk (t.circuit t2) := by
  have hE' := hE.sys R
  have hpath : ∀ y ∈ fk.Y, ∀ z ∈ fk.Z y, ∃ wt, t2.flattened z = some wt := by
    intro y hy z hz
    obtain ⟨u, hu⟩ := hE'.exU _ y z
    obtain ⟨x, hx⟩ := hE'.exX _ y z u
    obtain ⟨w, hw⟩ := hE'.exW _ y z u x
    obtain ⟨us, hl, hp⟩ := exists_path (hE.C y z u x w) lg []
    exact (accepts_path hG hH h ⟨hy, hz, hu, hx, hw, hp⟩ hl).2.2.1
  have hsize : t2.size ≤ 2 ^ lg := by
    obtain ⟨y, hy⟩ := hE'.exY
    obtain ⟨z, hz⟩ := hE'.exZ _ y
    obtain ⟨u, hu⟩ := hE'.exU _ y z
    obtain ⟨x, hx⟩ := hE'.exX _ y z u
    obtain ⟨w, hw⟩ := hE'.exW _ y z u x
    obtain ⟨us, hl, hp⟩ := exists_path (hE.C y z u x w) lg []
    exact (accepts_path hG hH h ⟨hy, hz, hu, hx, hw, hp⟩ hl).2.2.2
  have hwt : ∀ z wt, t2.flattened z = some wt → ((t.circuit t2).sys R lg).wt z = wt := by
    intro z wt hw
    show ((t.circuit t2).weights z).getD _ = wt
    have : (t.circuit t2).weights z = some wt := hw
    rw [this]; rfl
  refine ⟨⟨fun y hy z hz u hu x hx => ?_, fun y z u x w us hp hl => (accepts_path hG hH h hp hl).2.1⟩, rfl, rfl, rfl, ?_, ?_, ?_, ?_⟩
  · obtain ⟨w, hw⟩ := hE'.exW _ y z u x
    obtain ⟨us, hl, hp⟩ := exists_path (hE.C y z u x w) lg []
    exact (accepts_path hG hH h ⟨hy, hz, hu, hx, hw, hp⟩ hl).1
  · exact le_trans t2.numVars_le_size hsize
  · intro d hd
    obtain ⟨v, hv, rfl⟩ := List.mem_map.1 hd
    exact le_trans (t2.dim_le_size v hv) hsize
  · intro y hy z hz
    obtain ⟨wt, hw⟩ := hpath y hy z hz
    rw [hwt z wt hw]
    exact (flattenLoop_apply (Weights.zero_shape _ _ _) hw ⟨fun _ => 0, fun _ => 0, fun _ => 0, fun _ => 0, fun _ _ => 0⟩).1
  · intro y hy z hz w
    obtain ⟨wt, hw⟩ := hpath y hy z hz
    rw [hwt z wt hw]
    exact C04_verifier_weights t2 z wt hw w

/-! ### The output of the extractor -/

/-- The opening read off from coordinates. -/
def coordOpening {S : Sys F} (v : Gen S.N → F) : Opening F := ⟨v .Bbl, Sys.cG v, Sys.cH v⟩

/-- The witness read off from a solution in the free module. -/
def coordExtracted {S : Sys F} (P : Sym F → Gen S.N → F) : Extracted F where
  AI1 := coordOpening (P .AI1)
  AO1 := coordOpening (P .AO1)
  AI2 := coordOpening (P .AI2)
  AO2 := coordOpening (P .AO2)
  comm j := coordOpening (P (.C j))
  committed j := P (.V j) .B
  committedBl j := P (.V j) .Bbl

/-- The relation of a vector of coefficients. -/
def coordRelation {S : Sys F} (v : Gen S.N → F) : Relation F := ⟨v .B, v .Bbl, Sys.cG v, Sys.cH v⟩

omit [DecidableEq F] [DecidableEq G] in
theorem sum_gens {S : Sys F} (v : Gen S.N → F) (g : Gens G) (t2 : VState F G X) (M : Messages F G) :
    ∑ q : Gen S.N, v q • treePts g t2 M q.sym = v .B • g.pc.B + v .Bbl • g.pc.Bbl +
      ∑ i ∈ range S.N, Sys.cG v i • g.Gs.getD i 0 + ∑ i ∈ range S.N, Sys.cH v i • g.Hs.getD i 0 := by
  rw [Gen.sum_univ, Finset.sum_range, Finset.sum_range]
  simp only [Gen.sym, treePts, Sys.cG, Sys.cH, Fin.is_lt, dite_true]

omit [DecidableEq F] in
theorem coordRelation_nonTrivial {S : Sys F} {v : Gen S.N → F} (h : v ≠ 0) : (coordRelation v).NonTrivial S.N := by
  obtain ⟨q, hq⟩ := Function.ne_iff.1 h
  unfold Relation.NonTrivial coordRelation
  cases q with
  | B => exact .inl hq
  | Bbl => exact .inr (.inl hq)
  | G i => exact .inr (.inr ⟨i, i.2, .inl (by simpa [Sys.cG] using hq)⟩)
  | H i => exact .inr (.inr ⟨i, i.2, .inr (by simpa [Sys.cH] using hq)⟩)

omit [DecidableEq G] in
theorem coordExtracted_valid {c : Circuit F} {S : Sys F} {fk : Forks F} (hE' : S.Enough fk c.constraints.length)
    {P : Sym F → Gen S.N → F} (hP : ∀ q : Gen S.N, P q.sym = Pi.single q 1) (hs : S.Solves fk P)
    (hc : S.Flat fk c) {g : Gens G} {t2 : VState F G X} {M : Messages F G}
    (hpts : S.Solves fk (treePts g t2 M)) (hk : t2.vecComms.length = c.dims.length) :
    (coordExtracted P).Valid c S.N g M (t2.vecComms.map (·.1)) t2.V := by
  -- the differences solve the equations with all generators zero
  let f : (Gen S.N → F) →ₗ[F] G := ∑ q : Gen S.N, (LinearMap.proj q : (Gen S.N → F) →ₗ[F] F).smulRight (treePts g t2 M q.sym)
  have hf : ∀ v, f v = ∑ q : Gen S.N, v q • treePts g t2 M q.sym := by
    intro v; simp [f, LinearMap.sum_apply]
  have hdiff : S.Solves fk fun q => treePts g t2 M q - f (P q) := by
    rw [← EqIdx.eval]
    intro e
    have e1 : Finsupp.linearCombination F (fun q => treePts g t2 M q - f (P q)) =
        Finsupp.linearCombination F (treePts g t2 M) - f ∘ₗ Finsupp.linearCombination F P := by
      ext s : 2; simp
    rw [e1, LinearMap.sub_apply, LinearMap.comp_apply, (EqIdx.eval _).2 hpts e, (EqIdx.eval _).2 hs e, map_zero, sub_zero]
  have hgen : ∀ q : Gen S.N, treePts g t2 M q.sym - f (P q.sym) = 0 := by
    intro q
    rw [hP, hf, Finset.sum_eq_single q]
    · simp
    · intro b _ hb; simp [hb]
    · simp
  obtain ⟨hsl, hV⟩ := S.zero_points hE' (hgen .B) (hgen .Bbl) (fun i hi => hgen (.G ⟨i, hi⟩)) (fun i hi => hgen (.H ⟨i, hi⟩)) hdiff
  have hB := Sys.slots_B hE' hP hs
  have hopen : ∀ s : Sym F, treePts g t2 M s - f (P s) = 0 → P s .B = 0 → (coordOpening (P s)).Opens S.N g (treePts g t2 M s) := by
    intro s h1 h2
    unfold Opening.Opens coordOpening
    rw [sub_eq_zero.1 h1, hf, sum_gens, h2, zero_smul, zero_add]
  have hkS : S.k = c.dims.length := hc.k
  obtain ⟨hgates, hcons⟩ := Sys.gates_constraints hE' hP hs hc
  have hass : (coordExtracted P).assignment c = S.wit P := by
    unfold Extracted.assignment coordExtracted Sys.wit Sys.wG Sys.wH
    rw [hc.n1]
    congr 1
  refine ⟨?_, ?_, ?_, ?_, ?_, ?_, ?_, ?_⟩
  · exact hopen .AI1 (hsl 0 (by omega)).1 (hB 0 (by omega)).1
  · exact hopen .AO1 (hsl 1 (by omega)).1 (hB 1 (by omega)).1
  · exact hopen .AI2 (hsl 0 (by omega)).2 (hB 0 (by omega)).2
  · exact hopen .AO2 (hsl 1 (by omega)).2 (hB 1 (by omega)).2
  · intro j hj
    rw [List.length_map, hk, ← hkS] at hj
    have h1 := (hsl (j + 2) (by omega)).1
    have h2 := (hB (j + 2) (by omega)).1
    unfold Sys.slotA at h1 h2
    rw [if_neg (by omega), if_neg (by omega), if_pos (by omega)] at h1 h2
    exact hopen (.C j) h1 h2
  · intro q hq
    have h1 := Sys.committed_zero hE' hc (fun j => treePts g t2 M (.V j) - f (P (.V j))) hV q hq
    have h2 : ∀ q' : Gen S.N, q' ≠ .B → q' ≠ .Bbl → committedPart q (fun j => P (.V j)) q' = 0 := by
      intro q' hq1 hq2
      have := Sys.committed_zero hE' hc (fun j => P (.V j) q') (Sys.V_coords hE' hP hs q' hq1 hq2) q hq
      rw [← this]
      exact (Sys.committedPart_map (LinearMap.proj q' : (Gen S.N → F) →ₗ[F] F) q (fun j => P (.V j))).symm
    have h3 : committedPart q (fun j => treePts g t2 M (.V j) - f (P (.V j))) =
        committedPart q (fun j => treePts g t2 M (.V j)) - f (committedPart q fun j => P (.V j)) := by
      rw [← Sys.committedPart_map]
      unfold committedPart
      induction q.terms with
      | nil => simp
      | cons a l ih =>
        simp only [List.map_cons, List.sum_cons]
        rw [ih]
        obtain ⟨x, a⟩ := a
        cases x <;> simp [smul_sub]; abel
    rw [h3, sub_eq_zero] at h1
    refine Eq.trans h1 ?_
    have hGH : ∀ i, Sys.cG (committedPart q fun j => P (.V j)) i = 0 ∧ Sys.cH (committedPart q fun j => P (.V j)) i = 0 := by
      intro i
      unfold Sys.cG Sys.cH
      constructor <;> split_ifs
      · exact h2 _ (by simp) (by simp)
      · rfl
      · exact h2 _ (by simp) (by simp)
      · rfl
    rw [hf, sum_gens, Finset.sum_eq_zero (fun i _ => by rw [(hGH i).1, zero_smul]), Finset.sum_eq_zero (fun i _ => by rw [(hGH i).2, zero_smul]),
      add_zero, add_zero]
    have h4 := Sys.committedPart_map (LinearMap.proj (Gen.B : Gen S.N) : (Gen S.N → F) →ₗ[F] F) q (fun j => P (.V j))
    have h5 := Sys.committedPart_map (LinearMap.proj (Gen.Bbl : Gen S.N) : (Gen S.N → F) →ₗ[F] F) q (fun j => P (.V j))
    simp only [LinearMap.proj_apply] at h4 h5
    rw [← h4, ← h5]
    unfold committedPart coordExtracted
    induction q.terms with
    | nil => simp
    | cons a l ih =>
      simp only [List.map_cons, List.sum_cons]
      rw [← ih]
      obtain ⟨x, a⟩ := a
      cases x <;> simp; module
  · rw [hass]; exact hcons
  · rw [hass]
    intro i hi
    have := hgates i hi
    rw [← this]
    congr 1
    unfold Extracted.cross Sys.crossW Sys.op
    rw [hc.n1, hkS]
    by_cases hi1 : i < c.first
    · rw [if_pos hi1, if_pos hi1]
      refine Finset.sum_congr rfl fun s hs => Finset.sum_congr rfl fun s' hs' => ?_
      have hslot : ∀ s ∈ Ico 1 (c.dims.length + 2), (coordExtracted P).slot s = coordOpening (S.slotA P s) := by
        intro s hs
        have hs := Finset.mem_Ico.1 hs
        unfold Extracted.slot Sys.slotA coordExtracted
        rw [if_neg (show s ≠ 0 by omega)]
        split_ifs with h1 h2
        · rfl
        · rfl
        · rw [hkS] at h2; exact absurd hs.2 h2
      rw [hslot s hs, hslot s' hs']
      rfl
    · rw [if_neg hi1, if_neg hi1]

/-- Extraction. -/
theorem extraction (c : Circuit F) (R : Responses F) (fk : Forks F) (lg : Nat) (hE : fk.Enough c lg) :
    (∃ r : Relation F, r.NonTrivial (2 ^ lg) ∧ ∀ (G X : Type) [AddCommGroup G] [Module F G] [DecidableEq G] (g : Gens G)
      (t t2 : VState F G X) (M : Messages F G), t.circuit t2 = c → g.capacity ≤ g.Gs.length → g.capacity ≤ g.Hs.length →
      AcceptsTree g t t2 M R fk lg → r.Holds (2 ^ lg) g) ∨
    (∃ e : Extracted F, ∀ (G X : Type) [AddCommGroup G] [Module F G] [DecidableEq G] (g : Gens G)
      (t t2 : VState F G X) (M : Messages F G), t.circuit t2 = c → g.capacity ≤ g.Gs.length → g.capacity ≤ g.Hs.length →
      AcceptsTree g t t2 M R fk lg → e.Valid c (2 ^ lg) g M (t2.vecComms.map (·.1)) t2.V) := by
  by_cases hF : (c.sys R lg).Flat fk c
  · rcases sys_lift_or_relation (c.sys R lg) fk with ⟨r, hr, h⟩ | ⟨P, hP, hs⟩
    · refine .inl ⟨coordRelation r, coordRelation_nonTrivial hr, ?_⟩
      intro G X _ _ _ g t t2 M hc hG hH ha
      subst hc
      have := h G (treePts g t2 M) (accepts_solves hE hG hH ha).1
      rw [sum_gens] at this
      exact this
    · refine .inr ⟨coordExtracted P, ?_⟩
      intro G X _ _ _ g t t2 M hc hG hH ha
      subst hc
      exact coordExtracted_valid (hE.sys R) hP hs hF (accepts_solves hE hG hH ha).1 (by simp [VState.circuit])
  · refine .inl ⟨⟨1, 0, fun _ => 0, fun _ => 0⟩, .inl one_ne_zero, ?_⟩
    intro G X _ _ _ g t t2 M hc hG hH ha
    subst hc
    exact absurd (accepts_solves hE hG hH ha).2 hF

end assembly

end CT
