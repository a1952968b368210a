import Verif.Props.Shuffle
import Verif.Props.Hiding

/-!
# C61: a shuffle proof does not show the order, nor the values
-/

namespace CT
variable {F G X : Type} [Field F] [DecidableEq F] [AddCommGroup G] [Module F G] [DecidableEq G]

/-- Values, each with a blinding. -/
def withBlindings (xs : List F) (bl : Nat → F) : List (F × F) := xs.mapIdx fun i v => (v, bl i)

/-- The random choices of the Prover of a shuffle: the blindings of the inputs and of the outputs, and those of the proof. -/
abbrev ShuffleRand (F : Type) := (Nat → F) × (Nat → F) × PRand F

/-- `ShuffleProof::prove` for given values. -/
abbrev shuffleProveWith (o : Oracle F G X) (g : Gens G) (tr : Transcript F G X) (xs ys : List F) (rnd : ShuffleRand F) :
    Except Err (R1CSProof F G × List G × List G) :=
  shuffleProve o g rnd.2.2 tr (withBlindings xs rnd.1) (withBlindings ys rnd.2.1)

omit [Field F] [DecidableEq F] in
theorem withBlindings_fst (xs : List F) (bl : Nat → F) : (withBlindings xs bl).map Prod.fst = xs := by
  refine List.ext_getElem (by simp [withBlindings]) fun i h1 h2 => ?_
  simp [withBlindings]

omit [DecidableEq F] [DecidableEq G] in
theorem withBlindings_commit {g : Gens G} {lg : G → F} (hlg : ∀ P, P = lg P • g.pc.Bbl) {xs xs' : List F} (hl : xs.length = xs'.length) (bl : Nat → F) :
    (withBlindings xs bl).map (fun a => g.pc.commit a.1 a.2) =
      (withBlindings xs' (bl + fun i => lg ((xs.getD i 0 - xs'.getD i 0) • g.pc.B))).map fun a => g.pc.commit a.1 a.2 := by
  refine List.ext_getElem (by simp [withBlindings, hl]) fun i h1 h2 => ?_
  simp only [withBlindings, List.length_map, List.length_mapIdx] at h1 h2
  simp only [withBlindings, List.getElem_map, List.getElem_mapIdx, Pi.add_apply]
  simp only [PedersenGens.commit, msm, List.zipWith_cons_cons, List.zipWith_nil_left, List.sum_cons, List.sum_nil, add_smul]
  rw [← hlg, List.getD_eq_getElem?_getD, List.getD_eq_getElem?_getD, List.getElem?_eq_getElem h1, List.getElem?_eq_getElem h2]
  simp only [Option.getD_some, sub_smul]
  abel

omit [DecidableEq G] in
theorem shuffleProve_iff {o : Oracle F G X} {g : Gens G} {tr : Transcript F G X} {input output : List (F × F)} {V : List G × List G} {s : PState F G X}
    (h : shuffleProver g tr input output = .ok (V, s)) (rnd : PRand F) (res : R1CSProof F G × List G × List G) :
    shuffleProve o g rnd tr input output = .ok res ↔ res.2 = V ∧ ∃ tr', prove o g rnd s = .ok (res.1, tr') := by
  unfold shuffleProve
  rw [h]
  simp only
  constructor
  · intro h
    split at h
    · cases h
    rename_i p tr' e
    simp only [Except.ok.injEq] at h
    subst h
    exact ⟨rfl, tr', e⟩
  · rintro ⟨e, tr', e'⟩
    rw [e']
    obtain ⟨p, V'⟩ := res
    simp only at e
    subst e
    rfl

/-- **C61**. Two shuffles of the same number of values: `ys` is a rearrangement of `xs`, and `ys'` one of `xs'`. For everything that can be published (the commitments and the
proof) there is a bijection of the random choices of the Prover under which it publishes this for the first shuffle if and only if it does for the second. So
what is published shows nothing about the values or the order. The blinding generator generates the group, and the challenge `x` is assumed not to be zero. -/
theorem C61_shuffle_hides (o : Oracle F G X) (g : Gens G) (hb : g.pc.Bbl ≠ 0) (hgen : ∀ P : G, ∃ a : F, P = a • g.pc.Bbl)
    (hcG : g.capacity ≤ g.Gs.length) (hcH : g.capacity ≤ g.Hs.length) (hch : ∀ tr : Transcript F G X, o (tr ++ [Msg.chal "x"]) ≠ 0) (tr : Transcript F G X)
    {xs ys xs' ys' : List F} (h0 : xs ≠ []) (hp : xs.Perm ys) (hp' : xs'.Perm ys') (hl : xs.length = xs'.length)
    (res : R1CSProof F G × List G × List G) :
    ∃ φ : ShuffleRand F ≃ ShuffleRand F, ∀ rnd, shuffleProveWith o g tr xs ys rnd = .ok res ↔ shuffleProveWith o g tr xs' ys' (φ rnd) = .ok res := by
  choose lg hlg using hgen
  have hl2 : ys.length = ys'.length := by rw [← hp.length_eq, ← hp'.length_eq, hl]
  have ne : ∀ {zs : List F} (_ : zs.length = xs.length) (bl : Nat → F), withBlindings zs bl ≠ [] := by
    intro zs hz bl h
    have := congrArg List.length h
    simp only [withBlindings, List.length_mapIdx, List.length_nil, hz] at this
    exact h0 (List.length_eq_zero_iff.1 this)
  set fx : Nat → F := fun i => lg ((xs.getD i 0 - xs'.getD i 0) • g.pc.B)
  set fy : Nat → F := fun i => lg ((ys.getD i 0 - ys'.getD i 0) • g.pc.B)
  have key : ∀ a b : Nat → F, ∃ e : PRand F ≃ PRand F, ∀ r, shuffleProve o g r tr (withBlindings xs a) (withBlindings ys b) = .ok res ↔
      shuffleProve o g (e r) tr (withBlindings xs' (a + fx)) (withBlindings ys' (b + fy)) = .ok res := by
    intro a b
    have P1 : ((withBlindings xs a).map Prod.fst).Perm ((withBlindings ys b).map Prod.fst) := by
      rw [withBlindings_fst, withBlindings_fst]; exact hp
    have P2 : ((withBlindings xs' (a + fx)).map Prod.fst).Perm ((withBlindings ys' (b + fy)).map Prod.fst) := by
      rw [withBlindings_fst, withBlindings_fst]; exact hp'
    obtain ⟨s, t, h1, h2, h3⟩ := shuffle_session o g tr (ne rfl a) (by simpa using P1.length_eq)
    obtain ⟨s', t', h1', h2', h3'⟩ := shuffle_session o g tr (ne hl.symm (a + fx)) (by simpa using P2.length_eq)
    rw [← withBlindings_commit hlg hl a, ← withBlindings_commit hlg hl2 b] at h1' h2'
    obtain rfl : t = t' := Except.ok.inj (h2.symm.trans h2')
    obtain ⟨-, s2, e2, g2, -, -⟩ := shuffle_second_any o g ⟨res.1.AI1, res.1.AO1, res.1.S1⟩ tr (ne rfl a) P1 h1
    obtain ⟨-, s2', e2', g2', -, -⟩ := shuffle_second_any o g ⟨res.1.AI1, res.1.AO1, res.1.S1⟩ tr (ne hl.symm (a + fx)) P2 h1'
    obtain ⟨e, he⟩ := C40_witness_independent o g hb (fun P => ⟨lg P, hlg P⟩) hcG hcH h3 h3' res.1 ⟨s2, e2, g2.satisfied.2⟩ ⟨s2', e2', g2'.satisfied.2⟩
    refine ⟨e, fun r => ?_⟩
    rw [shuffleProve_iff h1, shuffleProve_iff h1']
    exact and_congr_right fun _ => exists_congr fun tr' => he tr' (fun t' _ => hch t') r
  choose e he using key
  exact ⟨Equiv.prodShear (Equiv.addRight fx) fun a => Equiv.prodShear (Equiv.addRight fy) fun b => e a b, fun rnd => he rnd.1 rnd.2.1 rnd.2.2⟩

/-! Non-vacuity, over the rationals: the shuffles `5, 3, 5 → 3, 5, 5` and `1, 2, 4 → 4, 2, 1`. -/

example : ∃ res r, shuffleProveWith exOracle exGens [] [5, 3, 5] [3, 5, 5] (fun i => i + 1, fun i => i + 7, exRand) = .ok res ∧
    shuffleProveWith exOracle exGens [] [1, 2, 4] [4, 2, 1] r = .ok res := by
  have hne : ∀ tr : Transcript ℚ ℚ Unit, exOracle tr ≠ 0 := fun tr => by
    show ((tr.length : ℚ) + 2) ≠ 0
    positivity
  have p1 : List.Perm [(5 : ℚ), 3, 5] [3, 5, 5] := List.Perm.swap ..
  have p2 : List.Perm [(1 : ℚ), 2, 4] [4, 2, 1] := (List.reverse_perm [(4 : ℚ), 2, 1])
  obtain ⟨p, hp, -⟩ := C57_shuffle_complete exOracle exGens exRand [] (withBlindings [5, 3, 5] fun i => (i : ℚ) + 1) (withBlindings [3, 5, 5] fun i => (i : ℚ) + 7)
    (by simp [withBlindings]) (by rw [withBlindings_fst, withBlindings_fst]; exact p1) (by decide) (by decide) (by decide +kernel) (by decide +kernel) (fun tr => ⟨hne _, hne _⟩)
  obtain ⟨φ, h⟩ := C61_shuffle_hides exOracle exGens (by decide +kernel) (fun P => ⟨P / exGens.pc.Bbl, by
    have : exGens.pc.Bbl ≠ 0 := by decide +kernel
    simp [this]⟩) (by decide) (by decide) (fun tr => hne _) [] (by simp) p1 p2 rfl (p, _)
  exact ⟨_, φ (fun i => i + 1, fun i => i + 7, exRand), hp, (h (fun i => i + 1, fun i => i + 7, exRand)).1 hp⟩

end CT
