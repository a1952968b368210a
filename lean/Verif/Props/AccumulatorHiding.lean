import Verif.Props.Accumulator
import Verif.Props.Anonymity

/-!
# C60: an accumulator proof does not show which vector the element is in
-/

namespace CT

variable {B : Bool → Type} [∀ p, Field (B p)] [∀ p, DecidableEq (B p)] {C : ∀ p, SWCurve (B p)} [∀ p, Module (B (!p)) (C p).Pt] {L M : Nat} [NeZero M]

/-- The random choices of the Prover of the accumulator: for the path and for the two proofs. -/
abbrev AccRand (B : Bool → Type) := (∀ p, Nat → B (!p)) × PRand (B (!false)) × PRand (B (!true))

/-- The closure `prove` of the accumulator. -/
abbrev accProveWith (o : ∀ p, SideO C p) (fx : Bool) (prm : SelRerand C) (T : CurveTree L M (Pts C)) (dom : ∀ p, Transcript (B (!p)) (C p).Pt (C (!p)).Pt)
    (i : Nat) (ys : List (B (!false))) (element : B (!false)) (rnd : AccRand B) : Except Err (AccProof C) :=
  accProve o fx prm T dom rnd.1 rnd.2.1 rnd.2.2 i ys element

/-- What the Prover returns, once it is known what it proves. -/
theorem accProve_iff {o : ∀ p, SideO C p} {fx : Bool} {prm : SelRerand C} {T : CurveTree L M (Pts C)} {dom : ∀ p, Transcript (B (!p)) (C p).Pt (C (!p)).Pt}
    {rnd : ∀ p, Nat → B (!p)} {i : Nat} {ys : List (B (!false))} {element : B (!false)} {path : Path (C false).Pt (C true).Pt} {sE : SideP C false} {sO : SideP C true}
    (h : accProvers o fx prm T dom rnd i ys element = .ok (path, sE, sO)) (rndE : PRand (B (!false))) (rndO : PRand (B (!true))) (pf : AccProof C) :
    accProve o fx prm T dom rnd rndE rndO i ys element = .ok pf ↔ pf.path = path ∧
      (∃ tr, prove (o false) (prm.gens false) rndE sE = .ok (pf.even, tr)) ∧ ∃ tr, prove (o true) (prm.gens true) rndO sO = .ok (pf.odd, tr) := by
  unfold accProve
  rw [h]
  simp only
  constructor
  · intro h
    split at h
    · cases h
    rename_i pE trE e1
    split at h
    · cases h
    rename_i pO trO e2
    simp only [Except.ok.injEq] at h
    subst h
    exact ⟨rfl, ⟨trE, e1⟩, trO, e2⟩
  · rintro ⟨rfl, ⟨trE, e1⟩, trO, e2⟩
    rw [e1]
    simp only
    rw [e2]

/-- **C60**. Let `element` be in the vector `ys` of leaf `i` and in the vector `ys'` of leaf `i'`, of the same length, and let the blinding generators generate the two groups. For
every proof there is a bijection of the random choices of the Prover under which it makes this proof for leaf `i` if and only if it makes it for leaf `i'`:
each proof is equally likely for both. So an accumulator proof shows neither in which vector the element is, nor at which place, nor anything about the other elements. What the bijection does to the scalars of the path is said
explicitly; these must be usable (`SpendOk`) on both sides. The challenge `x` is assumed not to be zero. -/
theorem C60_accumulator_hides {prm : SelRerand C} (hv : prm.Valid) (hg : prm.tree.EnoughGens L M) (hL : 2 ≤ L)
    (hcap : ∀ p, (prm.gens p).capacity ≤ (prm.gens p).Gs.length ∧ (prm.gens p).capacity ≤ (prm.gens p).Hs.length)
    (hb : ∀ p, prm.h p ≠ 0) (hgen : ∀ p (P : (C p).Pt), ∃ a : B (!p), P = a • prm.h p)
    {set : List (C false).Pt} {height : Option Nat} {fuel : Nat} {T : CurveTree L M (Pts C)}
    (ht : fromSet prm.tree set height fuel = some (.ok T)) (hfuel : set.length + height.getD 0 ≤ fuel) (h0 : T.height ≠ 0)
    (o : ∀ p, SideO C p) (fx : Bool) (hch : ∀ p (tr : Transcript (B (!p)) (C p).Pt (C (!p)).Pt), o p (tr ++ [Msg.chal "x"]) ≠ 0)
    (dom : ∀ p, Transcript (B (!p)) (C p).Pt (C (!p)).Pt) {i i' : Nat} (hi : i < set.length) (hi' : i' < set.length)
    {ys ys' : List (B (!false))} (hys : accLeaf prm ys = some set[i]) (hys' : accLeaf prm ys' = some set[i']) (hlen : ys.length = ys'.length)
    {element : B (!false)} (hel : element ∈ ys) (hel' : element ∈ ys') (pf : AccProof C) :
    ∃ φ : AccRand B ≃ AccRand B,
      (∀ rnd nodes nodes', T.witness prm.tree i 0 = .ok nodes → T.witness prm.tree i' 0 = .ok nodes' →
        ∀ p k, childAt nodes' p k + (φ rnd).1 p k • prm.h p = childAt nodes p k + rnd.1 p k • prm.h p) ∧
      ∀ rnd, SpendOk prm T i rnd.1 → SpendOk prm T i' (φ rnd).1 →
        (accProveWith o fx prm T dom i ys element rnd = .ok pf ↔ accProveWith o fx prm T dom i' ys' element (φ rnd) = .ok pf) := by
  obtain ⟨nodes, w1, p1⟩ := C26_witness_partial hg hL ht hfuel 0 hi
  obtain ⟨nodes', w2, p2⟩ := C26_witness_partial hg hL ht hfuel 0 hi'
  obtain ⟨ψ, hψ, hrun⟩ := C50_path_anonymous hv hg hL hcap hb hgen ht hfuel h0 (o false) (o true) fx hi hi'
  have hM : 1 ≤ M := Nat.one_le_iff_ne_zero.2 (NeZero.ne M)
  have hgl : ∀ p, L ≤ (prm.gens p).Gs.length := fun p => le_trans (Nat.le_mul_of_pos_right L hM) (hg p)
  have gnew : ∀ p, (PState.new (dom p) : SideP C p).Good := fun p =>
    ⟨⟨rfl, rfl, by intro i hi; simp [PState.new] at hi, by simp [PState.new]⟩, by simp [PState.new], by simp [PState.new]⟩
  obtain ⟨l1, e1⟩ := accLeaf_eq hys
  obtain ⟨l2, e2⟩ := accLeaf_eq hys'
  have key : ∀ r : ∀ p, Nat → B (!p), ∃ (eE : PRand (B (!false)) ≃ PRand (B (!false))) (eO : PRand (B (!true)) ≃ PRand (B (!true))),
      SpendOk prm T i r → SpendOk prm T i' (ψ r) → ∀ a b, accProve o fx prm T dom r a b i ys element = .ok pf ↔
        accProve o fx prm T dom (ψ r) (eE a) (eO b) i' ys' element = .ok pf := by
    intro r
    by_cases hu : SpendOk prm T i r ∧ SpendOk prm T i' (ψ r)
    swap
    · exact ⟨.refl _, .refl _, fun h h' => absurd ⟨h, h'⟩ hu⟩
    obtain ⟨u1, u2⟩ := hu
    obtain ⟨path, x, x', sEA, sOA, sEB, sOB, tE, tO, t1, t2, s1, s2, -, S1, S2, -, -, -, hO⟩ := hrun r u1 u2 (fun p => .new (dom p)) (fun p => .new (dom p)) (fun p => .new (dom p))
      (.new _) (.new _) (.new _) (.new _) (fun p => ⟨gnew p, rfl, gnew p, rfl⟩)
    -- the states of the Provers are good
    obtain ⟨_, _, sE1, sO1, k1, k2, -, k4, -, -⟩ := path_complete (o false) (o true) fx hv hgl p1 (rnd := r) (u1.avoids nodes w1) (gnew false) (gnew true)
    obtain ⟨_, _, sE2, sO2, m1, m2, -, m4, -, -⟩ := path_complete (o false) (o true) fx hv hgl p2 (rnd := ψ r) (u2.avoids nodes' w2) (gnew false) (gnew true)
    have t1' := t1
    have t2' := t2
    unfold treeProverGadget at t1' t2'
    rw [w1] at t1'
    rw [w2] at t2'
    simp only at t1' t2'
    rw [k1] at t1'
    rw [m1] at t2'
    simp only [Except.ok.injEq, Prod.mk.injEq] at t1' t2'
    obtain ⟨-, rfl, -⟩ := t1'
    obtain ⟨-, rfl, -⟩ := t2'
    -- opening the leaf and selecting the element
    obtain ⟨a1, a2, a3, c1, c2, c3, c4, c5, c6⟩ := open_select S1 k2 x l1 hel
    obtain ⟨b1, b2, b3, d1, d2, d3, d4, d5, d6⟩ := open_select S2 m2 x' l2 hel'
    have q1 : msm (F := B (!false)) ((prm.gens false).pc.Bbl :: (prm.gens false).Gs.take ys.length) (x :: ys) = path.selected := by
      rw [s1, e1, msm_cons, add_comm]; rfl
    have q2 : msm (F := B (!false)) ((prm.gens false).pc.Bbl :: (prm.gens false).Gs.take ys'.length) (x' :: ys') = path.selected := by
      rw [s2, e2, msm_cons, add_comm]; rfl
    rw [q1] at c1 c3
    rw [q2] at d1 d3
    rw [← hlen] at d3
    have e3 : a3 = b3 := by
      have := c3.symm.trans d3
      simpa using this
    subst e3
    have P1 : accProvers o fx prm T dom r i ys element = .ok (path, a2, sOA) := by
      unfold accProvers
      simp only [t1, c1, if_true, c2]
    have P2 : accProvers o fx prm T dom (ψ r) i' ys' element = .ok (path, b2, sOB) := by
      unfold accProvers
      simp only [t2, d1, if_true, d2]
    obtain ⟨eE, hE⟩ := C40_one_phase (o false) (prm.gens false) (hb false) (hgen false) (hcap false).1 (hcap false).2 c4 d4
      (c6.trans k4) (d6.trans m4) c5.satisfied.2 d5.satisfied.2 pf.even
    obtain ⟨eO, hO⟩ := hO pf.odd
    have hx : ∀ p tr t', (challengeScalar (o p) t' "x").2 <+: tr → (challengeScalar (o p) t' "x").1 ≠ 0 := fun p tr t' _ => hch p t'
    refine ⟨eE, eO, fun _ _ a b => ?_⟩
    rw [accProve_iff P1, accProve_iff P2]
    refine and_congr_right fun _ => and_congr ?_ ?_
    · exact exists_congr fun tr => hE tr (hx false tr) a
    · exact exists_congr fun tr => hO tr (hx true tr) b
  choose eE eO hkey using key
  refine ⟨Equiv.prodShear ψ fun r => Equiv.prodCongr (eE r) (eO r), fun rnd n n' h h' => hψ n n' h h' rnd.1, fun rnd h h' => ?_⟩
  exact hkey rnd.1 h h' rnd.2.1 rnd.2.2

end CT
