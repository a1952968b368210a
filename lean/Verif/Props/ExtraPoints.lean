import Verif.Proofs.ExtraPoints
import Verif.Props.OddForgery

/-!
# C08: the shape of accepted proofs

`verification_scalars` (`inner_product_proof.rs:241-307`) checks the number of `L` points against the size of
the circuit and pairs them with the `R` points by `zip`; the number of `R` points is not checked. `verify`
(`verifier.rs:444-465`, `700-722`) then chains *all* `R` points in front of the generators. Surplus `R` points are
not absorbed into the transcript, and each of them shifts the scalars by one position: two surplus points
receive the scalars that were meant for `B` and `B_blinding`.
-/

namespace CT
variable {F G X : Type} [Field F] [DecidableEq F] [AddCommGroup G] [Module F G] [DecidableEq G]

/-- **C08 is false of the code.** For any statement whatsoever (any Verifier state `t`), take any list of
points of the right shape with `a = 0`, `t_x = t_x_blinding = 1`, `e_blinding = 0`: two surplus `R` points,
computed from the challenges, make the Verifier accept it whatever its random scalar. -/
theorem C08_surplus_R_points_forgery (o : Oracle F G X) (g : Gens G) (p : R1CSProof F G) (t t2 : VState F G X)
    (wt : Weights F) (hG : g.capacity ≤ g.Gs.length) (hH : g.capacity ≤ g.Hs.length)
    (hshape : PaperShape o g p t t2 wt) (hLR : p.ipp.L.length = p.ipp.R.length)
    (hL : ∀ P ∈ p.ipp.L, P ≠ 0) (hR : ∀ P ∈ p.ipp.R, P ≠ 0)
    (ha : p.ipp.a = 0) (htx : p.tx = 1) (htb : p.txBl = 1) (heb : p.eBl = 0) (hw : o (absorbedW p t2) ≠ 0) :
    ∃ X1 X2 : G, ∀ r,
      verify o g r { p with ipp := { p.ipp with R := p.ipp.R ++ [X1, X2] } } t = .ok () :=
  extra_verifies hshape hLR hL hR hG hH ha htx htb heb hw

/-- The Verifier's state for the statement `2 * 3 = 7`, without any commitment. -/
def absurdV0 (o : Oracle F G X) : Except Err (Unit × VState F G X) := runV o absurdGadget (VState.new [])

/-- The points and scalars the forger starts from; `P` is any point but the identity. -/
def forgedBase (P : G) : R1CSProof F G :=
  { AI1 := P, AO1 := P, S1 := P, AI2 := 0, AO2 := 0, S2 := 0, T := List.replicate 7 P, tx := 1, txBl := 1, eBl := 0,
    ipp := { L := [], R := [], a := 0, b := 0 } }

/-- **C08 is false of the code**, a statement no assignment satisfies: `2 * 3 = 7`. In every non-trivial group
and for every oracle whose answers are not zero there is a proof with two `R` points and no `L` point that
is accepted. -/
theorem C08_unsatisfiable_accepted (h7 : (2 * 3 : F) ≠ 7) (o : Oracle F G X) (ho : ∀ tr, o tr ≠ 0) (g : Gens G)
    (hcap : 1 ≤ g.capacity) (hG : g.capacity ≤ g.Gs.length) (hH : g.capacity ≤ g.Hs.length) (P : G) (hP : P ≠ 0) :
    ∃ t, absurdV0 o = .ok ((), t) ∧ (∀ w, ¬ t.SatisfiedBy w) ∧
      ∃ p : R1CSProof F G, p.ipp.L.length = 0 ∧ p.ipp.R.length = 2 ∧ ∀ r, verify o g r p t = .ok () := by
  refine ⟨_, rfl, ?_, ?_⟩
  · rintro w ⟨hg, hc⟩
    replace hc : ∀ c ∈ [(LC.ofVar (.multiplierLeft 0) - LC.const 2 : LC F), LC.ofVar (.multiplierRight 0) - LC.const 3,
        LC.ofVar (.multiplierOutput 0) - LC.const 7], w.eval c = 0 := hc
    replace hg : w.Gates 1 := hg
    have hl := hc (LC.ofVar (.multiplierLeft 0) - LC.const 2) (by simp)
    have hr := hc (LC.ofVar (.multiplierRight 0) - LC.const 3) (by simp)
    have ho := hc (LC.ofVar (.multiplierOutput 0) - LC.const 7) (by simp)
    have hg := hg 0 (by simp)
    simp only [eval_sub, eval_ofVar, eval_const, Assignment.val] at hl hr ho
    rw [sub_eq_zero.1 hl, sub_eq_zero.1 hr, sub_eq_zero.1 ho] at hg
    exact h7 hg
  · have hsh : ∃ t2 wt, PaperShape o g (forgedBase P) (okOr (absurdV0 (F := F) (G := G) (X := X) o)).2 t2 wt := by
      refine ⟨_, _, hP, hP, hP, rfl, ?_, ho _, rfl, le_refl _, fun h => absurd rfl h, by simp [forgedBase], hcap⟩
      intro d hd
      have hd : d ∈ tDegrees (opDegree 0) := hd
      rw [show tDegrees (opDegree 0) = [0, 1, 3, 4, 5, 6] by decide] at hd
      simp only [List.mem_cons, List.not_mem_nil, or_false] at hd
      rcases hd with rfl | rfl | rfl | rfl | rfl | rfl <;>
        exact ⟨by decide, by simp [forgedBase], by simpa [forgedBase] using hP⟩
    obtain ⟨t2, wt, hsh⟩ := hsh
    obtain ⟨X1, X2, h⟩ := C08_surplus_R_points_forgery o g (forgedBase P) _ t2 wt hG hH hsh rfl (by simp [forgedBase])
      (by simp [forgedBase]) rfl rfl rfl rfl (ho _)
    exact ⟨_, rfl, rfl, h⟩

/-- The hypotheses are met, e.g. over ℚ with the oracle `t ↦ t.length + 2`. -/
example : ∃ t, absurdV0 exOracle = .ok ((), t) ∧ (∀ w, ¬ t.SatisfiedBy w) ∧
    ∃ p : R1CSProof ℚ ℚ, p.ipp.L.length = 0 ∧ p.ipp.R.length = 2 ∧ ∀ r, verify exOracle exGens r p t = .ok () :=
  C08_unsatisfiable_accepted (by norm_num) exOracle (fun tr => by unfold exOracle; positivity) exGens
    (by decide +kernel) (by decide +kernel) (by decide +kernel) 1 one_ne_zero

/-- **C08, what does hold.** An accepted proof has the shape the Verifier requires, and *at least* as many `R`
points as `L` points; none of the pairs absorbed into the transcript contains the identity. Missing: no
more `R` points than `L` points (false, see above). -/
theorem C08_accepted_shape_partial (o : Oracle F G X) (g : Gens G) (r : F) (p : R1CSProof F G) (t : VState F G X)
    (h : verify o g r p t = .ok ()) :
    ∃ t2 wt, PaperShape o g p t t2 wt ∧ p.ipp.L.length ≤ p.ipp.R.length ∧
      ∀ i < p.ipp.L.length, p.ipp.L.getD i 0 ≠ 0 ∧ p.ipp.R.getD i 0 ≠ 0 := by
  obtain ⟨t2, wt, h1, h2, h3⟩ := accepted_shape h
  refine ⟨t2, wt, h1, h2, fun i hi => ?_⟩
  refine h3 (p.ipp.L.getD i 0, p.ipp.R.getD i 0) ?_
  rw [List.mem_iff_getElem]
  refine ⟨i, by simp; omega, ?_⟩
  rw [List.getElem_zip, getD_of_lt _ _ _ hi, getD_of_lt _ _ _ (by omega : i < p.ipp.R.length)]

end CT
