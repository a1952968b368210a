import Verif.Props.Hiding
import Verif.Proofs.Simulator

/-! # C55: a proof can be made without a witness by someone who knows the challenges in advance -/

namespace CT
open Finset
variable {F G X : Type} [Field F] [DecidableEq F] [AddCommGroup G] [Module F G] [DecidableEq G]

/-- **C55.** Fix a statement, a true witness, and challenges `c`. `sc`, `tc` are the Prover and the Verifier after the second phase (up to the transcript).
There is a bijection from the Prover's random choices to the coins of the simulator such that, for every oracle and every proof for which the oracle gives the
challenges `c`, the Prover makes the proof with `rnd` exactly if the simulator, which has no witness, makes it with `φ rnd`. -/
theorem C55_zero_knowledge (g : Gens G) (hb : g.pc.Bbl ≠ 0) (hgen : ∀ P : G, ∃ a : F, P = a • g.pc.Bbl)
    (hcG : g.capacity ≤ g.Gs.length) (hcH : g.capacity ≤ g.Hs.length) (s sc : PState F G X) (t tc : VState F G X)
    (htrue : ∀ k ∈ sc.constraints, sc.assignment.eval k = 0) (c : Guess F) (hx : c.x ≠ 0) :
    ∃ φ : PRand F ≃ PRand F, ∀ (o : Oracle F G X) (p : R1CSProof F G) (T tr : Transcript F G X), Session o g s t →
      s.secondPhase o ⟨p.AI1, p.AO1, p.S1⟩ = .ok { sc with transcript := T } →
      t.secondPhase o p.AI1 p.AO1 p.S1 = .ok { tc with transcript := T } → c.Right o p { tc with transcript := T } →
      ∀ rnd, prove o g rnd s = .ok (p, tr) ↔ simulate o g t.size { tc with transcript := T } c (φ rnd) = .ok (p, tr) := by
  have hinj : ∀ a b : F, a • g.pc.Bbl = b • g.pc.Bbl → a = b := by
    intro a b h
    rw [← sub_eq_zero, ← sub_smul] at h
    exact sub_eq_zero.1 ((smul_eq_zero.1 h).resolve_right hb)
  obtain ⟨lg, hlg⟩ : ∃ lg : G →ₗ[F] F, ∀ P, lg P • g.pc.Bbl = P := by
    let e := LinearEquiv.ofBijective (LinearMap.toSpanSingleton F G g.pc.Bbl)
      ⟨fun a b h => hinj a b h, fun P => by obtain ⟨a, rfl⟩ := hgen P; exact ⟨a, rfl⟩⟩
    exact ⟨e.symm, fun P => e.apply_symm_apply P⟩
  have htail : ∀ {o : Oracle F G X} {p : R1CSProof F G} {T : Transcript F G X}, Session o g s t →
      s.secondPhase o ⟨p.AI1, p.AO1, p.S1⟩ = .ok { sc with transcript := T } → t.secondPhase o p.AI1 p.AO1 p.S1 = .ok { tc with transcript := T } →
      TailOk g s.size { sc with transcript := T } { tc with transcript := T } ∧
        sc.aL.take s.size = s.pad.aL ∧ sc.aR.take s.size = s.pad.aR ∧ sc.aO.take s.size = s.pad.aO := by
    intro o p T h e2 e3
    obtain ⟨t2, a1, a2, a3⟩ := h.inv.tail e2 htrue
    have : t2 = { tc with transcript := T } := by
      unfold VState.secondPhase at e3
      rw [t.pad_fields.2.1] at a1
      rw [List.append_assoc, List.singleton_append] at a1
      rw [a1] at e3
      simpa using e3
    rw [this] at a2
    exact ⟨a2, a3⟩
  by_cases hy : c.y = 0 ∨ tc.flattened c.z = none
  · -- nothing is made
    refine ⟨Equiv.refl _, fun o p T tr h e2 e3 hr rnd => ⟨fun hp => ?_, fun hp => ?_⟩⟩
    · exfalso
      have k := (htail h e2 e3).1
      rw [prove_eq] at hp
      by_cases hcap : g.capacity < s.size
      · rw [if_pos hcap] at hp; simp at hp
      rw [if_neg hcap] at hp
      cases h2 : s.secondPhase o (s.firstCommitments g rnd) with
      | error e => rw [h2] at hp; simp at hp
      | ok s3 =>
      rw [h2] at hp
      simp only at hp
      have hfirst : (⟨p.AI1, p.AO1, p.S1⟩ : Com G) = s.firstCommitments g rnd := by
        obtain ⟨e1, e2, e3⟩ := proveTail_first hp
        rw [e1, e2, e3]
      rw [← hfirst, e2] at h2
      obtain rfl : _ = s3 := by simpa using h2
      have E := (proveTail_iff o g rnd s.size _ _ _ k.sync p tr).1 hp
      obtain ⟨us, hr⟩ := hr
      rcases hy with hy | hy
      · exact E.y (hr.y.trans hy)
      · apply E.wt
        have ez : chkZ o { tc with transcript := T } p = c.z := by rw [← hr.z]; unfold chkZ chkT0 absorbedA; simp
        rw [ez]
        exact hy
    · exfalso
      unfold simulate at hp
      simp only at hp
      split at hp
      · cases hp
      split at hp
      · cases hp
      split at hp
      · cases hp
      rcases hy with hy | hy
      · split at hp
        · cases hp
        rw [if_pos hy] at hp
        cases hp
      · rw [show VState.flattened { tc with transcript := T } c.z = none from hy] at hp
        cases hp
  · push Not at hy
    obtain ⟨hy, hw⟩ := hy
    obtain ⟨wt, hwt⟩ := Option.ne_none_iff_exists'.1 hw
    refine ⟨toCoins lg g (c.check s.size tc wt) sc sc.size hx hy, fun o p T tr h e2 e3 hr rnd => ?_⟩
    obtain ⟨k, l⟩ := htail h e2 e3
    have hts : t.size = s.size := h.inv.sync.size
    have hwt' : VState.flattened { tc with transcript := T } c.z = some wt := hwt
    have hsz : VState.size { tc with transcript := T } = sc.size := k.sync.size
    have hcO : CheckOf s.size { tc with transcript := T } (c.check s.size { tc with transcript := T } wt) :=
      ⟨rfl, rfl, rfl, rfl, c.z, hwt'⟩
    rw [prove_iff_real hcG h.inv e2 k l hr hwt' hy rnd tr, simulate_iff o g t.size { tc with transcript := T } c _ p tr hwt' hy, hts]
    have hL := real_L k hcO lg hx hy rnd
    have hR := real_R k hcO lg hx hy rnd
    obtain ⟨K, hK, hK', -⟩ := nextPow2_eq tc.size
    refine and_congr_right fun hcap => and_congr_right fun _ => and_congr_right fun _ => ?_
    have hNn : sc.size ≤ g.capacity := by
      have : nextPow2 tc.size ≤ g.capacity := not_lt.1 hcap
      rw [← hsz]
      exact le_trans (by rw [hK]; exact hK') this
    have hp := real_eq_sim k hcO hlg (le_trans hNn hcG) (le_trans hNn hcH) hx hy rnd
    rw [hp, hsz]
    refine and_congr_right fun _ => ?_
    have e1 : (c.check s.size { tc with transcript := T } wt).x = c.x := rfl
    have e2 : (c.check s.size { tc with transcript := T } wt).y = c.y := rfl
    rw [e1] at hL hR
    rw [e2] at hR
    rw [show PState.size { sc with transcript := T } = sc.size from rfl] at hL hR ⊢
    rw [hL, hR]
    exact Iff.rfl

/-- C55 for statements without second phase: it is enough that the witness satisfies the constraints. -/
theorem C55_one_phase (g : Gens G) (hb : g.pc.Bbl ≠ 0) (hgen : ∀ P : G, ∃ a : F, P = a • g.pc.Bbl)
    (hcG : g.capacity ≤ g.Gs.length) (hcH : g.capacity ≤ g.Hs.length) (s : PState F G X) (t : VState F G X)
    (ds : s.deferred = []) (dt : t.deferred = []) (htrue : ∀ k ∈ s.constraints, s.assignment.eval k = 0) (c : Guess F) (hx : c.x ≠ 0) :
    ∃ φ : PRand F ≃ PRand F, ∀ (o : Oracle F G X) (p : R1CSProof F G) (t2 : VState F G X) (tr : Transcript F G X), Session o g s t →
      t.secondPhase o p.AI1 p.AO1 p.S1 = .ok t2 → c.Right o p t2 →
      ∀ rnd, prove o g rnd s = .ok (p, tr) ↔ simulate o g t.size t2 c (φ rnd) = .ok (p, tr) := by
  have hpd : s.pad.deferred = [] := by rw [PState.pad_eq]; exact ds
  have htd : t.pad.deferred = [] := by unfold VState.pad; rw [VState.padN_eq]; exact dt
  have hc : s.pad.constraints = s.constraints := by rw [PState.pad_eq]
  have htr : ∀ k ∈ ({ s.pad with pending := none } : PState F G X).constraints, ({ s.pad with pending := none } : PState F G X).assignment.eval k = 0 := by
    intro k hk
    rw [← htrue k (by rw [← hc]; exact hk)]
    exact congrArg (fun a => Assignment.eval a k) s.pad_assignment
  obtain ⟨φ, hφ⟩ := C55_zero_knowledge g hb hgen hcG hcH s { s.pad with pending := none } t { t.pad with pending := none } htr c hx
  refine ⟨φ, fun o p t2 tr h e3 hr rnd => ?_⟩
  have e2 : s.secondPhase o ⟨p.AI1, p.AO1, p.S1⟩ = .ok { { s.pad with pending := none } with
      transcript := s.pad.transcript ++ [.num "m" s.v.length, .point "A_I1" p.AI1, .point "A_O1" p.AO1, .point "S1" p.S1] ++ [.sep "r1cs-1phase"] } := by
    unfold PState.secondPhase PState.createRandomized
    simp only
    rw [if_pos hpd]
  obtain ⟨t2', a1, a2, -⟩ := h.inv.tail e2 htr
  have h22 : t2' = t2 := by
    unfold VState.secondPhase at e3
    rw [t.pad_fields.2.1] at a1
    rw [List.append_assoc, List.singleton_append] at a1
    rw [a1] at e3
    simpa using e3
  subst h22
  have e4 : t2' = { { t.pad with pending := none } with transcript := s.pad.transcript ++ [.num "m" s.v.length, .point "A_I1" p.AI1, .point "A_O1" p.AO1, .point "S1" p.S1] ++ [.sep "r1cs-1phase"] } := by
    have htt := a2.sync.stmt.transcript
    have e3' := e3
    unfold VState.secondPhase VState.createRandomized at e3
    simp only at e3
    rw [if_pos htd] at e3
    simp only at htt
    rw [← htt]
    have := Except.ok.inj e3
    rw [← this]
  have := hφ o p (s.pad.transcript ++ [.num "m" s.v.length, .point "A_I1" p.AI1, .point "A_O1" p.AO1, .point "S1" p.S1] ++ [.sep "r1cs-1phase"]) tr h e2
    (by rw [← e4]; exact e3) (by rw [← e4]; exact hr) rnd
  rw [← e4] at this
  exact this

/-- **C55, the simulator is not limited to true statements.** Whatever the statement `t`, a simulated proof for which the oracle gives the challenges chosen in
advance is accepted. So the challenges, and nothing else, keep a false statement from being proved. -/
theorem C55_simulated_accepted (o : Oracle F G X) (g : Gens G) (hcG : g.capacity ≤ g.Gs.length) (hcH : g.capacity ≤ g.Hs.length)
    (t t2 : VState F G X) (c : Guess F) (ρ : PRand F) (p : R1CSProof F G) (tr : Transcript F G X) (hx : c.x ≠ 0)
    (h2 : t.secondPhase o p.AI1 p.AO1 p.S1 = .ok t2) (hs : simulate o g t.size t2 c ρ = .ok (p, tr)) (hr : c.Right o p t2)
    (h32 : nextPow2 t2.size < 2 ^ 32) (hne : p.NoIdentity t2.vecComms.length) (r : F) : verify o g r p t = .ok () :=
  simulate_accepted o g hcG hcH t t2 c ρ p tr hx h2 hs hr h32 hne r

section Example

/-- The proof of the Prover with the witness `2 * 3 = 6`. -/
def c55P : R1CSProof ℚ ℚ := (okOr (prove exOracle exGens exRand c40A)).1
/-- The Verifier after the (empty) second phase. -/
def c55T2 : VState ℚ ℚ Unit := okOr (c40T.secondPhase exOracle c55P.AI1 c55P.AO1 c55P.S1)
/-- The challenges. -/
def c55C : Guess ℚ :=
  ⟨exOracle (absorbedA c55P c55T2 ++ [.chal "y"]), exOracle (absorbedA c55P c55T2 ++ [.chal "y", .chal "z"]), exOracle (absorbedT c55P c55T2 ++ [.chal "u"]),
    exOracle (absorbedT c55P c55T2 ++ [.chal "u", .chal "x"]), exOracle (absorbedW c55P c55T2)⟩

/-- Non-vacuity of C55: the proof made with the witness is also made by the simulator. -/
example : ∃ ρ tr, prove exOracle exGens exRand c40A = .ok (c55P, tr) ∧ c55C.Right exOracle c55P c55T2 ∧
    simulate exOracle exGens c40T.size c55T2 c55C ρ = .ok (c55P, tr) := by
  have hp : prove exOracle exGens exRand c40A = .ok (okOr _) := eq_ok (by decide +kernel)
  have h2 : c40T.secondPhase exOracle c55P.AI1 c55P.AO1 c55P.S1 = .ok c55T2 := eq_ok (by decide +kernel)
  have hr : c55C.Right exOracle c55P c55T2 := ⟨_, rfl, rfl, rfl, rfl, rfl, rfl⟩
  obtain ⟨φ, hφ⟩ := C55_one_phase exGens (by decide +kernel) (fun P => ⟨P / 10, by change P = (P / 10) * 10; ring⟩) (by decide) (by decide) c40A c40T
    (by decide +kernel) (by decide +kernel) (allZero_iff (by decide +kernel)) c55C (by
      change ((absorbedT c55P c55T2 ++ _).length : ℚ) + 2 ≠ 0
      positivity)
  exact ⟨φ exRand, _, hp, hr, (hφ exOracle c55P c55T2 _ c40_session h2 hr exRand).1 hp⟩

/-- The false statement `0 = 1`, about one commitment. -/
def c55F : VState ℚ ℚ Unit := (okOr (runV exOracle (do let _ ← multiply (LC.ofVar (.committed 0)) (LC.ofVar (.committed 0)); constrain (LC.const 1))
  ((VState.new []).commit 72).2)).2
/-- The Verifier of the false statement after the second phase, with any first points. -/
def c55F2 (p : R1CSProof ℚ ℚ) : VState ℚ ℚ Unit := okOr (c55F.secondPhase exOracle p.AI1 p.AO1 p.S1)
/-- The challenges, which for the oracle of the examples depend only on the number of messages. -/
def c55FC (p : R1CSProof ℚ ℚ) : Guess ℚ :=
  ⟨exOracle (absorbedA p (c55F2 p) ++ [.chal "y"]), exOracle (absorbedA p (c55F2 p) ++ [.chal "y", .chal "z"]), exOracle (absorbedT p (c55F2 p) ++ [.chal "u"]),
    exOracle (absorbedT p (c55F2 p) ++ [.chal "u", .chal "x"]), exOracle (absorbedW p (c55F2 p))⟩
/-- The simulated proof of the false statement; the first pass only computes the points. -/
def c55FP0 : R1CSProof ℚ ℚ := (okOr (simulate exOracle exGens c55F.size (c55F2 c55P) (c55FC c55P) exRand)).1
def c55FP : R1CSProof ℚ ℚ := (okOr (simulate exOracle exGens c55F.size (c55F2 c55FP0) (c55FC c55P) exRand)).1

/-- Non-vacuity of `C55_simulated_accepted`: a proof of `0 = 1` for an oracle whose challenges can be predicted. -/
example : (∀ a : Assignment ℚ, ∃ k ∈ c55F.constraints, a.eval k ≠ 0) ∧ ∀ r, verify exOracle exGens r c55FP c55F = .ok () := by
  have e1 : c55FP.AI1 = c55FP0.AI1 := by decide +kernel
  have e2 : c55FP.AO1 = c55FP0.AO1 := by decide +kernel
  have e3 : c55FP.S1 = c55FP0.S1 := by decide +kernel
  have h2 : c55F.secondPhase exOracle c55FP.AI1 c55FP.AO1 c55FP.S1 = .ok (c55F2 c55FP0) := by
    rw [e1, e2, e3]
    exact eq_ok (by decide +kernel)
  have hs : simulate exOracle exGens c55F.size (c55F2 c55FP0) (c55FC c55P) exRand = .ok (okOr _) := eq_ok (by decide +kernel)
  refine ⟨fun a => ⟨LC.const 1, by decide +kernel, ?_⟩, fun r =>
    C55_simulated_accepted exOracle exGens (by decide) (by decide) c55F (c55F2 c55FP0) (c55FC c55P) exRand c55FP _ (by
      change ((absorbedT c55P (c55F2 c55P) ++ _).length : ℚ) + 2 ≠ 0
      positivity) h2 hs ⟨_, ?_, ?_, ?_, ?_, ?_, rfl⟩ (by decide +kernel) (by decide +kernel) r⟩
  · simp [LC.const, Assignment.eval]
  all_goals decide +kernel

end Example

end CT
