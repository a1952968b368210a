import Verif.Proofs.CompletenessError
import Verif.Proofs.Counting
import Verif.Proofs.Concrete
import Verif.Props.TreeGadgets
import Verif.Spec.Coin
import Mathlib.Tactic.NormNum.Prime
import Mathlib.FieldTheory.Finite.Basic

/-!
# C72: an honest Prover is rejected with negligible probability

C01 assumes that no challenge `prove` inverts is zero, and that none of the points it sends is the identity. Here the exceptions are counted.
-/

namespace CT
variable {F G X : Type} [Field F] [Fintype F] [DecidableEq F] [AddCommGroup G] [Module F G] [DecidableEq G]

/-- **C72**: let a Prover and a Verifier be given the same true statement, without second-phase callbacks, with at most 17 vector commitments and enough generators. Of all
random choices of the Prover and all challenges a share of at most `completenessLoss / q` leads to an error or to a proof that is not accepted, where `q` is the size of the
field. -/
theorem C72_completeness_error {o : Oracle F G X} {g : Gens G} (hcG : g.capacity ≤ g.Gs.length) (hcH : g.capacity ≤ g.Hs.length) (hB : g.pc.B ≠ 0) (hb : g.pc.Bbl ≠ 0)
    {s : PState F G X} {t : VState F G X} (h : Session o g s t) (hd : s.deferred = []) (htrue : s.Satisfied) (hin : s.InCircuit)
    {lg : Nat} (hlg : nextPow2 s.size = 2 ^ lg) (hcap : 2 ^ lg ≤ g.capacity) (h32 : lg < 32) (h17 : s.vecOpen.length ≤ 17) {m M : Nat}
    (hm : m = 2 * (opDegree s.vecOpen.length + 1) + 1) (hM : s.transcript.length + m + 18 + 3 * lg < M) :
    Fintype.card F * {ω : Draw s.size m M → F | ¬ HonestAccepted (Draw.oracle ω) g (Draw.prover ω) s t}.ncard ≤
      completenessLoss s.vecOpen.length lg * Fintype.card (Draw s.size m M → F) :=
  honest_error hcG hcH hB hb h.inv hd htrue.2 hin hlg hcap h32 h17 hm hM

/-- **C72**: the exceptions exist. In a group of prime order at least a share of `1 / q` of all choices leads to a proof that is not accepted, since `A_I1` is the identity. -/
theorem C72_error_not_zero {g : Gens G} (hgen : ∀ P : G, ∃ a : F, P = a • g.pc.Bbl) (s : PState F G X) (t : VState F G X) (m M : Nat) :
    Fintype.card (Draw s.size m M → F) ≤ Fintype.card F * {ω : Draw s.size m M → F | ¬ HonestAccepted (Draw.oracle ω) g (Draw.prover ω) s t}.ncard := by
  obtain ⟨a, ha⟩ := hgen (msm (g.Gs.take s.pad.size ++ g.Hs.take s.pad.size) (s.pad.aL ++ s.pad.aR))
  have h1 := ncard_hit (A := fun _ : Draw s.size m M => F) (.blind 0) ({-a} : Set F)
  rw [Set.ncard_singleton, one_mul] at h1
  rw [← h1]
  refine Nat.mul_le_mul_left _ (Set.ncard_le_ncard fun ω hω => ?_)
  rintro ⟨p, tr, hp, hv⟩
  have h0 : (s.firstCommitments g (Draw.prover ω)).AI = 0 := by
    simp only [Set.mem_ofPred_eq, Set.mem_singleton_iff] at hω
    simp only [PState.firstCommitments, commit1, msm_cons, Draw.prover]
    rw [hω, ha]
    module
  rw [prove_eq] at hp
  split at hp
  · simp at hp
  split at hp
  · simp at hp
  rename_i s2 _
  have hAI : p.AI1 = 0 := by rw [(proveTail_first hp).1, h0]
  have := hv 0
  unfold verify verificationTuple at this
  simp [validateAndAppendPoint, hAI, bind, Except.bind] at this

/-- The bound says something as soon as the field is larger than the numerator: there are choices for which the proof is accepted. -/
theorem C72_some_accepted {o : Oracle F G X} {g : Gens G} (hcG : g.capacity ≤ g.Gs.length) (hcH : g.capacity ≤ g.Hs.length) (hB : g.pc.B ≠ 0) (hb : g.pc.Bbl ≠ 0)
    {s : PState F G X} {t : VState F G X} (h : Session o g s t) (hd : s.deferred = []) (htrue : s.Satisfied) (hin : s.InCircuit)
    {lg : Nat} (hlg : nextPow2 s.size = 2 ^ lg) (hcap : 2 ^ lg ≤ g.capacity) (h32 : lg < 32) (h17 : s.vecOpen.length ≤ 17)
    (hq : completenessLoss s.vecOpen.length lg < Fintype.card F) :
    ∃ (o : Oracle F G X) (rnd : PRand F), HonestAccepted o g rnd s t := by
  by_contra hno
  have hb := C72_completeness_error hcG hcH hB hb h hd htrue hin hlg hcap h32 h17 (m := _) (M := _) rfl (Nat.lt_succ_self _)
  rw [show {ω : Draw s.size _ _ → F | ¬ HonestAccepted (Draw.oracle ω) g (Draw.prover ω) s t} = Set.univ from
    Set.eq_univ_of_forall fun ω hω => hno ⟨_, _, hω⟩, Set.ncard_univ, Nat.card_eq_fintype_card] at hb
  have hpos : 0 < Fintype.card (Draw s.size (2 * (opDegree s.vecOpen.length + 1) + 1)
      (s.transcript.length + (2 * (opDegree s.vecOpen.length + 1) + 1) + 18 + 3 * lg).succ → F) := Fintype.card_pos
  exact absurd (Nat.le_of_mul_le_mul_right hb hpos) (by omega)

/-- The numerator is small: with at most 17 vector commitments and fewer than `2 ^ 32` multipliers it is at most 200. -/
theorem C72_loss_small {n lg : Nat} (hn : n ≤ 17) (hlg : lg < 32) : completenessLoss n lg ≤ 200 := by
  unfold completenessLoss opDegree
  omega

section Membership
variable {B : Bool → Type} [∀ p, Field (B p)] [∀ p, Fintype (B p)] [∀ p, DecidableEq (B p)] {C : ∀ p, SWCurve (B p)} [∀ p, Module (B (!p)) (C p).Pt] {L M : Nat} [NeZero M]

/-- **C72** for membership: take any tree made by `from_set`, of height at least one, any leaf and any scalars that avoid the exceptional additions (C70 counts the others). The
gadget of the Prover succeeds, the gadget of the Verifier returns the re-randomised leaf, and on each of the two curves the proof made from the resulting state is accepted for all
but a share of `completenessLoss / q` of the random choices and challenges. -/
theorem C72_membership {prm : SelRerand C} (hv : prm.Valid) (hg : prm.tree.EnoughGens L M) (hL : 2 ≤ L)
    {set : List (C false).Pt} {height : Option Nat} {fuel : Nat} {T : CurveTree L M (Pts C)}
    (ht : fromSet prm.tree set height fuel = some (.ok T)) (hfuel : set.length + height.getD 0 ≤ fuel) (h0 : T.height ≠ 0)
    (oE : SideO C false) (oO : SideO C true) (fx : Bool) {rnd : ∀ p, Nat → B (!p)} {i : Nat} (hi : i < set.length) (hs : SpendOk prm T i rnd)
    (hcG : ∀ p, (prm.gens p).capacity ≤ (prm.gens p).Gs.length) (hcH : ∀ p, (prm.gens p).capacity ≤ (prm.gens p).Hs.length)
    (hB : ∀ p, (prm.gens p).pc.B ≠ 0) (hb : ∀ p, (prm.gens p).pc.Bbl ≠ 0)
    {sE : SideP C false} {sO : SideP C true} {tE : SideV C false} {tO : SideV C true}
    (hsE : Session oE (prm.gens false) sE tE) (hsO : Session oO (prm.gens true) sO tO) (gE : sE.Good) (gO : sO.Good) (dE : sE.deferred = []) (dO : sO.deferred = []) :
    ∃ path r sE' sO' tE' tO', treeProverGadget oE oO fx prm rnd T i 0 sE sO = .ok ((path, r), sE', sO') ∧
      treeVerifierGadget oE oO fx prm T path tE tO = .ok (set[i] + (show B (!false) from r) • prm.h false, tE', tO') ∧
      (∀ lg m N, nextPow2 sE'.size = 2 ^ lg → 2 ^ lg ≤ (prm.gens false).capacity → lg < 32 → sE'.vecOpen.length ≤ 17 →
        m = 2 * (opDegree sE'.vecOpen.length + 1) + 1 → sE'.transcript.length + m + 18 + 3 * lg < N →
        Fintype.card (B (!false)) * {ω : Draw sE'.size m N → B (!false) | ¬ HonestAccepted (Draw.oracle ω) (prm.gens false) (Draw.prover ω) sE' tE'}.ncard ≤
          completenessLoss sE'.vecOpen.length lg * Fintype.card (Draw sE'.size m N → B (!false))) ∧
      (∀ lg m N, nextPow2 sO'.size = 2 ^ lg → 2 ^ lg ≤ (prm.gens true).capacity → lg < 32 → sO'.vecOpen.length ≤ 17 →
        m = 2 * (opDegree sO'.vecOpen.length + 1) + 1 → sO'.transcript.length + m + 18 + 3 * lg < N →
        Fintype.card (B (!true)) * {ω : Draw sO'.size m N → B (!true) | ¬ HonestAccepted (Draw.oracle ω) (prm.gens true) (Draw.prover ω) sO' tO'}.ncard ≤
          completenessLoss sO'.vecOpen.length lg * Fintype.card (Draw sO'.size m N → B (!true))) := by
  obtain ⟨nodes, h1, h2⟩ := C26_witness_partial hg hL ht hfuel 0 hi
  have hM : 1 ≤ M := Nat.one_le_iff_ne_zero.2 (NeZero.ne M)
  obtain ⟨path, r, sE', sO', k1, k2, k3, k4, k5, -⟩ := path_complete oE oO fx hv
    (fun p => le_trans (Nat.le_mul_of_pos_right L hM) (hg p)) h2 (rnd := rnd) (hs.avoids nodes h1) gE gO
  obtain ⟨l1, l2⟩ := pathTo_lengths h2
  obtain ⟨tE', tO', v1, v2, v3⟩ := path_session h2 h0 (fun j hj => hs.even j (by omega)) (fun j hj => hs.odd j (by omega)) hsE hsO k1
  refine ⟨path, r, sE', sO', tE', tO', by unfold treeProverGadget; simp only [h1]; exact k1, v1, ?_, ?_⟩
  · intro lg m N e1 e2 e3 e4 e5 e6
    exact C72_completeness_error (hcG _) (hcH _) (hB _) (hb _) v2 (k4.trans dE) k2.satisfied k2.inCircuit e1 e2 e3 e4 e5 e6
  · intro lg m N e1 e2 e3 e4 e5 e6
    exact C72_completeness_error (hcG _) (hcH _) (hB _) (hb _) v3 (k5.trans dO) k3.satisfied k3.inCircuit e1 e2 e3 e4 e5 e6

end Membership

/-! Non-vacuity: over the field with 101 elements, a session that commits to 2, 3 and the vector (6, 1), and constrains the product of the first two to be the first entry of
the vector. At most 18 of 101 choices fail, and some do. -/
section Example

instance c72Prime : Fact (Nat.Prime 101) := ⟨by norm_num⟩

def c72Gens : Gens (ZMod 101) := ⟨⟨1, 10⟩, 4, [2, 3, 5, 7], [11, 13, 17, 19]⟩
def c72Oracle : Oracle (ZMod 101) (ZMod 101) Unit := fun _ => 1
def c72Prog : Prog (ZMod 101) (ZMod 101) Unit Unit := do
  let (_, _, o) ← multiply (LC.ofVar (.committed 0)) (LC.ofVar (.committed 1))
  constrain (LC.ofVar o - LC.ofVar (.vectorCommit 0 0))
def c72P1 : PState (ZMod 101) (ZMod 101) Unit := (((PState.new []).commit c72Gens 2 7).2.commit c72Gens 3 8).2
def c72V1 : VState (ZMod 101) (ZMod 101) Unit :=
  ((VState.new []).commit (c72Gens.pc.commit (2 : ZMod 101) 7)).2.commit (c72Gens.pc.commit (3 : ZMod 101) 8) |>.2
def c72P2 := okOr (c72P1.commitVec c72Gens [6, 1] 9)
def c72V2 := (c72V1.commitVec 2 c72P2.1.1).2
def c72P3 := okOr (runP c72Oracle c72Prog c72P2.2)
def c72V3 := okOr (runV c72Oracle c72Prog c72V2)

theorem c72_session : Session c72Oracle c72Gens c72P3.2 c72V3.2 := by
  have h1 : Session c72Oracle c72Gens c72P1 c72V1 := .commit 3 8 (.commit 2 7 (.new []))
  have h2 : Session c72Oracle c72Gens c72P2.2 c72V2 :=
    .commitVec (v := [6, 1]) (bl := 9) h1 (eq_ok (x := c72P1.commitVec c72Gens [6, 1] 9) (by decide +kernel))
  exact .gadget h2 (.refl (R := Eq) (fun _ => rfl) c72Prog) (eq_ok (by decide +kernel)) (eq_ok (by decide +kernel))

theorem c72_inCircuit : c72P3.2.InCircuit := by
  intro c hc t ht
  have h : ∀ c ∈ c72P3.2.constraints, ∀ t ∈ c.terms, (match t.1 with
      | .committed i => decide (i < 2)
      | .multiplierLeft i => decide (i < 1)
      | .multiplierRight i => decide (i < 1)
      | .multiplierOutput i => decide (i < 1)
      | .one => true
      | .vectorCommit j i => decide (j = 0 ∧ i = 0)) = true := by decide +kernel
  have hv : c72P3.2.v.length = 2 := by decide +kernel
  have ha : c72P3.2.aL.length = 1 := by decide +kernel
  have ho : c72P3.2.vecOpen.map (·.2.length) = [2] := by decide +kernel
  have := h c hc t ht
  obtain ⟨v, x⟩ := t
  cases v with
  | committed i => simpa [Variable.InRange, hv] using this
  | multiplierLeft i => simpa [Variable.InRange, ha] using this
  | multiplierRight i => simpa [Variable.InRange, ha] using this
  | multiplierOutput i => simpa [Variable.InRange, ha] using this
  | one => trivial
  | vectorCommit j i =>
    obtain ⟨rfl, rfl⟩ := of_decide_eq_true this
    exact ⟨2, by rw [ho]; rfl, by norm_num⟩

example : ∃ (s : PState (ZMod 101) (ZMod 101) Unit) (t : VState (ZMod 101) (ZMod 101) Unit), s.size = 2 ∧ s.vecOpen.length = 1 ∧
    101 * {ω : Draw s.size 7 50 → ZMod 101 | ¬ HonestAccepted (Draw.oracle ω) c72Gens (Draw.prover ω) s t}.ncard ≤ 18 * Fintype.card (Draw s.size 7 50 → ZMod 101) ∧
    Fintype.card (Draw s.size 7 50 → ZMod 101) ≤ 101 * {ω : Draw s.size 7 50 → ZMod 101 | ¬ HonestAccepted (Draw.oracle ω) c72Gens (Draw.prover ω) s t}.ncard ∧
    ∃ o rnd, HonestAccepted o c72Gens rnd s t := by
  have hs : c72P3.2.size = 2 := by decide +kernel
  have hv : c72P3.2.vecOpen.length = 1 := by decide +kernel
  have hsat : c72P3.2.Satisfied := ⟨c72_session.inv.inv.gates, allZero_iff (by decide +kernel)⟩
  have hd : c72P3.2.deferred = [] := by decide +kernel
  have hlg : nextPow2 c72P3.2.size = 2 ^ 1 := by rw [hs]; rfl
  refine ⟨c72P3.2, c72V3.2, hs, hv, ?_, ?_, ?_⟩
  · have := C72_completeness_error (m := 7) (M := 50) (g := c72Gens) (by decide) (by decide) (by decide) (by decide) c72_session hd hsat c72_inCircuit hlg (by decide) (by norm_num)
      (by rw [hv]; norm_num) (by rw [hv]; rfl) (by decide +kernel)
    rwa [hv, ZMod.card, show completenessLoss 1 1 = 18 by decide] at this
  · have := C72_error_not_zero (g := c72Gens) (fun P => ⟨P * 91, by
      show P = P * 91 * 10
      rw [mul_assoc, show (91 * 10 : ZMod 101) = 1 by decide +kernel, mul_one]⟩) c72P3.2 c72V3.2 7 50
    rwa [ZMod.card] at this
  · exact C72_some_accepted (g := c72Gens) (by decide) (by decide) (by decide) (by decide) c72_session hd hsat c72_inCircuit hlg (by decide) (by norm_num)
      (by rw [hv]; norm_num) (by rw [hv, ZMod.card]; decide)

end Example
end CT
