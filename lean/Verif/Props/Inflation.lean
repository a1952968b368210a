import Verif.Spec.Coin
import Verif.Proofs.PourSession
import Verif.Props.Spend

/-!
# C44: payments out of nothing
-/

namespace CT

variable {B : Bool → Type} [∀ p, Field (B p)] [∀ p, DecidableEq (B p)] {C : ∀ p, SWCurve (B p)}
  [∀ p, Module (B (!p)) (C p).Pt] {L : Nat} {K SK S : Type}

/-- Proofs for the circuits of a Pour made from good Prover states are accepted. -/
theorem pour_accepted {o : ∀ p, SideO C p} {fx : Bool} {prm : SelRerand C} {tag : K → B true} {T : CurveTree L 1 (Pts C)}
    {dom : ∀ p, Transcript (B (!p)) (C p).Pt (C (!p)).Pt} {pour : PourOf C K} {tE : SideV C false} {tO : SideV C true}
    (hc : pourCircuits o fx prm tag T dom pour = .ok (tE, tO))
    (hE : ∀ r, verify (o false) (prm.gens false) r pour.evenProof tE = .ok ())
    (hO : ∀ r, verify (o true) (prm.gens true) r pour.oddProof tO = .ok ()) : PourAccepted o fx prm tag T dom pour := by
  intro rE rO
  have h1 := hE rE
  have h2 := hO rO
  unfold verify at h1 h2
  split at h1
  · cases h1
  rename_i vE e1
  split at h2
  · cases h2
  rename_i vO e2
  refine ⟨vE, vO, ?_, h1, h2⟩
  unfold pourVerification
  rw [hc]
  simp only [unwrap_ok.2 e1, unwrap_ok.2 e2]

/-- C44 is false of the code (`fx = false`). Take any tree of height at least one made by `from_set`, one of its leaves, and *any* amounts
`m0, m1` below `2^64`, none of which the attacker owns. For any two points the attacker can open to amounts with the same sum and to the tags of
two keys of their choice (such that the additions of the last level avoid the exceptional cases) there are two paths with which the Pour that mints coins
of `m0` and `m1` is accepted, with proofs the attacker makes without knowing anything about the coins in the tree. -/
theorem C44_inflation {prm : SelRerand C} (hv : prm.Valid) (hg : prm.tree.EnoughGens L 1) (hL : 2 ≤ L)
    {set : List (C false).Pt} {height : Option Nat} {fuel : Nat} {T : CurveTree L 1 (Pts C)}
    (ht : fromSet prm.tree set height fuel = some (.ok T)) (hfuel : set.length + height.getD 0 ≤ fuel) (h0 : T.height ≠ 0)
    (o : ∀ p, SideO C p) {rnd : ∀ p, Nat → B (!p)} {i : Nat} (hi : i < set.length)
    (hE : ∀ j, j + 1 < (T.height + 1) / 2 → rnd false j ≠ 0) (hO : ∀ j < T.height / 2, rnd true j ≠ 0)
    (hav : ∀ nodes, T.witness prm.tree i 0 = .ok nodes → ∀ p (k : Nat) w, (nodes p)[k]? = some w →
      (p = true → k + 1 < (T.height + 1) / 2) → prm.Avoids (!p) w.child (rnd (!p) k))
    (hx0 : set[i] + (prm.layer false).delta ≠ 0) (sch : SigScheme K SK S (B true)) (pk : Bool → K) {v bl : Bool → B (!false)} {Q : Bool → (C false).Pt}
    (hQ : ∀ b, Q b = coinPoint (prm.gens false) (v b) (sch.tag (pk b)) (bl b))
    (hQ0 : ∀ b, Q b + (prm.layer false).delta ≠ 0) {r : Bool → Nat}
    (hat : ∀ b, Attackable (C false) (prm.layer false).lambda (prm.h false) (r b) (set[i] + (prm.layer false).delta) (Q b + (prm.layer false).delta))
    {m0 m1 : Nat} (hm0 : m0 < 2 ^ 64) (hm1 : m1 < 2 ^ 64) (hsum : v false + v true = (m0 : B true) + (m1 : B true)) (mk0 mk1 : K) (r0 r1 : S)
    (b0 b1 : B true) (dom : ∀ p, Transcript (B (!p)) (C p).Pt (C (!p)).Pt) :
    ∃ path0 path1 a0 c0 a1 c1 sE sO, path0.selected = Q false ∧ path1.selected = Q true ∧
      coinNew (F := B (!false)) sch (prm.gens false) m0 mk0 r0 b0 = .ok (a0, c0) ∧ coinNew (F := B (!false)) sch (prm.gens false) m1 mk1 r1 b1 = .ok (a1, c1) ∧
      PState.Good sE ∧ PState.Good sO ∧
      ((∀ p, (prm.gens p).capacity ≤ (prm.gens p).Gs.length ∧ (prm.gens p).capacity ≤ (prm.gens p).Hs.length) →
        nextPow2 sE.size < 2 ^ 32 → nextPow2 sO.size < 2 ^ 32 → ∀ rndE rndO pE pO trE trO,
        prove (o false) (prm.gens false) rndE sE = .ok (pE, trE) → prove (o true) (prm.gens true) rndO sO = .ok (pO, trO) →
        pE.NoIdentity sE.vecOpen.length → pO.NoIdentity sO.vecOpen.length →
        PourAccepted o false prm sch.tag T dom ⟨pE, pO, path0, path1, pk false, pk true, c0, c1⟩) := by
  obtain ⟨nodes, h1, h2⟩ := C26_witness_partial hg hL ht hfuel 0 hi
  obtain ⟨l1, l2⟩ := pathTo_lengths h2
  have ans : ∀ b, Answerable o false prm T { proverPath prm nodes rnd with selected := Q b } := by
    intro b sE sO tE tO hsE hsO gE gO
    exact path_forge (o false) (o true) hv (fun p => (Nat.mul_one L).symm.trans_le (hg p)) h2 h0 (rnd := rnd) (fun j hj => hE j (by omega))
      (fun j hj => hO j (by omega)) (fun p k w hw hp => hav nodes h1 p k w hw (by rw [← l1]; exact hp)) (hQ0 b) hx0 (hat b) hsE hsO gE gO
  obtain ⟨a0, c0, a1, c1, sE, sO, tE, tO, n0, n1, hc, SE, SO, GE, GO, DE, DO⟩ := pour_session hL ((Nat.mul_one L).symm.trans_le (hg false)) (sch := sch)
    (ans false) (ans true) (hQ false) (hQ true) hm0 hm1 hsum mk0 mk1 r0 r1 b0 b1 dom
  refine ⟨{ proverPath prm nodes rnd with selected := Q false }, { proverPath prm nodes rnd with selected := Q true }, a0, c0, a1, c1, sE, sO, rfl, rfl, n0, n1, GE, GO, ?_⟩
  intro cap hE32 hO32 rndE rndO pE pO trE trO hpE hpO nE nO
  exact pour_accepted (hc pE pO)
    (fun r => C01_one_phase (o false) _ rndE sE tE SE (cap false).1 (cap false).2 DE GE.satisfied hpE hE32 nE r)
    (fun r => C01_one_phase (o true) _ rndO sO tO SO (cap true).1 (cap true).2 DO GO.satisfied hpO hO32 nO r)

section Example
open Curve19

/-- A signature scheme, for the example. -/
def anyScheme : SigScheme Nat Nat Nat (ZMod 19) := ⟨fun k => k, fun _ _ _ => .ok true, fun k _ r => ⟨k, r⟩, fun s _ => s, fun k r => k + r⟩

set_option maxRecDepth 4000 in
/-- Non-vacuity of `C44_inflation`: in the tree with leaves `3h, 5h, 11h` the attacker uses the point `8h` twice, opened to the amounts 10 and 12 and the
tag 9 of a key of their choice, and mints coins of 20 and 2. -/
example : ∃ (path0 path1 : Path Curve19.C.Pt Curve19.C.Pt) (a0 : Coin (ZMod 19) Nat) (c0 : Curve19.C.Pt) (a1 : Coin (ZMod 19) Nat) (c1 : Curve19.C.Pt),
    path0.selected = 8 • h ∧ path1.selected = 8 • h ∧ a0.value = 20 ∧ a1.value = 2 ∧
    ∃ (sE : SideP Cs false) (sO : SideP Cs true), sE.Good ∧ sO.Good ∧
    (nextPow2 sE.size < 2 ^ 32 → nextPow2 sO.size < 2 ^ 32 → ∀ rndE rndO pE pO trE trO,
        prove (o false) (prm.gens false) rndE sE = .ok (pE, trE) → prove (o true) (prm.gens true) rndO sO = .ok (pO, trO) →
        pE.NoIdentity sE.vecOpen.length → pO.NoIdentity sO.vecOpen.length →
        PourAccepted o false prm anyScheme.tag T (fun _ => []) ⟨pE, pO, path0, path1, 9, 9, c0, c1⟩) := by
  obtain ⟨path0, path1, a0, c0, a1, c1, sE, sO, h1, h2, h3, h4, h5, h6, h7⟩ := C44_inflation valid
    tree_gens le_rfl fromSet_T (by decide) (by rw [height_T]; decide) o (rnd := rnd) (i := 2) (by decide)
    (by rw [height_T]; intro j hj; omega) (by intro j _; change (2 : ZMod 19) ≠ 0; decide)
    (by intro nodes' hw; rw [← Except.ok.inj (witness_T.symm.trans hw)]; intro p k w hw _; exact avoids_T p k w hw)
    (by change 11 • h + h ≠ 0; decide +kernel) anyScheme (fun _ => 9) (v := fun b => if b then (12 : ZMod 19) else (10 : ZMod 19))
    (bl := fun b => if b then (14 : ZMod 19) else (18 : ZMod 19)) (Q := fun _ => 8 • h)
    (by
      have : ∀ b, (8 • h : Curve19.C.Pt) = (if b = true then (12 : ZMod 19) else (10 : ZMod 19)) • (2 • h) + (9 : ZMod 19) • (3 • h) +
        (if b = true then (14 : ZMod 19) else (18 : ZMod 19)) • h := by decide +kernel
      exact this)
    (fun _ => by change 8 • h + h ≠ 0; decide +kernel) (r := fun _ => 0) (fun _ => attackable_8h) (m0 := 20) (m1 := 2) (by norm_num) (by norm_num)
    (by change (10 : ZMod 19) + 12 = (20 : Nat) + (2 : Nat); decide) 1 1 0 0 (0 : ZMod 19) (0 : ZMod 19) (fun _ => [])
  refine ⟨path0, path1, a0, c0, a1, c1, h1, h2, ?_, ?_, sE, sO, h5, h6, h7 (fun p => by obtain ⟨h1, h2, h3⟩ := gens_length p; rw [h1, h2, h3]; exact ⟨le_rfl, le_rfl⟩)⟩
  · exact (coinNew_commitment h3).2.1
  · exact (coinNew_commitment h4).2.1

end Example

end CT
