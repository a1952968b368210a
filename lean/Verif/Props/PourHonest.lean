-- `Batched19` is imported only so that the two are not built at the same time, which would need too much memory
import Verif.Proofs.Batched19
import Verif.Proofs.PourOut
import Verif.Props.Inflation
import Verif.Props.Errors

/-!
# C45, C46: honest payments
-/

namespace CT

variable {B : Bool → Type} [∀ p, Field (B p)] [∀ p, DecidableEq (B p)] {C : ∀ p, SWCurve (B p)}
  [∀ p, Module (B (!p)) (C p).Pt] {L : Nat} {K SK S : Type}

/-- **C45.** The payment of two coins of the tree by their owner, with amounts that balance. `prove_pour` gets as far as the two proofs; if then the
generators suffice, there are at most 17 vector commitments on each side (see C35) and no inverted challenge is zero, it returns a transaction. The
Verifier accepts the transaction if no point of the two proofs is the identity, the encoding of the Pour can be decoded and `Schnorr::verify`
returns `Ok` for the two signatures.
`hsize` is needed: see `C45_height_one_rejected`. -/
theorem C45_honest_pour_accepted_partial {prm : SelRerand C} (hv : prm.Valid) (hg : prm.tree.EnoughGens L 1) (hL : 2 ≤ L)
    (hcap : ∀ p, (prm.gens p).capacity ≤ (prm.gens p).Gs.length ∧ (prm.gens p).capacity ≤ (prm.gens p).Hs.length)
    {set : List (C false).Pt} {height : Option Nat} {fuel : Nat} {T : CurveTree L 1 (Pts C)}
    (ht : fromSet prm.tree set height fuel = some (.ok T)) (hfuel : set.length + height.getD 0 ≤ fuel) (h0 : T.height ≠ 0)
    (hsize : L ≤ 128 ∨ 2 ≤ T.height)
    (o : ∀ p, SideO C p) (fx : Bool) (sch : SigScheme K SK S (B true)) (cod : Codec (PourOf C K)) (rnd : PourRand C S)
    {in0 in1 : SpendingInfo K SK S (B true)} (hin0 : in0.Owned prm sch set) (hin1 : in1.Owned prm sch set)
    (hr0 : SpendOk prm T in0.index (rnd.path false)) (hr1 : SpendOk prm T in1.index (rnd.path true))
    {val0 val1 : Nat} (h64 : val0 < 2 ^ 64) (h64' : val1 < 2 ^ 64) (hsum : in0.coin.value + in1.coin.value = val0 + val1) (pk0 pk1 : K)
    (dom : ∀ p, Transcript (B (!p)) (C p).Pt (C (!p)).Pt) :
    ∃ path0 path1 c0 c1 sE sO, pourProvers o fx prm sch T rnd in0 in1 val0 pk0 val1 pk1 (.new (dom false)) (.new (dom true)) =
        .ok ((path0, path1, c0, c1), sE, sO) ∧
      (nextPow2 sE.size ≤ (prm.gens false).capacity → nextPow2 sO.size ≤ (prm.gens true).capacity → sE.vecOpen.length ≤ 17 → sO.vecOpen.length ≤ 17 →
        (∀ p (tr : Transcript (B (!p)) (C p).Pt (C (!p)).Pt), o p (tr ++ [Msg.chal "y"]) ≠ 0 ∧ o p (tr ++ [Msg.chal "u"]) ≠ 0) →
        ∃ tx, provePour o fx prm sch cod T rnd in0 in1 val0 pk0 val1 pk1 (.new (dom false)) (.new (dom true)) = .ok tx) ∧
      (nextPow2 sE.size < 2 ^ 32 → nextPow2 sO.size < 2 ^ 32 → ∀ tx,
        provePour o fx prm sch cod T rnd in0 in1 val0 pk0 val1 pk1 (.new (dom false)) (.new (dom true)) = .ok tx →
        ∃ pE pO, tx.pourBytes = cod.enc ⟨pE, pO, path0, path1, in0.randomizedPk, in1.randomizedPk, c0, c1⟩ ∧
          (pE.NoIdentity sE.vecOpen.length → pO.NoIdentity sO.vecOpen.length →
            (∀ pour : PourOf C K, pour.Fits → cod.dec (cod.enc pour) = some (pour, [])) →
            (∀ inp, inp = in0 ∨ inp = in1 → ∀ (bytes : List UInt8) r,
              sch.verify inp.randomizedPk bytes (sch.randomizeSig (sch.sign inp.sk bytes r) inp.coin.pkRandomness) = .ok true) →
            TxAccepted o fx prm sch cod T dom tx)) := by
  have idx : ∀ {i : Nat} {P : (C false).Pt}, set[i]? = some P → ∃ nodes, T.witness prm.tree i 0 = .ok nodes ∧ T.PathTo prm.tree 0 nodes ⟨false, P⟩ := by
    intro i P hi
    obtain ⟨hlt, rfl⟩ := List.getElem?_eq_some_iff.1 hi
    exact C26_witness_partial hg hL ht hfuel 0 hlt
  obtain ⟨nodes0, w0, p0⟩ := idx hin0.leaf
  obtain ⟨nodes1, w1, p1⟩ := idx hin1.leaf
  obtain ⟨path0, path1, c0, c1, sE, sO, tE, tO, ds, hp, hc, SE, SO, GE, GO, DE, DO, hds, hsz, -⟩ := pourProvers_session (o := o) (fx := fx) hv
    (fun p => (Nat.mul_one L).symm.trans_le (hg p)) hL h0 w0 w1 p0 p1 hr0 hr1 hin0.tag hin1.tag h64 h64' hsum pk0 pk1 dom
  refine ⟨path0, path1, c0, c1, sE, sO, hp, ?_, ?_⟩
  · intro hE hO h17 h17' hch
    obtain ⟨pE, trE, e1⟩ := prove_of_good (F := B (!false)) (o false) (prm.gens false) rnd.even GE DE (hcap false).1 (hcap false).2 hE h17 (hch false)
    obtain ⟨pO, trO, e2⟩ := prove_of_good (F := B (!true)) (o true) (prm.gens true) rnd.odd GO DO (hcap true).1 (hcap true).2 hO h17' (hch true)
    unfold provePour
    rw [hp]
    simp only [unwrap_ok.2 e1]
    rw [unwrap_ok.2 e2]
    exact ⟨_, rfl⟩
  · intro hE32 hO32 tx htx
    unfold provePour at htx
    rw [hp] at htx
    simp only at htx
    split at htx
    · cases htx
    rename_i pE trE e1
    split at htx
    · cases htx
    rename_i pO trO e2
    simp only [Except.ok.injEq] at htx
    subst htx
    refine ⟨pE, pO, rfl, ?_⟩
    intro nE nO hdec hsig rE rO
    have hLs : L ≤ sE.size := by
      refine le_trans ?_ sE.aL_le_size
      rcases hsize with h | h
      · omega
      · have : L * 1 ≤ L * (T.height / 2) := Nat.mul_le_mul_left L (by omega)
        omega
    have hdsz : ∀ j < sE.vecOpen.length, ds j ≤ sE.size := fun j _ => (hds j).trans hLs
    have e1w := prove_widen (o false) (prm.gens false) rnd.even ds DE hdsz (unwrap_ok.1 e1)
    have hwl : (sE.widen ds).vecOpen.length = sE.vecOpen.length := PState.widen_length ds sE
    obtain ⟨vE, vO, k1, k2, k3⟩ := pour_accepted (hc pE pO)
      (fun r => C01_one_phase (o false) _ rnd.even (sE.widen ds) tE SE (hcap false).1 (hcap false).2 DE (PState.widen_satisfied ds GE.satisfied) e1w
        (by rw [PState.widen_size ds hdsz]; exact hE32) (by rw [hwl]; exact nE) r)
      (fun r => C01_one_phase (o true) _ rnd.odd sO tO SO (hcap true).1 (hcap true).2 DO GO.satisfied (unwrap_ok.1 e2) hO32 nO r) rE rO
    refine ⟨vE, vO, ?_, k2, k3⟩
    unfold signedTxVerification verifySignatures
    have hfit : Pour.Fits (⟨pE, pO, path0, path1, in0.randomizedPk, in1.randomizedPk, c0, c1⟩ : PourOf C K) := by
      obtain ⟨lgE, x1, x2, -⟩ := nextPow2_eq sE.size
      have := sE.aL_le_size
      have h2 : T.height / 2 ≤ L * (T.height / 2) := Nat.le_mul_of_pos_left _ (by omega)
      exact pour_fits (hL.trans ((Nat.mul_one L).symm.trans_le (hg false))) w0 w1 p0 p1 hp (by omega)
        (prove_fits DE (hcap false).1 (hcap false).2 (unwrap_ok.1 e1) (hE32.trans (by norm_num))) (prove_fits DO (hcap true).1 (hcap true).2 (unwrap_ok.1 e2) (hO32.trans (by norm_num))) _ _
    simp only [hdec _ hfit]
    have a0 := hsig in0 (.inl rfl) (cod.enc ⟨pE, pO, path0, path1, in0.randomizedPk, in1.randomizedPk, c0, c1⟩) (rnd.sig false)
    have a1 := hsig in1 (.inr rfl) (cod.enc ⟨pE, pO, path0, path1, in0.randomizedPk, in1.randomizedPk, c0, c1⟩) (rnd.sig true)
    rw [unwrap_ok.2 a0]
    simp only
    rw [unwrap_ok.2 a1]
    simp only
    exact k1

/-- **C46** is false, of the code and of the code with the repaired `re_randomize`: the owner of one coin of the tree uses it as both inputs and mints coins
of twice the amount. -/
theorem C46_same_coin_twice {prm : SelRerand C} (hv : prm.Valid) (hg : prm.tree.EnoughGens L 1) (hL : 2 ≤ L)
    (hcap : ∀ p, (prm.gens p).capacity ≤ (prm.gens p).Gs.length ∧ (prm.gens p).capacity ≤ (prm.gens p).Hs.length)
    {set : List (C false).Pt} {height : Option Nat} {fuel : Nat} {T : CurveTree L 1 (Pts C)}
    (ht : fromSet prm.tree set height fuel = some (.ok T)) (hfuel : set.length + height.getD 0 ≤ fuel) (h0 : T.height ≠ 0)
    (hsize : L ≤ 128 ∨ 2 ≤ T.height)
    (o : ∀ p, SideO C p) (fx : Bool) (sch : SigScheme K SK S (B true)) (cod : Codec (PourOf C K)) (rnd : PourRand C S)
    {inp : SpendingInfo K SK S (B true)} (hin : inp.Owned prm sch set) (hr : ∀ b, SpendOk prm T inp.index (rnd.path b))
    {val0 val1 : Nat} (h64 : val0 < 2 ^ 64) (h64' : val1 < 2 ^ 64) (hsum : val0 + val1 = 2 * inp.coin.value) (pk0 pk1 : K)
    (dom : ∀ p, Transcript (B (!p)) (C p).Pt (C (!p)).Pt) :
    ∃ path0 path1 c0 c1 sE sO, pourProvers o fx prm sch T rnd inp inp val0 pk0 val1 pk1 (.new (dom false)) (.new (dom true)) =
        .ok ((path0, path1, c0, c1), sE, sO) ∧
      (nextPow2 sE.size ≤ (prm.gens false).capacity → nextPow2 sO.size ≤ (prm.gens true).capacity → sE.vecOpen.length ≤ 17 → sO.vecOpen.length ≤ 17 →
        (∀ p (tr : Transcript (B (!p)) (C p).Pt (C (!p)).Pt), o p (tr ++ [Msg.chal "y"]) ≠ 0 ∧ o p (tr ++ [Msg.chal "u"]) ≠ 0) →
        ∃ tx, provePour o fx prm sch cod T rnd inp inp val0 pk0 val1 pk1 (.new (dom false)) (.new (dom true)) = .ok tx) ∧
      (nextPow2 sE.size < 2 ^ 32 → nextPow2 sO.size < 2 ^ 32 → ∀ tx,
        provePour o fx prm sch cod T rnd inp inp val0 pk0 val1 pk1 (.new (dom false)) (.new (dom true)) = .ok tx →
        ∃ pE pO, tx.pourBytes = cod.enc ⟨pE, pO, path0, path1, inp.randomizedPk, inp.randomizedPk, c0, c1⟩ ∧
          (pE.NoIdentity sE.vecOpen.length → pO.NoIdentity sO.vecOpen.length →
            (∀ pour : PourOf C K, pour.Fits → cod.dec (cod.enc pour) = some (pour, [])) →
            (∀ (bytes : List UInt8) r,
              sch.verify inp.randomizedPk bytes (sch.randomizeSig (sch.sign inp.sk bytes r) inp.coin.pkRandomness) = .ok true) →
            TxAccepted o fx prm sch cod T dom tx)) := by
  obtain ⟨path0, path1, c0, c1, sE, sO, h1, h2, h3⟩ := C45_honest_pour_accepted_partial hv hg hL hcap ht hfuel h0 hsize o fx sch cod rnd hin hin (hr false) (hr true)
    h64 h64' (by omega) pk0 pk1 dom
  refine ⟨path0, path1, c0, c1, sE, sO, h1, h2, fun hE hO tx htx => ?_⟩
  obtain ⟨pE, pO, k1, k2⟩ := h3 hE hO tx htx
  exact ⟨pE, pO, k1, fun a b c d => k2 a b c (by rintro _ (rfl | rfl) <;> exact d)⟩

/-- C45 without `hsize` is false: with a tree of height one and a branching factor above 128 the transaction made by the honest Prover is never accepted, because the
Prover's circuit on the even curve has size 128 and the Verifier's has size `L`. -/
theorem C45_height_one_rejected {prm : SelRerand C} (hv : prm.Valid) (hg : prm.tree.EnoughGens L 1) (hL : 128 < L)
    (hcap : ∀ p, (prm.gens p).capacity ≤ (prm.gens p).Gs.length ∧ (prm.gens p).capacity ≤ (prm.gens p).Hs.length)
    {set : List (C false).Pt} {height : Option Nat} {fuel : Nat} {T : CurveTree L 1 (Pts C)}
    (ht : fromSet prm.tree set height fuel = some (.ok T)) (hfuel : set.length + height.getD 0 ≤ fuel) (h1 : T.height = 1)
    (o : ∀ p, SideO C p) (fx : Bool) (sch : SigScheme K SK S (B true)) (cod : Codec (PourOf C K)) (rnd : PourRand C S)
    {in0 in1 : SpendingInfo K SK S (B true)} (hin0 : in0.Owned prm sch set) (hin1 : in1.Owned prm sch set)
    (hr0 : SpendOk prm T in0.index (rnd.path false)) (hr1 : SpendOk prm T in1.index (rnd.path true))
    {val0 val1 : Nat} (h64 : val0 < 2 ^ 64) (h64' : val1 < 2 ^ 64) (hsum : in0.coin.value + in1.coin.value = val0 + val1) (pk0 pk1 : K)
    (dom : ∀ p, Transcript (B (!p)) (C p).Pt (C (!p)).Pt) (hc64 : (prm.gens true).capacity < 2 ^ 64)
    (hdec : ∀ pour : PourOf C K, pour.Fits → cod.dec (cod.enc pour) = some (pour, [])) (tx : SignedTx S)
    (htx : provePour o fx prm sch cod T rnd in0 in1 val0 pk0 val1 pk1 (.new (dom false)) (.new (dom true)) = .ok tx) :
    ∀ rE rO vE vO, signedTxVerification o fx prm sch cod T dom rE rO tx = .ok (vE, vO) → checkTuple (F := B (!false)) (prm.gens false) vE ≠ .ok () := by
  have idx : ∀ {i : Nat} {P : (C false).Pt}, set[i]? = some P → ∃ nodes, T.witness prm.tree i 0 = .ok nodes ∧ T.PathTo prm.tree 0 nodes ⟨false, P⟩ := by
    intro i P hi
    obtain ⟨hlt, rfl⟩ := List.getElem?_eq_some_iff.1 hi
    exact C26_witness_partial hg (by omega) ht hfuel 0 hlt
  obtain ⟨nodes0, w0, p0⟩ := idx hin0.leaf
  obtain ⟨nodes1, w1, p1⟩ := idx hin1.leaf
  obtain ⟨path0, path1, c0, c1, sE, sO, tE, tO, ds, hp, hc, SE, SO, GE, GO, DE, DO, hds, hsz, hone⟩ := pourProvers_session (o := o) (fx := fx) hv
    (fun p => (Nat.mul_one L).symm.trans_le (hg p)) (by omega) (by omega) w0 w1 p0 p1 hr0 hr1 hin0.tag hin1.tag h64 h64' hsum pk0 pk1 dom
  obtain ⟨n1, n2, x, n3, n4⟩ := hone h1
  unfold provePour at htx
  rw [hp] at htx
  simp only at htx
  split at htx
  · cases htx
  rename_i pE trE e1
  split at htx
  · cases htx
  rename_i pO trO e2
  simp only [Except.ok.injEq] at htx
  subst htx
  intro rE rO vE vO hver hck
  have hsize : sE.size = 128 := by
    apply le_antisymm
    · rw [sE.size_eq]
      exact foldl_max_le (fun v : B (!false) × List (B (!false)) => v.2.length) _ _ _ n1.le (fun v hv => by rw [n2 v hv]; omega)
    · rw [← n1]; exact sE.aL_le_size
  -- the proof has seven rounds
  have hlen : pE.ipp.L.length = 7 := by
    have hpr := unwrap_ok.1 e1
    rw [prove_eq] at hpr
    split at hpr
    · cases hpr
    split at hpr
    · cases hpr
    rename_i s2 hs2
    have := (proveTail_lengths (F := B (!false)) _ _ _ _ _ _ (hcap false).1 hpr).2.1
    have hs2' : s2.size = sE.size := by
      unfold PState.secondPhase PState.createRandomized at hs2
      have hpd : sE.pad.deferred = [] := by rw [PState.pad_eq]; exact DE
      simp only [hpd, if_true, Except.ok.injEq] at hs2
      rw [← hs2]
      exact sE.pad_size
    rw [this, hs2', hsize]
    decide
  -- an accepted proof has more
  unfold signedTxVerification at hver
  have hfit : Pour.Fits (⟨pE, pO, path0, path1, in0.randomizedPk, in1.randomizedPk, c0, c1⟩ : PourOf C K) :=
    pour_fits (show 2 ≤ _ from (by omega : 2 ≤ L).trans ((Nat.mul_one L).symm.trans_le (hg false))) w0 w1 p0 p1 hp (by rw [h1]; norm_num)
      (prove_fits DE (hcap false).1 (hcap false).2 (unwrap_ok.1 e1) (by rw [hsize]; decide))
      (prove_fits DO (hcap true).1 (hcap true).2 (unwrap_ok.1 e2) ((prove_capacity DO (unwrap_ok.1 e2)).trans_lt hc64)) _ _
  simp only [hdec _ hfit] at hver
  split at hver
  · cases hver
  unfold pourVerification at hver
  rw [hc] at hver
  simp only at hver
  split at hver
  · cases hver
  rename_i vE' q1
  split at hver
  · cases hver
  rename_i vO' q2
  simp only [Except.ok.injEq, Prod.mk.injEq] at hver
  obtain ⟨rfl, rfl⟩ := hver
  have hacc : verify (o false) (prm.gens false) rE pE tE = .ok () := by
    unfold verify
    rw [unwrap_ok.1 q1]
    exact hck
  obtain ⟨t2, wt, hsh, -⟩ := accepted_shape (F := B (!false)) hacc
  have hmono := createRandomized_mono hsh.second
  have hcomm : t2.vecComms = tE.vecComms := by rw [hmono.2.1, VState.pad_eq]
  have hdim : L ≤ t2.size := by
    have hmem : (msm ((prm.gens false).pc.Bbl :: (prm.gens false).Gs.take x.2.length) (x.1 :: x.2), x.2.length) ∈ t2.vecComms := by
      rw [hcomm, SE.inv.sync.comms]
      exact List.mem_map.2 ⟨x, List.mem_of_getElem? n3, rfl⟩
    have := (foldl_max_ge (fun v : (C false).Pt × Nat => v.2) t2.vecComms t2.numVars).2 _ hmem
    rw [← n4]
    exact this
  have := hsh.size
  rw [hlen] at this
  omega

section Example
open Curve19

-- one kernel run at a time, to save memory
set_option Elab.async false

/-- The coin `11h`, of amount 1, opened by the tag 1 of a key and the blinding 6. -/
def coin11 : SpendingInfo Nat Nat Nat (ZMod 19) := ⟨2, ⟨1, 1, 6, 0⟩, 1, 0⟩
/-- The coin `3h`, of amount 4, opened by the tag 1 of a key and the blinding 11. -/
def coin3 : SpendingInfo Nat Nat Nat (ZMod 19) := ⟨0, ⟨4, 1, 11, 0⟩, 1, 0⟩

set_option maxRecDepth 4000 in
theorem owned11 : coin11.Owned prm anyScheme Curve19.set := by
  refine ⟨?_, by decide⟩
  have : (11 • h : Curve19.C.Pt) = (1 : ZMod 19) • (2 • h) + (1 : ZMod 19) • (3 • h) + (6 : ZMod 19) • h := by decide +kernel
  exact congrArg some this

set_option maxRecDepth 4000 in
theorem owned3 : coin3.Owned prm anyScheme Curve19.set := by
  refine ⟨?_, by decide⟩
  have : (3 • h : Curve19.C.Pt) = (4 : ZMod 19) • (2 • h) + (1 : ZMod 19) • (3 • h) + (11 : ZMod 19) • h := by decide +kernel
  exact congrArg some this

theorem spendOk_2 : SpendOk prm T 2 rnd where
  even := by rw [height_T]; intro j hj; omega
  odd := by intro j _; change (2 : ZMod 19) ≠ 0; decide
  avoids := by intro nodes' hw; rw [← Except.ok.inj (witness_T.symm.trans hw)]; exact avoids_T

theorem spendOk_0 : SpendOk prm T 0 rnd where
  even := by rw [height_T]; intro j hj; omega
  odd := by intro j _; change (2 : ZMod 19) ≠ 0; decide
  avoids := by
    have key : ∀ p, ∀ w ∈ (nodes_0 p).map (·.child), prm.Avoids (!p) w (rnd (!p) 0) := by decide +kernel
    intro nodes' hw p k w hk
    rw [← Except.ok.inj (witness_0.symm.trans hw)] at hk
    exact key p _ (List.mem_map.2 ⟨w, List.mem_of_getElem? hk, rfl⟩)

def prand1 : PourRand Cs Nat where
  pkr _ := 1
  bl b := if b then (3 : ZMod 19) else (4 : ZMod 19)
  path _ := rnd
  even := pr 3
  odd := pr 2
  sig _ := 0

/-- The circuits of the example fit the generators. -/
theorem sizes_true : (match pourProvers o true prm anyScheme T prand1 coin11 coin3 3 9 2 9 (.new []) (.new []) with
    | .ok (_, sE, sO) => decide (nextPow2 sE.size ≤ 512 ∧ nextPow2 sO.size ≤ 512 ∧ sE.vecOpen.length ≤ 17 ∧ sO.vecOpen.length ≤ 17)
    | .error _ => false) = true := by
  decide +kernel

/-- The circuits of the example fit the generators. -/
theorem sizes_false : (match pourProvers o false prm anyScheme T prand1 coin11 coin3 3 9 2 9 (.new []) (.new []) with
    | .ok (_, sE, sO) => decide (nextPow2 sE.size ≤ 512 ∧ nextPow2 sO.size ≤ 512 ∧ sE.vecOpen.length ≤ 17 ∧ sO.vecOpen.length ≤ 17)
    | .error _ => false) = true := by
  decide +kernel

/-- The circuits of the example fit the generators. -/
theorem sizes (fx : Bool) : (match pourProvers o fx prm anyScheme T prand1 coin11 coin3 3 9 2 9 (.new []) (.new []) with
    | .ok (_, sE, sO) => decide (nextPow2 sE.size ≤ 512 ∧ nextPow2 sO.size ≤ 512 ∧ sE.vecOpen.length ≤ 17 ∧ sO.vecOpen.length ≤ 17)
    | .error _ => false) = true := by
  cases fx
  exacts [sizes_false, sizes_true]

set_option maxRecDepth 4000 in
/-- Non-vacuity of `C45_honest_pour_accepted_partial`: in the tree with leaves `3h, 5h, 11h` the owner of the coins `11h` (amount 1) and `3h` (amount 4) pays, with coins
of 3 and 2. Before and after the repair of `re_randomize` the transaction is made, and accepted if no point of the proofs is the identity. -/
example (fx : Bool) (cod : Codec (PourOf Cs Nat)) (hcod : ∀ pour : PourOf Cs Nat, pour.Fits → cod.dec (cod.enc pour) = some (pour, [])) :
    ∃ tx, provePour o fx prm anyScheme cod T prand1 coin11 coin3 3 9 2 9 (.new []) (.new []) = .ok tx ∧
      ∃ pE pO path0 path1 c0 c1 nE nO, tx.pourBytes = cod.enc ⟨pE, pO, path0, path1, 1, 1, c0, c1⟩ ∧
        (pE.NoIdentity nE → pO.NoIdentity nO → TxAccepted o fx prm anyScheme cod T (fun _ => []) tx) := by
  obtain ⟨path0, path1, c0, c1, sE, sO, h1, h2, h3⟩ := C45_honest_pour_accepted_partial valid tree_gens le_rfl
    (fun p => by obtain ⟨h1, h2, h3⟩ := gens_length p; rw [h1, h2, h3]; exact ⟨le_rfl, le_rfl⟩) fromSet_T (by decide) (by rw [height_T]; decide) (.inl (by decide))
    o fx anyScheme cod prand1 owned11 owned3 spendOk_2 spendOk_0 (val0 := 3) (val1 := 2) (by norm_num) (by norm_num) rfl 9 9 (fun _ => [])
  have hs := sizes fx
  rw [h1] at hs
  obtain ⟨s1, s2, s3, s4⟩ := of_decide_eq_true hs
  have nz : ∀ n : Nat, ((n % 18 + 1 : Nat) : ZMod 19) ≠ 0 := by
    intro n hn
    have := (ZMod.natCast_eq_zero_iff _ 19).1 hn
    have := Nat.le_of_dvd (by omega) this
    omega
  obtain ⟨tx, htx⟩ := h2 (s1.trans (gens_length false).2.2.ge) (s2.trans (gens_length true).2.2.ge) s3 s4 (fun p tr => ⟨nz _, nz _⟩)
  obtain ⟨pE, pO, e, k⟩ := h3 (by omega) (by omega) tx htx
  exact ⟨tx, htx, pE, pO, path0, path1, c0, c1, _, _, e, fun n1 n2 => k n1 n2 hcod (fun _ _ _ _ => rfl)⟩

/-- Non-vacuity of `C46_same_coin_twice`: with the coin `11h`, of amount 1, as both inputs, coins of 2 and 0 are minted. -/
example (fx : Bool) (cod : Codec (PourOf Cs Nat)) :
    ∃ x, pourProvers o fx prm anyScheme T prand1 coin11 coin11 2 9 0 9 (.new []) (.new []) = .ok x := by
  obtain ⟨path0, path1, c0, c1, sE, sO, h1, h2, h3⟩ := C46_same_coin_twice valid tree_gens le_rfl
    (fun p => by obtain ⟨h1, h2, h3⟩ := gens_length p; rw [h1, h2, h3]; exact ⟨le_rfl, le_rfl⟩) fromSet_T (by decide) (by rw [height_T]; decide) (.inl (by decide))
    o fx anyScheme cod prand1 owned11 (fun _ => spendOk_2) (val0 := 2) (val1 := 0) (by norm_num) (by norm_num) rfl 9 9 (fun _ => [])
  exact ⟨_, h1⟩

/-! A tree of height one with branching factor 129. -/

def T129 : CurveTree 129 1 (Pts Cs) :=
  match fromSet prm.tree Curve19.set none 10 with
  | some (.ok t) => t
  | _ => default

theorem fromSet_T129 : fromSet prm.tree Curve19.set none 10 = some (.ok T129) := by
  have h : (match fromSet (L := 129) (M := 1) prm.tree Curve19.set none 10 with
    | some (.ok _) => true
    | _ => false) = true := by decide +kernel
  unfold T129
  split at h
  · rename_i t e; rw [e]
  · simp at h

theorem height_T129 : T129.height = 1 := by decide +kernel

def nodes_129 : WitPath Curve19.B (Pts Cs) :=
  match T129.witness prm.tree 2 0 with
  | .ok n => n
  | .error _ => fun _ => []

theorem witness_129 : T129.witness prm.tree 2 0 = .ok nodes_129 := by
  have h : (match T129.witness prm.tree 2 0 with
    | .ok _ => true
    | _ => false) = true := by decide +kernel
  unfold nodes_129
  split at h
  · rename_i t e; rw [e]
  · simp at h

theorem spendOk_129 : SpendOk prm T129 2 rnd where
  even := by rw [height_T129]; intro j hj; omega
  odd := by rw [height_T129]; intro j hj; omega
  avoids := by
    have key : ∀ p, ∀ w ∈ (nodes_129 p).map (·.child), prm.Avoids (!p) w (rnd (!p) 0) := by decide +kernel
    intro nodes' hw p k w hk
    rw [← Except.ok.inj (witness_129.symm.trans hw)] at hk
    exact key p _ (List.mem_map.2 ⟨w, List.mem_of_getElem? hk, rfl⟩)

set_option maxRecDepth 4000 in
/-- Non-vacuity of `C45_height_one_rejected`: the three coins in a tree with branching factor 129. -/
example (fx : Bool) (cod : Codec (PourOf Cs Nat)) (hcod : ∀ pour : PourOf Cs Nat, pour.Fits → cod.dec (cod.enc pour) = some (pour, [])) (tx : SignedTx Nat)
    (htx : provePour o fx prm anyScheme cod T129 prand1 coin11 coin11 2 9 0 9 (.new []) (.new []) = .ok tx) :
    ∀ rE rO vE vO, signedTxVerification o fx prm anyScheme cod T129 (fun _ => []) rE rO tx = .ok (vE, vO) → checkTuple (F := ZMod 19) (prm.gens false) vE ≠ .ok () :=
  C45_height_one_rejected valid (fun p => le_trans (by decide) (gens_length p).1.ge) (by decide)
    (fun p => by obtain ⟨h1, h2, h3⟩ := gens_length p; rw [h1, h2, h3]; exact ⟨le_rfl, le_rfl⟩) fromSet_T129 (by decide) height_T129 o fx anyScheme cod prand1 owned11 owned11
    spendOk_129 spendOk_129 (val0 := 2) (val1 := 0) (by norm_num) (by norm_num) rfl 9 9 (fun _ => [])
    (by rw [(gens_length true).2.2]; norm_num) hcod tx htx

/-- The Prover of this example gets as far as the proofs, with circuits that fit the generators. -/
theorem sizes129_true : (match pourProvers o true prm anyScheme T129 prand1 coin11 coin11 2 9 0 9 (.new []) (.new []) with
    | .ok (_, sE, sO) => decide (nextPow2 sE.size ≤ 512 ∧ nextPow2 sO.size ≤ 512 ∧ sE.vecOpen.length ≤ 17 ∧ sO.vecOpen.length ≤ 17)
    | .error _ => false) = true := by
  decide +kernel

/-- The Prover of this example gets as far as the proofs, with circuits that fit the generators. -/
theorem sizes129_false : (match pourProvers o false prm anyScheme T129 prand1 coin11 coin11 2 9 0 9 (.new []) (.new []) with
    | .ok (_, sE, sO) => decide (nextPow2 sE.size ≤ 512 ∧ nextPow2 sO.size ≤ 512 ∧ sE.vecOpen.length ≤ 17 ∧ sO.vecOpen.length ≤ 17)
    | .error _ => false) = true := by
  decide +kernel

/-- The Prover of this example gets as far as the proofs, with circuits that fit the generators. -/
theorem sizes129 (fx : Bool) : (match pourProvers o fx prm anyScheme T129 prand1 coin11 coin11 2 9 0 9 (.new []) (.new []) with
    | .ok (_, sE, sO) => decide (nextPow2 sE.size ≤ 512 ∧ nextPow2 sO.size ≤ 512 ∧ sE.vecOpen.length ≤ 17 ∧ sO.vecOpen.length ≤ 17)
    | .error _ => false) = true := by
  cases fx
  exacts [sizes129_false, sizes129_true]

end Example

end CT
