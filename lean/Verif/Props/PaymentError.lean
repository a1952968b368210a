import Verif.Spec.PaymentError
import Verif.Proofs.PaymentError
import Verif.Proofs.OracleFree
import Verif.Props.MembershipError
import Verif.Props.PourHonest

/-!
# C72 for whole payments

How often the payment of C45 fails: a union bound over the scalars of the two paths (C70) and the choices and challenges of the two proofs (C72).
-/

namespace CT

section
variable {F G X : Type} [Field F] [Fintype F] [DecidableEq F] [AddCommGroup G] [Module F G] [DecidableEq G]

/-- `C72_completeness_error` for a Prover whose vectors the Verifier takes to be longer. -/
theorem widened_error {o : Oracle F G X} {g : Gens G} (hcG : g.capacity ≤ g.Gs.length) (hcH : g.capacity ≤ g.Hs.length) (hB : g.pc.B ≠ 0) (hb : g.pc.Bbl ≠ 0)
    {s : PState F G X} {t : VState F G X} {ds : Nat → Nat} (h : Session o g (s.widen ds) t) (hd : s.deferred = []) (hs : s.Good) {n k : Nat} (hn : s.size = n)
    (hds : ∀ j < s.vecOpen.length, ds j ≤ s.size) (hk : s.vecOpen.length = k) (hcap : nextPow2 n ≤ g.capacity)
    (h32 : n ≤ 2 ^ 31) (h17 : k ≤ 17) {Q : Nat} (hQ : Q ≤ Fintype.card F) :
    ∃ M₀, ∀ M ≥ M₀, Q * {ω : Draw n (2 * (opDegree k + 1) + 1) M → F | ¬ HonestAccepted (Draw.oracle ω) g (Draw.prover ω) s t}.ncard ≤
      200 * Fintype.card (Draw n (2 * (opDegree k + 1) + 1) M → F) := by
  have hin : (s.widen ds).InCircuit := by
    obtain ⟨wt, hw⟩ := Option.isSome_iff_exists.1 ((PState.flattened_isSome s 0).2 hs.inCircuit)
    exact (PState.flattened_isSome _ 0).1 (by rw [flattened_widen ds hw]; rfl)
  have hsz := PState.widen_size ds hds
  have hln := PState.widen_length ds s
  obtain ⟨lg, e1, e2, e3⟩ := nextPow2_eq n
  have hlt : lg < 32 := by
    by_contra hge
    have h1 : 2 ^ 32 ≤ 2 ^ lg := Nat.pow_le_pow_right (by norm_num) (by omega)
    by_cases h1' : 1 < n
    · have := e3 h1'
      omega
    · have : nextPow2 n = 1 := by unfold nextPow2; rw [if_pos (by omega)]
      omega
  refine ⟨(s.widen ds).transcript.length + (2 * (opDegree k + 1) + 1) + 18 + 3 * lg + 1, fun M hM => ?_⟩
  have key := C72_completeness_error (M := M) hcG hcH hB hb h hd (PState.widen_satisfied ds hs.satisfied) hin (lg := lg) (by rw [hsz, hn]; exact e1) (by rw [← e1]; exact hcap)
    hlt (by rw [hln, hk]; exact h17) rfl (by rw [hln, hk]; omega)
  rw [hln, hsz, hk, hn] at key
  have hrw : ∀ ω : Draw n (2 * (opDegree k + 1) + 1) M → F, HonestAccepted (Draw.oracle ω) g (Draw.prover ω) (s.widen ds) t ↔
      HonestAccepted (Draw.oracle ω) g (Draw.prover ω) s t := fun ω => by
    unfold HonestAccepted
    rw [prove_widen_eq _ g _ ds hd hds hs.inCircuit]
  simp only [hrw] at key
  exact (Nat.mul_le_mul_right _ hQ).trans (key.trans (Nat.mul_le_mul_right _ (C72_loss_small h17 hlt)))

end

section
variable {B : Bool → Type} [∀ p, Field (B p)] [∀ p, DecidableEq (B p)] {C : ∀ p, SWCurve (B p)} [∀ p, Module (B (!p)) (C p).Pt] {L bits : Nat} {K SK S : Type}

/-- The sizes of the two circuits of a payment. -/
theorem pourProvers_sizes {prm : SelRerand C} (hb : ∀ p, (prm.layer p).lambda = bits) (h3 : 3 ≤ bits) (hg : prm.tree.EnoughGens L 1) (hL : 2 ≤ L)
    {set : List (C false).Pt} {height : Option Nat} {fuel : Nat} {T : CurveTree L 1 (Pts C)}
    (ht : fromSet prm.tree set height fuel = some (.ok T)) (hfuel : set.length + height.getD 0 ≤ fuel) (h0 : T.height ≠ 0)
    {o : ∀ p, SideO C p} {fx : Bool} {rnd : PourRand C S}
    (hE : ∀ t j, j + 1 < (T.height + 1) / 2 → rnd.path t false j ≠ 0) (hO : ∀ t, ∀ j < T.height / 2, rnd.path t true j ≠ 0)
    {sch : SigScheme K SK S (B true)} {in0 in1 : SpendingInfo K SK S (B true)} {val0 val1 : Nat} {pk0 pk1 : K}
    {dom : ∀ p, Transcript (B (!p)) (C p).Pt (C (!p)).Pt} {x} {sE : SideP C false} {sO : SideP C true}
    (hpr : pourProvers o fx prm sch T rnd in0 in1 val0 pk0 val1 pk1 (.new (dom false)) (.new (dom true)) = .ok (x, sE, sO)) :
    sE.size = multipliersFor L bits (2 * (T.height / 2)) 128 ∧ sE.vecOpen.length = paymentEvenCommitments T.height ∧
      sO.size = multipliersFor L bits (2 * ((T.height + 1) / 2)) 0 ∧ sO.vecOpen.length = paymentOddCommitments T.height := by
  unfold pourProvers at hpr
  split at hpr
  · cases hpr
  rename_i m0
  split at hpr
  · cases hpr
  rename_i m1
  split at hpr
  · cases hpr
  rename_i q0
  split at hpr
  · cases hpr
  rename_i q1
  cases hpr
  have lv : ∀ k, k ≠ 0 → L ≤ levelGates L bits * k := fun k hk =>
    (by unfold levelGates; omega : L ≤ levelGates L bits).trans (Nat.le_mul_of_pos_right _ (by omega))
  obtain ⟨a1, a2, -, -⟩ := proveSpend_gets hb h3 hg hL ht hfuel h0 (hE false) (hO false) q0
  obtain ⟨b1, b2, -, -⟩ := proveSpend_gets hb h3 hg hL ht hfuel h0 (hE true) (hO true) q1
  have e := fun lc => ((((mint_gets m0).trans (mint_gets m1)).trans a1).trans b1).trans (constrain_gets _ lc)
  have f := a2.trans b2
  have e' := fun lc => (e lc).cast (m' := levelGates L bits * (2 * (T.height / 2)) + 128) (a' := levelAllocations bits * (2 * (T.height / 2)))
    (k' := 2 * ((T.height - 1) / 2) + 4) (by ring) (by ring) (by ring) (.inr le_rfl)
  have f' := f.cast (m' := levelGates L bits * (2 * ((T.height + 1) / 2))) (a' := levelAllocations bits * (2 * ((T.height + 1) / 2)))
    (k' := 2 * (T.height / 2)) (by ring) (by ring) (by ring) (.inr le_rfl)
  have e4 := fun lc => (e' lc).size (.inr (by
    by_cases h : T.height / 2 = 0
    · rw [if_pos h]; omega
    · rw [if_neg h]
      have := lv (2 * (T.height / 2)) (by omega)
      omega))
  have f4 := f'.size (.inr (by
    have := lv (2 * ((T.height + 1) / 2)) (by omega)
    omega))
  exact ⟨e4 _, (e' _).fresh.2.1, f4, f'.fresh.2.1⟩

variable [∀ p, Fintype (B p)]

/-- **C72** for payments: for every tree made by `from_set`, of height between 1 and 14, and the payment of two of its coins by their owner with amounts that balance (with no node equal to `-Δ` on the
two paths), generators that are enough for the circuits of C65, an encoding that can be decoded (as that of C30) and signatures that verify, the payment fails for a share of at most `(2 (e + 2) height + 400) / Q` of
all scalars, choices of the two Provers and challenges. -/
theorem C72_payment {prm : SelRerand C} (hv : prm.Valid) (hb : ∀ p, (prm.layer p).lambda = bits) (h3 : 3 ≤ bits) (hg : prm.tree.EnoughGens L 1) (hL : 2 ≤ L)
    (hcG : ∀ p, (prm.gens p).capacity ≤ (prm.gens p).Gs.length) (hcH : ∀ p, (prm.gens p).capacity ≤ (prm.gens p).Hs.length)
    (hB : ∀ p, (prm.gens p).pc.B ≠ 0) (hbl : ∀ p, prm.h p ≠ 0)
    {set : List (C false).Pt} {height : Option Nat} {fuel : Nat} {T : CurveTree L 1 (Pts C)}
    (ht : fromSet prm.tree set height fuel = some (.ok T)) (hfuel : set.length + height.getD 0 ≤ fuel) (h0 : T.height ≠ 0) (h14 : T.height ≤ 14)
    (hsize : L ≤ 128 ∨ 2 ≤ T.height)
    (hcE : nextPow2 (multipliersFor L bits (2 * (T.height / 2)) 128) ≤ (prm.gens false).capacity) (hcO : nextPow2 (multipliersFor L bits (2 * ((T.height + 1) / 2)) 0) ≤ (prm.gens true).capacity)
    (hE31 : multipliersFor L bits (2 * (T.height / 2)) 128 ≤ 2 ^ 31) (hO31 : multipliersFor L bits (2 * ((T.height + 1) / 2)) 0 ≤ 2 ^ 31)
    (fx : Bool) (sch : SigScheme K SK S (B true)) (cod : Codec (PourOf C K)) (base : PourRand C S)
    {in0 in1 : SpendingInfo K SK S (B true)} (hin0 : in0.Owned prm sch set) (hin1 : in1.Owned prm sch set)
    {val0 val1 : Nat} (h64 : val0 < 2 ^ 64) (h64' : val1 < 2 ^ 64) (hsum : in0.coin.value + in1.coin.value = val0 + val1) (pk0 pk1 : K)
    (hcod : ∀ pour : PourOf C K, pour.Fits → cod.dec (cod.enc pour) = some (pour, []))
    (hsig : ∀ inp, inp = in0 ∨ inp = in1 → ∀ (bytes : List UInt8) r,
      sch.verify inp.randomizedPk bytes (sch.randomizeSig (sch.sign inp.sk bytes r) inp.coin.pkRandomness) = .ok true)
    (hδ : ∀ j, j = in0.index ∨ j = in1.index → ∀ nodes, T.witness prm.tree j 0 = .ok nodes → ∀ p (k : Nat) w, (nodes p)[k]? = some w → w.child + (prm.layer (!p)).delta ≠ 0)
    {e Q : Nat} (he : ∀ p, {r : B (!p) | prm.Exceptional p r}.ncard ≤ e) (hQ : ∀ p, Q ≤ Fintype.card (B p))
    (dom : ∀ p, Transcript (B (!p)) (C p).Pt (C (!p)).Pt) :
    ∃ M₀, ∀ M ≥ M₀, Q * {ω : PaymentDraw B L bits T.height M | ¬ PaymentWorks fx prm sch cod T base in0 in1 val0 pk0 val1 pk1 dom ω}.ncard ≤
      (2 * (e + 2) * T.height + 400) * Fintype.card (PaymentDraw B L bits T.height M) := by
  classical
  have idx : ∀ {i : Nat} {P : (C false).Pt}, set[i]? = some P → ∃ nodes, T.witness prm.tree i 0 = .ok nodes ∧ T.PathTo prm.tree 0 nodes ⟨false, P⟩ := by
    intro i P hi
    obtain ⟨hlt, rfl⟩ := List.getElem?_eq_some_iff.1 hi
    exact C26_witness_partial hg hL ht hfuel 0 hlt
  obtain ⟨nodes0, w0, p0⟩ := idx hin0.leaf
  obtain ⟨nodes1, w1, p1⟩ := idx hin1.leaf
  have hbad := C70_payment hg hL hbl ht hfuel (List.getElem?_eq_some_iff.1 hin0.leaf).1 (List.getElem?_eq_some_iff.1 hin1.leaf).1 hδ he hQ
  have good : ∀ w : PathScalars B T.height × PathScalars B T.height, ∃ M₀, SpendOk prm T in0.index w.1.stream ∧ SpendOk prm T in1.index w.2.stream → ∀ M ≥ M₀,
      Q * {b | ¬ PaymentWorks fx prm sch cod T base in0 in1 val0 pk0 val1 pk1 dom ((w, b) : PaymentDraw B L bits T.height M)}.ncard ≤ 400 * Fintype.card
        ((Draw (multipliersFor L bits (2 * (T.height / 2)) 128) (2 * (opDegree (paymentEvenCommitments T.height) + 1) + 1) M → B true) ×
          (Draw (multipliersFor L bits (2 * ((T.height + 1) / 2)) 0) (2 * (opDegree (paymentOddCommitments T.height) + 1) + 1) M → B false)) := by
    intro w
    by_cases hw : SpendOk prm T in0.index w.1.stream ∧ SpendOk prm T in1.index w.2.stream
    swap
    · exact ⟨0, fun h => absurd h hw⟩
    obtain ⟨rnd, hrnd⟩ : ∃ rnd : PourRand C S, rnd = { base with path := fun b => bif b then w.2.stream else w.1.stream } := ⟨_, rfl⟩
    have hr0 : SpendOk prm T in0.index (rnd.path false) := by rw [hrnd]; exact hw.1
    have hr1 : SpendOk prm T in1.index (rnd.path true) := by rw [hrnd]; exact hw.2
    obtain ⟨path0, path1, c0, c1, sE, sO, tE, tO, ds, hp, hc, SE, SO, GE, GO, DE, DO, hds, hsz, -⟩ := pourProvers_session (o := fun _ _ => 0) (fx := fx) (sch := sch) hv
      (fun p => (Nat.mul_one L).symm.trans_le (hg p)) hL h0 w0 w1 p0 p1 hr0 hr1 hin0.tag hin1.tag h64 h64' hsum pk0 pk1 dom
    obtain ⟨z1, z2, z3, z4⟩ := pourProvers_sizes hb h3 hg hL ht hfuel h0 (fun t => by cases t; exacts [hr0.even, hr1.even]) (fun t => by cases t; exacts [hr0.odd, hr1.odd]) hp
    have hLs : L ≤ sE.size := by
      refine le_trans ?_ sE.aL_le_size
      rcases hsize with h | h
      · omega
      · have : L * 1 ≤ L * (T.height / 2) := Nat.mul_le_mul_left L (by omega)
        omega
    have hSO : Session (fun _ => 0) (prm.gens true) (sO.widen fun _ => 0) tO := by
      rw [PState.widen_eq (fun j c _ => Nat.zero_le _)]; exact SO
    obtain ⟨ME, bE⟩ := widened_error (F := B (!false)) (hcG false) (hcH false) (hB false) (hbl false) SE DE GE z1 (fun j _ => (hds j).trans hLs) z2 hcE hE31
      (by unfold paymentEvenCommitments; omega) (hQ (!false))
    obtain ⟨MO, bO⟩ := widened_error (F := B (!true)) (hcG true) (hcH true) (hB true) (hbl true) hSO DO GO z3 (fun j _ => Nat.zero_le _) z4 hcO hO31
      (by unfold paymentOddCommitments; omega) (hQ (!true))
    refine ⟨max ME MO, fun _ M hM => ?_⟩
    have hE := bE M ((le_max_left _ _).trans hM)
    have hO := bO M ((le_max_right _ _).trans hM)
    refine ncard_stages (c := 200) (d := 200) _ {ωE | ¬ HonestAccepted (F := B (!false)) (Draw.oracle ωE) (prm.gens false) (Draw.prover ωE) sE tE} hE ?_
    intro ωE hωE
    refine le_trans (Nat.mul_le_mul_left _ (Set.ncard_le_ncard ?_)) hO
    intro ωO hωO hacc
    apply hωO
    obtain ⟨pE, trE, e1, vE⟩ := not_not.1 hωE
    obtain ⟨pO, trO, e2, vO⟩ := hacc
    set ω : PaymentDraw B L bits T.height M := (w, ωE, ωO) with hω
    have hrd : ω.rand base = { rnd with even := Draw.prover ωE, odd := Draw.prover ωO } := by rw [hrnd]; rfl
    have hp' : pourProvers ω.oracle fx prm sch T (ω.rand base) in0 in1 val0 pk0 val1 pk1 (.new (dom false)) (.new (dom true)) = .ok ((path0, path1, c0, c1), sE, sO) := by
      rw [pourProvers_oracle _ (fun _ _ => 0), hrd]; exact hp
    have hc' := hc pE pO
    rw [pourCircuits_oracle _ (ω.oracle)] at hc'
    have e1' : prove (ω.oracle false) (prm.gens false) (ω.rand base).even sE = .ok (pE, trE) := e1
    have e2' : prove (ω.oracle true) (prm.gens true) (ω.rand base).odd sO = .ok (pO, trO) := e2
    obtain ⟨bytes, hbytes⟩ : ∃ bytes, bytes = cod.enc ⟨pE, pO, path0, path1, in0.randomizedPk, in1.randomizedPk, c0, c1⟩ := ⟨_, rfl⟩
    obtain ⟨g0, hg0⟩ : ∃ g0, g0 = sch.randomizeSig (sch.sign in0.sk bytes ((ω.rand base).sig false)) in0.coin.pkRandomness := ⟨_, rfl⟩
    obtain ⟨g1, hg1⟩ : ∃ g1, g1 = sch.randomizeSig (sch.sign in1.sk bytes ((ω.rand base).sig true)) in1.coin.pkRandomness := ⟨_, rfl⟩
    refine ⟨⟨g0.response, g0.challenge, g1.response, g1.challenge, bytes⟩, ?_, ?_⟩
    · unfold provePour
      rw [hp']
      simp only [unwrap_ok.2 e1']
      rw [unwrap_ok.2 e2', hg0, hg1, hbytes]
    · subst hg0 hg1 hbytes
      intro rE rO
      obtain ⟨xE, xO, k1, k2, k3⟩ := pour_accepted hc' vE vO rE rO
      refine ⟨xE, xO, ?_, k2, k3⟩
      unfold signedTxVerification verifySignatures
      have lt64 : ∀ {n m : Nat}, n = m → m ≤ 2 ^ 31 → nextPow2 n < 2 ^ 64 := by
        intro n m h1 h2
        obtain ⟨lg, y1, y2, y3⟩ := nextPow2_eq n
        by_cases h1' : 1 < n
        · have := y3 h1'
          omega
        · have : nextPow2 n = 1 := by unfold nextPow2; rw [if_pos (by omega)]
          omega
      have hfit : Pour.Fits (⟨pE, pO, path0, path1, in0.randomizedPk, in1.randomizedPk, c0, c1⟩ : PourOf C K) :=
        pour_fits (hL.trans ((Nat.mul_one L).symm.trans_le (hg false))) w0 w1 p0 p1 hp (by omega)
          (prove_fits (F := B (!false)) DE (hcG false) (hcH false) e1 (lt64 z1 hE31)) (prove_fits (F := B (!true)) DO (hcG true) (hcH true) e2 (lt64 z3 hO31)) _ _
      simp only [hcod _ hfit]
      have a0 := hsig in0 (.inl rfl) (cod.enc ⟨pE, pO, path0, path1, in0.randomizedPk, in1.randomizedPk, c0, c1⟩) ((ω.rand base).sig false)
      have a1 := hsig in1 (.inr rfl) (cod.enc ⟨pE, pO, path0, path1, in0.randomizedPk, in1.randomizedPk, c0, c1⟩) ((ω.rand base).sig true)
      rw [unwrap_ok.2 a0]
      simp only
      rw [unwrap_ok.2 a1]
      simp only
      exact k1
  choose M₀ hM₀ using good
  refine ⟨Finset.univ.sup M₀, fun M hM => ?_⟩
  exact ncard_stages _ {w : PathScalars B T.height × PathScalars B T.height | ¬ (SpendOk prm T in0.index w.1.stream ∧ SpendOk prm T in1.index w.2.stream)} hbad
    fun w hw => hM₀ w (not_not.1 hw) M ((Finset.le_sup (Finset.mem_univ w)).trans hM)

end

/-- The encoding of `coin.rs` (C30) is one of those allowed. -/
theorem pourCodec_decodes {F0 P0 F1 P1 K : Type} [AddCommGroup P0] [DecidableEq P0] [AddCommGroup P1] [DecidableEq P1] {cF0 : Codec F0} {c0 : Codec P0} {cF1 : Codec F1} {c1 : Codec P1}
    {cK : Codec K} (hF0 : cF0.Element) (h0 : c0.Element) (hF1 : cF1.Element) (h1 : c1.Element) (hK : cK.Element) (pour : Pour F0 P0 F1 P1 K) (h : pour.Fits) :
    (pourCodec cF0 c0 cF1 c1 cK).dec ((pourCodec cF0 c0 cF1 c1 cK).enc pour) = some (pour, []) := by
  simpa using C30_pour_round_trip hF0 h0 hF1 h1 hK pour h []

/-- **C72** for payments on the Pasta curves, with the encoding of `coin.rs`: a payment fails with probability at most `(12 height + 400) / 2 ^ 254`. -/
theorem C72_pasta_payment {L : Nat} {K SK S : Type} {prm : SelRerand PastaC} (hp : PastaParams prm)
    (htab : ∀ p, buildTables (PastaC p) (windows 255) (prm.h p) = some (prm.layer p).tables) (hg : prm.tree.EnoughGens L 1) (hL : 2 ≤ L)
    (hcG : ∀ p, (prm.gens p).capacity ≤ (prm.gens p).Gs.length) (hcH : ∀ p, (prm.gens p).capacity ≤ (prm.gens p).Hs.length) (hB : ∀ p, (prm.gens p).pc.B ≠ 0)
    {set : List (PastaC false).Pt} {height : Option Nat} {fuel : Nat} {T : CurveTree L 1 (Pts PastaC)}
    (ht : fromSet prm.tree set height fuel = some (.ok T)) (hfuel : set.length + height.getD 0 ≤ fuel) (h0 : T.height ≠ 0) (h14 : T.height ≤ 14)
    (hsize : L ≤ 128 ∨ 2 ≤ T.height)
    (hcE : nextPow2 (multipliersFor L 255 (2 * (T.height / 2)) 128) ≤ (prm.gens false).capacity) (hcO : nextPow2 (multipliersFor L 255 (2 * ((T.height + 1) / 2)) 0) ≤ (prm.gens true).capacity)
    (hE31 : multipliersFor L 255 (2 * (T.height / 2)) 128 ≤ 2 ^ 31) (hO31 : multipliersFor L 255 (2 * ((T.height + 1) / 2)) 0 ≤ 2 ^ 31)
    (fx : Bool) (sch : SigScheme K SK S (PastaB true)) (base : PourRand PastaC S)
    {cP : ∀ p, Codec (PastaC p).Pt} {cF : ∀ p, Codec (PastaB (!p))} {cK : Codec K} (hP : ∀ p, (cP p).Element) (hF : ∀ p, (cF p).Element) (hK : cK.Element)
    {in0 in1 : SpendingInfo K SK S (PastaB true)} (hin0 : in0.Owned prm sch set) (hin1 : in1.Owned prm sch set)
    {val0 val1 : Nat} (h64 : val0 < 2 ^ 64) (h64' : val1 < 2 ^ 64) (hsum : in0.coin.value + in1.coin.value = val0 + val1) (pk0 pk1 : K)
    (hsig : ∀ inp, inp = in0 ∨ inp = in1 → ∀ (bytes : List UInt8) r,
      sch.verify inp.randomizedPk bytes (sch.randomizeSig (sch.sign inp.sk bytes r) inp.coin.pkRandomness) = .ok true)
    (hδ : ∀ j, j = in0.index ∨ j = in1.index → ∀ nodes, T.witness prm.tree j 0 = .ok nodes → ∀ p (k : Nat) w, (nodes p)[k]? = some w → w.child + (prm.layer (!p)).delta ≠ 0)
    (dom : ∀ p, Transcript (PastaB (!p)) (PastaC p).Pt (PastaC (!p)).Pt) :
    ∃ M₀, ∀ M ≥ M₀, 2 ^ 254 * {ω : PaymentDraw PastaB L 255 T.height M |
        ¬ PaymentWorks fx prm sch (pourCodec (cF false) (cP false) (cF true) (cP true) cK) T base in0 in1 val0 pk0 val1 pk1 dom ω}.ncard ≤
      (12 * T.height + 400) * Fintype.card (PaymentDraw PastaB L 255 T.height M) := by
  have hv : prm.Valid :=
    ⟨fun p => by cases p <;> rfl, fun p => by rw [hp.lambda]; exact htab p, fun p => by rw [hp.lambda]; decide, hp.cast, fun p x => by
      rw [hp.lambda]
      have h1 := hp.lt (!p) x
      have h2 := (pasta_facts (!p)).1.2
      have h3 : 4001 * 8 ^ 84 ≤ 1000 * 2 ^ 255 := by norm_num
      exact h1.trans (Nat.lt_of_mul_lt_mul_left (h2.trans_le h3))⟩
  exact C72_payment hv hp.lambda (by norm_num) hg hL hcG hcH hB hp.base ht hfuel h0 h14 hsize hcE hcO hE31 hO31 fx sch _ base hin0 hin1 h64 h64' hsum pk0 pk1
    (pourCodec_decodes (hF false) (hP false) (hF true) (hP true) hK) hsig hδ
    (fun p => pasta_exceptional (hp.lambda p) ((pasta_facts p).2 _ (hp.base p)) (pasta_facts _).1.1 (pasta_facts _).1.2 (hp.cast _) (hp.lt _))
    (fun p => le_trans (by norm_num) (pasta_facts p).1.1.le) dom

section Example

/-- An encoding of a finite type with `k` bytes. -/
noncomputable def finCodec (α : Type) [Finite α] (k : Nat) : Codec α where
  enc x := leEnc k (Finite.equivFin α x)
  dec bs := match leDec k bs with
    | none => none
    | some (n, rest) => if h : n < Nat.card α then some ((Finite.equivFin α).symm ⟨n, h⟩, rest) else none
  size _ := k

theorem finCodec_element {α : Type} [Finite α] {k : Nat} (h : Nat.card α ≤ 256 ^ k) : (finCodec α k).Element where
  roundTrips a rest := by
    simp only [finCodec, le_roundTrip k _ ((Finite.equivFin α a).2.trans_le h) rest, (Finite.equivFin α a).2, dif_pos, Fin.eta, Equiv.symm_apply_apply]
  sizeExact a := by simp [Codec.SizeExact, finCodec, leEnc_length]
  sizeConst _ _ := rfl

/-- Parameters with 2048 generators. -/
noncomputable def pastaPay : SelRerand PastaC where
  gens p := ⟨⟨pastaGen p, pastaGen p⟩, 2048, pastaGen p :: 3 • pastaGen p :: List.replicate 2046 (pastaGen p), List.replicate 2048 (pastaGen p)⟩
  layer p := pastaPrm.layer p
  toNat p x := pastaPrm.toNat p x

theorem pastaPay_length (p : Bool) : (pastaPay.gens p).Gs.length = 2048 ∧ (pastaPay.gens p).Hs.length = 2048 := by
  have h : ∀ (a b : (PastaC p).Pt) (n : Nat), (a :: b :: List.replicate n a).length = n + 2 ∧ (List.replicate (n + 2) a).length = n + 2 := fun a b n => by simp
  exact h _ _ 2046

/-- The tree of height one with the two leaves. -/
theorem pastaPay_tree : ∃ T : CurveTree 2 1 (Pts PastaC), fromSet pastaPay.tree pastaSet (some 1) 3 = some (.ok T) ∧ T.height = 1 ∧
    ∀ i, i < 2 → ∀ nodes, T.witness pastaPay.tree i 0 = .ok nodes → ∀ p (k : Nat) w, (nodes p)[k]? = some w → w.child + (pastaPay.layer (!p)).delta ≠ 0 := by
  refine ⟨_, rfl, rfl, ?_⟩
  intro i hi nodes hn p k w hk
  rcases (by omega : i = 0 ∨ i = 1) with rfl | rfl
  · cases Except.ok.inj hn
    cases p
    · cases hk
    · cases k with
      | zero =>
        cases hk
        have := pasta_multiple (k := 2) (by norm_num [pallasOrder]) (by decide)
        rw [two_nsmul] at this
        exact this
      | succ k => cases hk
  · cases Except.ok.inj hn
    cases p
    · cases hk
    · cases k with
      | zero =>
        cases hk
        have := pasta_multiple (k := 2 + 1) (by norm_num [pallasOrder]) (by decide)
        rw [succ_nsmul] at this
        exact this
      | succ k => cases hk

/-- A scheme with bytes as keys; the tag of a key is its number. -/
def pastaScheme : SigScheme UInt8 UInt8 UInt8 (PastaB true) :=
  ⟨fun k => ((k.toNat : Nat) : ZMod pallasOrder), fun _ _ _ => .ok true, fun k _ r => ⟨k, r⟩, fun s _ => s, fun k r => k + r⟩

/-- The coin `G`: five units, for key 1. -/
noncomputable def pastaCoin0 : SpendingInfo UInt8 UInt8 UInt8 (PastaB true) := ⟨0, ⟨5, ((1 : Nat) : ZMod pallasOrder), (-7 : ZMod pallasOrder), 0⟩, 1, 0⟩

/-- The coin `2 G`: four units, for key 2. -/
noncomputable def pastaCoin1 : SpendingInfo UInt8 UInt8 UInt8 (PastaB true) := ⟨1, ⟨4, ((2 : Nat) : ZMod pallasOrder), (-8 : ZMod pallasOrder), 0⟩, 2, 0⟩

theorem pastaOwned0 : pastaCoin0.Owned pastaPay pastaScheme pastaSet := by
  have h : ∀ {F G : Type} [Field F] [AddCommGroup G] [Module F G] (P : G), P = ((5 : Nat) : F) • P + ((1 : Nat) : F) • ((3 : Nat) • P) + (-7 : F) • P := by
    intro F G _ _ _ P
    rw [← Nat.cast_smul_eq_nsmul F 3 P]
    push_cast
    module
  exact ⟨congrArg some (h (F := ZMod pallasOrder) pallasG), rfl⟩

theorem pastaOwned1 : pastaCoin1.Owned pastaPay pastaScheme pastaSet := by
  have h : ∀ {F G : Type} [Field F] [AddCommGroup G] [Module F G] (P : G), (2 : Nat) • P = ((4 : Nat) : F) • P + ((2 : Nat) : F) • ((3 : Nat) • P) + (-8 : F) • P := by
    intro F G _ _ _ P
    rw [← Nat.cast_smul_eq_nsmul F 3 P, ← Nat.cast_smul_eq_nsmul F 2 P]
    push_cast
    module
  exact ⟨congrArg some (h (F := ZMod pallasOrder) pallasG), rfl⟩

/-- The points and scalars of the two curves in 32 bytes. -/
noncomputable def pastaPoints : ∀ p, Codec (PastaC p).Pt
  | false => finCodec pallas.Pt 32
  | true => finCodec vesta.Pt 32

noncomputable def pastaScalars : ∀ p, Codec (PastaB (!p))
  | false => finCodec (ZMod pallasOrder) 32
  | true => finCodec (ZMod vestaOrder) 32

theorem pastaPoints_element (p : Bool) : (pastaPoints p).Element := by
  cases p
  · exact finCodec_element (α := pallas.Pt) (by rw [pallas_card]; norm_num [pallasOrder])
  · exact finCodec_element (α := vesta.Pt) (by rw [vesta_card]; norm_num [vestaOrder])

theorem pastaScalars_element (p : Bool) : (pastaScalars p).Element := by
  cases p
  · exact finCodec_element (α := ZMod pallasOrder) (by rw [Nat.card_zmod]; norm_num [pallasOrder])
  · exact finCodec_element (α := ZMod vestaOrder) (by rw [Nat.card_zmod]; norm_num [vestaOrder])

/-- Non-vacuity of `C72_pasta_payment`: coins of 5 and 4 units pay 3 and 6 units. -/
example (base : PourRand PastaC UInt8) : ∃ T : CurveTree 2 1 (Pts PastaC), fromSet pastaPay.tree pastaSet (some 1) 3 = some (.ok T) ∧
    ∃ M₀, ∀ M ≥ M₀, 2 ^ 254 * {ω : PaymentDraw PastaB 2 255 T.height M | ¬ PaymentWorks false pastaPay pastaScheme
        (pourCodec (pastaScalars false) (pastaPoints false) (pastaScalars true) (pastaPoints true) byteCodec) T base pastaCoin0 pastaCoin1 3 7 6 9 (fun _ => []) ω}.ncard ≤
      412 * Fintype.card (PaymentDraw PastaB 2 255 T.height M) := by
  obtain ⟨T, h1, h2, h3⟩ := pastaPay_tree
  have hmE : multipliersFor 2 255 (2 * (T.height / 2)) 128 = 128 := by rw [h2]; rfl
  have hmO : multipliersFor 2 255 (2 * ((T.height + 1) / 2)) 0 = 1822 := by rw [h2]; rfl
  have hpp : PastaParams pastaPay := ⟨pastaPrm_params.base, pastaPrm_params.lambda, pastaPrm_params.cast, pastaPrm_params.lt⟩
  obtain ⟨M₀, h⟩ := C72_pasta_payment (L := 2) hpp pastaLarge_tables (fun p => Nat.le_add_left _ _) le_rfl
    (fun p => (pastaPay_length p).1.ge) (fun p => (pastaPay_length p).2.ge) hpp.base h1 le_rfl (by omega) (by omega) (.inl (by norm_num))
    (by rw [hmE]; exact (by decide +kernel : nextPow2 128 ≤ 2048)) (by rw [hmO]; exact (by decide +kernel : nextPow2 1822 ≤ 2048)) (by rw [hmE]; norm_num) (by rw [hmO]; norm_num)
    false pastaScheme base pastaPoints_element pastaScalars_element byte_element pastaOwned0 pastaOwned1 (val0 := 3) (val1 := 6) (by norm_num) (by norm_num) rfl 7 9
    (fun _ _ _ _ => rfl) (by rintro j (rfl | rfl); exacts [h3 0 (by omega), h3 1 (by omega)]) (fun _ => [])
  exact ⟨T, h1, M₀, fun M hM => (h M hM).trans_eq (by rw [h2])⟩

end Example

end CT
