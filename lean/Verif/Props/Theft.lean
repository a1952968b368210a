import Verif.Proofs.Theft
import Verif.Props.PaymentError
import Verif.Props.Inflation

/-!
# C44: how often a payment out of nothing works

`C44_inflation` gives a cheating Prover for any curves. Here the thief is a function of public data and of coins of their own invention, the transaction is complete, with signatures and
encoding, and the theorems say how often it is accepted.
-/

namespace CT

section
variable {B : Bool → Type} [∀ p, Field (B p)] [∀ p, DecidableEq (B p)] {C : ∀ p, SWCurve (B p)} [∀ p, Module (B (!p)) (C p).Pt] {L bits M : Nat} {K SK S : Type}

/-- The theft works: with the choices `ω` the thief makes a transaction out of two invented coins and the Verifier accepts it. -/
def TheftWorks (prm : SelRerand C) (sch : SigScheme K SK S (B true)) (cod : Codec (PourOf C K)) (T : CurveTree L 1 (Pts C)) (base : PourRand C S)
    (in0 in1 : SpendingInfo K SK S (B true)) (val0 : Nat) (pk0 : K) (val1 : Nat) (pk1 : K) (dom : ∀ p, Transcript (B (!p)) (C p).Pt (C (!p)).Pt)
    (ω : PaymentDraw B L bits T.height M) : Prop :=
  ∃ tx, forgePour ω.oracle prm sch cod T (ω.rand base) in0 in1 val0 pk0 val1 pk1 (.new (dom false)) (.new (dom true)) = .ok tx ∧
    TxAccepted ω.oracle false prm sch cod T dom tx

/-- `inp` describes a coin that the thief made up: its tag is that of a key of the thief, who uses the path of the leaf `i`. The commitment of the coin need not be in the tree. -/
structure SpendingInfo.Invented (sch : SigScheme K SK S (B true)) (i : Nat) (inp : SpendingInfo K SK S (B true)) : Prop where
  index : inp.index = i
  tag : inp.coin.tag = sch.tag inp.randomizedPk

variable [∀ p, Fintype (B p)]

/-- C44 is false of the code, with an explicit thief. For every tree made by `from_set`, of height between 1 and 14, and every leaf (with no node equal to `-Δ` on its path) there are at most
`3 windows + 1` points such that *any* two invented coins whose commitments are not among them pay any two amounts below `2^64` with the same sum: the thief's transaction fails for a share of at
most `(2 (e + 2) height + 400) / den` of all scalars, choices and challenges. The other hypotheses and the bound are those of `C72_payment`, where the owner of two coins pays. -/
theorem C44_thief {prm : SelRerand C} (hv : prm.Valid) (hb : ∀ p, (prm.layer p).lambda = bits) (h3 : 3 ≤ bits) (hg : prm.tree.EnoughGens L 1) (hL : 2 ≤ L)
    (hcG : ∀ p, (prm.gens p).capacity ≤ (prm.gens p).Gs.length) (hcH : ∀ p, (prm.gens p).capacity ≤ (prm.gens p).Hs.length)
    (hB : ∀ p, (prm.gens p).pc.B ≠ 0) (hbl : ∀ p, prm.h p ≠ 0)
    {set : List (C false).Pt} {height : Option Nat} {fuel : Nat} {T : CurveTree L 1 (Pts C)}
    (ht : fromSet prm.tree set height fuel = some (.ok T)) (hfuel : set.length + height.getD 0 ≤ fuel) (h0 : T.height ≠ 0) (h14 : T.height ≤ 14)
    (hsize : L ≤ 128 ∨ 2 ≤ T.height)
    (hcE : nextPow2 (multipliersFor L bits (2 * (T.height / 2)) 128) ≤ (prm.gens false).capacity) (hcO : nextPow2 (multipliersFor L bits (2 * ((T.height + 1) / 2)) 0) ≤ (prm.gens true).capacity)
    (hE31 : multipliersFor L bits (2 * (T.height / 2)) 128 ≤ 2 ^ 31) (hO31 : multipliersFor L bits (2 * ((T.height + 1) / 2)) 0 ≤ 2 ^ 31)
    {i : Nat} (hi : i < set.length) (hx0 : set[i] + (prm.layer false).delta ≠ 0)
    (hδ : ∀ nodes, T.witness prm.tree i 0 = .ok nodes → ∀ p (k : Nat) w, (nodes p)[k]? = some w → w.child + (prm.layer (!p)).delta ≠ 0)
    (sch : SigScheme K SK S (B true)) (cod : Codec (PourOf C K)) (base : PourRand C S)
    (hcod : ∀ pour : PourOf C K, pour.Fits → cod.dec (cod.enc pour) = some (pour, []))
    {e den : Nat} (he : ∀ p, {r : B (!p) | prm.Exceptional p r}.ncard ≤ e) (hden : ∀ p, den ≤ Fintype.card (B p))
    (dom : ∀ p, Transcript (B (!p)) (C p).Pt (C (!p)).Pt) :
    ∃ bad : List (C false).Pt, bad.length = 3 * windows bits + 1 ∧ ∀ in0 in1 : SpendingInfo K SK S (B true), in0.Invented sch i → in1.Invented sch i →
      in0.coin.commitment (F := B (!false)) (prm.gens false) ∉ bad → in1.coin.commitment (F := B (!false)) (prm.gens false) ∉ bad →
      (∀ inp, inp = in0 ∨ inp = in1 → ∀ (bytes : List UInt8) r,
        sch.verify inp.randomizedPk bytes (sch.randomizeSig (sch.sign inp.sk bytes r) inp.coin.pkRandomness) = .ok true) →
      ∀ val0 val1, val0 < 2 ^ 64 → val1 < 2 ^ 64 → in0.coin.value + in1.coin.value = val0 + val1 → ∀ pk0 pk1,
      ∃ M₀, ∀ M ≥ M₀, den * {ω : PaymentDraw B L bits T.height M | ¬ TheftWorks prm sch cod T base in0 in1 val0 pk0 val1 pk1 dom ω}.ncard ≤
        (2 * (e + 2) * T.height + 400) * Fintype.card (PaymentDraw B L bits T.height M) := by
  classical
  obtain ⟨bad, hbad, hatt⟩ := attackable_off (hv.tables false) hx0 0
  refine ⟨bad.map (· - (prm.layer false).delta), by rw [List.length_map, hbad, hb], ?_⟩
  intro in0 in1 hin0 hin1 hn0 hn1 hsig val0 val1 h64 h64' hsum pk0 pk1
  obtain ⟨Q0, hQ0⟩ : ∃ Q, Q = in0.coin.commitment (F := B (!false)) (prm.gens false) := ⟨_, rfl⟩
  obtain ⟨Q1, hQ1⟩ : ∃ Q, Q = in1.coin.commitment (F := B (!false)) (prm.gens false) := ⟨_, rfl⟩
  rw [← hQ0] at hn0
  rw [← hQ1] at hn1
  obtain ⟨hat0, hz0⟩ := hatt (Q0 + (prm.layer false).delta) (fun hm => hn0 (List.mem_map.2 ⟨_, hm, by abel⟩))
  obtain ⟨hat1, hz1⟩ := hatt (Q1 + (prm.layer false).delta) (fun hm => hn1 (List.mem_map.2 ⟨_, hm, by abel⟩))
  obtain ⟨nodes, w0, p0⟩ := C26_witness_partial hg hL ht hfuel 0 hi
  have hi0 := hin0.index
  have hi1 := hin1.index
  have hg1 : ∀ p, L ≤ (prm.gens p).Gs.length := fun p => (Nat.mul_one L).symm.trans_le (hg p)
  have hsc := C70_payment hg hL hbl ht hfuel hi hi (by rintro j (rfl | rfl) <;> exact hδ) he hden
  have good : ∀ w : PathScalars B T.height × PathScalars B T.height, ∃ M₀, SpendOk prm T i w.1.stream ∧ SpendOk prm T i w.2.stream → ∀ M ≥ M₀,
      den * {b | ¬ TheftWorks prm sch cod T base in0 in1 val0 pk0 val1 pk1 dom ((w, b) : PaymentDraw B L bits T.height M)}.ncard ≤ 400 * Fintype.card
        ((Draw (multipliersFor L bits (2 * (T.height / 2)) 128) (2 * (opDegree (paymentEvenCommitments T.height) + 1) + 1) M → B true) ×
          (Draw (multipliersFor L bits (2 * ((T.height + 1) / 2)) 0) (2 * (opDegree (paymentOddCommitments T.height) + 1) + 1) M → B false)) := by
    intro w
    by_cases hw : SpendOk prm T i w.1.stream ∧ SpendOk prm T i w.2.stream
    swap
    · exact ⟨0, fun h => absurd h hw⟩
    obtain ⟨rnd, hrnd⟩ : ∃ rnd : PourRand C S, rnd = { base with path := fun b => bif b then w.2.stream else w.1.stream } := ⟨_, rfl⟩
    have hr0 : SpendOk prm T i (rnd.path false) := by rw [hrnd]; exact hw.1
    have hr1 : SpendOk prm T i (rnd.path true) := by rw [hrnd]; exact hw.2
    obtain ⟨path0, path1, c0, c1, sE, sO, tE, tO, hp, hc, SE, SO, GE, GO, DE, DO⟩ := forgePour_session (o := fun _ _ => 0) (sch := sch) hv hg1 hL h0 (in0 := in0) (in1 := in1)
      (by rw [hi0]; exact w0) (by rw [hi1]; exact w0) p0 p0 (rnd := rnd) (by rw [hi0]; exact hr0) (by rw [hi1]; exact hr1) hx0 hx0 hQ0 hQ1 hz0 hz1 hat0 hat1 hin0.tag hin1.tag h64 h64' hsum pk0 pk1 dom
    obtain ⟨⟨z1, z2, z3, z4⟩, ⟨y1, y2⟩, y3, y4⟩ := forgePourProvers_sizes hv hb h3 hg hL ht hfuel h0 hsize (fun t => by cases t; exacts [hr0.even, hr1.even])
      (fun t => by cases t; exacts [hr0.odd, hr1.odd]) hp
    have hSE : Session (fun _ => 0) (prm.gens false) (sE.widen fun _ => 0) tE := by
      rw [PState.widen_eq (fun j c _ => Nat.zero_le _)]; exact SE
    have hSO : Session (fun _ => 0) (prm.gens true) (sO.widen fun _ => 0) tO := by
      rw [PState.widen_eq (fun j c _ => Nat.zero_le _)]; exact SO
    obtain ⟨ME, bE⟩ := widened_error (F := B (!false)) (hcG false) (hcH false) (hB false) (hbl false) hSE DE GE z1 (fun j _ => Nat.zero_le _) z2 hcE hE31
      (by unfold paymentEvenCommitments; omega) (hden (!false))
    obtain ⟨MO, bO⟩ := widened_error (F := B (!true)) (hcG true) (hcH true) (hB true) (hbl true) hSO DO GO z3 (fun j _ => Nat.zero_le _) z4 hcO hO31
      (by unfold paymentOddCommitments; omega) (hden (!true))
    refine ⟨max ME MO, fun _ M hM => ?_⟩
    have hE := bE M ((le_max_left _ _).trans hM)
    have hO := bO M ((le_max_right _ _).trans hM)
    refine ncard_stages (c := 200) (d := 200) _ {ωE | ¬ HonestAccepted (F := B (!false)) (Draw.oracle ωE) (prm.gens false) (Draw.prover ωE) sE tE} hE ?_
    intro ωE hωE
    refine le_trans (Nat.mul_le_mul_left _ (Set.ncard_le_ncard ?_)) hO
    intro ωO hωO hacc
    apply hωO
    obtain ⟨pE, trE, e1, vE⟩ := not_not.1 hωE
    obtain ⟨pO, trO, e2, vO⟩ := hacc
    set ω : PaymentDraw B L bits T.height M := (w, ωE, ωO) with hω
    have hrd : ω.rand base = { rnd with even := Draw.prover ωE, odd := Draw.prover ωO } := by rw [hrnd]; rfl
    have hp' : forgePourProvers ω.oracle prm sch T (ω.rand base) in0 in1 val0 pk0 val1 pk1 (.new (dom false)) (.new (dom true)) = .ok ((path0, path1, c0, c1), sE, sO) := by
      rw [forgePourProvers_oracle _ (fun _ _ => 0) hv, hrd]; exact hp
    have hc' := hc pE pO
    rw [pourCircuits_oracle _ (ω.oracle)] at hc'
    have e1' : prove (ω.oracle false) (prm.gens false) (ω.rand base).even sE = .ok (pE, trE) := e1
    have e2' : prove (ω.oracle true) (prm.gens true) (ω.rand base).odd sO = .ok (pO, trO) := e2
    obtain ⟨bytes, hbytes⟩ : ∃ bytes, bytes = cod.enc ⟨pE, pO, path0, path1, in0.randomizedPk, in1.randomizedPk, c0, c1⟩ := ⟨_, rfl⟩
    obtain ⟨g0, hg0⟩ : ∃ g0, g0 = sch.randomizeSig (sch.sign in0.sk bytes ((ω.rand base).sig false)) in0.coin.pkRandomness := ⟨_, rfl⟩
    obtain ⟨g1, hg1⟩ : ∃ g1, g1 = sch.randomizeSig (sch.sign in1.sk bytes ((ω.rand base).sig true)) in1.coin.pkRandomness := ⟨_, rfl⟩
    refine ⟨⟨g0.response, g0.challenge, g1.response, g1.challenge, bytes⟩, ?_, ?_⟩
    · unfold forgePour
      rw [hp']
      simp only [unwrap_ok.2 e1']
      rw [unwrap_ok.2 e2', hg0, hg1, hbytes]
    · subst hg0 hg1 hbytes
      intro rE rO
      obtain ⟨xE, xO, k1, k2, k3⟩ := pour_accepted hc' vE vO rE rO
      refine ⟨xE, xO, ?_, k2, k3⟩
      unfold signedTxVerification verifySignatures
      have lt64 : ∀ {n m : Nat}, n = m → m ≤ 2 ^ 31 → nextPow2 n < 2 ^ 64 := by
        intro n m h1 h2
        obtain ⟨lg, y1, y2, y3⟩ := nextPow2_eq n
        by_cases h1' : 1 < n
        · have := y3 h1'
          omega
        · have : nextPow2 n = 1 := by unfold nextPow2; rw [if_pos (by omega)]
          omega
      have fits : ∀ {path : Path (C false).Pt (C true).Pt}, path.odd.length = T.height / 2 → path.even.length + 1 = (T.height + 1) / 2 → path.Fits := by
        intro path h1 h2
        exact ⟨by unfold Fits; omega, by unfold Fits; omega⟩
      have hfit : Pour.Fits (⟨pE, pO, path0, path1, in0.randomizedPk, in1.randomizedPk, c0, c1⟩ : PourOf C K) :=
        ⟨prove_fits (F := B (!false)) DE (hcG false) (hcH false) e1 (lt64 z1 hE31), prove_fits (F := B (!true)) DO (hcG true) (hcH true) e2 (lt64 z3 hO31),
          fits y1 y2, fits y3 y4⟩
      simp only [hcod _ hfit]
      have a0 := hsig in0 (.inl rfl) (cod.enc ⟨pE, pO, path0, path1, in0.randomizedPk, in1.randomizedPk, c0, c1⟩) ((ω.rand base).sig false)
      have a1 := hsig in1 (.inr rfl) (cod.enc ⟨pE, pO, path0, path1, in0.randomizedPk, in1.randomizedPk, c0, c1⟩) ((ω.rand base).sig true)
      rw [unwrap_ok.2 a0]
      simp only
      rw [unwrap_ok.2 a1]
      simp only
      exact k1
  choose M₀ hM₀ using good
  refine ⟨Finset.univ.sup M₀, fun M hM => ?_⟩
  exact ncard_stages _ {w : PathScalars B T.height × PathScalars B T.height | ¬ (SpendOk prm T i w.1.stream ∧ SpendOk prm T i w.2.stream)} hsc
    fun w hw => hM₀ w (not_not.1 hw) M ((Finset.le_sup (Finset.mem_univ w)).trans hM)

end

/-- C44 is false of the code on the Pasta curves, with the encoding of `coin.rs`: any two invented coins whose commitments are not among 259 points are spent, with failure probability at most
`(12 height + 400) / 2 ^ 254`, that of an honest payment (`C72_pasta_payment`). -/
theorem C44_pasta_thief {L : Nat} {K SK S : Type} {prm : SelRerand PastaC} (hp : PastaParams prm)
    (htab : ∀ p, buildTables (PastaC p) (windows 255) (prm.h p) = some (prm.layer p).tables) (hg : prm.tree.EnoughGens L 1) (hL : 2 ≤ L)
    (hcG : ∀ p, (prm.gens p).capacity ≤ (prm.gens p).Gs.length) (hcH : ∀ p, (prm.gens p).capacity ≤ (prm.gens p).Hs.length) (hB : ∀ p, (prm.gens p).pc.B ≠ 0)
    {set : List (PastaC false).Pt} {height : Option Nat} {fuel : Nat} {T : CurveTree L 1 (Pts PastaC)}
    (ht : fromSet prm.tree set height fuel = some (.ok T)) (hfuel : set.length + height.getD 0 ≤ fuel) (h0 : T.height ≠ 0) (h14 : T.height ≤ 14)
    (hsize : L ≤ 128 ∨ 2 ≤ T.height)
    (hcE : nextPow2 (multipliersFor L 255 (2 * (T.height / 2)) 128) ≤ (prm.gens false).capacity) (hcO : nextPow2 (multipliersFor L 255 (2 * ((T.height + 1) / 2)) 0) ≤ (prm.gens true).capacity)
    (hE31 : multipliersFor L 255 (2 * (T.height / 2)) 128 ≤ 2 ^ 31) (hO31 : multipliersFor L 255 (2 * ((T.height + 1) / 2)) 0 ≤ 2 ^ 31)
    {i : Nat} (hi : i < set.length) (hx0 : set[i] + (prm.layer false).delta ≠ 0)
    (hδ : ∀ nodes, T.witness prm.tree i 0 = .ok nodes → ∀ p (k : Nat) w, (nodes p)[k]? = some w → w.child + (prm.layer (!p)).delta ≠ 0)
    (sch : SigScheme K SK S (PastaB true)) (base : PourRand PastaC S)
    {cP : ∀ p, Codec (PastaC p).Pt} {cF : ∀ p, Codec (PastaB (!p))} {cK : Codec K} (hP : ∀ p, (cP p).Element) (hF : ∀ p, (cF p).Element) (hK : cK.Element)
    (dom : ∀ p, Transcript (PastaB (!p)) (PastaC p).Pt (PastaC (!p)).Pt) :
    ∃ bad : List (PastaC false).Pt, bad.length = 259 ∧ ∀ in0 in1 : SpendingInfo K SK S (PastaB true), in0.Invented sch i → in1.Invented sch i →
      in0.coin.commitment (F := PastaB (!false)) (prm.gens false) ∉ bad → in1.coin.commitment (F := PastaB (!false)) (prm.gens false) ∉ bad →
      (∀ inp, inp = in0 ∨ inp = in1 → ∀ (bytes : List UInt8) r,
        sch.verify inp.randomizedPk bytes (sch.randomizeSig (sch.sign inp.sk bytes r) inp.coin.pkRandomness) = .ok true) →
      ∀ val0 val1, val0 < 2 ^ 64 → val1 < 2 ^ 64 → in0.coin.value + in1.coin.value = val0 + val1 → ∀ pk0 pk1,
      ∃ M₀, ∀ M ≥ M₀, 2 ^ 254 * {ω : PaymentDraw PastaB L 255 T.height M |
          ¬ TheftWorks prm sch (pourCodec (cF false) (cP false) (cF true) (cP true) cK) T base in0 in1 val0 pk0 val1 pk1 dom ω}.ncard ≤
        (12 * T.height + 400) * Fintype.card (PaymentDraw PastaB L 255 T.height M) := by
  have hv : prm.Valid :=
    ⟨fun p => by cases p <;> rfl, fun p => by rw [hp.lambda]; exact htab p, fun p => by rw [hp.lambda]; decide, hp.cast, fun p x => by
      rw [hp.lambda]
      have h1 := hp.lt (!p) x
      have h2 := (pasta_facts (!p)).1.2
      have h3 : 4001 * 8 ^ 84 ≤ 1000 * 2 ^ 255 := by norm_num
      exact h1.trans (Nat.lt_of_mul_lt_mul_left (h2.trans_le h3))⟩
  exact C44_thief (den := 2 ^ 254) hv hp.lambda (by norm_num) hg hL hcG hcH hB hp.base ht hfuel h0 h14 hsize hcE hcO hE31 hO31 hi hx0 hδ sch _ base
    (pourCodec_decodes (hF false) (hP false) (hF true) (hP true) hK)
    (fun p => pasta_exceptional (hp.lambda p) ((pasta_facts p).2 _ (hp.base p)) (pasta_facts _).1.1 (pasta_facts _).1.2 (hp.cast _) (hp.lt _))
    (fun p => le_trans (by norm_num) (pasta_facts p).1.1.le) dom

section Example

/-- A coin of `v` units that nobody minted, for key 1, with the blinding `r`. -/
noncomputable def pastaInvented (v : Nat) (r : PastaB true) : SpendingInfo UInt8 UInt8 UInt8 (PastaB true) := ⟨1, ⟨v, ((1 : Nat) : ZMod pallasOrder), r, 0⟩, 1, 0⟩

theorem pastaInvented_commitment (v : Nat) (r : ZMod pallasOrder) : (pastaInvented v r).coin.commitment (F := PastaB (!false)) (pastaPay.gens false) = ((v : ZMod pallasOrder) + 3 + r) • pallasG := by
  have h : ∀ {F G : Type} [Field F] [AddCommGroup G] [Module F G] (P : G) (v r : F), v • P + ((1 : Nat) : F) • ((3 : Nat) • P) + r • P = (v + 3 + r) • P := by
    intro F G _ _ _ P v r
    rw [← Nat.cast_smul_eq_nsmul F 3 P]
    push_cast
    module
  exact h (F := ZMod pallasOrder) pallasG v r

/-- Non-vacuity of `C44_pasta_thief`: a tree with two coins, of 5 and of 4 units. There are coins that nobody minted, one of `2 ^ 64 - 1` units and one of none, with which someone
who owns neither of the two coins mints `2 ^ 64 - 1` units for themselves. -/
example (base : PourRand PastaC UInt8) : ∃ T : CurveTree 2 1 (Pts PastaC), fromSet pastaPay.tree pastaSet (some 1) 3 = some (.ok T) ∧
    ∃ r0 r1 M₀, ∀ M ≥ M₀, 2 ^ 254 * {ω : PaymentDraw PastaB 2 255 T.height M | ¬ TheftWorks pastaPay pastaScheme
        (pourCodec (pastaScalars false) (pastaPoints false) (pastaScalars true) (pastaPoints true) byteCodec) T base (pastaInvented (2 ^ 64 - 1) r0) (pastaInvented 0 r1)
        (2 ^ 64 - 1) 7 0 9 (fun _ => []) ω}.ncard ≤
      412 * Fintype.card (PaymentDraw PastaB 2 255 T.height M) := by
  obtain ⟨T, h1, h2, h3⟩ := pastaPay_tree
  have hmE : multipliersFor 2 255 (2 * (T.height / 2)) 128 = 128 := by rw [h2]; rfl
  have hmO : multipliersFor 2 255 (2 * ((T.height + 1) / 2)) 0 = 1822 := by rw [h2]; rfl
  have hpp : PastaParams pastaPay := ⟨pastaPrm_params.base, pastaPrm_params.lambda, pastaPrm_params.cast, pastaPrm_params.lt⟩
  obtain ⟨bad, hb, h⟩ := C44_pasta_thief (L := 2) hpp pastaLarge_tables (fun p => Nat.le_add_left _ _) le_rfl
    (fun p => (pastaPay_length p).1.ge) (fun p => (pastaPay_length p).2.ge) hpp.base h1 le_rfl (by omega) (by omega) (.inl (by norm_num))
    (by rw [hmE]; exact (by decide +kernel : nextPow2 128 ≤ 2048)) (by rw [hmO]; exact (by decide +kernel : nextPow2 1822 ≤ 2048)) (by rw [hmE]; norm_num) (by rw [hmO]; norm_num)
    (i := 1) (by decide)
    (by
      have := pasta_multiple (k := 2 + 1) (by norm_num [pallasOrder]) (by decide)
      rw [succ_nsmul] at this
      exact this) (h3 1 (by omega))
    pastaScheme base pastaPoints_element pastaScalars_element byte_element (fun _ => [])
  have pick : ∀ v : Nat, ∃ r : ZMod pallasOrder, (pastaInvented v r).coin.commitment (F := PastaB (!false)) (pastaPay.gens false) ∉ bad := by
    intro v
    by_contra hall
    push Not at hall
    have key : ∀ (l : List pallas.Pt), l.length = 259 → ¬ ∀ r : ZMod pallasOrder, ((v : ZMod pallasOrder) + 3 + r) • pallasG ∈ l := by
      classical
      intro l hl hall
      have hne : pallasG ≠ 0 := by
        have := pasta_multiple (k := 1) (by norm_num [pallasOrder]) (by decide)
        rwa [one_nsmul] at this
      have inj : Function.Injective fun r : ZMod pallasOrder => ((v : ZMod pallasOrder) + 3 + r) • pallasG :=
        fun a b hab => add_left_cancel (smul_left_injective (ZMod pallasOrder) hne hab)
      have c1 : (Finset.univ.image fun r : ZMod pallasOrder => ((v : ZMod pallasOrder) + 3 + r) • pallasG) ⊆ l.toFinset := fun x hx => by
        obtain ⟨r, -, rfl⟩ := Finset.mem_image.1 hx
        exact List.mem_toFinset.2 (hall r)
      have c2 := (Finset.card_le_card c1).trans l.toFinset_card_le
      rw [Finset.card_image_of_injective _ inj, Finset.card_univ, ZMod.card, hl] at c2
      exact absurd c2 (by norm_num [pallasOrder])
    exact key bad hb fun r => by rw [← pastaInvented_commitment]; exact hall r
  obtain ⟨r0, q0⟩ := pick (2 ^ 64 - 1)
  obtain ⟨r1, q1⟩ := pick 0
  obtain ⟨M₀, hM⟩ := h (pastaInvented (2 ^ 64 - 1) r0) (pastaInvented 0 r1) ⟨rfl, rfl⟩ ⟨rfl, rfl⟩ q0 q1 (fun _ _ _ _ => rfl) (2 ^ 64 - 1) 0 (by norm_num) (by norm_num) rfl 7 9
  exact ⟨T, h1, r0, r1, M₀, fun M hM' => (hM M hM').trans_eq (by rw [h2])⟩

end Example

end CT
