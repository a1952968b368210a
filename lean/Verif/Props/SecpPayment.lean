import Verif.Props.Theft

/-!
# Payments on secp256k1 and secq256k1

C72 for payments, and the thief of C44, on the other pair of curves.
-/

namespace CT

/-- **C72** for payments on secp256k1 and secq256k1, with the encoding of `coin.rs`: a payment fails with probability at most `(12 height + 400) / 2 ^ 255`. -/
theorem C72_secp_payment {L : Nat} {K SK S : Type} {prm : SelRerand SecpC} (hp : SecpParams prm)
    (htab : ∀ p, buildTables (SecpC p) (windows 256) (prm.h p) = some (prm.layer p).tables) (hg : prm.tree.EnoughGens L 1) (hL : 2 ≤ L)
    (hcG : ∀ p, (prm.gens p).capacity ≤ (prm.gens p).Gs.length) (hcH : ∀ p, (prm.gens p).capacity ≤ (prm.gens p).Hs.length) (hB : ∀ p, (prm.gens p).pc.B ≠ 0)
    {set : List (SecpC false).Pt} {height : Option Nat} {fuel : Nat} {T : CurveTree L 1 (Pts SecpC)}
    (ht : fromSet prm.tree set height fuel = some (.ok T)) (hfuel : set.length + height.getD 0 ≤ fuel) (h0 : T.height ≠ 0) (h14 : T.height ≤ 14)
    (hsize : L ≤ 128 ∨ 2 ≤ T.height)
    (hcE : nextPow2 (multipliersFor L 256 (2 * (T.height / 2)) 128) ≤ (prm.gens false).capacity) (hcO : nextPow2 (multipliersFor L 256 (2 * ((T.height + 1) / 2)) 0) ≤ (prm.gens true).capacity)
    (hE31 : multipliersFor L 256 (2 * (T.height / 2)) 128 ≤ 2 ^ 31) (hO31 : multipliersFor L 256 (2 * ((T.height + 1) / 2)) 0 ≤ 2 ^ 31)
    (fx : Bool) (sch : SigScheme K SK S (SecpB true)) (base : PourRand SecpC S)
    {cP : ∀ p, Codec (SecpC p).Pt} {cF : ∀ p, Codec (SecpB (!p))} {cK : Codec K} (hP : ∀ p, (cP p).Element) (hF : ∀ p, (cF p).Element) (hK : cK.Element)
    {in0 in1 : SpendingInfo K SK S (SecpB true)} (hin0 : in0.Owned prm sch set) (hin1 : in1.Owned prm sch set)
    {val0 val1 : Nat} (h64 : val0 < 2 ^ 64) (h64' : val1 < 2 ^ 64) (hsum : in0.coin.value + in1.coin.value = val0 + val1) (pk0 pk1 : K)
    (hsig : ∀ inp, inp = in0 ∨ inp = in1 → ∀ (bytes : List UInt8) r,
      sch.verify inp.randomizedPk bytes (sch.randomizeSig (sch.sign inp.sk bytes r) inp.coin.pkRandomness) = .ok true)
    (hδ : ∀ j, j = in0.index ∨ j = in1.index → ∀ nodes, T.witness prm.tree j 0 = .ok nodes → ∀ p (k : Nat) w, (nodes p)[k]? = some w → w.child + (prm.layer (!p)).delta ≠ 0)
    (dom : ∀ p, Transcript (SecpB (!p)) (SecpC p).Pt (SecpC (!p)).Pt) :
    ∃ M₀, ∀ M ≥ M₀, 2 ^ 255 * {ω : PaymentDraw SecpB L 256 T.height M |
        ¬ PaymentWorks fx prm sch (pourCodec (cF false) (cP false) (cF true) (cP true) cK) T base in0 in1 val0 pk0 val1 pk1 dom ω}.ncard ≤
      (12 * T.height + 400) * Fintype.card (PaymentDraw SecpB L 256 T.height M) := by
  have hv : prm.Valid :=
    ⟨fun p => by cases p <;> rfl, fun p => by rw [hp.lambda]; exact htab p, fun p => by rw [hp.lambda]; decide, hp.cast, fun p x => by
      rw [hp.lambda]
      have h1 := hp.lt (!p) x
      have h2 := (secp_facts (!p)).1.2
      exact h1.trans (h2.trans_le (by norm_num))⟩
  exact C72_payment (Q := 2 ^ 255) hv hp.lambda (by norm_num) hg hL hcG hcH hB hp.base ht hfuel h0 h14 hsize hcE hcO hE31 hO31 fx sch _ base hin0 hin1 h64 h64' hsum pk0 pk1
    (pourCodec_decodes (hF false) (hP false) (hF true) (hP true) hK) hsig hδ
    (fun p => secp_exceptional (hp.lambda p) ((secp_facts p).2 _ (hp.base p)) (secp_facts _).1.1 (secp_facts _).1.2 (hp.cast _) (hp.lt _))
    (fun p => by
      have := (secp_facts p).1.1
      have h2 : 1000 * 2 ^ 255 ≤ 15999 * 8 ^ 84 := by norm_num
      exact Nat.le_of_mul_le_mul_left (h2.trans this.le) (by norm_num)) dom

/-- C44 is false of the code on secp256k1 and secq256k1, with the encoding of `coin.rs`: any two invented coins whose commitments are not among 259 points are spent, with failure probability at most
`(12 height + 400) / 2 ^ 255`, that of an honest payment (`C72_secp_payment`). -/
theorem C44_secp_thief {L : Nat} {K SK S : Type} {prm : SelRerand SecpC} (hp : SecpParams prm)
    (htab : ∀ p, buildTables (SecpC p) (windows 256) (prm.h p) = some (prm.layer p).tables) (hg : prm.tree.EnoughGens L 1) (hL : 2 ≤ L)
    (hcG : ∀ p, (prm.gens p).capacity ≤ (prm.gens p).Gs.length) (hcH : ∀ p, (prm.gens p).capacity ≤ (prm.gens p).Hs.length) (hB : ∀ p, (prm.gens p).pc.B ≠ 0)
    {set : List (SecpC false).Pt} {height : Option Nat} {fuel : Nat} {T : CurveTree L 1 (Pts SecpC)}
    (ht : fromSet prm.tree set height fuel = some (.ok T)) (hfuel : set.length + height.getD 0 ≤ fuel) (h0 : T.height ≠ 0) (h14 : T.height ≤ 14)
    (hsize : L ≤ 128 ∨ 2 ≤ T.height)
    (hcE : nextPow2 (multipliersFor L 256 (2 * (T.height / 2)) 128) ≤ (prm.gens false).capacity) (hcO : nextPow2 (multipliersFor L 256 (2 * ((T.height + 1) / 2)) 0) ≤ (prm.gens true).capacity)
    (hE31 : multipliersFor L 256 (2 * (T.height / 2)) 128 ≤ 2 ^ 31) (hO31 : multipliersFor L 256 (2 * ((T.height + 1) / 2)) 0 ≤ 2 ^ 31)
    {i : Nat} (hi : i < set.length) (hx0 : set[i] + (prm.layer false).delta ≠ 0)
    (hδ : ∀ nodes, T.witness prm.tree i 0 = .ok nodes → ∀ p (k : Nat) w, (nodes p)[k]? = some w → w.child + (prm.layer (!p)).delta ≠ 0)
    (sch : SigScheme K SK S (SecpB true)) (base : PourRand SecpC S)
    {cP : ∀ p, Codec (SecpC p).Pt} {cF : ∀ p, Codec (SecpB (!p))} {cK : Codec K} (hP : ∀ p, (cP p).Element) (hF : ∀ p, (cF p).Element) (hK : cK.Element)
    (dom : ∀ p, Transcript (SecpB (!p)) (SecpC p).Pt (SecpC (!p)).Pt) :
    ∃ bad : List (SecpC false).Pt, bad.length = 259 ∧ ∀ in0 in1 : SpendingInfo K SK S (SecpB true), in0.Invented sch i → in1.Invented sch i →
      in0.coin.commitment (F := SecpB (!false)) (prm.gens false) ∉ bad → in1.coin.commitment (F := SecpB (!false)) (prm.gens false) ∉ bad →
      (∀ inp, inp = in0 ∨ inp = in1 → ∀ (bytes : List UInt8) r,
        sch.verify inp.randomizedPk bytes (sch.randomizeSig (sch.sign inp.sk bytes r) inp.coin.pkRandomness) = .ok true) →
      ∀ val0 val1, val0 < 2 ^ 64 → val1 < 2 ^ 64 → in0.coin.value + in1.coin.value = val0 + val1 → ∀ pk0 pk1,
      ∃ M₀, ∀ M ≥ M₀, 2 ^ 255 * {ω : PaymentDraw SecpB L 256 T.height M |
          ¬ TheftWorks prm sch (pourCodec (cF false) (cP false) (cF true) (cP true) cK) T base in0 in1 val0 pk0 val1 pk1 dom ω}.ncard ≤
        (12 * T.height + 400) * Fintype.card (PaymentDraw SecpB L 256 T.height M) := by
  have hv : prm.Valid :=
    ⟨fun p => by cases p <;> rfl, fun p => by rw [hp.lambda]; exact htab p, fun p => by rw [hp.lambda]; decide, hp.cast, fun p x => by
      rw [hp.lambda]
      have h1 := hp.lt (!p) x
      have h2 := (secp_facts (!p)).1.2
      exact h1.trans (h2.trans_le (by norm_num))⟩
  exact C44_thief (den := 2 ^ 255) hv hp.lambda (by norm_num) hg hL hcG hcH hB hp.base ht hfuel h0 h14 hsize hcE hcO hE31 hO31 hi hx0 hδ sch _ base
    (pourCodec_decodes (hF false) (hP false) (hF true) (hP true) hK)
    (fun p => secp_exceptional (hp.lambda p) ((secp_facts p).2 _ (hp.base p)) (secp_facts _).1.1 (secp_facts _).1.2 (hp.cast _) (hp.lt _))
    (fun p => by
      have := (secp_facts p).1.1
      have h2 : 1000 * 2 ^ 255 ≤ 15999 * 8 ^ 84 := by norm_num
      exact Nat.le_of_mul_le_mul_left (h2.trans this.le) (by norm_num)) dom

section Example

/-- Parameters with 2048 generators. -/
noncomputable def secpPay : SelRerand SecpC where
  gens p := ⟨⟨secpGen p, secpGen p⟩, 2048, secpGen p :: 3 • secpGen p :: List.replicate 2046 (secpGen p), List.replicate 2048 (secpGen p)⟩
  layer p := secpPrm.layer p
  toNat p x := secpPrm.toNat p x

theorem secpPay_length (p : Bool) : (secpPay.gens p).Gs.length = 2048 ∧ (secpPay.gens p).Hs.length = 2048 := by
  have h : ∀ (a b : (SecpC p).Pt) (n : Nat), (a :: b :: List.replicate n a).length = n + 2 ∧ (List.replicate (n + 2) a).length = n + 2 := fun a b n => by simp
  exact h _ _ 2046

/-- The tree of height one with the two leaves. -/
theorem secpPay_tree : ∃ T : CurveTree 2 1 (Pts SecpC), fromSet secpPay.tree secpSet (some 1) 3 = some (.ok T) ∧ T.height = 1 ∧
    ∀ i, i < 2 → ∀ nodes, T.witness secpPay.tree i 0 = .ok nodes → ∀ p (k : Nat) w, (nodes p)[k]? = some w → w.child + (secpPay.layer (!p)).delta ≠ 0 := by
  refine ⟨_, rfl, rfl, ?_⟩
  intro i hi nodes hn p k w hk
  rcases (by omega : i = 0 ∨ i = 1) with rfl | rfl
  · cases Except.ok.inj hn
    cases p
    · cases hk
    · cases k with
      | zero =>
        cases hk
        have := secp_multiple (k := 2) (by norm_num [secpOrder]) (by decide)
        rw [two_nsmul] at this
        exact this
      | succ k => cases hk
  · cases Except.ok.inj hn
    cases p
    · cases hk
    · cases k with
      | zero =>
        cases hk
        have := secp_multiple (k := 2 + 1) (by norm_num [secpOrder]) (by decide)
        rw [succ_nsmul] at this
        exact this
      | succ k => cases hk

/-- A scheme with bytes as keys; the tag of a key is its number. -/
def secpScheme : SigScheme UInt8 UInt8 UInt8 (SecpB true) :=
  ⟨fun k => ((k.toNat : Nat) : ZMod secpOrder), fun _ _ _ => .ok true, fun k _ r => ⟨k, r⟩, fun s _ => s, fun k r => k + r⟩

/-- The coin `G`: five units, for key 1. -/
noncomputable def secpCoin0 : SpendingInfo UInt8 UInt8 UInt8 (SecpB true) := ⟨0, ⟨5, ((1 : Nat) : ZMod secpOrder), (-7 : ZMod secpOrder), 0⟩, 1, 0⟩

/-- The coin `2 G`: four units, for key 2. -/
noncomputable def secpCoin1 : SpendingInfo UInt8 UInt8 UInt8 (SecpB true) := ⟨1, ⟨4, ((2 : Nat) : ZMod secpOrder), (-8 : ZMod secpOrder), 0⟩, 2, 0⟩

theorem secpOwned0 : secpCoin0.Owned secpPay secpScheme secpSet := by
  have h : ∀ {F G : Type} [Field F] [AddCommGroup G] [Module F G] (P : G), P = ((5 : Nat) : F) • P + ((1 : Nat) : F) • ((3 : Nat) • P) + (-7 : F) • P := by
    intro F G _ _ _ P
    rw [← Nat.cast_smul_eq_nsmul F 3 P]
    push_cast
    module
  exact ⟨congrArg some (h (F := ZMod secpOrder) secpG), rfl⟩

theorem secpOwned1 : secpCoin1.Owned secpPay secpScheme secpSet := by
  have h : ∀ {F G : Type} [Field F] [AddCommGroup G] [Module F G] (P : G), (2 : Nat) • P = ((4 : Nat) : F) • P + ((2 : Nat) : F) • ((3 : Nat) • P) + (-8 : F) • P := by
    intro F G _ _ _ P
    rw [← Nat.cast_smul_eq_nsmul F 3 P, ← Nat.cast_smul_eq_nsmul F 2 P]
    push_cast
    module
  exact ⟨congrArg some (h (F := ZMod secpOrder) secpG), rfl⟩

/-- The points and scalars of the two curves in 32 bytes. -/
noncomputable def secpPoints : ∀ p, Codec (SecpC p).Pt
  | false => finCodec secp.Pt 32
  | true => finCodec secq.Pt 32

noncomputable def secpScalars : ∀ p, Codec (SecpB (!p))
  | false => finCodec (ZMod secpOrder) 32
  | true => finCodec (ZMod secqOrder) 32

theorem secpPoints_element (p : Bool) : (secpPoints p).Element := by
  cases p
  · exact finCodec_element (α := secp.Pt) (by rw [secp_card]; norm_num [secpOrder])
  · exact finCodec_element (α := secq.Pt) (by rw [secq_card]; norm_num [secqOrder])

theorem secpScalars_element (p : Bool) : (secpScalars p).Element := by
  cases p
  · exact finCodec_element (α := ZMod secpOrder) (by rw [Nat.card_zmod]; norm_num [secpOrder])
  · exact finCodec_element (α := ZMod secqOrder) (by rw [Nat.card_zmod]; norm_num [secqOrder])

/-- Non-vacuity of `C72_secp_payment`: coins of 5 and 4 units pay 3 and 6 units. -/
example (base : PourRand SecpC UInt8) : ∃ T : CurveTree 2 1 (Pts SecpC), fromSet secpPay.tree secpSet (some 1) 3 = some (.ok T) ∧
    ∃ M₀, ∀ M ≥ M₀, 2 ^ 255 * {ω : PaymentDraw SecpB 2 256 T.height M | ¬ PaymentWorks false secpPay secpScheme
        (pourCodec (secpScalars false) (secpPoints false) (secpScalars true) (secpPoints true) byteCodec) T base secpCoin0 secpCoin1 3 7 6 9 (fun _ => []) ω}.ncard ≤
      412 * Fintype.card (PaymentDraw SecpB 2 256 T.height M) := by
  obtain ⟨T, h1, h2, h3⟩ := secpPay_tree
  have hmE : multipliersFor 2 256 (2 * (T.height / 2)) 128 = 128 := by rw [h2]; rfl
  have hmO : multipliersFor 2 256 (2 * ((T.height + 1) / 2)) 0 = 1822 := by rw [h2]; rfl
  have hpp : SecpParams secpPay := ⟨secpPrm_params.base, secpPrm_params.lambda, secpPrm_params.cast, secpPrm_params.lt⟩
  obtain ⟨M₀, h⟩ := C72_secp_payment (L := 2) hpp secpLarge_tables (fun p => Nat.le_add_left _ _) le_rfl
    (fun p => (secpPay_length p).1.ge) (fun p => (secpPay_length p).2.ge) hpp.base h1 le_rfl (by omega) (by omega) (.inl (by norm_num))
    (by rw [hmE]; exact (by decide +kernel : nextPow2 128 ≤ 2048)) (by rw [hmO]; exact (by decide +kernel : nextPow2 1822 ≤ 2048)) (by rw [hmE]; norm_num) (by rw [hmO]; norm_num)
    false secpScheme base secpPoints_element secpScalars_element byte_element secpOwned0 secpOwned1 (val0 := 3) (val1 := 6) (by norm_num) (by norm_num) rfl 7 9
    (fun _ _ _ _ => rfl) (by rintro j (rfl | rfl); exacts [h3 0 (by omega), h3 1 (by omega)]) (fun _ => [])
  exact ⟨T, h1, M₀, fun M hM => (h M hM).trans_eq (by rw [h2])⟩

/-- A coin of `v` units that nobody minted, for key 1, with the blinding `r`. -/
noncomputable def secpInvented (v : Nat) (r : SecpB true) : SpendingInfo UInt8 UInt8 UInt8 (SecpB true) := ⟨1, ⟨v, ((1 : Nat) : ZMod secpOrder), r, 0⟩, 1, 0⟩

theorem secpInvented_commitment (v : Nat) (r : ZMod secpOrder) : (secpInvented v r).coin.commitment (F := SecpB (!false)) (secpPay.gens false) = ((v : ZMod secpOrder) + 3 + r) • secpG := by
  have h : ∀ {F G : Type} [Field F] [AddCommGroup G] [Module F G] (P : G) (v r : F), v • P + ((1 : Nat) : F) • ((3 : Nat) • P) + r • P = (v + 3 + r) • P := by
    intro F G _ _ _ P v r
    rw [← Nat.cast_smul_eq_nsmul F 3 P]
    push_cast
    module
  exact h (F := ZMod secpOrder) secpG v r

/-- Non-vacuity of `C44_secp_thief`: a tree with two coins, of 5 and of 4 units. There are coins that nobody minted, one of `2 ^ 64 - 1` units and one of none, with which someone
who owns neither of the two coins mints `2 ^ 64 - 1` units for themselves. -/
example (base : PourRand SecpC UInt8) : ∃ T : CurveTree 2 1 (Pts SecpC), fromSet secpPay.tree secpSet (some 1) 3 = some (.ok T) ∧
    ∃ r0 r1 M₀, ∀ M ≥ M₀, 2 ^ 255 * {ω : PaymentDraw SecpB 2 256 T.height M | ¬ TheftWorks secpPay secpScheme
        (pourCodec (secpScalars false) (secpPoints false) (secpScalars true) (secpPoints true) byteCodec) T base (secpInvented (2 ^ 64 - 1) r0) (secpInvented 0 r1)
        (2 ^ 64 - 1) 7 0 9 (fun _ => []) ω}.ncard ≤
      412 * Fintype.card (PaymentDraw SecpB 2 256 T.height M) := by
  obtain ⟨T, h1, h2, h3⟩ := secpPay_tree
  have hmE : multipliersFor 2 256 (2 * (T.height / 2)) 128 = 128 := by rw [h2]; rfl
  have hmO : multipliersFor 2 256 (2 * ((T.height + 1) / 2)) 0 = 1822 := by rw [h2]; rfl
  have hpp : SecpParams secpPay := ⟨secpPrm_params.base, secpPrm_params.lambda, secpPrm_params.cast, secpPrm_params.lt⟩
  obtain ⟨bad, hb, h⟩ := C44_secp_thief (L := 2) hpp secpLarge_tables (fun p => Nat.le_add_left _ _) le_rfl
    (fun p => (secpPay_length p).1.ge) (fun p => (secpPay_length p).2.ge) hpp.base h1 le_rfl (by omega) (by omega) (.inl (by norm_num))
    (by rw [hmE]; exact (by decide +kernel : nextPow2 128 ≤ 2048)) (by rw [hmO]; exact (by decide +kernel : nextPow2 1822 ≤ 2048)) (by rw [hmE]; norm_num) (by rw [hmO]; norm_num)
    (i := 1) (by decide)
    (by
      have := secp_multiple (k := 2 + 1) (by norm_num [secpOrder]) (by decide)
      rw [succ_nsmul] at this
      exact this) (h3 1 (by omega))
    secpScheme base secpPoints_element secpScalars_element byte_element (fun _ => [])
  have pick : ∀ v : Nat, ∃ r : ZMod secpOrder, (secpInvented v r).coin.commitment (F := SecpB (!false)) (secpPay.gens false) ∉ bad := by
    intro v
    by_contra hall
    push Not at hall
    have key : ∀ (l : List secp.Pt), l.length = 259 → ¬ ∀ r : ZMod secpOrder, ((v : ZMod secpOrder) + 3 + r) • secpG ∈ l := by
      classical
      intro l hl hall
      have hne : secpG ≠ 0 := by
        have := secp_multiple (k := 1) (by norm_num [secpOrder]) (by decide)
        rwa [one_nsmul] at this
      have inj : Function.Injective fun r : ZMod secpOrder => ((v : ZMod secpOrder) + 3 + r) • secpG :=
        fun a b hab => add_left_cancel (smul_left_injective (ZMod secpOrder) hne hab)
      have c1 : (Finset.univ.image fun r : ZMod secpOrder => ((v : ZMod secpOrder) + 3 + r) • secpG) ⊆ l.toFinset := fun x hx => by
        obtain ⟨r, -, rfl⟩ := Finset.mem_image.1 hx
        exact List.mem_toFinset.2 (hall r)
      have c2 := (Finset.card_le_card c1).trans l.toFinset_card_le
      rw [Finset.card_image_of_injective _ inj, Finset.card_univ, ZMod.card, hl] at c2
      exact absurd c2 (by norm_num [secpOrder])
    exact key bad hb fun r => by rw [← secpInvented_commitment]; exact hall r
  obtain ⟨r0, q0⟩ := pick (2 ^ 64 - 1)
  obtain ⟨r1, q1⟩ := pick 0
  obtain ⟨M₀, hM⟩ := h (secpInvented (2 ^ 64 - 1) r0) (secpInvented 0 r1) ⟨rfl, rfl⟩ ⟨rfl, rfl⟩ q0 q1 (fun _ _ _ _ => rfl) (2 ^ 64 - 1) 0 (by norm_num) (by norm_num) rfl 7 9
  exact ⟨T, h1, r0, r1, M₀, fun M hM' => (hM M hM').trans_eq (by rw [h2])⟩

end Example

end CT
