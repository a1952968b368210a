import Verif.Proofs.PourOut

/-!
# C51: a transaction hides the spent coins, the amounts and the receivers
-/

namespace CT

variable {B : Bool → Type} [∀ p, Field (B p)] [∀ p, DecidableEq (B p)] {C : ∀ p, SWCurve (B p)}
  [∀ p, Module (B (!p)) (C p).Pt] {L : Nat} {K SK S : Type}

/-- What the caller of `prove_pour` decides: the two coins spent, and amount and receiver of the two coins minted. -/
structure Payment (K SK S F : Type) where
  in0 : SpendingInfo K SK S F
  in1 : SpendingInfo K SK S F
  val0 : Nat
  pk0 : K
  val1 : Nat
  pk1 : K

/-- A payment with coins among the leaves `set`, with amounts that fit in 64 bits and balance. -/
structure Payment.Honest (prm : SelRerand C) (sch : SigScheme K SK S (B true)) (set : List (C false).Pt) (a : Payment K SK S (B true)) : Prop where
  own0 : a.in0.Owned prm sch set
  own1 : a.in1.Owned prm sch set
  lt0 : a.val0 < 2 ^ 64
  lt1 : a.val1 < 2 ^ 64
  sum : a.in0.coin.value + a.in1.coin.value = a.val0 + a.val1

/-- `prove_pour` for the payment, with fresh Provers. -/
def Payment.run (o : ∀ p, SideO C p) (fx : Bool) (prm : SelRerand C) (sch : SigScheme K SK S (B true)) (cod : Codec (PourOf C K)) (T : CurveTree L 1 (Pts C))
    (dom : ∀ p, Transcript (B (!p)) (C p).Pt (C (!p)).Pt) (a : Payment K SK S (B true)) (rnd : PourRand C S) : Except Err (SignedTx S) :=
  provePour o fx prm sch cod T rnd a.in0 a.in1 a.val0 a.pk0 a.val1 a.pk1 (.new (dom false)) (.new (dom true))

/-- The scalars for the two paths are usable. -/
def Payment.Usable (prm : SelRerand C) (T : CurveTree L 1 (Pts C)) (a : Payment K SK S (B true)) (rnd : PourRand C S) : Prop :=
  SpendOk prm T a.in0.index (rnd.path false) ∧ SpendOk prm T a.in1.index (rnd.path true)

/-- Two owners, or one owner of two coins, sign alike: the published signatures are distributed alike. (For Schnorr signatures this follows from the equality of the
randomised public keys: then both sign with the same randomised secret key.) -/
def SignAlike {F : Type} (sch : SigScheme K SK S F) (x y : SpendingInfo K SK S F) : Prop :=
  ∀ bytes, ∃ ψ : S ≃ S, ∀ r, sch.randomizeSig (sch.sign x.sk bytes r) x.coin.pkRandomness = sch.randomizeSig (sch.sign y.sk bytes (ψ r)) y.coin.pkRandomness

/-- The transaction of a Pour. -/
def txOf (sch : SigScheme K SK S (B true)) (cod : Codec (PourOf C K)) (in0 in1 : SpendingInfo K SK S (B true)) (pour : PourOf C K) (r : Bool → S) : SignedTx S :=
  let sig0 := sch.randomizeSig (sch.sign in0.sk (cod.enc pour) (r false)) in0.coin.pkRandomness
  let sig1 := sch.randomizeSig (sch.sign in1.sk (cod.enc pour) (r true)) in1.coin.pkRandomness
  ⟨sig0.response, sig0.challenge, sig1.response, sig1.challenge, cod.enc pour⟩

theorem provePour_iff {o : ∀ p, SideO C p} {fx : Bool} {prm : SelRerand C} {sch : SigScheme K SK S (B true)} {cod : Codec (PourOf C K)} {T : CurveTree L 1 (Pts C)} {rnd : PourRand C S}
    {in0 in1 : SpendingInfo K SK S (B true)} {val0 val1 : Nat} {pk0 pk1 : K} {sE sE' : SideP C false} {sO sO' : SideP C true}
    {path0 path1 : Path (C false).Pt (C true).Pt} {c0 c1 : (C false).Pt}
    (h : pourProvers o fx prm sch T rnd in0 in1 val0 pk0 val1 pk1 sE sO = .ok ((path0, path1, c0, c1), sE', sO')) (tx : SignedTx S) :
    provePour o fx prm sch cod T rnd in0 in1 val0 pk0 val1 pk1 sE sO = .ok tx ↔
    ∃ pE trE pO trO, prove (o false) (prm.gens false) rnd.even sE' = .ok (pE, trE) ∧ prove (o true) (prm.gens true) rnd.odd sO' = .ok (pO, trO) ∧
      tx = txOf sch cod in0 in1 ⟨pE, pO, path0, path1, in0.randomizedPk, in1.randomizedPk, c0, c1⟩ rnd.sig := by
  unfold provePour
  rw [h]
  simp only
  constructor
  · intro h
    split at h
    · cases h
    rename_i pE trE e1
    split at h
    · cases h
    rename_i pO trO e2
    simp only [Except.ok.injEq] at h
    exact ⟨pE, trE, pO, trO, unwrap_ok.1 e1, unwrap_ok.1 e2, h.symm⟩
  · rintro ⟨pE, trE, pO, trO, e1, e2, rfl⟩
    rw [unwrap_ok.2 e1]
    simp only
    rw [unwrap_ok.2 e2]
    rfl

omit [∀ p, DecidableEq (B p)] [∀ p, Module (B (!p)) (C p).Pt] in
/-- A bijection of the randomness from bijections of its parts, where those for the proofs may depend on the rest. -/
theorem pourRand_equiv (fb : Bool → S → B true) (fp : Bool → ∀ p, Nat → B (!p)) (ψ : Bool → S ≃ S)
    (eE : (Bool → S) → (Bool → B true) → (Bool → ∀ p, Nat → B (!p)) → PRand (B true) ≃ PRand (B true))
    (eO : (Bool → S) → (Bool → B true) → (Bool → ∀ p, Nat → B (!p)) → PRand (B false) ≃ PRand (B false)) :
    ∃ φ : PourRand C S ≃ PourRand C S, ∀ pkr bl path even odd sig, φ ⟨pkr, bl, path, even, odd, sig⟩ =
      ⟨pkr, fun b => bl b + fb b (pkr b), fun b => path b + fp b, eE pkr bl path even, eO pkr bl path odd, fun b => ψ b (sig b)⟩ := by
  refine ⟨⟨fun r => ⟨r.pkr, fun b => r.bl b + fb b (r.pkr b), fun b => r.path b + fp b, eE r.pkr r.bl r.path r.even, eO r.pkr r.bl r.path r.odd, fun b => ψ b (r.sig b)⟩,
    fun r => ⟨r.pkr, fun b => r.bl b - fb b (r.pkr b), fun b => r.path b - fp b, (eE r.pkr (fun b => r.bl b - fb b (r.pkr b)) (fun b => r.path b - fp b)).symm r.even,
      (eO r.pkr (fun b => r.bl b - fb b (r.pkr b)) (fun b => r.path b - fp b)).symm r.odd, fun b => (ψ b).symm (r.sig b)⟩, ?_, ?_⟩, fun _ _ _ _ _ _ => rfl⟩
  · intro r
    simp
  · intro r
    simp

/-- **C51**. Two payments `a` and `b` with coins of the same tree, that use the same two (randomised) public keys. There is, for every transaction, a
bijection of the randomness of `prove_pour` under which it returns this transaction for `a` if and only if it does for `b`: each transaction is equally likely for both. So
a transaction shows neither which coins were spent, nor the amounts spent or minted, nor the keys of the receivers, only the randomised public keys of the spent coins.
What the bijection does to the scalars drawn for coins and paths is said explicitly; these must be usable (`SpendOk`) on both sides.

The challenges are assumed not to be zero. -/
theorem C51_pour_hides {prm : SelRerand C} (hv : prm.Valid) (hg : prm.tree.EnoughGens L 1) (hL : 2 ≤ L)
    (hcap : ∀ p, (prm.gens p).capacity ≤ (prm.gens p).Gs.length ∧ (prm.gens p).capacity ≤ (prm.gens p).Hs.length)
    (hb : ∀ p, prm.h p ≠ 0) (hgen : ∀ p (P : (C p).Pt), ∃ a : B (!p), P = a • prm.h p)
    {set : List (C false).Pt} {height : Option Nat} {fuel : Nat} {T : CurveTree L 1 (Pts C)}
    (ht : fromSet prm.tree set height fuel = some (.ok T)) (hfuel : set.length + height.getD 0 ≤ fuel) (h0 : T.height ≠ 0)
    (hsize : L ≤ 128 ∨ 2 ≤ T.height)
    (o : ∀ p, SideO C p) (fx : Bool) (sch : SigScheme K SK S (B true)) (cod : Codec (PourOf C K)) (hcod : ∀ pour : PourOf C K, pour.Fits → cod.dec (cod.enc pour) = some (pour, []))
    (h64 : ∀ p, (prm.gens p).capacity < 2 ^ 64)
    (hch : ∀ p (tr : Transcript (B (!p)) (C p).Pt (C (!p)).Pt), o p (tr ++ [Msg.chal "y"]) ≠ 0 ∧ o p (tr ++ [Msg.chal "u"]) ≠ 0 ∧ o p (tr ++ [Msg.chal "x"]) ≠ 0)
    {a b : Payment K SK S (B true)} (ha : a.Honest prm sch set) (hb' : b.Honest prm sch set)
    (hk0 : a.in0.randomizedPk = b.in0.randomizedPk) (hk1 : a.in1.randomizedPk = b.in1.randomizedPk) (hs0 : SignAlike sch a.in0 b.in0) (hs1 : SignAlike sch a.in1 b.in1)
    (dom : ∀ p, Transcript (B (!p)) (C p).Pt (C (!p)).Pt) (tx : SignedTx S) :
    ∃ φ : PourRand C S ≃ PourRand C S,
      (∀ rnd, (φ rnd).pkr = rnd.pkr ∧
        coinPoint (F := B (!false)) (prm.gens false) (b.val0 : B (!false)) (sch.tag (sch.randomizePk b.pk0 (rnd.pkr false))) ((φ rnd).bl false) =
          coinPoint (F := B (!false)) (prm.gens false) (a.val0 : B (!false)) (sch.tag (sch.randomizePk a.pk0 (rnd.pkr false))) (rnd.bl false) ∧
        coinPoint (F := B (!false)) (prm.gens false) (b.val1 : B (!false)) (sch.tag (sch.randomizePk b.pk1 (rnd.pkr true))) ((φ rnd).bl true) =
          coinPoint (F := B (!false)) (prm.gens false) (a.val1 : B (!false)) (sch.tag (sch.randomizePk a.pk1 (rnd.pkr true))) (rnd.bl true) ∧
        (∀ nodes nodes', T.witness prm.tree a.in0.index 0 = .ok nodes → T.witness prm.tree b.in0.index 0 = .ok nodes' →
          ∀ p k, childAt nodes' p k + (φ rnd).path false p k • prm.h p = childAt nodes p k + rnd.path false p k • prm.h p) ∧
        ∀ nodes nodes', T.witness prm.tree a.in1.index 0 = .ok nodes → T.witness prm.tree b.in1.index 0 = .ok nodes' →
          ∀ p k, childAt nodes' p k + (φ rnd).path true p k • prm.h p = childAt nodes p k + rnd.path true p k • prm.h p) ∧
      ∀ rnd, a.Usable prm T rnd → b.Usable prm T (φ rnd) → (a.run o fx prm sch cod T dom rnd = .ok tx ↔ b.run o fx prm sch cod T dom (φ rnd) = .ok tx) := by
  have idx : ∀ {i : Nat} {P : (C false).Pt}, set[i]? = some P → ∃ nodes, T.witness prm.tree i 0 = .ok nodes ∧ T.PathTo prm.tree 0 nodes ⟨false, P⟩ := by
    intro i P hi
    obtain ⟨hlt, rfl⟩ := List.getElem?_eq_some_iff.1 hi
    exact C26_witness_partial hg hL ht hfuel 0 hlt
  obtain ⟨na0, wa0, pa0⟩ := idx ha.own0.leaf
  obtain ⟨na1, wa1, pa1⟩ := idx ha.own1.leaf
  obtain ⟨nb0, wb0, pb0⟩ := idx hb'.own0.leaf
  obtain ⟨nb1, wb1, pb1⟩ := idx hb'.own1.leaf
  have hlen : ∀ {n n' : WitPath B (Pts C)} {P P' : (C false).Pt}, T.PathTo prm.tree 0 n ⟨false, P⟩ → T.PathTo prm.tree 0 n' ⟨false, P'⟩ → ∀ p, (n p).length = (n' p).length := by
    intro n n' P P' h h'
    obtain ⟨l1, l2⟩ := pathTo_lengths h
    obtain ⟨l1', l2'⟩ := pathTo_lengths h'
    exact Bool.forall_bool.2 ⟨l2.trans l2'.symm, l1.trans l1'.symm⟩
  choose lg hlg using hgen
  obtain ⟨ψ0, hψ0⟩ := hs0 tx.pourBytes
  obtain ⟨ψ1, hψ1⟩ := hs1 tx.pourBytes
  have hgl : ∀ p, L ≤ (prm.gens p).Gs.length := fun p => (Nat.mul_one L).symm.trans_le (hg p)
  -- the shifts
  obtain ⟨fb, hfb⟩ : ∃ fb : Bool → S → B true, fb = fun i x => if i then
      lg false (coinPoint (F := B (!false)) (prm.gens false) (a.val1 : B (!false)) (sch.tag (sch.randomizePk a.pk1 x)) 0 -
        coinPoint (F := B (!false)) (prm.gens false) (b.val1 : B (!false)) (sch.tag (sch.randomizePk b.pk1 x)) 0)
      else lg false (coinPoint (F := B (!false)) (prm.gens false) (a.val0 : B (!false)) (sch.tag (sch.randomizePk a.pk0 x)) 0 -
        coinPoint (F := B (!false)) (prm.gens false) (b.val0 : B (!false)) (sch.tag (sch.randomizePk b.pk0 x)) 0) := ⟨_, rfl⟩
  have hcp : ∀ (v v' t t' bl : B (!false)), coinPoint (prm.gens false) v' t' (bl + lg false (coinPoint (F := B (!false)) (prm.gens false) v t 0 -
      coinPoint (F := B (!false)) (prm.gens false) v' t' 0)) = coinPoint (prm.gens false) v t bl := by
    intro v v' t t' bl
    have := hlg false (coinPoint (F := B (!false)) (prm.gens false) v t 0 - coinPoint (F := B (!false)) (prm.gens false) v' t' 0)
    unfold coinPoint at this ⊢
    rw [add_smul]
    unfold SelRerand.h at this
    rw [← this]
    simp only [zero_smul]
    abel
  obtain ⟨fp, hfp⟩ : ∃ fp : Bool → ∀ p, Nat → B (!p), fp = fun i => if i then shift lg na1 nb1 else shift lg na0 nb0 := ⟨_, rfl⟩
  have hsh : ∀ (n n' : WitPath B (Pts C)) (r : ∀ p, Nat → B (!p)) p k, childAt n' p k + (r + shift lg n n') p k • prm.h p = childAt n p k + r p k • prm.h p := by
    intro n n' r p k
    change _ + (r p k + lg p (childAt n p k - childAt n' p k)) • prm.h p = _
    rw [add_smul, ← hlg]; abel
  have key : ∀ (pkr : Bool → S) (bl : Bool → B true) (path : Bool → ∀ p, Nat → B (!p)), ∃ (eE : PRand (B true) ≃ PRand (B true)) (eO : PRand (B false) ≃ PRand (B false)),
      SpendOk prm T a.in0.index (path false) ∧ SpendOk prm T a.in1.index (path true) → SpendOk prm T b.in0.index (path false + fp false) ∧ SpendOk prm T b.in1.index (path true + fp true) →
      ∀ even odd sig, a.run o fx prm sch cod T dom ⟨pkr, bl, path, even, odd, sig⟩ = .ok tx ↔
        b.run o fx prm sch cod T dom ⟨pkr, fun i => bl i + fb i (pkr i), fun i => path i + fp i, eE even, eO odd, fun i => (if i then ψ1 else ψ0) (sig i)⟩ = .ok tx := by
    intro pkr bl path
    by_cases hu : (SpendOk prm T a.in0.index (path false) ∧ SpendOk prm T a.in1.index (path true)) ∧
      SpendOk prm T b.in0.index (path false + fp false) ∧ SpendOk prm T b.in1.index (path true + fp true)
    swap
    · exact ⟨.refl _, .refl _, fun h h' => absurd ⟨h, h'⟩ hu⟩
    obtain ⟨⟨u1, u2⟩, u3, u4⟩ := hu
    let e0 : PRand (B true) := ⟨0, 0, 0, fun _ => 0, fun _ => 0, 0, 0, 0, fun _ => 0, fun _ => 0, fun _ => 0⟩
    let o0 : PRand (B false) := ⟨0, 0, 0, fun _ => 0, fun _ => 0, 0, 0, 0, fun _ => 0, fun _ => 0, fun _ => 0⟩
    obtain ⟨path0, path1, c0, c1, sE, sO, tE, tO, ds, hp, hc, SE, SO, GE, GO, DE, DO, hds, hsz, -⟩ := pourProvers_session (o := o) (fx := fx) hv hgl hL h0 wa0 wa1 pa0 pa1
      (rnd := ⟨pkr, bl, path, e0, o0, pkr⟩) u1 u2 ha.own0.tag ha.own1.tag ha.lt0 ha.lt1 ha.sum a.pk0 a.pk1 dom
    obtain ⟨path0', path1', c0', c1', sE', sO', tE', tO', ds', hp', hc', SE', SO', GE', GO', DE', DO', hds', hsz', -⟩ := pourProvers_session (o := o) (fx := fx) hv hgl hL h0 wb0 wb1 pb0 pb1
      (rnd := ⟨pkr, fun i => bl i + fb i (pkr i), fun i => path i + fp i, e0, o0, pkr⟩) u3 u4 hb'.own0.tag hb'.own1.tag hb'.lt0 hb'.lt1 hb'.sum b.pk0 b.pk1 dom
    obtain ⟨q0, q1, q2, q3⟩ := pourProvers_out (hL.trans (hgl false)) wa0 wa1 hp
    obtain ⟨q0', q1', q2', q3'⟩ := pourProvers_out (hL.trans (hgl false)) wb0 wb1 hp'
    have r0 : path0' = path0 := by
      rw [q0, q0', hfp]
      unfold proverPath
      simp only [Bool.false_eq_true, if_false]
      rw [← rerandomized_shift (fun p P => (hlg p P).symm) (hlen pa0 pb0) _ true, ← rerandomized_shift (fun p P => (hlg p P).symm) (hlen pa0 pb0) _ false]
    have r1 : path1' = path1 := by
      rw [q1, q1', hfp]
      unfold proverPath
      simp only [if_true]
      rw [← rerandomized_shift (fun p P => (hlg p P).symm) (hlen pa1 pb1) _ true, ← rerandomized_shift (fun p P => (hlg p P).symm) (hlen pa1 pb1) _ false]
    have r2 : c0' = c0 := by
      rw [q2, q2', hfb]
      exact hcp _ _ _ _ _
    have r3 : c1' = c1 := by
      rw [q3, q3', hfb]
      exact hcp _ _ _ _ _
    subst r0 r1 r2 r3
    have fits : ∀ {even odd pE trE pO trO}, prove (F := B (!false)) (o false) (prm.gens false) even sE = .ok (pE, trE) → prove (F := B (!true)) (o true) (prm.gens true) odd sO = .ok (pO, trO) →
        ∀ k0 k1, Pour.Fits (⟨pE, pO, path0', path1', k0, k1, c0', c1'⟩ : PourOf C K) := by
      intro even odd pE trE pO trO e1 e2 k0 k1
      have m1 := (prove_capacity DE e1).trans_lt (h64 false)
      have m2 := (prove_capacity DO e2).trans_lt (h64 true)
      obtain ⟨lgE, x1, x2, -⟩ := nextPow2_eq sE.size
      have := sE.aL_le_size
      have h2 : T.height / 2 ≤ L * (T.height / 2) := Nat.le_mul_of_pos_left _ (by omega)
      exact pour_fits (hL.trans (hgl false)) wa0 wa1 pa0 pa1 hp (by omega) (prove_fits DE (hcap false).1 (hcap false).2 e1 m1) (prove_fits DO (hcap true).1 (hcap true).2 e2 m2) k0 k1
    have fits' : ∀ {even odd pE trE pO trO}, prove (F := B (!false)) (o false) (prm.gens false) even sE' = .ok (pE, trE) → prove (F := B (!true)) (o true) (prm.gens true) odd sO' = .ok (pO, trO) →
        ∀ k0 k1, Pour.Fits (⟨pE, pO, path0', path1', k0, k1, c0', c1'⟩ : PourOf C K) := by
      intro even odd pE trE pO trO e1 e2 k0 k1
      have m1 := (prove_capacity DE' e1).trans_lt (h64 false)
      have m2 := (prove_capacity DO' e2).trans_lt (h64 true)
      obtain ⟨lgE, x1, x2, -⟩ := nextPow2_eq sE'.size
      have := sE'.aL_le_size
      have h2 : T.height / 2 ≤ L * (T.height / 2) := Nat.le_mul_of_pos_left _ (by omega)
      exact pour_fits (hL.trans (hgl false)) wb0 wb1 pb0 pb1 hp' (by omega) (prove_fits DE' (hcap false).1 (hcap false).2 e1 m1) (prove_fits DO' (hcap true).1 (hcap true).2 e2 m2) k0 k1
    have hLs : ∀ {s : SideP C false}, 128 + 2 * (L * (T.height / 2)) ≤ s.aL.length → L ≤ s.size := by
      intro s hs
      refine le_trans ?_ s.aL_le_size
      rcases hsize with h | h
      · omega
      · have : L * 1 ≤ L * (T.height / 2) := Nat.mul_le_mul_left L (by omega)
        omega
    have hx : ∀ p tr t', (challengeScalar (o p) t' "x").2 <+: tr → (challengeScalar (o p) t' "x").1 ≠ 0 := fun p tr t' _ => (hch p t').2.2
    have ht : ∀ (pE : R1CSProof (B true) (C false).Pt) (pO : R1CSProof (B false) (C true).Pt), (tE, tO) = (tE', tO') := by
      intro pE pO
      have h1 := hc pE pO
      have h2 := hc' pE pO
      rw [hk0, hk1] at h1
      exact Except.ok.inj (h1.symm.trans h2)
    rcases hdec : cod.dec tx.pourBytes with _ | ⟨pour, rest⟩
    · refine ⟨.refl _, .refl _, fun _ _ even odd sig => ?_⟩
      constructor
      · intro h
        obtain ⟨pE, trE, pO, trO, e1, e2, rfl⟩ := (provePour_iff (rnd := ⟨pkr, bl, path, even, odd, sig⟩) hp tx).1 h
        change cod.dec (cod.enc _) = none at hdec
        rw [hcod _ (fits e1 e2 _ _)] at hdec
        cases hdec
      · intro h
        obtain ⟨pE, trE, pO, trO, e1, e2, rfl⟩ := (provePour_iff (rnd := ⟨pkr, fun i => bl i + fb i (pkr i), fun i => path i + fp i, even, odd,
          fun i => (if i then ψ1 else ψ0) (sig i)⟩) hp' tx).1 h
        change cod.dec (cod.enc _) = none at hdec
        rw [hcod _ (fits' e1 e2 _ _)] at hdec
        cases hdec
    · obtain ⟨rfl, rfl⟩ := Prod.mk.inj (ht pour.evenProof pour.oddProof)
      obtain ⟨eE, hE⟩ := C40_one_phase (F := B (!false)) (o false) (prm.gens false) (hb false) (fun P => ⟨lg false P, hlg false P⟩) (hcap false).1 (hcap false).2 SE SE' DE DE'
        (PState.widen_satisfied ds GE.satisfied).2 (PState.widen_satisfied ds' GE'.satisfied).2 pour.evenProof
      obtain ⟨eO, hO⟩ := C40_one_phase (F := B (!true)) (o true) (prm.gens true) (hb true) (fun P => ⟨lg true P, hlg true P⟩) (hcap true).1 (hcap true).2 SO SO' DO DO'
        GO.satisfied.2 GO'.satisfied.2 pour.oddProof
      have hE' : ∀ tr rnd, prove (F := B (!false)) (o false) (prm.gens false) rnd sE = .ok (pour.evenProof, tr) ↔ prove (F := B (!false)) (o false) (prm.gens false) (eE rnd) sE' = .ok (pour.evenProof, tr) := by
        intro tr rnd
        rw [← prove_widen_iff (F := B (!false)) GE DE (hcap false).1 (hcap false).2 (fun j _ => (hds j).trans (hLs hsz)) (fun tr => ⟨(hch false tr).1, (hch false tr).2.1⟩),
          ← prove_widen_iff (F := B (!false)) GE' DE' (hcap false).1 (hcap false).2 (fun j _ => (hds' j).trans (hLs hsz')) (fun tr => ⟨(hch false tr).1, (hch false tr).2.1⟩)]
        exact hE tr (hx false tr) rnd
      have hsig : ∀ (pour : PourOf C K) sig, cod.enc pour = tx.pourBytes → txOf sch cod a.in0 a.in1 pour sig = txOf sch cod b.in0 b.in1 pour (fun i => (if i then ψ1 else ψ0) (sig i)) := by
        intro pour sig he
        unfold txOf
        simp only [he, hψ0, hψ1]
        rfl
      refine ⟨eE, eO, fun _ _ even odd sig => ?_⟩
      unfold Payment.run
      rw [provePour_iff (rnd := ⟨pkr, bl, path, even, odd, sig⟩) hp tx, provePour_iff (rnd := ⟨pkr, fun i => bl i + fb i (pkr i), fun i => path i + fp i, eE even, eO odd, fun i => (if i then ψ1 else ψ0) (sig i)⟩) hp' tx]
      have hpour : ∀ {x : PourOf C K} {r} {i0 i1 : SpendingInfo K SK S (B true)}, x.Fits → tx = txOf sch cod i0 i1 x r → x = pour := by
        intro x r i0 i1 hx h
        rw [h] at hdec
        change cod.dec (cod.enc x) = _ at hdec
        rw [hcod _ hx] at hdec
        simp only [Option.some.injEq, Prod.mk.injEq] at hdec
        exact hdec.1
      constructor
      · rintro ⟨pE, trE, pO, trO, e1, e2, e3⟩
        have hpr := hpour (fits e1 e2 _ _) e3
        subst hpr
        refine ⟨pE, trE, pO, trO, (hE' trE even).1 e1, (hO trO (hx true trO) odd).1 e2, ?_⟩
        rw [hk0, hk1] at e3
        rw [e3]
        refine hsig _ _ ?_
        rw [e3]
        rfl
      · rintro ⟨pE, trE, pO, trO, e1, e2, e3⟩
        have hpr := hpour (fits' e1 e2 _ _) e3
        subst hpr
        refine ⟨pE, trE, pO, trO, (hE' trE even).2 e1, (hO trO (hx true trO) odd).2 e2, ?_⟩
        rw [hk0, hk1, hsig _ _ (by rw [e3]; rfl)]
        exact e3
  choose eE eO hkey using key
  obtain ⟨φ, hφ⟩ := pourRand_equiv (C := C) fb fp (fun i => if i then ψ1 else ψ0) eE eO
  refine ⟨φ, fun rnd => ?_, fun rnd hr hr' => ?_⟩
  · obtain ⟨pkr, bl, path, even, odd, sig⟩ := rnd
    rw [hφ]
    refine ⟨rfl, ?_, ?_, ?_, ?_⟩
    · simp only [hfb]; exact hcp _ _ _ _ _
    · simp only [hfb]; exact hcp _ _ _ _ _
    · intro n n' h h' p k
      cases Except.ok.inj (wa0.symm.trans h)
      cases Except.ok.inj (wb0.symm.trans h')
      simp only [hfp]
      exact hsh _ _ _ _ _
    · intro n n' h h' p k
      cases Except.ok.inj (wa1.symm.trans h)
      cases Except.ok.inj (wb1.symm.trans h')
      simp only [hfp]
      exact hsh _ _ _ _ _
  · obtain ⟨pkr, bl, path, even, odd, sig⟩ := rnd
    rw [hφ] at hr' ⊢
    exact hkey pkr bl path hr hr' even odd sig

end CT
