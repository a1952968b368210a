import Verif.Proofs.Silent
import Verif.Model.Coin

/-! # Gadgets that ask for no challenge

The circuits of a path and of a payment are built before the first challenge is drawn, so they are the same for all challenges. -/

namespace CT
set_option linter.unusedSectionVars false

section
variable {F G X : Type}

/-- The program asks for no challenge. -/
def Prog.Quiet {α : Type} : Prog F G X α → Prop
  | .pure _ => True
  | .fail _ => True
  | .multiply _ _ k => ∀ v, (k v).Quiet
  | .allocate _ k => ∀ v, (k v).Quiet
  | .allocateMultiplier _ k => ∀ v, (k v).Quiet
  | .constrain _ k => k.Quiet
  | .append _ k => k.Quiet
  | .challenge _ _ => False

theorem Prog.Silent.quiet {α : Type} {p : Prog F G X α} (h : p.Silent) : p.Quiet := by
  induction p with
  | pure a => trivial
  | fail e => trivial
  | multiply l r k ih => exact fun v => ih v (h v)
  | allocate a k ih => exact fun v => ih v (h v)
  | allocateMultiplier a k ih => exact fun v => ih v (h v)
  | constrain lc k ih => exact ih h
  | append m k ih => exact h.elim
  | challenge l k ih => exact h.elim

variable [Field F] [AddCommGroup G] [Module F G] [DecidableEq F] [DecidableEq G]

theorem Prog.Quiet.runP_eq {α : Type} {p : Prog F G X α} (h : p.Quiet) (o o' : Oracle F G X) : ∀ s, runP o p s = runP o' p s := by
  induction p with
  | pure a => intro s; rfl
  | fail e => intro s; rfl
  | multiply l r k ih => intro s; simp only [runP]; split <;> first | rfl | exact ih _ (h _) _
  | allocate a k ih => intro s; simp only [runP]; split <;> first | rfl | exact ih _ (h _) _
  | allocateMultiplier a k ih => intro s; simp only [runP]; split <;> first | rfl | exact ih _ (h _) _
  | constrain lc k ih => intro s; simp only [runP]; exact ih h _
  | append m k ih => intro s; simp only [runP]; exact ih h _
  | challenge l k ih => exact h.elim

theorem Prog.Quiet.runV_eq {α : Type} {p : Prog F G X α} (h : p.Quiet) (o o' : Oracle F G X) : ∀ s, runV o p s = runV o' p s := by
  induction p with
  | pure a => intro s; rfl
  | fail e => intro s; rfl
  | multiply l r k ih => intro s; simp only [runV]; exact ih _ (h _) _
  | allocate a k ih => intro s; simp only [runV]; exact ih _ (h _) _
  | allocateMultiplier a k ih => intro s; simp only [runV]; exact ih _ (h _) _
  | constrain lc k ih => intro s; simp only [runV]; exact ih h _
  | append m k ih => intro s; simp only [runV]; exact ih h _
  | challenge l k ih => exact h.elim

theorem silent_rangeLoop (q : Option Nat) : ∀ (k i : Nat) (e : F) (v : LC F), (rangeLoop q k i e v : Prog F G X _).Silent
  | 0, i, e, v => by unfold rangeLoop; trivial
  | k + 1, i, e, v => by
    unfold rangeLoop
    refine (silent_orPanic _ _).bind fun _ => (silent_allocateMultiplier _).bind fun _ => ?_
    exact (silent_constrain _).bind fun _ => (silent_constrain _).bind fun _ => silent_rangeLoop q k _ _ _

theorem silent_rangeProof (v : LC F) (q : Option Nat) (n : Nat) : (rangeProof v q n : Prog F G X _).Silent := by
  unfold rangeProof
  exact (silent_rangeLoop _ _ _ _ _).bind fun _ => silent_constrain _

theorem quiet_singleLevel (C : SWCurve F) (fx : Bool) (prm : LayerParams C) (rc : C.Pt) (children : List (LC F)) (w : Option C.Pt) (r : Option Nat) :
    (singleLevel C fx prm rc children w r : Prog F G C.Pt Unit).Quiet := by
  unfold singleLevel
  have : Prog.Silent (G := G) (X := C.Pt) (do
    let xVar ← allocate (w.map C.xField)
    select (LC.ofVar xVar) children
    let yVar ← allocate (w.map C.yField)
    curveCheck (LC.ofVar xVar) (LC.ofVar yVar) C.a C.b
    reRandomize C fx prm.lambda prm.tables ⟨LC.ofVar xVar, LC.ofVar yVar, w⟩
      (LC.const (C.xField (rc + prm.delta))) (LC.const (C.yField (rc + prm.delta))) r) :=
    (silent_allocate _).bind fun _ => (silent_select _ _).bind fun _ => (silent_allocate _).bind fun _ => (silent_curveCheck _ _ _ _).bind fun _ =>
      silent_reRandomize _ _ _ _ _ _ _ _
  exact this.quiet

end

section
variable {F G X K SK S : Type} [Field F] [DecidableEq F] [AddCommGroup G] [DecidableEq G] [Module F G]

theorem mint_oracle (o o' : Oracle F G X) (sch : SigScheme K SK S F) (g : Gens G) (value : Nat) (pk : K) (pkr : S) (bl : F) (s : PState F G X) :
    mint o sch g value pk pkr bl s = mint o' sch g value pk pkr bl s := by
  unfold mint
  simp only [fun v s => (silent_rangeProof (G := G) (X := X) (LC.ofVar v : LC F) (some value) 64).quiet.runP_eq o o' s]

theorem verifyMint_oracle (o o' : Oracle F G X) (comm : G) (s : VState F G X) : verifyMint o comm s = verifyMint o' comm s := by
  unfold verifyMint
  simp only [fun v s => (silent_rangeProof (G := G) (X := X) (LC.ofVar v : LC F) none 64).quiet.runV_eq o o' s]

end

section
variable {B : Bool → Type} [∀ p, Field (B p)] [∀ p, DecidableEq (B p)] {C : ∀ p, SWCurve (B p)} [∀ p, Module (B (!p)) (C p).Pt] {L M : Nat} {K SK S : Type}

theorem proverLevel_oracle {p : Bool} (o o' : SideO C p) (fx : Bool) (prm : SelRerand C) (w : Wit B (Pts C) p) (a : B (!p)) (b : B (!!p)) (s : SideP C p) :
    proverLevel o fx prm w a b s = proverLevel o' fx prm w a b s := by
  unfold proverLevel
  simp only [fun c ch w r s => (quiet_singleLevel (G := (C p).Pt) (C (!p)) fx (prm.layer (!p)) c ch w r).runP_eq o o' s]

theorem proverLoop_oracle {p : Bool} (o o' : SideO C p) (fx : Bool) (prm : SelRerand C) (nodes : WitPath B (Pts C)) (rnd : ∀ p, Nat → B (!p)) :
    ∀ (ws : List (Wit B (Pts C) p)) (i : Nat) (s : SideP C p), proverLoop o fx prm nodes rnd i ws s = proverLoop o' fx prm nodes rnd i ws s
  | [], i, s => rfl
  | w :: ws, i, s => by
    unfold proverLoop
    simp only [proverLevel_oracle o o', proverLoop_oracle o o' fx prm nodes rnd ws]

theorem treeProver_oracle (oE oE' : SideO C false) (oO oO' : SideO C true) (fx : Bool) (prm : SelRerand C) (rnd : ∀ p, Nat → B (!p)) (t : CurveTree L M (Pts C))
    (i : Nat) (j : Fin M) (sE : SideP C false) (sO : SideP C true) :
    treeProverGadget oE oO fx prm rnd t i j sE sO = treeProverGadget oE' oO' fx prm rnd t i j sE sO := by
  unfold treeProverGadget pathProverGadget
  simp only [proverLoop_oracle oE oE', proverLoop_oracle oO oO']

theorem verifierLoop_oracle [NeZero M] {p : Bool} (o o' : SideO C p) (fx : Bool) (prm : SelRerand C) (t : CurveTree L M (Pts C)) (rootHere : Bool)
    (child : Nat → Option (C (!p)).Pt) : ∀ (l : List (C p).Pt) (i : Nat) (s : SideV C p),
    verifierLoop o fx prm t rootHere child i l s = verifierLoop o' fx prm t rootHere child i l s
  | [], i, s => rfl
  | a :: l, i, s => by
    unfold verifierLoop
    simp only [fun c ch w r s => (quiet_singleLevel (G := (C p).Pt) (C (!p)) fx (prm.layer (!p)) c ch w r).runV_eq o o' s,
      verifierLoop_oracle o o' fx prm t rootHere child l]

theorem treeVerifier_oracle [NeZero M] (oE oE' : SideO C false) (oO oO' : SideO C true) (fx : Bool) (prm : SelRerand C) (t : CurveTree L M (Pts C))
    (path : Path (C false).Pt (C true).Pt) (sE : SideV C false) (sO : SideV C true) :
    treeVerifierGadget oE oO fx prm t path sE sO = treeVerifierGadget oE' oO' fx prm t path sE sO := by
  unfold treeVerifierGadget evenVerifierGadget oddVerifierGadget
  simp only [verifierLoop_oracle oE oE', verifierLoop_oracle oO oO']

theorem pourProvers_oracle (o o' : ∀ p, SideO C p) (fx : Bool) (prm : SelRerand C) (sch : SigScheme K SK S (B true)) (T : CurveTree L 1 (Pts C))
    (rnd : PourRand C S) (in0 in1 : SpendingInfo K SK S (B true)) (val0 : Nat) (pk0 : K) (val1 : Nat) (pk1 : K) (sE : SideP C false) (sO : SideP C true) :
    pourProvers o fx prm sch T rnd in0 in1 val0 pk0 val1 pk1 sE sO = pourProvers o' fx prm sch T rnd in0 in1 val0 pk0 val1 pk1 sE sO := by
  unfold pourProvers proveSpend
  simp only [mint_oracle (o false) (o' false), treeProver_oracle (o false) (o' false) (o true) (o' true)]

theorem pourCircuits_oracle (o o' : ∀ p, SideO C p) (fx : Bool) (prm : SelRerand C) (tag : K → B true) (T : CurveTree L 1 (Pts C))
    (dom : ∀ p, Transcript (B (!p)) (C p).Pt (C (!p)).Pt) (pour : PourOf C K) :
    pourCircuits o fx prm tag T dom pour = pourCircuits o' fx prm tag T dom pour := by
  unfold pourCircuits pourEvenCircuit pourOddCircuit verifySpendEven evenVerifierGadget oddVerifierGadget
  simp only [verifyMint_oracle (o false) (o' false), verifierLoop_oracle (o false) (o' false), verifierLoop_oracle (o true) (o' true)]

end
end CT
