import Verif.Proofs.OddPath
import Verif.Props.Membership
import Verif.Proofs.Curve19

/-! # C22: repairing `re_randomize` is not enough

The Verifier of a path commits, on each of the two curves, to one vector for every node but the root. If their number is
odd on a curve, the proofs for that curve are not sound (`C09_odd_commitments_forgery`). The forger runs the Prover's
code on a path that leaves the tree: a node whose child is the root of a tree of its own. The product in `select` on that level is not
zero; the forger changes the output of the last multiplication to zero (`PState.patch`) and makes the proof with `forge`. -/

namespace CT
variable {B : Bool → Type} [∀ p, Field (B p)] [∀ p, DecidableEq (B p)] {C : ∀ p, SWCurve (B p)}
  [∀ p, Module (B (!p)) (C p).Pt] {L M : Nat} [NeZero M]

/-- The path of a forger with its own tree `T'` and a path `nodes'` in it: the children of the root of `T`, with the root of
`T'` in place of one of them; then the path in `T'`. -/
def leaveAtRoot (prm : SelRerand C) (T T' : CurveTree L M (Pts C)) (nodes' : WitPath B (Pts C)) : WitPath B (Pts C) :=
  match T, T' with
  | .even (.branch _ ch _ _), .odd n' =>
    fun | false => ⟨xCoordinates prm.tree ch 0, n'.commitment 0⟩ :: nodes' false | true => nodes' true
  | .odd (.branch _ ch _ _), .even n' =>
    fun | false => nodes' false | true => ⟨xCoordinates prm.tree ch 0, n'.commitment 0⟩ :: nodes' true
  | _, _ => nodes'

/-- The path of a forger that leaves the path `nodes` of a tree with an even root one level below the root. -/
def leaveBelowRoot (nodes : WitPath B (Pts C)) (T' : CurveTree L M (Pts C)) (nodes' : WitPath B (Pts C)) : WitPath B (Pts C) :=
  match nodes false, nodes true, T' with
  | x :: _, y :: _, .even n' =>
    fun | false => x :: nodes' false | true => ⟨y.siblings, n'.commitment 0⟩ :: nodes' true
  | _, _, _ => nodes'

/-- A Prover in the state `s` makes proofs that a Verifier in the state `t` accepts, whatever its random scalar. -/
def ForgesFor {F G X : Type} [Field F] [AddCommGroup G] [Module F G] [DecidableEq F] [DecidableEq G] (o : Oracle F G X) (g : Gens G)
    (s : PState F G X) (t : VState F G X) : Prop :=
  g.capacity ≤ g.Gs.length → g.capacity ≤ g.Hs.length → nextPow2 s.size < 2 ^ 32 →
    ∀ rnd p tr, forge o g rnd s = .ok (p, tr) → p.NoIdentity s.vecOpen.length → ∀ r, verify o g r p t = .ok ()

theorem patch_size {F G X : Type} [Field F] (L : Nat) (b : Bool) (s : PState F G X) :
    (s.patch L b).size = s.size ∧ (s.patch L b).vecOpen = s.vecOpen := by
  cases b <;> exact ⟨rfl, rfl⟩

omit [∀ p, DecidableEq (B p)] [∀ p, Module (B (!p)) (C p).Pt] in
theorem last_open {p : Bool} {l : List (B (!p) × List (B (!p)))} {ns : List (Wit B (Pts C) p)} {k : Nat}
    (h : l.map (·.2) = ns.map (·.siblings)) (hodd : ns.length % 2 = 1)
    (hlast : ∀ x, ns.getLast? = some x → x.siblings.getD k 0 ≠ 0) :
    l.length % 2 = 1 ∧ (l.getD (l.length - 1) (0, [])).2.getD k 0 ≠ 0 := by
  have hl : l.length = ns.length := by simpa using congrArg List.length h
  refine ⟨by rw [hl]; exact hodd, ?_⟩
  have hlt : l.length - 1 < l.length := by omega
  have hlt' : l.length - 1 < ns.length := by omega
  have e := congrArg (·[l.length - 1]?) h
  simp only [List.getElem?_map, List.getElem?_eq_getElem hlt, List.getElem?_eq_getElem hlt', Option.map_some,
    Option.some.injEq] at e
  rw [show l.getD (l.length - 1) (0, []) = l[l.length - 1] from by
    rw [List.getD_eq_getElem?_getD, List.getElem?_eq_getElem hlt, Option.getD_some], e]
  refine hlast _ ?_
  rw [List.getLast?_eq_getElem?, ← hl, List.getElem?_eq_getElem hlt']

/-- **C22 is false of the code even if `re_randomize` is repaired** (`fx = true`; the theorem holds for both). Take any tree `T` made
by `from_set`, of height `0` or `3` modulo `4`, and *any* other tree `T'` one level less high, made by the forger from leaves of its
choice. For every leaf of `T'` the Verifier's gadget for `T` accepts the path below, returns that leaf re-randomised, and the forger
makes proofs that are accepted on both curves. -/
theorem C22_repaired_forgery (fx : Bool) {prm : SelRerand C} (hv : prm.Valid) (hg : prm.tree.EnoughGens L M) (hL : 2 ≤ L)
    {set : List (C false).Pt} {height : Option Nat} {fuel : Nat} {T : CurveTree L M (Pts C)} (hne : set ≠ [])
    (ht : fromSet prm.tree set height fuel = some (.ok T)) (hfuel : set.length + height.getD 0 ≤ fuel)
    {set' : List (C false).Pt} {height' : Option Nat} {fuel' : Nat} {T' : CurveTree L M (Pts C)}
    (ht' : fromSet prm.tree set' height' fuel' = some (.ok T')) (hfuel' : set'.length + height'.getD 0 ≤ fuel')
    (hh : T.height = T'.height + 1) (h4 : T.height % 4 = 0 ∨ T.height % 4 = 3)
    {i : Nat} (hi : i < set'.length) {nodes' : WitPath B (Pts C)} (hw' : T'.witness prm.tree i 0 = .ok nodes')
    {rnd : ∀ p, Nat → B (!p)} (hE : ∀ j, j + 1 < (T.height + 1) / 2 → rnd false j ≠ 0) (hO : ∀ j < T.height / 2, rnd true j ≠ 0)
    (hav : ∀ p (k : Nat) w, (leaveAtRoot prm T T' nodes' p)[k]? = some w → prm.Avoids (!p) w.child (rnd (!p) k))
    (hlast : ∀ w, (nodes' (T.height % 2 == 1)).getLast? = some w → w.siblings.getD (L - 1) 0 ≠ 0)
    (oE : SideO C false) (oO : SideO C true)
    (trE : Transcript (B (!false)) (C false).Pt (C (!false)).Pt) (trO : Transcript (B (!true)) (C true).Pt (C (!true)).Pt) :
    ∃ (path : Path (C false).Pt (C true).Pt) (r : B (!false)) (sE : SideP C false) (sO : SideP C true) (tE : SideV C false)
      (tO : SideV C true),
      pathProverGadget oE oO fx prm rnd (leaveAtRoot prm T T' nodes') (.new trE) (.new trO) = .ok ((path, r), sE, sO) ∧
      treeVerifierGadget oE oO fx prm T path (.new trE) (.new trO) = .ok (set'[i] + r • prm.h false, tE, tO) ∧
      ForgesFor oE (prm.gens false) (sE.patch L (T.height % 2 == 0)) tE ∧
      ForgesFor oO (prm.gens true) (sO.patch L (T.height % 2 == 1)) tO := by
  have hM : 1 ≤ M := Nat.one_le_iff_ne_zero.2 (NeZero.ne M)
  have hg' : ∀ p, L ≤ (prm.gens p).Gs.length := fun p => le_trans (Nat.le_mul_of_pos_right L hM) (hg p)
  obtain ⟨nodes, -, hT⟩ := C26_witness_partial hg hL ht hfuel 0 (i := 0) (List.length_pos_of_ne_nil hne)
  obtain ⟨nodes'', e, hT'⟩ := C26_witness_partial hg hL ht' hfuel' 0 hi
  obtain rfl := Except.ok.inj (hw'.symm.trans e)
  obtain ⟨l1, l2⟩ := pathTo_lengths hT
  obtain ⟨l1', l2'⟩ := pathTo_lengths hT'
  cases T with
  | even n =>
    cases T' with
    | even n' =>
      obtain ⟨w, rfl, -, a2, a3⟩ := hT
      obtain ⟨w', rfl, -, b2, b3⟩ := hT'
      have k1 := even_lengths (aligned w _ a2)
      have k2 := even_lengths (aligned w' _ b2)
      omega
    | odd n' =>
      obtain ⟨w, rfl, a1, a2, a3⟩ := hT
      obtain ⟨w', rfl, b1, b2, b3⟩ := hT'
      have k1 := even_lengths (aligned w _ a2)
      cases w with
      | nil =>
        have : n.height = 0 := by rw [← a3]; rfl
        change n.height = n'.height + 1 at hh
        omega
      | cons x rest =>
      cases n with
      | leaf c => exact absurd a1 (by simp [WPath.Along])
      | branch comm ch h el =>
      have hx := a1.1
      set T := CurveTree.even (Node.branch comm ch h el) with hTdef
      have hnodes : leaveAtRoot prm T (.odd n') w'.nodes =
          (WPath.cons ⟨xCoordinates prm.tree ch 0, n'.commitment 0⟩ w' : WPath B (Pts C) false).nodes := by
        funext q; cases q <;> rfl
      have hpar : T.height % 2 = 0 := by omega
      have hb0 : (T.height % 2 == 0) = true := by simp [hpar]
      have hb1 : (T.height % 2 == 1) = false := by simp [hpar]
      rw [hb1] at hlast
      rw [hnodes] at hav
      have hcount : ((w'.nodes false).length) % 2 = 1 := by omega
      have hfr := from_nodes b2
      obtain ⟨path, r, sE, sO, tE, tO, c1, c2, c3, c4, c5, c6, c7, c8, c9, -⟩ := even_path_odd oE oO fx hv hg' hL
        (n := .branch comm ch h el) (w := .cons ⟨xCoordinates prm.tree ch 0, n'.commitment 0⟩ w') (leaf := set'[i])
        (by
          intro y hy
          simp only [WPath.nodes, Function.update_self, List.getElem?_cons_zero, Option.some.injEq] at hy
          subst hy; rfl)
        ⟨by rw [← hx]; exact a2.1, by
          have := a2.2.1
          rw [hx] at this
          simpa only [Fin.val_zero, Nat.zero_mul, Nat.zero_add] using this, b2.commits⟩ (by simp [WPath.length])
        (rnd := rnd) (fun j hj => hE j (by
          rw [← hnodes] at hj
          change j + 1 < (w'.nodes true).length at hj
          rw [l1'] at hj; omega))
        (fun j hj => hO j (by
          rw [← hnodes] at hj
          change j < (w'.nodes false).length + 1 at hj
          rw [l2'] at hj; omega)) false
        (by
          intro q k y hy hk
          rw [← hnodes] at hy
          cases q with
          | false =>
            cases k with
            | zero => exact absurd rfl (hk rfl)
            | succ k => exact (hfr false k y hy).2
          | true => exact (hfr true k y hy).2) hav trE trO
      rw [← hnodes] at c1
      refine ⟨path, r, sE, sO, tE, tO, c1, c2, ?_, ?_⟩
      · rw [hb0]
        intro g1 g2 g3 rnd' p tr hp hne r
        rw [(patch_size L _ sE).1] at g3
        rw [(patch_size L _ sE).2] at hne
        refine patch_accepted c3 g1 g2 c5 c7 (fun _ => ?_) g3 hp hne r
        exact last_open (C := C) (p := false) (by rw [c9 rfl]; rfl) hcount hlast
      · rw [hb1]
        intro g1 g2 g3 rnd' p tr hp hne r
        exact patch_accepted c4 g1 g2 c6 c8 (by simp) g3 hp hne r
  | odd n =>
    cases T' with
    | odd n' =>
      obtain ⟨w, rfl, -, a2, a3⟩ := hT
      obtain ⟨w', rfl, -, b2, b3⟩ := hT'
      have k1 := odd_lengths (aligned w _ a2)
      have k2 := odd_lengths (aligned w' _ b2)
      omega
    | even n' =>
      obtain ⟨w, rfl, a1, a2, a3⟩ := hT
      obtain ⟨w', rfl, b1, b2, b3⟩ := hT'
      have k1 := odd_lengths (aligned w _ a2)
      cases w with
      | nil =>
        have : n.height = 0 := by rw [← a3]; rfl
        change n.height = n'.height + 1 at hh
        omega
      | cons x rest =>
      cases n with
      | leaf c => exact absurd a1 (by simp [WPath.Along])
      | branch comm ch h el =>
      have hx := a1.1
      set T := CurveTree.odd (Node.branch comm ch h el) with hTdef
      have hnodes : leaveAtRoot prm T (.even n') w'.nodes =
          (WPath.cons ⟨xCoordinates prm.tree ch 0, n'.commitment 0⟩ w' : WPath B (Pts C) true).nodes := by
        funext q; cases q <;> rfl
      have hpar : T.height % 2 = 1 := by omega
      have hb0 : (T.height % 2 == 0) = false := by simp [hpar]
      have hb1 : (T.height % 2 == 1) = true := by simp [hpar]
      rw [hb1] at hlast
      rw [hnodes] at hav
      have hcount : ((w'.nodes true).length) % 2 = 1 := by omega
      have hfr := from_nodes b2
      obtain ⟨path, r, sE, sO, tE, tO, c1, c2, c3, c4, c5, c6, c7, c8, c9⟩ := odd_path_odd oE oO fx hv hg' hL
        (n := .branch comm ch h el) (w := .cons ⟨xCoordinates prm.tree ch 0, n'.commitment 0⟩ w') (leaf := set'[i])
        (by
          intro y hy
          simp only [WPath.nodes, Function.update_self, List.getElem?_cons_zero, Option.some.injEq] at hy
          subst hy; rfl)
        ⟨by rw [← hx]; exact a2.1, by
          have := a2.2.1
          rw [hx] at this
          simpa only [Fin.val_zero, Nat.zero_mul, Nat.zero_add] using this, b2.commits⟩
        (rnd := rnd) (fun j hj => hE j (by
          rw [← hnodes] at hj
          change j + 1 < (w'.nodes true).length + 1 at hj
          rw [l1'] at hj; omega))
        (fun j hj => hO j (by
          rw [← hnodes] at hj
          change j < (w'.nodes false).length at hj
          rw [l2'] at hj; omega))
        (by
          intro q k y hy hk
          rw [← hnodes] at hy
          cases q with
          | true =>
            cases k with
            | zero => exact absurd rfl (hk rfl)
            | succ k => exact (hfr true k y hy).2
          | false => exact (hfr false k y hy).2) hav trE trO
      rw [← hnodes] at c1
      refine ⟨path, r, sE, sO, tE, tO, c1, c2, ?_, ?_⟩
      · rw [hb0]
        intro g1 g2 g3 rnd' p tr hp hne r
        exact patch_accepted c3 g1 g2 c5 c7 (by simp) g3 hp hne r
      · rw [hb1]
        intro g1 g2 g3 rnd' p tr hp hne r
        rw [(patch_size L _ sO).1] at g3
        rw [(patch_size L _ sO).2] at hne
        refine patch_accepted c4 g1 g2 c6 c8 (fun _ => ?_) g3 hp hne r
        exact last_open (C := C) (p := true) (by rw [c9]; rfl) hcount hlast


/-- The same for trees `T` of height `2` modulo `4`: the forged path follows a path of `T` for one level, and the forger's tree `T'` is
two levels less high. Together with `C22_repaired_forgery`, the trees left are those with height `1` modulo `4`, where the number of
commitments is even on both curves. -/
theorem C22_repaired_forgery_below (fx : Bool) {prm : SelRerand C} (hv : prm.Valid) (hg : prm.tree.EnoughGens L M) (hL : 2 ≤ L)
    {set : List (C false).Pt} {height : Option Nat} {fuel : Nat} {T : CurveTree L M (Pts C)}
    (ht : fromSet prm.tree set height fuel = some (.ok T)) (hfuel : set.length + height.getD 0 ≤ fuel)
    {set' : List (C false).Pt} {height' : Option Nat} {fuel' : Nat} {T' : CurveTree L M (Pts C)}
    (ht' : fromSet prm.tree set' height' fuel' = some (.ok T')) (hfuel' : set'.length + height'.getD 0 ≤ fuel')
    (hh : T.height = T'.height + 2) (h4 : T.height % 4 = 2)
    {j : Nat} (hj : j < set.length) {nodes : WitPath B (Pts C)} (hw : T.witness prm.tree j 0 = .ok nodes)
    {i : Nat} (hi : i < set'.length) {nodes' : WitPath B (Pts C)} (hw' : T'.witness prm.tree i 0 = .ok nodes')
    {rnd : ∀ p, Nat → B (!p)} (hE : ∀ j, j + 1 < (T.height + 1) / 2 → rnd false j ≠ 0) (hO : ∀ j < T.height / 2, rnd true j ≠ 0)
    (hav : ∀ p (k : Nat) w, (leaveBelowRoot nodes T' nodes' p)[k]? = some w → prm.Avoids (!p) w.child (rnd (!p) k))
    (hlast : ∀ w, (leaveBelowRoot nodes T' nodes' true).getLast? = some w → w.siblings.getD (L - 1) 0 ≠ 0)
    (oE : SideO C false) (oO : SideO C true)
    (trE : Transcript (B (!false)) (C false).Pt (C (!false)).Pt) (trO : Transcript (B (!true)) (C true).Pt (C (!true)).Pt) :
    ∃ (path : Path (C false).Pt (C true).Pt) (r : B (!false)) (sE : SideP C false) (sO : SideP C true) (tE : SideV C false)
      (tO : SideV C true),
      pathProverGadget oE oO fx prm rnd (leaveBelowRoot nodes T' nodes') (.new trE) (.new trO) = .ok ((path, r), sE, sO) ∧
      treeVerifierGadget oE oO fx prm T path (.new trE) (.new trO) = .ok (set'[i] + r • prm.h false, tE, tO) ∧
      ForgesFor oE (prm.gens false) sE tE ∧ ForgesFor oO (prm.gens true) (sO.patch L true) tO := by
  have hM : 1 ≤ M := Nat.one_le_iff_ne_zero.2 (NeZero.ne M)
  have hg' : ∀ p, L ≤ (prm.gens p).Gs.length := fun p => le_trans (Nat.le_mul_of_pos_right L hM) (hg p)
  obtain ⟨nodes1, e1, hT⟩ := C26_witness_partial hg hL ht hfuel 0 hj
  obtain rfl := Except.ok.inj (hw.symm.trans e1)
  obtain ⟨nodes'', e, hT'⟩ := C26_witness_partial hg hL ht' hfuel' 0 hi
  obtain rfl := Except.ok.inj (hw'.symm.trans e)
  obtain ⟨l1, l2⟩ := pathTo_lengths hT
  obtain ⟨l1', l2'⟩ := pathTo_lengths hT'
  cases T with
  | odd n =>
    obtain ⟨w, rfl, -, a2, a3⟩ := hT
    have k1 := odd_lengths (aligned w _ a2)
    omega
  | even n =>
    cases T' with
    | odd n' =>
      obtain ⟨w', rfl, -, b2, b3⟩ := hT'
      have k1 := odd_lengths (aligned w' _ b2)
      omega
    | even n' =>
      obtain ⟨w, rfl, a1, a2, a3⟩ := hT
      obtain ⟨w', rfl, b1, b2, b3⟩ := hT'
      change n.height = n'.height + 2 at hh
      cases w with
      | nil => have : n.height = 0 := by rw [← a3]; rfl
               omega
      | cons x rest =>
      cases rest with
      | nil => have : n.height = 1 := by rw [← a3]; rfl
               omega
      | cons y rest =>
      set T := CurveTree.even n with hTdef
      have hnodes : leaveBelowRoot (WPath.cons x (.cons y rest) : WPath B (Pts C) false).nodes (.even n' : CurveTree L M (Pts C)) w'.nodes =
          (WPath.cons x (.cons ⟨y.siblings, n'.commitment 0⟩ w') : WPath B (Pts C) false).nodes := by
        funext q; cases q <;> rfl
      rw [hnodes] at hav hlast
      have hcount : ((w'.nodes true).length + 1) % 2 = 1 := by
        change n.height % 4 = 2 at h4
        change _ = (n'.height + 1) / 2 at l1'
        omega
      have hfr := from_nodes b2
      obtain ⟨path, r, sE, sO, tE, tO, c1, c2, c3, c4, c5, c6, c7, c8, -, c9⟩ := even_path_odd oE oO fx hv hg' hL
        (n := n) (w := .cons x (.cons ⟨y.siblings, n'.commitment 0⟩ w')) (leaf := set'[i])
        (by
          have := rootAlong_even a1
          intro z hz
          exact this z hz)
        ⟨a2.commits.1, a2.commits.2.1, a2.commits.2.2.1, a2.commits.2.2.2.1, b2.commits⟩ (by simp [WPath.length])
        (rnd := rnd) (fun j hj => hE j (by
          rw [← hnodes] at hj
          change j + 1 < (w'.nodes true).length + 1 at hj
          rw [l1'] at hj
          change _ < (n.height + 1) / 2
          change _ < (n'.height + 1) / 2 + 1 at hj
          omega))
        (fun j hj => hO j (by
          rw [← hnodes] at hj
          change j < (w'.nodes false).length + 1 at hj
          rw [l2'] at hj
          change _ < (n.height) / 2
          change _ < (n'.height) / 2 + 1 at hj
          omega)) true
        (by
          intro q k z hz hk
          rw [← hnodes] at hz
          cases q with
          | true =>
            cases k with
            | zero => exact absurd rfl (hk rfl)
            | succ k => exact (hfr true k z hz).2
          | false =>
            cases k with
            | zero => exact (from_nodes a2 false 0 z hz).2
            | succ k => exact (hfr false k z hz).2) hav trE trO
      rw [← hnodes] at c1
      refine ⟨path, r, sE, sO, tE, tO, c1, c2, ?_, ?_⟩
      · intro g1 g2 g3 rnd' p tr hp hne r
        exact patch_accepted (L := L) (b := false) c3 g1 g2 c5 c7 (by simp) g3 hp hne r
      · intro g1 g2 g3 rnd' p tr hp hne r
        rw [(patch_size L _ sO).1] at g3
        rw [(patch_size L _ sO).2] at hne
        refine patch_accepted c4 g1 g2 c6 c8 (fun _ => ?_) g3 hp hne r
        exact last_open (C := C) (p := true) (c9 rfl) hcount hlast

end CT

namespace CT.Curve19

/-- The forger's tree: one leaf, `8h`, which is not one of the leaves of `T`. -/
def loneTree : CurveTree 2 1 (Pts Cs) := .even (.leaf (8 • h))

/-- The forged path: leaf `0` of `T` replaced by the forger's leaf. -/
def lonePath : WitPath B (Pts Cs) := leaveBelowRoot nodes_0 loneTree (fun _ => [])

-- the hypotheses of `C22_repaired_forgery_below` hold for it, with repaired code
example : (8 • h : C.Pt) ∉ Curve19.set ∧ ∃ (path : Path C.Pt C.Pt) (r : ZMod 19) (sE : SideP Cs false) (sO : SideP Cs true)
    (tE : SideV Cs false) (tO : SideV Cs true),
    pathProverGadget (o false) (o true) true prm rnd lonePath (.new []) (.new []) = .ok ((path, r), sE, sO) ∧
    treeVerifierGadget (o false) (o true) true prm T path (.new []) (.new []) = .ok (8 • h + r • h, tE, tO) ∧
    ForgesFor (o false) (prm.gens false) sE tE ∧ ForgesFor (o true) (prm.gens true) (sO.patch 2 true) tO := by
  refine ⟨by decide +kernel, ?_⟩
  have ht' : fromSet (L := 2) (M := 1) prm.tree [8 • h] none 10 = some (.ok loneTree) := rfl
  have hav : ∀ q (k : Nat) w, (lonePath q)[k]? = some w → prm.Avoids (!q) w.child (rnd (!q) k) := by
    have key : ∀ p, ∀ w ∈ (lonePath p).map (·.child), prm.Avoids (!p) w (rnd (!p) 0) := by decide +kernel
    intro p k w hw
    exact key p _ (List.mem_map.2 ⟨w, List.mem_of_getElem? hw, rfl⟩)
  exact C22_repaired_forgery_below true valid tree_gens le_rfl fromSet_T (by decide) ht' (by decide) (by rw [height_T]; rfl)
    (by rw [height_T]) (j := 0) (by decide) witness_0 (i := 0) (by decide) rfl (rnd := rnd) (fun _ _ => by change (5 : ZMod 19) ≠ 0; decide)
    (fun _ _ => by change (2 : ZMod 19) ≠ 0; decide) hav (by decide +kernel) (o false) (o true) [] []

end CT.Curve19
