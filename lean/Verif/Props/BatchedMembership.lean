import Verif.Props.BatchedTree
import Verif.Props.Membership
import Verif.Proofs.BatchedMembership
import Verif.Proofs.BatchedForge

/-! # Membership: what an accepted batch of paths proves -/

namespace CT

section
variable {B : Bool → Type} [∀ p, Field (B p)] [∀ p, DecidableEq (B p)] {C : ∀ p, SWCurve (B p)}
  [∀ p, Module (B (!p)) (C p).Pt] {L M : Nat} [NeZero M]

/-- C48 (partial). For the repaired `re_randomize` (`fx = true`), take any tree for batches of `M` made by `from_set`, of height at
least one, and any batched path with as many commitments as the tree has levels (no commitment being `-M·Δ`, and no returned leaf
`-Δ`), accepted by the Verifier's batched gadget. There are variables, known in advance, from which re-randomisation scalars are read
such that for all satisfying assignments on the two curves with openings of the path's commitments: *every* returned point is a
re-randomisation of an element of the set, up to sign, by the scalar read for it (or zero); or the assignment contains a second opening of a
sum of `M` commitments in the tree, with some of the signs changed.

Missing for the full property: it fails of the code as it is (`fx = false`, see `C48_forgery`), and the limits of C22 apply. -/
theorem C48_batched_membership_partial {prm : SelRerand C} (hv : prm.Valid) (hg : prm.tree.EnoughGens L M) (hL : 2 ≤ L)
    (hx0 : ∀ p y, ¬ (C p).OnCurve 0 y) {set : List (C false).Pt} {height : Option Nat} {fuel : Nat} {T : CurveTree L M (Pts C)}
    (ht : fromSet prm.tree set height fuel = some (.ok T)) (hfuel : set.length + height.getD 0 ≤ fuel) (h0 : T.height ≠ 0)
    {oE : SideO C false} {oO : SideO C true} {path : MultiPath (C false).Pt (C true).Pt M} {t t' : ∀ p, SideV C p}
    {sel : Fin M → (C false).Pt}
    (hacc : multiTreeVerifierGadget oE oO true prm T path (t false) (t true) = .ok (sel, t' false, t' true))
    (hlen : path.even.length + path.odd.length + 1 = T.height)
    (hE : ∀ c ∈ path.even, c + M • (prm.layer false).delta ≠ 0) (hO : ∀ c ∈ path.odd, c + M • (prm.layer true).delta ≠ 0)
    (hS : ∀ j, sel j + (prm.layer false).delta ≠ 0) :
    ((t' false).vecComms = (t false).vecComms ++ path.even.map (·, L * M) ∧
      (t' true).vecComms = (t true).vecComms ++ path.odd.map (·, L * M)) ∧
    ∃ vs : ∀ p, List (List (Window (B (!p)))), ∃ vl : Nat → List (Window (B (!true))),
      ∀ w : ∀ p, Assignment (B (!p)), (∀ p, (t' p).SatisfiedBy (w p)) →
      ∀ bl : ∀ p, Nat → B (!p), (∀ p, (t' p).OpenedBy (prm.gens p) (w p) (bl p)) →
      (∀ j : Fin M, ∃ leaf ∈ set, ∃ z,
        (z = 0 ∨ z = extractScalar (windows (prm.layer false).lambda) (prm.layer false).tables (vl j) (w true)) ∧
          RerandOf (prm.layer false).delta (prm.h false) z leaf (sel j)) ∨
      ∃ p i c, ∃ xs : Fin M → Nat → B (!p), (t' p).vecComms[i]? = some (c, L * M) ∧
        (∀ j, (⟨p, xs j⟩ : Σ p, Nat → B (!p)) ∈ T.branches prm.tree j) ∧
        ∃ z ∈ 0 :: prm.scalars (!p) (vs (!p)) (w (!p)),
          BatchSecondOpening (prm.gens p) (prm.layer p).delta L xs ((w p).vec i) (bl p i) z := by
  have hne0 : set ≠ [] := by
    rintro rfl
    simp [fromSet] at ht
  have hM : M ≠ 0 := NeZero.ne M
  obtain ⟨T', h', k1, _, _, hs⟩ := fromSet_stores hg hL hne0 height
  have := k1 fuel hfuel
  rw [ht] at this
  cases this
  have hu := hs.uniform
  have hc := hs.committed
  have hlv := hs.leaves
  rw [← hs.height] at hu
  have hmem : ∀ leaf, (⟨false, leaf⟩ : Σ p, (C p).Pt) ∈ T.leaves → leaf ∈ set := by
    intro leaf hl
    rw [hlv] at hl
    simpa using hl
  let o : ∀ q, SideO C q := fun q => match q with | false => oE | true => oO
  let ps : ∀ q, List (C q).Pt := fun q => match q with | false => path.even | true => path.odd
  unfold multiTreeVerifierGadget addRoots at hacc
  cases T with
  | even n =>
    cases n with
    | leaf c => exact absurd rfl h0
    | branch comm children h el =>
      simp only [CurveTree.height, Node.height] at hlen h0 hu
      simp only [Node.commitment] at hacc
      by_cases hpl : path.even.length + 1 = path.odd.length
      case neg => simp [hpl] at hacc
      rw [if_pos hpl] at hacc
      simp only [multiEvenVerifierGadget, multiOddVerifierGadget, multiPathRootIsOdd, List.length_cons, hpl] at hacc
      have hf : ¬ (path.odd.length + 1 = path.odd.length) := by omega
      simp only [hf, if_true, Bool.not_false, Bool.false_eq_true, if_false] at hacc
      split at hacc
      · cases hacc
      · rename_i sE hl0
        cases hlast : path.odd.getLast? with
        | none =>
          rw [List.getLast?_eq_none_iff] at hlast
          rw [hlast] at hpl; simp at hpl
        | some last =>
          simp only [hlast] at hacc
          cases hl1 : multiVerifierLoop oO true prm (CurveTree.even (.branch comm children h el)) false
              (fun i => ((∑ i, comm i) :: path.even)[i + 1]?) 0 path.odd.dropLast (t true) with
          | error e => simp only [hl1] at hacc; cases hacc
          | ok t1 =>
            simp only [hl1] at hacc
            cases hl2 : multiVerifierChildren prm (CurveTree.even (.branch comm children h el)) true
                (decide (path.odd.length - 1 = 0) && false) last t1 with
            | error e => simp only [hl2] at hacc; cases hacc
            | ok x =>
              obtain ⟨cs, t2⟩ := x
              simp only [hl2] at hacc
              cases hl3 : runV oO (leavesLevel (C false) true (prm.layer false) path.selected cs none none) t2 with
              | error e => simp only [hl3, Except.map] at hacc; cases hacc
              | ok x =>
                obtain ⟨⟨⟩, t3⟩ := x
                simp only [hl3, Except.map, Except.ok.injEq, Prod.mk.injEq] at hacc
                obtain ⟨rfl, rfl, rfl⟩ := hacc
                let ch : ∀ q, Nat → Option (C (!q)).Pt := fun q => match q with
                  | false => fun i => path.odd[i]?
                  | true => fun i => ((∑ i, comm i) :: path.even)[i + 1]?
                let parents : ∀ q, List (C q).Pt := fun q => match q with
                  | false => (∑ i, comm i) :: path.even
                  | true => path.odd
                obtain ⟨a1, vs, vl, a2⟩ := multi_membership_core hv hM (by omega) hx0 (o := o) (p0 := false) (h := h) (comm := comm) (children := children) (el := el) (ch := ch) (parents := parents) (ps := ps) (sel := path.selected) (T := CurveTree.even (.branch comm children h el))
                  (rx := fun q => match q with | false => (List.ofFn fun i => xCoordinates prm.tree children i).flatten | true => []) h0 hu hc
                  (by
                    rintro (_ | _) k c _ hk
                    · exact hO c (List.mem_of_getElem? hk)
                    · exact hE c (List.mem_of_getElem? (by simpa [ch] using hk)))
                  (by
                    rintro (_ | _)
                    · exact .inr ⟨_, rfl, rfl⟩
                    · exact .inl ⟨rfl, by decide⟩)
                  (by intro e; change e < path.even.length + 1 ↔ _; simp only [levelDepth]; simp; omega)
                  (by intro e; change e + 1 < path.odd.length ↔ _; simp only [levelDepth]; simp; omega)
                  (by intro e; simp only [levelDepth]; simp; omega)
                  (by intro e; change _ → path.odd.length = _; simp only [levelDepth]; simp; omega)
                  (by
                    rintro (_ | _) e he
                    · rfl
                    · simp [ch]; rfl)
                  hS rfl rfl hl0 hl1 hlast hl2 hl3
                refine ⟨⟨a1 false, a1 true⟩, vs, vl, fun w hw bl hbl => ?_⟩
                rcases a2 w hw bl hbl with b | b
                · left
                  intro j
                  obtain ⟨leaf, b1, b2⟩ := b j
                  exact ⟨leaf, hmem leaf b1, b2⟩
                · exact .inr b
  | odd n =>
    cases n with
    | leaf c => exact absurd rfl h0
    | branch comm children h el =>
      simp only [CurveTree.height, Node.height] at hlen h0 hu
      simp only [Node.commitment] at hacc
      by_cases hpl : path.even.length = path.odd.length
      case neg => simp [hpl] at hacc
      rw [if_pos hpl] at hacc
      simp only [multiEvenVerifierGadget, multiOddVerifierGadget, multiPathRootIsOdd, List.length_cons, hpl] at hacc
      simp only [if_true, Bool.not_true, Nat.add_sub_cancel] at hacc
      split at hacc
      · cases hacc
      · rename_i sE hl0
        cases hlast : ((∑ i, comm i) :: path.odd).getLast? with
        | none => simp at hlast
        | some last =>
          simp only [hlast] at hacc
          cases hl1 : multiVerifierLoop oO true prm (CurveTree.odd (.branch comm children h el)) true
              (fun i => path.even[i]?) 0 ((∑ i, comm i) :: path.odd).dropLast (t true) with
          | error e => simp only [hl1] at hacc; cases hacc
          | ok t1 =>
            simp only [hl1] at hacc
            cases hl2 : multiVerifierChildren prm (CurveTree.odd (.branch comm children h el)) true
                (decide (path.odd.length = 0) && true) last t1 with
            | error e => simp only [hl2] at hacc; cases hacc
            | ok x =>
              obtain ⟨cs, t2⟩ := x
              simp only [hl2] at hacc
              cases hl3 : runV oO (leavesLevel (C false) true (prm.layer false) path.selected cs none none) t2 with
              | error e => simp only [hl3, Except.map] at hacc; cases hacc
              | ok x =>
                obtain ⟨⟨⟩, t3⟩ := x
                simp only [hl3, Except.map, Except.ok.injEq, Prod.mk.injEq] at hacc
                obtain ⟨rfl, rfl, rfl⟩ := hacc
                let ch : ∀ q, Nat → Option (C (!q)).Pt := fun q => match q with
                  | false => fun i => ((∑ i, comm i) :: path.odd)[i + 1]?
                  | true => fun i => path.even[i]?
                let parents : ∀ q, List (C q).Pt := fun q => match q with
                  | false => path.even
                  | true => (∑ i, comm i) :: path.odd
                obtain ⟨a1, vs, vl, a2⟩ := multi_membership_core hv hM (by omega) hx0 (o := o) (p0 := true) (h := h) (comm := comm) (children := children) (el := el) (ch := ch) (parents := parents) (ps := ps) (sel := path.selected) (T := CurveTree.odd (.branch comm children h el))
                  (rx := fun q => match q with | true => (List.ofFn fun i => xCoordinates prm.tree children i).flatten | false => []) h0 hu hc
                  (by
                    rintro (_ | _) k c _ hk
                    · exact hO c (List.mem_of_getElem? (by simpa [ch] using hk))
                    · exact hE c (List.mem_of_getElem? hk))
                  (by
                    rintro (_ | _)
                    · exact .inl ⟨rfl, by decide⟩
                    · exact .inr ⟨_, rfl, rfl⟩)
                  (by intro e; change e < path.even.length ↔ _; simp only [levelDepth]; simp; omega)
                  (by intro e; change e + 1 < path.odd.length + 1 ↔ _; simp only [levelDepth]; simp; omega)
                  (by intro e; simp only [levelDepth]; simp; omega)
                  (by intro e; change _ → path.odd.length + 1 = _; simp only [levelDepth]; simp; omega)
                  (by
                    rintro (_ | _) e he
                    · simp [ch]; rfl
                    · rfl)
                  hS rfl rfl hl0 hl1 hlast hl2 hl3
                refine ⟨⟨a1 false, a1 true⟩, vs, vl, fun w hw bl hbl => ?_⟩
                rcases a2 w hw bl hbl with b | b
                · left
                  intro j
                  obtain ⟨leaf, b1, b2⟩ := b j
                  exact ⟨leaf, hmem leaf b1, b2⟩
                · exact .inr b

/-- C48 is false of the code. Take any tree for batches of `M` made by `from_set`, of height at least one, `M` elements of the set, and
*any* `M` points `Q j` (such that the additions of the last level avoid the exceptional cases). There is a batched path with the `Q j` as
selected leaves that the Verifier's gadget accepts, and a Prover who knows no relation between the `Q j` and the set makes proofs that
are accepted on both curves. -/
theorem C48_forgery {prm : SelRerand C} (hv : prm.Valid) (hg : prm.tree.EnoughGens L M) (hL : 2 ≤ L)
    {set : List (C false).Pt} {height : Option Nat} {fuel : Nat} {T : CurveTree L M (Pts C)}
    (ht : fromSet prm.tree set height fuel = some (.ok T)) (hfuel : set.length + height.getD 0 ≤ fuel) (h0 : T.height ≠ 0)
    (oE : SideO C false) (oO : SideO C true) {rnd : ∀ p, Nat → B (!p)} {indices : Fin M → Nat} (hi : ∀ j, indices j < set.length)
    (hE : ∀ j, j + 1 < (T.height + 1) / 2 → rnd false j ≠ 0) (hO : ∀ j < T.height / 2, rnd true j ≠ 0)
    (hav : ∀ nodes, T.multiWitness prm.tree indices = .ok nodes → ∀ p (k : Nat) f, (nodes p)[k]? = some f →
      (p = true → k + 1 < (nodes true).length) → prm.BatchAvoids (!p) (fun j => (f j).child) (rnd (!p) k))
    {Q : Fin M → (C false).Pt} (hQ0 : ∀ j, Q j + (prm.layer false).delta ≠ 0)
    (hx0 : ∀ j, set[indices j]'(hi j) + (prm.layer false).delta ≠ 0) {r : Fin M → Nat}
    (hat : ∀ j, Attackable (C false) (prm.layer false).lambda (prm.h false) (r j) (set[indices j]'(hi j) + (prm.layer false).delta)
      (Q j + (prm.layer false).delta))
    {sE : SideP C false} {sO : SideP C true} {tE : SideV C false} {tO : SideV C true}
    (hsE : Session oE (prm.gens false) sE tE) (hsO : Session oO (prm.gens true) sO tO) (gE : sE.Good) (gO : sO.Good) :
    ∃ path sE' sO' tE' tO', path.selected = Q ∧
      multiTreeVerifierGadget oE oO false prm T path tE tO = .ok (Q, tE', tO') ∧ sE'.Good ∧ sO'.Good ∧
      ((prm.gens false).capacity ≤ (prm.gens false).Gs.length → (prm.gens false).capacity ≤ (prm.gens false).Hs.length →
        sE.deferred = [] → nextPow2 sE'.size < 2 ^ 32 → ∀ rndE pE trE, prove oE (prm.gens false) rndE sE' = .ok (pE, trE) →
        pE.NoIdentity sE'.vecOpen.length → ∀ c, verify oE (prm.gens false) c pE tE' = .ok ()) ∧
      ((prm.gens true).capacity ≤ (prm.gens true).Gs.length → (prm.gens true).capacity ≤ (prm.gens true).Hs.length →
        sO.deferred = [] → nextPow2 sO'.size < 2 ^ 32 → ∀ rndO pO trO, prove oO (prm.gens true) rndO sO' = .ok (pO, trO) →
        pO.NoIdentity sO'.vecOpen.length → ∀ c, verify oO (prm.gens true) c pO tO' = .ok ()) := by
  obtain ⟨nodes, hw⟩ := multiWitness_exists (leaf := fun j => set[indices j]'(hi j))
    fun j => C26_witness_partial hg hL ht hfuel j (hi j)
  obtain ⟨ns, n1, n2⟩ := multiWitness_ok hw
  have n3 : ∀ j, T.PathTo prm.tree j (ns j) ⟨false, set[indices j]'(hi j)⟩ := by
    intro j
    obtain ⟨nodes', h1, h2⟩ := C26_witness_partial hg hL ht hfuel j (hi j)
    rw [n1 j] at h1
    cases h1
    exact h2
  obtain ⟨path, sE', sO', tE', tO', k0, k1, k2, k3, k4, k5, k6, k7⟩ := batch_forge oE oO hv hg (by omega) n2 n3 h0 hE hO
    (hav nodes hw) hQ0 hx0 hat hsE hsO gE gO
  refine ⟨path, sE', sO', tE', tO', k0, k1, k4, k5, ?_, ?_⟩
  · intro c1 c2 d h32 rndE pE trE hp hn c
    exact C01_one_phase oE _ rndE sE' tE' k2 c1 c2 (k6.trans d) k4.satisfied hp h32 hn c
  · intro c1 c2 d h32 rndO pO trO hp hn c
    exact C01_one_phase oO _ rndO sO' tO' k3 c1 c2 (k7.trans d) k5.satisfied hp h32 hn c

end

section Example
open Curve19

/-- The leaf `3h` can be replaced by `8h`. -/
theorem attackable_3h_8h : Attackable (Cs false) (prm.layer false).lambda (prm.h false) 0 (3 • h + (prm.layer false).delta)
    (8 • h + (prm.layer false).delta) :=
    ⟨by
        have : ∀ k < 3, 1 ≤ k → Curve19.C.DiffX
          (8 • h + h - (3 • h + h) - (partialScalar (windows 6) (fun i => windowIndex 6 0 (i + 1)) (windows 6) -
            partialScalar (windows 6) (fun i => windowIndex 6 0 (i + 1)) k) • h)
          (tableScalar (windows 6) (k + 1) (windowIndex 6 0 (k + 1)) • h) := by decide +kernel
        exact fun k h1 h2 => this k h2 h1, by
        change 8 • h + h - (3 • h + h) ≠ (partialScalar (windows 6) (fun i => windowIndex 6 0 (i + 1)) (windows 6) -
            partialScalar (windows 6) (fun i => windowIndex 6 0 (i + 1)) 1) • h
        decide +kernel, by
        change Curve19.C.DiffX (3 • h + h) (8 • h + h - (3 • h + h))
        decide +kernel⟩

theorem idx2_lt : ∀ j, idx2 j < Curve19.set.length := by decide

theorem set_ne : ∀ j : Fin 2, Curve19.set[idx2 j]'(idx2_lt j) + h ≠ 0 := by decide +kernel

set_option maxRecDepth 4000 in
/-- Non-vacuity of `C48_forgery`: in the tree with leaves `3h, 5h, 11h`, which does not contain `8h`, the batch `8h, 8h`. -/
example : ∃ path sE' sO' tE' tO', path.selected = (fun _ => 8 • h) ∧
    multiTreeVerifierGadget (o false) (o true) false prm T2 path (.new []) (.new []) = .ok ((fun _ => 8 • h), tE', tO') ∧
    PState.Good (F := ZMod 19) (G := C.Pt) (X := C.Pt) sE' ∧ PState.Good (F := ZMod 19) (G := C.Pt) (X := C.Pt) sO' := by
  obtain ⟨path, sE', sO', tE', tO', h1, h2, h3, h4, -⟩ := C48_forgery valid
    tree_gens2 le_rfl fromSet_T2 (by decide) (by rw [height_T2]; decide)
    (o false) (o true) (rnd := rnd2) (indices := idx2) idx2_lt
    (by rw [height_T2]; intro j hj; omega) (by intro j _; change (3 : ZMod 19) ≠ 0; decide)
    (by intro nodes' hw; rw [← Except.ok.inj (witness_T2.symm.trans hw)]; intro p k f hf hp; exact avoids_T2.1 p k f hf (by rintro rfl; exact hp rfl))
    (Q := fun _ => 8 • h) (by intro j; change 8 • h + h ≠ 0; decide +kernel)
    set_ne (r := fun _ => 0)
    (by
      intro j
      refine Fin.cases ?_ (fun j => ?_) j
      · exact attackable_8h
      · obtain rfl : j = 0 := by omega
        exact attackable_3h_8h)
    (.new []) (.new []) (new_good _) (new_good _)
  exact ⟨path, sE', sO', tE', tO', h1, h2, h3, h4⟩

theorem addRoots_lengths {B : Bool → Type} [∀ p, Field (B p)] [∀ p, DecidableEq (B p)] {C : ∀ p, SWCurve (B p)} {L M : Nat} {T : CurveTree L M (Pts C)}
    {path path' : MultiPath (C false).Pt (C true).Pt M} (h : addRoots T path = .ok path') :
    path'.even.length + path'.odd.length = path.even.length + path.odd.length + 1 := by
  unfold addRoots at h
  cases T with
  | even n =>
    simp only at h; split at h
    · cases h; simp only [List.length_cons]; omega
    · cases h
  | odd n =>
    simp only at h; split at h
    · cases h; simp only [List.length_cons]; omega
    · cases h

set_option maxRecDepth 4000 in
/-- Non-vacuity of `C48_batched_membership_partial`: the honest Prover for leaves 2 and 0, with the repaired `re_randomize`. -/
example : ∃ (path : MultiPath Curve19.C.Pt Curve19.C.Pt 2) (t' : ∀ p, SideV Cs p) (sel : Fin 2 → Curve19.C.Pt) (w w' : Assignment (ZMod 19))
    (bl bl' : Nat → ZMod 19),
    multiTreeVerifierGadget (o false) (o true) true prm T2 path (.new []) (.new []) = .ok (sel, t' false, t' true) ∧
    path.even.length + path.odd.length + 1 = T2.height ∧
    (∀ c ∈ path.even, c + 2 • (prm.layer false).delta ≠ 0) ∧ (∀ c ∈ path.odd, c + 2 • (prm.layer true).delta ≠ 0) ∧
    (∀ j, sel j + (prm.layer false).delta ≠ 0) ∧ (t' false).SatisfiedBy w ∧ (t' true).SatisfiedBy w' ∧
    (t' false).OpenedBy (prm.gens false) w bl ∧ (t' true).OpenedBy (prm.gens true) w' bl' := by
  obtain ⟨path, sE', sO', tE0, tO0, k1, -, k2, k3, -⟩ := C47_honest_batch_accepted valid
    tree_gens2 le_rfl fromSet_T2 (by decide) (by rw [height_T2]; decide)
    (o false) (o true) true (rnd := rnd2) (leafR := leafR2) (indices := idx2) (by decide)
    (by rw [height_T2]; intro j hj; omega) (by intro j _; change (3 : ZMod 19) ≠ 0; decide)
    (by intro nodes' hw; rw [← Except.ok.inj (witness_T2.symm.trans hw)]; exact avoids_T2)
    (.new []) (.new []) (new_good _) (new_good _)
  obtain ⟨leaf, h1, -, h3, ⟨path', h4, h5, h6⟩, tE', tO', v1, v2, v3, v4, v5⟩ := C47_prover_verifier_agree
    tree_gens2 le_rfl fromSet_T2 (by decide) (by rw [height_T2]; decide) (by rw [height_T2]; intro j hj; omega)
    (by intro j _; change (3 : ZMod 19) ≠ 0; decide) (.new []) (.new []) k1
  obtain ⟨a1, a2⟩ := honest_opens v4 k2.satisfied
  obtain ⟨b1, b2⟩ := honest_opens v5 k3.satisfied
  have hpath : path = multiProverPath prm nodes2 rnd2 leafR2 := by
    unfold multiTreeProverGadget at k1
    rw [witness_T2] at k1
    simp only [multiPathProverGadget] at k1
    split at k1
    · cases k1
    · split at k1
      · cases k1
      · simp only [Except.ok.injEq, Prod.mk.injEq] at k1
        exact k1.1.1.symm
  refine ⟨path, fun p => match p with | false => tE' | true => tO', _, _, _, _, _, v1, ?_, ?_, ?_, ?_, a1, b1, a2, b2⟩
  · rw [← addRoots_lengths h4, h5, h6, height_T2]
  · rw [hpath]; decide +kernel
  · rw [hpath]; decide +kernel
  · intro j
    rw [← h3, hpath]
    revert j
    decide +kernel

end Example

end CT
