import Verif.Proofs.Mega

/-! `verify`, unfolded. -/

namespace CT
open Finset

theorem nextPow2_eq (n : Nat) : ∃ k, nextPow2 n = 2 ^ k ∧ n ≤ 2 ^ k ∧ (1 < n → 2 ^ k < 2 * n) := by
  unfold nextPow2
  split
  · exact ⟨0, rfl, by simpa using by omega, by omega⟩
  · rename_i h
    refine ⟨(n - 1).log2 + 1, rfl, ?_, fun _ => ?_⟩
    · have := Nat.lt_log2_self (n := n - 1)
      omega
    · have := Nat.log2_self_le (n := n - 1) (by omega)
      rw [pow_succ]; omega

theorem foldl_max_ge {α : Type} (f : α → Nat) (l : List α) (a : Nat) :
    a ≤ l.foldl (fun n v => max (f v) n) a ∧ ∀ v ∈ l, f v ≤ l.foldl (fun n v => max (f v) n) a := by
  induction l generalizing a with
  | nil => simp
  | cons x l ih =>
    rw [List.foldl_cons]
    have := ih (max (f x) a)
    refine ⟨le_trans (le_max_right _ _) this.1, fun v hv => ?_⟩
    rcases List.mem_cons.1 hv with rfl | hv
    · exact le_trans (le_max_left _ _) this.1
    · exact this.2 v hv

theorem foldl_max_le {α : Type} (f : α → Nat) (l : List α) (a b : Nat) (ha : a ≤ b)
    (h : ∀ v ∈ l, f v ≤ b) : l.foldl (fun n v => max (f v) n) a ≤ b := by
  induction l generalizing a with
  | nil => simpa
  | cons x l ih =>
    rw [List.foldl_cons]
    exact ih _ (max_le (h x (by simp)) ha) fun v hv => h v (by simp [hv])

section
variable {F G X : Type}

theorem VState.numVars_le_size (s : VState F G X) : s.numVars ≤ s.size :=
  (foldl_max_ge (fun v : G × Nat => v.2) s.vecComms s.numVars).1

theorem PState.size_eq (s : PState F G X) :
    s.size = s.vecOpen.foldl (fun n v => max v.2.length n) s.aL.length := by
  unfold PState.size
  congr 1; funext n v; exact max_comm _ _

theorem PState.aL_le_size (s : PState F G X) : s.aL.length ≤ s.size := by
  rw [s.size_eq]; exact (foldl_max_ge (fun v : F × List F => v.2.length) s.vecOpen s.aL.length).1

theorem PState.dim_le_size (s : PState F G X) (v) (hv : v ∈ s.vecOpen) : v.2.length ≤ s.size := by
  rw [s.size_eq]; exact (foldl_max_ge (fun v : F × List F => v.2.length) s.vecOpen s.aL.length).2 v hv

end

variable {F G X : Type} [Field F] [DecidableEq F] [AddCommGroup G] [Module F G] [DecidableEq G]

/-- The transcript after the second-phase commitments. -/
def tailT (p : R1CSProof F G) (s : VState F G X) : Transcript F G X :=
  s.transcript ++ [.point "A_I2" p.AI2, .point "A_O2" p.AO2, .point "S2" p.S2]

/-- The transcript after the scalars `t_x`, `t_x_blinding`, `e_blinding` and the challenge `w`, from
the transcript after the `T` points. -/
def tailW (p : R1CSProof F G) (t : Transcript F G X) : Transcript F G X :=
  t ++ [.chal "u", .chal "x", .scalar "t_x" p.tx, .scalar "t_x_blinding" p.txBl,
    .scalar "e_blinding" p.eBl, .chal "w"]

/-- The challenges of `verifyTail`; `t` is the transcript after the `T` points. -/
def tailChals (o : Oracle F G X) (r : F) (p : R1CSProof F G) (s : VState F G X) (t : Transcript F G X)
    (usq uisq sv : List F) : Chals F where
  y := o (tailT p s ++ [.chal "y"])
  z := o (tailT p s ++ [.chal "y", .chal "z"])
  u := o (t ++ [.chal "u"])
  x := o (t ++ [.chal "u", .chal "x"])
  w := o (tailW p t)
  r := r
  usq := usq
  uisq := uisq
  s := sv

omit [DecidableEq F] [Module F G] in
theorem verificationScalars_cases (o : Oracle F G X) (p : IPP F G) (n : Nat) (t : Transcript F G X)
    (hLR : p.L.length = p.R.length) :
    (∃ e, verificationScalars o p n t = .error e) ∨
    ∃ us t', verificationScalars o p n t =
        .ok ((us.map fun u => u * u, us.map fun u => u⁻¹ * u⁻¹, sVec us), t') ∧
      us.length = p.L.length ∧ n = 2 ^ p.L.length ∧ p.L.length < 32 ∧
      ippChallenges o (p.L.zip p.R) (t ++ [.sep "ipp v1", .num "n" n]) = .ok (us, t') := by
  by_cases h32 : p.L.length ≥ 32
  · exact .inl ⟨_, by unfold verificationScalars; simp only [if_pos h32]; rfl⟩
  by_cases hn : n = 2 ^ p.L.length
  swap
  · exact .inl ⟨_, by unfold verificationScalars; simp only [if_neg h32, if_pos (show n ≠ 2 ^ p.L.length from hn)]; rfl⟩
  subst hn
  cases hc : ippChallenges o (p.L.zip p.R) (t ++ [.sep "ipp v1", .num "n" (2 ^ p.L.length)]) with
  | error e =>
    refine .inl ⟨e, ?_⟩
    unfold verificationScalars
    simp only [if_neg h32, ne_eq, not_true_eq_false, if_false, hc, bind, Except.bind]
  | ok r =>
    obtain ⟨us, t''⟩ := r
    have hu : us.length = p.L.length := by
      rw [ippChallenges_length _ _ _ _ _ hc]; simp [List.length_zip, hLR]
    exact .inr ⟨us, t'', verificationScalars_ok o p p.L.length t t'' us (by omega) rfl hu hc, hu, rfl,
      by omega, rfl⟩

omit [Module F G] in
/-- What `verifyTail` does on a proof with as many `R` as `L` points. -/
theorem verifyTail_cases (o : Oracle F G X) (p : R1CSProof F G) (n1 : Nat) (s : VState F G X)
    (hLR : p.ipp.L.length = p.ipp.R.length) :
    (∃ e, ∀ r, verifyTail o r p n1 s = .error e) ∨
    ∃ t wt us t',
      validateT (opDegree s.vecComms.length) p.T (List.range (2 * (opDegree s.vecComms.length + 1) + 1))
        (tailT p s ++ [.chal "y", .chal "z"]) = .ok t ∧
      s.flattened (o (tailT p s ++ [.chal "y", .chal "z"])) = some wt ∧
      us.length = p.ipp.L.length ∧ nextPow2 s.size = 2 ^ p.ipp.L.length ∧ p.ipp.L.length < 32 ∧
      o (tailT p s ++ [.chal "y"]) ≠ 0 ∧
      ippChallenges o (p.ipp.L.zip p.ipp.R) (tailW p t ++ [.sep "ipp v1", .num "n" (nextPow2 s.size)]) =
        .ok (us, t') ∧
      ∀ r, verifyTail o r p n1 s = .ok (buildTuple p s
        (tailChals o r p s t (us.map fun u => u * u) (us.map fun u => u⁻¹ * u⁻¹) (sVec us))
        n1 s.size (nextPow2 s.size) wt) := by
  have e1 : (s.transcript ++ [Msg.point "A_I2" p.AI2, .point "A_O2" p.AO2, .point "S2" p.S2]) ++
      [.chal "y"] ++ [.chal "z"] = tailT p s ++ [.chal "y", .chal "z"] := by simp [tailT]
  have e0 : (s.transcript ++ [Msg.point "A_I2" p.AI2, .point "A_O2" p.AO2, .point "S2" p.S2]) =
    tailT p s := rfl
  unfold verifyTail
  simp only [challengeScalar]
  rw [e1]
  cases hT : validateT (opDegree s.vecComms.length) p.T (List.range (2 * (opDegree s.vecComms.length + 1) + 1))
      (tailT p s ++ [.chal "y", .chal "z"]) with
  | error e => exact .inl ⟨e, fun r => rfl⟩
  | ok t =>
    simp only
    cases hw : s.flattened (o (tailT p s ++ [.chal "y", .chal "z"])) with
    | none => exact .inl ⟨_, fun r => rfl⟩
    | some wt =>
      simp only
      have e2 : t ++ [Msg.chal "u"] ++ [.chal "x"] ++
          [.scalar "t_x" p.tx, .scalar "t_x_blinding" p.txBl, .scalar "e_blinding" p.eBl] ++ [.chal "w"] =
          tailW p t := by simp [tailW]
      rw [e2]
      rcases verificationScalars_cases o p.ipp (nextPow2 s.size) (tailW p t) hLR with ⟨e, he⟩ | ⟨us, t', he, h1, h2, h3, h4⟩
      · exact .inl ⟨e, fun r => by rw [he]⟩
      · rw [he, e0]
        simp only
        by_cases hy : o (tailT p s ++ [.chal "y"]) = 0
        · exact .inl ⟨_, fun r => if_pos hy⟩
        · refine .inr ⟨t, wt, us, t', rfl, rfl, h1, h2, h3, hy, h4, fun r => ?_⟩
          refine (if_neg hy).trans ?_
          simp [tailChals]

omit [DecidableEq F] in
theorem checkTuple_eq (g : Gens G) (p : R1CSProof F G) (s : VState F G X) (c : Chals F) (n1 n N : Nat)
    (wt : Weights F) (hwt : wt.Shape s.numVars s.V.length (s.vecComms.map (·.2)))
    (h1 : n1 ≤ n) (h2 : n ≤ N) (hn : s.numVars ≤ N) (hs : c.s.length = N)
    (hL : c.usq.length = p.ipp.L.length) (hR : c.uisq.length = p.ipp.R.length)
    (hG : g.capacity ≤ g.Gs.length) (hH : g.capacity ≤ g.Hs.length) :
    checkTuple g (buildTuple p s c n1 n N wt) =
      if g.capacity < N then .error .invalidGeneratorsLength
      else if ippDefect (s.check c wt n1 N) g p c.usq c.uisq c.s +
        c.r • (s.check c wt n1 N).polyDefect g p.T p.tx p.txBl = 0 then .ok ()
      else .error .verificationError := by
  unfold checkTuple
  simp only
  have hfl : ((buildTuple p s c n1 n N wt).fixed.length - 2) / 2 = N := by
    have hgl := gScalars_length c n1 n N s.numVars (opDegree s.vecComms.length) wt p.ipp.a h1 h2 hwt.wR hn hs
    have hhl : (hScalars c n1 n N (opDegree s.vecComms.length) wt p.ipp.b).length = N := by simp [hScalars]
    simp only [buildTuple, List.length_append, hgl, hhl, List.length_cons, List.length_nil]
    omega
  rw [hfl]
  by_cases hc : g.capacity < N
  · rw [if_pos hc, if_pos hc]
  · rw [if_neg hc, if_neg hc]
    rw [(mega_eq p s c n1 n N wt g hwt h1 h2 hn hs hL hR (by omega) (by omega)).2]
    by_cases hz : ippDefect (s.check c wt n1 N) g p c.usq c.uisq c.s +
        c.r • (s.check c wt n1 N).polyDefect g p.T p.tx p.txBl = 0
    · rw [if_pos hz, if_neg (by simpa using hz)]
    · rw [if_neg hz, if_pos hz]

/-- The part of `verificationTuple` before the tail. -/
def verifyHead (o : Oracle F G X) (p : R1CSProof F G) (s : VState F G X) :
    Except Err (Nat × VState F G X) :=
  let s := s.pad
  let t := s.transcript ++ [.num "m" s.V.length]
  if p.AI1 = 0 ∨ p.AO1 = 0 ∨ p.S1 = 0 then .error .verificationError
  else
    match VState.createRandomized o { s with transcript :=
      t ++ [.point "A_I1" p.AI1, .point "A_O1" p.AO1, .point "S1" p.S1] } with
    | .error e => .error e
    | .ok s' => .ok (s.size, s')

omit [DecidableEq F] [Module F G] in
theorem verificationTuple_eq [DecidableEq F] [Module F G] (o : Oracle F G X) (r : F) (p : R1CSProof F G)
    (s : VState F G X) :
    verificationTuple o r p s = match verifyHead o p s with
      | .error e => .error e
      | .ok (n1, s') => verifyTail o r p n1 s' := by
  unfold verificationTuple verifyHead validateAndAppendPoint
  by_cases h1 : p.AI1 = 0
  · simp [h1, bind, Except.bind]
  by_cases h2 : p.AO1 = 0
  · simp [h1, h2, bind, Except.bind]
  by_cases h3 : p.S1 = 0
  · simp [h1, h2, h3, bind, Except.bind]
  simp only [h1, h2, h3, if_false, bind, Except.bind, or_self, List.append_assoc, List.cons_append,
    List.nil_append]
  cases VState.createRandomized o _ <;> rfl

end CT
