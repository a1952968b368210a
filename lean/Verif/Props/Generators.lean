import Verif.Proofs.Generators

/-! # Property C31: generators do not depend on how the capacity was reached -/

namespace CT
namespace BPGens
variable {G : Type}

/-- C31: growing by any sequence of `increase_capacity` calls gives the generators created with the
largest requested capacity. -/
theorem C31_capacity_history (ch : Chains G) (start parties : Nat) (caps : List Nat) :
    caps.foldl (increaseCapacity ch) (new ch start parties) =
      new ch (caps.foldl max start) parties := by
  rw [new_eq_ideal, new_eq_ideal]
  induction caps generalizing start with
  | nil => rfl
  | cons c caps ih => rw [List.foldl_cons, List.foldl_cons, increaseCapacity_ideal, ih]

/-- C31: the generators already there never change: item `i` of party `j` is item `i` of the chain of
party `j`, whatever the capacity. -/
theorem C31_generators_never_change (ch : Chains G) (cap parties j i : Nat) (hj : j < parties)
    (hj32 : j < 2 ^ 32) (hi : i < cap) :
    (new ch cap parties).Gvec[j]?.bind (·[i]?) = some (ch false j i) ∧
    (new ch cap parties).Hvec[j]?.bind (·[i]?) = some (ch true j i) := by
  rw [new_eq_ideal]
  have e : j % 4294967296 = j := Nat.mod_eq_of_lt (by simpa using hj32)
  simp [ideal, table, hj, hi, e]

/-- Full statement of C31 about the iterator: `G(n, m)` and `H(n, m)` yield the first `n` generators of
each of the first `m` parties in order. -/
def AggregatedExact (array : List (List G)) (n m : Nat) : Prop :=
  ∀ fuel, AggIter.collect array fuel { n := n, m := m } =
    .ok (((array.take m).flatMap fun row => row.take n).take fuel)

/-- C31, for `n > 0`: the iterator yields exactly the first `n` generators of each of the first `m`
parties, in order, and then ends. Missing: `n = 0`, for which it is false
(`C31_aggregated_zero_counterexample`). -/
theorem C31_aggregated_partial (ch : Chains G) (cap parties n m : Nat) (hn : 0 < n) (hc : n ≤ cap)
    (hm : m ≤ parties) :
    AggregatedExact (new ch cap parties).Gvec n m ∧ AggregatedExact (new ch cap parties).Hvec n m := by
  have main : ∀ c : Nat → Nat → G, AggregatedExact (table c cap parties) n m := by
    intro c fuel
    rcases Nat.eq_zero_or_pos m with rfl | h0
    · have : ∀ fuel, AggIter.collect (table c cap parties) fuel { n := n, m := 0 } = .ok [] := by
        intro fuel
        cases fuel with
        | zero => rfl
        | succ f => simp [AggIter.collect, AggIter.next, hn.ne']
      rw [this]; simp
    · rw [AggIter.collect_eq _ n m hn (by simp [table]; omega) _ fuel 0 0 h0 (by omega),
        AggIter.rest_start _ _ _ h0 (by simp [table]; omega)]
      intro row hrow
      simp only [table, List.mem_map, List.mem_range] at hrow
      obtain ⟨i, -, rfl⟩ := hrow
      simpa using hc
  rw [new_eq_ideal]
  exact ⟨main _, main _⟩

/-- C31 is false for `n = 0`: with two parties the iterator yields one generator instead of none. -/
theorem C31_aggregated_zero_counterexample (ch : Chains G) :
    ¬ AggregatedExact (new ch 1 2).Gvec 0 2 := by
  intro h
  have := h 5
  rw [new_eq_ideal] at this
  simp [ideal, table, AggIter.collect, AggIter.next, List.range, List.range.loop] at this

/-- A concrete case: two parties, capacity 3 reached as 1, 3, 2. -/
example : ([1, 3, 2].foldl (increaseCapacity fun h p i => (h, p, i)) (new (fun h p i => (h, p, i)) 0 2)).Hvec =
    [[(true, 0, 0), (true, 0, 1), (true, 0, 2)], [(true, 1, 0), (true, 1, 1), (true, 1, 2)]] := by
  rw [C31_capacity_history]; decide

example : AggIter.collect (new (fun h p i => (h, p, i)) 3 2).Gvec 100 { n := 2, m := 2 } =
    .ok [(false, 0, 0), (false, 0, 1), (false, 1, 0), (false, 1, 1)] := by
  rw [(C31_aggregated_partial _ 3 2 2 2 (by omega) (by omega) (by omega)).1]
  decide

end BPGens
end CT
