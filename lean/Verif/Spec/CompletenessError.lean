import Mathlib.Data.Set.Card
import Mathlib.Tactic.DeriveFintype
import Mathlib.Data.Fintype.Pi
import Mathlib.Data.Fintype.Sum
import Verif.Model.Verify

/-!
# How often an honest Prover is rejected

`prove` fails when a challenge it inverts is zero, and the Verifier refuses a proof one of whose points is the identity. Both can happen to an honest Prover. To say how
often, all random choices of a run are drawn from the field: those of the Prover, and the challenges. A challenge is the hash of the transcript; a transcript only grows,
so the challenges of a run are hashes of transcripts of different lengths, and the challenge for a transcript of length `l` is the `l`-th element of a random tape.
-/

namespace CT

/-- The random choices of a run with `n` multipliers: the blindings of `A_I1`, `A_O1` and `S1`, the vectors `s_L` and `s_R`, the blindings of `m` points `T_d`, and a tape of
`M` challenges. -/
inductive Draw (n m M : Nat) where
  | blind (i : Fin 3)
  | sL (i : Fin n)
  | sR (i : Fin n)
  | tau (d : Fin m)
  | chal (l : Fin M)
  deriving DecidableEq, Fintype

variable {F G X : Type} [Field F] {n m M : Nat}

/-- The random choices of the Prover. There is no second phase. -/
def Draw.prover (ω : Draw n m M → F) : PRand F where
  i1 := ω (.blind 0)
  o1 := ω (.blind 1)
  s1 := ω (.blind 2)
  sL1 i := if h : i < n then ω (.sL ⟨i, h⟩) else 0
  sR1 i := if h : i < n then ω (.sR ⟨i, h⟩) else 0
  i2 := 0
  o2 := 0
  s2 := 0
  sL2 _ := 0
  sR2 _ := 0
  tau d := if h : d < m then ω (.tau ⟨d, h⟩) else 0

/-- The `l`-th element of the tape. -/
def Draw.tape (ω : Draw n m M → F) (l : Nat) : F := if h : l < M then ω (.chal ⟨l, h⟩) else 0

/-- The challenges. -/
def Draw.oracle (ω : Draw n m M → F) : Oracle F G X := fun tr => Draw.tape ω tr.length

/-- The proof is made and accepted, whatever the Verifier's own random scalar is. -/
def HonestAccepted [DecidableEq F] [AddCommGroup G] [Module F G] [DecidableEq G] (o : Oracle F G X) (g : Gens G) (rnd : PRand F) (s : PState F G X) (t : VState F G X) : Prop :=
  ∃ p tr, prove o g rnd s = .ok (p, tr) ∧ ∀ r, verify o g r p t = .ok ()

/-- The numerator of the completeness error, with `ncomm` vector commitments and `lg` rounds of the inner product argument. -/
def completenessLoss (ncomm lg : Nat) : Nat := 2 * (opDegree ncomm + 1) + 7 + 5 * lg

/-- An honest Prover in state `s` facing a Verifier in state `t` is rejected with probability at most `num / den`, however long the tape of challenges is. -/
def RejectedAtMost [Fintype F] [DecidableEq F] [AddCommGroup G] [Module F G] [DecidableEq G] (g : Gens G) (s : PState F G X) (t : VState F G X) (num den : Nat) : Prop :=
  ∃ M₀, ∀ M ≥ M₀,
    den * {ω : Draw s.size (2 * (opDegree s.vecOpen.length + 1) + 1) M → F | ¬ HonestAccepted (Draw.oracle ω) g (Draw.prover ω) s t}.ncard ≤
      num * Fintype.card (Draw s.size (2 * (opDegree s.vecOpen.length + 1) + 1) M → F)

end CT
