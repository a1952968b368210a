import Verif.Spec.Extraction
import Verif.Model.Prove

/-!
# Making a proof without a witness

Written from the definition of (special honest-verifier) zero knowledge. The simulator is given the public statement, the challenges
in advance and coins of its own. It is not given a witness, an opening of a commitment, or the discrete logarithm of any generator.
-/

namespace CT
open Finset
variable {F G X : Type} [Field F] [AddCommGroup G] [Module F G]

/-- The challenges, chosen in advance. -/
structure Guess (F : Type) where
  y : F
  z : F
  u : F
  x : F
  w : F

/-- The challenges for the proof `p` are the ones chosen in advance; `t2` is the Verifier after the second phase. -/
def Guess.Right (c : Guess F) (o : Oracle F G X) (p : R1CSProof F G) (t2 : VState F G X) : Prop :=
  ∃ us, HasChallenges o p t2 c.y c.z c.u c.x c.w us

/-- The public values of the two equations of the Verifier. -/
def Guess.check (c : Guess F) (n1 : Nat) (t2 : VState F G X) (wt : Weights F) : Check F G where
  comms := t2.vecComms.map (·.1)
  V := t2.V
  wt := wt
  n1 := n1
  N := nextPow2 t2.size
  y := c.y
  u := c.u
  x := c.x
  w := c.w

/-- The vector the simulator uses for `l(x)`: coins, padded with zeros. -/
def simL (ρ : PRand F) (n1 n N : Nat) : List F :=
  (List.range n1).map ρ.sL1 ++ (List.range (n - n1)).map ρ.sL2 ++ List.replicate (N - n) 0

/-- The vector the simulator uses for `r(x)`: coins, padded as the protocol says. -/
def simR (ρ : PRand F) (y : F) (n1 n N : Nat) : List F :=
  (List.range n1).map ρ.sR1 ++ (List.range (n - n1)).map ρ.sR2 ++ (List.range (N - n)).map fun i => - y ^ (n + i)

/-- A commitment to two vectors with the generators of the inner product argument. -/
def Check.commitVectors (c : Check F G) (g : Gens G) (l r : List F) : G :=
  ∑ i ∈ range c.N, (c.factor i * l.getD i 0) • g.Gs.getD i 0 +
  ∑ i ∈ range c.N, (c.factor i * (c.y⁻¹ ^ i * r.getD i 0)) • g.Hs.getD i 0

/-- Everything in the simulated proof up to the inner product argument. All points are random multiples of the blinding generator,
but for `S1` and `T_0`, which are solved for from the two equations of the Verifier. -/
def simPoints (g : Gens G) (c : Check F G) (n : Nat) (ρ : PRand F) : R1CSProof F G :=
  let l := simL ρ c.n1 n c.N
  let r := simR ρ c.y c.n1 n c.N
  let AI2 := if n - c.n1 > 0 then ρ.i2 • g.pc.Bbl else 0
  let AO2 := if n - c.n1 > 0 then ρ.o2 • g.pc.Bbl else 0
  let S2 := if n - c.n1 > 0 then ρ.s2 • g.pc.Bbl else 0
  let tx := ∑ i ∈ range c.N, l.getD i 0 * r.getD i 0
  { AI1 := ρ.i1 • g.pc.Bbl
    AO1 := ρ.o1 • g.pc.Bbl
    S1 := (c.x ^ (c.op + 1))⁻¹ • (c.commitVectors g l r - c.opened g (ρ.i1 • g.pc.Bbl) (ρ.o1 • g.pc.Bbl) 0 AI2 AO2 S2 ρ.s1)
    AI2 := AI2
    AO2 := AO2
    S2 := S2
    T := (List.range (2 * (c.op + 1) + 1)).map fun d => if d = c.op then 0 else if d = 0 then
        - c.polyDefect g ((List.range (2 * (c.op + 1) + 1)).map fun d => if d = 0 then 0 else ρ.tau d • g.pc.Bbl) tx (ρ.tau 0)
      else ρ.tau d • g.pc.Bbl
    tx := tx
    txBl := ρ.tau 0
    eBl := ρ.s1
    ipp := ⟨[], [], 0, 0⟩ }

variable [DecidableEq F]

/-- The simulator: `t2` is the Verifier after the second phase, `n1` the size when the first phase ended, `c` the challenges and `ρ` the coins.
The inner product argument is the one of the library, for the two vectors of coins. -/
def simulate (o : Oracle F G X) (g : Gens G) (n1 : Nat) (t2 : VState F G X) (c : Guess F) (ρ : PRand F) :
    Except Err (R1CSProof F G × Transcript F G X) :=
  let op := opDegree t2.vecComms.length
  if g.capacity < nextPow2 t2.size then .error .invalidGeneratorsLength
  else if t2.size - n1 > 0 ∧ t2.vecComms ≠ [] then .error (.panic "second phase with vector commitments")
  else if ∃ d ∈ tDegrees op, tLabelCount ≤ d then .error (.panic "too many vector commitments")
  else match t2.flattened c.z with
  | none => .error (.panic "constraint on a variable that does not exist")
  | some wt =>
    if c.y = 0 then .error (.panic "y is zero")
    else
      let ch := c.check n1 t2 wt
      let p := simPoints g ch t2.size ρ
      match ippCreate o (c.w • g.pc.B) ((List.range ch.N).map ch.factor) ((List.range ch.N).map fun i => c.y⁻¹ ^ i * ch.factor i)
          (g.Gs.take ch.N) (g.Hs.take ch.N) (simL ρ n1 t2.size ch.N) (simR ρ c.y n1 t2.size ch.N) (absorbedW p t2) with
      | .error e => .error e
      | .ok (ipp, tr) => .ok ({ p with ipp := ipp }, tr)

end CT
