import Verif.Model.Util

/-! # Generators: `bulletproofs/src/generators.rs` -/

namespace CT

section
variable {F G : Type} [Field F] [AddCommGroup G] [Module F G]

/-- `struct PedersenGens`, `generators.rs:30-35`. -/
structure PedersenGens (G : Type) where
  B : G
  Bbl : G

/-- `PedersenGens::commit`, `generators.rs:39-41`. -/
def PedersenGens.commit (pc : PedersenGens G) (value blinding : F) : G :=
  msm [pc.B, pc.Bbl] [value, blinding]

end

/-- `GeneratorsChain::new(label)` as an infinite sequence: the `i`-th item is a function of the label
(`'G'` or `'H'`, and the party index as `u32`) and of the `i`-th 64 bytes of XOF output.
`generators.rs:58-106`. The hash is a parameter. -/
abbrev Chains (G : Type) := (isH : Bool) → (party : Nat) → (pos : Nat) → G

/-- `chain.fast_forward(k).take(m)`, `generators.rs:79-85`, `196-197`. -/
def chainTake {G : Type} (c : Nat → G) (k m : Nat) : List G := (List.range m).map fun i => c (k + i)

/-- `struct BulletproofGens`, `generators.rs:137-147`. -/
structure BPGens (G : Type) where
  gensCapacity : Nat
  partyCapacity : Nat
  Gvec : List (List G)
  Hvec : List (List G)
deriving DecidableEq

namespace BPGens
variable {G : Type}

/-- `increase_capacity`, `generators.rs:183-208`. `G_vec` and `H_vec` have `party_capacity` entries. -/
def increaseCapacity (ch : Chains G) (g : BPGens G) (newCapacity : Nat) : BPGens G :=
  if g.gensCapacity ≥ newCapacity then g
  else
    { g with
      Gvec := g.Gvec.mapIdx fun i v =>
        v ++ chainTake (ch false (i % 2 ^ 32)) g.gensCapacity (newCapacity - g.gensCapacity)
      Hvec := g.Hvec.mapIdx fun i v =>
        v ++ chainTake (ch true (i % 2 ^ 32)) g.gensCapacity (newCapacity - g.gensCapacity)
      gensCapacity := newCapacity }

/-- `BulletproofGens::new`, `generators.rs:161-170`. -/
def new (ch : Chains G) (gensCapacity partyCapacity : Nat) : BPGens G :=
  increaseCapacity ch
    { gensCapacity := 0, partyCapacity := partyCapacity
      Gvec := List.replicate partyCapacity [], Hvec := List.replicate partyCapacity [] }
    gensCapacity

/-- `AggregatedGensIter`, the state of the iterator, `generators.rs:233-239`. -/
structure AggIter where
  n : Nat
  m : Nat
  partyIdx : Nat := 0
  genIdx : Nat := 0

/-- `AggregatedGensIter::next`, `generators.rs:244-257`. The outer `Option` is `None` at the end of the
iteration; an index out of range is a panic. -/
def AggIter.next (array : List (List G)) (s : AggIter) : Except Err (Option (G × AggIter)) :=
  let s := if s.genIdx ≥ s.n then { s with genIdx := 0, partyIdx := s.partyIdx + 1 } else s
  if s.partyIdx ≥ s.m then .ok none
  else
    match array[s.partyIdx]? with
    | none => .error (.panic "index out of bounds")
    | some row =>
      match row[s.genIdx]? with
      | none => .error (.panic "index out of bounds")
      | some g => .ok (some (g, { s with genIdx := s.genIdx + 1 }))

/-- Draining the iterator, at most `fuel` items. -/
def AggIter.collect (array : List (List G)) : Nat → AggIter → Except Err (List G)
  | 0, _ => .ok []
  | fuel + 1, s =>
    match s.next array with
    | .error e => .error e
    | .ok none => .ok []
    | .ok (some (g, s')) =>
      match AggIter.collect array fuel s' with
      | .error e => .error e
      | .ok gs => .ok (g :: gs)

end BPGens

/-- What `prove` and `verify` use of the generators: `pc_gens`, `bp_gens.gens_capacity` and the vectors
of `bp_gens.share(0)` (`generators.rs:174-179`, `281-291`). With `party_capacity = 0` the code panics
when it takes the share; that case is excluded here. -/
structure Gens (G : Type) where
  pc : PedersenGens G
  capacity : Nat
  Gs : List G
  Hs : List G

/-- `bp_gens.share(0)`. -/
def BPGens.toGens {G : Type} (bp : BPGens G) (pc : PedersenGens G) : Gens G where
  pc := pc
  capacity := bp.gensCapacity
  Gs := bp.Gvec.headD []
  Hs := bp.Hvec.headD []

end CT
