import Verif.Model.Serialize

/-! # What a faithful encoding is -/

namespace CT

/-- Whatever follows the bytes written for `a`, decoding gives back `a` and leaves the rest. -/
def Codec.RoundTrips {α : Type} (c : Codec α) (a : α) : Prop := ∀ rest, c.dec (c.enc a ++ rest) = some (a, rest)

/-- `serialized_size` is the number of bytes written. -/
def Codec.SizeExact {α : Type} (c : Codec α) (a : α) : Prop := c.size a = (c.enc a).length

/-- An encoding of single values (points, scalars, keys): faithful, with exact sizes that are the same for all
values. -/
structure Codec.Element {α : Type} (c : Codec α) : Prop where
  roundTrips : ∀ a, c.RoundTrips a
  sizeExact : ∀ a, c.SizeExact a
  sizeConst : ∀ a b, c.size a = c.size b

/-- Only the bytes written for a value decode to it. -/
def Codec.Canonical {α : Type} (c : Codec α) : Prop := ∀ bs a rest, c.dec bs = some (a, rest) → bs = c.enc a ++ rest

/-- A vector that can exist: its length fits in 64 bits. -/
abbrev Fits {α : Type} (l : List α) : Prop := l.length < 2 ^ 64

/-- All vectors in the proof fit. -/
structure IPP.Fits {F G : Type} (p : IPP F G) : Prop where
  L : CT.Fits p.L
  R : CT.Fits p.R

structure R1CSProof.Fits {F G : Type} (p : R1CSProof F G) : Prop where
  T : CT.Fits p.T
  ipp : p.ipp.Fits

structure Path.Fits {P0 P1 : Type} (p : Path P0 P1) : Prop where
  odd : CT.Fits p.odd
  even : CT.Fits p.even

structure Pour.Fits {F0 P0 F1 P1 K : Type} (p : Pour F0 P0 F1 P1 K) : Prop where
  evenProof : p.evenProof.Fits
  oddProof : p.oddProof.Fits
  path0 : p.path0.Fits
  path1 : p.path1.Fits

end CT
