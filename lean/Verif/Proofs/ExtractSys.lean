import Verif.Proofs.ExtractIPP
import Verif.Proofs.Schedule
import Verif.Proofs.Mega
import Mathlib.Tactic.DeriveFintype

/-! The equations of a tree of accepting proofs, as linear equations between symbols for points. -/

namespace CT
open Finset

/-- Names of the points of a tree of proofs. -/
inductive Sym (F : Type)
  | B | Bbl | G (i : Nat) | H (i : Nat)
  | AI1 | AO1 | S1 | AI2 | AO2 | S2
  | C (j : Nat) | V (j : Nat)
  | T (y z : F) (d : Nat)
  | L (y z u x w : F) (pre : List F)
  | R (y z u x w : F) (pre : List F)

/-- The scalars of the equations. -/
structure Sys (F : Type) where
  k : Nat
  m : Nat
  n1 : Nat
  lg : Nat
  wt : F → Weights F
  resp : Responses F

namespace Sys
variable {F G G' : Type} [Field F] [AddCommGroup G] [Module F G] [AddCommGroup G'] [Module F G'] (S : Sys F)

def N : Nat := 2 ^ S.lg
def op : Nat := opDegree S.k
def fac (u : F) (i : Nat) : F := if i < S.n1 then 1 else u
def delta (y z : F) : F := ∑ i ∈ range S.N, y⁻¹ ^ i * (S.wt z).wR.getD i 0 * (S.wt z).wL.getD i 0
def e (s : Nat) : Nat := if s < S.k + 2 then lDeg S.op s else S.op + 1
def slotA (pts : Sym F → G) (s : Nat) : G :=
  if s = 0 then pts .AI1 else if s = 1 then pts .AO1 else if s < S.k + 2 then pts (.C (s - 2)) else pts .S1
def slotB (pts : Sym F → G) (s : Nat) : G :=
  if s = 0 then pts .AI2 else if s = 1 then pts .AO2 else if s < S.k + 2 then 0 else pts .S2
def omega (z : F) (i s : Nat) : F :=
  if s = 0 then (S.wt z).wL.getD i 0 else if s = 1 then (S.wt z).wO.getD i 0 else ((S.wt z).wVC.getD (s - 2) []).getD i 0
def rPub (z x : F) (i : Nat) : F := ∑ s ∈ range (S.k + 2), x ^ rDeg S.op s * S.omega z i s

def polyDef (pts : Sym F → G) (y z u x : F) : G :=
  x ^ S.op • (∑ j ∈ range S.m, (S.wt z).wV.getD j 0 • pts (.V j) + ((S.wt z).wc + S.delta y z) • pts .B) +
  ∑ d ∈ (range (2 * (S.op + 1) + 1)).erase S.op, x ^ d • pts (.T y z d) -
  (S.resp.tx y z u x • pts .B + S.resp.txBl y z u x • pts .Bbl)

def openDef (pts : Sym F → G) (y z u x : F) : G :=
  ∑ s ∈ range (S.k + 3), x ^ S.e s • (S.slotA pts s + u • S.slotB pts s) - S.resp.eBl y z u x • pts .Bbl +
  ∑ i ∈ range S.N, (S.fac u i * (x ^ S.e 0 * (y⁻¹ ^ i * (S.wt z).wR.getD i 0))) • pts (.G i) +
  ∑ i ∈ range S.N, (S.fac u i * (y⁻¹ ^ i * S.rPub z x i - 1)) • pts (.H i)

def ippEq (pts : Sym F → G) (y z u x w : F) (us : List F) : G :=
  ippDef (fun l => pts (.L y z u x w l)) (fun l => pts (.R y z u x w l)) (S.resp.a y z u x w) (S.resp.b y z u x w) (w • pts .B) us []
    (S.openDef pts y z u x + S.resp.tx y z u x • (w • pts .B)) (fun i => if i < S.N then S.fac u i • pts (.G i) else 0)
    (fun i => if i < S.N then (S.fac u i * y⁻¹ ^ i) • pts (.H i) else 0)

theorem slotA_map (f : G →ₗ[F] G') (pts : Sym F → G) (s : Nat) : S.slotA (fun q => f (pts q)) s = f (S.slotA pts s) := by
  unfold slotA; split_ifs <;> rfl

theorem slotB_map (f : G →ₗ[F] G') (pts : Sym F → G) (s : Nat) : S.slotB (fun q => f (pts q)) s = f (S.slotB pts s) := by
  unfold slotB; split_ifs <;> simp

theorem polyDef_map (f : G →ₗ[F] G') (pts : Sym F → G) (y z u x : F) :
    S.polyDef (fun q => f (pts q)) y z u x = f (S.polyDef pts y z u x) := by
  simp only [polyDef, map_add, map_sub, map_smul, map_sum]

theorem openDef_map (f : G →ₗ[F] G') (pts : Sym F → G) (y z u x : F) :
    S.openDef (fun q => f (pts q)) y z u x = f (S.openDef pts y z u x) := by
  simp only [openDef, map_add, map_sub, map_smul, map_sum, slotA_map, slotB_map]

theorem ippEq_map (f : G →ₗ[F] G') (pts : Sym F → G) (y z u x w : F) (us : List F) :
    S.ippEq (fun q => f (pts q)) y z u x w us = f (S.ippEq pts y z u x w us) := by
  unfold ippEq
  rw [← ippDef_map]
  have h : ∀ (c : Nat → F) (p : Nat → G), (fun i => f (if i < S.N then c i • p i else 0)) = fun i => if i < S.N then c i • f (p i) else 0 := by
    intro c p; funext i; split_ifs <;> simp
  simp only [openDef_map, map_add, map_smul, h]

/-- All equations of a tree. -/
structure Solves (fk : Forks F) (pts : Sym F → G) : Prop where
  poly : ∀ y ∈ fk.Y, ∀ z ∈ fk.Z y, ∀ u ∈ fk.U y z, ∀ x ∈ fk.X y z u, S.polyDef pts y z u x = 0
  ipp : ∀ y z u x w us, fk.Path y z u x w us → us.length = S.lg → S.ippEq pts y z u x w us = 0

end Sys

/-- Names of the generators. -/
inductive Gen (N : Nat)
  | B | Bbl | G (i : Fin N) | H (i : Fin N)
  deriving DecidableEq, Fintype

variable {F : Type} [Field F]

def Gen.sym {N : Nat} : Gen N → Sym F
  | .B => .B
  | .Bbl => .Bbl
  | .G i => .G i
  | .H i => .H i

/-- An equation of a tree. -/
inductive EqIdx (S : Sys F) (fk : Forks F)
  | poly (y z u x : F) (h : y ∈ fk.Y ∧ z ∈ fk.Z y ∧ u ∈ fk.U y z ∧ x ∈ fk.X y z u)
  | ipp (y z u x w : F) (us : List F) (h : fk.Path y z u x w us ∧ us.length = S.lg)

/-- The equations in the free module. -/
noncomputable def EqIdx.D {S : Sys F} {fk : Forks F} : EqIdx S fk → Sym F →₀ F
  | .poly y z u x _ => S.polyDef (fun q => Finsupp.single q 1) y z u x
  | .ipp y z u x w us _ => S.ippEq (fun q => Finsupp.single q 1) y z u x w us

theorem EqIdx.eval {S : Sys F} {fk : Forks F} {G : Type} [AddCommGroup G] [Module F G] (pts : Sym F → G) :
    (∀ e : EqIdx S fk, Finsupp.linearCombination F pts e.D = 0) ↔ S.Solves fk pts := by
  constructor
  · intro h
    refine ⟨fun y hy z hz u hu x hx => ?_, fun y z u x w us hp hl => ?_⟩
    · have := h (.poly y z u x ⟨hy, hz, hu, hx⟩)
      simpa [EqIdx.D, ← S.polyDef_map] using this
    · have := h (.ipp y z u x w us ⟨hp, hl⟩)
      simpa [EqIdx.D, ← S.ippEq_map] using this
  · rintro ⟨h1, h2⟩ (⟨y, z, u, x, hy, hz, hu, hx⟩ | ⟨y, z, u, x, w, us, hp, hl⟩)
    · simpa [EqIdx.D, ← S.polyDef_map] using h1 y hy z hz u hu x hx
    · simpa [EqIdx.D, ← S.ippEq_map] using h2 y z u x w us hp hl

theorem sys_lift_or_relation (S : Sys F) (fk : Forks F) :
    (∃ r : Gen S.N → F, r ≠ 0 ∧ ∀ (G : Type) [AddCommGroup G] [Module F G] (pts : Sym F → G), S.Solves fk pts →
      ∑ q, r q • pts q.sym = 0) ∨
    (∃ P : Sym F → Gen S.N → F, (∀ q : Gen S.N, P q.sym = Pi.single q 1) ∧ S.Solves fk P) := by
  rcases lift_or_relation (Gen.sym (N := S.N)) (EqIdx.D (S := S) (fk := fk)) with ⟨r, hr, h⟩ | ⟨P, hP, h⟩
  · exact .inl ⟨r, hr, fun G _ _ pts hs => h G pts ((EqIdx.eval pts).2 hs)⟩
  · exact .inr ⟨P, hP, (EqIdx.eval P).1 h⟩

end CT
