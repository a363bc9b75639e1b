/-
Independent specification of FDTD on a grid that wraps around on some axes. No boundary conditions and no duplicated planes:
a wrapped axis with N planes in the code has N-1 cells here and neighbours are taken modulo N-1.
-/
import Verif.Model.FdtdGrid

namespace Nidn.Torus

variable {K : Type} [Field K]

/-- shape data: number of planes per axis, which axes wrap around -/
structure Lattice where
  n : Pos
  wraps : Fin 3 → Bool

/-- canonical cell of a plane index -/
def Lattice.wrap (L : Lattice) (p : Pos) : Pos := fun a => if L.wraps a then p a % (L.n a - 1) else p a

/-- next cell on axis `a` -/
def Lattice.next (L : Lattice) (p : Pos) (a : Fin 3) : Pos :=
  Function.update p a (if L.wraps a ∧ p a + 2 = L.n a then 0 else p a + 1)

/-- previous cell on axis `a` -/
def Lattice.prev (L : Lattice) (p : Pos) (a : Fin 3) : Pos :=
  Function.update p a (if L.wraps a ∧ p a = 0 then L.n a - 2 else p a - 1)

/-- is there a next / previous cell? Always on a wrapped axis. -/
def Lattice.hasNext (L : Lattice) (p : Pos) (a : Fin 3) : Prop := L.wraps a ∨ p a + 1 < L.n a
def Lattice.hasPrev (L : Lattice) (p : Pos) (a : Fin 3) : Prop := L.wraps a ∨ 1 ≤ p a

open Classical in
/-- forward difference -/
noncomputable def fwd (L : Lattice) (F : VField K) (a c : Fin 3) (p : Pos) : K :=
  if L.hasNext p a then F (L.next p a) c - F p c else 0

open Classical in
/-- backward difference -/
noncomputable def bwd (L : Lattice) (F : VField K) (a c : Fin 3) (p : Pos) : K :=
  if L.hasPrev p a then F p c - F (L.prev p a) c else 0

/-- curl with forward differences: component `c` is `d_{c+1} F_{c+2} - d_{c+2} F_{c+1}` (indices mod 3) -/
noncomputable def curlFwd (L : Lattice) (F : VField K) : VField K := fun p c =>
  fwd L F (c + 1) (c + 2) p - fwd L F (c + 2) (c + 1) p

/-- curl with backward differences -/
noncomputable def curlBwd (L : Lattice) (F : VField K) : VField K := fun p c =>
  bwd L F (c + 1) (c + 2) p - bwd L F (c + 2) (c + 1) p

/-- materials and drive of the wrapped medium -/
structure Medium (K : Type) where
  courant : K
  invEps : VField K
  invMu : VField K
  loss : VField K
  drive : ℕ → VField K

/-- a Yee step: `((1+s) e' = (1-s) e + c/eps curl h) + drive`, `h' = h - c/mu curl e'` -/
noncomputable def stepE (L : Lattice) (M : Medium K) (t : ℕ) (e h : VField K) : VField K := fun p c =>
  ((1 - M.loss p c) * e p c + M.courant * M.invEps p c * curlBwd L h p c) / (1 + M.loss p c) + M.drive t p c

noncomputable def stepH (L : Lattice) (M : Medium K) (e' h : VField K) : VField K := fun p c =>
  h p c - M.courant * M.invMu p c * curlFwd L e' p c

/-- `k` Yee steps starting with step number `t0` -/
noncomputable def run (L : Lattice) (M : Medium K) (t0 : ℕ) (e h : VField K) : ℕ → VField K × VField K
  | 0 => (e, h)
  | k + 1 =>
    (stepE L M (t0 + k) (run L M t0 e h k).1 (run L M t0 e h k).2,
      stepH L M (stepE L M (t0 + k) (run L M t0 e h k).1 (run L M t0 e h k).2) (run L M t0 e h k).2)

end Nidn.Torus
