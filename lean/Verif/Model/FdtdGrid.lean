/-
Model of nidn/fdtd/grid.py: the constructor, the rounding helpers and the two discrete curls.
Floats are elements of an ordered field, see DESIGN.md.
-/
import Mathlib.Algebra.Order.Floor.Ring
import Mathlib.Analysis.SpecialFunctions.Pow.Real
import Verif.Model.Py
import Verif.Model.Units

namespace Nidn

/-- The `Number`s the grid distinguishes with `isinstance(_, int)` / `isinstance(_, float)`:
nidn/fdtd/grid.py:174, 180, 203, 260. (numpy and torch scalars, which are neither, are not modelled.) -/
inductive PyNum (K : Type) where
  | int (i : ℤ)
  | flt (x : K)

/-- Python `int(x)` on a float: truncation towards zero. -/
def pyTrunc {K : Type} [Field K] [LinearOrder K] [FloorRing K] (x : K) : ℤ :=
  if 0 ≤ x then ⌊x⌋ else ⌈x⌉

section
variable {K : Type} [Field K] [LinearOrder K] [FloorRing K]

/-- `Grid._handle_distance`, nidn/fdtd/grid.py:172-176 (`spacing` is `self.grid_spacing`). -/
def handleDistance (spacing : K) : PyNum K → ℤ
  | .int i => i
  | .flt x => pyTrunc (x / spacing + 1 / 2)

/-- `Grid._handle_time`, nidn/fdtd/grid.py:178-182. -/
def handleTime (timeStep : K) : PyNum K → ℤ
  | .int i => i
  | .flt x => pyTrunc (x / timeStep + 1 / 2)

/-- `Grid._handle_tuple`, nidn/fdtd/grid.py:184-197. -/
def handleTuple (spacing : K) : List (PyNum K) → Except PyErr (ℤ × ℤ × ℤ)
  | [x, y, z] => .ok (handleDistance spacing x, handleDistance spacing y, handleDistance spacing z)
  | _ => .error .valueError

/-- A python `slice` object. -/
structure PySlice (A : Type) where
  start : Option A
  stop : Option A
  step : Option A

/-- `Grid._handle_slice`, nidn/fdtd/grid.py:199-212: `None` and ints are kept, floats rounded. -/
def handleSlice (spacing : K) (s : PySlice (PyNum K)) : PySlice ℤ :=
  ⟨s.start.map (handleDistance spacing), s.stop.map (handleDistance spacing),
    s.step.map (handleDistance spacing)⟩

/-- What a user may put between the brackets of `grid[...]` for one axis. -/
inductive GridKey (K : Type) where
  | num (x : PyNum K)
  | many (l : List (PyNum K))
  | slice (s : PySlice (PyNum K))

/-- What a `_register_grid` method receives for one axis (`ListOrSlice`). -/
inductive AxisKey where
  | list (l : List ℤ)
  | slice (s : PySlice ℤ)

/-- `Grid._handle_single_key`, nidn/fdtd/grid.py:214-224: things with a `len` become lists of rounded indices,
slices stay slices, single numbers become one-element lists. -/
def handleSingleKey (spacing : K) : GridKey K → AxisKey
  | .many l => .list (l.map (handleDistance spacing))
  | .slice s => .slice (handleSlice spacing s)
  | .num x => .list [handleDistance spacing x]

/-- the slice `:` -/
def fullSlice {A : Type} : PySlice A := ⟨none, none, none⟩

/-- `Grid.__setitem__`, nidn/fdtd/grid.py:358-375: the keys handed to `_register_grid`.
The list is the index tuple; a non-tuple key is the one-element list. The empty tuple has length 0 and
reaches the final `else`. -/
def setitemKeys (spacing : K) : List (GridKey K) → Except PyErr (AxisKey × AxisKey × AxisKey)
  | [x] => .ok (handleSingleKey spacing x, .slice fullSlice, .slice fullSlice)
  | [x, y] => .ok (handleSingleKey spacing x, handleSingleKey spacing y, .slice fullSlice)
  | [x, y, z] => .ok (handleSingleKey spacing x, handleSingleKey spacing y, handleSingleKey spacing z)
  | _ => .error .keyError

/-- the number of steps of `Grid.run`, nidn/fdtd/grid.py:260-266: a float is divided by the time step, then
`range(0, int(total_time))` (empty for a negative number). -/
def runSteps (timeStep : K) : PyNum K → ℕ
  | .int i => i.toNat
  | .flt x => (pyTrunc (x / timeStep)).toNat

end

/-- The numbers fixed by `Grid.__init__`. -/
structure GridNumbers where
  shape : ℤ × ℤ × ℤ
  spacing : ℝ
  dims : ℕ
  courant : ℝ
  timeStep : ℝ

/-- `self.D`, nidn/fdtd/grid.py:116. -/
def gridDims (s : ℤ × ℤ × ℤ) : ℕ :=
  (if 1 < s.1 then 1 else 0) + (if 1 < s.2.1 then 1 else 0) + (if 1 < s.2.2 then 1 else 0)

/-- `max_courant_number = float(self.D) ** (-0.5)`, nidn/fdtd/grid.py:119; python raises ZeroDivisionError for
`0.0 ** -0.5`. -/
noncomputable def maxCourant (d : ℕ) : Except PyErr ℝ :=
  if d = 0 then .error .zeroDivisionError else .ok ((d : ℝ) ^ (-(1 / 2 : ℝ)))

/-- nidn/fdtd/grid.py:120-129. -/
noncomputable def chooseCourant (mx : ℝ) : Option ℝ → Except PyErr ℝ
  | none => .ok (0.99 * mx)
  | some c => if c > mx then .error .valueError else .ok c

/-- `Grid.__init__` up to the time step, nidn/fdtd/grid.py:109-132. A negative size only fails later in
`bd.zeros` (RuntimeError); that is included here. -/
noncomputable def gridInit (shape : List (PyNum ℝ)) (spacing : ℝ) (courant : Option ℝ) :
    Except PyErr GridNumbers := do
  let s ← handleTuple spacing shape
  let mx ← maxCourant (gridDims s)
  let c ← chooseCourant mx courant
  if s.1 < 0 ∨ s.2.1 < 0 ∨ s.2.2 < 0 then .error .runtimeError
  else .ok ⟨s, spacing, gridDims s, c, c * spacing / SPEED_OF_LIGHT⟩

/-! ### Fields and curls -/

/-- an index triple (x, y, z) -/
abbrev Pos := Fin 3 → ℕ

/-- A tensor of shape (Nx, Ny, Nz, 3). Entries outside the shape carry no meaning. -/
abbrev VField (K : Type) := Pos → Fin 3 → K

/-- the neighbour with index one higher on axis `a` -/
def Pos.up (p : Pos) (a : Fin 3) : Pos := Function.update p a (p a + 1)

/-- the neighbour with index one lower on axis `a` -/
def Pos.dn (p : Pos) (a : Fin 3) : Pos := Function.update p a (p a - 1)

section
variable {K : Type} [Ring K]

/-- `F[1:] - F[:-1]` along axis `a`, component `c`, accumulated into `[:-1]`: zero in the last plane. -/
def dUp (n : Pos) (F : VField K) (a c : Fin 3) (p : Pos) : K :=
  if p a + 1 < n a then F (p.up a) c - F p c else 0

/-- `F[1:] - F[:-1]` along axis `a`, component `c`, accumulated into `[1:]`: zero in the first plane. -/
def dDn (F : VField K) (a c : Fin 3) (p : Pos) : K :=
  if 1 ≤ p a then F p c - F (p.dn a) c else 0

/-- `curl_E`, nidn/fdtd/grid.py:30-52. -/
def curlE (n : Pos) (E : VField K) : VField K := fun p c =>
  match c with
  | 0 => dUp n E 1 2 p - dUp n E 2 1 p
  | 1 => dUp n E 2 0 p - dUp n E 0 2 p
  | 2 => dUp n E 0 1 p - dUp n E 1 0 p

/-- `curl_H`, nidn/fdtd/grid.py:55-76. -/
def curlH (H : VField K) : VField K := fun p c =>
  match c with
  | 0 => dDn H 1 2 p - dDn H 2 1 p
  | 1 => dDn H 2 0 p - dDn H 0 2 p
  | 2 => dDn H 0 1 p - dDn H 1 0 p

end

end Nidn
