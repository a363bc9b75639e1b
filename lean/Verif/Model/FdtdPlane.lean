/-
Model of `PlaneSource` and `SoftArbitraryPointSource`, nidn/fdtd/sources.py:344-668. The name check is the one of Model/FdtdBoundary.lean and left out.
-/
import Verif.Model.FdtdSources
import Verif.Model.FdtdObjects
import Verif.Model.FdtdCoefficients

namespace Nidn

/-! ### Plane sources -/

/-- one axis of `PlaneSource._handle_slices`, nidn/fdtd/sources.py:430-473; `(x,) = x` raises ValueError for other lengths. The step of a slice is ignored. -/
def planeBounds (N : ℕ) : AxisKey → Except PyErr (ℤ × ℤ)
  | .list [i] => .ok (i, i + 1)
  | .list _ => .error .valueError
  | .slice s =>
    let a := s.start.getD 0
    let b := s.stop.getD N
    .ok (if a < b then (a, b) else if b < a then (b, a) else (a, a + 1))

/-- length of a range -/
def planeExtent (b : ℤ × ℤ) : ℤ := b.2 - b.1

/-- `"xyz".index(polarization)`, nidn/fdtd/sources.py:485: the position of a substring. -/
def polIndex : String → Except PyErr (Fin 3)
  | "" => .ok 0
  | "x" => .ok 0
  | "xy" => .ok 0
  | "xyz" => .ok 0
  | "y" => .ok 1
  | "yz" => .ok 1
  | "z" => .ok 2
  | _ => .error .valueError

/-- the component of H a plane source sets, nidn/fdtd/sources.py:494-498 -/
def planeHpol (by' bz : ℤ × ℤ) (e : Fin 3) : Fin 3 :=
  match e with
  | 0 => if planeExtent bz = 1 then 1 else 2
  | 1 => if planeExtent bz = 1 then 0 else 2
  | 2 => if planeExtent by' = 1 then 0 else 1

/-- number of flat directions -/
def flatCount (bx by' bz : ℤ × ℤ) : ℕ := ([bx, by', bz].filter fun b => planeExtent b = 1).length

/-- where a plane source acts -/
structure PlanePlace where
  bx : ℤ × ℤ
  bY : ℤ × ℤ
  bz : ℤ × ℤ
  epol : Fin 3
  hpol : Fin 3

/-- `PlaneSource._handle_slices`, nidn/fdtd/sources.py:414-500: the three ranges and the two polarizations. -/
def planePlace (n : Pos) (pol : String) (kx ky kz : AxisKey) : Except PyErr PlanePlace := do
  let bx ← planeBounds (n 0) kx
  let by' ← planeBounds (n 1) ky
  let bz ← planeBounds (n 2) kz
  if planeExtent bx = 0 ∨ planeExtent by' = 0 ∨ planeExtent bz = 0 then .error .valueError
  else if flatCount bx by' bz = 0 then .error .valueError
  else if 1 < flatCount bx by' bz then .error .valueError
  else do
    let e ← polIndex pol
    if (planeExtent bx = 1 ∧ pol = "x") ∨ (planeExtent by' = 1 ∧ pol = "y") ∨ (planeExtent bz = 1 ∧ pol = "z") then .error .valueError
    else .ok ⟨bx, by', bz, e, planeHpol by' bz e⟩

/-- is an index inside the slice `b` of an axis with `N` cells? -/
def inSlice (N : ℕ) (b : ℤ × ℤ) (i : ℕ) : Bool := decide (clampIndex N b.1 ≤ i ∧ i < clampIndex N b.2)

/-- does a tensor of length `planeExtent b` fit the slice (length one is broadcast)? -/
def sliceFits (N : ℕ) (b : ℤ × ℤ) : Bool :=
  decide (((clampIndex N b.2 - clampIndex N b.1 : ℕ) : ℤ) = planeExtent b ∨ planeExtent b = 1)

/-- the cells `E[self.x, self.y, self.z]` -/
def PlanePlace.cells (n : Pos) (l : PlanePlace) (p : Pos) : Bool := inSlice (n 0) l.bx (p 0) && inSlice (n 1) l.bY (p 1) && inSlice (n 2) l.bz (p 2)

/-- The value all cells are set to in step `q`, nidn/fdtd/sources.py:504-505 (the profile is `amplitude` in every cell, 411-412). -/
noncomputable def planeSignal (g : GridNumbers) (s : SourceSpec) (q : ℕ) : Except PyErr ℝ :=
  if handleTime g.timeStep s.period = 0 then .error .zeroDivisionError
  else .ok (s.amplitude * 1 * Real.sin (2 * Real.pi * q / (handleTime g.timeStep s.period : ℝ) + s.phase))

/-- `grid[x, y, z] = PlaneSource(...)`, nidn/fdtd/sources.py:371-412, 502-512: what it does in a step. A period of zero steps and a shape that does not fit raise in the first step in Python, in the
model when the source is placed. -/
noncomputable def placePlane (g : GridNumbers) (n : Pos) (s : SourceSpec) (pol : String) (kx ky kz : AxisKey) : Except PyErr (FSource ℝ) := do
  let l ← planePlace n pol kx ky kz
  let _ ← planeSignal g s 0
  if sliceFits (n 0) l.bx = true ∧ sliceFits (n 1) l.bY = true ∧ sliceFits (n 2) l.bz = true then
    .ok (.plane (l.cells n) l.epol l.hpol fun q => match planeSignal g s q with | .ok v => v | .error _ => 0)
  else .error .runtimeError

/-! ### Soft sources -/

/-- `SoftArbitraryPointSource._register_grid`, nidn/fdtd/sources.py:588-625: the cell. With a name, `detector_name += "_I"` (line 619) reads a variable that was never assigned. The order in Python is the
same: the three keys are unpacked first. -/
def placeSoft (n : Pos) (name : Option String) (kx ky kz : AxisKey) : Except PyErr Pos :=
  match placePointSource n kx ky kz with
  | .error e => .error e
  | .ok cell => match name with
    | some _ => .error .unboundLocalError
    | none => .ok cell

section
variable {K : Type} [Field K] [LinearOrder K]

/-- `input_voltage`, nidn/fdtd/sources.py:631-635 -/
def softInput (waveform : List K) (q : ℕ) : K := if q < waveform.length then waveform.getD q 0 else 0

/-- `output_voltage`, nidn/fdtd/sources.py:637-646. `I` is the latest current of the source's own detector. -/
def softOutput (waveform : List K) (impedance : K) (q : ℕ) (I : K) : K :=
  if 0 < impedance then softInput waveform q + impedance * (if 0 < q then I else 0) else softInput waveform q

/-- `SoftArbitraryPointSource.update_E` in step `q`, nidn/fdtd/sources.py:626-655. The latest current was computed from the magnetic field at the end of the previous step, which is the one at the beginning of this
step; cell indices at least one (`pointCurrent`). -/
def softStep (spacing : K) (waveform : List K) (impedance : K) (cell : Pos) (q : ℕ) (H E : VField K) : VField K :=
  addEz E cell (softOutput waveform impedance q (pointCurrent spacing H cell) / spacing)

end

end Nidn
