/-
Model of nidn/fdtd/sources.py (`PointSource`, `LineSource`; `PlaneSource` is in Model/FdtdPlane.lean) and of the cell lists of nidn/fdtd/detectors.py
(`LineDetector`, `BlockDetector`). The torch backend is modelled (nidn/fdtd_integration/init_fdtd.py:30 selects it). Floats are reals,
so `torch.arange(start, stop, delta)` with `delta = (stop - start) / m` has exactly `m` elements. The name check is the one of
Model/FdtdBoundary.lean and left out.
-/
import Mathlib.Analysis.SpecialFunctions.Trigonometric.Basic
import Mathlib.Analysis.SpecialFunctions.Exp
import Verif.Model.FdtdStep

namespace Nidn

/-! ### Index lists -/

/-- `bd.array(bd.linspace(a, b, m, endpoint=False), bd.int)`, nidn/fdtd/backend.py:145-150 and nidn/fdtd/sources.py:288:
`m` equally spaced values from `a`, each truncated. The division by `m = 0` raises. -/
def intLinspace (a b : ℤ) (m : ℕ) : Except PyErr (List ℤ) :=
  if m = 0 then .error .zeroDivisionError
  else if a = b then .ok (List.replicate m a)
  else .ok ((List.range m).map fun i : ℕ => pyTrunc ((a : ℚ) + (i : ℚ) * (((b : ℚ) - (a : ℚ)) / (m : ℚ))))

/-- the two bounds of one axis after lists became slices, nidn/fdtd/sources.py:257-282 and nidn/fdtd/detectors.py:89-104.
The step of a slice is ignored and negative bounds are kept as they are. -/
def lineBounds (N : ℕ) : AxisKey → Except PyErr (ℤ × ℤ)
  | .list l =>
    match l.head?, l.getLast? with
    | some a, some b => .ok (a, b)
    | _, _ => .error .indexError
  | .slice s => .ok (s.start.getD 0, s.stop.getD N)

/-- number of points of a line, nidn/fdtd/sources.py:285 -/
def linePoints (bx by' bz : ℤ × ℤ) : ℕ :=
  max (max (bx.2 - bx.1).natAbs (by'.2 - by'.1).natAbs) (bz.2 - bz.1).natAbs

/-- index lists for the three axes -/
structure IndexLists where
  x : List ℤ
  y : List ℤ
  z : List ℤ
  deriving DecidableEq

/-- the slice path of `_handle_slices`, nidn/fdtd/sources.py:255-292 (`atLeast` is 2) and nidn/fdtd/detectors.py:86-112 (`atLeast` is 0). -/
def lineSpan (atLeast : ℕ) (n : Pos) (kx ky kz : AxisKey) : Except PyErr IndexLists := do
  let bx ← lineBounds (n 0) kx
  let by' ← lineBounds (n 1) ky
  let bz ← lineBounds (n 2) kz
  let m := linePoints bx by' bz
  if m < atLeast then .error .valueError
  else do
    let xs ← intLinspace bx.1 bx.2 m
    let ys ← intLinspace by'.1 by'.2 m
    let zs ← intLinspace bz.1 bz.2 m
    .ok ⟨xs, ys, zs⟩

/-- `_handle_slices` of `LineSource` (nidn/fdtd/sources.py:225-292, `atLeast = 2`) and of `LineDetector`
(nidn/fdtd/detectors.py:63-112, `atLeast = 0`). -/
def lineIndices (atLeast : ℕ) (n : Pos) (kx ky kz : AxisKey) : Except PyErr IndexLists :=
  match kx, ky, kz with
  | .list xs, .list ys, .list zs =>
    if xs.length ≠ ys.length ∨ ys.length ≠ zs.length then .error .indexError else .ok ⟨xs, ys, zs⟩
  | _, _, _ => lineSpan atLeast n kx ky kz

/-- `LineSource._handle_slices` -/
def lineSourceIndices := lineIndices 2

/-- `LineDetector._handle_slices` -/
def lineDetectorIndices := lineIndices 0

/-- `[v.item() for v in bd.arange(a, b + 1)]`, nidn/fdtd/detectors.py:236; `torch.arange` raises a RuntimeError for `b + 1 < a`. -/
def blockRange (a b : ℤ) : Except PyErr (List ℤ) :=
  if b + 1 < a then .error .runtimeError else .ok ((List.range (b + 1 - a).toNat).map fun i : ℕ => a + (i : ℤ))

/-- `BlockDetector._handle_slices`, nidn/fdtd/detectors.py:189-240 (and the same text in `CurrentDetector`, 347-398). -/
def blockIndices (n : Pos) (kx ky kz : AxisKey) : Except PyErr IndexLists :=
  match kx, ky, kz with
  | .list xs, .list ys, .list zs =>
    if xs.length ≠ ys.length ∨ ys.length ≠ zs.length then .error .indexError else .ok ⟨xs, ys, zs⟩
  | _, _, _ => do
    let bx ← lineBounds (n 0) kx
    let by' ← lineBounds (n 1) ky
    let bz ← lineBounds (n 2) kz
    let xs ← blockRange bx.1 bx.2
    let ys ← blockRange by'.1 by'.2
    let zs ← blockRange bz.1 bz.2
    .ok ⟨xs, ys, zs⟩

/-- indexing a tensor axis of size `N` with a python integer -/
def torchIndex (N : ℕ) (i : ℤ) : Except PyErr ℕ :=
  if 0 ≤ i ∧ i < N then .ok i.toNat
  else if -(N : ℤ) ≤ i ∧ i < 0 then .ok (i + N).toNat
  else .error .indexError

/-- the cell of one index triple -/
def torchCell (n : Pos) (t : ℤ × ℤ × ℤ) : Except PyErr Pos := do
  let x ← torchIndex (n 0) t.1
  let y ← torchIndex (n 1) t.2.1
  let z ← torchIndex (n 2) t.2.2
  .ok ![x, y, z]

/-- the index triples a line source or line detector loops over, nidn/fdtd/sources.py:318, nidn/fdtd/detectors.py:116 -/
def IndexLists.triples (l : IndexLists) : List (ℤ × ℤ × ℤ) := l.x.zip (l.y.zip l.z)

/-- the index triples of a block detector, in the order of the nested loops nidn/fdtd/detectors.py:244-250 -/
def IndexLists.product (l : IndexLists) : List (ℤ × ℤ × ℤ) :=
  l.x.flatMap fun x => l.y.flatMap fun y => l.z.map fun z => (x, y, z)

/-- the cells of a line; the IndexError of a cell outside the grid is raised in the first step -/
def lineCells (n : Pos) (l : IndexLists) : Except PyErr (List Pos) := l.triples.mapM (torchCell n)

/-- the cells of a block -/
def blockCells (n : Pos) (l : IndexLists) : Except PyErr (List Pos) := l.product.mapM (torchCell n)

/-! ### Signals -/

/-- the arguments of `PointSource` and `LineSource`, nidn/fdtd/sources.py:29-64, 147-184. -/
structure SourceSpec where
  period : PyNum ℝ
  amplitude : ℝ
  phase : ℝ
  cycle : ℝ
  hanningDt : Option ℝ
  signal : String

/-- the period as a number -/
noncomputable def PyNum.val : PyNum ℝ → ℝ
  | .int i => i
  | .flt x => x

/-- `hanning(f, t, n)`, nidn/fdtd/waveforms.py:8-9 -/
noncomputable def hanningPulse (f t n : ℝ) : ℝ := 1 / 2 * (1 - Real.cos (f * t / n)) * Real.sin (f * t)

/-- `_ricker`, nidn/fdtd/sources.py:672-685 -/
noncomputable def rickerPulse (q gpw offset courant : ℝ) : ℝ :=
  (1 - 2 * (Real.pi * (q * courant / gpw - offset)) ^ 2) * Real.exp (-(Real.pi * (q * courant / gpw - offset)) ^ 2)

/-- `self.frequency`, nidn/fdtd/sources.py:61 -/
noncomputable def SourceSpec.frequency (s : SourceSpec) : ℝ := 1 / s.period.val

/-- `self.hanning_dt`, nidn/fdtd/sources.py:62 -/
noncomputable def SourceSpec.dt (s : SourceSpec) : ℝ := s.hanningDt.getD (1 / 2 / s.frequency)

/-- `self.wavelength / self.grid.grid_spacing`, nidn/fdtd/sources.py:63, 97 -/
noncomputable def SourceSpec.gpw (s : SourceSpec) (g : GridNumbers) : ℝ := SPEED_OF_LIGHT / s.frequency / g.spacing

/-- length of the Hanning pulse in steps, nidn/fdtd/sources.py:103, 299 -/
noncomputable def SourceSpec.hanningSteps (s : SourceSpec) : ℤ := pyTrunc (2 * Real.pi / (s.frequency * s.dt / s.cycle))

/-- The factor a line source multiplies its profile with in step `q`, nidn/fdtd/sources.py:296-316.
`1.0 / period` with period zero fails in the constructor already. -/
noncomputable def lineSignal (g : GridNumbers) (s : SourceSpec) (q : ℕ) : Except PyErr ℝ :=
  if s.period.val = 0 then .error .zeroDivisionError
  else if s.signal = "hanning" then
    if s.cycle = 0 ∨ s.dt = 0 then .error .zeroDivisionError
    else if (q : ℤ) < s.hanningSteps then .ok (hanningPulse s.frequency (q * s.dt) s.cycle)
    else .ok 0
  else if s.signal = "ricker" then
    if (q : ℝ) < s.gpw g * 6 then .ok (rickerPulse q (s.gpw g) 1 g.courant)
    else .ok 0
  else if handleTime g.timeStep s.period = 0 then .error .zeroDivisionError
  else .ok (Real.sin (2 * Real.pi * q / (handleTime g.timeStep s.period : ℝ) + s.phase))

/-- `src` of a point source in step `q`, nidn/fdtd/sources.py:99-121. In the Ricker branch line 115 assigns to `vsrcect`, so `src` is unbound in line 121. -/
noncomputable def pointSignal (g : GridNumbers) (s : SourceSpec) (q : ℕ) : Except PyErr ℝ :=
  if s.period.val = 0 then .error .zeroDivisionError
  else if s.signal = "hanning" then
    if s.cycle = 0 ∨ s.dt = 0 then .error .zeroDivisionError
    else if (q : ℤ) < s.hanningSteps then .ok (s.amplitude * hanningPulse s.frequency (q * s.dt) s.cycle)
    else .ok 0
  else if s.signal = "ricker" then
    if (q : ℝ) < s.gpw g * 6 then .error .unboundLocalError
    else .ok (s.amplitude * 0)
  else if handleTime g.timeStep s.period = 0 then .error .zeroDivisionError
  else .ok (s.amplitude * Real.sin (2 * Real.pi * q / (handleTime g.timeStep s.period : ℝ) + s.phase))

/-! ### Profiles and updates -/

/-- squared distance of two index triples -/
def tripleDist (p q : ℤ × ℤ × ℤ) : ℤ := (p.1 - q.1) ^ 2 + (p.2.1 - q.2.1) ^ 2 + (p.2.2 - q.2.2) ^ 2

/-- `vect.max()`; the entries are not negative -/
def maxDist (ds : List ℤ) : ℤ := ds.foldr max 0

/-- `bd.exp(-(vect**2) / (2 * (0.5 * vect.max()) ** 2))` for one entry, nidn/fdtd/sources.py:219 -/
noncomputable def gaussWeight (mx d : ℤ) : ℝ := Real.exp (-((d : ℝ) ^ 2) / (2 * (1 / 2 * (mx : ℝ)) ^ 2))

/-- The profile of a line source, nidn/fdtd/sources.py:211-221. If all cells coincide torch computes 0/0 and the profile is NaN; an empty list fails at
`self.x[L // 2]`. -/
noncomputable def lineProfile (pts : List (ℤ × ℤ × ℤ)) (amplitude : ℝ) : Except PyErr (List ℝ) :=
  match pts[pts.length / 2]? with
  | none => .error .indexError
  | some c =>
    let ds := pts.map fun p => tripleDist p c
    if maxDist ds = 0 then .error .nan
    else
      let ws := ds.map (gaussWeight (maxDist ds))
      .ok (ws.map fun w => w / ws.sum * amplitude)

section
variable {K : Type} [Field K]

/-- `self.grid.E[x, y, z, 2] += value` -/
def addEz (E : VField K) (p : Pos) (v : K) : VField K := fun q c => if q = p ∧ c = 2 then E q c + v else E q c

/-- the loop of `LineSource.update_E`, nidn/fdtd/sources.py:318-319, with `vect = profile * signal` -/
def lineUpdateE (cells : List Pos) (profile : List K) (w : K) (E : VField K) : VField K :=
  (cells.zip (profile.map fun v => v * w)).foldl (fun E x => addEz E x.1 x.2) E

end

/-- A registered line source: cells and profile; nidn/fdtd/sources.py:186-223. -/
noncomputable def placeLineSource (n : Pos) (s : SourceSpec) (kx ky kz : AxisKey) : Except PyErr (List Pos × List ℝ) := do
  let l ← lineSourceIndices n kx ky kz
  let profile ← lineProfile l.triples s.amplitude
  let cells ← lineCells n l
  .ok (cells, profile)

/-- The cell of a registered point source, nidn/fdtd/sources.py:90-94: all three keys have to be single indices. -/
def placePointSource (n : Pos) (kx ky kz : AxisKey) : Except PyErr Pos :=
  match kx, ky, kz with
  | .list [x], .list [y], .list [z] => torchCell n (x, y, z)
  | _, _, _ => .error .valueError

/-- `LineSource.update_E` in step `q`, nidn/fdtd/sources.py:294-319 -/
noncomputable def lineSourceStep (g : GridNumbers) (s : SourceSpec) (cells : List Pos) (profile : List ℝ) (q : ℕ) (E : VField ℝ) : Except PyErr (VField ℝ) :=
  (lineSignal g s q).map fun w => lineUpdateE cells profile w E

/-- `PointSource.update_E` in step `q`, nidn/fdtd/sources.py:99-121 -/
noncomputable def pointSourceStep (g : GridNumbers) (s : SourceSpec) (cell : Pos) (q : ℕ) (E : VField ℝ) : Except PyErr (VField ℝ) :=
  (pointSignal g s q).map fun v => addEz E cell v

end Nidn
