/-
Model of nidn/fdtd/visualization.py: the picture `grid.visualize` draws, and the decibel map `dB_map_2D`; and of the frames and the video of a simulation (`Grid.generate_video`, nidn/fdtd/grid.py).

A picture is the pixel array given to `imshow` and the list of shapes on top, in the coordinates of the plot: pixel (row r, column c) is the square of side one around the point (c, r). Colours, the legend and
the interpolation between pixels are left out. A line with a gap (`nan`) is two lines.
-/
import Mathlib.Analysis.SpecialFunctions.Log.Base
import Verif.Model.FdtdBoundary
import Verif.Model.FdtdObjects
import Verif.Model.FdtdPlane
import Verif.Model.Runs

namespace Nidn

/-! ### visualize -/

/-- An argument `x`, `y` or `z` that was given: an `int` or something else. -/
inductive CutArg where
  | int (i : ℤ)
  | other

/-- The chosen plane. -/
inductive Cut where
  | x (i : ℤ)
  | y (i : ℤ)
  | z (i : ℤ)

/-- visualization.py:85-107 -/
def chooseCut (x y z : Option CutArg) : Except PyErr Cut :=
  match x with
  | some a =>
    match a with
    | .other => .error .valueError
    | .int i => if y.isSome ∨ z.isSome then .error .valueError else .ok (.x i)
  | none =>
    match y with
    | some b =>
      match b with
      | .other => .error .valueError
      | .int i => if z.isSome then .error .valueError else .ok (.y i)
    | none =>
      match z with
      | some c =>
        match c with
        | .other => .error .valueError
        | .int i => .ok (.z i)
      | none => .error .valueError

/-- The axis that runs downwards in the picture, its name written beside the vertical axis: visualization.py:119-137, 313. -/
def Cut.rows : Cut → Fin 3
  | .x _ => 1
  | .y _ => 2
  | .z _ => 0

/-- The axis that runs to the right: visualization.py:119-137, 314. -/
def Cut.cols : Cut → Fin 3
  | .x _ => 2
  | .y _ => 0
  | .z _ => 1

/-- `"x"`, `"y"`, `"z"` -/
def axisLabel : Fin 3 → String
  | 0 => "x"
  | 1 => "y"
  | 2 => "z"

/-- A shape of the plot; first coordinate to the right, second downwards. -/
inductive Shape where
  /-- straight lines between the points -/
  | line (pts : List (ℚ × ℚ))
  /-- a marker -/
  | dot (h v : ℚ)
  /-- corner, width, height -/
  | rect (h v w d : ℚ)
  deriving DecidableEq

/-- A placed source, with the coordinates it was registered with. -/
inductive DrawnSource where
  | line (l : IndexLists)
  | point (c : Fin 3 → ℤ)
  | plane (b : Fin 3 → ℤ × ℤ)
  /-- `SoftArbitraryPointSource`, which is none of the three classes -/
  | soft

/-- A placed detector; only a `BlockDetector` is drawn as a frame, visualization.py:220-231. -/
structure DrawnDetector where
  block : Bool
  l : IndexLists

/-- the index list of an axis -/
def IndexLists.axis (l : IndexLists) : Fin 3 → List ℤ
  | 0 => l.x
  | 1 => l.y
  | 2 => l.z

/-- `[l[0], l[-1]]` -/
def firstLast : List ℤ → Except PyErr (ℤ × ℤ)
  | [] => .error .indexError
  | a :: l => .ok (a, (a :: l).getLast?.getD a)

/-- the coordinates (row, column) of a point source: visualization.py:157-165. In the branch for `y` the column is the y coordinate. -/
def pointRowCol (cut : Cut) (c : Fin 3 → ℤ) : ℤ × ℤ :=
  match cut with
  | .x _ => (c 1, c 2)
  | .y _ => (c 2, c 1)
  | .z _ => (c 0, c 1)

/-- visualization.py:169-199: a direction of one cell becomes an empty slice. -/
def planeDrawn (b : ℤ × ℤ) : ℤ × ℤ := if b.1 + 1 < b.2 then b else (b.1, b.1)

/-- the shape of a source, visualization.py:144-208 -/
def drawSource (cut : Cut) : DrawnSource → Except PyErr (List Shape)
  | .line l => do
    let r ← firstLast (l.axis cut.rows)
    let c ← firstLast (l.axis cut.cols)
    .ok [.line [((c.1 : ℚ), (r.1 : ℚ)), ((c.2 : ℚ), (r.2 : ℚ))]]
  | .point p => .ok [.dot (((pointRowCol cut p).2 : ℚ) - 1 / 2) (((pointRowCol cut p).1 : ℚ) - 1 / 2)]
  | .plane b =>
    .ok [.rect (((planeDrawn (b cut.cols)).1 : ℚ) - 1 / 2) (((planeDrawn (b cut.rows)).1 : ℚ) - 1 / 2)
      (((planeDrawn (b cut.cols)).2 : ℚ) - ((planeDrawn (b cut.cols)).1 : ℚ)) (((planeDrawn (b cut.rows)).2 : ℚ) - ((planeDrawn (b cut.rows)).1 : ℚ))]
  | .soft => .ok []

/-- the shape of a detector, visualization.py:211-234 -/
def drawDetector (cut : Cut) (d : DrawnDetector) : Except PyErr (List Shape) := do
  let r ← firstLast (d.l.axis cut.rows)
  let c ← firstLast (d.l.axis cut.cols)
  if d.block then
    .ok [.line [((c.1 : ℚ), (r.1 : ℚ)), ((c.2 : ℚ), (r.1 : ℚ)), ((c.2 : ℚ), (r.2 : ℚ)), ((c.1 : ℚ), (r.2 : ℚ)), ((c.1 : ℚ), (r.1 : ℚ))]]
  else .ok [.line [((c.1 : ℚ), (r.1 : ℚ)), ((c.2 : ℚ), (r.2 : ℚ))]]

/-- the shapes of a boundary on a grid of shape `n`, visualization.py:237-283, branch by branch; `Nx` and `Ny` are the numbers of rows and columns -/
def drawBoundary (n : Pos) (cut : Cut) : BoundaryKind → List Shape
  | .periodicOn a =>
    if a = cut.rows then
      [.line [(-1 / 2, -1 / 2), ((n cut.cols : ℚ) - 1 / 2, -1 / 2)], .line [(-1 / 2, (n cut.rows : ℚ) - 1 / 2), ((n cut.cols : ℚ) - 1 / 2, (n cut.rows : ℚ) - 1 / 2)]]
    else if a = cut.cols then
      [.line [(-1 / 2, -1 / 2), (-1 / 2, (n cut.rows : ℚ) - 1 / 2)], .line [((n cut.cols : ℚ) - 1 / 2, -1 / 2), ((n cut.cols : ℚ) - 1 / 2, (n cut.rows : ℚ) - 1 / 2)]]
    else []
  | .pmlOn a h (some t) =>
    if a = cut.cols ∧ h = false then [.rect (-1 / 2) (-1 / 2) t (n cut.rows)]
    else if a = cut.rows ∧ h = false then [.rect (-1 / 2) (-1 / 2) (n cut.cols) t]
    else if a = cut.cols ∧ h = true then [.rect ((n cut.cols : ℚ) - 1 / 2 - t) (-1 / 2) t (n cut.rows)]
    else if a = cut.rows ∧ h = true then [.rect (-1 / 2) ((n cut.rows : ℚ) - t - 1 / 2) (n cut.cols) t]
    else []
  | _ => []

/-- the shape of an object with the slices it was registered with, visualization.py:285-305 -/
def drawObject (cut : Cut) (r : Fin 3 → AxisRange) : Shape :=
  .rect ((min (r cut.cols).start (r cut.cols).stop : ℚ) - 1 / 2) ((min (r cut.rows).start (r cut.rows).stop : ℚ) - 1 / 2)
    ((max (r cut.cols).start (r cut.cols).stop : ℚ) - (min (r cut.cols).start (r cut.cols).stop : ℚ))
    ((max (r cut.rows).start (r cut.rows).stop : ℚ) - (min (r cut.rows).start (r cut.rows).stop : ℚ))

section
variable {K : Type} [Field K]

/-- `bd.sum(grid.E**2 + grid.H**2, -1)` at a cell, visualization.py:117 -/
def cellEnergy (E H : VField K) (p : Pos) : K := (E p 0 ^ 2 + H p 0 ^ 2) + (E p 1 ^ 2 + H p 1 ^ 2) + (E p 2 ^ 2 + H p 2 ^ 2)

/-- the slice of the energy, visualization.py:118-140 (transposed for `y`): row and column to value. The plane is indexed with `torchIndex`. -/
def cutEnergy (n : Pos) (E H : VField K) : Cut → Except PyErr (ℕ → ℕ → K)
  | .x i =>
    if ¬ (1 < n 1 ∧ 1 < n 2) then .error .assertionError
    else (torchIndex (n 0) i).map fun k r c => cellEnergy E H ![k, r, c]
  | .y i =>
    if ¬ (1 < n 0 ∧ 1 < n 2) then .error .assertionError
    else (torchIndex (n 1) i).map fun k r c => cellEnergy E H ![c, k, r]
  | .z i =>
    if ¬ (1 < n 0 ∧ 1 < n 1) then .error .assertionError
    else (torchIndex (n 2) i).map fun k r c => cellEnergy E H ![r, c, k]

/-- `grid_energy[_x, _y] = 0` for a point source, visualization.py:167 -/
def zeroAt (rows cols : ℕ) (img : ℕ → ℕ → K) (rc : ℤ × ℤ) : Except PyErr (ℕ → ℕ → K) := do
  let a ← torchIndex rows rc.1
  let b ← torchIndex cols rc.2
  .ok fun r c => if r = a ∧ c = b then 0 else img r c

/-- what a source does to the pixels, visualization.py:144-208 -/
def blankSource (n : Pos) (cut : Cut) (s : DrawnSource) (img : ℕ → ℕ → K) : Except PyErr (ℕ → ℕ → K) :=
  match s with
  | .point p => zeroAt (n cut.rows) (n cut.cols) img (pointRowCol cut p)
  | _ => .ok img

/-- the loop over the sources, visualization.py:144-208: pixels and shapes -/
def drawSources (n : Pos) (cut : Cut) : List DrawnSource → (ℕ → ℕ → K) → Except PyErr ((ℕ → ℕ → K) × List Shape)
  | [], img => .ok (img, [])
  | s :: ss, img => do
    let sh ← drawSource cut s
    let img' ← blankSource n cut s img
    let rest ← drawSources n cut ss img'
    .ok (rest.1, sh ++ rest.2)

/-- What is to be seen. -/
structure Picture (K : Type) where
  image : ℕ → ℕ → K
  rows : ℕ
  cols : ℕ
  /-- beside the vertical axis -/
  vlabel : String
  /-- below the horizontal axis -/
  hlabel : String
  sources : List Shape
  detectors : List Shape
  boundaries : List Shape
  objects : List Shape

/-- What `visualize` reads of a grid. -/
structure DrawnGrid (K : Type) where
  n : Pos
  E : VField K
  H : VField K
  sources : List DrawnSource
  detectors : List DrawnDetector
  boundaries : List BoundaryKind
  objects : List (Fin 3 → AxisRange)

/-- `visualize(grid, x, y, z, norm=norm)`, visualization.py:28-318 -/
def visualize (g : DrawnGrid K) (x y z : Option CutArg) (norm : String) : Except PyErr (Picture K) := do
  if ¬ (norm = "linear" ∨ norm = "lin" ∨ norm = "log") then .error .valueError
  else do
    let cut ← chooseCut x y z
    let img ← cutEnergy g.n g.E g.H cut
    let src ← drawSources g.n cut g.sources img
    let det ← g.detectors.mapM (drawDetector cut)
    .ok ⟨src.1, g.n cut.rows, g.n cut.cols, axisLabel cut.rows, axisLabel cut.cols, src.2, det.flatten, g.boundaries.flatMap (drawBoundary g.n cut), g.objects.map (drawObject cut)⟩

end

/-! ### Decibel map -/

/-- `max(temp) - min(temp)` of a non-empty list, visualization.py:361; Python's `max([])` raises ValueError. -/
def swing : List ℝ → Except PyErr ℝ
  | [] => .error .valueError
  | v :: l => .ok (l.foldl max v - l.foldl min v)

/-- The readings of a block detector: times, rows, columns, heights, components (`block_det.shape`). -/
structure BlockReadings where
  times : ℕ
  rows : ℕ
  cols : ℕ
  heights : ℕ
  comps : ℕ
  val : ℕ → ℕ → ℕ → ℕ → ℕ → ℝ

/-- what is handed to `dB_map_2D` -/
inductive DbArg where
  | none
  /-- an array that does not have five axes -/
  | wrongAxes
  | readings (b : BlockReadings)

/-- `[x[i][j][0][choose_axis] for x in block_det]`, visualization.py:360; a negative `choose_axis` counts from the end -/
def cellSignal (b : BlockReadings) (axis : ℤ) (i j : ℕ) : Except PyErr (List ℝ) :=
  if b.heights = 0 then .error .indexError
  else (torchIndex b.comps axis).map fun a => (List.range b.times).map fun t => b.val t i j 0 a

/-- the table `a` of visualization.py:355-361 -/
def swingTable (b : BlockReadings) (axis : ℤ) : Except PyErr (List (List ℝ)) :=
  (List.range b.rows).mapM fun i => (List.range b.cols).mapM fun j => do
    let s ← cellSignal b axis i j
    swing s

/-- Python's `min(map(min, a))`, `max(map(max, a))` -/
def tableFold (f : ℝ → ℝ → ℝ) (a : List (List ℝ)) : Except PyErr ℝ := do
  let l ← a.mapM fun row => match row with
    | [] => .error .valueError
    | v :: r => .ok (r.foldl f v)
  match l with
  | [] => .error .valueError
  | v :: r => .ok (r.foldl f v)

/-- `dB_map_2D`, visualization.py:331-377: the values that are drawn. `len(block_det[0])` fails without time steps. A smallest swing of zero gives infinite values or NaN. -/
noncomputable def dbMap (arg : DbArg) (axis : ℤ) : Except PyErr (List (List ℝ)) :=
  match arg with
  | .none => .error .valueError
  | .wrongAxes => .error .valueError
  | .readings b =>
    if b.times = 0 then .error .indexError
    else do
      let a ← swingTable b axis
      let _ ← tableFold max a
      let mn ← tableFold min a
      if mn = 0 then .error .nan
      else .ok (a.map fun row => row.map fun y => 10 * Real.logb 10 (y / mn))

/-! ### Frames and the video -/

/-- `str(index).zfill(4)` -/
def zfill4 (index : ℕ) : Str := List.replicate (4 - (Nat.toDigits 10 index).length) '0' ++ Nat.toDigits 10 index

/-- the file of a frame, visualization.py:322 -/
def frameName (index : ℕ) : Str := ['f', 'i', 'l', 'e'] ++ zfill4 index ++ ['.', 'p', 'n', 'g']

/-- How `check_call(["ffmpeg", ...])` ends: normally, program not found, or with an error code. -/
inductive FfmpegOutcome where
  | success
  | notFound
  | failed

/-- The process around a grid, as far as `generate_video` is concerned: the working directory and the files in the grid's folder. -/
structure VideoState where
  cwd : List Str
  files : List Str

/-- `*.png` -/
def isPng (f : Str) : Bool := (['.', 'p', 'n', 'g'] : Str).isSuffixOf f && (f.head? != some '.')

/-- `generate_video`, nidn/fdtd/grid.py:441-488, for a grid with `folder` set or not. `CalledProcessError` needs two arguments, so line 479 raises a TypeError. `video` is the file name `fdtd_sim_video_….mp4`. -/
def generateVideo (folder : Option (List Str)) (video : Str) (deleteFrames : Bool) (out : FfmpegOutcome) (s : VideoState) : VideoState × Except PyErr (List Str) :=
  match folder with
  | none => (s, .error .exception)
  | some f =>
    match out with
    | .notFound => ({ s with cwd := f }, .error .typeError)
    | .failed => ({ s with cwd := f }, .error .typeError)
    | .success =>
      (⟨s.cwd, (if video ∈ s.files then s.files else s.files ++ [video]).filter fun x => !(deleteFrames && isPng x)⟩, .ok (f ++ [video]))

end Nidn
