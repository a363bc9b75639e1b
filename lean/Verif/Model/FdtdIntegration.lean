/-
Model of nidn/fdtd_integration/init_fdtd.py, compute_fdtd_grid_scaling.py and compute_spectrum_fdtd.py: from the config and the permittivity tensor to the two spectra.
Floats are reals. A cell index outside the grid raises in the first time step in Python, in the model when the detector or source is placed; logging is left out.
`computeSpectrumFdtd` returns the config only for successful runs; `fdtdCfgAfter` is the config after any run.
-/
import Mathlib.Analysis.SpecialFunctions.Trigonometric.Basic
import Mathlib.Data.Complex.Basic
import Mathlib.Algebra.Order.Floor.Semiring
import Verif.Model.Units
import Verif.Model.FdtdBoundary
import Verif.Model.FdtdObjects
import Verif.Model.FdtdSources
import Verif.Model.FdtdCoefficients
import Verif.Model.RcwaDriver

namespace Nidn

noncomputable section

/-- nidn/utils/global_constants.py:8 -/
def EPS_0 : ℝ := 8.8541878128e-12

/-- nidn/utils/global_constants.py:16 -/
def MU_0 : ℝ := 4e-7 * Real.pi

/-- nidn/utils/global_constants.py:18 -/
def ETA_0 : ℝ := MU_0 * SPEED_OF_LIGHT

/-- The config entries the FDTD solver reads and writes. `scaling` is `FDTD_grid_scaling`, which it writes. -/
structure FdtdCfg where
  freq : FreqCfg
  minGp : ℝ
  pml : ℝ
  free : ℝ
  thick : List ℝ
  nLayers : ℕ
  gap : ℤ
  source : List ℝ
  pulse : String
  sourceType : String
  niter : ℤ
  scaling : Option ℝ

/-- `_compute_fdtd_grid_scaling`, compute_fdtd_grid_scaling.py:6-22, with `FDTD_GRID_SCALE = 0.1` (constants.py:1) -/
def gridScaling (wl0 minGp : ℝ) : Except PyErr ℝ := (pyDiv UNIT_MAGNITUDE (wl0 * 0.1)).map fun v => max v minGp

/-! ### init_fdtd -/

/-- `x_grid_size`, init_fdtd.py:32-39 -/
def xSize (c : FdtdCfg) (s : ℝ) : ℤ := pyTrunc (s * (c.pml * 2 + c.free * 2 + c.thick.sum))

/-- `int(cfg.FDTD_pml_thickness * cfg.FDTD_grid_scaling)`, init_fdtd.py:53 -/
def pmlCells (c : FdtdCfg) (s : ℝ) : ℤ := pyTrunc (c.pml * s)

/-- x index of the transmission detector, init_fdtd.py:56-66, 75 -/
def tDetectorX (c : FdtdCfg) (s : ℝ) : ℤ := pyTrunc ((c.pml + c.free + c.thick.sum) * s + c.gap)

/-- x index of the reflection detector, init_fdtd.py:62-67, 76 -/
def rDetectorX (c : FdtdCfg) (s : ℝ) : ℤ := pyTrunc ((c.pml + c.free) * s - c.gap)

/-- The loop of init_fdtd.py:101-117: the slices handed to `_add_object`. `remaining` layers are left, `i` is the current one. -/
def layerLoop (s : ℝ) (thick : List ℝ) : (remaining i : ℕ) → (xs xe : ℝ) → Except PyErr (List (ℤ × ℤ))
  | 0, _, _, _ => .ok []
  | 1, _, xs, xe => .ok [(pyTrunc (s * xs), pyTrunc (s * xe))]
  | r + 2, i, xs, xe =>
    match thick[i]?, thick[i + 1]? with
    | some a, some b => (layerLoop s thick (r + 1) (i + 1) (xs + a) (xe + b)).map fun l => (pyTrunc (s * xs), pyTrunc (s * xe)) :: l
    | _, _ => .error .indexError

/-- init_fdtd.py:99-117: x ranges of `count` layers -/
def layerRanges (c : FdtdCfg) (s : ℝ) (count : ℕ) : Except PyErr (List (ℤ × ℤ)) :=
  match c.thick[0]? with
  | none => .error .indexError
  | some t => layerLoop s c.thick count 0 (c.pml + c.free) (c.pml + c.free + t)

/-- attributes of every grid: nidn/fdtd/grid.py:109-170 and the methods and properties of the class -/
def gridAttrs : List String :=
  ["grid_spacing", "Nx", "Ny", "Nz", "D", "courant_number", "time_step", "E", "H", "absorption_factor", "inverse_permittivity", "inverse_permeability", "time_steps_passed",
   "sources", "boundaries", "detectors", "objects", "folder", "x", "y", "z", "shape", "time_passed", "run", "step", "update_E", "update_H", "reset", "add_source", "add_boundary",
   "add_detector", "add_object", "visualize", "save_simulation", "generate_video", "save_data"]

/-- `_add_boundaries`, init_fdtd.py:122-140 -/
def boundaryProgram (P : ℤ) : List BoundaryPlacement :=
  [⟨0, .pml, some "pml_xlow", sl (some 0) (some P), sl none none, sl none none⟩,
   ⟨1, .pml, some "pml_xhigh", sl (some (-P)) none, sl none none, sl none none⟩,
   ⟨2, .periodic, some "ybounds", sl none none, .list [0], sl none none⟩]

/-- what a placed boundary object does in a step; `PML(a=1e-8)`, nidn/fdtd/boundaries.py:228 -/
def boundaryOf (courant : ℝ) : BoundaryKind → Option (FBoundary ℝ)
  | .periodicOn a => some (.periodic a)
  | .pmlOn a h (some t) => some (.pml (mkPml a h t.toNat 1e-8 courant))
  | _ => none

/-- `_add_boundaries` on a new grid -/
def placeBoundaries (courant : ℝ) (P : ℤ) : Except PyErr (List (FBoundary ℝ)) :=
  (placeAll (.fresh gridAttrs) (boundaryProgram P)).2.map fun _ =>
    (placeAll (.fresh gridAttrs) (boundaryProgram P)).1.boundaries.filterMap fun id => boundaryOf courant ((placeAll (.fresh gridAttrs) (boundaryProgram P)).1.kind id)

/-- `grid[x, :, 0] = LineDetector(...)`, init_fdtd.py:191-194 -/
def placeDetector (n : Pos) (x : ℤ) : Except PyErr (FDetector ℝ) := do
  let l ← lineDetectorIndices n (.list [x]) (.slice fullSlice) (.list [0])
  let cells ← lineCells n l
  .ok ⟨cells, [], []⟩

/-- the source of `_add_source`, init_fdtd.py:157-174; amplitude 1 and phase 0 are the defaults (nidn/fdtd/sources.py:30-40, 147-157) -/
def simSpec (wl : ℝ) (pulse : String) : SourceSpec := ⟨.flt (wl / SPEED_OF_LIGHT), 1, 0, 5, some 1e-15, pulse⟩

/-- the value of a signal that does not fail -/
def signalValue (sig : ℕ → Except PyErr ℝ) (q : ℕ) : ℝ := match sig q with | .ok v => v | .error _ => 0

/-- a source together with the signal it evaluates in every step (which may raise) -/
structure PlacedSource where
  src : FSource ℝ
  signal : ℕ → Except PyErr ℝ

/-- `_add_source`, init_fdtd.py:143-176 -/
def placeSource (g : GridNumbers) (n : Pos) (x y : ℤ) (wl : ℝ) (pulse sourceType : String) : Except PyErr PlacedSource :=
  if ¬ (pulse = "continuous" ∨ pulse = "hanning" ∨ pulse = "ricker") then .error .assertionError
  else if sourceType = "point" then
    (placePointSource n (.list [x]) (.list [y]) (.list [0])).map fun cell =>
      ⟨.soft fun q => addEz (fun _ _ => 0) cell (signalValue (pointSignal g (simSpec wl pulse)) q), pointSignal g (simSpec wl pulse)⟩
  else if sourceType = "line" then
    (placeLineSource n (simSpec wl pulse) (.list [x]) (.slice fullSlice) (.list [0])).map fun cp =>
      ⟨.soft fun q => lineUpdateE cp.1 cp.2 (signalValue (lineSignal g (simSpec wl pulse)) q) (fun _ _ => 0), lineSignal g (simSpec wl pulse)⟩
  else .error .valueError

/-- `_add_object`, init_fdtd.py:198-216, at frequency `SPEED_OF_LIGHT / wavelength` (line 109) -/
def addLayer (g : GridNumbers) (n : Pos) (wl : ℝ) (m : Materials ℝ) (r : ℤ × ℤ) (eps : ℂ) : Except PyErr (Materials ℝ) :=
  objectPlace n g.courant g.spacing ETA_0 m ⟨eps.re, some (eps.im * (SPEED_OF_LIGHT / wl) * 2 * Real.pi * EPS_0)⟩
    ![sl (some r.1) (some r.2), .slice fullSlice, .slice fullSlice]

/-- the layers one after the other -/
def addLayers (g : GridNumbers) (n : Pos) (wl : ℝ) : Materials ℝ → List ((ℤ × ℤ) × ℂ) → Except PyErr (Materials ℝ)
  | m, [] => .ok m
  | m, (r, eps) :: rest => do
    let m' ← addLayer g n wl m r eps
    addLayers g n wl m' rest

/-- a simulation that is ready to run; detectors are transmission, reflection -/
structure Simulation where
  numbers : GridNumbers
  grid : FGrid ℝ
  signal : ℕ → Except PyErr ℝ

/-- the two source coordinates, init_fdtd.py:79-80 -/
def sourceXY (c : FdtdCfg) (s : ℝ) : Except PyErr (ℤ × ℤ) :=
  match c.source[0]?, c.source[1]? with
  | some x, some y => .ok (pyTrunc (x * s), pyTrunc (y * s))
  | _, _ => .error .indexError

/-- the material part of init_fdtd.py:97-117; `none`: `include_object=False` -/
def addStack (c : FdtdCfg) (s : ℝ) (g : GridNumbers) (n : Pos) (wl : ℝ) (m : Materials ℝ) : Option (List ℂ) → Except PyErr (Materials ℝ)
  | none => .ok m
  | some eps => do
    let ranges ← layerRanges c s eps.length
    addLayers g n wl m (ranges.zip eps)

/-- `init_fdtd`, init_fdtd.py:18-119 -/
def initFdtd (c : FdtdCfg) (s : ℝ) (layers : Option (List ℂ)) (wl : ℝ) : Except PyErr Simulation := do
  let g ← gridInit [.int (xSize c s), .int 3, .int 1] (UNIT_MAGNITUDE / s) none
  let bs ← placeBoundaries g.courant (pmlCells c s)
  let t ← placeDetector ![(xSize c s).toNat, 3, 1] (tDetectorX c s)
  let r ← placeDetector ![(xSize c s).toNat, 3, 1] (rDetectorX c s)
  let xy ← sourceXY c s
  let src ← placeSource g ![(xSize c s).toNat, 3, 1] xy.1 xy.2 wl c.pulse c.sourceType
  let m ← addStack c s g ![(xSize c s).toNat, 3, 1] wl ⟨fun _ _ => 1 / 1, fun _ _ => 0⟩ layers
  .ok ⟨g, { FGrid.fresh ![(xSize c s).toNat, 3, 1] g.courant 1 1 with
    invEps := m.invEps, absorb := m.absorb, boundaries := bs, sources := [src.src], detectors := [t, r] }, src.signal⟩

/-! ### compute_spectrum_fdtd -/

/-- `grid.run(cfg.FDTD_niter)` and `_get_detector_values`, compute_spectrum_fdtd.py:57-60, 98-121: the signals of the two detectors -/
def runSimulation (c : FdtdCfg) (sim : Simulation) : Except PyErr (List ℝ × List ℝ) := do
  let _ ← (List.range (runSteps sim.numbers.timeStep (.int c.niter))).mapM sim.signal
  match (sim.grid.run (runSteps sim.numbers.timeStep (.int c.niter))).detectors with
  | [t, r] => .ok (detectorSignal t.recE, detectorSignal r.recE)
  | _ => .error .valueError

/-- init and run -/
def simulate (c : FdtdCfg) (s : ℝ) (layers : Option (List ℂ)) (wl : ℝ) : Except PyErr (List ℝ × List ℝ) := do
  let sim ← initFdtd c s layers wl
  runSimulation c sim

/-- the entries of one frequency slice -/
def sliceEntries (g : Grid4 ℂ) (i : ℕ) : List (Option ℂ) :=
  (List.range g.sx).flatMap fun x => (List.range g.sy).flatMap fun y => (List.range g.sl).map fun l => g.val x y l i

/-- `_check_if_enough_timesteps`, compute_spectrum_fdtd.py:185-218. It only warns, but `torch.sqrt(permittivity.real.max())` is NaN if all real parts are negative (or an entry is NaN) and `int`
of it raises a ValueError. Without layer thicknesses the square root is not taken. -/
def checkTimesteps (c : FdtdCfg) (entries : List (Option ℂ)) : Except PyErr Unit :=
  if c.thick = [] then .ok ()
  else if entries = [] then .error .runtimeError
  else if none ∈ entries ∨ ∀ v ∈ entries, ∀ z, v = some z → z.re < 0 then .error .valueError
  else .ok ()

/-- `permittivity[0][0][i]` for all layers, init_fdtd.py:107 (entry [0, 0] of every layer) -/
def layerEps (g : Grid4 ℂ) (i : ℕ) : List ℂ := (List.range g.sl).map fun l => (g.val 0 0 l i).getD 0

/-- one round of the loop compute_spectrum_fdtd.py:41-89: (transmission, reflection) -/
def fdtdPoint (c : FdtdCfg) (s : ℝ) (g : Grid4 ℂ) (i : ℕ) (wl : ℝ) : Except PyErr (ℝ × ℝ) := do
  if g.sf ≤ i then .error .indexError
  else do
    checkTimesteps c (sliceEntries g i)
    let free ← simulate c s none wl
    let mat ← simulate c s (some (layerEps g i)) wl
    coefficients (windowSize c.minGp wl).toNat free.1 mat.1 free.2 mat.2

/-- the loop, with the two accumulating lists (reflection, transmission) -/
def fdtdLoop (c : FdtdCfg) (s : ℝ) (g : Grid4 ℂ) : List ℝ → ℕ → List ℝ → List ℝ → Except PyErr (List ℝ × List ℝ)
  | [], _, rs, ts => .ok (rs, ts)
  | wl :: rest, i, rs, ts => do
    let tr ← fdtdPoint c s g i wl
    fdtdLoop c s g rest (i + 1) (rs ++ [tr.2]) (ts ++ [tr.1])

/-- lines 35-36: a single thickness is repeated for all layers -/
def expandThick (c : FdtdCfg) : FdtdCfg :=
  if c.thick.length = 1 ∧ 1 < c.nLayers then { c with thick := (List.replicate c.nLayers c.thick).flatten } else c

/-- `compute_spectrum_fdtd`, compute_spectrum_fdtd.py:18-95: (reflection spectrum, transmission spectrum) and the config afterwards. -/
def computeSpectrumFdtd (g : Grid4 ℂ) (c : FdtdCfg) : Except PyErr ((List ℝ × List ℝ) × FdtdCfg) := do
  let fp ← getFrequencyPoints c.freq                                                     -- line 30
  if g.sx = 0 ∨ g.sy = 0 ∨ g.sf = 0 then .error .indexError                               -- line 33
  else do
    let c1 := expandThick { c with freq := fp.2.2 }                                      -- lines 35-36
    let s ← gridScaling c1.freq.wlMin c1.minGp                                           -- line 38
    let rt ← fdtdLoop { c1 with scaling := some s } s g fp.1 0 [] []                     -- lines 41-89
    .ok (rt, { c1 with scaling := some s })

/-- The config entries after lines 30-38 of compute_spectrum_fdtd.py, which is what a run leaves behind whether or not the loop after them fails. -/
def fdtdCfgAfter (c : FdtdCfg) : Except PyErr FdtdCfg := do
  let fp ← getFrequencyPoints c.freq
  let s ← gridScaling c.freq.wlMin c.minGp
  .ok { expandThick { c with freq := fp.2.2 } with scaling := some s }

end

end Nidn
