/-
Model of what the plots of nidn/plots/*.py show: the data handed to matplotlib (curves, scatter points with values, tick labels), not the drawing itself.
-/
import Verif.Model.Units
import Verif.Model.EpsGrid
import Verif.Model.Materials

namespace Nidn

noncomputable section

/-- `ax.plot(x, y)`: matplotlib raises ValueError for arrays of different length. -/
def curve (x y : List ℝ) : Except PyErr (List (ℝ × ℝ)) := if x.length = y.length then .ok (x.zip y) else .error .valueError

/-- An elementwise numpy operation on one-axis arrays, with broadcasting of length one. -/
def npBin (op : ℝ → ℝ → ℝ) (a b : List ℝ) : Except PyErr (List ℝ) :=
  if a.length = b.length then .ok (List.zipWith op a b)
  else match a, b with
    | [x], b => .ok (b.map (op x))
    | a, [y] => .ok (a.map fun x => op x y)
    | _, _ => .error .valueError

/-- One panel of plot_spectra: both curves and the number printed as "L1 Error". -/
structure SpectraPanel where
  target : List (ℝ × ℝ)
  produced : List (ℝ × ℝ)
  l1 : ℝ

/-- plot_spectra.py:26 the x values: `wl_to_phys_wl(freq_to_wl(target_frequencies)) * 1e6`. The division is elementwise numpy (a zero frequency would give inf and is reported as an error). -/
def spectraAxis (freqs : List ℝ) : Except PyErr (List ℝ) := freqs.mapM fun f => (freqToWl f).map fun w => wlToPhysWl w * 1e6

/-- plot_spectra.py:11-72 `_add_plot`; the mean of no numbers is NaN. -/
def spectraPanel (freqs produced target : List ℝ) : Except PyErr SpectraPanel := do
  let x ← spectraAxis freqs                                         -- line 26
  let t ← curve x target                                            -- lines 27-34
  let p ← curve x produced                                          -- lines 35-43
  let d ← npBin (fun a b => |a - b|) target produced                -- line 63
  if d.length = 0 then .error .nan else pure ⟨t, p, d.sum / d.length⟩

/-- plot_spectra.py:114-119 and plot_spectrum.py:86-88 the absorptance `ones_like(R) - (T + R)`. -/
def absorptance (R T : List ℝ) : Except PyErr (List ℝ) := do
  let s ← npBin (· + ·) T R
  npBin (· - ·) (R.map fun _ => 1) s

/-- plot_spectra.py:75-179 `plot_spectra`. `given` are the arguments `prod_R_spectrum` and `prod_T_spectrum`; `compute` is what `model_to_eps_grid` and `compute_spectrum` return for the config (lines 98-103), used
unless both are given. The absorptance is computed (and may raise) but not shown. -/
def plotSpectra (freqs targetR targetT : List ℝ) (given : Option (List ℝ) × Option (List ℝ)) (compute : Except PyErr (List ℝ × List ℝ)) : Except PyErr (SpectraPanel × SpectraPanel) := do
  let RT ← match given with
    | (some R, some T) => pure (R, T)
    | _ => compute                                                  -- lines 98-103
  let _ ← absorptance RT.1 RT.2                                     -- lines 114-116
  let _ ← absorptance targetR targetT                               -- lines 117-119
  let pr ← spectraPanel freqs RT.1 targetR                          -- lines 138-147
  let pt ← spectraPanel freqs RT.2 targetT                          -- lines 148-157
  pure (pr, pt)

/-- plot_spectrum.py:10-49 `_add_plot`: the curve. -/
def spectrumCurve (freqs y : List ℝ) : Except PyErr (List (ℝ × ℝ)) := do
  let x ← freqs.mapM freqToWl                                       -- line 25
  curve x y

/-- plot_spectrum.py:52-142 `plot_spectrum`: the shown curves; the frequencies are computed if the config has none (lines 73-79). -/
def plotSpectrum (c : FreqCfg) (R T : List ℝ) (showAbsorption : Bool) : Except PyErr (List (List (ℝ × ℝ))) := do
  let freqs ← match c.targetFrequencies with
    | some fs => pure fs
    | none => computeTargetFrequencies c.wlMin c.wlMax c.nFreq c.distribution
  let a ← absorptance R T                                           -- lines 86-88
  let r ← spectrumCurve freqs R                                     -- lines 105-113
  let t ← spectrumCurve freqs T                                     -- lines 114-122
  if showAbsorption then
    let a ← spectrumCurve freqs a                                   -- lines 123-131
    pure [r, t, a]
  else pure [r, t]

/-! ### Grid plots -/

/-- The cells of a three-axis array in the order of `reshape(-1, 1)` and `ravel()` (last axis fastest). -/
def gridCells (nx ny nl : ℕ) : List (ℕ × ℕ × ℕ) :=
  (List.range nx).flatMap fun i => (List.range ny).flatMap fun j => (List.range nl).map fun l => (i, j, l)

/-- plot_model_grid.py:16-19 and 40-42, plot_epsilon_grid.py:15-18, plot_model_grid_per_freq.py:20-23, plot_material_grid.py:30-33: `torch.meshgrid` of three `linspace(-1, 1, n)`, flattened. -/
def cellPositions (nx ny nl : ℕ) : List (ℝ × ℝ × ℝ) :=
  (gridCells nx ny nl).map fun c => (linspaceAt (-1) 1 nx c.1, linspaceAt (-1) 1 ny c.2.1, linspaceAt (-1) 1 nl c.2.2)

/-- `ax.scatter(X.reshape(-1, 1), Y.reshape(-1, 1), Z.reshape(-1, 1), c=values)`: matplotlib flattens `c` and raises ValueError if the sizes differ. -/
def scatter {V : Type} (pos : List (ℝ × ℝ × ℝ)) (vals : List V) : Except PyErr (List ((ℝ × ℝ × ℝ) × V)) :=
  if pos.length = vals.length then .ok (pos.zip vals) else .error .valueError

/-- A permittivity tensor of shape `(ex, ey, el, ef)`. -/
structure PermTensor where
  ex : ℕ
  ey : ℕ
  el : ℕ
  ef : ℕ
  val : ℕ → ℕ → ℕ → ℕ → ℂ

/-- plot_model_grid.py:22-23 `torch.mean(eps, dim=3)` and the modulus of the result. -/
def modelGridValue (e : PermTensor) (i j l : ℕ) : ℝ :=
  let m := ((List.range e.ef).map fun f => e.val i j l f).sum / e.ef
  Real.sqrt (m.re ^ 2 + m.im ^ 2)

/-- plot_epsilon_grid.py:21 `torch.norm(eps, dim=3)`: the Euclidean norm over the frequencies. -/
def epsilonGridValue (e : PermTensor) (i j l : ℕ) : ℝ :=
  Real.sqrt (((List.range e.ef).map fun f => ‖e.val i j l f‖ ^ 2).sum)

/-- plot_model_grid.py:8-67 `plot_model_grid`: points of the scatter plot; `nx ny nl` come from the config. -/
def plotModelGrid (nx ny nl : ℕ) (e : PermTensor) : Except PyErr (List ((ℝ × ℝ × ℝ) × ℝ)) :=
  scatter (cellPositions nx ny nl) ((gridCells e.ex e.ey e.el).map fun c => modelGridValue e c.1 c.2.1 c.2.2)

/-- plot_epsilon_grid.py:6-65 `plot_epsilon_grid` -/
def plotEpsilonGrid (nx ny nl : ℕ) (e : PermTensor) : Except PyErr (List ((ℝ × ℝ × ℝ) × ℝ)) :=
  scatter (cellPositions nx ny nl) ((gridCells e.ex e.ey e.el).map fun c => epsilonGridValue e c.1 c.2.1 c.2.2)

/-- The z ticks with their labels, plot_model_grid.py:55-61 (= plot_epsilon_grid.py:52-58, plot_model_grid_per_freq.py:72-78, plot_material_grid.py:80-86). -/
def zTicks (nl : ℕ) : List (ℝ × String) :=
  ((List.range nl).map fun l => linspaceAt (-1) 1 nl l).zip ((List.range nl).map fun l => "L" ++ toString (l + 1))

/-- `t[k]` for a python integer on an axis of length `n` -/
def axisIndex (n : ℕ) (k : ℤ) : Except PyErr ℕ :=
  if 0 ≤ k ∧ k < n then .ok k.toNat else if k < 0 ∧ -(n : ℤ) ≤ k then .ok (k + n).toNat else .error .indexError

/-- `fig.add_subplot(n)` for a three-digit number: (rows, columns, position); ValueError if the position is not in the figure. -/
def addSubplot (n : ℕ) : Except PyErr (ℕ × ℕ × ℕ) :=
  if 100 ≤ n ∧ n ≤ 999 ∧ 1 ≤ n % 10 ∧ n % 10 ≤ n / 100 * (n / 10 % 10) then .ok (n / 100, n / 10 % 10, n % 10) else .error .valueError

/-- One panel of plot_model_grid_per_freq: place, wavelength in the title, points. -/
structure FreqPanel where
  place : ℕ × ℕ × ℕ
  wl : ℝ
  points : List ((ℝ × ℝ × ℝ) × ℝ)

/-- plot_model_grid_per_freq.py:44-67: panel `r` (0 real, 1 imaginary part) of the `idx`-th requested frequency. The title is rounded to two digits; here the unrounded number is kept. -/
def freqPanel (nx ny nl : ℕ) (freqs : List ℝ) (e : PermTensor) (idx : ℕ) (k : ℤ) (f r : ℕ) : Except PyErr FreqPanel := do
  let place ← addSubplot (421 + r + idx * 2)                                              -- line 44
  let pts ← scatter (cellPositions nx ny nl) ((gridCells e.ex e.ey e.el).map fun c => if r = 0 then (e.val c.1 c.2.1 c.2.2 f).re else (e.val c.1 c.2.1 c.2.2 f).im)
  let g ← axisIndex freqs.length k                                                        -- line 63
  let w ← match freqs[g]? with | some q => freqToWl q | none => .error .indexError
  pure ⟨place, w, pts⟩

/-- plot_model_grid_per_freq.py:36-90: the panels for the requested frequency indices from the `idx`-th on. -/
def freqPanels (nx ny nl : ℕ) (freqs : List ℝ) (e : PermTensor) : ℕ → List ℤ → Except PyErr (List FreqPanel)
  | _, [] => .ok []
  | idx, k :: rest => do
    let f ← axisIndex e.ef k                                                              -- lines 37-38
    let a ← freqPanel nx ny nl freqs e idx k f 0
    let b ← freqPanel nx ny nl freqs e idx k f 1
    let t ← freqPanels nx ny nl freqs e (idx + 1) rest
    pure (a :: b :: t)

/-- plot_model_grid_per_freq.py:8-92 `plot_model_grid_per_freq`; `eps.real.min()` of an empty tensor raises RuntimeError (lines 33-34). -/
def plotModelGridPerFreq (nx ny nl : ℕ) (freqs : List ℝ) (e : PermTensor) (freqIdx : List ℤ) : Except PyErr (List FreqPanel) :=
  if e.ex * e.ey * e.el * e.ef = 0 then .error .runtimeError else freqPanels nx ny nl freqs e 0 freqIdx

/-- the default argument `freq_idx`, plot_model_grid_per_freq.py:8 -/
def defaultFreqIdx : List ℤ := [0, 1, 2, 3]

/-! ### Material plots -/

/-- How matplotlib maps the number `c` to one of the `n` colours of a discrete map with limits `vmin`, `vmax`: `int((c - vmin) / (vmax - vmin) * n)`, `c = vmax` counting to the last. -/
def colourIndex (n : ℕ) (vmin vmax c : ℝ) : ℤ := if c = vmax then n - 1 else ⌊(c - vmin) / (vmax - vmin) * n⌋

/-- plot_material_grid.py:53-66: the colour of a cell whose closest material has index `k`, among `n` materials. -/
def materialColour (n k : ℕ) : ℤ := colourIndex n (1 - 0.5) (n + 0.5) (k + 1)

/-- plot_material_grid.py:67-70: the colour bar: ticks `1, …, n`, each with the colour at its place and a label. -/
def colourBar (names : List String) : List (ℤ × String) :=
  (List.range names.length).zip names |>.map fun p => (colourIndex names.length (1 - 0.5) (names.length + 0.5) ((p.1 : ℝ) + 1), p.2)

/-- What a cell of the material plot shows: position, colour, and error (shown if `plot_error`). plot_material_grid.py:11-118 with the closest material of each cell by `findClosest`; the tensor has the shape of the config (otherwise `_find_closest_material` raises or broadcasts). -/
def plotMaterialGrid (am : ArgMin) (nx ny nl nf : ℕ) (mats : List (ℕ → ℂ)) (e : PermTensor) : Except PyErr (List ((ℝ × ℝ × ℝ) × (ℤ × Option ℝ))) :=
  scatter (cellPositions nx ny nl) ((gridCells nx ny nl).map fun c =>
    (materialColour mats.length (findClosest am nf mats (e.val c.1 c.2.1 c.2.2)).2, (findClosest am nf mats (e.val c.1 c.2.1 c.2.2)).1))

/-- plot_eps_per_point.py:74-108: one curve per grid point for the real part, one for the imaginary part, with the legend entry of the same place. -/
def epsCurves (freqs : List ℝ) (e : PermTensor) : Except PyErr (List (String × List (ℝ × ℝ) × List (ℝ × ℝ))) := do
  let wl ← freqs.mapM freqToWl                                                            -- line 53
  let cs ← (gridCells e.ex e.ey e.el).mapM fun c => do
    let re ← curve wl ((List.range e.ef).map fun f => (e.val c.1 c.2.1 c.2.2 f).re)
    let im ← curve wl ((List.range e.ef).map fun f => (e.val c.1 c.2.1 c.2.2 f).im)
    pure (re, im)
  let names := (gridCells e.ex e.ey e.el).map fun c => s!"Layer {c.2.2} - (x,y)=({c.1},{c.2.1})"
  pure (names.zip cs)

/-- `t[0]` on what a material lookup returns: a zero-axis tensor cannot be indexed. -/
def EpsEntry.first {V : Type} : EpsEntry V → Except PyErr V
  | .scalar _ => .error .indexError
  | .vec [] => .error .indexError
  | .vec (v :: _) => .ok v

/-- plot_eps_per_point.py:146-156: the dashed curves of the materials named in `names`: the label stands at the first value. -/
def materialCurves (c : MatCollection (ℝ × ℝ)) (names : List String) : Except PyErr (List (String × EpsEntry (ℝ × ℝ))) :=
  names.mapM fun n => do
    let m ← c.lookup n
    let _ ← m.first                                                                       -- lines 151, 154
    pure (n, m)

/-- plot_eps_per_point.py:13-164 `plot_eps_per_point` with `compare_to_material=None`; `near` are the names of the closest materials that occur (lines 143-145). -/
def plotEpsPerPoint (freqs : List ℝ) (e : PermTensor) (c : MatCollection (ℝ × ℝ)) (near : List String) :
    Except PyErr (List (String × List (ℝ × ℝ) × List (ℝ × ℝ)) × List (String × EpsEntry (ℝ × ℝ))) := do
  let a ← epsCurves freqs e
  let b ← materialCurves c near
  pure (a, b)

/-- The files in the order in which save_all_plots.py:22-39 writes them. -/
def plotFiles : List String := ["spectra_comparison.png", "losses.png", "model_grid.png", "model_grid_per_freq.png", "material_grid.png", "eps_per_pointsNone.png"]

/-- save_all_plots.py:11-39: each plot is made and saved before the next; the first exception ends the call. -/
def saveAll : List (String × Except PyErr Unit) → List String × Except PyErr Unit
  | [] => ([], .ok ())
  | (f, .ok ()) :: rest => (f :: (saveAll rest).1, (saveAll rest).2)
  | (_, .error e) :: _ => ([], .error e)

/-- save_all_plots.py:11-39 with the data the single plots use: target spectra, `compute` the produced spectra, `e` the permittivities of the model, `mats`/`c` the materials. `plot_losses` (plot_losses.py:5-23) draws three
logged lists and cannot fail on a trained config. -/
def saveAllPlots (am : ArgMin) (freqs targetR targetT : List ℝ) (compute : Except PyErr (List ℝ × List ℝ)) (nx ny nl nf : ℕ) (e : PermTensor) (mats : List (ℕ → ℂ)) (c : MatCollection (ℝ × ℝ)) (near : List String) :
    List String × Except PyErr Unit :=
  saveAll (plotFiles.zip [
    (plotSpectra freqs targetR targetT (none, none) compute).map fun _ => (),
    .ok (),
    (plotModelGrid nx ny nl e).map fun _ => (),
    (plotModelGridPerFreq nx ny nl freqs e defaultFreqIdx).map fun _ => (),
    (plotMaterialGrid am nx ny nl nf mats e).map fun _ => (),
    (plotEpsPerPoint freqs e c near).map fun _ => ()])

end

end Nidn
