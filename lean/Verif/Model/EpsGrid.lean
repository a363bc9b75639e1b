/-
Model of the conversion of a network's output to a permittivity grid: nidn/training/model/model_to_eps_grid.py.

Tensors are functions of natural-number indices; entries outside the shape are irrelevant. `reshape` is row-major index arithmetic. The network is
an arbitrary function from a coordinate 4-tuple to its output channels (torch networks act row by row). Random noise is an argument.
-/
import Verif.Model.Py
import Verif.Model.Materials
import Mathlib.Analysis.SpecialFunctions.Exp

namespace Nidn

section Field
variable {K : Type} [Field K] [LinearOrder K]

/-- `torch.linspace(a, b, n)[i]` -/
def linspaceAt (a b : K) (n i : ℕ) : K := if n = 1 then a else a + (b - a) * i / ((n : K) - 1)

/-- `torch.cumsum(t)[i]` -/
def cumsumAt (t : List K) (i : ℕ) : K := (t.take (i + 1)).sum

/-- The maximum of a list of numbers with a default for the empty list (torch raises there). -/
def listMax : List K → K
  | [] => 0
  | v :: rest => rest.foldl max v

/-- model_to_eps_grid.py:25-35: the z coordinates. -/
def zCoords (nLayers : ℕ) (thicknesses : List K) : List K :=
  if thicknesses.length = 1 then (List.range nLayers).map fun i => linspaceAt (-1) 1 nLayers i          -- line 26
  else
    let total := thicknesses.sum                                                                        -- line 28
    let rel := thicknesses.map (· / total)
    let z := (List.range thicknesses.length).map fun i => cumsumAt rel i                                 -- line 31
    let z := z.map fun v => v - (thicknesses.headD 0) / total                                            -- line 32
    let z := z.map fun v => v / listMax z - 1 / 2                                                        -- line 34
    z.map (· * 2)                                                                                        -- line 35

/-- `t.clip(lo, hi)` (torch: `min(max(t, lo), hi)`) -/
def clip (lo hi v : K) : K := min (max v lo) hi

/-- `torch.sign` -/
def tsign (v : K) : K := if 0 < v then 1 else if v < 0 then -1 else 0

/-- model_to_eps_grid.py:40-56 `_avoid_zero_eps` on one real part: zeros first, then the band around zero. -/
def avoidZero (cutoff v : K) : K :=
  let v := if v = 0 then cutoff else v                                                                   -- lines 51-52
  if v < cutoff ∧ v > -cutoff then cutoff * tsign v else v                                               -- lines 54-55

/-- `_avoid_zero_eps` on one permittivity (real, imaginary): the imaginary part is not touched. -/
def avoidZeroEps (cutoff : K) (e : K × K) : K × K := (avoidZero cutoff e.1, e.2)

/-- The config entries used by the conversion. -/
structure GridCfg (K : Type) where
  nx : ℕ
  ny : ℕ
  nLayers : ℕ
  nFreq : ℕ
  oversampling : ℕ
  realMin : K
  realMax : K
  imagMin : K
  imagMax : K
  avoidZeroEps : Bool
  addNoise : Bool
  noiseScale : K

/-- model_to_eps_grid.py:141-142 `Nx // eps_oversampling` -/
def GridCfg.nxU (c : GridCfg K) : ℕ := c.nx / c.oversampling
/-- model_to_eps_grid.py:141-142 `Ny // eps_oversampling` -/
def GridCfg.nyU (c : GridCfg K) : ℕ := c.ny / c.oversampling

/-- model_to_eps_grid.py:110-116: row `r` of `nn_inputs`, the flattened meshgrid (x slowest, frequency fastest) of the four tick lists. -/
def nnInput (nyU nLayers nFreq : ℕ) (x y z freq : ℕ → K) (r : ℕ) : K × K × K × K :=
  (x (r / nFreq / nLayers / nyU), y (r / nFreq / nLayers % nyU), z (r / nFreq % nLayers), freq (r % nFreq))

/-- model_to_eps_grid.py:119: output of the network on all rows; `net` maps a row to its output channels. -/
def netOut (net : K × K × K × K → ℕ → K) (nyU nLayers nFreq : ℕ) (x y z freq : ℕ → K) (row chan : ℕ) : K :=
  net (nnInput nyU nLayers nFreq x y z freq row) chan

/-- `out.reshape(n0, n1, n2, n3)[i, j, k, l]` of a two-axis tensor with `cols` columns: row-major. -/
def reshape4 (out : ℕ → ℕ → K) (cols n1 n2 n3 : ℕ) (i j k l : ℕ) : K :=
  let flat := ((i * n1 + j) * n2 + k) * n3 + l
  out (flat / cols) (flat % cols)

/-- `torch.repeat_interleave(out, s, dim=0)` followed by `dim=1` (lines 172-173 and 259-260): entry `i` is the old entry `i / s`. -/
def repeatXY {α : Type} (s : ℕ) (out : ℕ → ℕ → ℕ → ℕ → α) (i j k l : ℕ) : α := out (i / s) (j / s) k l

/-- model_to_eps_grid.py:167-191: normalised output to real part (before zero-avoidance). -/
def realPart (c : GridCfg K) (v : K) : K := clip c.realMin c.realMax (v * (c.realMax - c.realMin) + c.realMin)

/-- model_to_eps_grid.py:197-200: normalised output to imaginary part; `imag_min_eps` is not added. -/
def imagPart (c : GridCfg K) (v : K) : K := clip c.imagMin c.imagMax (v * (c.imagMax - c.imagMin))

/-- model_to_eps_grid.py:203-217: the noise stage; `nr`, `ni` are the samples of `randn_like`. -/
def noiseStage (c : GridCfg K) (nr ni : K) (e : K × K) : K × K :=
  if c.addNoise then
    (clip c.realMin c.realMax (e.1 + (nr - 1 / 2) * 2 * c.noiseScale * (c.realMax - c.realMin)),
     clip c.imagMin c.imagMax (e.2 + (ni - 1 / 2) * 2 * c.noiseScale * (c.imagMax - c.imagMin)))
  else e

/-- model_to_eps_grid.py:183-200: both parts of one cell from its two raw numbers. The default cutoff of `_avoid_zero_eps` is 1e-2. -/
def toEps (c : GridCfg K) (rawRe rawIm : K) : K × K :=
  let re := realPart c rawRe
  let re := if c.avoidZeroEps then avoidZero (1 / 100) re else re                                        -- lines 193-194
  (re, imagPart c rawIm)

/-- model_to_eps_grid.py:130-219 `_regression_model_to_eps_grid` for a network model with two output channels: the permittivity of cell `(i, j, k)` at
frequency `f`. Assigning the `(Nx//s)*s` wide result to the `Nx` wide grid fails for other sizes (RuntimeError). -/
def regressionEps (c : GridCfg K) (out : ℕ → ℕ → K) (noise : ℕ → ℕ → ℕ → ℕ → K × K) : Except PyErr (ℕ → ℕ → ℕ → ℕ → K × K) :=
  if c.nxU * c.oversampling = c.nx ∧ c.nyU * c.oversampling = c.ny then
    let o := repeatXY c.oversampling (reshape4 out 2 c.nyU c.nLayers (2 * c.nFreq))                       -- lines 167-173
    .ok fun i j k f => noiseStage c (noise i j k f).1 (noise i j k f).2 (toEps c (o i j k f) (o i j k (c.nFreq + f)))
  else .error .runtimeError

/-- model_to_eps_grid.py:157-162 and 203-217: the voxel model's weights are only clipped (and noised). -/
def voxelEps (c : GridCfg K) (w : ℕ → ℕ → ℕ → ℕ → K × K) (noise : ℕ → ℕ → ℕ → ℕ → K × K) : ℕ → ℕ → ℕ → ℕ → K × K :=
  fun i j k f => noiseStage c (noise i j k f).1 (noise i j k f).2
    (clip c.realMin c.realMax (w i j k f).1, clip c.imagMin c.imagMax (w i j k f).2)

end Field

/-! ### Classification -/

/-- `out.reshape(n0, n1, L, F, M)[i, j, k, f, m]` of a two-axis tensor with `M` columns, model_to_eps_grid.py:250-256 -/
def reshape5 (out : ℕ → ℕ → ℝ) (cols n1 n2 n3 n4 : ℕ) (i j k f m : ℕ) : ℝ :=
  let flat := (((i * n1 + j) * n2 + k) * n3 + f) * n4 + m
  out (flat / cols) (flat % cols)

/-- model_to_eps_grid.py:250-267: the averaged (and noised) score of material `m` in cell `(i, j, k)`. `noise` is the zero function without add_noise. -/
noncomputable def classScore (c : GridCfg ℝ) (nMat : ℕ) (out : ℕ → ℕ → ℝ) (noise : ℕ → ℕ → ℕ → ℕ → ℝ) (i j k m : ℕ) : ℝ :=
  ((List.range c.nFreq).map fun f =>
      reshape5 out nMat c.nyU c.nLayers c.nFreq nMat (i / c.oversampling) (j / c.oversampling) k f m).sum / c.nFreq
    + (if c.addNoise then noise i j k m * c.noiseScale else 0)

/-- model_to_eps_grid.py:269-274: softmax with beta = 16, then renormalisation; for one cell with scores `s`. -/
noncomputable def materialId (nMat : ℕ) (s : ℕ → ℝ) (m : ℕ) : ℝ :=
  let expo := fun m => Real.exp (16 * s m)                                                                -- line 271
  let p := fun m => expo m / ((List.range nMat).map expo).sum                                             -- line 272
  p m / ((List.range nMat).map p).sum                                                                     -- line 274

/-- model_to_eps_grid.py:277-279 for one cell: `(material_id.unsqueeze(-1) * epsilon_matrix).sum(-2)` with numpy broadcasting; the epsilon matrix may have
lost axes (see `stackSqueeze`). The result is the list along the last axis. -/
noncomputable def mixEps (nMat : ℕ) (w : ℕ → ℝ) : EpsMatrix ℂ → List ℂ
  | .scalar v => [((List.range nMat).map fun m => (w m : ℂ) * v).sum]
  | .vec vs => vs.map fun v => ((List.range nMat).map fun m => (w m : ℂ) * v).sum
  | .mat rows => (List.range (rows.headD []).length).map fun f => ((List.range nMat).map fun m => (w m : ℂ) * ((rows.getD m []).getD f 0)).sum

/-- `_avoid_zero_eps` on a complex number with the default cutoff. -/
noncomputable def avoidZeroC (e : ℂ) : ℂ := ⟨avoidZero (1 / 100) e.re, e.im⟩

/-- model_to_eps_grid.py:222-284 `_classification_model_to_eps_grid` for one cell: (permittivities along the last axis, material weights). -/
noncomputable def classificationCell (c : GridCfg ℝ) (nMat : ℕ) (mat : EpsMatrix ℂ) (out : ℕ → ℕ → ℝ) (noise : ℕ → ℕ → ℕ → ℕ → ℝ) (i j k : ℕ) :
    List ℂ × (ℕ → ℝ) :=
  let w := materialId nMat (classScore c nMat out noise i j k)
  let eps := mixEps nMat w mat
  (if c.avoidZeroEps then eps.map avoidZeroC else eps, w)

end Nidn
