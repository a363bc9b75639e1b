/-
Shapes of the tensors on the way from the network to the solver: nidn/training/model/model_to_eps_grid.py and the assertions of nidn/trcwa/compute_spectrum_trcwa.py. The values are in Model/EpsGrid.lean, which
takes the shapes for granted; here the shape errors of torch are modelled.
-/
import Verif.Model.Py
import Verif.Model.Nets
import Verif.Model.ConfigEffects

namespace Nidn

/-- `tensor.shape` -/
abbrev Dims := List ℕ

/-- `t.reshape(*target)`: RuntimeError unless the number of entries is the same -/
def reshapeTo (target s : Dims) : Except PyErr Dims := if s.prod = target.prod then .ok target else .error .runtimeError

/-- `torch.repeat_interleave(t, r, dim=k)` -/
def repeatDim (k r : ℕ) (s : Dims) : Except PyErr Dims := if k < s.length then .ok (s.set k (s.getD k 0 * r)) else .error .indexError

/-- `torch.mean(t, dim=k)` and `t.sum(k)` -/
def dropDim (k : ℕ) (s : Dims) : Except PyErr Dims := if k < s.length then .ok (s.eraseIdx k) else .error .indexError

/-- the last axis cut to a range of indices: `t[..., a:b]` -/
def cutLast (a b : ℕ) (s : Dims) : Dims := s.set (s.length - 1) (min b (s.getLastD 0) - a)

/-- broadcasting of two axes: equal, or one of them has length one -/
def joinAxis (a b : ℕ) : Except PyErr ℕ := if a = b then .ok a else if a = 1 then .ok b else if b = 1 then .ok a else .error .runtimeError

/-- broadcasting of two shapes given from the last axis to the first -/
def joinRev : Dims → Dims → Except PyErr Dims
  | [], s => .ok s
  | s, [] => .ok s
  | a :: s, b :: t => do
    let c ← joinAxis a b
    let r ← joinRev s t
    .ok (c :: r)

/-- the shape of `t * u` -/
def broadcastShapes (s t : Dims) : Except PyErr Dims := (joinRev s.reverse t.reverse).map List.reverse

/-- `t.copy_(u)`, which assigning to `t.real` is: `u` must broadcast to the shape of `t` -/
def copyInto (t u : Dims) : Except PyErr Dims := do
  let r ← broadcastShapes t u
  if r = t then .ok t else .error .runtimeError

/-- `t.squeeze()` -/
def squeezeShape (s : Dims) : Dims := s.filter (· ≠ 1)

/-- The settings that shapes depend on; `nThick` is `len(PER_LAYER_THICKNESS)`, `nTarget` is `len(target_frequencies)`. -/
structure ShapeCfg where
  nx : ℕ
  ny : ℕ
  nLayers : ℕ
  nFreq : ℕ
  os : ℕ
  nThick : ℕ
  nTarget : ℕ

/-- The models as far as shapes are concerned: a network maps rows with so many columns to rows with so many columns, a voxel grid has a shape (nidn/training/utils/voxel.py:16). -/
inductive ShapeModel
  | network (columns : ℕ → Except PyErr ℕ)
  | voxel (weights : Dims)

/-- `_eval_model`, model_to_eps_grid.py:59-127, with the ticks of `_get_transformed_grid` (:22-37): as many z ticks as layers, or as thicknesses if there is more than one (:25-35). -/
def evalShape (c : ShapeCfg) : ShapeModel → Except PyErr Dims
  | .network columns => do
    let rows := (c.nx / c.os) * (c.ny / c.os) * (if c.nThick = 1 then c.nLayers else c.nThick) * c.nTarget     -- lines 107-116
    let o ← columns 4                                                                                          -- line 119
    .ok [rows, o]
  | .voxel w => .ok w                                                                                          -- line 121

/-- `_regression_model_to_eps_grid`, model_to_eps_grid.py:130-219 -/
def regressionShape (c : ShapeCfg) (m : ShapeModel) : Except PyErr Dims := do
  let out ← evalShape c m
  match m with
  | .voxel _ => .ok out                                                                                        -- lines 157-162
  | .network _ => do
    let out ← reshapeTo [c.nx / c.os, c.ny / c.os, c.nLayers, 2 * c.nFreq] out                                 -- lines 167-169
    let out ← repeatDim 0 c.os out                                                                             -- line 172
    let out ← repeatDim 1 c.os out                                                                             -- line 173
    let eps := [c.nx, c.ny, c.nLayers, c.nFreq]                                                                -- lines 176-179
    let eps ← copyInto eps (cutLast 0 c.nFreq out)                                                             -- line 183
    copyInto eps (cutLast c.nFreq (2 * c.nFreq) out)                                                           -- line 197

/-- `_classification_model_to_eps_grid`, model_to_eps_grid.py:222-284: the shapes of the permittivities and of the material weights. `mats` is the shape of `epsilon_matrix`. -/
def classificationShape (c : ShapeCfg) (nMat : ℕ) (mats : Dims) (m : ShapeModel) : Except PyErr (Dims × Dims) := do
  let out ← evalShape c m
  let out ← reshapeTo [c.nx / c.os, c.ny / c.os, c.nLayers, c.nFreq, nMat] out                                 -- lines 250-256
  let out ← repeatDim 0 c.os out                                                                               -- line 259
  let out ← repeatDim 1 c.os out                                                                               -- line 260
  let out ← dropDim 3 out                                                                                      -- line 263
  let p ← broadcastShapes (out ++ [1]) mats                                                                    -- lines 277-279
  let eps ← dropDim (p.length - 2) p                                                                           -- line 279
  .ok (eps, out)

/-- `MaterialCollection.epsilon_matrix`: `torch.stack(rows).squeeze()`, material_collection.py:82 -/
def matsShape (nMat nFreq : ℕ) : Dims := squeezeShape [nMat, nFreq]

/-- The assertions of `compute_spectrum_trcwa`, compute_spectrum_trcwa.py:32-39, for a permittivity grid of this shape. -/
def trcwaAsserts (c : ShapeCfg) (eps : Dims) : Except PyErr Unit :=
  if c.nTarget ≠ c.nFreq then .error .assertionError
  else if eps.length < 4 then .error .indexError
  else if eps.take 4 = [c.nx, c.ny, c.nLayers, c.nFreq] then .ok () else .error .assertionError

/-- the columns of a nerf (init_network.py:19-26) applied to rows with `n` columns -/
noncomputable def nerfColumns (encodingDim outF nNeurons hidden : ℕ) (w : NetWeights) (n : ℕ) : Except PyErr ℕ :=
  (nerfEval encodingDim outF nNeurons hidden w (List.replicate n 0)).map List.length

/-- the columns of a siren (init_network.py:28-37) applied to rows with `n` columns -/
noncomputable def sirenColumns (encodingDim outF nNeurons hidden : ℕ) (omega : ℝ) (w : NetWeights) (n : ℕ) : Except PyErr ℕ :=
  (sirenEval encodingDim outF nNeurons hidden omega w (List.replicate n 0)).map List.length

end Nidn
