/-
Model of the networks: nidn/training/utils/nerf.py, nidn/training/utils/siren.py, nidn/training/utils/voxel.py and the constructor calls of
nidn/training/model/init_network.py.

A network is evaluated on one row (torch applies the layers row by row, and `torch.cat(.., dim=1)` concatenates along the row). Weights are arbitrary
real numbers, so all statements hold for every initialisation and after any training. `nn.Linear` on a row of the wrong length is a RuntimeError.
-/
import Verif.Model.Py
import Mathlib.Analysis.SpecialFunctions.Exp
import Mathlib.Analysis.SpecialFunctions.Trigonometric.Basic

namespace Nidn

/-- `nn.Linear(in_features, out_features)` with its weights. -/
structure Linear where
  inF : ℕ
  outF : ℕ
  weight : ℕ → ℕ → ℝ
  bias : ℕ → ℝ

/-- `nn.Linear.forward` on one row. -/
noncomputable def Linear.forward (l : Linear) (x : List ℝ) : Except PyErr (List ℝ) :=
  if x.length = l.inF then
    .ok ((List.range l.outF).map fun o : ℕ => ((List.range l.inF).map fun i : ℕ => l.weight o i * x.getD i 0).sum + l.bias o)
  else .error .runtimeError

/-- `nn.ReLU` -/
noncomputable def relu (x : ℝ) : ℝ := max x 0

/-- `nn.Sigmoid` -/
noncomputable def sigmoid (x : ℝ) : ℝ := 1 / (1 + Real.exp (-x))

/-- nerf.py:5-19 `NERFLayer`: a linear layer with an activation. siren.py:11-46 `SineLayer` has the same form with activation `sin(omega_0 * .)`. -/
structure ActLayer where
  linear : Linear
  activation : ℝ → ℝ

/-- nerf.py:18-19 and siren.py:45-46: `activation(linear(input))`. -/
noncomputable def ActLayer.forward (l : ActLayer) (x : List ℝ) : Except PyErr (List ℝ) := do
  let y ← l.linear.forward x
  .ok (y.map l.activation)

/-- The weights of a network are arbitrary: a function giving weight matrix and bias of each layer. -/
structure NetWeights where
  weight : ℕ → ℕ → ℕ → ℝ
  bias : ℕ → ℕ → ℝ

/-- nerf.py:25-47: the layer list built by the constructor. -/
noncomputable def nerfNet (inF outF : ℕ) (skip : List ℕ) (nNeurons : ℕ) (act : ℝ → ℝ) (hidden : ℕ) (w : NetWeights) : List ActLayer :=
  [⟨⟨inF, nNeurons, w.weight 0, w.bias 0⟩, relu⟩] ++                                                          -- line 39
  (List.range hidden).map (fun i : ℕ =>                                                                        -- lines 41-45
    if i ∈ skip then ⟨⟨nNeurons + inF, nNeurons, w.weight (i + 1), w.bias (i + 1)⟩, relu⟩
    else ⟨⟨nNeurons, nNeurons, w.weight (i + 1), w.bias (i + 1)⟩, relu⟩) ++
  [⟨⟨nNeurons, outF, w.weight (hidden + 1), w.bias (hidden + 1)⟩, act⟩]                                        -- line 47

/-- nerf.py:57-60: the loop over the remaining layers, `idx` is `layer_idx`. -/
noncomputable def nerfLoop (skip : List ℕ) (identity : List ℝ) : ℕ → List ActLayer → List ℝ → Except PyErr (List ℝ)
  | _, [], out => .ok out
  | idx, l :: rest, out => do
    let out ← l.forward out
    nerfLoop skip identity (idx + 1) rest (if idx ∈ skip then out ++ identity else out)

/-- nerf.py:49-62 `forward`. An empty module list would be an IndexError (it never is). -/
noncomputable def nerfForward (skip : List ℕ) (net : List ActLayer) (x : List ℝ) : Except PyErr (List ℝ) :=
  match net with
  | [] => .error .indexError
  | first :: rest => do
    let out ← first.forward x                                                                                  -- line 54
    nerfLoop skip x 1 rest out

/-- init_network.py:19-26: the nerf of a config, evaluated on one row. -/
noncomputable def nerfEval (encodingDim outF nNeurons hidden : ℕ) (w : NetWeights) (x : List ℝ) : Except PyErr (List ℝ) :=
  nerfForward [4] (nerfNet encodingDim outF [4] nNeurons sigmoid hidden w) x

/-- `nn.Sequential` of layers -/
noncomputable def seqForward : List ActLayer → List ℝ → Except PyErr (List ℝ)
  | [], x => .ok x
  | l :: rest, x => do
    let y ← l.forward x
    seqForward rest y

/-- siren.py:57-112 with `outermost_linear=True`: sine layers, then a linear layer followed by the outermost activation. -/
noncomputable def sirenNet (inF hiddenF hidden outF : ℕ) (act : ℝ → ℝ) (firstOmega hiddenOmega : ℝ) (w : NetWeights) : List ActLayer :=
  [⟨⟨inF, hiddenF, w.weight 0, w.bias 0⟩, fun v => Real.sin (firstOmega * v)⟩] ++                              -- lines 73-77
  (List.range hidden).map (fun i : ℕ => ⟨⟨hiddenF, hiddenF, w.weight (i + 1), w.bias (i + 1)⟩, fun v => Real.sin (hiddenOmega * v)⟩) ++   -- lines 79-87
  [⟨⟨hiddenF, outF, w.weight (hidden + 1), w.bias (hidden + 1)⟩, act⟩]                                         -- lines 90-99

/-- init_network.py:28-37: the siren of a config, evaluated on one row. -/
noncomputable def sirenEval (encodingDim outF nNeurons hidden : ℕ) (omega : ℝ) (w : NetWeights) (x : List ℝ) : Except PyErr (List ℝ) :=
  seqForward (sirenNet encodingDim nNeurons hidden outF sigmoid omega omega w) x

/-- voxel.py:8-26: the initial weight of one cell from the two numbers `torch.rand` drew from [0, 1) for its real and imaginary part. The assertion on the run type
comes first. -/
def voxelInit {K : Type} [Field K] (isRegression : Bool) (realMin realMax imagMin imagMax : K) (u v : ℕ → ℕ → ℕ → ℕ → K) :
    Except PyErr (ℕ → ℕ → ℕ → ℕ → K × K) :=
  if isRegression then
    .ok fun i j k f => (u i j k f * (realMax - realMin) + realMin, v i j k f * (imagMax - imagMin) + imagMin)
  else .error .assertionError

end Nidn
