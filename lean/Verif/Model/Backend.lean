/-
Model of nidn/fdtd/backend.py (`set_backend`), nidn/fdtd/fourier.py, nidn/fdtd/waveforms.py (the pulses without own source class) and nidn/fdtd/conversions.py.
Python strings are lists of characters, floats are reals.
-/
import Verif.Model.FdtdIntegration

namespace Nidn

/-- the string "torch" -/
abbrev nTorch : List Char := ['t', 'o', 'r', 'c', 'h']

/-- the string "torch.cuda" -/
abbrev nTorchCuda : List Char := ['t', 'o', 'r', 'c', 'h', '.', 'c', 'u', 'd', 'a']

/-- the string "cpu" -/
abbrev nCpu : List Char := ['c', 'p', 'u']

/-- the string "cuda" -/
abbrev nCuda : List Char := ['c', 'u', 'd', 'a']

/-- the string "float64" -/
abbrev nFloat64 : List Char := ['f', 'l', 'o', 'a', 't', '6', '4']

/-- backend.py:67, 174: the two backend classes. -/
inductive BackendClass
  | torch
  | torchCuda
  deriving DecidableEq

/-- The backend object: its class and its attribute `float` (backend.py:76, 265-272). -/
structure BackendState (V : Type) where
  cls : BackendClass
  float : V
  deriving DecidableEq

/-- What `set_backend` asks of the environment: `TORCH_CUDA_AVAILABLE` (backend.py:38) and `getattr(torch, …)`. `TORCH_AVAILABLE` is true, the module cannot be imported otherwise (backend.py:220). -/
structure TorchEnv (V : Type) where
  cuda : Bool
  attr : List Char → Option V

/-- Python `s.split(".")`. -/
def splitDots : List Char → List (List Char)
  | [] => [[]]
  | c :: s =>
    if c = '.' then [] :: splitDots s
    else match splitDots s with
      | [] => [[c]]
      | p :: ps => (c :: p) :: ps

/-- backend.py:263-278: class and dtype for a split name; the class is set before the attribute is looked up. -/
def setDevice {V : Type} (env : TorchEnv V) (st : BackendState V) (name device dtype : List Char) : Except PyErr Unit × BackendState V :=
  if name = nTorch then
    if device = nCpu then
      match env.attr dtype with
      | some v => (.ok (), ⟨.torch, v⟩)
      | none => (.error .attributeError, ⟨.torch, st.float⟩)
    else if device = nCuda then
      match env.attr dtype with
      | some v => (.ok (), ⟨.torchCuda, v⟩)
      | none => (.error .attributeError, ⟨.torchCuda, st.float⟩)
    else (.error .valueError, st)
  else (.error .valueError, st)

/-- backend.py:225-278 `set_backend`: outcome and backend afterwards. -/
def setBackend {V : Type} (env : TorchEnv V) (st : BackendState V) (name : List Char) : Except PyErr Unit × BackendState V :=
  if nTorchCuda.isPrefixOf name = true ∧ env.cuda = false then (.error .runtimeError, st)
  else match splitDots name with
    | [n] => setDevice env st n nCpu nFloat64
    | [n, d] => if d = nCuda then setDevice env st n nCuda nFloat64 else setDevice env st n nCpu d
    | [n, dev, d] => setDevice env st n dev d
    | _ => (.error .valueError, st)

noncomputable section

/-- fourier.py:83-88: the frequency window, by default from zero to the Nyquist frequency. -/
def freqWindow (len : ℕ) (dt : ℝ) (window : Option (ℝ × ℝ)) : Except PyErr (ℝ × ℝ) :=
  match window with
  | none => do
    let e ← pyDiv ((len : ℝ) / 2) (dt * len)
    return (0, e)
  | some w => .ok w

/-- fourier.py:92-97: the number of bins. `bins` and `res` are the two optional requests. -/
def fftBins (len : ℕ) (b e : ℝ) (bins res : Option ℝ) : Except PyErr (Option ℝ) :=
  match bins, res with
  | none, some r => do
    let x ← pyDiv (b - e) r
    return some x
  | none, none => .ok (some len)
  | some n, r => if n = 0 ∧ (r = none ∨ r = some 0) then .ok (some len) else .ok (some n)

/-- fourier.py:48-115 `compute_padding` (the printing left out): padding and end time. -/
def computePadding (len : ℕ) (dt : ℝ) (window : Option (ℝ × ℝ)) (bins res : Option ℝ) : Except PyErr (ℤ × ℝ) := do
  let w ← freqWindow len dt window
  let n ← fftBins len w.1 w.2 bins res
  match n with
  | none => .error .typeError
  | some n => do
    let _ ← pyDiv 1 ((len : ℝ) * dt)
    let d ← pyDiv 1 dt
    let _ ← pyDiv d n
    let x ← pyDiv n ((w.2 - w.1) * dt)
    return (⌈x⌉ - (len : ℤ), (len : ℝ) * dt)

/-- The padding modes `torch.nn.functional.pad` knows. -/
def torchPadModes : List String := ["constant", "reflect", "replicate", "circular"]

/-- backend.py:154 `bd.pad` = `torch.nn.functional.pad` on a one-dimensional tensor: modes it does not know raise. Only "edge" is ever passed (fourier.py:210, 267-268). -/
def bdPad (x : List ℝ) (n : ℤ) (mode : String) : Except PyErr (List ℝ) :=
  if mode ∈ torchPadModes then .ok (x.take (x.length + n).toNat ++ List.replicate n.toNat (x.getLastD 0)) else .error .notImplementedError

/-- fourier.py:123-142 `compute_frequencies`: `numpy.fft.fftfreq(n, d)` and the index range; a window is refused. -/
def computeFrequencies (n : ℕ) (dt : ℝ) (window : Option (ℝ × ℝ)) : Except PyErr (List ℝ × ℤ × ℤ) :=
  if n = 0 ∨ dt = 0 then .error .zeroDivisionError
  else match window with
    | none => .ok ((List.range n).map (fun k => (if k < (n + 1) / 2 then (k : ℝ) else (k : ℝ) - n) / (n * dt)), 0, -1)
    | some _ => .error .notImplementedError

/-- fourier.py:169-224 `FFT` of a plain array; `fft` stands for calling `torch.fft`. -/
def fftRoutine (steps : ℕ) (fft : List ℝ → Except PyErr (List ℂ)) (x : List ℝ) (dt : ℝ) (window : Option (ℝ × ℝ)) (bins res : Option ℝ) : Except PyErr (List ℝ × List ℂ) :=
  if steps = 0 then .ok ([], [])
  else do
    let p ← computePadding x.length dt window bins res
    let y ← bdPad x p.1 "edge"
    let s ← fft y
    let f ← computeFrequencies y.length dt window
    return (f.1.dropLast, s.dropLast)

/-- waveforms.py:31 `fwhm_constant` -/
def fwhmConstant : ℝ := 2 * Real.sqrt (2 * Real.log 2)

/-- waveforms.py:34-46 `normalized_gaussian_pulse` (`fwhm ≠ 0`) -/
def gaussianPulse (x fwhm center : ℝ) : ℝ := Real.exp (-((x - center) ^ 2 / (2 * (fwhm / fwhmConstant) ^ 2)))

/-- waveforms.py:49-53 `normalized_gaussian_derivative_pulse` (`fwhm ≠ 0`) -/
def gaussianDerivativePulse (x fwhm center : ℝ) : ℝ :=
  Real.exp (1 / 2 - (x - center) ^ 2 / (2 * (fwhm / fwhmConstant) ^ 2)) * (x - center) / (fwhm / fwhmConstant)

/-- conversions.py:32-33 -/
def simE_to_worldE (x : ℝ) : ℝ := x / Real.sqrt EPS_0

/-- conversions.py:36-37 -/
def worldE_to_simE (x : ℝ) : ℝ := Real.sqrt EPS_0 * x

/-- conversions.py:40-41 -/
def simH_to_worldH (x : ℝ) : ℝ := x / Real.sqrt MU_0

/-- conversions.py:44-45 -/
def worldH_to_simH (x : ℝ) : ℝ := Real.sqrt MU_0 * x

end

end Nidn
