/-
Model of nidn/trcwa/utils/torch_functions.py: the stand-ins for numpy functions the RCWA solver is written in.
Tensors carry a data type, a shape and a value for every index; the values are exact complex numbers, so rounding shows only in the data type.
-/
import Verif.Model.Py
import Mathlib.Data.Complex.Basic
import Mathlib.Algebra.BigOperators.Group.Finset.Basic

namespace Nidn

/-- the torch data types that occur: float, double, cfloat, cdouble (single and double precision, real and complex) and int64 -/
inductive TorchType
  | i64 | f32 | f64 | c64 | c128
  deriving DecidableEq

/-- a torch tensor; `val` is read only at indices inside the shape -/
structure Ten where
  dtype : TorchType
  shape : List ℕ
  val : List ℕ → ℂ

/-- `t.type(dtype)`: a real tensor becomes complex or a complex one changes its precision (exact here) -/
def Ten.cast (t : Ten) (d : TorchType) : Ten := { t with dtype := d }

/-- `torch.cfloat` or `torch.cdouble`, nidn/trcwa/utils/torch_functions.py:69,71 -/
def TorchType.isComplex : TorchType → Bool
  | .c64 | .c128 => true
  | _ => false

/-- `torch.dot`: two vectors of the same length and type, else `RuntimeError` -/
noncomputable def torchDot1 (a b : Ten) : Except PyErr Ten :=
  match a.shape, b.shape with
  | [n], [m] => if n = m ∧ a.dtype = b.dtype then .ok ⟨a.dtype, [], fun idx => if idx = [] then ∑ k ∈ Finset.range n, a.val [k] * b.val [k] else 0⟩ else .error .runtimeError
  | _, _ => .error .runtimeError

/-- `torch.mv`: a matrix and a vector of fitting sizes and the same type, else `RuntimeError` -/
noncomputable def torchMv (a b : Ten) : Except PyErr Ten :=
  match a.shape, b.shape with
  | [m, n], [n'] => if n = n' ∧ a.dtype = b.dtype then .ok ⟨a.dtype, [m], fun idx => match idx with
      | [i] => if i < m then ∑ k ∈ Finset.range n, a.val [i, k] * b.val [k] else 0
      | _ => 0⟩ else .error .runtimeError
  | _, _ => .error .runtimeError

/-- `torch.mm`: two matrices of fitting sizes and the same type, else `RuntimeError` -/
noncomputable def torchMm (a b : Ten) : Except PyErr Ten :=
  match a.shape, b.shape with
  | [m, n], [n', p] => if n = n' ∧ a.dtype = b.dtype then .ok ⟨a.dtype, [m, p], fun idx => match idx with
      | [i, j] => if i < m ∧ j < p then ∑ k ∈ Finset.range n, a.val [i, k] * b.val [k, j] else 0
      | _ => 0⟩ else .error .runtimeError
  | _, _ => .error .runtimeError

/-- the changes of type at the start of `torch_dot`, nidn/trcwa/utils/torch_functions.py:68-72 -/
def alignTypes (a b : Ten) : Ten × Ten :=
  if a.dtype ≠ b.dtype then
    if a.dtype.isComplex then (a, b.cast a.dtype)
    else if b.dtype.isComplex then (a.cast b.dtype, b)
    else (a, b)
  else (a, b)

/-- `torch_dot`, nidn/trcwa/utils/torch_functions.py:58-79 -/
noncomputable def torchDot (a b : Ten) : Except PyErr Ten :=
  let (a, b) := alignTypes a b
  if a.shape.length = 2 ∧ b.shape.length = 1 then torchMv a b
  else if 1 < a.shape.length then torchMm a b
  else torchDot1 a b

/-- `tensor.permute(indices)` for a permutation of the axes: axis `i` of the result is axis `indices[i]` of the tensor -/
def Ten.permute (t : Ten) (indices : List ℕ) : Ten where
  dtype := t.dtype
  shape := indices.map fun a => t.shape.getD a 0
  val idx := t.val ((List.range t.shape.length).map fun a => idx.getD (indices.idxOf a) 0)

/-- `torch_transpose`, nidn/trcwa/utils/torch_functions.py:41-55 -/
def torchTranspose (t : Ten) : Ten := t.permute ((List.range t.shape.length).map fun i => t.shape.length - i - 1)

/-- the `dtype` argument of `torch_zeros` and `torch_eye`: the Python type `complex`, a torch type, or `None` -/
inductive TypeArg
  | pyComplex | torch (d : TorchType) | none

/-- `torch.complex(real, imag)` of two tensors of the default (floating) type: the complex type of the same precision -/
def complexOf : TorchType → Except PyErr TorchType
  | .f32 => .ok .c64
  | .f64 => .ok .c128
  | _ => .error .runtimeError

/-- `torch_zeros`, nidn/trcwa/utils/torch_functions.py:5-20; `dflt` is torch's default type (nidn/__init__.py:38 sets double,
nidn/training/run_training.py:34 sets float when a GPU is used) -/
def torchZeros (dflt : TorchType) (shape : List ℕ) : TypeArg → Except PyErr Ten
  | .pyComplex => (complexOf dflt).map fun d => ⟨d, shape, fun _ => 0⟩
  | .torch d => .ok ⟨d, shape, fun _ => 0⟩
  | .none => .ok ⟨dflt, shape, fun _ => 0⟩

/-- the entries of `torch.eye(size)` -/
def eyeVal (size : ℕ) : List ℕ → ℂ := fun idx => match idx with
  | [i, j] => if i < size ∧ j < size ∧ i = j then 1 else 0
  | _ => 0

/-- `torch_eye`, nidn/trcwa/utils/torch_functions.py:23-38 -/
def torchEye (dflt : TorchType) (size : ℕ) (dtype : TypeArg) : Except PyErr Ten :=
  match dtype with
  | .pyComplex => (complexOf dflt).map fun d => ⟨d, [size, size], eyeVal size⟩
  | .torch d => .ok ⟨d, [size, size], eyeVal size⟩
  | .none => .ok ⟨dflt, [size, size], eyeVal size⟩

end Nidn
