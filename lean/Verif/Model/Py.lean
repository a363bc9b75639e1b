/-
Python-level vocabulary shared by all models: exceptions as values, integer truncation,
negative indices and slices.
-/
import Mathlib.Algebra.Order.Floor.Ring
import Mathlib.Algebra.Order.Field.Basic

namespace Nidn

/-- The exception classes raised (explicitly or by the interpreter) by the modelled code. -/
inductive PyErr
  | valueError
  | keyError
  | typeError
  | runtimeError
  | indexError
  | attributeError
  | notImplementedError
  | zeroDivisionError
  | assertionError
  | unboundLocalError
  | nameError
  /-- `OSError` and its subclasses: a file or folder is missing or in the way -/
  | osError
  /-- `raise Exception(...)` -/
  | exception
  /-- not an exception in Python: the value would be NaN or infinite, which the exact model cannot carry -/
  | nan
  deriving DecidableEq, Repr

/-- `Except` equality is decidable, so concrete runs of a model can be evaluated. -/
instance {ε α : Type*} [DecidableEq ε] [DecidableEq α] : DecidableEq (Except ε α)
  | .error a, .error b => if h : a = b then .isTrue (h ▸ rfl) else .isFalse (fun e => h (by cases e; rfl))
  | .ok a, .ok b => if h : a = b then .isTrue (h ▸ rfl) else .isFalse (fun e => h (by cases e; rfl))
  | .ok _, .error _ => .isFalse (by intro h; cases h)
  | .error _, .ok _ => .isFalse (by intro h; cases h)

/-- Python `int(x)` for a float `x`: truncation towards zero. -/
def pyInt {K : Type*} [Ring K] [LinearOrder K] [FloorRing K] (x : K) : ℤ :=
  if x < 0 then ⌈x⌉ else ⌊x⌋

/-- Python float division `a / b` (raises `ZeroDivisionError` for python floats). -/
def pyDiv {K : Type*} [Field K] [DecidableEq K] (a b : K) : Except PyErr K :=
  if b = 0 then .error .zeroDivisionError else .ok (a / b)

end Nidn
