/-
Independent specification: which indices of an axis with `N` cells the Python slice `a:b` (step one) selects.
-/
import Verif.Model.FdtdGrid

namespace Nidn

/-- a slice bound as an index: missing means `d`, negative counts from the end, out of range is cut off -/
def sliceBound (N : ℕ) (d : ℤ) : Option ℤ → ℤ
  | none => d
  | some v => if v < 0 then max (v + N) 0 else min v N

/-- `range(N)[a:b]` contains `i` -/
def sliceSelects (N : ℕ) (s : PySlice ℤ) (i : ℕ) : Prop :=
  sliceBound N 0 s.start ≤ i ∧ (i : ℤ) < sliceBound N N s.stop

/-- the index `v` (possibly negative) addresses cell `i` -/
def indexSelects (N : ℕ) (v : ℤ) (i : ℕ) : Prop := i < N ∧ ((i : ℤ) = v ∨ (i : ℤ) = v + N)

end Nidn
