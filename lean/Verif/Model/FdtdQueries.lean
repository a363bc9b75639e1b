/-
Model of the queries of nidn/fdtd/grid.py: the extents, the shape and the elapsed time of a grid.
-/
import Verif.Model.FdtdGrid
import Verif.Model.FdtdStep

namespace Nidn

/-- `self.Nx`, `self.Ny`, `self.Nz`, nidn/fdtd/grid.py:113 -/
def GridNumbers.cells (g : GridNumbers) : Fin 3 → ℤ
  | 0 => g.shape.1
  | 1 => g.shape.2.1
  | 2 => g.shape.2.2

/-- the properties `x`, `y` and `z`, nidn/fdtd/grid.py:226-239 -/
def GridNumbers.extent (g : GridNumbers) : Fin 3 → ℝ
  | 0 => (g.shape.1 : ℝ) * g.spacing
  | 1 => (g.shape.2.1 : ℝ) * g.spacing
  | 2 => (g.shape.2.2 : ℝ) * g.spacing

/-- the property `shape`, nidn/fdtd/grid.py:241-244 -/
def GridNumbers.shapeTuple (g : GridNumbers) : List (PyNum ℝ) := [.int g.shape.1, .int g.shape.2.1, .int g.shape.2.2]

/-- the property `time_passed`, nidn/fdtd/grid.py:246-249; `dt` is `self.time_step` -/
def FGrid.timePassed {K : Type} [Field K] (dt : K) (g : FGrid K) : K := (g.time : K) * dt

end Nidn
