/-
Model of `CurrentDetector` over a run: nidn/fdtd/detectors.py:306-509.
-/
import Verif.Model.FdtdSources
import Verif.Model.FdtdStep

namespace Nidn

section
variable {K : Type} [Field K]

/-- `self.grid.H[px, py, pz, c]` with python integers: negative indices count from the end, nidn/fdtd/detectors.py:439-460 -/
def readH (n : Pos) (H : VField K) (x y z : ℤ) (c : Fin 3) : Except PyErr K := do
  let p ← torchCell n (x, y, z)
  .ok (H p c)

/-- `CurrentDetector.single_point_current`, nidn/fdtd/detectors.py:404-466, for any python integers. -/
def singlePointCurrent (n : Pos) (spacing : K) (H : VField K) (x y z : ℤ) : Except PyErr K := do
  let a ← readH n H x (y - 1) z 0
  let b ← readH n H x y z 0
  let c ← readH n H x y z 1
  let d ← readH n H (x - 1) y z 1
  let a' ← readH n H x (y - 1) (z - 1) 0
  let b' ← readH n H x y (z - 1) 0
  let c' ← readH n H x y (z - 1) 1
  let d' ← readH n H (x - 1) y (z - 1) 1
  let cv1 := (a - b) * spacing
  let cv2 := (c - d) * spacing
  let current1 := cv1 + cv2
  let cv1' := (a' - b') * spacing
  let cv2' := cv2 + (c' - d') * spacing
  let current2 := cv1' + cv2'
  .ok ((current1 + current2) / 2)

/-- A placed `CurrentDetector`: its index lists and its recordings `self.I`, nidn/fdtd/detectors.py:310-345. -/
structure CurrentDet (K : Type) where
  idx : IndexLists
  record : List (List (List (List K)))

/-- the nested lists of one call of `detect_H`, nidn/fdtd/detectors.py:473-480 -/
def currentSample (n : Pos) (spacing : K) (H : VField K) (l : IndexLists) : Except PyErr (List (List (List K))) :=
  l.x.mapM fun x => l.y.mapM fun y => l.z.mapM fun z => singlePointCurrent n spacing H x y z

/-- `CurrentDetector.detect_H`, nidn/fdtd/detectors.py:468-482 -/
def CurrentDet.detectH (n : Pos) (spacing : K) (H : VField K) (d : CurrentDet K) : Except PyErr (CurrentDet K) := do
  let I ← currentSample n spacing H d.idx
  .ok { d with record := d.record ++ [I] }

/-- `CurrentDetector.__init__` and `_register_grid`, nidn/fdtd/detectors.py:310-345 (`_handle_slices` at 347-398 has the text of the one of block detectors; a detector
without a name). -/
def CurrentDet.register (n : Pos) (kx ky kz : AxisKey) : Except PyErr (CurrentDet K) := do
  let l ← blockIndices n kx ky kz
  .ok ⟨l, []⟩

/-- `Grid.run` on a grid with a current detector, nidn/fdtd/grid.py:265-266, 276-330: in every step `detect_E` (detectors.py:400-401) does nothing and `detect_H` reads the magnetic
field at the end of `update_H`; an exception ends the run. The detector does not act on the fields. -/
def currentRun (g : FGrid K) (spacing : K) (d : CurrentDet K) : ℕ → Except PyErr (CurrentDet K)
  | 0 => .ok d
  | k + 1 => do
    let d' ← currentRun g spacing d k
    d'.detectH g.n spacing (g.run (k + 1)).H

end

end Nidn
