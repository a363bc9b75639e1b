/-
The warnings of nidn/utils/validate_config.py:22-42 `_check_grid_scale`, which Model/Config.lean leaves out: the thickness of a layer is compared with the one the cells of the FDTD grid allow.
Arithmetic is exact (Model/Config.lean); the text of a warning is left out, it shows the number of the layer and the thickness with three decimals (lines 37-42).
-/
import Verif.Model.Config

namespace Nidn

/-- Lines 33-42, for numbers: the warnings (number of the layer, "downscaled") about the thicknesses from position `i` on. `x_start` is the same for every layer (line 34). -/
def scaleWarnings {K : Type*} [Field K] [LinearOrder K] [FloorRing K] (scaling xStart : K) : ℕ → List K → List (ℕ × K)
  | _, [] => []
  | i, t :: ts =>
    let size := pyInt (scaling * (xStart + t)) - pyInt (scaling * xStart)                  -- lines 35-36
    if t ≠ (size : K) / scaling then (i + 1, (size : K) / scaling) :: scaleWarnings scaling xStart (i + 1) ts   -- lines 37-42
    else scaleWarnings scaling xStart (i + 1) ts

/-- Lines 33-42 for the entries of the list in the config. -/
def gridScaleLoop (scaling pml free : ℚ) : ℕ → List Val → Except PyErr (List (ℕ × ℚ))
  | _, [] => .ok []
  | i, v :: vs => do
    let t ← v.num
    let size := pyInt (scaling * (pml + free + t)) - pyInt (scaling * (pml + free))       -- lines 34-36
    let downscaled ← pyDiv (size : ℚ) scaling                                            -- lines 37-38
    let rest ← gridScaleLoop scaling pml free (i + 1) vs
    pure (if t ≠ downscaled then (i + 1, downscaled) :: rest else rest)

/-- `_check_grid_scale`, validate_config.py:22-42, with the warnings it logs. -/
def gridScaleLog (c : Cfg) : Except PyErr (List (ℕ × ℚ)) := do
  let scaling ← cfgScaling c                                                             -- lines 28-32
  let pml ← (← c.get "FDTD_pml_thickness").num
  let free ← (← c.get "FDTD_free_space_distance").num
  match ← c.get "PER_LAYER_THICKNESS" with
  | .list l => gridScaleLoop scaling pml free 0 l
  | _ => .error .typeError

end Nidn
