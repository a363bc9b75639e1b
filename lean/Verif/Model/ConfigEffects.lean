/-
What a spectrum computation writes into the user's config: nidn/fdtd_integration/compute_spectrum_fdtd.py:30-38 and nidn/trcwa/get_frequency_points.py:20.
The RCWA path (nidn/trcwa/compute_spectrum_trcwa.py, init_trcwa.py) writes nothing.
-/
import Verif.Model.Config

namespace Nidn

/-- `l * n` for a list and a python int (bools count); a negative or zero factor gives the empty list -/
def Val.listTimes (l n : Val) : Except PyErr Val :=
  match l, n with
  | .list xs, .int z => .ok (.list (List.replicate z.toNat xs).flatten)
  | .list xs, .bool b => .ok (.list (List.replicate (if b then 1 else 0) xs).flatten)
  | _, _ => .error .typeError

/-- compute_spectrum_fdtd.py:35-36; the second operand of `and` is only looked at if the first is true -/
def cfgExpandThick (c : Cfg) : Except PyErr Cfg := do
  let l ← c.get "PER_LAYER_THICKNESS"
  if (← l.len) = 1 then
    let n ← c.get "N_layers"
    if 1 < (← n.num) then
      let l' ← l.listTimes n
      .ok (c.set "PER_LAYER_THICKNESS" l')
    else .ok c
  else .ok c

/-- The config after `compute_spectrum` with the FDTD solver: `target_frequencies` (a numpy array, here `Val.other`; get_frequency_points.py:20), `PER_LAYER_THICKNESS` (line 36) and
`FDTD_grid_scaling` (line 38; `_compute_fdtd_grid_scaling` is the same expression as in the validation) are assigned. -/
def cfgAfterFdtd (c : Cfg) : Except PyErr Cfg := do
  let c1 := c.set "target_frequencies" .other
  let c2 ← cfgExpandThick c1
  let s ← cfgScaling c2
  .ok (c2.set "FDTD_grid_scaling" (.float s))

/-- The config after `compute_spectrum`, nidn/utils/compute_spectrum.py:9-27; the RCWA solver assigns nothing. -/
def cfgAfterSpectrum (c : Cfg) : Except PyErr Cfg := do
  validateConfig c
  let s ← c.get "solver"
  if s.eqStr "FDTD" then cfgAfterFdtd c else .ok c

end Nidn
