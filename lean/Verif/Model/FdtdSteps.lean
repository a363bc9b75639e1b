/-
Model of the warning about too few time steps, nidn/fdtd_integration/compute_spectrum_fdtd.py:167-218. `checkTimesteps` (FdtdIntegration) is the same call as far as exceptions are concerned; here is what it computes.
-/
import Verif.Model.FdtdIntegration

namespace Nidn

noncomputable section

/-- `permittivity.real.max()`, compute_spectrum_fdtd.py:181 (entries that are not NaN) -/
def maxReal : List (Option ℂ) → ℝ
  | [] => 0
  | v :: l => l.foldl (fun m w => max m ((w.getD 0).re)) (v.getD 0).re

/-- `_summed_thickness_times_sqrt_permittivity`, compute_spectrum_fdtd.py:167-182 -/
def summedThickness (thick : List ℝ) (m : ℝ) : ℝ := thick.foldl (fun acc t => acc + t * Real.sqrt m) 0

/-- `recommended_timesteps`, compute_spectrum_fdtd.py:196-211; `wl` is the wavelength in metres -/
def recommendedSteps (c : FdtdCfg) (s wl : ℝ) (entries : List (Option ℂ)) : Except PyErr ℤ := do
  checkTimesteps c entries
  .ok (pyTrunc ((c.free + 3 * summedThickness c.thick (maxReal entries) + 5 * wl / UNIT_MAGNITUDE) * Real.sqrt 2 * s))

/-- is the warning of compute_spectrum_fdtd.py:213-218 logged? -/
def warnsSteps (c : FdtdCfg) (s wl : ℝ) (entries : List (Option ℂ)) : Except PyErr Bool := do
  let n ← recommendedSteps c s wl entries
  .ok (decide (c.niter < n))

end

end Nidn
