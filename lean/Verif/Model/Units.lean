/-
Model of nidn/utils/convert_units.py, nidn/utils/global_constants.py,
nidn/trcwa/compute_target_frequencies.py and nidn/trcwa/get_frequency_points.py.
-/
import Verif.Model.Py
import Mathlib.Analysis.SpecialFunctions.Log.Base
import Mathlib.Analysis.SpecialFunctions.Pow.Real
import Mathlib.Data.List.Sort

namespace Nidn


noncomputable section

/-- nidn/utils/global_constants.py:14 `UNIT_MAGNITUDE = 1e-6` -/
def UNIT_MAGNITUDE : ℝ := 1e-6

/-- nidn/utils/global_constants.py:12 `SPEED_OF_LIGHT = 299792458.0` -/
def SPEED_OF_LIGHT : ℝ := 299792458.0

/-- nidn/utils/convert_units.py:4-14 `freq_to_wl`: `1.0 / freq` (python float division). -/
def freqToWl (freq : ℝ) : Except PyErr ℝ := pyDiv 1.0 freq

/-- nidn/utils/convert_units.py:17-26 `phys_wl_to_wl`: `phys_wl / UNIT_MAGNITUDE`. -/
def physWlToWl (physWl : ℝ) : ℝ := physWl / UNIT_MAGNITUDE

/-- nidn/utils/convert_units.py:29-38 `wl_to_phys_wl`: `wl * UNIT_MAGNITUDE`. -/
def wlToPhysWl (wl : ℝ) : ℝ := wl * UNIT_MAGNITUDE

/-- nidn/utils/convert_units.py:41-51 `phys_freq_to_phys_wl`: `c / freq`. -/
def physFreqToPhysWl (freq : ℝ) : Except PyErr ℝ := pyDiv SPEED_OF_LIGHT freq

/-- `np.linspace(a, b, num=n)` (endpoint included; a single point is `a`). Contract of numpy. -/
def npLinspace (a b : ℝ) (n : ℕ) : List ℝ :=
  (List.range n).map fun i : ℕ => if n ≤ 1 then a else a + (i : ℝ) * ((b - a) / ((n : ℝ) - 1))

/-- `np.logspace(a, b, num=n, base=10)` = `10 ** np.linspace(a, b, n)`. Contract of numpy. -/
def npLogspace (a b : ℝ) (n : ℕ) : List ℝ := (npLinspace a b n).map fun x => (10 : ℝ) ^ x

/-- nidn/trcwa/compute_target_frequencies.py:6-40 `compute_target_frequencies`.
`np.log10` of a non-positive number is NaN or infinite; those runs are reported as `PyErr.nan` in the "log" branch
(numpy would return a list of NaN/0). `np.sort` is an insertion sort. -/
def computeTargetFrequencies (minWl maxWl : ℝ) (nFreq : ℕ) (distribution : String) :
    Except PyErr (List ℝ) := do
  let maxF ← freqToWl (physWlToWl minWl)                       -- line 20
  let minF ← freqToWl (physWlToWl maxWl)                       -- line 21
  let fs ←
    if distribution = "linear" then                            -- line 26
      pure (npLinspace minF maxF nFreq)
    else if distribution = "log" then                          -- line 30
      if minF ≤ 0 ∨ maxF ≤ 0 then .error .nan
      else pure (npLogspace (Real.logb 10 minF) (Real.logb 10 maxF) nFreq)
    else .error .valueError                                    -- line 33
  pure (fs.insertionSort (· ≤ ·))                              -- line 39

/-- The config entries read by `get_frequency_points`, and the one it writes. -/
structure FreqCfg where
  wlMin : ℝ
  wlMax : ℝ
  nFreq : ℕ
  distribution : String
  targetFrequencies : Option (List ℝ)

/-- nidn/trcwa/get_frequency_points.py:6-29 `get_frequency_points`. Returns the physical wavelengths, the target frequencies and
the mutated config. `freq_to_wl` acts on a numpy array here: `1.0 / array` never raises, a zero entry would give inf; that case is
reported as `PyErr.nan`. -/
def getFrequencyPoints (c : FreqCfg) : Except PyErr (List ℝ × List ℝ × FreqCfg) := do
  let tf ← computeTargetFrequencies c.wlMin c.wlMax c.nFreq c.distribution
  if (0 : ℝ) ∈ tf then .error .nan
  else pure (tf.map (fun f => wlToPhysWl (1.0 / f)), tf, { c with targetFrequencies := some tf })

end

end Nidn
