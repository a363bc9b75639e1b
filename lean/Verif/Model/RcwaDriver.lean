/-
Model of the RCWA spectrum driver (nidn/trcwa/compute_spectrum_trcwa.py). The dispatch in nidn/utils/compute_spectrum.py is modelled in Config.lean.
The single-frequency computation (`_init_trcwa` followed by `RT_Solve`, modelled in TrcwaLayers.lean and Rcwa.lean) is a parameter: it
receives the frequency slice of the grid and the frequency.
-/
import Verif.Model.Py

namespace Nidn

/-- A four-axis tensor of shape `(sx, sy, sl, sf)`; `none` is NaN; entries outside the shape are irrelevant. -/
structure Grid4 (K : Type) where
  sx : ℕ
  sy : ℕ
  sl : ℕ
  sf : ℕ
  val : ℕ → ℕ → ℕ → ℕ → Option K

/-- `torch.any(torch.isnan(eps_grid))`, compute_spectrum_trcwa.py:27 -/
def Grid4.hasNaN {K : Type} (g : Grid4 K) : Bool :=
  (List.range g.sx).any fun x => (List.range g.sy).any fun y => (List.range g.sl).any fun l => (List.range g.sf).any fun f =>
    (g.val x y l f).isNone

/-- The keys of the config that the driver itself reads. `freqs = none` when `target_frequencies` is missing. -/
structure DriverCfg (F : Type) where
  freqs : Option (List F)
  nx : ℕ
  ny : ℕ
  nLayers : ℕ
  nFreq : ℕ

/-- `assert b` -/
def pyAssert (b : Bool) : Except PyErr Unit := if b then .ok () else .error .assertionError

/-- compute_spectrum_trcwa.py:40-51, the loop over `enumerate(target_frequencies)` with the two accumulating lists. -/
def trcwaLoop {K F R : Type} (solve : (ℕ → ℕ → ℕ → Option K) → F → Except PyErr (R × R)) (g : Grid4 K) :
    List F → ℕ → List R → List R → Except PyErr (List R × List R)
  | [], _, rs, ts => .ok (rs, ts)
  | f :: rest, idx, rs, ts => do
      if idx < g.sf then
        let rt ← solve (fun x y l => g.val x y l idx) f
        trcwaLoop solve g rest (idx + 1) (rs ++ [rt.1]) (ts ++ [rt.2])
      else .error .indexError

/-- compute_spectrum_trcwa.py:8-53 `compute_spectrum_trcwa` for a four-axis grid. -/
def computeSpectrumTrcwa {K F R : Type} (solve : (ℕ → ℕ → ℕ → Option K) → F → Except PyErr (R × R)) (g : Grid4 K) (c : DriverCfg F) :
    Except PyErr (List R × List R) := do
  if g.hasNaN then .error .valueError                                    -- lines 27-28
  else
    match c.freqs with
    | none => .error .assertionError                                     -- line 31
    | some fs => do
        pyAssert (fs.length = c.nFreq)                                   -- line 32
        pyAssert (g.sx = c.nx)                                           -- lines 35-38
        pyAssert (g.sy = c.ny)
        pyAssert (g.sl = c.nLayers)
        pyAssert (g.sf = c.nFreq)
        trcwaLoop solve g fs 0 [] []

end Nidn
