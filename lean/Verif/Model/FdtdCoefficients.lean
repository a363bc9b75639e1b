/-
Model of nidn/fdtd_integration/calculate_transmission_reflection_coefficients.py and of the detector averaging in
nidn/fdtd_integration/compute_spectrum_fdtd.py. Signals are lists over an ordered field; NaN and infinity do not occur in signals. Where Python would return NaN or
infinity the model returns `PyErr.nan`.
-/
import Mathlib.Algebra.Order.Field.Basic
import Mathlib.Algebra.Order.Floor.Ring
import Verif.Model.Py
import Verif.Model.EpsGrid
import Verif.Model.FdtdGrid

namespace Nidn

section
variable {K : Type} [Field K] [LinearOrder K]

/-- `_mean_square`, calculate_transmission_reflection_coefficients.py:95-103, for a non-empty signal -/
def meanSquare (s : List K) : K := (s.map fun v => v ^ 2).sum / (s.length : K)

/-- `_check_for_all_zero_signal`, calculate_transmission_reflection_coefficients.py:106-110. For an empty signal the mean is NaN and the comparison false. -/
def checkAllZero (s : List K) : Except PyErr Unit :=
  if s ≠ [] ∧ meanSquare s ≤ 1 / 10 ^ 15 then .error .valueError else .ok ()

/-- `_torch_find_peaks`, calculate_transmission_reflection_coefficients.py:382-391 -/
def findPeaks (s : List K) : List ℕ :=
  ((List.range (s.length - 2)).filter fun i =>
    decide (0 < s.getD (i + 1) 0 - s.getD i 0) && decide (0 < s.getD (i + 1) 0 - s.getD (i + 2) 0)).map fun i => i + 1

/-- python's `max` of a list -/
def pyMaxList : List K → Except PyErr K
  | [] => .error .valueError
  | v :: rest => .ok (rest.foldl max v)

/-- the mean square of one signal as used in `_peak_based_coefficient_computation`, calculate_transmission_reflection_coefficients.py:203-254: between first (included) and last peak (excluded), or half the squared maximum -/
def peakPower (s : List K) : Except PyErr K :=
  if 1 < (findPeaks s).length then
    .ok (meanSquare ((s.take ((findPeaks s).getLast?.getD 0)).drop ((findPeaks s).head?.getD 0)))
  else (pyMaxList s).map fun m => m ^ 2 / 2

/-- tensor division; a zero divisor gives NaN or infinity -/
def floatDiv (a b : K) : Except PyErr K := if b = 0 then .error .nan else .ok (a / b)

/-- `_peak_based_coefficient_computation`, calculate_transmission_reflection_coefficients.py:185-265; result is (reflection, transmission) -/
def peakCoefficients (t0 t1 r0 tr : List K) : Except PyErr (K × K) := do
  let pt1 ← peakPower t1
  let pt0 ← peakPower t0
  let ptr ← peakPower tr
  let pr0 ← peakPower r0
  let t ← floatDiv pt1 pt0
  let r ← floatDiv ptr pr0
  .ok (r, t)

/-- `_check_and_normalize_coefficients`, calculate_transmission_reflection_coefficients.py:61-92 (logging left out): (transmission, reflection) -/
def normalizeCoefficients (t r : K) : K × K :=
  if 1 < t + r ∧ t + r < 101 / 100 then (t / (t + r), r / (t + r))
  else if 1 < t + r ∧ t + r < 105 / 100 then (t / (t + r), r / (t + r))
  else (t, r)

/-- calculate_transmission_reflection_coefficients.py:299-303: index of the first sample that is larger than 1e-8, or 0 if there is none -/
def firstNonZero (s : List K) : ℕ := (s.findIdx? fun v => decide (1 / 10 ^ 8 < |v|)).getD 0

/-- `torch.split(signal, w)` for `w ≥ 1` -/
def splitChunks (w : ℕ) (s : List K) : List (List K) := (List.range ((s.length + w - 1) / w)).map fun i => (s.drop (i * w)).take w

/-- calculate_transmission_reflection_coefficients.py:320-321: the last chunk is put in front of the second last one, then dropped -/
def mergeLast (c : List (List K)) : List (List K) :=
  c.dropLast.dropLast ++ [c.getLast?.getD [] ++ c.dropLast.getLast?.getD []]

/-- `chunk.max() - chunk.min()`, calculate_transmission_reflection_coefficients.py:335 -/
def chunkRange (c : List K) : K := listMax c + listMax (c.map fun v => -v)

/-- calculate_transmission_reflection_coefficients.py:338-340 -/
def absDiffs (r : List K) : List K := List.zipWith (fun a b => |a - b|) r r.tail

/-- `relative_change_to_maximum_change[k] < threshold`, calculate_transmission_reflection_coefficients.py:342-355; 0/0 is NaN and not smaller -/
def relBelow (changes : List K) (thr : K) (k : ℕ) : Bool :=
  if listMax changes = 0 then false else decide (changes.getD k 0 / listMax changes < thr)

/-- the while loop of calculate_transmission_reflection_coefficients.py:352-363; `raise (logger.error(...))` raises None, which is a TypeError -/
def scanDown (p : ℕ → Bool) : ℕ → Except PyErr ℕ
  | 0 => if p 0 then .error .typeError else .ok 0
  | k + 1 => if p (k + 1) then scanDown p k else .ok (k + 1)

/-- calculate_transmission_reflection_coefficients.py:317-368, for a signal of at least two windows -/
def cutTransient (w : ℕ) (thr : K) (s : List K) : Except PyErr (List K) :=
  if w = 0 then (if s = [] then .error .indexError else .error .runtimeError)
  else
    let changes := absDiffs ((mergeLast (splitChunks w s)).map chunkRange)
    if changes = [] then .error .runtimeError
    else (scanDown (relBelow changes thr) (changes.length - 1)).map fun k => s.drop ((k + 1) * w)

/-- `_eliminate_transient_part`, calculate_transmission_reflection_coefficients.py:268-378, with window size `w` -/
def eliminateTransient (w : ℕ) (free : Bool) (s : List K) : Except PyErr (List K) :=
  let thr : K := if free then 1 / 2 else 1 / 10
  let s' := s.drop (firstNonZero s)
  if s'.length < 2 * w then .ok s' else cutTransient w thr s'

/-- `reflection_signals[1] - reflection_signals[0]`; different lengths do not broadcast (unless one is 1, which is not modelled) -/
def subSignals (a b : List K) : Except PyErr (List K) :=
  if a.length = b.length then .ok (List.zipWith (fun x y => x - y) a b) else .error .runtimeError

/-- `calculate_transmission_reflection_coefficients`, calculate_transmission_reflection_coefficients.py:7-58: `t0`, `r0` free space, `t1`, `r1` with material; result (transmission, reflection). -/
def coefficients (w : ℕ) (t0 t1 r0 r1 : List K) : Except PyErr (K × K) := do
  let tr ← subSignals r1 r0
  checkAllZero t0
  checkAllZero r0
  let t0' ← eliminateTransient w true t0
  let t1' ← eliminateTransient w false t1
  let r0' ← eliminateTransient w true r0
  let tr' ← eliminateTransient w false tr
  let rt ← peakCoefficients t0' t1' r0' tr'
  .ok (normalizeCoefficients rt.2 rt.1)

/-- The loop of `_average_along_detector` for one time step and the z component, compute_spectrum_fdtd.py:157-163 -/
def averageStep (points : List (Fin 3 → K)) : K := points.foldl (fun s p => s + p 2 / (points.length : K)) 0

/-- `_get_abs_value_from_3D_signal`, compute_spectrum_fdtd.py:124-144: despite its name the averaged z component (the absolute value computed in between is dropped) -/
def detectorSignal (rec : List (List (Fin 3 → K))) : List K := rec.map averageStep

end

section
variable {K : Type} [Field K] [LinearOrder K] [FloorRing K]

/-- `window_size`, calculate_transmission_reflection_coefficients.py:293-295 -/
def windowSize (gp wavelength : K) : ℤ := pyTrunc (3 * gp * (wavelength / (1 / 10 ^ 6)))

end

section
variable {K : Type} [Field K]

/-- `CurrentDetector.single_point_current`, nidn/fdtd/detectors.py:404-466, for a cell with all indices at least one. -/
def pointCurrent (spacing : K) (H : VField K) (p : Pos) : K :=
  let cv1 := (H (p.dn 1) 0 - H p 0) * spacing
  let cv2 := (H p 1 - H (p.dn 0) 1) * spacing
  let current1 := cv1 + cv2
  let cv1' := (H ((p.dn 2).dn 1) 0 - H (p.dn 2) 0) * spacing
  let cv2' := cv2 + (H (p.dn 2) 1 - H ((p.dn 2).dn 0) 1) * spacing
  let current2 := cv1' + cv2'
  (current1 + current2) / 2

end

end Nidn
