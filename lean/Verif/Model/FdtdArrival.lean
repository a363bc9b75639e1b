/-
Model of `plot_detection` (nidn/fdtd/visualization.py:380-467): the envelopes of the readings of line detectors and the times of arrival.

Simplified: figures are lists of curves; of a curve the text in its title, its label and its points are kept. The exact analytic signal of `scipy.signal.hilbert` stands for the one in floats.
-/
import Verif.Model.FdtdNames
import Mathlib.Analysis.SpecialFunctions.Complex.Circle
import Mathlib.Analysis.Complex.Exponential

namespace Nidn

/-- The weights of `scipy.signal.hilbert` for `N` samples: one for the mean and, for even `N`, for the highest frequency; two for positive frequencies, zero for negative ones. -/
def hilbertWeight (N k : ℕ) : ℝ := if k = 0 then 1 else if 2 * k < N then 2 else if 2 * k = N then 1 else 0

/-- `exp(2 pi i k m / N)` -/
noncomputable def dftPhase (N : ℕ) (k : ℕ) (m : ℤ) : ℂ := Complex.exp (2 * Real.pi * Complex.I * k * m / N)

/-- `scipy.signal.hilbert(x)`: `ifft(fft(x) * h)` -/
noncomputable def analyticSignal (N : ℕ) (x : ℕ → ℝ) (t : ℕ) : ℂ :=
  1 / N * ∑ k ∈ Finset.range N, (hilbertWeight N k : ℂ) * (∑ u ∈ Finset.range N, (x u : ℂ) * dftPhase N k (-u)) * dftPhase N k t

/-- `abs(hilbert(...))`, visualization.py:420-422 -/
noncomputable def envelopeCurve (N : ℕ) (x : ℕ → ℝ) : List ℝ := (List.range N).map fun t => ‖analyticSignal N x t‖

open Classical in
/-- `where(l == max(l))[0][0]`, visualization.py:430; `max` of an empty list is a ValueError -/
noncomputable def firstMax : List ℝ → Except PyErr ℕ
  | [] => .error .valueError
  | v :: r =>
    match (v :: r).findIdx? fun y => decide (y = r.foldl max v) with
    | none => .error .indexError
    | some i => .ok i

/-- The readings of one detector: the shape of the array, and its entries `a[t][c][d]` if it has three axes. -/
structure DetReadings where
  shape : List ℕ
  val : ℕ → ℕ → ℕ → ℝ

/-- `len(a[0][0])` for a numpy array -/
def DetReadings.columns (r : DetReadings) : Except PyErr ℕ :=
  match r.shape with
  | [] => .error .indexError
  | [_] => .error .indexError
  | [t, c] => if t = 0 ∨ c = 0 then .error .indexError else .error .typeError
  | t :: c :: k :: _ => if t = 0 ∨ c = 0 then .error .indexError else .ok k

/-- `a[i]` of a string, for `i` from the end if negative -/
def strAt (s : Str) (i : ℤ) : Except PyErr Char :=
  match (if i < 0 then s[(s.length + i).toNat]? else s[i.toNat]?) with
  | none => .error .indexError
  | some c => if i < 0 ∧ s.length + i < 0 then .error .indexError else .ok c

/-- `["x", "y", "z"].index(c)` -/
def axisNumber (c : Char) : Except PyErr ℕ := if c = 'x' then .ok 0 else if c = 'y' then .ok 1 else if c = 'z' then .ok 2 else .error .valueError

/-- whether the loops go on with this dimension: visualization.py:411-413, 440-442 -/
def dimChosen (specific : Option Str) (d : ℕ) : Except PyErr Bool :=
  match specific with
  | none => .ok true
  | some s => do
    let c ← strAt s 1
    let i ← axisNumber c
    .ok (decide (i = d))

/-- `plt.subplot(...)`, visualization.py:415-419, 443-447: without `specific_plot` there are four places -/
def subplotPlace (specific : Option Str) (d : ℕ) : Except PyErr ℕ :=
  match specific with
  | none => if d + 1 ≤ 4 then .ok (d + 1) else .error .valueError
  | some _ => .ok 1

/-- A curve of the intensity profiles: title (`kind(dim)`), label and points. -/
structure IntensityCurve where
  kind : Char
  dim : ℕ
  label : Str
  points : List ℝ

/-- changing an entry of a dictionary, or adding one -/
def dictUpdate {κ β : Type} [DecidableEq κ] (k : κ) (f : Option β → β) : List (κ × β) → List (κ × β)
  | [] => [(k, f none)]
  | (k', v) :: r => if k' = k then (k', f (some v)) :: r else (k', v) :: dictUpdate k f r

/-- `maxArray`: per kind (`E`, `H`) and dimension the detectors with their times of arrival -/
abbrev Arrivals := List (Char × List (ℕ × List (Str × ℕ)))

/-- `maxArray[kind][dim].append([name, t])` with the entries made if missing, visualization.py:425-431 -/
def Arrivals.append (m : Arrivals) (kind : Char) (d : ℕ) (name : Str) (t : ℕ) : Arrivals :=
  dictUpdate kind (fun v => dictUpdate d (fun w => w.getD [] ++ [(name, t)]) (v.getD [])) m

/-- what has been drawn so far -/
structure Detection where
  curves : List IntensityCurve
  arrivals : Arrivals

/-- One dimension of one detector, visualization.py:410-431. -/
noncomputable def detectDim (specific : Option Str) (name : Str) (kind : Char) (r : DetReadings) (s : Detection) (d : ℕ) : Except PyErr Detection := do
  let chosen ← dimChosen specific d
  if chosen = false then .ok s
  else do
    let _ ← subplotPlace specific d
    let curve := envelopeCurve (r.shape.headD 0) fun t => r.val t 0 d
    if 3 ≤ d then .error .indexError                                                       -- line 424
    else do
      let t ← firstMax curve
      .ok ⟨s.curves ++ [⟨kind, d, name, curve⟩], s.arrivals.append kind d name t⟩

/-- whether `specific_plot` asks for the other kind of field: visualization.py:403-405, 435-437 -/
def otherField (specific : Option Str) (kind : Char) : Except PyErr Bool :=
  match specific with
  | none => .ok false
  | some p => (strAt p 0).map fun c => decide (kind ≠ c)

/-- One detector, visualization.py:399-431; with `specific_plot` the other kind of field is passed over (:403-405). -/
noncomputable def detectOne (specific : Option Str) (s : Detection) (e : Str × DetReadings) : Except PyErr Detection :=
  if e.2.shape.length ≠ 3 then .ok s
  else do
    let kind ← strAt e.1 (-2)
    let skip ← otherField specific kind
    if skip then .ok s
    else do
      let n ← e.2.columns
      (List.range n).foldlM (detectDim specific e.1 kind e.2) s

/-- The axes are labelled once more per dimension of the detector that came last, visualization.py:433-450, for one kind of field. -/
def labelAxes (specific : Option Str) (last : Option DetReadings) (kind : Char) : Except PyErr Unit := do
  let skip ← otherField specific kind
  if skip then .ok ()
  else
    match last with
    | none => .error .unboundLocalError
    | some r => do
      let n ← r.columns
      (List.range n).forM fun d => do
        let chosen ← dimChosen specific d
        if chosen then do
          let _ ← subplotPlace specific d
          .ok ()
        else .ok ()

/-- `plot_detection`, visualization.py:380-467: what the two `plt.show()` present (:452, :467). -/
noncomputable def plotDetection (dict : Option (List (Str × DetReadings))) (specific : Option Str) : Except PyErr Detection :=
  match dict with
  | none => .error .exception
  | some l => do
    let s ← l.foldlM (detectOne specific) ⟨[], []⟩
    labelAxes specific (l.getLast?.map Prod.snd) 'E'
    labelAxes specific (l.getLast?.map Prod.snd) 'H'
    .ok s

end Nidn
