/-
Model of nidn/trcwa/utils/kbloch.py: reciprocal lattice, circular truncation of the Fourier orders, wave vectors.
-/
import Verif.Model.Py
import Mathlib.Analysis.Real.Pi.Bounds
import Mathlib.Analysis.Real.Sqrt

namespace Nidn

/-- kbloch.py:8-24 `Lattice_Reciprocate`. The vectors are python lists (other containers fail the assertion of line 13, not
modelled); lengths other than two fail lines 16-17; `d = 0` makes the python float divisions of lines 21-22 raise. -/
def latticeReciprocate {K : Type} [Field K] [DecidableEq K] (L1 L2 : List K) : Except PyErr ((K × K) × (K × K)) :=
  match L1, L2 with
  | [a, b], [c, e] =>
    let d := a * e - b * c
    if d = 0 then .error .zeroDivisionError
    else .ok ((e / d, -c / d), (-b / d, a / d))
  | _, _ => .error .assertionError

noncomputable section

/-- `torch.norm` of a 2-vector. -/
def norm2 (v : ℝ × ℝ) : ℝ := Real.sqrt (v.1 ^ 2 + v.2 ^ 2)

/-- `torch.dot` of 2-vectors. -/
def dot2 (v w : ℝ × ℝ) : ℝ := v.1 * w.1 + v.2 * w.2

/-- kbloch.py:101 `uxv` -/
def cross2 (v w : ℝ × ℝ) : ℝ := v.1 * w.2 - v.2 * w.1

/-- kbloch.py:102-103 `circ_radius` -/
def circRadius (nG : ℕ) (Lk1 Lk2 : ℝ × ℝ) : ℝ :=
  Real.sqrt (nG * |cross2 Lk1 Lk2| / Real.pi) + norm2 Lk1 + norm2 Lk2

/-- kbloch.py:105-106: `1 + int(circ_radius / (w * sqrt(1 - uv^2/(u*v)^2)))` for `w = u` or `w = v`. Parallel vectors would divide by
zero (torch: inf, `int(inf)` raises); theorems assume a non-degenerate lattice. -/
def extent (nG : ℕ) (Lk1 Lk2 : ℝ × ℝ) (w : ℝ) : ℕ :=
  1 + (pyInt (circRadius nG Lk1 Lk2 /
    (w * Real.sqrt (1.0 - dot2 Lk1 Lk2 ^ 2 / (norm2 Lk1 * norm2 Lk2) ^ 2)))).toNat

/-- kbloch.py:118 `Gl2` of one order: `G1^2 u^2 + G2^2 v^2 + 2 G2 G1 uv`. -/
def gl2 (Lk1 Lk2 : ℝ × ℝ) (g : ℤ × ℤ) : ℝ :=
  (g.1 : ℝ) ^ 2 * norm2 Lk1 ^ 2 + (g.2 : ℝ) ^ 2 * norm2 Lk2 ^ 2 + 2 * g.2 * g.1 * dot2 Lk1 Lk2

/-- `range(-e, 2*e+1 - e)`, kbloch.py:108-112. -/
def symRange (e : ℕ) : List ℤ := (List.range (2 * e + 1)).map fun i : ℕ => (i : ℤ) - e

/-- kbloch.py:111-115: the flattened meshgrid of orders. -/
def orderBox (uExt vExt : ℕ) : List (ℤ × ℤ) :=
  (symRange uExt).flatMap fun a => (symRange vExt).map fun b => (a, b)

/-- kbloch.py:135-138, the loop `for i in range(nGtmp-1, -1, -1): if |Gl2[i] - Gl2[i-1]| > tol: break` followed by `nG = i`; at `i = 0`
the python index `-1` is the last entry, but the loop ends with `i = 0` whether or not it breaks there. -/
def truncLoop (l : List ℝ) (tol : ℝ) : ℕ → ℕ
  | 0 => 0
  | i + 1 => if |l.getD (i + 1) 0 - l.getD i 0| > tol then i + 1 else truncLoop l tol i

/-- kbloch.py:90-145 `Gsel_circular`. `sorted` is the list of orders after `np.argsort` (numpy's default sort is not stable, so it is a
parameter: any rearrangement of `orderBox` that is sorted by `gl2`). With `nG = 0` the loop body never runs and `i` is unbound. -/
def gselCircular (nG : ℕ) (Lk1 Lk2 : ℝ × ℝ) (sorted : List (ℤ × ℤ)) : Except PyErr (List (ℤ × ℤ) × ℕ) :=
  let uExt := extent nG Lk1 Lk2 (norm2 Lk1)
  let vExt := extent nG Lk1 Lk2 (norm2 Lk2)
  let nGtmp := min nG ((2 * uExt + 1) * (2 * vExt + 1))                               -- 128-131
  let tol := 1e-10 * max (norm2 Lk1 ^ 2) (norm2 Lk2 ^ 2)                               -- 134
  if nGtmp = 0 then .error .unboundLocalError
  else
    let n := truncLoop (sorted.map (gl2 Lk1 Lk2)) tol (nGtmp - 1)
    .ok (sorted.take n, n)

/-- kbloch.py:46-55 `Lattice_SetKs` for one order. -/
def setK (k0 : ℝ × ℝ) (Lk1 Lk2 : ℝ × ℝ) (g : ℤ × ℤ) : ℝ × ℝ :=
  (k0.1 + 2 * Real.pi * (Lk1.1 * g.1 + Lk2.1 * g.2), k0.2 + 2 * Real.pi * (Lk1.2 * g.1 + Lk2.2 * g.2))

end

end Nidn
