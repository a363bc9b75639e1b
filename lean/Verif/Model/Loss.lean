/-
Model of the losses: nidn/training/losses/spectrum_loss.py and nidn/training/losses/likelihood_regularization_loss.py.

Spectra are lists of real numbers; `** L` and `torch.pow` are real powers.
-/
import Verif.Model.Py
import Verif.Model.EpsGrid
import Mathlib.Analysis.SpecialFunctions.Pow.Real

namespace Nidn

/-- One element of the `zip` in spectrum_loss.py:36-42. -/
structure LossPoint where
  prodR : ℝ
  prodT : ℝ
  targetR : ℝ
  targetT : ℝ

/-- spectrum_loss.py:36-42: `zip(produced_R, produced_T, target_R, target_T, target_frequencies)`; python's `zip` stops at the shortest list.
The frequency is only logged. -/
def zipSpectra : List ℝ → List ℝ → List ℝ → List ℝ → List ℝ → List LossPoint
  | r :: rs, t :: ts, a :: as, b :: bs, _ :: fs => ⟨r, t, a, b⟩ :: zipSpectra rs ts as bs fs
  | _, _, _, _, _ => []

/-- spectrum_loss.py:46-52: renormalisation of one point. The second line divides by the already overwritten `prod_R`. -/
noncomputable def renormPoint (r t : ℝ) : ℝ × ℝ × Bool :=
  if r + t > 1 then
    let r' := r / (r + t)            -- line 50
    let t' := t / (r' + t)           -- line 51
    (r', t', true)                   -- line 52
  else (r, t, false)

/-- The loop variables of spectrum_loss.py:31-33. -/
structure LossAcc where
  R : ℝ
  T : ℝ
  A : ℝ
  renormalized : Bool

/-- spectrum_loss.py:43-61: one pass of the loop body. -/
noncomputable def lossStep (L : ℝ) (includeAbsorption : Bool) (acc : LossAcc) (p : LossPoint) : LossAcc :=
  { R := acc.R + |(renormPoint p.prodR p.prodT).1 - p.targetR| ^ L                       -- line 55
    T := acc.T + |(renormPoint p.prodR p.prodT).2.1 - p.targetT| ^ L                     -- line 56
    A := if includeAbsorption then                                                       -- lines 58-61
        acc.A + |(1 - (renormPoint p.prodR p.prodT).2.1 - (renormPoint p.prodR p.prodT).1) - (1 - p.targetT - p.targetR)| ^ L
      else acc.A
    renormalized := acc.renormalized || (renormPoint p.prodR p.prodT).2.2 }

/-- spectrum_loss.py:5-66 `_spectrum_loss_fn`. -/
noncomputable def spectrumLoss (prodR prodT targetR targetT freqs : List ℝ) (L : ℝ) (includeAbsorption : Bool) : Except PyErr (ℝ × Bool) :=
  let acc := (zipSpectra prodR prodT targetR targetT freqs).foldl (lossStep L includeAbsorption) ⟨0, 0, 0, false⟩
  if prodR.length = 0 then .error .zeroDivisionError
  else if includeAbsorption then .ok ((acc.A + acc.R + acc.T) / (3 * prodR.length), acc.renormalized)      -- line 64
  else .ok ((acc.R + acc.T) / (2 * prodR.length), acc.renormalized)                                        -- line 66

/-- `torch.mean` of a list; the empty mean is NaN. -/
noncomputable def tmean (l : List ℝ) : Except PyErr ℝ :=
  if l.length = 0 then .error .nan else .ok (l.sum / l.length)

/-- likelihood_regularization_loss.py:4-26 with the tensor given as the list of its cells (all dimensions but the last flattened), each cell the list of
its material weights. `torch.max` over an empty last dimension raises IndexError. -/
noncomputable def likelihoodLoss (cells : List (List ℝ)) (L : ℝ) (useMax : Bool) : Except PyErr ℝ :=
  if useMax then
    if cells.any (fun c => c.isEmpty) then .error .indexError
    else tmean (cells.map fun c => 1 - listMax c)                                        -- lines 18-19
  else tmean (cells.flatten.map fun p => min ((1 - p) ^ L) (p ^ L))                      -- lines 22-24

end Nidn
