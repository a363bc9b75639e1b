/-
Model of nidn/trcwa/utils/fft_funs.py: convolution matrices of a permittivity pattern.
-/
import Verif.Model.Py
import Verif.Lemmas.Py
import Mathlib.Analysis.SpecialFunctions.Complex.Log
import Mathlib.LinearAlgebra.Matrix.NonsingularInverse
import Mathlib.Data.Matrix.Block

namespace Nidn

noncomputable section

/-- `torch.fft.fft2` of an `Nx × Ny` array at the output index `(k, l)` (library contract: unnormalised forward transform). -/
def fft2 {Nx Ny : ℕ} (s : Fin Nx → Fin Ny → ℂ) (k l : ℕ) : ℂ :=
  ∑ m : Fin Nx, ∑ n : Fin Ny, s m n *
    Complex.exp (-(2 * Real.pi * Complex.I) * ((m : ℕ) * k / Nx + (n : ℕ) * l / Ny))

/-- Indexing a tensor axis of length `N` with an integer tensor: negative indices wrap once, everything else is an IndexError. -/
def wrapIndex (N : ℕ) (z : ℤ) : Option ℕ :=
  if 0 ≤ z ∧ z < N then some z.toNat
  else if -(N : ℤ) ≤ z ∧ z < 0 then some (z + N).toNat
  else none

/-- fft_funs.py:53 one entry `sfft[G_i0 - G_j0, G_i1 - G_j1]` with `sfft = fft2(s_in) * dN` (line 49). -/
def convEntry {Nx Ny : ℕ} (dN : ℂ) (s : Fin Nx → Fin Ny → ℂ) (d : ℤ × ℤ) : Option ℂ :=
  match wrapIndex Nx d.1, wrapIndex Ny d.2 with
  | some k, some l => some (fft2 s k l * dN)
  | _, _ => none

/-- fft_funs.py:41-54 `get_conv`: the whole advanced-indexing expression raises if a single index is out of range. -/
def getConv {Nx Ny n : ℕ} (dN : ℂ) (s : Fin Nx → Fin Ny → ℂ) (G : Fin n → ℤ × ℤ) :
    Except PyErr (Matrix (Fin n) (Fin n) ℂ) :=
  if ∀ i j, (convEntry dN s (G i - G j)).isSome then
    .ok (Matrix.of fun i j => (convEntry dN s (G i - G j)).getD 0)
  else .error .indexError

open Classical in
/-- `torch.inverse` (library contract): raises RuntimeError on a singular matrix. -/
def torchInverse {ι : Type} [Fintype ι] [DecidableEq ι] (M : Matrix ι ι ℂ) : Except PyErr (Matrix ι ι ℂ) :=
  if IsUnit M.det then .ok M⁻¹ else .error .runtimeError

open Classical in
/-- fft_funs.py:33-36, the filter applied to every entry of `eps2`. -/
def zeroSmall (z : ℂ) : ℂ := if z.re < 1e-14 ∧ z.im < 1e-14 then 0 else z

/-- The two accepted argument shapes of `Epsilon_fft` (lines 12 and 23). -/
inductive EpsPattern (Nx Ny : ℕ)
  | iso (s : Fin Nx → Fin Ny → ℂ)
  | aniso (sx sy sz : Fin Nx → Fin Ny → ℂ)

/-- fft_funs.py:4-38 `Epsilon_fft` -/
def epsilonFft {Nx Ny n : ℕ} (dN : ℂ) (eps : EpsPattern Nx Ny) (G : Fin n → ℤ × ℤ) :
    Except PyErr (Matrix (Fin n) (Fin n) ℂ × Matrix (Fin n ⊕ Fin n) (Fin n ⊕ Fin n) ℂ) :=
  match eps with
  | .aniso sx sy sz => do
    let ex ← getConv dN sx G
    let ey ← getConv dN sy G
    let ez ← getConv dN sz G
    let einv ← torchInverse ez
    pure (einv, (Matrix.fromBlocks ex 0 0 ey).map zeroSmall)
  | .iso s => do
    let e ← getConv dN s G
    let einv ← torchInverse e
    pure (einv, (Matrix.fromBlocks e 0 0 e).map zeroSmall)

end

end Nidn
