/-
Independent specification: Maxwell's equations for time-harmonic fields `exp(-i omega t)` in a medium that is periodic in x and y and does not
change along z, written in Fourier space (one component per diffraction order).
-/
import Verif.Model.RcwaFields
import Mathlib.Analysis.Calculus.Deriv.Basic

namespace Nidn

open Matrix

variable {κ : Type} [Fintype κ] [DecidableEq κ]

/-- `curl H = -i omega eps E` and `curl E = i omega H` at every depth and in every order, with d/dx -> i kx, d/dy -> i ky. The matrices
`εx`, `εy`, `εz` multiply the components of E with the permittivity seen by fields along x, y and z. -/
structure SolvesMaxwell (ω : ℂ) (kx ky : κ → ℂ) (εx εy εz : Matrix κ κ ℂ) (F : ℝ → FieldVec κ) : Prop where
  curlH_x : ∀ z i, HasDerivAt (fun z => (F z).hy i) (Complex.I * ky i * (F z).hz i + Complex.I * ω * (εx *ᵥ (F z).ex) i) z
  curlH_y : ∀ z i, HasDerivAt (fun z => (F z).hx i) (Complex.I * kx i * (F z).hz i - Complex.I * ω * (εy *ᵥ (F z).ey) i) z
  curlH_z : ∀ z i, Complex.I * kx i * (F z).hy i - Complex.I * ky i * (F z).hx i = -(Complex.I * ω * (εz *ᵥ (F z).ez) i)
  curlE_x : ∀ z i, HasDerivAt (fun z => (F z).ey i) (Complex.I * ky i * (F z).ez i - Complex.I * ω * (F z).hx i) z
  curlE_y : ∀ z i, HasDerivAt (fun z => (F z).ex i) (Complex.I * kx i * (F z).ez i + Complex.I * ω * (F z).hy i) z
  curlE_z : ∀ z i, Complex.I * kx i * (F z).ey i - Complex.I * ky i * (F z).ex i = Complex.I * ω * (F z).hz i

/-- A medium: the matrices multiplying the three components of E, and the thickness of the layer it fills. -/
structure Medium (κ : Type) where
  εx : Matrix κ κ ℂ
  εy : Matrix κ κ ℂ
  εz : Matrix κ κ ℂ
  d : ℝ

/-- The tangential components of two fields agree at the interface: the first one `d` behind its front face, the second one at its front face. -/
def Joined (d : ℝ) (F F' : ℝ → FieldVec κ) : Prop :=
  (F d).hx = (F' 0).hx ∧ (F d).hy = (F' 0).hy ∧ (F d).ex = (F' 0).ex ∧ (F d).ey = (F' 0).ey

/-- Fields of a whole stack: Maxwell's equations in every layer, continuous tangential components at every interface. -/
def StackFields (ω : ℂ) (kx ky : κ → ℂ) : List (Medium κ) → List (ℝ → FieldVec κ) → Prop
  | [M], [F] => SolvesMaxwell ω kx ky M.εx M.εy M.εz F
  | M :: M' :: Ms, F :: F' :: Fs =>
    SolvesMaxwell ω kx ky M.εx M.εy M.εz F ∧ Joined M.d F F' ∧ StackFields ω kx ky (M' :: Ms) (F' :: Fs)
  | _, _ => False

end Nidn
