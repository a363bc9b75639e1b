/-
Independent specification: reflectance and transmittance of a stack of homogeneous films by characteristic matrices (Abeles; Born & Wolf,
Principles of Optics, 1.6). Nothing here refers to the solver.

A film is described, for one polarisation, by its impedance `y` (tangential electric over tangential magnetic field of a forward wave) and its
phase thickness `delta`.
-/
import Mathlib.Analysis.SpecialFunctions.Trigonometric.Basic
import Mathlib.Analysis.SpecialFunctions.Complex.Circle

namespace Nidn

noncomputable section

/-- Tangential fields (magnetic, electric) at the front of a film from those at its back: the characteristic matrix. -/
def filmFront (y δ : ℂ) (f : ℂ × ℂ) : ℂ × ℂ :=
  (Complex.cos δ * f.1 - Complex.I * Complex.sin δ / y * f.2, Complex.cos δ * f.2 - Complex.I * y * Complex.sin δ * f.1)

/-- Fields in front of a list of films on a substrate of impedance `yN`, for a transmitted magnetic field of 1. -/
def frontFields : List (ℂ × ℂ) → ℂ → ℂ × ℂ
  | [], yN => (1, yN)
  | (y, δ) :: films, yN => filmFront y δ (frontFields films yN)

/-- The denominator of the reflection coefficient, for light from a medium of impedance `y0`. -/
def filmsDen (y0 : ℂ) (films : List (ℂ × ℂ)) (yN : ℂ) : ℂ := y0 * (frontFields films yN).1 + (frontFields films yN).2

/-- Reflectance. -/
def filmsR (y0 : ℝ) (films : List (ℂ × ℂ)) (yN : ℂ) : ℝ :=
  Complex.normSq ((y0 * (frontFields films yN).1 - (frontFields films yN).2) / filmsDen y0 films yN)

/-- Transmittance. -/
def filmsT (y0 : ℝ) (films : List (ℂ × ℂ)) (yN : ℂ) : ℝ := 4 * y0 * yN.re / Complex.normSq (filmsDen y0 films yN)

end

end Nidn
