/-
Independent specification: Maxwell's equations in the time domain, in a medium with diagonal tensors that may vary in space. Time is measured as the way light goes in it (c = 1) and the magnetic field in units
in which the impedance of vacuum is one; the conductivity is multiplied by that impedance. These are the units of the grid.
-/
import Mathlib.Analysis.Calculus.ContDiff.Basic
import Mathlib.Analysis.Calculus.Deriv.Basic

namespace Nidn

/-- a place -/
abbrev Place := Fin 3 → ℝ

/-- partial derivative along axis `a` -/
noncomputable def partialAt (f : Place → ℝ) (a : Fin 3) (x : Place) : ℝ := deriv (fun y => f (Function.update x a y)) (x a)

/-- component `c` of the curl: `d_{c+1} F_{c+2} - d_{c+2} F_{c+1}`, indices modulo three -/
noncomputable def curlAt (F : Place → Fin 3 → ℝ) (x : Place) (c : Fin 3) : ℝ :=
  partialAt (fun y => F y (c + 2)) (c + 1) x - partialAt (fun y => F y (c + 1)) (c + 2) x

/-- Three times continuously differentiable fields that satisfy `dE/dt = (curl H - sigma E) / eps` and `dH/dt = - curl E / mu` everywhere. -/
structure MaxwellFields (invEps invMu sigma : Place → Fin 3 → ℝ) (E H : ℝ → Place → Fin 3 → ℝ) : Prop where
  smoothE : ∀ c, ContDiff ℝ 3 fun z : ℝ × Place => E z.1 z.2 c
  smoothH : ∀ c, ContDiff ℝ 3 fun z : ℝ × Place => H z.1 z.2 c
  ampere : ∀ t x c, deriv (fun τ => E τ x c) t = invEps x c * (curlAt (H t) x c - sigma x c * E t x c)
  faraday : ∀ t x c, deriv (fun τ => H τ x c) t = -(invMu x c * curlAt (E t) x c)

/-- where the grid keeps component `c` of the electric field of cell `p`: half a cell along the component -/
noncomputable def placeE (s : ℝ) (p : Fin 3 → ℕ) (c : Fin 3) : Place := fun a => s * (p a + if a = c then 1 / 2 else 0)

/-- and of the magnetic field: half a cell along the two other axes -/
noncomputable def placeH (s : ℝ) (p : Fin 3 → ℕ) (c : Fin 3) : Place := fun a => s * (p a + if a = c then 0 else 1 / 2)

/-- a quantity with period `ℓ a` along the axes `a` of a list, that does not depend on the other coordinates -/
structure Repeats (as : List (Fin 3)) (ℓ : Fin 3 → ℝ) (G : Place → ℝ) : Prop where
  period : ∀ a ∈ as, ∀ x, G (Function.update x a (x a + ℓ a)) = G x
  flat : ∀ a, a ∉ as → ∀ x y, G (Function.update x a y) = G x

end Nidn
