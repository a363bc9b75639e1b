/-
Independent specification: fields of Maxwell's equations in a medium of layers, with the conditions at their faces.
-/
import Verif.Spec.MaxwellTime

namespace Nidn

/-- Fields of Maxwell's equations in layers stacked along the first axis; layer `i` lies between the planes `edge i` and `edge (i + 1)`, and the materials may jump there. In every layer the fields are those of three times
continuously differentiable ones, on the faces the tangential components of the two sides agree (the normal component, which may jump, is given the value of the upper side), and the equations hold between the faces. -/
structure LayeredFields (edge : ℤ → ℝ) (invEps invMu sigma : Place → Fin 3 → ℝ) (E H : ℝ → Place → Fin 3 → ℝ) : Prop where
  sorted : StrictMono edge
  below : ∀ r, ∃ i, edge i < r
  above : ∀ r, ∃ i, r < edge i
  smooth : ∀ i, ∃ E' H' : ℝ → Place → Fin 3 → ℝ, (∀ c, ContDiff ℝ 3 fun z : ℝ × Place => E' z.1 z.2 c) ∧ (∀ c, ContDiff ℝ 3 fun z : ℝ × Place => H' z.1 z.2 c)
    ∧ ∀ t x c, edge i ≤ x 0 → (x 0 < edge (i + 1) ∨ (c ≠ 0 ∧ x 0 = edge (i + 1))) → E t x c = E' t x c ∧ H t x c = H' t x c
  ampere : ∀ t x c, (∀ i, x 0 ≠ edge i) → deriv (fun τ => E τ x c) t = invEps x c * (curlAt (H t) x c - sigma x c * E t x c)
  faraday : ∀ t x c, (∀ i, x 0 ≠ edge i) → deriv (fun τ => H τ x c) t = -(invMu x c * curlAt (E t) x c)

end Nidn
