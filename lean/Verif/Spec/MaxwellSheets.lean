/-
Independent specification: fields of Maxwell's equations in a medium of layers with sheets of current between them, as radiated by a line of sources.
-/
import Verif.Spec.MaxwellTime

namespace Nidn

/-- jump of the magnetic field across a sheet with surface current `J`, whose normal is the first axis: `J × n` -/
def sheetJump (J : Fin 3 → ℝ) (c : Fin 3) : ℝ := if c = 1 then J 2 else if c = 2 then -J 1 else 0

/-- Fields of Maxwell's equations in layers stacked along the first axis, driven by currents in the faces. Layer `i` lies between the planes `edge i` and `edge (i + 1)`; the materials may jump there, and a surface current
`J i` flows in the plane `edge i` (zero for most planes). In every layer the fields are those of three times continuously differentiable ones. On the faces the tangential electric fields of the two sides agree and the
tangential magnetic fields differ by the surface current; the value on the face itself is that of the upper side. The equations hold between the faces. -/
structure DrivenFields (edge : ℤ → ℝ) (J : ℤ → ℝ → Place → Fin 3 → ℝ) (invEps invMu sigma : Place → Fin 3 → ℝ) (E H : ℝ → Place → Fin 3 → ℝ) : Prop where
  sorted : StrictMono edge
  below : ∀ r, ∃ i, edge i < r
  above : ∀ r, ∃ i, r < edge i
  current : ∀ i c, ContDiff ℝ 3 fun z : ℝ × Place => J i z.1 z.2 c
  planar : ∀ i t x y, J i t (Function.update x 0 y) = J i t x
  smooth : ∀ i, ∃ E' H' : ℝ → Place → Fin 3 → ℝ, (∀ c, ContDiff ℝ 3 fun z : ℝ × Place => E' z.1 z.2 c) ∧ (∀ c, ContDiff ℝ 3 fun z : ℝ × Place => H' z.1 z.2 c)
    ∧ (∀ t x c, edge i ≤ x 0 → x 0 < edge (i + 1) → E t x c = E' t x c ∧ H t x c = H' t x c)
    ∧ ∀ t x c, c ≠ 0 → x 0 = edge (i + 1) → E t x c = E' t x c ∧ H t x c = H' t x c + sheetJump (J (i + 1) t x) c
  ampere : ∀ t x c, (∀ i, x 0 ≠ edge i) → deriv (fun τ => E τ x c) t = invEps x c * (curlAt (H t) x c - sigma x c * E t x c)
  faraday : ∀ t x c, (∀ i, x 0 ≠ edge i) → deriv (fun τ => H τ x c) t = -(invMu x c * curlAt (E t) x c)

end Nidn
