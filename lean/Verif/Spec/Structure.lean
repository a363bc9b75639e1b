/-
Specification of a layered structure on a pixel grid, independent of how the solver represents its layers, and of what the solver may hold
for one of its layers.
-/
import Verif.Model.Rcwa

namespace Nidn

/-- One layer of a structure: a homogeneous film, or a pattern of permittivities on `Nx × Ny` pixels of the unit cell. -/
inductive Slab (Nx Ny : ℕ)
  | uniform (ε : ℂ) (d : ℝ)
  | patterned (s : Fin Nx → Fin Ny → ℂ) (d : ℝ)

/-- What the solver may hold for a layer of the structure: the eigenvectors of a patterned layer are whatever invertible matrix of
eigenvectors the library returned (`torch.linalg.eig` promises no particular choice). -/
inductive Built {Nx Ny n : ℕ} (ω : ℂ) (kx ky : Fin n → ℂ) (G : Fin n → ℤ × ℤ) : Slab Nx Ny → LayerData (Fin n ⊕ Fin n) → Prop
  | uniform (ε : ℂ) (d : ℝ) (hε : ε ≠ 0) : Built ω kx ky G (.uniform ε d) (uniformLayer ω kx ky ε d)
  | patterned (s : Fin Nx → Fin Ny → ℂ) (d : ℝ) (epinv : Matrix (Fin n) (Fin n) ℂ) (ep2 : Matrix (Fin n ⊕ Fin n) (Fin n ⊕ Fin n) ℂ)
      (h : epsilonFft (1 / Nx / Ny) (.iso s) G = .ok (epinv, ep2)) (lam : Fin n ⊕ Fin n → ℂ)
      (phi : Matrix (Fin n ⊕ Fin n) (Fin n ⊕ Fin n) ℂ) (he : IsEig (eigenMat ep2 (kpPatterned ω epinv kx ky) kx ky) lam phi)
      (hphi : IsUnit phi.det) : Built ω kx ky G (.patterned s d) (patternedLayer ω kx ky epinv lam phi d)

end Nidn
