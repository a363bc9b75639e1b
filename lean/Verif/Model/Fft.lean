/-
Model of `get_fft`, nidn/trcwa/utils/fft_funs.py:57-67.
-/
import Verif.Model.Conv

namespace Nidn

/-- fft_funs.py:57-67 `get_fft`: the entries `sfft[G[:, 0], G[:, 1]]` with `sfft = fft2(s_in) * dN`; one order out of range fails the whole expression. -/
noncomputable def getFft {Nx Ny n : ℕ} (dN : ℂ) (s : Fin Nx → Fin Ny → ℂ) (G : Fin n → ℤ × ℤ) : Except PyErr (Fin n → ℂ) :=
  if ∀ i, (convEntry dN s (G i)).isSome then .ok fun i => (convEntry dN s (G i)).getD 0 else .error .indexError

end Nidn
