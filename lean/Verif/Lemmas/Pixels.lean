/-
Fourier coefficients of shifted, flipped and rotated patterns. Pixel indices are residues: `Fin N` with arithmetic modulo `N`.
-/
import Verif.Props.Conv
import Mathlib.Algebra.Group.Fin.Basic
import Mathlib.Data.Int.ModEq
import Mathlib.Algebra.BigOperators.Group.Finset.Basic

namespace Nidn

variable {Nx Ny N : ℕ}

/-- the phase factor of pixel `m` in the Fourier coefficient of index `d` -/
noncomputable def chi (N : ℕ) (d : ℤ) (m : Fin N) : ℂ := Complex.exp (-(2 * Real.pi * Complex.I) * ((m : ℕ) * d / N))

lemma chi_congr [NeZero N] {d : ℤ} {m : Fin N} {k : ℤ} (h : ((m : ℕ) : ℤ) % N = k % N) :
    Complex.exp (-(2 * Real.pi * Complex.I) * (k * d / N)) = chi N d m := by
  have hN : (N : ℂ) ≠ 0 := Nat.cast_ne_zero.2 (NeZero.ne N)
  obtain ⟨t, ht⟩ : ∃ t : ℤ, k = (m : ℕ) + N * t := by
    obtain ⟨t, ht⟩ := Int.ModEq.dvd (show ((m : ℕ) : ℤ) ≡ k [ZMOD N] from h)
    exact ⟨t, by linarith⟩
  rw [chi, Complex.exp_eq_exp_iff_exists_int]
  refine ⟨-(t * d), ?_⟩
  rw [ht]
  push_cast
  field_simp
  ring

lemma chi_add [NeZero N] (d : ℤ) (m k : Fin N) : chi N d (m + k) = chi N d m * chi N d k := by
  rw [← chi_congr (m := m + k) (k := (m : ℕ) + (k : ℕ)) (by rw [Fin.val_add]; push_cast; exact Int.emod_emod_of_dvd _ (dvd_refl _)),
    chi, chi, ← Complex.exp_add]
  congr 1
  push_cast
  ring

lemma chi_zero [NeZero N] (d : ℤ) : chi N d 0 = 1 := by
  rw [chi]
  simp

lemma chi_ne_zero (d : ℤ) (m : Fin N) : chi N d m ≠ 0 := Complex.exp_ne_zero _

lemma chi_neg_index (d : ℤ) (m : Fin N) : chi N (-d) m * chi N d m = 1 := by
  rw [chi, chi, ← Complex.exp_add, ← Complex.exp_zero]
  congr 1
  push_cast
  ring

lemma chi_neg [NeZero N] (d : ℤ) (m : Fin N) : chi N d (-m) = chi N (-d) m := by
  have h1 : chi N d (-m) * chi N d m = 1 := by rw [← chi_add, neg_add_cancel, chi_zero]
  exact mul_right_cancel₀ (chi_ne_zero d m) (h1.trans (chi_neg_index d m).symm)

lemma chi_add_index (d e : ℤ) (m : Fin N) : chi N (d + e) m = chi N d m * chi N e m := by
  rw [chi, chi, chi, ← Complex.exp_add]
  congr 1
  push_cast
  ring

lemma chi_conj (d : ℤ) (m : Fin N) : (starRingEnd ℂ) (chi N d m) = chi N (-d) m := by
  rw [chi, chi, ← Complex.exp_conj]
  congr 1
  simp only [map_mul, map_neg, map_div₀, Complex.conj_I, Complex.conj_ofReal, map_natCast, map_intCast, map_ofNat]
  push_cast
  ring

lemma coeff_chi (s : Fin Nx → Fin Ny → ℂ) (d : ℤ × ℤ) :
    fourierCoeff s d = 1 / (Nx * Ny) * ∑ m, ∑ n, s m n * (chi Nx d.1 m * chi Ny d.2 n) := by
  rw [fourierCoeff]
  congr 1
  refine Finset.sum_congr rfl fun m _ => Finset.sum_congr rfl fun n _ => ?_
  rw [chi, chi, ← Complex.exp_add]
  congr 2
  ring

/-- a pattern shifted by `a` pixels along x and `b` pixels along y -/
def shiftPattern [NeZero Nx] [NeZero Ny] (a : Fin Nx) (b : Fin Ny) (s : Fin Nx → Fin Ny → ℂ) : Fin Nx → Fin Ny → ℂ := fun m n => s (m - a) (n - b)

lemma coeff_shift [NeZero Nx] [NeZero Ny] (a : Fin Nx) (b : Fin Ny) (s : Fin Nx → Fin Ny → ℂ) (d : ℤ × ℤ) :
    fourierCoeff (shiftPattern a b s) d = chi Nx d.1 a * chi Ny d.2 b * fourierCoeff s d := by
  rw [coeff_chi, coeff_chi, mul_left_comm]
  congr 1
  rw [Finset.mul_sum, ← Equiv.sum_comp (Equiv.addRight a)]
  refine Finset.sum_congr rfl fun m _ => ?_
  rw [Finset.mul_sum, ← Equiv.sum_comp (Equiv.addRight b)]
  refine Finset.sum_congr rfl fun n _ => ?_
  simp only [shiftPattern, Equiv.coe_addRight, add_sub_cancel_right, chi_add]
  ring

/-- a pattern flipped along x -/
def flipPattern [NeZero Nx] (s : Fin Nx → Fin Ny → ℂ) : Fin Nx → Fin Ny → ℂ := fun m n => s (-m) n

lemma coeff_flip [NeZero Nx] (s : Fin Nx → Fin Ny → ℂ) (d : ℤ × ℤ) : fourierCoeff (flipPattern s) d = fourierCoeff s (-d.1, d.2) := by
  rw [coeff_chi, coeff_chi, ← Equiv.sum_comp (Equiv.neg (Fin Nx))]
  congr 1
  refine Finset.sum_congr rfl fun m _ => Finset.sum_congr rfl fun n _ => ?_
  simp only [flipPattern, Equiv.neg_apply, neg_neg, chi_neg]

/-- a square pattern rotated by a quarter turn: the value at `(x, y)` moves to `(-y, x)` -/
def turnPattern [NeZero N] (s : Fin N → Fin N → ℂ) : Fin N → Fin N → ℂ := fun m n => s n (-m)

lemma coeff_turn [NeZero N] (s : Fin N → Fin N → ℂ) (d : ℤ × ℤ) : fourierCoeff (turnPattern s) d = fourierCoeff s (d.2, -d.1) := by
  rw [coeff_chi, coeff_chi, Finset.sum_comm]
  congr 1
  refine Finset.sum_congr rfl fun m _ => ?_
  rw [← Equiv.sum_comp (Equiv.neg (Fin N))]
  refine Finset.sum_congr rfl fun n _ => ?_
  simp only [turnPattern, Equiv.neg_apply, neg_neg, chi_neg]
  ring

end Nidn
