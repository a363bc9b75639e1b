/-
Property C15: convolution matrices of the permittivity pattern.
-/
import Verif.Model.Conv
import Mathlib.LinearAlgebra.Matrix.Hermitian
import Mathlib.Algebra.Field.GeomSum
import Mathlib.Analysis.SpecialFunctions.Complex.Circle
import Mathlib.Tactic.Linarith
import Mathlib.Tactic.Ring
import Mathlib.Tactic.FieldSimp
import Mathlib.Tactic.NormNum

namespace Nidn

/-- Spec: the Fourier coefficient of the pattern at an arbitrary integer order. -/
noncomputable def fourierCoeff {Nx Ny : ℕ} (s : Fin Nx → Fin Ny → ℂ) (d : ℤ × ℤ) : ℂ :=
  1 / (Nx * Ny) * ∑ m : Fin Nx, ∑ n : Fin Ny, s m n *
    Complex.exp (-(2 * Real.pi * Complex.I) * ((m : ℕ) * d.1 / Nx + (n : ℕ) * d.2 / Ny))

lemma wrapIndex_spec {N : ℕ} {z : ℤ} {k : ℕ} (h : wrapIndex N z = some k) : k < N ∧ ∃ t : ℤ, (k : ℤ) = z + t * N := by
  unfold wrapIndex at h
  split at h
  · injection h with h; subst h
    exact ⟨by omega, 0, by omega⟩
  · split at h
    · injection h with h; subst h
      exact ⟨by omega, 1, by omega⟩
    · simp at h

lemma wrapIndex_isSome {N : ℕ} {z : ℤ} : (wrapIndex N z).isSome ↔ -(N : ℤ) ≤ z ∧ z < N := by
  unfold wrapIndex
  split
  · simp; omega
  · split <;> simp <;> omega

lemma exp_wrap {N M : ℕ} (hN : 0 < N) (hM : 0 < M) (m n : ℕ) (a b t u : ℤ) (k l : ℕ) (hk : (k : ℤ) = a + t * N) (hl : (l : ℤ) = b + u * M) :
    Complex.exp (-(2 * Real.pi * Complex.I) * (m * k / N + n * l / M)) =
      Complex.exp (-(2 * Real.pi * Complex.I) * (m * a / N + n * b / M)) := by
  have hk' : (k : ℂ) = a + t * N := by exact_mod_cast congrArg (Int.cast : ℤ → ℂ) hk
  have hl' : (l : ℂ) = b + u * M := by exact_mod_cast congrArg (Int.cast : ℤ → ℂ) hl
  have hN' : (N : ℂ) ≠ 0 := by exact_mod_cast hN.ne'
  have hM' : (M : ℂ) ≠ 0 := by exact_mod_cast hM.ne'
  rw [hk', hl']
  have e : -(2 * Real.pi * Complex.I) * ((m : ℂ) * (a + t * N) / N + n * (b + u * M) / M) =
      -(2 * Real.pi * Complex.I) * (m * a / N + n * b / M) + ((-(m * t + n * u) : ℤ) : ℂ) * (2 * Real.pi * Complex.I) := by
    push_cast; field_simp; ring
  rw [e, Complex.exp_add, Complex.exp_int_mul_two_pi_mul_I, mul_one]

lemma convEntry_isSome {Nx Ny : ℕ} (dN : ℂ) (s : Fin Nx → Fin Ny → ℂ) (d : ℤ × ℤ) :
    (convEntry dN s d).isSome ↔ (-(Nx : ℤ) ≤ d.1 ∧ d.1 < Nx) ∧ (-(Ny : ℤ) ≤ d.2 ∧ d.2 < Ny) := by
  rw [← wrapIndex_isSome, ← wrapIndex_isSome, convEntry]
  cases wrapIndex Nx d.1 <;> cases wrapIndex Ny d.2 <;> simp

lemma convEntry_eq {Nx Ny : ℕ} (s : Fin Nx → Fin Ny → ℂ) (d : ℤ × ℤ) (z : ℂ)
    (h : convEntry (1 / Nx / Ny) s d = some z) : z = fourierCoeff s d := by
  unfold convEntry at h
  split at h
  · rename_i k l hk hl
    injection h with h; subst h
    obtain ⟨hk1, t, hk2⟩ := wrapIndex_spec hk
    obtain ⟨hl1, u, hl2⟩ := wrapIndex_spec hl
    rw [fft2, fourierCoeff, mul_comm, div_div]
    congr 1
    refine Finset.sum_congr rfl fun m _ => Finset.sum_congr rfl fun n _ => ?_
    rw [exp_wrap (by omega) (by omega) _ _ _ _ _ _ _ _ hk2 hl2]
  · simp at h

/-- Spec: every difference of two orders is resolved by the pattern's grid. -/
def Resolved {n : ℕ} (Nx Ny : ℕ) (G : Fin n → ℤ × ℤ) : Prop :=
  ∀ i j, |(G i - G j).1| < Nx ∧ |(G i - G j).2| < Ny

lemma getConv_ok_iff {Nx Ny n : ℕ} (s : Fin Nx → Fin Ny → ℂ) (G : Fin n → ℤ × ℤ) :
    (∀ i j, (convEntry (1 / Nx / Ny) s (G i - G j)).isSome) ↔ Resolved Nx Ny G := by
  simp only [convEntry_isSome, Resolved, abs_lt]
  constructor
  · intro h i j
    have h1 := h i j
    have h2 := h j i
    simp only [Prod.fst_sub, Prod.snd_sub] at *
    omega
  · intro h i j
    have h1 := h i j
    omega

/-- C15: for every pattern, grid size and order set that the grid resolves, the matrix has as entries exactly the Fourier coefficients of the pattern
at the differences of the orders; an order set that the grid does not resolve is an IndexError. -/
theorem C15_entries {Nx Ny n : ℕ} (s : Fin Nx → Fin Ny → ℂ) (G : Fin n → ℤ × ℤ) :
    (Resolved Nx Ny G → ∃ M, getConv (1 / Nx / Ny) s G = .ok M ∧ ∀ i j, M i j = fourierCoeff s (G i - G j)) ∧
    (¬ Resolved Nx Ny G → getConv (1 / Nx / Ny) s G = .error .indexError) := by
  constructor
  · intro h
    have h' := (getConv_ok_iff s G).2 h
    refine ⟨_, by rw [getConv, if_pos h'], fun i j => ?_⟩
    obtain ⟨z, hz⟩ := Option.isSome_iff_exists.1 (h' i j)
    rw [Matrix.of_apply, hz]
    exact convEntry_eq s _ z hz
  · intro h
    rw [getConv, if_neg (fun h' => h ((getConv_ok_iff s G).1 h'))]

lemma fourierCoeff_conj {Nx Ny : ℕ} (s : Fin Nx → Fin Ny → ℂ) (hs : ∀ m n, (s m n).im = 0) (d : ℤ × ℤ) :
    (starRingEnd ℂ) (fourierCoeff s d) = fourierCoeff s (-d) := by
  rw [fourierCoeff, fourierCoeff, map_mul, map_sum]
  congr 1
  · simp
  · refine Finset.sum_congr rfl fun m _ => ?_
    rw [map_sum]
    refine Finset.sum_congr rfl fun n _ => ?_
    rw [map_mul, Complex.conj_eq_iff_im.2 (hs m n), ← Complex.exp_conj]
    congr 2
    simp only [map_mul, map_neg, map_add, map_div₀, Complex.conj_ofReal, Complex.conj_I, Prod.fst_neg, Prod.snd_neg, map_natCast,
      map_intCast, Int.cast_neg, map_ofNat]
    ring

/-- C15: for a real (lossless) pattern the matrix is Hermitian. -/
theorem C15_hermitian {Nx Ny n : ℕ} (s : Fin Nx → Fin Ny → ℂ) (hs : ∀ m k, (s m k).im = 0) (G : Fin n → ℤ × ℤ)
    (M : Matrix (Fin n) (Fin n) ℂ) (hM : getConv (1 / Nx / Ny) s G = .ok M) : M.IsHermitian := by
  have hr : Resolved Nx Ny G := by
    by_contra h; rw [(C15_entries s G).2 h] at hM; simp at hM
  obtain ⟨M', h1, h2⟩ := (C15_entries s G).1 hr
  rw [h1] at hM; injection hM with hM; subst hM
  ext i j
  rw [Matrix.conjTranspose_apply, h2, h2, ← neg_sub (G i) (G j), ← fourierCoeff_conj s hs]
  simp

lemma sum_exp_zero {N : ℕ} (d : ℤ) (h0 : d ≠ 0) (h : |d| < N) :
    ∑ m : Fin N, Complex.exp (-(2 * Real.pi * Complex.I) * ((m : ℕ) * d / N)) = 0 := by
  have hN : (N : ℂ) ≠ 0 := by
    have : 0 < N := by have := abs_nonneg d; omega
    exact_mod_cast this.ne'
  set x := Complex.exp (-(2 * Real.pi * Complex.I) * (d / N)) with hx
  have e : ∀ m : Fin N, Complex.exp (-(2 * Real.pi * Complex.I) * ((m : ℕ) * d / N)) = x ^ (m : ℕ) := by
    intro m; rw [hx, ← Complex.exp_nat_mul]; congr 1; ring
  rw [Finset.sum_congr rfl fun m _ => e m, Fin.sum_univ_eq_sum_range (fun m => x ^ m)]
  have hx1 : x ≠ 1 := by
    intro h1
    rw [hx, Complex.exp_eq_one_iff] at h1
    obtain ⟨t, ht⟩ := h1
    have h2 : (2 * Real.pi * Complex.I : ℂ) ≠ 0 := by simp [Real.pi_ne_zero]
    have h3 : (-(d : ℂ) / N) = t := by
      apply mul_right_cancel₀ h2; rw [← ht]; ring
    rw [div_eq_iff hN] at h3
    have h4 : -d = t * N := by exact_mod_cast h3
    rcases eq_or_ne t 0 with rfl | ht0
    · simp at h4; exact h0 h4
    · have : |d| = |t| * N := by rw [← abs_neg, h4, abs_mul, abs_of_nonneg (by positivity : (0 : ℤ) ≤ N)]
      have ht1 : 1 ≤ |t| := Int.one_le_abs ht0
      nlinarith
  rw [geom_sum_eq hx1]
  have : x ^ N = 1 := by
    rw [hx, ← Complex.exp_nat_mul, Complex.exp_eq_one_iff]
    exact ⟨-d, by push_cast; field_simp⟩
  rw [this]; simp

lemma fourierCoeff_const {Nx Ny : ℕ} (e : ℂ) (d : ℤ × ℤ) (h1 : |d.1| < Nx) (h2 : |d.2| < Ny) :
    fourierCoeff (fun (_ : Fin Nx) (_ : Fin Ny) => e) d = if d = 0 then e else 0 := by
  have hx : (Nx : ℂ) ≠ 0 := by
    have : 0 < Nx := by have := abs_nonneg d.1; omega
    exact_mod_cast this.ne'
  have hy : (Ny : ℂ) ≠ 0 := by
    have : 0 < Ny := by have := abs_nonneg d.2; omega
    exact_mod_cast this.ne'
  have hsplit : ∑ m : Fin Nx, ∑ n : Fin Ny, e *
      Complex.exp (-(2 * Real.pi * Complex.I) * ((m : ℕ) * d.1 / Nx + (n : ℕ) * d.2 / Ny)) =
      e * ((∑ m : Fin Nx, Complex.exp (-(2 * Real.pi * Complex.I) * ((m : ℕ) * d.1 / Nx))) *
        ∑ n : Fin Ny, Complex.exp (-(2 * Real.pi * Complex.I) * ((n : ℕ) * d.2 / Ny))) := by
    rw [Finset.sum_mul_sum, Finset.mul_sum]
    refine Finset.sum_congr rfl fun m _ => ?_
    rw [Finset.mul_sum]
    refine Finset.sum_congr rfl fun n _ => ?_
    rw [← Complex.exp_add]; congr 2; ring
  rw [fourierCoeff, hsplit]
  split
  · rename_i h; subst h
    simp; field_simp
  · rename_i h
    rcases eq_or_ne d.1 0 with h0 | h0
    · have : d.2 ≠ 0 := fun h' => h (Prod.ext h0 h')
      rw [sum_exp_zero d.2 this h2]; simp
    · rw [sum_exp_zero d.1 h0 h1]; simp

/-- C15: for a uniform pattern and distinct orders the matrix is eps times the identity. -/
theorem C15_uniform {Nx Ny n : ℕ} (e : ℂ) (G : Fin n → ℤ × ℤ) (hG : Function.Injective G) (hr : Resolved Nx Ny G) :
    getConv (1 / Nx / Ny) (fun (_ : Fin Nx) (_ : Fin Ny) => e) G = .ok (e • (1 : Matrix (Fin n) (Fin n) ℂ)) := by
  obtain ⟨M, h1, h2⟩ := (C15_entries (fun (_ : Fin Nx) (_ : Fin Ny) => e) G).1 hr
  rw [h1]
  congr 1
  ext i j
  rw [h2, fourierCoeff_const e _ (hr i j).1 (hr i j).2, Matrix.smul_apply, Matrix.one_apply]
  simp [sub_eq_zero, hG.eq_iff]

/-- C15 for the pair of matrices handed to the eigen-solver, the part that holds: the first is the inverse of the convolution matrix, the
second is block diagonal with every entry either the convolution entry or zero, and an entry whose real or imaginary part is at least
1e-14 is never replaced. Missing: entries with both parts negative are replaced by zero however large they are, see
`C15_filter_false`. -/
theorem C15_solver_matrices_partial {Nx Ny n : ℕ} (s : Fin Nx → Fin Ny → ℂ) (G : Fin n → ℤ × ℤ)
    (C : Matrix (Fin n) (Fin n) ℂ) (hC : getConv (1 / Nx / Ny) s G = .ok C) :
    (IsUnit C.det → ∃ inv eps2, epsilonFft (1 / Nx / Ny) (.iso s) G = .ok (inv, eps2) ∧ inv * C = 1 ∧ C * inv = 1 ∧
      ∀ i j, eps2 (.inl i) (.inr j) = 0 ∧ eps2 (.inr i) (.inl j) = 0 ∧ eps2 (.inr i) (.inr j) = eps2 (.inl i) (.inl j) ∧
        (eps2 (.inl i) (.inl j) = C i j ∨ eps2 (.inl i) (.inl j) = 0) ∧
        ((1e-14 ≤ (C i j).re ∨ 1e-14 ≤ (C i j).im) → eps2 (.inl i) (.inl j) = C i j)) ∧
    (¬ IsUnit C.det → epsilonFft (1 / Nx / Ny) (.iso s) G = .error .runtimeError) := by
  constructor
  · intro hu
    refine ⟨C⁻¹, _, by simp only [epsilonFft, hC, ok_bind, torchInverse, if_pos hu]; rfl, Matrix.nonsing_inv_mul _ hu,
      Matrix.mul_nonsing_inv _ hu, fun i j => ?_⟩
    simp only [Matrix.map_apply, Matrix.fromBlocks_apply₁₁, Matrix.fromBlocks_apply₁₂, Matrix.fromBlocks_apply₂₁,
      Matrix.fromBlocks_apply₂₂, Matrix.zero_apply, true_and]
    refine ⟨by simp [zeroSmall], by simp [zeroSmall], ?_, fun h => ?_⟩
    · unfold zeroSmall; split
      · exact .inr rfl
      · exact .inl rfl
    · unfold zeroSmall
      rw [if_neg]
      rintro ⟨h1, h2⟩
      rcases h with h | h <;> linarith
  · intro hu
    simp only [epsilonFft, hC, ok_bind, torchInverse, if_neg hu, error_bind]

/-- The grating of two pixels used as a witness, with orders 0 and 1. -/
def twoPixel : Fin 2 → Fin 1 → ℂ := fun m _ => if m = 0 then 1 else 3

def twoOrders : Fin 2 → ℤ × ℤ := fun i => if i = 0 then (0, 0) else (1, 0)

lemma resolved_twoOrders (N : ℕ) (hN : 2 ≤ N) : Resolved N 1 twoOrders := by
  intro i j
  fin_cases i <;> fin_cases j <;> simp [twoOrders] <;> omega

lemma exp_neg_pi_I : Complex.exp (-(2 * Real.pi * Complex.I) * (1 / 2)) = -1 := by
  rw [show -(2 * Real.pi * Complex.I) * (1 / 2) = -(Real.pi * Complex.I) by ring, Complex.exp_neg, Complex.exp_pi_mul_I]; norm_num

/-- C15 is false about "negligibly small": for the lossless two-pixel grating (1, 3) the coefficient -1 between orders 0 and 1 is
replaced by zero, so the solver sees a uniform layer of permittivity 2. -/
theorem C15_filter_false : ∃ (C inv : Matrix (Fin 2) (Fin 2) ℂ) (eps2 : Matrix (Fin 2 ⊕ Fin 2) (Fin 2 ⊕ Fin 2) ℂ),
    getConv (1 / 2 / 1) twoPixel twoOrders = .ok C ∧ C 0 1 = -1 ∧
    epsilonFft (1 / 2 / 1) (.iso twoPixel) twoOrders = .ok (inv, eps2) ∧ eps2 (.inl 0) (.inl 1) = 0 := by
  obtain ⟨C, h1, h2⟩ := (C15_entries twoPixel twoOrders).1 (resolved_twoOrders 2 le_rfl)
  have c00 : C 0 0 = 2 := by rw [h2]; simp [fourierCoeff, twoPixel, twoOrders]; norm_num
  have c11 : C 1 1 = 2 := by rw [h2]; simp [fourierCoeff, twoPixel, twoOrders]; norm_num
  have hI := exp_neg_pi_I
  have c10 : C 1 0 = -1 := by
    rw [h2, fourierCoeff]
    simp only [Fin.sum_univ_two, Finset.univ_unique, Finset.sum_singleton, twoPixel, twoOrders]
    simp at hI ⊢
    rw [hI]; norm_num
  have c01 : C 0 1 = -1 := by
    have hH := C15_hermitian twoPixel (by intro m k; fin_cases m <;> simp [twoPixel]) twoOrders C h1
    have := hH.apply 0 1
    rw [c10] at this
    rw [← this]; simp
  have hdet : IsUnit C.det := by
    rw [Matrix.det_fin_two, c00, c11, c01, c10]
    norm_num
  obtain ⟨inv, eps2, h3, -, -, h4⟩ := (C15_solver_matrices_partial twoPixel twoOrders C h1).1 hdet
  refine ⟨C, inv, eps2, by simpa using h1, c01, by simpa using h3, ?_⟩
  simp only [epsilonFft, h1, ok_bind, torchInverse, if_pos hdet] at h3
  injection h3 with h3
  injection h3 with h5 h6
  rw [← h6, Matrix.map_apply, Matrix.fromBlocks_apply₁₁, c01, zeroSmall, if_pos]
  simp
  constructor <;> norm_num

/-- C15 is false about "Hermitian" for the filtered matrix: a real pattern of four pixels whose filtered matrix is not Hermitian. -/
theorem C15_filtered_hermitian_false : ∃ (s : Fin 4 → Fin 1 → ℂ) (C : Matrix (Fin 2) (Fin 2) ℂ),
    (∀ m k, (s m k).im = 0 ∧ 0 < (s m k).re) ∧ getConv (1 / 4 / 1) s twoOrders = .ok C ∧ C.IsHermitian ∧
    ¬ (C.map zeroSmall).IsHermitian := by
  let s : Fin 4 → Fin 1 → ℂ := fun m _ => if m = 0 ∨ m = 3 then 1 else 3
  have hs : ∀ m k, (s m k).im = 0 ∧ 0 < (s m k).re := by
    intro m k; simp only [s]; split <;> simp
  obtain ⟨C, h1, h2⟩ := (C15_entries s twoOrders).1 (resolved_twoOrders 4 (by norm_num))
  have hH := C15_hermitian s (fun m k => (hs m k).1) twoOrders C h1
  have e1 : Complex.exp (-(2 * Real.pi * Complex.I) * (1 / 4)) = -Complex.I := by
    rw [show -(2 * Real.pi * Complex.I) * (1 / 4) = -(Real.pi / 2 * Complex.I) by ring, Complex.exp_neg, Complex.exp_pi_div_two_mul_I,
      Complex.inv_I]
  have ek : ∀ k : ℕ, Complex.exp (-(2 * Real.pi * Complex.I) * (k / 4)) = (-Complex.I) ^ k := by
    intro k; rw [← e1, ← Complex.exp_nat_mul]; congr 1; ring
  have c10 : C 1 0 = -1 / 2 - Complex.I / 2 := by
    rw [h2, fourierCoeff]
    have := ek 0; have := ek 1; have := ek 2; have := ek 3
    simp only [Fin.sum_univ_four, Finset.univ_unique, Finset.sum_singleton, twoOrders, s]
    simp at *
    simp only [*]
    rw [show (-Complex.I) ^ 3 = Complex.I by rw [pow_succ, neg_sq, Complex.I_sq]; ring]
    ring
  refine ⟨s, C, hs, by simpa using h1, hH, fun hF => ?_⟩
  have h01 := hF.apply 0 1
  have c01 : C 0 1 = -1 / 2 + Complex.I / 2 := by
    rw [← hH.apply 0 1, c10]
    simp
    apply Complex.ext <;> simp; norm_num
  rw [Matrix.map_apply, Matrix.map_apply, c01, c10, zeroSmall, zeroSmall, if_pos, if_neg] at h01
  · have := congrArg Complex.re h01
    simp at this
    norm_num at this
  · simp; norm_num
  · constructor <;> simp <;> norm_num

/-- The orders -1, 0, 1 of a three-order grating are resolved by four pixels but not by two; the latter is an IndexError. -/
example : ∃ G : Fin 3 → ℤ × ℤ, Resolved 4 1 G ∧ Function.Injective G ∧ ¬ Resolved 2 1 G := by
  refine ⟨fun i => ((i : ℕ) - 1, 0), fun i j => ?_, fun i j h => ?_, fun h => ?_⟩
  · fin_cases i <;> fin_cases j <;> simp
  · have := congrArg Prod.fst h
    simp at this
    exact Fin.ext this
  · have := (h 2 0).1
    simp at this

end Nidn
