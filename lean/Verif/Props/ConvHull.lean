/-
C187: the permittivities an RCWA layer works with lie between those of its pattern.
-/
import Verif.Props.ConvSolvable
import Mathlib.Analysis.Convex.Combination

namespace Nidn

open Matrix

/-- C187: the mean permittivity any field of the chosen orders sees lies in the convex hull of the permittivities of the pattern. -/
theorem C187_range {Nx Ny n : ℕ} (s : Fin Nx → Fin Ny → ℂ) (G : Fin n → ℤ × ℤ) (hG : Function.Injective G) (C : Matrix (Fin n) (Fin n) ℂ) (hC : getConv (1 / Nx / Ny) s G = .ok C)
    (x : Fin n → ℂ) (hx : ∑ i, ‖x i‖ ^ 2 = 1) : star x ⬝ᵥ (C *ᵥ x) ∈ convexHull ℝ (Set.range fun p : Fin Nx × Fin Ny => s p.1 p.2) := by
  have hr : Resolved Nx Ny G := by
    by_contra h; rw [(C15_entries s G).2 h] at hC; simp at hC
  obtain ⟨M', e1, e2⟩ := (C15_entries s G).1 hr
  rw [e1] at hC; injection hC with hC; subst hC
  obtain ⟨w, hw, h⟩ := conv_weights (Nx := Nx) (Ny := Ny) G x
  have h1 := h (fun _ _ => 1) 1 (fun i j => by
    rw [fourierCoeff_const 1 _ (hr i j).1 (hr i j).2, Matrix.one_apply]
    simp [sub_eq_zero, hG.eq_iff])
  have hsum : ∑ p : Fin Nx × Fin Ny, w p.1 p.2 = 1 := by
    have hself : star x ⬝ᵥ x = ((∑ i, ‖x i‖ ^ 2 : ℝ) : ℂ) := by
      rw [dotProduct, Complex.ofReal_sum]
      refine Finset.sum_congr rfl fun i _ => ?_
      rw [Pi.star_apply, Complex.star_def, mul_comm, Complex.mul_conj, Complex.normSq_eq_norm_sq]
    rw [Matrix.one_mulVec, hself, hx] at h1
    simp only [one_mul] at h1
    rw [Fintype.sum_prod_type]
    have : ((∑ a, ∑ b, w a b : ℝ) : ℂ) = 1 := by
      push_cast; rw [← h1]; norm_num
    exact_mod_cast this
  rw [h s M' e2]
  have e : ∑ a, ∑ b, s a b * (w a b : ℂ) = ∑ p : Fin Nx × Fin Ny, w p.1 p.2 • s p.1 p.2 := by
    rw [Fintype.sum_prod_type]
    refine Finset.sum_congr rfl fun a _ => Finset.sum_congr rfl fun b _ => ?_
    rw [Complex.real_smul, mul_comm]
  rw [e]
  exact (convex_convexHull ℝ _).sum_mem (fun p _ => hw p.1 p.2) hsum fun p _ => subset_convexHull ℝ _ ⟨p, rfl⟩

/-- C187: every eigenvalue of the convolution matrix lies in the convex hull of the permittivities of the pattern. -/
theorem C187_eigenvalues {Nx Ny n : ℕ} (s : Fin Nx → Fin Ny → ℂ) (G : Fin n → ℤ × ℤ) (hG : Function.Injective G) (C : Matrix (Fin n) (Fin n) ℂ) (hC : getConv (1 / Nx / Ny) s G = .ok C)
    (μ : ℂ) (x : Fin n → ℂ) (hx : x ≠ 0) (he : C *ᵥ x = μ • x) : μ ∈ convexHull ℝ (Set.range fun p : Fin Nx × Fin Ny => s p.1 p.2) := by
  have hpos : 0 < ∑ i, ‖x i‖ ^ 2 := by
    obtain ⟨i, hi⟩ := Function.ne_iff.1 hx
    refine Finset.sum_pos' (fun _ _ => sq_nonneg _) ⟨i, Finset.mem_univ i, ?_⟩
    have : 0 < ‖x i‖ := norm_pos_iff.2 hi
    positivity
  set N : ℝ := Real.sqrt (∑ i, ‖x i‖ ^ 2) with hN
  have hN0 : 0 < N := Real.sqrt_pos.2 hpos
  have hN2 : N ^ 2 = ∑ i, ‖x i‖ ^ 2 := Real.sq_sqrt hpos.le
  set y : Fin n → ℂ := ((N⁻¹ : ℝ) : ℂ) • x with hy
  have hy1 : ∑ i, ‖y i‖ ^ 2 = 1 := by
    simp only [hy, Pi.smul_apply, smul_eq_mul, norm_mul, Complex.norm_real, mul_pow, ← Finset.mul_sum, ← hN2, Real.norm_eq_abs, sq_abs]
    field_simp
  have hself : star y ⬝ᵥ y = 1 := by
    have : star y ⬝ᵥ y = ((∑ i, ‖y i‖ ^ 2 : ℝ) : ℂ) := by
      rw [dotProduct, Complex.ofReal_sum]
      refine Finset.sum_congr rfl fun i _ => ?_
      rw [Pi.star_apply, Complex.star_def, mul_comm, Complex.mul_conj, Complex.normSq_eq_norm_sq]
    rw [this, hy1, Complex.ofReal_one]
  have hCy : C *ᵥ y = μ • y := by rw [hy, Matrix.mulVec_smul, he, smul_comm]
  have := C187_range s G hG C hC y hy1
  rwa [hCy, dotProduct_smul, hself, smul_eq_mul, mul_one] at this

/-- C187, patterns without loss: the eigenvalues are real and lie between the smallest and the largest permittivity. -/
theorem C187_lossless {Nx Ny n : ℕ} (s : Fin Nx → Fin Ny → ℂ) (G : Fin n → ℤ × ℤ) (hG : Function.Injective G) (C : Matrix (Fin n) (Fin n) ℂ) (hC : getConv (1 / Nx / Ny) s G = .ok C)
    (lo hi : ℝ) (hs : ∀ m k, (s m k).im = 0 ∧ lo ≤ (s m k).re ∧ (s m k).re ≤ hi) (μ : ℂ) (x : Fin n → ℂ) (hx : x ≠ 0) (he : C *ᵥ x = μ • x) : μ.im = 0 ∧ lo ≤ μ.re ∧ μ.re ≤ hi := by
  have h := C187_eigenvalues s G hG C hC μ x hx he
  have hconv : Convex ℝ {z : ℂ | z.im = 0 ∧ lo ≤ z.re ∧ z.re ≤ hi} := by
    intro a ha b hb t u ht hu htu
    obtain ⟨a1, a2, a3⟩ := ha
    obtain ⟨b1, b2, b3⟩ := hb
    refine ⟨?_, ?_, ?_⟩
    · simp [a1, b1]
    · simp only [Complex.add_re, Complex.real_smul, Complex.re_ofReal_mul]
      have h1 := mul_le_mul_of_nonneg_left a2 ht
      have h2 := mul_le_mul_of_nonneg_left b2 hu
      have h3 : lo = t * lo + u * lo := by rw [← add_mul, htu, one_mul]
      linarith
    · simp only [Complex.add_re, Complex.real_smul, Complex.re_ofReal_mul]
      have h1 := mul_le_mul_of_nonneg_left a3 ht
      have h2 := mul_le_mul_of_nonneg_left b3 hu
      have h3 : hi = t * hi + u * hi := by rw [← add_mul, htu, one_mul]
      linarith
  exact convexHull_min (by rintro _ ⟨p, rfl⟩; exact hs p.1 p.2) hconv h

/-- C187, passive patterns: no eigenvalue amplifies. -/
theorem C187_passive {Nx Ny n : ℕ} (s : Fin Nx → Fin Ny → ℂ) (G : Fin n → ℤ × ℤ) (hG : Function.Injective G) (C : Matrix (Fin n) (Fin n) ℂ) (hC : getConv (1 / Nx / Ny) s G = .ok C)
    (hs : ∀ m k, 0 ≤ (s m k).im) (μ : ℂ) (x : Fin n → ℂ) (hx : x ≠ 0) (he : C *ᵥ x = μ • x) : 0 ≤ μ.im := by
  have h := C187_eigenvalues s G hG C hC μ x hx he
  have hconv : Convex ℝ {z : ℂ | 0 ≤ z.im} := by
    intro a ha b hb t u ht hu htu
    change 0 ≤ a.im at ha
    change 0 ≤ b.im at hb
    change 0 ≤ (t • a + u • b).im
    simp only [Complex.add_im, Complex.real_smul, Complex.im_ofReal_mul]
    positivity
  exact convexHull_min (by rintro _ ⟨p, rfl⟩; exact hs p.1 p.2) hconv h

/-- the two-pixel grating of permittivities 1 and 3 with orders 0 and 1: the matrix is [[2, -1], [-1, 2]], its eigenvalues 1 and 3 are the ends of the range -/
example : ∃ C, getConv (1 / (2 : ℕ) / (1 : ℕ)) twoPixel twoOrders = .ok C ∧ Function.Injective twoOrders ∧ C *ᵥ ![1, 1] = (1 : ℂ) • ![1, 1] ∧ C *ᵥ ![1, -1] = (3 : ℂ) • ![1, -1] := by
  obtain ⟨C, h1, h2⟩ := (C15_entries twoPixel twoOrders).1 (resolved_twoOrders 2 le_rfl)
  have hp := exp_neg_pi_I
  have hq : Complex.exp (2 * Real.pi * Complex.I * (1 / 2)) = -1 := by
    rw [show 2 * (Real.pi : ℂ) * Complex.I * (1 / 2) = Real.pi * Complex.I by ring, Complex.exp_pi_mul_I]
  have c00 : C 0 0 = 2 := by rw [h2]; simp [fourierCoeff, twoOrders, twoPixel, Fin.sum_univ_two]; norm_num
  have c11 : C 1 1 = 2 := by rw [h2]; simp [fourierCoeff, twoOrders, twoPixel, Fin.sum_univ_two]; norm_num
  have c10 : C 1 0 = -1 := by
    rw [h2]
    simp only [fourierCoeff, twoOrders, twoPixel, Fin.sum_univ_two]
    norm_num at hp ⊢
    rw [hp]; norm_num
  have c01 : C 0 1 = -1 := by
    rw [h2]
    simp only [fourierCoeff, twoOrders, twoPixel, Fin.sum_univ_two]
    norm_num at hq ⊢
    rw [hq]; norm_num
  refine ⟨C, h1, by unfold twoOrders; decide, ?_, ?_⟩
  · funext i
    fin_cases i <;> simp [Matrix.mulVec, dotProduct, Fin.sum_univ_two, c00, c01, c10, c11] <;> norm_num
  · funext i
    fin_cases i <;> simp [Matrix.mulVec, dotProduct, Fin.sum_univ_two, c00, c01, c10, c11] <;> norm_num

end Nidn
