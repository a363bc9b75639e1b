/-
C186: what the RCWA solver sees of a pattern whose cells were repeated (eps_oversampling).
-/
import Verif.Model.EpsGrid
import Verif.Props.Conv
import Mathlib.MeasureTheory.Integral.IntervalIntegral.Basic
import Mathlib.MeasureTheory.Integral.DominatedConvergence
import Mathlib.Analysis.SpecialFunctions.Complex.Circle
import Mathlib.Analysis.SpecificLimits.Basic
import Mathlib.Analysis.SpecialFunctions.Trigonometric.Bounds
import Mathlib.Logic.Equiv.Fin.Basic

namespace Nidn

open Set MeasureTheory

/-- Spec: the image of `Nx × Ny` pixels on the unit square, each pixel of constant value. -/
noncomputable def pixelImage (Nx Ny : ℕ) (s : ℕ → ℕ → ℂ) (x y : ℝ) : ℂ := s ⌊Nx * x⌋₊ ⌊Ny * y⌋₊

/-- Spec: the Fourier coefficient of that image. -/
noncomputable def imageCoeff (Nx Ny : ℕ) (s : ℕ → ℕ → ℂ) (d : ℤ × ℤ) : ℂ :=
  ∫ x in (0 : ℝ)..1, ∫ y in (0 : ℝ)..1, pixelImage Nx Ny s x y * Complex.exp (-(2 * Real.pi * Complex.I) * (d.1 * x + d.2 * y))

/-- one harmonic -/
noncomputable def pixelWave (d : ℤ) (x : ℝ) : ℂ := Complex.exp (-(2 * Real.pi * Complex.I) * (d * x))

lemma pixelWave_norm (d : ℤ) (x : ℝ) : ‖pixelWave d x‖ = 1 := by
  unfold pixelWave
  rw [show -(2 * Real.pi * Complex.I) * ((d : ℂ) * (x : ℂ)) = ((-(2 * Real.pi * (d * x)) : ℝ) : ℂ) * Complex.I by push_cast; ring, Complex.norm_exp_ofReal_mul_I]

lemma pixelWave_continuous (d : ℤ) : Continuous (pixelWave d) := by unfold pixelWave; fun_prop

lemma pixelWave_close (d : ℤ) (x y : ℝ) : ‖pixelWave d x - pixelWave d y‖ ≤ 2 * Real.pi * |(d : ℝ)| * |x - y| := by
  have e : pixelWave d x = pixelWave d y * Complex.exp (Complex.I * ((-(2 * Real.pi * (d * (x - y))) : ℝ) : ℂ)) := by
    unfold pixelWave
    rw [← Complex.exp_add]
    congr 1
    push_cast; ring
  have h := Real.norm_exp_I_mul_ofReal_sub_one_le (x := -(2 * Real.pi * (d * (x - y))))
  rw [e, ← mul_sub_one, norm_mul, pixelWave_norm, one_mul]
  refine h.trans (le_of_eq ?_)
  rw [Real.norm_eq_abs, abs_neg, abs_mul, abs_mul, abs_mul, abs_of_pos Real.pi_pos, abs_two]
  ring

/-- the integral over a short piece is nearly the value at its left end -/
lemma piece_close (d : ℤ) (a h : ℝ) (h0 : 0 ≤ h) : ‖(∫ x in a..a + h, pixelWave d x) - h * pixelWave d a‖ ≤ 2 * Real.pi * |(d : ℝ)| * h ^ 2 := by
  have e : (∫ x in a..a + h, pixelWave d x) - h * pixelWave d a = ∫ x in a..a + h, (pixelWave d x - pixelWave d a) := by
    rw [intervalIntegral.integral_sub ((pixelWave_continuous d).intervalIntegrable _ _) intervalIntegrable_const, intervalIntegral.integral_const]
    simp
  rw [e]
  refine (intervalIntegral.norm_integral_le_of_norm_le_const (C := 2 * Real.pi * |(d : ℝ)| * h) fun x hx => ?_).trans (le_of_eq ?_)
  · rw [uIoc_of_le (by linarith)] at hx
    refine (pixelWave_close d x a).trans (mul_le_mul_of_nonneg_left ?_ (by positivity))
    rw [abs_of_nonneg (by linarith [hx.1])]
    linarith [hx.2]
  · rw [add_sub_cancel_left, abs_of_nonneg h0]; ring

/-- the sum over the sampling points of one pixel, against the integral over the pixel -/
lemma pixel_close (N r m : ℕ) (hN : 0 < N) (hr : 0 < r) (d : ℤ) :
    ‖(∫ x in (m / N : ℝ)..((m + 1) / N : ℝ), pixelWave d x) - 1 / ((N : ℂ) * r) * ∑ q : Fin r, pixelWave d (((q : ℕ) + r * m : ℕ) / (N * r : ℝ))‖ ≤ 2 * Real.pi * |(d : ℝ)| / (r * N ^ 2) := by
  have hN' : (0 : ℝ) < N := by exact_mod_cast hN
  have hr' : (0 : ℝ) < r := by exact_mod_cast hr
  set a : ℕ → ℝ := fun q => ((q + r * m : ℕ) : ℝ) / (N * r) with ha
  have hsplit : (∫ x in (m / N : ℝ)..((m + 1) / N : ℝ), pixelWave d x) = ∑ q ∈ Finset.range r, ∫ x in a q..a (q + 1), pixelWave d x := by
    rw [intervalIntegral.sum_integral_adjacent_intervals fun k _ => (pixelWave_continuous d).intervalIntegrable _ _]
    congr 1
    · rw [ha]; push_cast; field_simp; ring
    · rw [ha]; push_cast; field_simp; ring
  have hstep : ∀ q, a (q + 1) = a q + 1 / (N * r) := by intro q; rw [ha]; push_cast; field_simp; ring
  rw [hsplit, Finset.sum_range (fun q => ∫ x in a q..a (q + 1), pixelWave d x), Finset.mul_sum, ← Finset.sum_sub_distrib]
  refine (norm_sum_le _ _).trans ((Finset.sum_le_card_nsmul _ _ (2 * Real.pi * |(d : ℝ)| * (1 / (N * r)) ^ 2) fun q _ => ?_).trans (le_of_eq ?_))
  · have := piece_close d (a q) (1 / (N * r)) (by positivity)
    rw [hstep]
    have e : ((1 / (N * r : ℝ) : ℝ) : ℂ) = 1 / ((N : ℂ) * r) := by push_cast; rfl
    rw [e] at this
    exact this
  · rw [Finset.card_univ, Fintype.card_fin, nsmul_eq_mul]
    field_simp

/-- an integral over the unit interval, pixel by pixel -/
lemma integral_pixels (N : ℕ) (hN : 0 < N) (g : ℕ → ℂ) (F : ℝ → ℂ) (hF : Continuous F) :
    ∫ x in (0 : ℝ)..1, g ⌊N * x⌋₊ * F x = ∑ m : Fin N, g m * ∫ x in (m / N : ℝ)..((m + 1) / N : ℝ), F x := by
  have hN' : (0 : ℝ) < N := by exact_mod_cast hN
  set a : ℕ → ℝ := fun q => (q : ℝ) / N with ha
  have hle : ∀ q, a q ≤ a (q + 1) := by intro q; rw [ha]; push_cast; gcongr; linarith
  have heq : ∀ q, EqOn (fun x : ℝ => g ⌊N * x⌋₊ * F x) (fun x => g q * F x) (Ioo (a q) (a (q + 1))) := by
    intro q x hx
    have h1 : (q : ℝ) < N * x := by have := hx.1; rw [ha, div_lt_iff₀ hN'] at this; linarith
    have h2 : (N : ℝ) * x < q + 1 := by have := hx.2; rw [ha, lt_div_iff₀ hN'] at this; push_cast at this; linarith
    have : ⌊(N : ℝ) * x⌋₊ = q := by
      rw [Nat.floor_eq_iff (by have : (0 : ℝ) ≤ q := Nat.cast_nonneg q; linarith)]
      exact ⟨h1.le, h2⟩
    simp only [this]
  have hint : ∀ k < N, IntervalIntegrable (fun x : ℝ => g ⌊N * x⌋₊ * F x) volume (a k) (a (k + 1)) := by
    intro k _
    have : IntervalIntegrable (fun x => g k * F x) volume (a k) (a (k + 1)) := ((continuous_const.mul hF).intervalIntegrable _ _)
    refine this.congr_uIoo ?_
    rw [uIoo_of_le (hle k)]
    exact (heq k).symm
  have hsum := intervalIntegral.sum_integral_adjacent_intervals hint
  have h0 : a 0 = 0 := by simp [ha]
  have h1 : a N = 1 := by simp only [ha]; field_simp
  rw [h0, h1] at hsum
  rw [← hsum, Finset.sum_range]
  refine Finset.sum_congr rfl fun m _ => ?_
  rw [intervalIntegral.integral_congr_Ioo_of_le (hle m) (heq m), intervalIntegral.integral_const_mul]
  congr 2
  rw [ha]; push_cast; rfl

/-- the coefficient of the image, pixel by pixel -/
lemma imageCoeff_eq (Nx Ny : ℕ) (hx : 0 < Nx) (hy : 0 < Ny) (s : ℕ → ℕ → ℂ) (d : ℤ × ℤ) :
    imageCoeff Nx Ny s d = ∑ m : Fin Nx, ∑ n : Fin Ny, s m n * ((∫ x in (m / Nx : ℝ)..((m + 1) / Nx : ℝ), pixelWave d.1 x) * ∫ y in (n / Ny : ℝ)..((n + 1) / Ny : ℝ), pixelWave d.2 y) := by
  have e : ∀ x y : ℝ, Complex.exp (-(2 * Real.pi * Complex.I) * (d.1 * x + d.2 * y)) = pixelWave d.1 x * pixelWave d.2 y := by
    intro x y
    unfold pixelWave
    rw [← Complex.exp_add]; congr 1; ring
  unfold imageCoeff pixelImage
  simp only [e]
  have inner : ∀ x : ℝ, (∫ y in (0 : ℝ)..1, s ⌊Nx * x⌋₊ ⌊Ny * y⌋₊ * (pixelWave d.1 x * pixelWave d.2 y)) =
      (fun m => ∑ n : Fin Ny, s m n * ∫ y in (n / Ny : ℝ)..((n + 1) / Ny : ℝ), pixelWave d.2 y) ⌊Nx * x⌋₊ * pixelWave d.1 x := by
    intro x
    rw [integral_pixels Ny hy (fun n => s ⌊Nx * x⌋₊ n) (fun y => pixelWave d.1 x * pixelWave d.2 y) (continuous_const.mul (pixelWave_continuous _)), Finset.sum_mul]
    refine Finset.sum_congr rfl fun n _ => ?_
    rw [intervalIntegral.integral_const_mul]
    ring
  simp only [inner]
  rw [integral_pixels Nx hx (fun m => ∑ n : Fin Ny, s m n * ∫ y in (n / Ny : ℝ)..((n + 1) / Ny : ℝ), pixelWave d.2 y) _ (pixelWave_continuous d.1)]
  refine Finset.sum_congr rfl fun m _ => ?_
  rw [Finset.sum_mul]
  refine Finset.sum_congr rfl fun n _ => ?_
  ring

/-- the samples of one pixel -/
noncomputable def pixelSum (N r m : ℕ) (d : ℤ) : ℂ := 1 / ((N : ℂ) * r) * ∑ q : Fin r, pixelWave d (((q : ℕ) + r * m : ℕ) / (N * r : ℝ))

/-- the coefficient of the repeated pattern, pixel by pixel -/
lemma repeated_coeff (e : ℕ → ℕ → ℕ → ℕ → ℂ) (k l Nx Ny r : ℕ) (hr : 0 < r) (d : ℤ × ℤ) :
    fourierCoeff (fun (i : Fin (Nx * r)) (j : Fin (Ny * r)) => repeatXY r e i j k l) d = ∑ m : Fin Nx, ∑ n : Fin Ny, e m n k l * (pixelSum Nx r m d.1 * pixelSum Ny r n d.2) := by
  have hw : ∀ (i : Fin (Nx * r)) (j : Fin (Ny * r)), Complex.exp (-(2 * Real.pi * Complex.I) * ((i : ℕ) * d.1 / (Nx * r : ℕ) + (j : ℕ) * d.2 / (Ny * r : ℕ))) =
      pixelWave d.1 ((i : ℕ) / (Nx * r : ℝ)) * pixelWave d.2 ((j : ℕ) / (Ny * r : ℝ)) := by
    intro i j
    unfold pixelWave
    rw [← Complex.exp_add]; congr 1; push_cast; ring
  unfold fourierCoeff
  simp only [hw]
  rw [← (finProdFinEquiv (m := Nx) (n := r)).sum_comp, Fintype.sum_prod_type]
  simp only [← (finProdFinEquiv (m := Ny) (n := r)).sum_comp, Fintype.sum_prod_type]
  have hv : ∀ (m : Fin Nx) (q : Fin r) (n : Fin Ny) (p : Fin r), repeatXY r e (finProdFinEquiv (m, q) : Fin (Nx * r)) (finProdFinEquiv (n, p) : Fin (Ny * r)) k l = e m n k l := by
    intro m q n p
    simp only [repeatXY, finProdFinEquiv_apply_val]
    rw [Nat.add_mul_div_left _ _ hr, Nat.div_eq_of_lt q.2, zero_add, Nat.add_mul_div_left _ _ hr, Nat.div_eq_of_lt p.2, zero_add]
  simp only [hv]
  simp only [finProdFinEquiv_apply_val, pixelSum]
  rw [Finset.mul_sum]
  refine Finset.sum_congr rfl fun m _ => ?_
  rw [Finset.sum_comm, Finset.mul_sum]
  refine Finset.sum_congr rfl fun n _ => ?_
  rw [show e m n k l * (1 / ((Nx : ℂ) * r) * (∑ q : Fin r, pixelWave d.1 (((q : ℕ) + r * m : ℕ) / (Nx * r : ℝ))) * (1 / ((Ny : ℂ) * r) * ∑ q : Fin r, pixelWave d.2 (((q : ℕ) + r * n : ℕ) / (Ny * r : ℝ)))) =
    1 / ((Nx : ℂ) * r * (Ny * r)) * (e m n k l * ((∑ q : Fin r, pixelWave d.1 (((q : ℕ) + r * m : ℕ) / (Nx * r : ℝ))) * ∑ q : Fin r, pixelWave d.2 (((q : ℕ) + r * n : ℕ) / (Ny * r : ℝ)))) by
      rw [one_div, one_div, one_div, mul_inv]; ring,
    Finset.sum_mul_sum, Finset.mul_sum]
  simp only [Nat.cast_mul, Finset.mul_sum]

lemma pixelSum_norm (N r m : ℕ) (hN : 0 < N) (hr : 0 < r) (d : ℤ) : ‖pixelSum N r m d‖ ≤ 1 / N := by
  have hN' : (0 : ℝ) < N := by exact_mod_cast hN
  have hr' : (0 : ℝ) < r := by exact_mod_cast hr
  unfold pixelSum
  rw [norm_mul]
  have h1 : ‖∑ q : Fin r, pixelWave d (((q : ℕ) + r * m : ℕ) / (N * r : ℝ))‖ ≤ r := by
    refine (norm_sum_le _ _).trans (le_of_eq ?_)
    simp [pixelWave_norm]
  have h2 : ‖1 / ((N : ℂ) * r)‖ = 1 / (N * r) := by simp
  rw [h2]
  calc _ ≤ 1 / ((N : ℝ) * r) * r := by gcongr
    _ = 1 / N := by field_simp

lemma pixelIntegral_norm (N m : ℕ) (hN : 0 < N) (d : ℤ) : ‖∫ x in (m / N : ℝ)..((m + 1) / N : ℝ), pixelWave d x‖ ≤ 1 / N := by
  have hN' : (0 : ℝ) < N := by exact_mod_cast hN
  refine (intervalIntegral.norm_integral_le_of_norm_le_const (C := 1) fun x _ => (pixelWave_norm d x).le).trans (le_of_eq ?_)
  rw [one_mul, ← sub_div, add_sub_cancel_left, abs_of_pos (by positivity)]

/-- C186: the coefficients of an oversampled pattern are those of the image of its pixels, up to an error that falls with the oversampling. -/
theorem C186_close (e : ℕ → ℕ → ℕ → ℕ → ℂ) (k l Nx Ny r : ℕ) (hx : 0 < Nx) (hy : 0 < Ny) (hr : 0 < r) (M : ℝ) (hM : ∀ m < Nx, ∀ n < Ny, ‖e m n k l‖ ≤ M) (d : ℤ × ℤ) :
    ‖fourierCoeff (fun (i : Fin (Nx * r)) (j : Fin (Ny * r)) => repeatXY r e i j k l) d - imageCoeff Nx Ny (fun m n => e m n k l) d‖ ≤
      2 * Real.pi * M * (|(d.1 : ℝ)| / Nx + |(d.2 : ℝ)| / Ny) / r := by
  have hx' : (0 : ℝ) < Nx := by exact_mod_cast hx
  have hy' : (0 : ℝ) < Ny := by exact_mod_cast hy
  have hr' : (0 : ℝ) < r := by exact_mod_cast hr
  have hM0 : 0 ≤ M := (norm_nonneg _).trans (hM 0 hx 0 hy)
  rw [repeated_coeff e k l Nx Ny r hr d, imageCoeff_eq Nx Ny hx hy, ← Finset.sum_sub_distrib]
  have term : ∀ (m : Fin Nx) (n : Fin Ny), ‖e m n k l * (pixelSum Nx r m d.1 * pixelSum Ny r n d.2) -
      e m n k l * ((∫ x in (m / Nx : ℝ)..((m + 1) / Nx : ℝ), pixelWave d.1 x) * ∫ y in (n / Ny : ℝ)..((n + 1) / Ny : ℝ), pixelWave d.2 y)‖ ≤
      M * (2 * Real.pi * |(d.1 : ℝ)| / (r * Nx ^ 2) * (1 / Ny) + 1 / Nx * (2 * Real.pi * |(d.2 : ℝ)| / (r * Ny ^ 2))) := by
    intro m n
    have p1 := pixel_close Nx r m hx hr d.1
    have p2 := pixel_close Ny r n hy hr d.2
    have n1 := pixelIntegral_norm Nx m hx d.1
    have n2 := pixelSum_norm Ny r n hy hr d.2
    change ‖_ - pixelSum Nx r m d.1‖ ≤ _ at p1
    change ‖_ - pixelSum Ny r n d.2‖ ≤ _ at p2
    rw [norm_sub_rev] at p1 p2
    generalize (∫ x in (m / Nx : ℝ)..((m + 1) / Nx : ℝ), pixelWave d.1 x) = A at *
    generalize (∫ y in (n / Ny : ℝ)..((n + 1) / Ny : ℝ), pixelWave d.2 y) = B at *
    rw [← mul_sub, norm_mul, show pixelSum Nx r m d.1 * pixelSum Ny r n d.2 - A * B = (pixelSum Nx r m d.1 - A) * pixelSum Ny r n d.2 + A * (pixelSum Ny r n d.2 - B) by ring]
    refine mul_le_mul (hM m m.2 n n.2) ((norm_add_le _ _).trans ?_) (norm_nonneg _) hM0
    rw [norm_mul, norm_mul]
    gcongr
  set B : ℝ := M * (2 * Real.pi * |(d.1 : ℝ)| / (r * Nx ^ 2) * (1 / Ny) + 1 / Nx * (2 * Real.pi * |(d.2 : ℝ)| / (r * Ny ^ 2))) with hB
  have hsum : ∀ m ∈ (Finset.univ : Finset (Fin Nx)), ‖(∑ n : Fin Ny, e m n k l * (pixelSum Nx r m d.1 * pixelSum Ny r n d.2)) -
      ∑ n : Fin Ny, e m n k l * ((∫ x in (m / Nx : ℝ)..((m + 1) / Nx : ℝ), pixelWave d.1 x) * ∫ y in (n / Ny : ℝ)..((n + 1) / Ny : ℝ), pixelWave d.2 y)‖ ≤ Ny * B := by
    intro m _
    rw [← Finset.sum_sub_distrib]
    refine (norm_sum_le _ _).trans ((Finset.sum_le_card_nsmul _ _ B fun n _ => term m n).trans (le_of_eq ?_))
    rw [Finset.card_univ, Fintype.card_fin, nsmul_eq_mul]
  refine (norm_sum_le _ _).trans ((Finset.sum_le_card_nsmul _ _ (Ny * B) hsum).trans (le_of_eq ?_))
  rw [Finset.card_univ, Fintype.card_fin, nsmul_eq_mul, hB]
  field_simp

/-- C186: with growing oversampling the coefficients tend to those of the image. -/
theorem C186_limit (e : ℕ → ℕ → ℕ → ℕ → ℂ) (k l Nx Ny : ℕ) (hx : 0 < Nx) (hy : 0 < Ny) (d : ℤ × ℤ) :
    Filter.Tendsto (fun r : ℕ => fourierCoeff (fun (i : Fin (Nx * r)) (j : Fin (Ny * r)) => repeatXY r e i j k l) d) Filter.atTop (nhds (imageCoeff Nx Ny (fun m n => e m n k l) d)) := by
  set M : ℝ := ∑ m ∈ Finset.range Nx, ∑ n ∈ Finset.range Ny, ‖e m n k l‖ with hMdef
  have hM : ∀ m < Nx, ∀ n < Ny, ‖e m n k l‖ ≤ M := by
    intro m hm n hn
    refine (Finset.single_le_sum (f := fun n => ‖e m n k l‖) (fun _ _ => norm_nonneg _) (Finset.mem_range.2 hn)).trans ?_
    exact Finset.single_le_sum (f := fun m => ∑ n ∈ Finset.range Ny, ‖e m n k l‖) (fun _ _ => Finset.sum_nonneg fun _ _ => norm_nonneg _) (Finset.mem_range.2 hm)
  rw [tendsto_iff_norm_sub_tendsto_zero]
  refine squeeze_zero' (Filter.Eventually.of_forall fun _ => norm_nonneg _) ?_ (tendsto_const_div_atTop_nhds_zero_nat (2 * Real.pi * M * (|(d.1 : ℝ)| / Nx + |(d.2 : ℝ)| / Ny)))
  filter_upwards [Filter.eventually_gt_atTop 0] with r hr
  exact C186_close e k l Nx Ny r hx hy hr M hM d

/-- C186: so do the entries of the convolution matrix the solver works with. -/
theorem C186_matrix (e : ℕ → ℕ → ℕ → ℕ → ℂ) (k l Nx Ny r n : ℕ) (hx : 0 < Nx) (hy : 0 < Ny) (hr : 0 < r) (M : ℝ) (hM : ∀ m < Nx, ∀ n < Ny, ‖e m n k l‖ ≤ M) (G : Fin n → ℤ × ℤ)
    (C : Matrix (Fin n) (Fin n) ℂ) (hC : getConv (1 / (Nx * r : ℕ) / (Ny * r : ℕ)) (fun (i : Fin (Nx * r)) (j : Fin (Ny * r)) => repeatXY r e i j k l) G = .ok C) (a b : Fin n) :
    ‖C a b - imageCoeff Nx Ny (fun m n => e m n k l) (G a - G b)‖ ≤ 2 * Real.pi * M * (|((G a - G b).1 : ℝ)| / Nx + |((G a - G b).2 : ℝ)| / Ny) / r := by
  have hres : Resolved (Nx * r) (Ny * r) G := by
    by_contra h; rw [(C15_entries _ G).2 h] at hC; simp at hC
  obtain ⟨M', h1, h2⟩ := (C15_entries (fun (i : Fin (Nx * r)) (j : Fin (Ny * r)) => repeatXY r e i j k l) G).1 hres
  rw [h1] at hC; injection hC with hC; subst hC
  rw [h2]
  exact C186_close e k l Nx Ny r hx hy hr M hM _

/-- two pixels, repeated 512 times: the orders -1, 0 and 1 are resolved, so the matrix exists and is within 2 * pi * 3 / 512 of that of the image -/
example : ∃ C, getConv (1 / (2 * 512 : ℕ) / (1 * 512 : ℕ)) (fun (i : Fin (2 * 512)) (j : Fin (1 * 512)) => repeatXY 512 (fun m _ _ _ => if m = 0 then (1 : ℂ) else 3) i j 0 0)
    (fun i : Fin 3 => ((i : ℤ) - 1, 0)) = .ok C := by
  have hr : Resolved (2 * 512) (1 * 512) (fun i : Fin 3 => (((i : ℤ) - 1, 0) : ℤ × ℤ)) := by unfold Resolved; decide
  obtain ⟨C, h, -⟩ := (C15_entries (fun (i : Fin (2 * 512)) (j : Fin (1 * 512)) => repeatXY 512 (fun m _ _ _ => if m = 0 then (1 : ℂ) else 3) i j 0 0) _).1 hr
  exact ⟨C, h⟩

example : ∀ m < 2, ∀ n < 1, ‖(fun m (_ _ _ : ℕ) => if m = 0 then (1 : ℂ) else 3) m n 0 0‖ ≤ 3 := by
  intro m _ n _
  by_cases h : m = 0 <;> simp [h]

end Nidn
