/-
C193: what repeating the cells of a pattern (eps_oversampling) does to its Fourier coefficients, exactly.
-/
import Verif.Props.Oversample

namespace Nidn

/-- the mean of the wave of order `d` over the `r` samples of the first of `N` cells -/
noncomputable def cellFactor (N r : ℕ) (d : ℤ) : ℂ := 1 / r * ∑ q : Fin r, Complex.exp (-(2 * Real.pi * Complex.I) * ((q : ℕ) * d / (N * r)))

lemma pixelSum_factor (N r m : ℕ) (hN : 0 < N) (hr : 0 < r) (d : ℤ) : pixelSum N r m d = 1 / N * cellFactor N r d * Complex.exp (-(2 * Real.pi * Complex.I) * (m * d / N)) := by
  have hN' : (N : ℂ) ≠ 0 := by exact_mod_cast hN.ne'
  have hr' : (r : ℂ) ≠ 0 := by exact_mod_cast hr.ne'
  have h : ∀ q : Fin r, pixelWave d (((q : ℕ) + r * m : ℕ) / (N * r : ℝ)) =
      Complex.exp (-(2 * Real.pi * Complex.I) * ((q : ℕ) * d / (N * r))) * Complex.exp (-(2 * Real.pi * Complex.I) * (m * d / N)) := by
    intro q
    unfold pixelWave
    rw [← Complex.exp_add]; congr 1; push_cast; field_simp; ring
  unfold pixelSum cellFactor
  simp only [h]
  rw [← Finset.sum_mul]
  generalize ∑ q : Fin r, Complex.exp (-(2 * Real.pi * Complex.I) * ((q : ℕ) * d / (N * r))) = S
  generalize Complex.exp _ = w
  field_simp

lemma cellFactor_zero (N r : ℕ) (hr : 0 < r) : cellFactor N r 0 = 1 := by
  have hr' : (r : ℂ) ≠ 0 := by exact_mod_cast hr.ne'
  simp [cellFactor, hr']

lemma cellFactor_one (N : ℕ) (d : ℤ) : cellFactor N 1 d = 1 := by simp [cellFactor]

/-- the waves of a whole number of periods per cell average out, unless the samples cannot tell them from a constant -/
lemma cellFactor_extinct (N r : ℕ) (hN : 0 < N) (hr : 0 < r) (d : ℤ) (h1 : (N : ℤ) ∣ d) (h2 : ¬ ((N * r : ℕ) : ℤ) ∣ d) : cellFactor N r d = 0 := by
  have hN' : (N : ℂ) ≠ 0 := by exact_mod_cast hN.ne'
  have hr' : (r : ℂ) ≠ 0 := by exact_mod_cast hr.ne'
  obtain ⟨t, rfl⟩ := h1
  set z := Complex.exp (-(2 * Real.pi * Complex.I) * (t / r)) with hz
  have hq : ∀ q : Fin r, Complex.exp (-(2 * Real.pi * Complex.I) * ((q : ℕ) * ((N : ℤ) * t : ℤ) / (N * r))) = z ^ (q : ℕ) := by
    intro q
    rw [hz, ← Complex.exp_nat_mul]; congr 1; push_cast; field_simp
  have zr : z ^ r = 1 := by
    rw [hz, ← Complex.exp_nat_mul, Complex.exp_eq_one_iff]
    exact ⟨-t, by push_cast; field_simp⟩
  have z1 : z ≠ 1 := by
    intro h
    rw [hz, Complex.exp_eq_one_iff] at h
    obtain ⟨j, hj⟩ := h
    have hp : (2 * Real.pi * Complex.I : ℂ) ≠ 0 := Complex.two_pi_I_ne_zero
    have h3 : (t : ℂ) = -j * r := by
      have : (2 * Real.pi * Complex.I) * (t / r : ℂ) = (2 * Real.pi * Complex.I) * (-j) := by linear_combination -hj
      have := mul_left_cancel₀ hp this
      field_simp at this
      linear_combination this
    have h4 : t = -j * r := by exact_mod_cast h3
    exact h2 ⟨-j, by rw [h4]; push_cast; ring⟩
  unfold cellFactor
  simp only [hq]
  rw [Fin.sum_univ_eq_sum_range (fun q => z ^ q) r, geom_sum_eq z1, zr, sub_self, zero_div, mul_zero]

/-- C193: repeating the cells multiplies the coefficient of every order by a factor that does not depend on the pattern. -/
theorem C193_factor (e : ℕ → ℕ → ℕ → ℕ → ℂ) (k l Nx Ny r : ℕ) (hx : 0 < Nx) (hy : 0 < Ny) (hr : 0 < r) (d : ℤ × ℤ) :
    fourierCoeff (fun (i : Fin (Nx * r)) (j : Fin (Ny * r)) => repeatXY r e i j k l) d =
      cellFactor Nx r d.1 * cellFactor Ny r d.2 * fourierCoeff (fun (m : Fin Nx) (n : Fin Ny) => e m n k l) d := by
  rw [repeated_coeff e k l Nx Ny r hr d]
  unfold fourierCoeff
  rw [Finset.mul_sum, Finset.mul_sum]
  refine Finset.sum_congr rfl fun m _ => ?_
  rw [Finset.mul_sum, Finset.mul_sum]
  refine Finset.sum_congr rfl fun n _ => ?_
  rw [pixelSum_factor Nx r m hx hr, pixelSum_factor Ny r n hy hr, mul_add, Complex.exp_add]
  ring

/-- C193: without repeating, an order that runs through a whole number of periods per cell shows the solver the coefficient of another one. -/
theorem C193_alias {Nx Ny : ℕ} (hx : 0 < Nx) (hy : 0 < Ny) (s : Fin Nx → Fin Ny → ℂ) (d : ℤ × ℤ) (a b : ℤ) : fourierCoeff s (d.1 + Nx * a, d.2 + Ny * b) = fourierCoeff s d := by
  have hx' : (Nx : ℂ) ≠ 0 := by exact_mod_cast hx.ne'
  have hy' : (Ny : ℂ) ≠ 0 := by exact_mod_cast hy.ne'
  unfold fourierCoeff
  congr 1
  refine Finset.sum_congr rfl fun m _ => Finset.sum_congr rfl fun n _ => ?_
  congr 1
  rw [Complex.exp_eq_exp_iff_exists_int]
  exact ⟨-((m : ℕ) * a + (n : ℕ) * b), by push_cast; field_simp; ring⟩

/-- C193: in the matrix of the solver, repeating the cells removes the entries that link orders a whole number of periods per cell apart, unless the repeated grid cannot resolve them either. -/
theorem C193_extinct (e : ℕ → ℕ → ℕ → ℕ → ℂ) (k l Nx Ny r n : ℕ) (hx : 0 < Nx) (hy : 0 < Ny) (hr : 0 < r) (G : Fin n → ℤ × ℤ)
    (C : Matrix (Fin n) (Fin n) ℂ) (hC : getConv (1 / (Nx * r : ℕ) / (Ny * r : ℕ)) (fun (i : Fin (Nx * r)) (j : Fin (Ny * r)) => repeatXY r e i j k l) G = .ok C) (a b : Fin n) :
    C a b = cellFactor Nx r (G a - G b).1 * cellFactor Ny r (G a - G b).2 * fourierCoeff (fun (m : Fin Nx) (n : Fin Ny) => e m n k l) (G a - G b) ∧
      ((Nx : ℤ) ∣ (G a - G b).1 ∧ ¬ ((Nx * r : ℕ) : ℤ) ∣ (G a - G b).1 ∨ (Ny : ℤ) ∣ (G a - G b).2 ∧ ¬ ((Ny * r : ℕ) : ℤ) ∣ (G a - G b).2 → C a b = 0) := by
  have hres : Resolved (Nx * r) (Ny * r) G := by
    by_contra h; rw [(C15_entries _ G).2 h] at hC; simp at hC
  obtain ⟨M', h1, h2⟩ := (C15_entries (fun (i : Fin (Nx * r)) (j : Fin (Ny * r)) => repeatXY r e i j k l) G).1 hres
  rw [h1] at hC; injection hC with hC; subst hC
  rw [h2, C193_factor e k l Nx Ny r hx hy hr]
  refine ⟨rfl, ?_⟩
  rintro (⟨h, h'⟩ | ⟨h, h'⟩)
  · rw [cellFactor_extinct Nx r hx hr _ h h', zero_mul, zero_mul]
  · rw [cellFactor_extinct Ny r hy hr _ h h', mul_zero, zero_mul]

/-- C193: the mean permittivity, which the order 0 sees, is kept. -/
theorem C193_mean (e : ℕ → ℕ → ℕ → ℕ → ℂ) (k l Nx Ny r : ℕ) (hx : 0 < Nx) (hy : 0 < Ny) (hr : 0 < r) :
    fourierCoeff (fun (i : Fin (Nx * r)) (j : Fin (Ny * r)) => repeatXY r e i j k l) (0, 0) = fourierCoeff (fun (m : Fin Nx) (n : Fin Ny) => e m n k l) (0, 0) := by
  rw [C193_factor e k l Nx Ny r hx hy hr, cellFactor_zero _ _ hr, cellFactor_zero _ _ hr, one_mul, one_mul]

lemma cellFactor_norm (N r : ℕ) (d : ℤ) : ‖cellFactor N r d‖ ≤ 1 := by
  rcases Nat.eq_zero_or_pos r with rfl | hr
  · simp [cellFactor]
  have hr' : (0 : ℝ) < r := by exact_mod_cast hr
  have h : ∀ q : Fin r, ‖Complex.exp (-(2 * Real.pi * Complex.I) * ((q : ℕ) * d / (N * r)))‖ = 1 := by
    intro q
    have := pixelWave_norm d ((q : ℕ) / (N * r : ℝ))
    rw [← this, pixelWave]
    congr 2
    push_cast
    ring
  have hs : ‖∑ q : Fin r, Complex.exp (-(2 * Real.pi * Complex.I) * ((q : ℕ) * d / (N * r)))‖ ≤ r := by
    refine (norm_sum_le _ _).trans (le_of_eq ?_)
    simp only [h]
    simp
  rw [cellFactor, norm_mul, norm_div, norm_one, Complex.norm_natCast, one_div, inv_mul_le_iff₀ hr', mul_one]
  exact hs

/-- the factor of an order that does not run through a whole number of periods per cell is not zero -/
lemma cellFactor_ne_zero (N r : ℕ) (hN : 0 < N) (hr : 0 < r) (d : ℤ) (h : ¬ (N : ℤ) ∣ d) : cellFactor N r d ≠ 0 := by
  have hN' : (N : ℂ) ≠ 0 := by exact_mod_cast hN.ne'
  have hr' : (r : ℂ) ≠ 0 := by exact_mod_cast hr.ne'
  set z := Complex.exp (-(2 * Real.pi * Complex.I) * (d / (N * r))) with hz
  have hq : ∀ q : Fin r, Complex.exp (-(2 * Real.pi * Complex.I) * ((q : ℕ) * d / (N * r))) = z ^ (q : ℕ) := by
    intro q
    rw [hz, ← Complex.exp_nat_mul]; congr 1; ring
  have zr : z ^ r ≠ 1 := by
    rw [hz, ← Complex.exp_nat_mul, Ne, Complex.exp_eq_one_iff]
    rintro ⟨j, hj⟩
    have h3 : (d : ℂ) = N * -j := by
      have e : (2 * Real.pi * Complex.I) * (d / N : ℂ) = (2 * Real.pi * Complex.I) * (-j) := by
        have : (r : ℂ) * (-(2 * Real.pi * Complex.I) * (d / (N * r))) = -((2 * Real.pi * Complex.I) * (d / N)) := by field_simp
        rw [this] at hj
        linear_combination -hj
      have := mul_left_cancel₀ Complex.two_pi_I_ne_zero e
      field_simp at this
      linear_combination this
    exact h ⟨-j, by exact_mod_cast h3⟩
  have z1 : z ≠ 1 := fun h1 => zr (by rw [h1, one_pow])
  unfold cellFactor
  simp only [hq]
  rw [Fin.sum_univ_eq_sum_range (fun q => z ^ q) r, geom_sum_eq z1]
  exact mul_ne_zero (one_div_ne_zero hr') (div_ne_zero (sub_ne_zero.2 zr) (sub_ne_zero.2 z1))

/-- C193: repeating never enlarges a coefficient. -/
theorem C193_smaller (e : ℕ → ℕ → ℕ → ℕ → ℂ) (k l Nx Ny r : ℕ) (hx : 0 < Nx) (hy : 0 < Ny) (hr : 0 < r) (d : ℤ × ℤ) :
    ‖fourierCoeff (fun (i : Fin (Nx * r)) (j : Fin (Ny * r)) => repeatXY r e i j k l) d‖ ≤ ‖fourierCoeff (fun (m : Fin Nx) (n : Fin Ny) => e m n k l) d‖ := by
  rw [C193_factor e k l Nx Ny r hx hy hr, norm_mul, norm_mul]
  exact mul_le_of_le_one_left (norm_nonneg _) (mul_le_one₀ (cellFactor_norm _ _ _) (norm_nonneg _) (cellFactor_norm _ _ _))

/-- C193: between orders whose differences the cells resolve, nothing is lost: two designs that the solver tells apart without repeating, it tells apart with it, and the other way round. -/
theorem C193_kept (e e' : ℕ → ℕ → ℕ → ℕ → ℂ) (k l Nx Ny r : ℕ) (hr : 0 < r) (d : ℤ × ℤ) (h1 : |d.1| < Nx) (h2 : |d.2| < Ny) :
    fourierCoeff (fun (i : Fin (Nx * r)) (j : Fin (Ny * r)) => repeatXY r e i j k l) d = fourierCoeff (fun (i : Fin (Nx * r)) (j : Fin (Ny * r)) => repeatXY r e' i j k l) d ↔
      fourierCoeff (fun (m : Fin Nx) (n : Fin Ny) => e m n k l) d = fourierCoeff (fun (m : Fin Nx) (n : Fin Ny) => e' m n k l) d := by
  have hx : 0 < Nx := by have := abs_nonneg d.1; omega
  have hy : 0 < Ny := by have := abs_nonneg d.2; omega
  have key : ∀ (N : ℕ) (z : ℤ), 0 < N → |z| < N → cellFactor N r z ≠ 0 := by
    intro N z hN hz
    by_cases h : (N : ℤ) ∣ z
    · rw [Int.eq_zero_of_abs_lt_dvd h hz, cellFactor_zero _ _ hr]
      exact one_ne_zero
    · exact cellFactor_ne_zero N r hN hr z h
  rw [C193_factor e k l Nx Ny r hx hy hr, C193_factor e' k l Nx Ny r hx hy hr]
  exact mul_right_inj' (mul_ne_zero (key Nx _ hx h1) (key Ny _ hy h2))

/-- two cells repeated 8 times, orders -1, 0, 1: the matrix exists, and its corner entries, two orders apart, are among those removed -/
example : ∃ C, getConv (1 / (2 * 8 : ℕ) / (1 * 8 : ℕ)) (fun (i : Fin (2 * 8)) (j : Fin (1 * 8)) => repeatXY 8 (fun m _ _ _ => if m = 0 then (1 : ℂ) else 3) i j 0 0)
    (fun i : Fin 3 => ((i : ℤ) - 1, 0)) = .ok C ∧ C 2 0 = 0 := by
  have hr : Resolved (2 * 8) (1 * 8) (fun i : Fin 3 => (((i : ℤ) - 1, 0) : ℤ × ℤ)) := by unfold Resolved; decide
  obtain ⟨C, h, -⟩ := (C15_entries (fun (i : Fin (2 * 8)) (j : Fin (1 * 8)) => repeatXY 8 (fun m _ _ _ => if m = 0 then (1 : ℂ) else 3) i j 0 0) _).1 hr
  exact ⟨C, h, (C193_extinct _ 0 0 2 1 8 3 (by norm_num) (by norm_num) (by norm_num) _ C h 2 0).2 (Or.inl (by decide))⟩

/-- without repeating, the same order difference carries the mean permittivity, 2 -/
example : fourierCoeff (fun (m : Fin 2) (_ : Fin 1) => if m = 0 then (1 : ℂ) else 3) (2, 0) = 2 := by
  have h := C193_alias (by norm_num : 0 < 2) (by norm_num : 0 < 1) (fun (m : Fin 2) (_ : Fin 1) => if m = 0 then (1 : ℂ) else 3) (0, 0) 1 0
  norm_num at h
  rw [h]
  simp [fourierCoeff, Fin.sum_univ_two]; norm_num

end Nidn
