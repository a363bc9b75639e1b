/-
C20: at the complex frequency of the driver a lossless metal layer amplifies.
-/
import Mathlib.Analysis.SpecialFunctions.Trigonometric.Bounds
import Mathlib.Analysis.Complex.ExponentialBounds
import Mathlib.Analysis.Real.Pi.Bounds
import Verif.Props.FilmsCases

namespace Nidn

noncomputable section

open Matrix

/-- reflectance and transmittance of a film of refractive index `10 i` in vacuum -/
lemma metal_sum (u v : ℝ) (D : ℝ) (hD : D = 102.01 * (Real.sinh u ^ 2 + Real.sin v ^ 2) + 4 * Real.cos (2 * v) - 19.8 * Real.sin (2 * v)) (h0 : 0 < D) {δ : ℂ}
    (hδ : δ = Complex.I * (u + v * Complex.I)) :
    filmsDen (1 : ℝ) [(1 / (10 * Complex.I), δ)] 1 ≠ 0 ∧
    filmsR 1 [(1 / (10 * Complex.I), δ)] 1 + filmsT 1 [(1 / (10 * Complex.I), δ)] 1 = 1 + (4 - 4 * Real.cos (2 * v) + 19.8 * Real.sin (2 * v)) / D := by
  have hI := Complex.I_mul_I
  have hc : Complex.cos δ = (Real.cosh u * Real.cos v : ℝ) + (Real.sinh u * Real.sin v : ℝ) * Complex.I := by
    rw [hδ, mul_comm, Complex.cos_mul_I, Complex.cosh_add, Complex.cosh_mul_I, Complex.sinh_mul_I]
    push_cast
    ring
  have hs : Complex.sin δ = Complex.I * ((Real.sinh u * Real.cos v : ℝ) + (Real.cosh u * Real.sin v : ℝ) * Complex.I) := by
    rw [hδ, mul_comm Complex.I, Complex.sin_mul_I, Complex.sinh_add, Complex.cosh_mul_I, Complex.sinh_mul_I]
    push_cast
    ring
  set a := Real.cosh u * Real.cos v
  set b := Real.sinh u * Real.sin v
  set p := Real.sinh u * Real.cos v
  set q := Real.cosh u * Real.sin v
  have f1 : (frontFields [(1 / (10 * Complex.I), δ)] 1).1 = ((a - 10 * q : ℝ) : ℂ) + ((b + 10 * p : ℝ) : ℂ) * Complex.I := by
    simp only [frontFields, filmFront]
    rw [hc, hs, one_div, div_inv_eq_mul]
    push_cast
    linear_combination (-10 * p * Complex.I - 10 * q * Complex.I * Complex.I + 10 * q) * hI
  have f2 : (frontFields [(1 / (10 * Complex.I), δ)] 1).2 = ((a + q / 10 : ℝ) : ℂ) + ((b - p / 10 : ℝ) : ℂ) * Complex.I := by
    have hy : 1 / (10 * Complex.I) = -(Complex.I / 10) := by
      rw [one_div, mul_inv, Complex.inv_I]
      ring
    simp only [frontFields, filmFront]
    rw [hc, hs, hy]
    push_cast
    linear_combination ((p * Complex.I + q * Complex.I * Complex.I - q) / 10) * hI
  have hcs := Real.cosh_sq u
  have hsc := Real.sin_sq_add_cos_sq v
  have h2c := Real.cos_two_mul v
  have h2s := Real.sin_two_mul v
  have n1 : Complex.normSq (filmsDen (1 : ℝ) [(1 / (10 * Complex.I), δ)] 1) = D := by
    rw [filmsDen, f1, f2, Complex.ofReal_one, one_mul]
    have e : ((a - 10 * q : ℝ) : ℂ) + ((b + 10 * p : ℝ) : ℂ) * Complex.I + (((a + q / 10 : ℝ) : ℂ) + ((b - p / 10 : ℝ) : ℂ) * Complex.I) =
        ((2 * a - 9.9 * q : ℝ) : ℂ) + ((2 * b + 9.9 * p : ℝ) : ℂ) * Complex.I := by
      push_cast
      ring
    rw [e, Complex.normSq_add_mul_I, hD, h2c, h2s]
    simp only [a, b, p, q]
    have hc2 : Real.cos v ^ 2 = 1 - Real.sin v ^ 2 := by linarith
    have hcv : Real.cosh u ^ 2 = Real.sinh u ^ 2 + 1 := hcs
    ring_nf
    rw [hc2, hcv]
    ring
  have n2 : Complex.normSq (((1 : ℝ) : ℂ) * (frontFields [(1 / (10 * Complex.I), δ)] 1).1 - (frontFields [(1 / (10 * Complex.I), δ)] 1).2) =
      102.01 * (Real.sinh u ^ 2 + Real.sin v ^ 2) := by
    rw [f1, f2, Complex.ofReal_one, one_mul]
    have e : ((a - 10 * q : ℝ) : ℂ) + ((b + 10 * p : ℝ) : ℂ) * Complex.I - (((a + q / 10 : ℝ) : ℂ) + ((b - p / 10 : ℝ) : ℂ) * Complex.I) =
        ((-(10.1 * q) : ℝ) : ℂ) + ((10.1 * p : ℝ) : ℂ) * Complex.I := by
      push_cast
      ring
    rw [e, Complex.normSq_add_mul_I]
    simp only [p, q]
    have hc2 : Real.cos v ^ 2 = 1 - Real.sin v ^ 2 := by linarith
    have hcv : Real.cosh u ^ 2 = Real.sinh u ^ 2 + 1 := hcs
    ring_nf
    rw [hc2, hcv]
    ring
  refine ⟨fun h => ?_, ?_⟩
  · rw [h, Complex.normSq_zero] at n1
    exact h0.ne n1
  · rw [filmsR, filmsT, Complex.normSq_div, n2, n1, Complex.one_re]
    field_simp
    rw [hD]
    ring

/-- the numbers: the layer gains more than the front layer loses -/
lemma metal_numbers {w D : ℝ} (hw : 0 < w) (hw' : w ≤ 1 / 4)
    (hD : D = 102.01 * (Real.sinh (1 / 5) ^ 2 + Real.sin 1e-6 ^ 2) + 4 * Real.cos (2 * 1e-6) - 19.8 * Real.sin (2 * 1e-6)) :
    0 < D ∧ 1 < Real.exp (-2 * (w / 2 / 1e5)) * (1 + (4 - 4 * Real.cos (2 * 1e-6) + 19.8 * Real.sin (2 * 1e-6)) / D) := by
  have s1 : Real.sin (2 * 1e-6) ≤ 2 * 1e-6 := Real.sin_le (by norm_num)
  have s2 : 1.9e-6 ≤ Real.sin (2 * 1e-6) := le_trans (by norm_num) (Real.sin_gt_sub_cube (x := 2 * 1e-6) (by norm_num)).le
  have s3 : Real.sin 1e-6 ≤ 1e-6 := Real.sin_le (by norm_num)
  have s4 : 0 ≤ Real.sin 1e-6 := Real.sin_nonneg_of_nonneg_of_le_pi (by norm_num) (le_trans (by norm_num) Real.pi_gt_three.le)
  have c1 : Real.cos (2 * 1e-6) ≤ 1 := Real.cos_le_one _
  have c2 : 0.9 ≤ Real.cos (2 * 1e-6) := le_trans (by norm_num) (Real.one_sub_sq_div_two_le_cos)
  have e1 : Real.exp (1 / 5) ≤ 1.25 := by
    have h : Real.exp (1 / 5) ^ 5 = Real.exp 1 := by
      rw [← Real.exp_nat_mul]
      norm_num
    have h9 := Real.exp_one_lt_d9
    by_contra hc
    push Not at hc
    have : (1.25 : ℝ) ^ 5 ≤ Real.exp (1 / 5) ^ 5 := pow_le_pow_left₀ (by norm_num) hc.le 5
    rw [h] at this
    norm_num at this h9
    linarith
  have e2 : 0.8 ≤ Real.exp (-(1 / 5)) := le_trans (by norm_num) (Real.add_one_le_exp (-(1 / 5)))
  have h1 : Real.sinh (1 / 5) ≤ 0.225 := by
    rw [Real.sinh_eq]
    linarith
  have h2 : 0 ≤ Real.sinh (1 / 5) := by
    rw [Real.sinh_eq]
    have := Real.exp_le_exp.2 (show -(1 / 5 : ℝ) ≤ 1 / 5 by norm_num)
    linarith
  have q1 : Real.sinh (1 / 5) ^ 2 ≤ 0.051 := le_trans (pow_le_pow_left₀ h2 h1 2) (by norm_num)
  have q2 : Real.sin 1e-6 ^ 2 ≤ 1e-6 := le_trans (pow_le_pow_left₀ s4 s3 2) (by norm_num)
  have q3 : 0 ≤ Real.sinh (1 / 5) ^ 2 := sq_nonneg _
  have q4 : 0 ≤ Real.sin 1e-6 ^ 2 := sq_nonneg _
  have d1 : D ≤ 9.3 := by
    rw [hD]
    linarith
  have d0 : 0 < D := by
    rw [hD]
    linarith
  refine ⟨d0, ?_⟩
  have g : 4e-6 ≤ (4 - 4 * Real.cos (2 * 1e-6) + 19.8 * Real.sin (2 * 1e-6)) / D := by
    rw [le_div_iff₀ d0]
    linarith
  have x1 : 1 - 2.5e-6 ≤ Real.exp (-2 * (w / 2 / 1e5)) := by
    have := Real.add_one_le_exp (-2 * (w / 2 / 1e5))
    have e : -2 * (w / 2 / 1e5) = -(w / 1e5) := by ring
    have e' : w / 1e5 ≤ 2.5e-6 := by
      rw [div_le_iff₀ (by norm_num)]
      linarith
    rw [e] at this ⊢
    linarith
  calc (1 : ℝ) < (1 - 2.5e-6) * (1 + 4e-6) := by norm_num
    _ ≤ _ := mul_le_mul x1 (by linarith) (by norm_num) (Real.exp_pos _).le

/-- C20: at the frequency `2 pi f (1 + i / 2e5)` of the driver, with the driver's vacuum layers of thickness one in front and behind and one diffraction order, the lossless metal layer of permittivity -100 and thickness
`1 / (100 pi f)` amplifies: the solver answers with `R + T > 1`, for all wavelengths from 26 units of length on, all lattices and all polarisations. The permittivity has imaginary part 0, so the layer is passive. -/
theorem C20_false (f : ℝ) (hf : 0 < f) (hf' : f ≤ 1 / 26) (φ : ℝ) (Lk1 Lk2 : ℝ × ℝ) (kx ky : Fin 1 → ℂ) (hkx : kx = kxOf (driverOmega f) 0 φ 1 Lk1 Lk2 fun _ => (0, 0))
    (hky : ky = kyOf (driverOmega f) 0 φ 1 Lk1 Lk2 fun _ => (0, 0)) (s p : ℂ) (hsp : Complex.normSq s + Complex.normSq p = 1) :
    ∃ R T, rtForward (driverOmega f) (rtNormalization 1 0) [uniformLayer (driverOmega f) kx ky 1 1, uniformLayer (driverOmega f) kx ky (-100) (1 / (100 * Real.pi * f)),
      uniformLayer (driverOmega f) kx ky 1 1] (planewave 0 φ s p 0) 0 = .ok (R, T) ∧ 1 < R + T := by
  have hπ := Real.pi_pos
  have him : 0 < (driverOmega f).im := by rw [driverOmega_im]; positivity
  have hre : 0 < (driverOmega f).re := by rw [driverOmega_re]; positivity
  have hx0 : kx = fun _ => 0 := by
    funext i
    rw [hkx]
    exact (kOf_zero_order _ φ 1 Lk1 Lk2 rfl).1
  have hy0 : ky = fun _ => 0 := by
    funext i
    rw [hky]
    exact (kOf_zero_order _ φ 1 Lk1 Lk2 rfl).2
  have hw : 2 * Real.pi * f ≤ 1 / 4 := by
    have := Real.pi_lt_d2
    nlinarith
  set d := 1 / (100 * Real.pi * f) with hd
  have hδ : driverOmega f * (10 * Complex.I) * d = Complex.I * ((1 / 5 : ℝ) + (1e-6 : ℝ) * Complex.I) := by
    have e : driverOmega f = ((2 * Real.pi * f : ℝ) : ℂ) + ((2 * Real.pi * f / 2 / 1e5 : ℝ) : ℂ) * Complex.I := by
      rw [← driverOmega_im f, ← driverOmega_re f]
      exact (Complex.re_add_im _).symm
    have r1 : 2 * Real.pi * f * 10 * d = 1 / 5 := by
      rw [hd]
      field_simp
      norm_num
    have r2 : 2 * Real.pi * f / 2 / 1e5 * 10 * d = 1e-6 := by
      rw [hd]
      field_simp
      norm_num
    rw [e, ← r1, ← r2]
    push_cast
    ring
  obtain ⟨hD0, hgain⟩ := metal_numbers (by positivity) hw rfl
  obtain ⟨hden, hsum⟩ := metal_sum (1 / 5) 1e-6 _ rfl hD0 hδ
  have hwim : (driverOmega f).im = 2 * Real.pi * f / 2 / 1e5 := driverOmega_im f
  generalize driverOmega f = ω at *
  have hω : ω ≠ 0 := fun h => by rw [h] at hre; simp at hre
  have hqn : ∀ {ε c : ℂ}, c ^ 2 = ε → 0 < (ω * c).im → ∀ i, qOrd ω ε kx ky i = ω * c := by
    intro ε c h h' i
    exact qOrd_root (by rw [hx0, hy0, ← h]; ring) (.inl h')
  have q1 : ∀ i, qOrd ω 1 kx ky i = ω * 1 := hqn (by norm_num) (by rwa [mul_one])
  have qm : ∀ i, qOrd ω (-100) kx ky i = ω * (10 * Complex.I) := hqn (by rw [mul_pow, Complex.I_sq]; norm_num) (by simp [Complex.mul_im]; exact hre)
  have hq : ∀ M ∈ [uniformLayer ω kx ky 1 1, uniformLayer ω kx ky (-100) d, uniformLayer ω kx ky 1 1], ∀ m, M.q m ≠ 0 := by
    intro M hM m
    have a1 : ∀ d : ℝ, (uniformLayer ω kx ky 1 d).q m = ω * 1 := fun d => by rcases m with m | m <;> exact q1 m
    have a2 : (uniformLayer ω kx ky (-100) d).q m = ω * (10 * Complex.I) := by rcases m with m | m <;> exact qm m
    simp only [List.mem_cons, List.not_mem_nil, or_false] at hM
    rcases hM with rfl | rfl | rfl
    · rw [a1]; exact mul_ne_zero hω one_ne_zero
    · rw [a2]; exact mul_ne_zero hω (mul_ne_zero (by norm_num) Complex.I_ne_zero)
    · rw [a1]; exact mul_ne_zero hω one_ne_zero
  have hreg : ∀ M ∈ uniformLayer ω kx ky 1 1 :: [uniformLayer ω kx ky (-100) d, uniformLayer ω kx ky 1 1], M.Regular := by
    have hkp : ∀ e : ℂ, IsUnit (kpUniform ω e kx ky).det := by
      intro e
      refine det_unit_of_inj fun x hx => ?_
      ext i
      rcases i with i | i
      · have := congrFun hx (.inl i)
        rw [(kpUniform_mulVec ω e kx ky x i).1, hx0, hy0] at this
        simpa [hω] using this
      · have := congrFun hx (.inr i)
        rw [(kpUniform_mulVec ω e kx ky x i).2, hx0, hy0] at this
        simpa [hω] using this
    intro M hM
    refine ⟨?_, ?_, hq M hM⟩
    · simp only [List.mem_cons, List.not_mem_nil, or_false] at hM
      rcases hM with rfl | rfl | rfl <;> simp [uniformLayer]
    · simp only [List.mem_cons, List.not_mem_nil, or_false] at hM
      rcases hM with rfl | rfl | rfl <;> exact hkp _
  have pA : ProjEig ω kx ky 0 (Real.cos 0) (Real.sin 0) fun _ => ω ^ 2 := proj_along (K := 0) (by rw [hx0]; simp) (by rw [hy0]; simp)
  have pB : ProjEig ω kx ky 0 (-Real.sin 0) (Real.cos 0) fun _ => ω ^ 2 := by
    have := proj_across (ω := ω) (kx := kx) (ky := ky) (o := 0) (K := 0) (φ := 0) (by rw [hx0]; simp) (by rw [hy0]; simp)
    intro ε x
    rw [this ε x]
    simp
  have y1 : projY ω kx ky 0 (fun _ => ω ^ 2) 1 = 1 := by
    rw [projY, q1]
    field_simp
  have ym : projY ω kx ky 0 (fun _ => ω ^ 2) (-100) = 1 / (10 * Complex.I) := by
    rw [projY, qm]
    have := Complex.I_ne_zero
    field_simp
  have zero_of : ∀ (l : List (ℂ × ℝ)) (εN : ℂ) (dN : ℝ), (∀ e ∈ l, projY ω kx ky 0 (fun _ => ω ^ 2) e.1 ≠ 0) →
      filmsDen 1 (filmsOf ω kx ky 0 (fun _ => ω ^ 2) l) (projY ω kx ky 0 (fun _ => ω ^ 2) εN) ≠ 0 → ∀ b0 aN,
      StackSol (uniformLayer ω kx ky 1 1 :: (l ++ [(εN, dN)]).map fun e => uniformLayer ω kx ky e.1 e.2) 0 b0 aN 0 → aN = 0 := by
    intro l εN dN hl hden b0 aN hs
    have one : ∀ u v : ℂ, ProjEig ω kx ky 0 u v (fun _ => ω ^ 2) → proj 0 u v aN = 0 := by
      intro u v he
      obtain ⟨h1, h2⟩ := film_stack hω he 1 1 εN dN l hl 0 b0 aN hs
      rw [y1] at h2
      have z : proj (0 : Fin 1) u v 0 = 0 := by simp [proj]
      rw [z] at h1 h2
      have : filmsDen 1 (filmsOf ω kx ky 0 (fun _ => ω ^ 2) l) (projY ω kx ky 0 (fun _ => ω ^ 2) εN) * proj 0 u v aN = 0 := by
        rw [filmsDen]
        linear_combination -h1 - h2
      exact (mul_eq_zero.1 this).resolve_left hden
    have o1 := one _ _ pA
    have o2 := one _ _ pB
    simp only [proj, Real.cos_zero, Real.sin_zero, Complex.ofReal_one, Complex.ofReal_zero, one_mul, zero_mul, neg_zero, add_zero, zero_add] at o1 o2
    ext i
    rcases i with i | i
    · rw [Subsingleton.elim i 0]; exact o1
    · rw [Subsingleton.elim i 0]; exact o2
  have fm : filmsOf ω kx ky 0 (fun _ => ω ^ 2) [(-100, d)] = [(1 / (10 * Complex.I), ω * (10 * Complex.I) * d)] := by
    simp only [filmsOf, List.map_cons, List.map_nil]
    rw [ym, qm]
  obtain ⟨S, hS⟩ := getSMatrix_ok (uniformLayer ω kx ky 1 1) [uniformLayer ω kx ky (-100) d, uniformLayer ω kx ky 1 1] hreg (fun p hp hpre b0 aN hs => by
    have hcases : p = [uniformLayer ω kx ky (-100) d] ∨ p = [uniformLayer ω kx ky (-100) d, uniformLayer ω kx ky 1 1] := by
      rcases p with _ | ⟨a, _ | ⟨b, _ | ⟨c, t⟩⟩⟩
      · exact absurd rfl hp
      · left; simpa using hpre
      · right; simpa using hpre
      · exfalso
        have := hpre.length_le
        simp at this
    rcases hcases with rfl | rfl
    · refine zero_of [] (-100) d (by simp) ?_ b0 aN hs
      rw [ym]
      simp only [filmsOf, filmsDen, frontFields, List.map_nil]
      intro h
      have e := congrArg Complex.re h
      rw [one_div, mul_inv, Complex.inv_I] at e
      simp at e
    · refine zero_of [(-100, d)] 1 1 (fun e he => ?_) ?_ b0 aN hs
      · rw [List.mem_singleton.1 he, ym]
        exact one_div_ne_zero (mul_ne_zero (by norm_num) Complex.I_ne_zero)
      · rw [fm, y1]
        simpa using hden)
  obtain ⟨R, T, h⟩ := rt_ok (ω := ω) (norm := rtNormalization 1 0) (mids := [uniformLayer ω kx ky (-100) d]) hS (planewave 0 φ s p 0) 0
  refine ⟨R, T, h, ?_⟩
  have hmid : ∀ m ∈ [((-100 : ℂ), d, 10 * Complex.I)], m.1 ≠ 0 ∧ m.2.2 ^ 2 = m.1 := by
    intro m hm
    rw [List.mem_singleton.1 hm]
    exact ⟨by norm_num, by rw [mul_pow, Complex.I_sq]; norm_num⟩
  obtain ⟨hR, hT⟩ := films_normal hre him φ 1 one_pos (o := 0) 1 [((-100 : ℂ), d, 10 * Complex.I)] hmid 1 1 1 (by norm_num) (by rwa [mul_one]) kx ky
    (fun i => by rw [hx0]; rfl) (fun i => by rw [hy0]; rfl) (by rw [hx0]) (by rw [hy0]) s p R T (by rw [Complex.ofReal_one]; exact hq) (by rw [Complex.ofReal_one]; exact h)
  rw [Real.sqrt_one, hsp] at hR hT
  simp only [List.map_cons, List.map_nil, one_mul, mul_one, div_one] at hR hT
  rw [hR, hT, ← mul_add, hsum, hwim]
  exact hgain

/-- a wavelength of 26 micrometres, s polarisation, unit cell of one micrometre -/
example : (0 : ℝ) < 1 / 26 ∧ (1 / 26 : ℝ) ≤ 1 / 26 ∧ Complex.normSq 1 + Complex.normSq 0 = 1 ∧ 0 ≤ (-100 : ℂ).im ∧
    kxOf (driverOmega (1 / 26)) 0 0 1 (1, 0) (0, 1) (fun _ : Fin 1 => (0, 0)) 0 = 0 :=
  ⟨by norm_num, le_rfl, by simp, by simp, (kOf_zero_order _ 0 1 (1, 0) (0, 1) rfl).1⟩

end

end Nidn
