/-
C192: patterns that are close have matrices that are close.
-/
import Verif.Props.ConvInverse

namespace Nidn

open Matrix

/-- the mean over the pixels of a field's square is the sum of the squares of its amplitudes -/
lemma pixelMean_field {Nx Ny n : ℕ} (G : Fin n → ℤ × ℤ) (hG : Function.Injective G) (hr : Resolved Nx Ny G) (x : Fin n → ℂ) :
    pixelMean (fun (m : Fin Nx) (k : Fin Ny) => Complex.normSq (ordersField G x m k)) = ∑ i, ‖x i‖ ^ 2 := by
  have q := conv_form_real (fun (_ : Fin Nx) (_ : Fin Ny) => (1 : ℝ)) G 1 (one_conv G hG hr) x
  rw [Matrix.one_mulVec, star_dot_self] at q
  have q := Complex.ofReal_injective q
  simp only [one_mul] at q
  rw [← q]
  exact Finset.sum_congr rfl fun i _ => Complex.normSq_eq_norm_sq _

/-- the form of a pattern, as a mean of real parts -/
lemma conv_form_mean {Nx Ny n : ℕ} (s : Fin Nx → Fin Ny → ℂ) (G : Fin n → ℤ × ℤ) (C : Matrix (Fin n) (Fin n) ℂ) (hC : ∀ i j, C i j = fourierCoeff s (G i - G j)) (c : ℂ) (x y : Fin n → ℂ) :
    (c * (star y ⬝ᵥ (C *ᵥ x))).re = pixelMean fun m k => (c * (s m k * ordersField G x m k * (starRingEnd ℂ) (ordersField G y m k))).re := by
  have : (1 / (Nx * Ny) : ℂ) = ((1 / (Nx * Ny) : ℝ) : ℂ) := by push_cast; rfl
  rw [conv_sesquilinear _ G C hC, pixelMean, this, mul_left_comm, Complex.re_ofReal_mul, Finset.mul_sum, Complex.re_sum]
  congr 1
  refine Finset.sum_congr rfl fun m _ => ?_
  rw [Finset.mul_sum, Complex.re_sum]

lemma re_mul_le (M : ℝ) (s X Y : ℂ) (hs : ‖s‖ ≤ M) : (s * X * (starRingEnd ℂ) Y).re ≤ (M ^ 2 * Complex.normSq X + Complex.normSq Y) / 2 := by
  have h1 : (s * X * (starRingEnd ℂ) Y).re ≤ ‖s‖ * ‖X‖ * ‖Y‖ := by
    refine (Complex.re_le_norm _).trans ?_
    rw [norm_mul, norm_mul, Complex.norm_conj]
  have h2 : ‖s‖ * ‖X‖ * ‖Y‖ ≤ M * ‖X‖ * ‖Y‖ := by gcongr
  rw [Complex.normSq_eq_norm_sq, Complex.normSq_eq_norm_sq]
  nlinarith [sq_nonneg (M * ‖X‖ - ‖Y‖)]

/-- the convolution matrix is no larger than the pattern -/
lemma conv_norm {Nx Ny n : ℕ} (s : Fin Nx → Fin Ny → ℂ) (M : ℝ) (hs : ∀ m k, ‖s m k‖ ≤ M) (G : Fin n → ℤ × ℤ) (hG : Function.Injective G) (hr : Resolved Nx Ny G) (C : Matrix (Fin n) (Fin n) ℂ)
    (hC : ∀ i j, C i j = fourierCoeff s (G i - G j)) (x : Fin n → ℂ) : ∑ i, ‖(C *ᵥ x) i‖ ^ 2 ≤ M ^ 2 * ∑ i, ‖x i‖ ^ 2 := by
  set w := C *ᵥ x with hw
  have h1 : (1 * (star w ⬝ᵥ (C *ᵥ x))).re = ∑ i, ‖w i‖ ^ 2 := by
    rw [one_mul, ← hw, star_dot_self, Complex.ofReal_re]
    exact Finset.sum_congr rfl fun i _ => Complex.normSq_eq_norm_sq _
  rw [conv_form_mean s G C hC 1 x w] at h1
  have h2 : pixelMean (fun m k => (1 * (s m k * ordersField G x m k * (starRingEnd ℂ) (ordersField G w m k))).re) ≤
      pixelMean fun (m : Fin Nx) (k : Fin Ny) => (M ^ 2 / 2) * Complex.normSq (ordersField G x m k) + (1 / 2) * Complex.normSq (ordersField G w m k) := by
    refine pixelMean_mono fun m k => ?_
    rw [one_mul]
    refine (re_mul_le M _ _ _ (hs m k)).trans (le_of_eq ?_)
    ring
  rw [pixelMean_add, pixelMean_mul, pixelMean_mul, pixelMean_field G hG hr, pixelMean_field G hG hr, h1] at h2
  linarith

/-- the inverse is no larger than the pattern allows -/
lemma inverse_norm {Nx Ny n : ℕ} (s : Fin Nx → Fin Ny → ℂ) (c : ℂ) (hc : ‖c‖ ≤ 1) (lo : ℝ) (hlo : 0 < lo) (hs : ∀ m k, lo ≤ (c * s m k).re) (G : Fin n → ℤ × ℤ) (hG : Function.Injective G) (hr : Resolved Nx Ny G)
    (C : Matrix (Fin n) (Fin n) ℂ) (hC : ∀ i j, C i j = fourierCoeff s (G i - G j)) (x y : Fin n → ℂ) (hy : C *ᵥ y = x) : ∑ i, ‖y i‖ ^ 2 ≤ (1 / lo) ^ 2 * ∑ i, ‖x i‖ ^ 2 := by
  have h1 := conv_form_mean s G C hC c y y
  have h2 : lo * ∑ i, ‖y i‖ ^ 2 ≤ (c * (star y ⬝ᵥ (C *ᵥ y))).re := by
    rw [h1, ← pixelMean_field G hG hr, ← pixelMean_mul]
    refine pixelMean_mono fun m k => ?_
    rw [mul_assoc, Complex.mul_conj, ← mul_assoc, Complex.re_mul_ofReal]
    exact mul_le_mul_of_nonneg_right (hs m k) (Complex.normSq_nonneg _)
  have h3 : (c * (star y ⬝ᵥ x)).re ≤ ∑ i, (lo * ‖y i‖ ^ 2 / 2 + (1 / lo) * ‖x i‖ ^ 2 / 2) := by
    rw [dotProduct, Finset.mul_sum, Complex.re_sum]
    refine Finset.sum_le_sum fun i _ => ?_
    have e1 : (c * (star y i * x i)).re ≤ ‖y i‖ * ‖x i‖ := by
      refine (Complex.re_le_norm _).trans ?_
      rw [norm_mul, norm_mul, Pi.star_apply, norm_star]
      calc ‖c‖ * (‖y i‖ * ‖x i‖) ≤ 1 * (‖y i‖ * ‖x i‖) := by gcongr
        _ = _ := one_mul _
    have e2 : 0 ≤ (lo * ‖y i‖ - ‖x i‖) ^ 2 / (2 * lo) := by positivity
    have e3 : (lo * ‖y i‖ - ‖x i‖) ^ 2 / (2 * lo) = lo * ‖y i‖ ^ 2 / 2 + (1 / lo) * ‖x i‖ ^ 2 / 2 - ‖y i‖ * ‖x i‖ := by
      field_simp
      ring
    linarith
  rw [hy] at h2
  have h4 : ∑ i, (lo * ‖y i‖ ^ 2 / 2 + (1 / lo) * ‖x i‖ ^ 2 / 2) = lo / 2 * ∑ i, ‖y i‖ ^ 2 + (1 / lo) / 2 * ∑ i, ‖x i‖ ^ 2 := by
    rw [Finset.sum_add_distrib, Finset.mul_sum, Finset.mul_sum]
    congr 1 <;> exact Finset.sum_congr rfl fun i _ => by ring
  rw [h4] at h3
  have h5 : lo * ∑ i, ‖y i‖ ^ 2 ≤ 1 / lo * ∑ i, ‖x i‖ ^ 2 := by linarith
  have h6 : ∑ i, ‖y i‖ ^ 2 = 1 / lo * (lo * ∑ i, ‖y i‖ ^ 2) := by field_simp
  rw [h6, pow_two, mul_assoc]
  exact mul_le_mul_of_nonneg_left h5 (by positivity)

/-- C192: the matrices of two patterns that differ by at most `δ` in every pixel differ by at most `δ` in their effect on any field. -/
theorem C192_close {Nx Ny n : ℕ} (s s' : Fin Nx → Fin Ny → ℂ) (δ : ℝ) (hs : ∀ m k, ‖s m k - s' m k‖ ≤ δ) (G : Fin n → ℤ × ℤ) (hG : Function.Injective G) (C C' : Matrix (Fin n) (Fin n) ℂ)
    (hC : getConv (1 / Nx / Ny) s G = .ok C) (hC' : getConv (1 / Nx / Ny) s' G = .ok C') (x : Fin n → ℂ) : ∑ i, ‖(C *ᵥ x) i - (C' *ᵥ x) i‖ ^ 2 ≤ δ ^ 2 * ∑ i, ‖x i‖ ^ 2 := by
  have hr : Resolved Nx Ny G := by
    by_contra hn; rw [(C15_entries _ G).2 hn] at hC; cases hC
  obtain ⟨C₁, e1, f1⟩ := (C15_entries s G).1 hr
  rw [hC] at e1; injection e1 with e1; subst e1
  obtain ⟨C₁, e1, f1'⟩ := (C15_entries s' G).1 hr
  rw [hC'] at e1; injection e1 with e1; subst e1
  have hd : ∀ i j, (C - C') i j = fourierCoeff (fun m k => s m k - s' m k) (G i - G j) := by
    intro i j
    rw [Matrix.sub_apply, f1, f1']
    simp only [fourierCoeff, sub_mul, Finset.sum_sub_distrib, mul_sub]
  have := conv_norm _ δ hs G hG hr (C - C') hd x
  simpa only [Matrix.sub_mulVec, Pi.sub_apply] using this

/-- the answer of `Epsilon_fft` and the convolution matrix -/
lemma epsilonFft_pair {Nx Ny n : ℕ} {s : Fin Nx → Fin Ny → ℂ} {G : Fin n → ℤ × ℤ} {epinv : Matrix (Fin n) (Fin n) ℂ} {ep2 : Matrix (Fin n ⊕ Fin n) (Fin n ⊕ Fin n) ℂ}
    (h : epsilonFft (1 / Nx / Ny) (.iso s) G = .ok (epinv, ep2)) :
    Resolved Nx Ny G ∧ ∃ C : Matrix (Fin n) (Fin n) ℂ, getConv (1 / Nx / Ny) s G = .ok C ∧ (∀ i j, C i j = fourierCoeff s (G i - G j)) ∧ C * epinv = 1 ∧ epinv * C = 1 := by
  have hr : Resolved Nx Ny G := by
    by_contra hn
    simp only [epsilonFft] at h
    rw [(C15_entries s G).2 hn] at h
    cases h
  obtain ⟨C, h1, hC⟩ := (C15_entries s G).1 hr
  have hu : IsUnit C.det := by
    by_contra hn
    rw [(C15_solver_matrices_partial s G C h1).2 hn] at h
    cases h
  obtain ⟨inv, eps2, h2, h3, h4, -⟩ := (C15_solver_matrices_partial s G C h1).1 hu
  rw [h] at h2
  injection h2 with h2
  obtain ⟨rfl, rfl⟩ := Prod.mk.inj h2
  exact ⟨hr, C, h1, hC, h4, h3⟩

/-- C192: where all permittivities lie beyond a line at distance `lo` from zero (positive ones with `c = 1`, lossy ones with `c = -i`), the inverse permittivity enlarges no field by more than `1 / lo`. -/
theorem C192_inverse_bounded {Nx Ny n : ℕ} (s : Fin Nx → Fin Ny → ℂ) (c : ℂ) (hc : ‖c‖ ≤ 1) (lo : ℝ) (hlo : 0 < lo) (hs : ∀ m k, lo ≤ (c * s m k).re) (G : Fin n → ℤ × ℤ) (hG : Function.Injective G)
    (epinv : Matrix (Fin n) (Fin n) ℂ) (ep2 : Matrix (Fin n ⊕ Fin n) (Fin n ⊕ Fin n) ℂ) (h : epsilonFft (1 / Nx / Ny) (.iso s) G = .ok (epinv, ep2)) (x : Fin n → ℂ) :
    ∑ i, ‖(epinv *ᵥ x) i‖ ^ 2 ≤ (1 / lo) ^ 2 * ∑ i, ‖x i‖ ^ 2 := by
  obtain ⟨hr, C, -, hC, h4, -⟩ := epsilonFft_pair h
  exact inverse_norm s c hc lo hlo hs G hG hr C hC x _ (by rw [Matrix.mulVec_mulVec, h4, Matrix.one_mulVec])

/-- C192: the inverse permittivities of two such patterns that differ by at most `δ` in every pixel differ by at most `δ / (lo lo')` in their effect on any field. -/
theorem C192_inverse_close {Nx Ny n : ℕ} (s s' : Fin Nx → Fin Ny → ℂ) (δ : ℝ) (hd : ∀ m k, ‖s m k - s' m k‖ ≤ δ) (c c' : ℂ) (hc : ‖c‖ ≤ 1) (hc' : ‖c'‖ ≤ 1) (lo lo' : ℝ) (hlo : 0 < lo) (hlo' : 0 < lo')
    (hs : ∀ m k, lo ≤ (c * s m k).re) (hs' : ∀ m k, lo' ≤ (c' * s' m k).re) (G : Fin n → ℤ × ℤ) (hG : Function.Injective G) (epinv epinv' : Matrix (Fin n) (Fin n) ℂ) (ep2 ep2' : Matrix (Fin n ⊕ Fin n) (Fin n ⊕ Fin n) ℂ)
    (h : epsilonFft (1 / Nx / Ny) (.iso s) G = .ok (epinv, ep2)) (h' : epsilonFft (1 / Nx / Ny) (.iso s') G = .ok (epinv', ep2')) (x : Fin n → ℂ) :
    ∑ i, ‖(epinv *ᵥ x) i - (epinv' *ᵥ x) i‖ ^ 2 ≤ (δ / (lo * lo')) ^ 2 * ∑ i, ‖x i‖ ^ 2 := by
  obtain ⟨hr, C, c1, hC, h4, h3⟩ := epsilonFft_pair h
  obtain ⟨-, C', c1', hC', h4', h3'⟩ := epsilonFft_pair h'
  set y' := epinv' *ᵥ x with hy'
  have hx : C' *ᵥ y' = x := by rw [hy', Matrix.mulVec_mulVec, h4', Matrix.one_mulVec]
  set z := epinv *ᵥ x - y' with hz
  have hCz : C *ᵥ z = C' *ᵥ y' - C *ᵥ y' := by
    rw [hz, Matrix.mulVec_sub, Matrix.mulVec_mulVec, h4, Matrix.one_mulVec, hx]
  have b1 := inverse_norm s c hc lo hlo hs G hG hr C hC _ z hCz
  have b2 := C192_close s' s δ (fun m k => by rw [norm_sub_rev]; exact hd m k) G hG C' C c1' c1 y'
  have b3 := C192_inverse_bounded s' c' hc' lo' hlo' hs' G hG epinv' ep2' h' x
  rw [← hy'] at b3
  simp only [Pi.sub_apply] at b1
  calc ∑ i, ‖(epinv *ᵥ x) i - y' i‖ ^ 2 = ∑ i, ‖z i‖ ^ 2 := rfl
    _ ≤ (1 / lo) ^ 2 * (δ ^ 2 * ((1 / lo') ^ 2 * ∑ i, ‖x i‖ ^ 2)) := by
        refine b1.trans (mul_le_mul_of_nonneg_left (b2.trans (mul_le_mul_of_nonneg_left b3 (by positivity))) (by positivity))
    _ = _ := by field_simp

/-- two gratings with answers, a tenth apart -/
example : ∃ epinv ep2 epinv' ep2', epsilonFft (1 / (2 : ℕ) / (1 : ℕ)) (.iso twoPixel) twoOrders = .ok (epinv, ep2) ∧
    epsilonFft (1 / (2 : ℕ) / (1 : ℕ)) (.iso fun m k => twoPixel m k + Complex.I / 10) twoOrders = .ok (epinv', ep2') ∧
    (∀ m k, ‖twoPixel m k - (twoPixel m k + Complex.I / 10)‖ ≤ 1 / 10) ∧ (∀ m k, 1 ≤ (1 * twoPixel m k).re) ∧ ∀ m k, 1 ≤ (1 * (twoPixel m k + Complex.I / 10)).re := by
  have hG : Function.Injective twoOrders := by unfold twoOrders; decide
  obtain ⟨-, epinv, ep2, -, h, -⟩ := C15_invertible twoPixel twoOrders hG (resolved_twoOrders 2 le_rfl) Complex.I (fun a _ => by fin_cases a <;> simp [twoPixel])
  obtain ⟨-, epinv', ep2', -, h', -⟩ := C15_invertible (fun m k => twoPixel m k + Complex.I / 10) twoOrders hG (resolved_twoOrders 2 le_rfl) Complex.I
    (fun a _ => by fin_cases a <;> simp [twoPixel])
  refine ⟨epinv, ep2, epinv', ep2', h, h', fun m k => ?_, fun m k => ?_, fun m k => ?_⟩
  · rw [sub_add_cancel_left, norm_neg, norm_div, Complex.norm_I]; norm_num
  · fin_cases m <;> simp [twoPixel]
  · fin_cases m <;> simp [twoPixel]

lemma ep2_entry {Nx Ny n : ℕ} {s : Fin Nx → Fin Ny → ℂ} {G : Fin n → ℤ × ℤ} {epinv : Matrix (Fin n) (Fin n) ℂ} {ep2 : Matrix (Fin n ⊕ Fin n) (Fin n ⊕ Fin n) ℂ}
    (h : epsilonFft (1 / Nx / Ny) (.iso s) G = .ok (epinv, ep2)) (i j : Fin n) : ep2 (.inl i) (.inl j) = zeroSmall (fourierCoeff s (G i - G j)) := by
  obtain ⟨-, C, h1, h2, -⟩ := epsilonFft_pair h
  simp only [epsilonFft] at h
  rw [h1, ok_bind] at h
  obtain ⟨e, -, h⟩ := bind_ok.1 h
  cases h
  simp [h2]

/-- a grating of 1 and 3 with a little loss in the first pixel -/
noncomputable def lossyPixel (t : ℝ) : Fin 2 → Fin 1 → ℂ := fun m _ => if m = 0 then ⟨1, t⟩ else 3

lemma lossyPixel_coeff (t : ℝ) : fourierCoeff (lossyPixel t) (twoOrders 1 - twoOrders 0) = ⟨-1, t / 2⟩ := by
  have hp := exp_neg_pi_I
  simp only [fourierCoeff, twoOrders, lossyPixel, Fin.sum_univ_two]
  norm_num at hp ⊢
  rw [hp]
  apply Complex.ext <;> simp <;> ring

/-- C192 is false of the second matrix: there are patterns arbitrarily close to each other, both with answers, whose entry between the orders 0 and 1 differs by more than 1/2, because the filter drops it from one of them. -/
theorem C192_filter_false (δ : ℝ) (hδ : 0 < δ) : ∃ (s s' : Fin 2 → Fin 1 → ℂ) (epinv epinv' : Matrix (Fin 2) (Fin 2) ℂ) (ep2 ep2' : Matrix (Fin 2 ⊕ Fin 2) (Fin 2 ⊕ Fin 2) ℂ), (∀ m k, ‖s m k - s' m k‖ ≤ δ) ∧
    (∀ m k, 1 ≤ (s m k).re ∧ 0 ≤ (s m k).im ∧ 1 ≤ (s' m k).re ∧ 0 ≤ (s' m k).im) ∧
    epsilonFft (1 / (2 : ℕ) / (1 : ℕ)) (.iso s) twoOrders = .ok (epinv, ep2) ∧ epsilonFft (1 / (2 : ℕ) / (1 : ℕ)) (.iso s') twoOrders = .ok (epinv', ep2') ∧
    1 / 2 < ‖ep2 (.inl 1) (.inl 0) - ep2' (.inl 1) (.inl 0)‖ := by
  have hG : Function.Injective twoOrders := by unfold twoOrders; decide
  set t : ℝ := max 0 (2e-14 - δ) with ht
  have ht0 : 0 ≤ t := le_max_left _ _
  have ht1 : t < 2e-14 := max_lt (by norm_num) (by linarith)
  have ht2 : 2e-14 - δ ≤ t := le_max_right _ _
  have hi : ∀ u a b, 0 < (Complex.I * lossyPixel u a b).im := fun u a b => by fin_cases a <;> simp [lossyPixel]
  obtain ⟨-, epinv, ep2, -, h, -⟩ := C15_invertible (lossyPixel 2e-14) twoOrders hG (resolved_twoOrders 2 le_rfl) Complex.I (hi _)
  obtain ⟨-, epinv', ep2', -, h', -⟩ := C15_invertible (lossyPixel t) twoOrders hG (resolved_twoOrders 2 le_rfl) Complex.I (hi _)
  refine ⟨lossyPixel 2e-14, lossyPixel t, epinv, epinv', ep2, ep2', fun m k => ?_, fun m k => ?_, h, h', ?_⟩
  · fin_cases m
    · have e : lossyPixel 2e-14 0 k - lossyPixel t 0 k = ((2e-14 - t : ℝ) : ℂ) * Complex.I := by
        apply Complex.ext <;> simp [lossyPixel]
      show ‖lossyPixel 2e-14 0 k - lossyPixel t 0 k‖ ≤ δ
      rw [e, norm_mul, Complex.norm_I, mul_one, Complex.norm_real, Real.norm_eq_abs, abs_of_nonneg (by linarith)]
      linarith
    · simp [lossyPixel, hδ.le]
  · fin_cases m
    · simp [lossyPixel, ht0]; norm_num
    · simp [lossyPixel]
  · rw [ep2_entry h, ep2_entry h', lossyPixel_coeff, lossyPixel_coeff, zeroSmall, zeroSmall, if_neg (by norm_num), if_pos ⟨by norm_num, show t / 2 < 1e-14 by linarith⟩, sub_zero]
    refine lt_of_lt_of_le ?_ (Complex.abs_re_le_norm _)
    norm_num

end Nidn
