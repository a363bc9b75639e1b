/-
C116 fails for the code as it is: a lossless grating of two pixels reflects nothing, and the same grating shifted by one pixel reflects almost
half of the light.
-/
import Verif.Props.Shift

namespace Nidn

open Matrix

lemma lit_shift (c : ℂ) : shiftPattern 1 0 (litPattern c) = litPattern (-c) := by
  funext i j
  fin_cases i
  · show litPattern c (0 - 1) _ = _
    rw [show (0 : Fin 2) - 1 = 1 from rfl]; simp [litPattern, sub_eq_add_neg]
  · show litPattern c (1 - 1) _ = _
    simp [litPattern]

/-- C116 is false of the code: a lossless grating of two pixels (145/169 and 193/169) in vacuum, lit at an angle of sine 12/13, reflects nothing;
the same grating shifted by one pixel reflects more than 2/5 of the power. The first pattern has the Fourier coefficient -24/169, which the filter
of `Epsilon_fft` drops, so that it acts like vacuum; in the shifted pattern the coefficient is 24/169 and stays. The numbers are those of the
solver, for eigenvectors that solve its eigenvalue problem. -/
theorem C116_shift_false : ∃ (s : Fin 2 → Fin 1 → ℂ) (L L' : LayerData (Fin 2 ⊕ Fin 2)) (R T : ℝ),
    (∀ i j, (s i j).im = 0 ∧ 0 < (s i j).re) ∧
    Built 13 litKx litKy litOrders (.patterned s (Real.pi / 2)) L ∧
    Built 13 litKx litKy litOrders (.patterned (shiftPattern 1 0 s) (Real.pi / 2)) L' ∧
    rtForward 13 (rtNormalization 1 litTheta) [uniformLayer 13 litKx litKy (1 : ℝ) 0, L, uniformLayer 13 litKx litKy (1 : ℝ) 0]
      (planewave litTheta 0 1 0 (0 : Fin 2)) 0 = .ok (0, 1) ∧
    rtForward 13 (rtNormalization 1 litTheta) [uniformLayer 13 litKx litKy (1 : ℝ) 0, L', uniformLayer 13 litKx litKy (1 : ℝ) 0]
      (planewave litTheta 0 1 0 (0 : Fin 2)) 0 = .ok (R, T) ∧ 2 / 5 < R ∧ R + T = 1 := by
  have h1 := lit_run lit_dropped
  have h2 := lit_run lit_kept
  refine ⟨litPattern ((-(24 / 169) : ℝ) : ℂ), litSlab (-(24 / 169)) 0, litSlab (24 / 169) (24 / 169), _, _, fun i j => ?_, lit_built lit_dropped, ?_, ?_, h2,
    by norm_num, by norm_num⟩
  · rw [litPattern]
    split
    · rw [show (1 : ℂ) + ((-(24 / 169) : ℝ) : ℂ) = ((145 / 169 : ℝ) : ℂ) by push_cast; norm_num, Complex.ofReal_im, Complex.ofReal_re]; norm_num
    · rw [show (1 : ℂ) - ((-(24 / 169) : ℝ) : ℂ) = ((193 / 169 : ℝ) : ℂ) by push_cast; norm_num, Complex.ofReal_im, Complex.ofReal_re]; norm_num
  · rw [lit_shift, ← Complex.ofReal_neg, neg_neg]
    exact lit_built lit_kept
  · refine Eq.trans h1 ?_
    norm_num

end Nidn
