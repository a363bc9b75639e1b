/-
Counting lattice points in a disc: a disc of area `N * |a × b|`, enlarged by `|a| + |b|`, contains at least `N` points of the lattice
spanned by `a` and `b`.
-/
import Verif.Model.Lattice
import Mathlib.MeasureTheory.Measure.Lebesgue.VolumeOfBalls
import Mathlib.MeasureTheory.Measure.Lebesgue.Complex
import Mathlib.LinearAlgebra.Matrix.ToLin
import Mathlib.LinearAlgebra.Determinant
import Mathlib.Tactic.Linarith
import Mathlib.Tactic.Ring
import Mathlib.Tactic.FieldSimp

namespace Nidn

open MeasureTheory

lemma norm2_eq (v : ℝ × ℝ) : norm2 v = ‖Complex.mk v.1 v.2‖ := by
  rw [norm2, Complex.norm_eq_sqrt_sq_add_sq]

lemma norm2_nonneg (v : ℝ × ℝ) : 0 ≤ norm2 v := Real.sqrt_nonneg _

lemma norm2_sq (v : ℝ × ℝ) : norm2 v ^ 2 = v.1 ^ 2 + v.2 ^ 2 := Real.sq_sqrt (by positivity)

/-- the point with lattice coordinates `s`, `t` -/
noncomputable def latPt (a b : ℝ × ℝ) (s t : ℝ) : ℝ × ℝ := (a.1 * s + b.1 * t, a.2 * s + b.2 * t)

lemma volume_disc (ρ : ℝ) : volume {p : ℝ × ℝ | norm2 p < ρ} = ENNReal.ofReal ρ ^ 2 * NNReal.pi := by
  rw [← Complex.volume_ball 0 ρ, ← Complex.volume_preserving_equiv_real_prod.symm.measure_preimage_equiv]
  congr 1
  ext p
  simp [norm2_eq]

lemma lattice_count (a b : ℝ × ℝ) (hc : cross2 a b ≠ 0) (N : ℕ) (S : Finset (ℤ × ℤ))
    (hS : ∀ g : ℤ × ℤ, norm2 (latPt a b g.1 g.2) ≤ circRadius N a b → g ∈ S) : N ≤ S.card := by
  set ρ : ℝ := Real.sqrt (N * |cross2 a b| / Real.pi) with hρ
  set f : ℝ × ℝ →ₗ[ℝ] ℝ × ℝ :=
    Matrix.toLin (Module.Basis.finTwoProd ℝ) (Module.Basis.finTwoProd ℝ) !![a.1, b.1; a.2, b.2] with hf
  have hdet : LinearMap.det f = cross2 a b := by
    rw [hf, LinearMap.det_toLin, Matrix.det_fin_two_of, cross2]; ring
  have happ : ∀ p, f p = latPt a b p.1 p.2 := by
    intro p; rw [hf, Matrix.toLin_finTwoProd_apply]; rfl
  have hvol := Measure.addHaar_preimage_linearMap (volume : Measure (ℝ × ℝ)) (f := f) (by rwa [hdet])
    {p : ℝ × ℝ | norm2 p < ρ}
  have hρ2 : ρ ^ 2 = N * |cross2 a b| / Real.pi := Real.sq_sqrt (by positivity)
  have hval : volume (f ⁻¹' {p : ℝ × ℝ | norm2 p < ρ}) = N := by
    rw [hvol, volume_disc, hdet, ← ENNReal.ofReal_pow (Real.sqrt_nonneg _), hρ2]
    have : (NNReal.pi : ENNReal) = ENNReal.ofReal Real.pi := by
      rw [ENNReal.ofReal]; congr 1; ext; simp [Real.pi_pos.le]
    rw [this, ← ENNReal.ofReal_mul (by positivity), ← ENNReal.ofReal_mul (by positivity), abs_inv]
    have h0 : |cross2 a b| ≠ 0 := abs_ne_zero.2 hc
    have hpi := Real.pi_pos.ne'
    rw [show |cross2 a b|⁻¹ * (N * |cross2 a b| / Real.pi * Real.pi) = N by field_simp]
    exact ENNReal.ofReal_natCast N
  have hsub : f ⁻¹' {p : ℝ × ℝ | norm2 p < ρ} ⊆
      ⋃ g ∈ S, Set.Ico (g.1 : ℝ) (g.1 + 1) ×ˢ Set.Ico (g.2 : ℝ) (g.2 + 1) := by
    intro p hp
    rw [Set.mem_preimage, happ, Set.mem_ofPred_eq] at hp
    simp only [Set.mem_iUnion]
    refine ⟨(⌊p.1⌋, ⌊p.2⌋), hS _ ?_, ?_⟩
    · have key : norm2 (latPt a b ⌊p.1⌋ ⌊p.2⌋) ≤ norm2 (latPt a b p.1 p.2) + norm2 a + norm2 b := by
        simp only [norm2_eq]
        have e : Complex.mk (latPt a b ⌊p.1⌋ ⌊p.2⌋).1 (latPt a b ⌊p.1⌋ ⌊p.2⌋).2 =
            Complex.mk (latPt a b p.1 p.2).1 (latPt a b p.1 p.2).2 - ((Int.fract p.1 : ℝ) : ℂ) * Complex.mk a.1 a.2
              - ((Int.fract p.2 : ℝ) : ℂ) * Complex.mk b.1 b.2 := by
          apply Complex.ext <;> simp [latPt] <;> rw [Int.fract, Int.fract] <;> ring
        rw [e]
        refine (norm_sub_le _ _).trans (add_le_add ((norm_sub_le _ _).trans (add_le_add le_rfl ?_)) ?_)
        · rw [norm_mul, Complex.norm_real, Real.norm_of_nonneg (Int.fract_nonneg _)]
          exact mul_le_of_le_one_left (norm_nonneg _) (Int.fract_lt_one _).le
        · rw [norm_mul, Complex.norm_real, Real.norm_of_nonneg (Int.fract_nonneg _)]
          exact mul_le_of_le_one_left (norm_nonneg _) (Int.fract_lt_one _).le
      rw [circRadius]
      simp only
      linarith
    · exact ⟨⟨Int.floor_le _, Int.lt_floor_add_one _⟩, ⟨Int.floor_le _, Int.lt_floor_add_one _⟩⟩
  have := (measure_mono (μ := (volume : Measure (ℝ × ℝ))) hsub).trans (measure_biUnion_finset_le S _)
  rw [hval] at this
  have h1 : ∀ g ∈ S, volume (Set.Ico (g.1 : ℝ) (g.1 + 1) ×ˢ Set.Ico (g.2 : ℝ) (g.2 + 1)) = 1 := by
    intro g _
    rw [Measure.volume_eq_prod, Measure.prod_prod, Real.volume_Ico, Real.volume_Ico]
    simp
  rw [Finset.sum_congr rfl h1] at this
  simpa using this

end Nidn
