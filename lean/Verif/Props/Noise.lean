/-
C160: what `add_noise` does to the permittivities of a model.
-/
import Verif.Props.EpsGrid
import Verif.Props.Classification

namespace Nidn

section
variable {K : Type} [Field K] [LinearOrder K] [IsStrictOrderedRing K]

/-- The config without noise. -/
def GridCfg.quiet (c : GridCfg K) : GridCfg K := { c with addNoise := false }

/-- `eps` (with noise) and `plain` (without) are the permittivities of the same cell of the same voxel or network model; `z` is the pair of random numbers of the cell. -/
def Noised (c : GridCfg K) (z plain eps : K × K) : Prop :=
  ∃ (noise : ℕ → ℕ → ℕ → ℕ → K × K) (i j k f : ℕ), noise i j k f = z ∧
    ((∃ w, voxelEps c.quiet w noise i j k f = plain ∧ voxelEps c w noise i j k f = eps) ∨
      ∃ out p e, regressionEps c.quiet out noise = .ok p ∧ regressionEps c out noise = .ok e ∧ p i j k f = plain ∧ e i j k f = eps)

omit [IsStrictOrderedRing K] in
theorem noised_stage {c : GridCfg K} {z plain eps : K × K} (h : Noised c z plain eps) : eps = noiseStage c z.1 z.2 plain := by
  obtain ⟨noise, i, j, k, f, rfl, ⟨w, rfl, rfl⟩ | ⟨out, p, e, hp, he, rfl, rfl⟩⟩ := h
  · rfl
  · unfold regressionEps at hp he
    have hq : c.quiet.nxU * c.quiet.oversampling = c.quiet.nx ∧ c.quiet.nyU * c.quiet.oversampling = c.quiet.ny := by
      by_contra hn
      rw [if_neg hn] at hp
      cases hp
    rw [if_pos hq] at hp
    rw [if_pos (show c.nxU * c.oversampling = c.nx ∧ c.nyU * c.oversampling = c.ny from hq)] at he
    cases hp
    cases he
    rfl

omit [IsStrictOrderedRing K] in
/-- A cell of a voxel model is noised. -/
theorem noised_voxel (c : GridCfg K) (w : K × K) (z : K × K) :
    Noised c z (clip c.realMin c.realMax w.1, clip c.imagMin c.imagMax w.2) (noiseStage c z.1 z.2 (clip c.realMin c.realMax w.1, clip c.imagMin c.imagMax w.2)) :=
  ⟨fun _ _ _ _ => z, 0, 0, 0, 0, rfl, .inl ⟨fun _ _ _ _ => w, rfl, rfl⟩⟩

theorem clip_near {lo hi e d : K} (h1 : lo ≤ e) (h2 : e ≤ hi) : |clip lo hi (e + d) - e| ≤ |d| := by
  have hc : ∀ v, clip lo hi v - clip lo hi e ≤ |v - e| ∧ clip lo hi e - clip lo hi v ≤ |v - e| := by
    intro v
    have h3 := le_abs_self (v - e)
    have h4 := neg_abs_le (v - e)
    have h5 := abs_nonneg (v - e)
    unfold clip
    constructor
    · rcases le_total v lo with h | h <;> rcases le_total e lo with h' | h' <;>
        simp only [max_eq_left, max_eq_right, h, h'] <;> (rw [sub_le_iff_le_add]) <;>
        exact le_trans (min_le_left _ _) (by rw [min_eq_left (by linarith)]; linarith)
    · rcases le_total v hi with h | h <;> rcases le_total v lo with h' | h' <;>
        simp only [max_eq_left, max_eq_right, min_eq_left, min_eq_right, h, h', h1, h2, h1.trans h2] <;> linarith
  obtain ⟨a, b⟩ := hc (e + d)
  rw [add_sub_cancel_left, clip_id lo hi e h1 h2] at a b
  exact abs_le.2 ⟨by linarith, a⟩

/-- **C160 (size).** The random numbers move each part of a permittivity that lies in the configured range by at most `|2 z - 1| * noise_scale` of the width of the range, and never out of the range. -/
theorem C160_size (c : GridCfg K) (hn : c.addNoise = true) (hs : 0 ≤ c.noiseScale) (z plain eps : K × K) (h : Noised c z plain eps) (hp : InRange c plain) :
    InRange c eps ∧ |eps.1 - plain.1| ≤ |2 * z.1 - 1| * c.noiseScale * (c.realMax - c.realMin) ∧ |eps.2 - plain.2| ≤ |2 * z.2 - 1| * c.noiseScale * (c.imagMax - c.imagMin) := by
  rw [noised_stage h, noiseStage, if_pos hn]
  have hr : c.realMin ≤ c.realMax := hp.1.1.trans hp.1.2
  have hi : c.imagMin ≤ c.imagMax := hp.2.1.trans hp.2.2
  refine ⟨⟨clip_mem _ _ _ hr, clip_mem _ _ _ hi⟩, ?_, ?_⟩
  · refine (clip_near hp.1.1 hp.1.2).trans (le_of_eq ?_)
    rw [show (z.1 - 1 / 2) * 2 * c.noiseScale * (c.realMax - c.realMin) = (2 * z.1 - 1) * (c.noiseScale * (c.realMax - c.realMin)) by ring, abs_mul,
      abs_of_nonneg (mul_nonneg hs (sub_nonneg.2 hr)), mul_assoc]
  · refine (clip_near hp.2.1 hp.2.2).trans (le_of_eq ?_)
    rw [show (z.2 - 1 / 2) * 2 * c.noiseScale * (c.imagMax - c.imagMin) = (2 * z.2 - 1) * (c.noiseScale * (c.imagMax - c.imagMin)) by ring, abs_mul,
      abs_of_nonneg (mul_nonneg hs (sub_nonneg.2 hi)), mul_assoc]

/-- **C160 (bias).** The noise of regression models is not centred: opposite random numbers do not cancel. For every permittivity with enough room in the range, the two noised values of opposite numbers have
a mean that is lower by `noise_scale` of the width of the range, in the real and in the imaginary part. -/
theorem C160_bias (c : GridCfg K) (hn : c.addNoise = true) (z plain e₁ e₂ : K × K) (h₁ : Noised c z plain e₁) (h₂ : Noised c (-z.1, -z.2) plain e₂)
    (hr : c.realMin ≤ plain.1 - |c.noiseScale * (c.realMax - c.realMin)| * (2 * |z.1| + 1) ∧ plain.1 + |c.noiseScale * (c.realMax - c.realMin)| * (2 * |z.1| + 1) ≤ c.realMax)
    (hi : c.imagMin ≤ plain.2 - |c.noiseScale * (c.imagMax - c.imagMin)| * (2 * |z.2| + 1) ∧ plain.2 + |c.noiseScale * (c.imagMax - c.imagMin)| * (2 * |z.2| + 1) ≤ c.imagMax) :
    (e₁.1 + e₂.1) / 2 = plain.1 - c.noiseScale * (c.realMax - c.realMin) ∧ (e₁.2 + e₂.2) / 2 = plain.2 - c.noiseScale * (c.imagMax - c.imagMin) := by
  have hd : ∀ s x lo hi e : K, lo ≤ e - |s| * (2 * |x| + 1) ∧ e + |s| * (2 * |x| + 1) ≤ hi → clip lo hi (e + (x - 1 / 2) * 2 * s) = e + (x - 1 / 2) * 2 * s := by
    intro s x lo hi e h
    have hb : |(x - 1 / 2) * 2 * s| ≤ |s| * (2 * |x| + 1) := by
      rw [show (x - 1 / 2) * 2 * s = s * (2 * x - 1) by ring, abs_mul]
      refine mul_le_mul_of_nonneg_left ?_ (abs_nonneg s)
      calc |2 * x - 1| ≤ |2 * x| + |(1:K)| := abs_sub _ _
        _ = 2 * |x| + 1 := by rw [abs_mul, abs_one, abs_two]
    have h3 := abs_le.1 hb
    exact clip_id _ _ _ (by linarith [h.1]) (by linarith [h.2])
  rw [noised_stage h₁, noised_stage h₂, noiseStage, noiseStage, if_pos hn, if_pos hn]
  dsimp only
  rw [← abs_neg z.1] at hr
  have r2 := hd _ (-z.1) _ _ _ hr
  rw [abs_neg z.1] at hr
  have r1 := hd _ z.1 _ _ _ hr
  rw [← abs_neg z.2] at hi
  have i2 := hd _ (-z.2) _ _ _ hi
  rw [abs_neg z.2] at hi
  have i1 := hd _ z.2 _ _ _ hi
  simp only [mul_assoc] at r1 r2 i1 i2 ⊢
  rw [r1, r2, i1, i2]
  constructor <;> ring

/-- **C160 (centred).** False for regression models: with the default noise scale and a permittivity in the middle of the range 1 to 3, random numbers 0 do not leave the value where it is. -/
theorem C160_centred_false : ∃ (c : GridCfg ℚ) (plain eps : ℚ × ℚ), c.addNoise = true ∧ c.noiseScale = 1 / 1000 ∧ InRange c plain ∧ Noised c (0, 0) plain eps ∧ eps.1 < plain.1 ∧ eps.2 < plain.2 := by
  refine ⟨⟨1, 1, 1, 1, 1, 1, 3, 0, 3, false, true, 1 / 1000⟩, _, _, rfl, rfl, ?_, noised_voxel _ (2, 1) (0, 0), ?_, ?_⟩
  · unfold InRange clip; norm_num
  · unfold noiseStage clip; norm_num
  · unfold noiseStage clip; norm_num

end

/-- hypotheses of C160_size and C160_bias are met by both kinds of models -/
example : ∃ (c : GridCfg ℚ) (plain e₁ e₂ e₃ : ℚ × ℚ), c.addNoise = true ∧ 0 ≤ c.noiseScale ∧ InRange c plain ∧ Noised c (1, 2) plain e₁ ∧ Noised c (-1, -2) plain e₂ ∧
    (c.realMin ≤ plain.1 - |c.noiseScale * (c.realMax - c.realMin)| * (2 * |1| + 1) ∧ plain.1 + |c.noiseScale * (c.realMax - c.realMin)| * (2 * |1| + 1) ≤ c.realMax) ∧
    (c.imagMin ≤ plain.2 - |c.noiseScale * (c.imagMax - c.imagMin)| * (2 * |2| + 1) ∧ plain.2 + |c.noiseScale * (c.imagMax - c.imagMin)| * (2 * |2| + 1) ≤ c.imagMax) ∧
    (∃ p, regressionEps c.quiet (fun _ _ => 1 / 2) (fun _ _ _ _ => (1, 2)) = .ok p ∧ Noised c (1, 2) (p 0 0 0 0) e₃) := by
  refine ⟨⟨1, 1, 1, 1, 1, 1, 3, 0, 3, false, true, 1 / 1000⟩, _, _, _, _, rfl, by norm_num, ?_, noised_voxel _ (2, 1) (1, 2), noised_voxel _ (2, 1) (-1, -2), ?_, ?_, _, rfl,
    ⟨fun _ _ _ _ => (1, 2), 0, 0, 0, 0, rfl, .inr ⟨fun _ _ => 1 / 2, _, _, rfl, rfl, rfl, rfl⟩⟩⟩
  · unfold InRange clip; norm_num
  · unfold clip; norm_num [abs_of_pos]
  · unfold clip; norm_num [abs_of_pos]

/-! ### Classification -/

/-- The weights of the materials in a cell. -/
noncomputable def weightsOf (c : GridCfg ℝ) (nMat : ℕ) (mat : EpsMatrix ℂ) (out : ℕ → ℕ → ℝ) (noise : ℕ → ℕ → ℕ → ℕ → ℝ) (i j k : ℕ) : ℕ → ℝ := (classificationCell c nMat mat out noise i j k).2

/-- **C160 (classification).** In classification the noise is centred: it multiplies the ratio of the weights of two materials by `exp (16 * noise_scale * (difference of their random numbers))`, so opposite random numbers give
reciprocal factors, and adding the same number to all materials changes nothing. -/
theorem C160_classification (c : GridCfg ℝ) (hn : c.addNoise = true) (nMat : ℕ) (hM : 0 < nMat) (mat : EpsMatrix ℂ) (out : ℕ → ℕ → ℝ) (noise : ℕ → ℕ → ℕ → ℕ → ℝ) (i j k : ℕ) :
    (∀ m m', weightsOf c nMat mat out noise i j k m / weightsOf c nMat mat out noise i j k m' =
      weightsOf c.quiet nMat mat out noise i j k m / weightsOf c.quiet nMat mat out noise i j k m' * Real.exp (16 * (c.noiseScale * (noise i j k m - noise i j k m')))) ∧
    ((∃ t, ∀ m < nMat, noise i j k m = t) → ∀ m < nMat, weightsOf c nMat mat out noise i j k m = weightsOf c.quiet nMat mat out noise i j k m) := by
  have hs : ∀ m, classScore c nMat out noise i j k m = classScore c.quiet nMat out noise i j k m + noise i j k m * c.noiseScale := by
    intro m
    unfold classScore GridCfg.quiet
    rw [if_pos hn]
    simp only [Bool.false_eq_true, if_false, add_zero]
    rfl
  have h1 : ∀ d m, weightsOf d nMat mat out noise i j k m = materialId nMat (classScore d nMat out noise i j k) m := fun d m => rfl
  have hpos : ∀ s : ℕ → ℝ, 0 < ∑ m ∈ Finset.range nMat, Real.exp (16 * s m) := softmax_sum nMat hM
  constructor
  · intro m m'
    simp only [h1, materialId_eq nMat hM]
    rw [div_div_div_cancel_right₀ (hpos _).ne', div_div_div_cancel_right₀ (hpos _).ne', ← Real.exp_sub, ← Real.exp_sub, ← Real.exp_add, hs, hs]
    congr 1
    ring
  · rintro ⟨t, ht⟩ m hm
    simp only [h1, materialId_eq nMat hM]
    have he : ∀ m < nMat, Real.exp (16 * classScore c nMat out noise i j k m) = Real.exp (16 * classScore c.quiet nMat out noise i j k m) * Real.exp (16 * (t * c.noiseScale)) := by
      intro m hm
      rw [hs, ht m hm, ← Real.exp_add]
      congr 1
      ring
    rw [he m hm, Finset.sum_congr rfl fun a ha => he a (Finset.mem_range.1 ha), ← Finset.sum_mul, mul_div_mul_right _ _ (Real.exp_pos _).ne']

end Nidn
