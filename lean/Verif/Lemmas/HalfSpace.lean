/-
Flux in a uniform half-space: explicit form per order, the incident plane wave, non-negativity of outgoing power.
-/
import Verif.Props.Flux

set_option linter.unusedSectionVars false

namespace Nidn

open Matrix

variable {κ : Type} [Fintype κ] [DecidableEq κ]

lemma kpUniform_mulVec (ω e : ℂ) (kx ky : κ → ℂ) (x : κ ⊕ κ → ℂ) (i : κ) :
    (kpUniform ω e kx ky *ᵥ x) (.inl i) = ω ^ 2 * x (.inl i) + e * ky i * (kx i * x (.inr i) - ky i * x (.inl i)) ∧
    (kpUniform ω e kx ky *ᵥ x) (.inr i) = ω ^ 2 * x (.inr i) - e * kx i * (kx i * x (.inr i) - ky i * x (.inl i)) := by
  have hJ : ∀ j, ((jkMat kx ky).transpose *ᵥ x) j = kx j * x (.inr j) - ky j * x (.inl j) := by
    intro j
    rw [jkMat, Matrix.transpose_fromRows, Matrix.diagonal_transpose, Matrix.diagonal_transpose, Matrix.fromCols_mulVec, Pi.add_apply,
      Matrix.mulVec_diagonal, Matrix.mulVec_diagonal]
    simp only [Function.comp_apply]; ring
  have hK : kpUniform ω e kx ky *ᵥ x = ω ^ 2 • x - e • (jkMat kx ky *ᵥ ((jkMat kx ky).transpose *ᵥ x)) := by
    rw [kpUniform, Matrix.sub_mulVec, Matrix.smul_mulVec, Matrix.one_mulVec, Matrix.smul_mulVec, ← Matrix.mulVec_mulVec]
  constructor
  · rw [hK, Pi.sub_apply, Pi.smul_apply, Pi.smul_apply, smul_eq_mul, smul_eq_mul]
    nth_rewrite 1 [jkMat]
    rw [Matrix.fromRows_mulVec, Sum.elim_inl, Matrix.mulVec_diagonal, hJ]; ring
  · rw [hK, Pi.sub_apply, Pi.smul_apply, Pi.smul_apply, smul_eq_mul, smul_eq_mul]
    nth_rewrite 1 [jkMat]
    rw [Matrix.fromRows_mulVec, Sum.elim_inr, Matrix.mulVec_diagonal, hJ]; ring

/-- wave number of order `i` in a uniform layer -/
noncomputable def qOrd (ω ε : ℂ) (kx ky : κ → ℂ) (i : κ) : ℂ := branchQ (csqrt (ε * ω ^ 2 - kx i ^ 2 - ky i ^ 2))

lemma qOrd_sq (ω ε : ℂ) (kx ky : κ → ℂ) (i : κ) : qOrd ω ε kx ky i ^ 2 = ε * ω ^ 2 - kx i ^ 2 - ky i ^ 2 := by
  rw [qOrd, branchQ_sq, csqrt_sq]

lemma uniformA_apply (ω ε : ℂ) (kx ky : κ → ℂ) (d : ℝ) (a : κ ⊕ κ → ℂ) (i : κ) :
    (fluxA ω (uniformLayer ω kx ky ε d) *ᵥ a) (.inl i) = ω⁻¹ * (qOrd ω ε kx ky i)⁻¹ *
      (ω ^ 2 * a (.inl i) + 1 / ε * ky i * (kx i * a (.inr i) - ky i * a (.inl i))) ∧
    (fluxA ω (uniformLayer ω kx ky ε d) *ᵥ a) (.inr i) = ω⁻¹ * (qOrd ω ε kx ky i)⁻¹ *
      (ω ^ 2 * a (.inr i) - 1 / ε * kx i * (kx i * a (.inr i) - ky i * a (.inl i))) := by
  have h := kpUniform_mulVec ω (1 / ε) kx ky (fun m => a m / qUniform ω ε kx ky m) i
  rw [fluxA_mulVec]
  simp only [uniformLayer, Matrix.one_mulVec, Pi.smul_apply, smul_eq_mul, h.1, h.2]
  have e1 : qUniform ω ε kx ky (.inl i) = qOrd ω ε kx ky i := rfl
  have e2 : qUniform ω ε kx ky (.inr i) = qOrd ω ε kx ky i := rfl
  rw [e1, e2]
  constructor <;> ring

/-- incident order: the 2x2 block of the flux matrix is real -/
structure RealOrder (ω ε : ℂ) (kx ky : κ → ℂ) (o : κ) : Prop where
  xx : (ω⁻¹ * (qOrd ω ε kx ky o)⁻¹ * (ω ^ 2 - 1 / ε * ky o ^ 2)).im = 0
  xy : (ω⁻¹ * (qOrd ω ε kx ky o)⁻¹ * (1 / ε * kx o * ky o)).im = 0
  yy : (ω⁻¹ * (qOrd ω ε kx ky o)⁻¹ * (ω ^ 2 - 1 / ε * kx o ^ 2)).im = 0

lemma uniformA_apply' (ω ε : ℂ) (kx ky : κ → ℂ) (d : ℝ) (a : κ ⊕ κ → ℂ) (i : κ) :
    (fluxA ω (uniformLayer ω kx ky ε d) *ᵥ a) (.inl i) =
      (ω⁻¹ * (qOrd ω ε kx ky i)⁻¹ * (ω ^ 2 - 1 / ε * ky i ^ 2)) * a (.inl i) + (ω⁻¹ * (qOrd ω ε kx ky i)⁻¹ * (1 / ε * kx i * ky i)) * a (.inr i) ∧
    (fluxA ω (uniformLayer ω kx ky ε d) *ᵥ a) (.inr i) =
      (ω⁻¹ * (qOrd ω ε kx ky i)⁻¹ * (1 / ε * kx i * ky i)) * a (.inl i) + (ω⁻¹ * (qOrd ω ε kx ky i)⁻¹ * (ω ^ 2 - 1 / ε * kx i ^ 2)) * a (.inr i) := by
  rw [(uniformA_apply ω ε kx ky d a i).1, (uniformA_apply ω ε kx ky d a i).2]
  constructor <;> ring

/-- vectors living in a single order -/
def InOrder (o : κ) (a : κ ⊕ κ → ℂ) : Prop := ∀ i, i ≠ o → a (.inl i) = 0 ∧ a (.inr i) = 0

lemma conj_of_im {z : ℂ} (h : z.im = 0) : (starRingEnd ℂ) z = z := Complex.conj_eq_iff_im.2 h

/-- the interference term of the flux between an incident wave in a real order and anything else vanishes -/
lemma diff_zero {ω ε : ℂ} {kx ky : κ → ℂ} {o : κ} (hr : RealOrder ω ε kx ky o) (d : ℝ) (a b : κ ⊕ κ → ℂ) (ha : InOrder o a) (i : κ) :
    fluxDiff ω (uniformLayer ω kx ky ε d) a b (.inl i) + fluxDiff ω (uniformLayer ω kx ky ε d) a b (.inr i) = 0 := by
  simp only [fluxDiff]
  rw [(uniformA_apply' ω ε kx ky d a i).1, (uniformA_apply' ω ε kx ky d a i).2, (uniformA_apply' ω ε kx ky d b i).1,
    (uniformA_apply' ω ε kx ky d b i).2]
  simp only [uniformLayer, Matrix.one_mulVec]
  rcases eq_or_ne i o with rfl | h
  · have h1 := conj_of_im hr.xx
    have h2 := conj_of_im hr.xy
    have h3 := conj_of_im hr.yy
    generalize ω⁻¹ * (qOrd ω ε kx ky i)⁻¹ * (ω ^ 2 - 1 / ε * ky i ^ 2) = α at *
    generalize ω⁻¹ * (qOrd ω ε kx ky i)⁻¹ * (1 / ε * kx i * ky i) = β at *
    generalize ω⁻¹ * (qOrd ω ε kx ky i)⁻¹ * (ω ^ 2 - 1 / ε * kx i ^ 2) = γ at *
    simp only [map_add, map_mul, h1, h2, h3]
    ring
  · rw [(ha i h).1, (ha i h).2]; ring

/-- power of a wave travelling one way -/
noncomputable def oneWay (ω : ℂ) (L : LayerData (κ ⊕ κ)) (a : κ ⊕ κ → ℂ) : ℝ := (star (fluxA ω L *ᵥ a) ⬝ᵥ (L.phi *ᵥ a)).re

lemma layerFlux_zero (ω : ℂ) (L : LayerData (κ ⊕ κ)) (a : κ ⊕ κ → ℂ) : layerFlux ω L a 0 = oneWay ω L a := by
  rw [layerFlux, eTan_eq, LayerData.hTan, poynting, Matrix.mulVec_zero, sub_zero, add_zero, oneWay]

lemma backward_re {ω ε : ℂ} {kx ky : κ → ℂ} {o : κ} (hr : RealOrder ω ε kx ky o) (d : ℝ) (a b : κ ⊕ κ → ℂ) (ha : InOrder o a) :
    (-(zPoyntingFlux ω (uniformLayer ω kx ky ε d) a b).2).re = oneWay ω (uniformLayer ω kx ky ε d) b := by
  have h : ∀ i, backwardXY ω (uniformLayer ω kx ky ε d) a b (.inl i) + backwardXY ω (uniformLayer ω kx ky ε d) a b (.inr i) =
      -((star ((fluxA ω (uniformLayer ω kx ky ε d) *ᵥ b) (.inl i)) * ((uniformLayer ω kx ky ε d).phi *ᵥ b) (.inl i)).re +
        (star ((fluxA ω (uniformLayer ω kx ky ε d) *ᵥ b) (.inr i)) * ((uniformLayer ω kx ky ε d).phi *ᵥ b) (.inr i)).re : ℝ) := by
    intro i
    have := congrArg (starRingEnd ℂ) (diff_zero hr d a b ha i)
    rw [map_add, map_zero] at this
    simp only [backwardXY]
    push_cast
    simp only [RCLike.star_def]
    linear_combination this
  simp only [zPoyntingFlux, fluxByOrder, h]
  rw [Finset.sum_neg_distrib, neg_neg, ← Complex.ofReal_sum, Complex.ofReal_re, oneWay, dotProduct, Fintype.sum_sum_type, Complex.add_re, Complex.re_sum,
    Complex.re_sum, ← Finset.sum_add_distrib]
  rfl

lemma forward_re {ω ε : ℂ} {kx ky : κ → ℂ} {o : κ} (hr : RealOrder ω ε kx ky o) (d : ℝ) (a b : κ ⊕ κ → ℂ) (ha : InOrder o a) :
    (zPoyntingFlux ω (uniformLayer ω kx ky ε d) a b).1.re = oneWay ω (uniformLayer ω kx ky ε d) a := by
  have h : ∀ i, forwardXY ω (uniformLayer ω kx ky ε d) a b (.inl i) + forwardXY ω (uniformLayer ω kx ky ε d) a b (.inr i) =
      ((star ((fluxA ω (uniformLayer ω kx ky ε d) *ᵥ a) (.inl i)) * ((uniformLayer ω kx ky ε d).phi *ᵥ a) (.inl i)).re +
        (star ((fluxA ω (uniformLayer ω kx ky ε d) *ᵥ a) (.inr i)) * ((uniformLayer ω kx ky ε d).phi *ᵥ a) (.inr i)).re : ℝ) := by
    intro i
    have := diff_zero hr d a b ha i
    simp only [forwardXY]
    push_cast
    simp only [RCLike.star_def]
    linear_combination this
  simp only [zPoyntingFlux, fluxByOrder, h]
  rw [← Complex.ofReal_sum, Complex.ofReal_re, oneWay, dotProduct, Fintype.sum_sum_type, Complex.add_re, Complex.re_sum,
    Complex.re_sum, ← Finset.sum_add_distrib]
  rfl

/-- the flux in front of the structure is incident minus reflected power -/
lemma layerFlux_incident {ω ε : ℂ} {kx ky : κ → ℂ} {o : κ} (hr : RealOrder ω ε kx ky o) (d : ℝ) (a b : κ ⊕ κ → ℂ) (ha : InOrder o a) :
    layerFlux ω (uniformLayer ω kx ky ε d) a b = oneWay ω (uniformLayer ω kx ky ε d) a - oneWay ω (uniformLayer ω kx ky ε d) b := by
  rw [← zflux_eq_layerFlux, Complex.add_re, forward_re hr d a b ha, ← backward_re hr d a b ha, Complex.neg_re]; ring

/-- power carried by one order of a one-way wave -/
lemma oneWay_uniform (ω ε : ℂ) (kx ky : κ → ℂ) (hx : ∀ i, (kx i).im = 0) (hy : ∀ i, (ky i).im = 0) (d : ℝ) (a : κ ⊕ κ → ℂ) :
    oneWay ω (uniformLayer ω kx ky ε d) a = ∑ i, (ω⁻¹ * (qOrd ω ε kx ky i)⁻¹ *
      (ω ^ 2 * ((Complex.normSq (a (.inl i)) + Complex.normSq (a (.inr i)) : ℝ) : ℂ)
        - 1 / ε * ((Complex.normSq (kx i * a (.inr i) - ky i * a (.inl i)) : ℝ) : ℂ))).re := by
  rw [oneWay, dotProduct, Fintype.sum_sum_type, ← Finset.sum_add_distrib, Complex.re_sum]
  refine Finset.sum_congr rfl fun i _ => ?_
  simp only [Pi.star_apply]
  rw [(uniformA_apply ω ε kx ky d a i).1, (uniformA_apply ω ε kx ky d a i).2]
  simp only [uniformLayer, Matrix.one_mulVec]
  rw [← Complex.conj_re]
  congr 1
  rw [map_add, map_mul, map_mul]
  simp only [RCLike.star_def, Complex.conj_conj]
  push_cast
  rw [Complex.normSq_eq_conj_mul_self, Complex.normSq_eq_conj_mul_self, Complex.normSq_eq_conj_mul_self, map_sub, map_mul (starRingEnd ℂ) (kx i),
    map_mul (starRingEnd ℂ) (ky i), conj_of_im (hx i), conj_of_im (hy i)]
  ring

/-- outgoing power in a transparent half-space is non-negative, evanescent orders included -/
lemma oneWay_nonneg {ω : ℂ} (hre : 0 < ω.re) (him : 0 ≤ ω.im) {kx ky : κ → ℂ} (hx : ∀ i, (kx i).im = 0) (hy : ∀ i, (ky i).im = 0)
    {ε : ℝ} (hε : 0 < ε) (d : ℝ) (hq : ∀ m, (uniformLayer ω kx ky ε d).q m ≠ 0) (a : κ ⊕ κ → ℂ) :
    0 ≤ oneWay ω (uniformLayer ω kx ky ε d) a := by
  rw [oneWay_uniform ω ε kx ky hx hy]
  refine Finset.sum_nonneg fun i _ => ?_
  have hω : ω ≠ 0 := fun h => by rw [h] at hre; simp at hre
  have hε' : (ε : ℂ) ≠ 0 := by exact_mod_cast hε.ne'
  set q := qOrd ω ε kx ky i with hqd
  have hq0 : q ≠ 0 := hq (.inl i)
  have hq2 : q ^ 2 = ε * ω ^ 2 - kx i ^ 2 - ky i ^ 2 := qOrd_sq ω ε kx ky i
  obtain ⟨x, hxr⟩ : ∃ x : ℝ, kx i = x := ⟨(kx i).re, Complex.ext rfl (by simp [hx i])⟩
  obtain ⟨y, hyr⟩ : ∃ y : ℝ, ky i = y := ⟨(ky i).re, Complex.ext rfl (by simp [hy i])⟩
  have hqim : 0 ≤ q.im := branchQ_im _
  have hqre : 0 ≤ q.re := by
    apply branchQ_csqrt_re
    rw [hxr, hyr, sq ω]
    have : ((ε : ℂ) * (ω * ω) - (x : ℂ) ^ 2 - (y : ℂ) ^ 2).im = ε * (2 * (ω.re * ω.im)) := by
      rw [← Complex.ofReal_pow, ← Complex.ofReal_pow, Complex.sub_im, Complex.sub_im, Complex.ofReal_im, Complex.ofReal_im,
        Complex.im_ofReal_mul, Complex.mul_im]
      ring
    rw [this]; positivity
  have hpos : 0 ≤ ω.re * q.re + ω.im * q.im := by positivity
  have h1 : 0 ≤ (ω / q).re := by
    rw [Complex.div_re, ← add_div]
    exact div_nonneg hpos (Complex.normSq_nonneg _)
  have h2 : 0 ≤ (q / ω).re := by
    rw [Complex.div_re, ← add_div]
    exact div_nonneg (by linarith) (Complex.normSq_nonneg _)
  set s := Complex.normSq (a (.inl i)) + Complex.normSq (a (.inr i)) with hs
  set t := Complex.normSq (kx i * a (.inr i) - ky i * a (.inl i)) with ht
  have hs0 : 0 ≤ s := add_nonneg (Complex.normSq_nonneg _) (Complex.normSq_nonneg _)
  have ht0 : 0 ≤ t := Complex.normSq_nonneg _
  have hts : t ≤ (x ^ 2 + y ^ 2) * s := by
    have e : (x ^ 2 + y ^ 2) * s - t = Complex.normSq (kx i * a (.inl i) + ky i * a (.inr i)) := by
      rw [hs, ht, hxr, hyr]
      simp [Complex.normSq_apply]; ring
    have := Complex.normSq_nonneg (kx i * a (.inl i) + ky i * a (.inr i))
    linarith
  rcases eq_or_lt_of_le (by positivity : 0 ≤ x ^ 2 + y ^ 2) with hk | hk
  · have ht1 : t = 0 := by rw [← hk] at hts; linarith
    rw [ht1]
    have : ω⁻¹ * q⁻¹ * (ω ^ 2 * (s : ℂ) - 1 / ε * ((0 : ℝ) : ℂ)) = ω / q * (s : ℂ) := by
      push_cast; field_simp; ring
    rw [this, Complex.re_mul_ofReal]
    exact mul_nonneg h1 hs0
  · have hkc : ((x ^ 2 + y ^ 2 : ℝ) : ℂ) ≠ 0 := by exact_mod_cast hk.ne'
    have : ω⁻¹ * q⁻¹ * (ω ^ 2 * (s : ℂ) - 1 / ε * (t : ℂ)) =
        ω / q * ((s - t / (x ^ 2 + y ^ 2) : ℝ) : ℂ) + q / ω * ((t / (x ^ 2 + y ^ 2) / ε : ℝ) : ℂ) := by
      rw [hxr, hyr] at hq2
      push_cast at hkc ⊢
      have e : q / ω = (ε * ω ^ 2 - x ^ 2 - y ^ 2) / (q * ω) := by rw [← hq2]; field_simp
      rw [e]
      field_simp
      ring
    rw [this, Complex.add_re, Complex.re_mul_ofReal, Complex.re_mul_ofReal]
    refine add_nonneg (mul_nonneg h1 ?_) (mul_nonneg h2 (by positivity))
    rw [sub_nonneg, div_le_iff₀ hk]; linarith

end Nidn
