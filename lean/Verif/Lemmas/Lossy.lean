/-
A slightly absorbing grating of two pixels in vacuum with two retained orders: the witness that the reflectance of a pattern jumps where the
permittivity filter switches a Fourier coefficient on. The same grating as `Lemmas/Grating.lean`, with a complex mean and a complex coefficient.
-/
import Verif.Lemmas.Grating
import Verif.Lemmas.Symmetry

namespace Nidn

open Matrix

noncomputable section

/-- a grating of two pixels with mean `m` and coefficient `c` -/
def lossyPattern (m c : ℂ) : Fin 2 → Fin 1 → ℂ := fun i _ => if i = 0 then m + c else m - c

variable {m c e : ℂ}

lemma lossy_coeff (m c : ℂ) (d : ℤ) : fourierCoeff (lossyPattern m c) (d, 0) = ((m + c) + (m - c) * (-1) ^ d) / 2 := by
  have h : Complex.exp (-(2 * Real.pi * Complex.I) * (1 * d / 2)) = (-1) ^ d := by
    rw [show -(2 * Real.pi * Complex.I) * (1 * d / 2) = d * (-(2 * Real.pi * Complex.I) * (1 / 2)) by ring, Complex.exp_int_mul, exp_neg_pi_I]
  rw [fourierCoeff, Fin.sum_univ_two]
  simp only [Finset.univ_unique, Finset.sum_singleton, lossyPattern, Fin.default_eq_zero, Fin.val_zero, Fin.val_one, if_true]
  rw [if_neg (by decide)]
  have e : Complex.exp (-(2 * Real.pi * Complex.I) * (((1 : ℕ) : ℂ) * ((d, (0 : ℤ)).1 : ℤ) / ((2 : ℕ) : ℂ) + ((0 : ℕ) : ℂ) * ((d, (0 : ℤ)).2 : ℤ) / ((1 : ℕ) : ℂ))) =
      (-1) ^ d := by
    rw [← h]; congr 1; push_cast; ring
  rw [e]
  simp
  ring

def lossyC (m c : ℂ) : Matrix (Fin 2) (Fin 2) ℂ := !![m, c; c, m]

def lossyInv (m c : ℂ) : Matrix (Fin 2) (Fin 2) ℂ := (m ^ 2 - c ^ 2)⁻¹ • !![m, -c; -c, m]

lemma lossy_inv (hc : m ^ 2 - c ^ 2 ≠ 0) : (lossyC m c)⁻¹ = lossyInv m c := by
  apply inv_eq_left_inv
  ext i j
  fin_cases i <;> fin_cases j <;> simp [lossyC, lossyInv, Matrix.mul_apply, Fin.sum_univ_two] <;> field_simp <;> ring

lemma lossy_unit (hc : m ^ 2 - c ^ 2 ≠ 0) : IsUnit (lossyC m c).det := by
  rw [lossyC, det_fin_two_of, isUnit_iff_ne_zero]
  intro h; apply hc; linear_combination h

lemma lossy_fft (hc : m ^ 2 - c ^ 2 ≠ 0) (hm : zeroSmall m = m) (he : zeroSmall c = e) :
    epsilonFft (1 / (2 : ℕ) / (1 : ℕ)) (.iso (lossyPattern m c)) litOrders = .ok (lossyInv m c, fromBlocks (lossyC m e) 0 0 (lossyC m e)) := by
  obtain ⟨C, h1, h2⟩ := (C15_entries (lossyPattern m c) litOrders).1 lit_resolved
  have hC : C = lossyC m c := by
    ext i j
    rw [h2]
    have z : ((0 : ℤ × ℤ)) = (0, 0) := rfl
    fin_cases i <;> fin_cases j <;> simp [litOrders, lossyC, z, lossy_coeff]
    · ring
    · ring
  have z0 : zeroSmall 0 = 0 := by simp [zeroSmall]
  simp only [epsilonFft]
  rw [h1, ok_bind, hC, torchInverse, if_pos (lossy_unit hc), ok_bind, lossy_inv hc]
  congr 2
  rw [fromBlocks_map, Matrix.map_zero _ z0]
  congr 1 <;> ext i j <;> fin_cases i <;> fin_cases j <;> simp [lossyC, he, hm]

/-- the eigenvalues of `kp` -/
def lossyMu (m c : ℂ) : Fin 2 ⊕ Fin 2 → ℂ := Sum.elim ![169, 169] ![169 - 144 / (m - c), 169 - 144 / (m + c)]

/-- the other factor of the squares of the propagation constants -/
def lossyEps (m e : ℂ) : Fin 2 ⊕ Fin 2 → ℂ := Sum.elim ![m + e - 144 / 169, m - e - 144 / 169] ![m + e, m - e]

/-- the squares of the propagation constants -/
def lossyLam (m c e : ℂ) (i : Fin 2 ⊕ Fin 2) : ℂ := lossyEps m e i * lossyMu m c i

/-- the magnetic block of `kp` -/
def lossyB (m c : ℂ) : Matrix (Fin 2) (Fin 2) ℂ := (169 : ℂ) • 1 - (144 / (m ^ 2 - c ^ 2)) • lossyC m c

lemma lossy_kp (m c : ℂ) : kpPatterned 13 (lossyInv m c) litKx litKy = fromBlocks ((169 : ℂ) • 1) 0 0 (lossyB m c) := by
  have hj : jkMat litKx litKy = fromRows 0 (diagonal ![12, -12]) := by
    rw [jkMat, litKx_eq, litKy_eq]; congr 1; ext i j; simp
  have hB : diagonal ![12, -12] * lossyInv m c * diagonal ![12, -12] = (144 / (m ^ 2 - c ^ 2)) • lossyC m c := by
    ext i j
    rw [Matrix.mul_diagonal, Matrix.diagonal_mul]
    fin_cases i <;> fin_cases j <;> simp [lossyInv, lossyC] <;> ring
  rw [kpPatterned, hj, Matrix.transpose_fromRows, Matrix.fromRows_mul, Matrix.fromRows_mul_fromCols, Matrix.diagonal_transpose, hB, Matrix.zero_mul,
    Matrix.transpose_zero, Matrix.mul_zero, Matrix.mul_zero, Matrix.zero_mul, ← Matrix.fromBlocks_one, Matrix.fromBlocks_smul, lossyB]
  rw [sub_eq_add_neg, Matrix.fromBlocks_neg, Matrix.fromBlocks_add]
  norm_num
  rw [← sub_eq_add_neg]

lemma lossy_kp_eig (e1 : m - c ≠ 0) (e2 : m + c ≠ 0) :
    kpPatterned 13 (lossyInv m c) litKx litKy * litPhi = litPhi * diagonal (lossyMu m c) := by
  have e3 : m ^ 2 - c ^ 2 ≠ 0 := by rw [show m ^ 2 - c ^ 2 = (m - c) * (m + c) by ring]; exact mul_ne_zero e1 e2
  rw [lossy_kp, litPhi, Matrix.fromBlocks_multiply]
  ext (i | i) (j | j)
  · rw [Matrix.mul_diagonal]
    fin_cases i <;> fin_cases j <;> simp [litV, lossyMu]
  · rw [Matrix.mul_diagonal]; simp
  · rw [Matrix.mul_diagonal]; simp
  · rw [Matrix.mul_diagonal]
    fin_cases i <;> fin_cases j <;> simp [litV, lossyMu, lossyB, lossyC, Matrix.mul_apply, Fin.sum_univ_two] <;> field_simp <;> ring

lemma lossy_eig (e : ℂ) (e1 : m - c ≠ 0) (e2 : m + c ≠ 0) :
    IsEig (eigenMat (fromBlocks (lossyC m e) 0 0 (lossyC m e)) (kpPatterned 13 (lossyInv m c) litKx litKy) litKx litKy) (lossyLam m c e) litPhi := by
  have hk : kMat litKx litKy * (kMat litKx litKy).transpose = fromBlocks ((144 : ℂ) • 1) 0 0 0 := by
    have hk : kMat litKx litKy = fromRows (diagonal ![12, -12]) 0 := by
      rw [kMat, litKx_eq, litKy_eq]; congr 1; ext i j; simp
    rw [hk, Matrix.transpose_fromRows, Matrix.fromRows_mul_fromCols, Matrix.diagonal_transpose, Matrix.diagonal_mul_diagonal, Matrix.transpose_zero,
      Matrix.mul_zero, Matrix.zero_mul, Matrix.mul_zero]
    congr 1
    ext i j
    fin_cases i <;> fin_cases j <;> norm_num [Matrix.diagonal_apply]
  rw [IsEig, eigenMat, Matrix.sub_mul, Matrix.mul_assoc, lossy_kp_eig e1 e2, hk]
  ext (i | i) (j | j)
  · rw [Matrix.mul_diagonal, ← Matrix.mul_assoc, Matrix.sub_apply, Matrix.mul_diagonal, litPhi, Matrix.fromBlocks_multiply, Matrix.fromBlocks_multiply]
    fin_cases i <;> fin_cases j <;> simp [litV, lossyMu, lossyLam, lossyEps, lossyC] <;> ring
  · rw [Matrix.mul_diagonal, ← Matrix.mul_assoc, Matrix.sub_apply, Matrix.mul_diagonal, litPhi, Matrix.fromBlocks_multiply, Matrix.fromBlocks_multiply]
    simp
  · rw [Matrix.mul_diagonal, ← Matrix.mul_assoc, Matrix.sub_apply, Matrix.mul_diagonal, litPhi, Matrix.fromBlocks_multiply, Matrix.fromBlocks_multiply]
    simp
  · rw [Matrix.mul_diagonal, ← Matrix.mul_assoc, Matrix.sub_apply, Matrix.mul_diagonal, litPhi, Matrix.fromBlocks_multiply, Matrix.fromBlocks_multiply]
    fin_cases i <;> fin_cases j <;> simp [litV, lossyMu, lossyLam, lossyEps, lossyC] <;> ring_nf <;> simp

/-! ### the layer, and that the solver answers -/

def lossySlab (m c e : ℂ) : LayerData (Fin 2 ⊕ Fin 2) := patternedLayer 13 litKx litKy (lossyInv m c) (lossyLam m c e) litPhi (Real.pi / 2)

/-- the parameters of the grating: mean `m` and coefficient `c` of the pattern, and what the filter makes of the coefficient -/
structure LossyCase (m c e : ℂ) : Prop where
  mean : zeroSmall m = m
  filter : zeroSmall c = e
  ne1 : m - c ≠ 0
  ne2 : m + c ≠ 0
  eps : ∀ i, 0 < (lossyEps m e i).re ∧ 0 ≤ (lossyEps m e i).im
  mu : ∀ i, 0 < (lossyMu m c i).re ∧ 0 ≤ (lossyMu m c i).im
  im1 : 0 ≤ (m + c).im
  im2 : 0 ≤ (m - c).im

lemma LossyCase.sq_ne (h : LossyCase m c e) : m ^ 2 - c ^ 2 ≠ 0 := by
  rw [show m ^ 2 - c ^ 2 = (m - c) * (m + c) by ring]; exact mul_ne_zero h.ne1 h.ne2

lemma lossySlab_q (m c e : ℂ) (i : Fin 2 ⊕ Fin 2) : (lossySlab m c e).q i = branchQ (csqrt (lossyLam m c e i)) := rfl

/-- the impedance of a wave in a passive medium has a positive real part -/
lemma impedance_pos {ε μ : ℂ} (h1 : 0 < ε.re) (h2 : 0 ≤ ε.im) (h3 : 0 < μ.re) (h4 : 0 ≤ μ.im) : 0 < (μ / branchQ (csqrt (ε * μ))).re := by
  set q := branchQ (csqrt (ε * μ)) with hq
  have hqs : q ^ 2 = ε * μ := by rw [hq, branchQ_sq, csqrt_sq]
  have hε : ε ≠ 0 := by rintro rfl; simp at h1
  have hμ : μ ≠ 0 := by rintro rfl; simp at h3
  have hq0 : q ≠ 0 := by
    intro h; rw [h] at hqs
    exact mul_ne_zero hε hμ (by rw [← hqs]; simp)
  have him : 0 ≤ q.im := branchQ_im _
  set w := μ / q with hw
  have e1 : q = ε * w := by rw [hw]; field_simp; exact hqs
  have e2 : μ = q * w := by rw [hw]; field_simp
  by_contra hneg
  rw [not_lt] at hneg
  have r1 : q.re = ε.re * w.re - ε.im * w.im := by rw [e1, Complex.mul_re]
  have r2 : q.im = ε.re * w.im + ε.im * w.re := by rw [e1, Complex.mul_im]
  have r3 : μ.re = q.re * w.re - q.im * w.im := by rw [e2, Complex.mul_re]
  have r4 : μ.im = q.re * w.im + q.im * w.re := by rw [e2, Complex.mul_im]
  have w1 : 0 ≤ w.im := by
    have : 0 ≤ ε.re * w.im := by nlinarith
    exact (mul_nonneg_iff_of_pos_left h1).1 this
  have q1 : q.re ≤ 0 := by
    rw [r1]; nlinarith [mul_nonneg h2 w1]
  have z1 : q.re * w.im ≤ 0 := mul_nonpos_of_nonpos_of_nonneg q1 w1
  have z2 : q.im * w.re ≤ 0 := mul_nonpos_of_nonneg_of_nonpos him hneg
  have z3 : q.re * w.im = 0 := by linarith
  have z4 : q.im * w.re = 0 := by linarith
  rcases mul_eq_zero.1 z4 with h | h
  · have := branchQ_axis (ε * μ) h
    have hr : q.re = 0 := le_antisymm q1 this
    exact hq0 (Complex.ext hr h)
  · -- a purely imaginary impedance would make the real part of `μ` non-positive
    rw [h, mul_zero, zero_sub] at r3
    have := mul_nonneg him w1
    linarith

lemma LossyCase.q_ne (h : LossyCase m c e) (i : Fin 2 ⊕ Fin 2) : (lossySlab m c e).q i ≠ 0 := by
  intro h0
  have := impedance_pos (h.eps i).1 (h.eps i).2 (h.mu i).1 (h.mu i).2
  rw [lossySlab_q, lossyLam] at h0
  rw [h0, div_zero] at this
  simp at this

lemma lossySlab_regular (h : LossyCase m c e) : (lossySlab m c e).Regular := by
  refine ⟨litPhi_unit, ?_, h.q_ne⟩
  have hk := congrArg Matrix.det (lossy_kp_eig h.ne1 h.ne2)
  rw [Matrix.det_mul, Matrix.det_mul, mul_comm, Matrix.det_diagonal] at hk
  have := mul_left_cancel₀ litPhi_unit.ne_zero hk
  show IsUnit (kpPatterned 13 (lossyInv m c) litKx litKy).det
  rw [this, isUnit_iff_ne_zero]
  refine Finset.prod_ne_zero_iff.2 fun i _ h0 => ?_
  have := (h.mu i).1
  rw [h0] at this
  simp at this

lemma lossySlab_e (h : LossyCase m c e) (a b : Fin 2 ⊕ Fin 2 → ℂ) :
    (lossySlab m c e).eTan a b = litPhi *ᵥ fun i => lossyMu m c i / (lossySlab m c e).q i * (a i - b i) := by
  show kpPatterned 13 (lossyInv m c) litKx litKy *ᵥ (litPhi *ᵥ _) = _
  rw [Matrix.mulVec_mulVec, lossy_kp_eig h.ne1 h.ne2, ← Matrix.mulVec_mulVec]
  congr 1
  ext i
  rw [Matrix.mulVec_diagonal]
  ring

/-- the waves that travel into the grating carry power forward -/
lemma lossySlab_flux (h : LossyCase m c e) (a : Fin 2 ⊕ Fin 2 → ℂ) :
    0 ≤ layerFlux 13 (lossySlab m c e) a 0 ∧ (a ≠ 0 → 0 < layerFlux 13 (lossySlab m c e) a 0) := by
  have hf : layerFlux 13 (lossySlab m c e) a 0 = ∑ i, 2 / 13 * (lossyMu m c i / (lossySlab m c e).q i).re * Complex.normSq (a i) := by
    have hh : (lossySlab m c e).hTan a 0 = litPhi *ᵥ a := by rw [LayerData.hTan, add_zero]; rfl
    rw [layerFlux, poynting, lossySlab_e h, hh, ← Matrix.mulVec_smul, litPhi_dot, dotProduct, Finset.mul_sum, Complex.re_sum]
    refine Finset.sum_congr rfl fun i _ => ?_
    have h13 : (starRingEnd ℂ) (13 : ℂ) = 13 := Complex.conj_ofNat 13
    set z := lossyMu m c i / (lossySlab m c e).q i with hz
    have e1 : (2 : ℂ) * (star ((13 : ℂ)⁻¹ • fun j => lossyMu m c j / (lossySlab m c e).q j * (a j - (0 : Fin 2 ⊕ Fin 2 → ℂ) j)) i * a i) =
        ((2 / 13 * Complex.normSq (a i) : ℝ) : ℂ) * (starRingEnd ℂ) z := by
      simp only [Pi.star_apply, Pi.smul_apply, smul_eq_mul, Complex.star_def, map_mul, map_inv₀, h13, Pi.zero_apply, sub_zero, ← hz]
      push_cast
      rw [Complex.normSq_eq_conj_mul_self]
      ring
    rw [e1, Complex.re_ofReal_mul, Complex.conj_re]
    ring
  have hk : ∀ i, 0 < 2 / 13 * (lossyMu m c i / (lossySlab m c e).q i).re := fun i => by
    have := impedance_pos (h.eps i).1 (h.eps i).2 (h.mu i).1 (h.mu i).2
    rw [lossySlab_q, lossyLam]
    positivity
  rw [hf]
  constructor
  · exact Finset.sum_nonneg fun i _ => mul_nonneg (hk i).le (Complex.normSq_nonneg _)
  · intro ha
    obtain ⟨i, hi⟩ := Function.ne_iff.1 ha
    exact Finset.sum_pos' (fun i _ => mul_nonneg (hk i).le (Complex.normSq_nonneg _))
      ⟨i, Finset.mem_univ _, mul_pos (hk i) (Complex.normSq_pos.2 hi)⟩

lemma lossyC_passive (h1 : 0 ≤ (m + e).im) (h2 : 0 ≤ (m - e).im) (y : Fin 2 → ℂ) : 0 ≤ (star y ⬝ᵥ (lossyC m e *ᵥ y)).im := by
  have key : (star y ⬝ᵥ (lossyC m e *ᵥ y)).im =
      ((m + e).im * Complex.normSq (y 0 + y 1) + (m - e).im * Complex.normSq (y 0 - y 1)) / 2 := by
    simp [lossyC, dotProduct, Fin.sum_univ_two, Matrix.mulVec, Complex.normSq_apply]
    ring
  rw [key]
  have := mul_nonneg h1 (Complex.normSq_nonneg (y 0 + y 1))
  have := mul_nonneg h2 (Complex.normSq_nonneg (y 0 - y 1))
  positivity

lemma LossyCase.eps_im (h : LossyCase m c e) : 0 ≤ (m + e).im ∧ 0 ≤ (m - e).im := ⟨(h.eps (.inr 0)).2, (h.eps (.inr 1)).2⟩

lemma lossySlab_through_flux (h : LossyCase m c e) (a b : Fin 2 ⊕ Fin 2 → ℂ) :
    layerFlux 13 (lossySlab m c e) ((lossySlab m c e).through a) b ≤ layerFlux 13 (lossySlab m c e) a ((lossySlab m c e).through b) := by
  refine flux_le (ω := 13) (kx := litKx) (ky := litKy) (ep2 := fromBlocks (lossyC m e) 0 0 (lossyC m e)) (epinv := lossyInv m c)
    ⟨by norm_num, litKx_real, litKy_real, rfl, ?_, h.q_ne⟩ ⟨by norm_num, fun x => ?_, fun y => ?_⟩ (by show 0 ≤ Real.pi / 2; positivity) a b
  · have := lossy_eig e h.ne1 h.ne2
    rw [IsEig] at this
    show _ * litPhi = litPhi * _
    rw [show (lossySlab m c e).kp = kpPatterned 13 (lossyInv m c) litKx litKy from rfl, this]
    congr 2
    ext i
    rw [lossySlab_q, branchQ_sq, csqrt_sq]
  · rw [block_form, show (13 : ℂ) = ((13 : ℝ) : ℂ) by norm_num, Complex.im_ofReal_mul, Complex.add_im]
    have := lossyC_passive h.eps_im.1 h.eps_im.2 fun i => x (.inl i)
    have := lossyC_passive h.eps_im.1 h.eps_im.2 fun i => x (.inr i)
    positivity
  · rw [← lossy_inv h.sq_ne, inv_form_im (lossy_unit h.sq_ne), neg_div, neg_nonpos]
    refine div_nonneg ?_ (Complex.normSq_nonneg _)
    rw [show (13 : ℂ) = ((13 : ℝ) : ℂ) by norm_num, Complex.im_ofReal_mul]
    have := lossyC_passive h.im1 h.im2 ((lossyC m c)⁻¹ *ᵥ y)
    positivity

lemma lossy_ok (h : LossyCase m c e) (norm : ℝ) (a0 : Fin 2 ⊕ Fin 2 → ℂ) :
    ∃ R T, rtForward 13 norm [litFront, lossySlab m c e, litFront] a0 0 = .ok (R, T) := by
  have hreg : ∀ M ∈ [litFront, lossySlab m c e, litFront], M.Regular := by
    intro M hM
    simp only [List.mem_cons, List.not_mem_nil, or_false] at hM
    rcases hM with rfl | rfl | rfl
    exacts [litFront_regular, lossySlab_regular h, litFront_regular]
  obtain ⟨S, hS⟩ := getSMatrix_ok litFront [lossySlab m c e, litFront] hreg fun q hq hpre b0 aN hs => by
    have hsub : ∀ M ∈ litFront :: q, M = litFront ∨ M = lossySlab m c e := by
      intro M hM
      rcases List.mem_cons.1 hM with rfl | hM
      · exact .inl rfl
      · have := hpre.subset hM
        simp only [List.mem_cons, List.not_mem_nil, or_false] at this
        tauto
    refine no_source_free (ω := 13) hq (fun M hM => ?_) (fun M hM a b => ?_) hs
    · rcases hsub M hM with rfl | rfl
      exacts [litFront_flux, lossySlab_flux h]
    · rcases hsub M (List.mem_cons_of_mem _ hM) with rfl | rfl
      exacts [(litFront_through_flux a b).le, lossySlab_through_flux h a b]
  exact rt_ok (mids := [lossySlab m c e]) hS a0 0

lemma lossy_built (h : LossyCase m c e) : Built 13 litKx litKy litOrders (.patterned (lossyPattern m c) (Real.pi / 2)) (lossySlab m c e) :=
  .patterned _ _ (lossyInv m c) (fromBlocks (lossyC m e) 0 0 (lossyC m e)) (lossy_fft h.sq_ne h.mean h.filter) _ _ (lossy_eig e h.ne1 h.ne2) litPhi_unit

end

end Nidn
