/-
Square-root branch facts, and the layers produced by the code as Maxwell layers: uniform and patterned, passive and lossless.
-/
import Verif.Lemmas.Energy
import Verif.Props.Conv
import Mathlib.Tactic.Linarith
import Mathlib.Tactic.Ring
import Mathlib.Tactic.FieldSimp
import Mathlib.Tactic.Positivity

set_option linter.unusedSectionVars false

namespace Nidn

open Matrix

/-! ### the square root -/

lemma csqrt_sq (z : ℂ) : csqrt z ^ 2 = z := by
  have := Complex.cpow_nat_inv_pow z (n := 2) (by norm_num)
  rw [csqrt, show (1 / 2 : ℂ) = ((2 : ℕ) : ℂ)⁻¹ by norm_num]
  exact this

lemma branchQ_sq (z : ℂ) : branchQ z ^ 2 = z ^ 2 := by
  unfold branchQ; split <;> ring

lemma branchQ_im (z : ℂ) : 0 ≤ (branchQ z).im := by
  unfold branchQ; split
  · rename_i h; rw [Complex.neg_im]; linarith
  · rename_i h; linarith

lemma csqrt_re_nonneg (z : ℂ) : 0 ≤ (csqrt z).re := by
  rcases eq_or_ne z 0 with rfl | h
  · rw [csqrt, Complex.zero_cpow (by norm_num)]; simp
  · rw [csqrt, Complex.cpow_def_of_ne_zero h, Complex.exp_re]
    refine mul_nonneg (Real.exp_pos _).le (Real.cos_nonneg_of_mem_Icc ?_)
    have h1 := Complex.neg_pi_lt_arg z
    have h2 := Complex.arg_le_pi z
    have : (Complex.log z * (1 / 2)).im = z.arg / 2 := by
      rw [show (1 / 2 : ℂ) = ((1 / 2 : ℝ) : ℂ) by norm_num, Complex.im_mul_ofReal, Complex.log_im]; ring
    rw [this]; constructor <;> linarith

lemma csqrt_im_nonneg (z : ℂ) (hz : 0 ≤ z.im) : 0 ≤ (csqrt z).im := by
  rcases eq_or_ne z 0 with rfl | h
  · rw [csqrt, Complex.zero_cpow (by norm_num)]; simp
  · rw [csqrt, Complex.cpow_def_of_ne_zero h, Complex.exp_im]
    refine mul_nonneg (Real.exp_pos _).le (Real.sin_nonneg_of_mem_Icc ?_)
    have h1 := Complex.arg_nonneg_iff.2 hz
    have h2 := Complex.arg_le_pi z
    have : (Complex.log z * (1 / 2)).im = z.arg / 2 := by
      rw [show (1 / 2 : ℂ) = ((1 / 2 : ℝ) : ℂ) by norm_num, Complex.im_mul_ofReal, Complex.log_im]; ring
    rw [this]; constructor <;> linarith [Real.pi_pos]

lemma branchQ_csqrt_re (z : ℂ) (hz : 0 ≤ z.im) : 0 ≤ (branchQ (csqrt z)).re := by
  unfold branchQ
  rw [if_neg (not_lt.2 (csqrt_im_nonneg z hz))]
  exact csqrt_re_nonneg z

/-- the branch picks `w` itself when `w` is in the closed upper half of the right half-plane -/
lemma branchQ_csqrt_of_sq (w : ℂ) (h : 0 < w.re) (h' : 0 ≤ w.im) : branchQ (csqrt (w ^ 2)) = w := by
  have : csqrt (w ^ 2) = w := by
    rw [csqrt, show (1 / 2 : ℂ) = 2⁻¹ by norm_num]
    exact Complex.sq_cpow_two_inv h
  rw [this, branchQ, if_neg (not_lt.2 h')]

section

variable {κ : Type} [Fintype κ] [DecidableEq κ]

lemma qUniform_sq (ω ε : ℂ) (kx ky : κ → ℂ) (i : κ) :
    qUniform ω ε kx ky (.inl i) ^ 2 = ε * ω ^ 2 - kx i ^ 2 - ky i ^ 2 ∧
    qUniform ω ε kx ky (.inr i) ^ 2 = ε * ω ^ 2 - kx i ^ 2 - ky i ^ 2 := by
  constructor <;> simp only [qUniform, Sum.elim_inl, Sum.elim_inr, branchQ_sq, csqrt_sq]

lemma kpUniform_eq (ω e : ℂ) (kx ky : κ → ℂ) : kpUniform ω e kx ky = kpPatterned ω (e • (1 : Matrix κ κ ℂ)) kx ky := by
  rw [kpUniform, kpPatterned, Matrix.mul_smul, Matrix.mul_one, Matrix.smul_mul]

lemma JJ_kk (kx ky : κ → ℂ) : jkMat kx ky * (jkMat kx ky).transpose + kMat kx ky * (kMat kx ky).transpose =
    diagonal (Sum.elim (fun i => kx i ^ 2 + ky i ^ 2) (fun i => kx i ^ 2 + ky i ^ 2)) := by
  rw [kMat, jkMat, Matrix.transpose_fromRows, Matrix.transpose_fromRows, Matrix.fromRows_mul_fromCols, Matrix.fromRows_mul_fromCols,
    Matrix.fromBlocks_add]
  simp only [Matrix.diagonal_transpose, Matrix.diagonal_mul_diagonal, Matrix.diagonal_add]
  ext (i | i) (j | j)
  · rw [Matrix.fromBlocks_apply₁₁, Matrix.diagonal_apply, Matrix.diagonal_apply]; simp; congr 1; ring
  · rw [Matrix.fromBlocks_apply₁₂, Matrix.diagonal_apply, Matrix.diagonal_apply]; simp; intro _; ring
  · rw [Matrix.fromBlocks_apply₂₁, Matrix.diagonal_apply, Matrix.diagonal_apply]; simp; intro _; ring
  · rw [Matrix.fromBlocks_apply₂₂, Matrix.diagonal_apply, Matrix.diagonal_apply]; simp; congr 1; ring

/-- the modes of a uniform layer solve the eigenvalue equation of the patterned layers -/
lemma uniform_eig {ω : ℂ} (kx ky : κ → ℂ) {ε : ℂ} (hε : ε ≠ 0) (d : ℝ) :
    eigenMat (ε • (1 : Matrix (κ ⊕ κ) (κ ⊕ κ) ℂ)) (uniformLayer ω kx ky ε d).kp kx ky * (uniformLayer ω kx ky ε d).phi =
      (uniformLayer ω kx ky ε d).phi * diagonal fun m => (uniformLayer ω kx ky ε d).q m ^ 2 := by
  have h1 : (uniformLayer ω kx ky ε d).kp = kpUniform ω (1 / ε) kx ky := rfl
  have h2 : (uniformLayer ω kx ky ε d).phi = 1 := rfl
  rw [h1, h2, Matrix.mul_one, Matrix.one_mul, eigenMat, kpUniform, Matrix.smul_mul, Matrix.one_mul, smul_sub, smul_smul, smul_smul,
    mul_one_div_cancel hε, one_smul, sub_sub, JJ_kk]
  ext (i | i) (j | j) <;>
    simp only [Matrix.sub_apply, Matrix.smul_apply, Matrix.one_apply, Matrix.diagonal_apply, Sum.inl.injEq, Sum.inr.injEq, reduceCtorEq,
      if_false, sub_zero, smul_eq_mul, mul_zero]
  · split
    · rename_i h; subst h
      have := (qUniform_sq ω ε kx ky i).1
      simp only [uniformLayer, this, Sum.elim_inl]; ring
    · simp
  · split
    · rename_i h; subst h
      have := (qUniform_sq ω ε kx ky i).2
      simp only [uniformLayer, this, Sum.elim_inr]; ring
    · simp

/-- the uniform layers of the code solve the layer equations -/
lemma uniform_maxwell {ω : ℂ} (hω : ω ≠ 0) {kx ky : κ → ℂ} (hx : ∀ i, (kx i).im = 0) (hy : ∀ i, (ky i).im = 0) {ε : ℂ} (hε : ε ≠ 0)
    (d : ℝ) (hq : ∀ m, (uniformLayer ω kx ky ε d).q m ≠ 0) :
    MaxwellLayer ω kx ky (ε • (1 : Matrix (κ ⊕ κ) (κ ⊕ κ) ℂ)) ((1 / ε) • (1 : Matrix κ κ ℂ)) (uniformLayer ω kx ky ε d) where
  hω := hω
  realx := hx
  realy := hy
  kp := kpUniform_eq _ _ _ _
  eig := uniform_eig kx ky hε d
  q := hq

lemma patterned_maxwell {ω : ℂ} (hω : ω ≠ 0) {kx ky : κ → ℂ} (hx : ∀ i, (kx i).im = 0) (hy : ∀ i, (ky i).im = 0)
    {ep2 : Matrix (κ ⊕ κ) (κ ⊕ κ) ℂ} {epinv : Matrix κ κ ℂ} {lam : κ ⊕ κ → ℂ} {phi : Matrix (κ ⊕ κ) (κ ⊕ κ) ℂ}
    (he : IsEig (eigenMat ep2 (kpPatterned ω epinv kx ky) kx ky) lam phi) (d : ℝ)
    (hq : ∀ m, (patternedLayer ω kx ky epinv lam phi d).q m ≠ 0) :
    MaxwellLayer ω kx ky ep2 epinv (patternedLayer ω kx ky epinv lam phi d) where
  hω := hω
  realx := hx
  realy := hy
  kp := rfl
  eig := by
    simp only [patternedLayer, branchQ_sq, csqrt_sq]
    exact he
  q := hq

lemma scalar_form {ι : Type} [Fintype ι] [DecidableEq ι] (c : ℂ) (x : ι → ℂ) :
    star x ⬝ᵥ ((c • (1 : Matrix ι ι ℂ)) *ᵥ x) = c * (sqNorm x : ℂ) := by
  rw [Matrix.smul_mulVec, Matrix.one_mulVec, dotProduct_smul, star_dot_self, smul_eq_mul]; rfl

lemma uniform_passive {ω ε : ℂ} (hi : 0 ≤ ω.im) (h : 0 ≤ (ω * ε).im) :
    PassiveMats ω (ε • (1 : Matrix (κ ⊕ κ) (κ ⊕ κ) ℂ)) ((1 / ε) • (1 : Matrix κ κ ℂ)) where
  im := hi
  ep2 e := by
    rw [scalar_form, ← mul_assoc, Complex.im_mul_ofReal]
    exact mul_nonneg h (sqNorm_nonneg _)
  epinv y := by
    rw [scalar_form, ← mul_assoc, Complex.im_mul_ofReal, one_div, ← mul_inv, Complex.inv_im]
    refine mul_nonpos_of_nonpos_of_nonneg ?_ (sqNorm_nonneg _)
    exact div_nonpos_of_nonpos_of_nonneg (by linarith) (Complex.normSq_nonneg _)

lemma uniform_lossless {ω ε : ℂ} (hi : ω.im = 0) (h : ε.im = 0) :
    LosslessMats ω (ε • (1 : Matrix (κ ⊕ κ) (κ ⊕ κ) ℂ)) ((1 / ε) • (1 : Matrix κ κ ℂ)) where
  im := hi
  ep2 e := by
    rw [scalar_form, ← mul_assoc, Complex.im_mul_ofReal, Complex.mul_im, hi, h]; ring
  epinv y := by
    rw [scalar_form, ← mul_assoc, Complex.im_mul_ofReal, one_div, ← mul_inv, Complex.inv_im, Complex.mul_im, hi, h]; simp

/-! ### quadratic form of the convolution matrix -/

/-- the two blocks -/
lemma block_form (C : Matrix κ κ ℂ) (e : κ ⊕ κ → ℂ) : star e ⬝ᵥ ((fromBlocks C 0 0 C) *ᵥ e) =
    star (fun i => e (.inl i)) ⬝ᵥ (C *ᵥ fun i => e (.inl i)) + star (fun i => e (.inr i)) ⬝ᵥ (C *ᵥ fun i => e (.inr i)) := by
  rw [Matrix.fromBlocks_mulVec]
  simp only [dotProduct, Fintype.sum_sum_type, Sum.elim_inl, Sum.elim_inr, Matrix.zero_mulVec, add_zero, zero_add, Pi.star_apply]
  rfl

lemma inv_form_im {ω : ℂ} {C : Matrix κ κ ℂ} (hC : IsUnit C.det) (y : κ → ℂ) :
    (ω⁻¹ * (star y ⬝ᵥ (C⁻¹ *ᵥ y))).im = -(ω * (star (C⁻¹ *ᵥ y) ⬝ᵥ (C *ᵥ (C⁻¹ *ᵥ y)))).im / Complex.normSq ω := by
  have h1 : C *ᵥ (C⁻¹ *ᵥ y) = y := by rw [Matrix.mulVec_mulVec, Matrix.mul_nonsing_inv _ hC, Matrix.one_mulVec]
  rw [h1]
  have h2 : star y ⬝ᵥ (C⁻¹ *ᵥ y) = star (star (C⁻¹ *ᵥ y) ⬝ᵥ y) := by
    rw [star_dotProduct]
  rw [h2]
  generalize star (C⁻¹ *ᵥ y) ⬝ᵥ y = z
  rw [Complex.inv_def, mul_right_comm, Complex.im_mul_ofReal, div_eq_mul_inv]
  congr 1
  simp [Complex.mul_im]; ring

/-- the quadratic form of a convolution matrix is a sum over the pixels, with weights that do not depend on the pattern -/
lemma conv_weights {Nx Ny n : ℕ} (G : Fin n → ℤ × ℤ) (x : Fin n → ℂ) :
    ∃ w : Fin Nx → Fin Ny → ℝ, (∀ a b, 0 ≤ w a b) ∧ ∀ (s : Fin Nx → Fin Ny → ℂ) (C : Matrix (Fin n) (Fin n) ℂ), (∀ i j, C i j = fourierCoeff s (G i - G j)) →
      star x ⬝ᵥ (C *ᵥ x) = ∑ a, ∑ b, s a b * (w a b : ℂ) := by
  set ph : Fin Nx → Fin Ny → Fin n → ℂ := fun a b i =>
    Complex.exp ((2 * Real.pi * Complex.I) * ((a : ℕ) * (G i).1 / Nx + (b : ℕ) * (G i).2 / Ny)) with hph
  refine ⟨fun a b => 1 / (Nx * Ny) * Complex.normSq (∑ i, x i * ph a b i), fun a b => by positivity [Complex.normSq_nonneg (∑ i, x i * ph a b i)], fun s C hC => ?_⟩
  have hconj : ∀ a b i, star (ph a b i) = Complex.exp (-(2 * Real.pi * Complex.I) * ((a : ℕ) * (G i).1 / Nx + (b : ℕ) * (G i).2 / Ny)) := by
    intro a b i
    rw [hph]
    change (starRingEnd ℂ) _ = _
    rw [← Complex.exp_conj]
    congr 1
    simp only [map_mul, map_add, map_div₀, Complex.conj_ofReal, Complex.conj_I, map_natCast, map_intCast, map_ofNat]
    ring
  have hterm : ∀ i j, C i j = ∑ a, ∑ b, 1 / (Nx * Ny) * s a b * (star (ph a b i) * ph a b j) := by
    intro i j
    rw [hC, fourierCoeff, Finset.mul_sum]
    refine Finset.sum_congr rfl fun a _ => ?_
    rw [Finset.mul_sum]
    refine Finset.sum_congr rfl fun b _ => ?_
    rw [hconj, hph, ← Complex.exp_add, ← mul_assoc]
    congr 2
    push_cast [Prod.fst_sub, Prod.snd_sub]
    ring
  simp only [dotProduct, Matrix.mulVec, Pi.star_apply]
  have e1 : ∀ i, star (x i) * ∑ j, C i j * x j = ∑ a, ∑ b, 1 / (Nx * Ny) * s a b * (star (x i * ph a b i) * ∑ j, x j * ph a b j) := by
    intro i
    simp only [hterm, Finset.sum_mul, Finset.mul_sum]
    rw [Finset.sum_comm]
    refine Finset.sum_congr rfl fun a _ => ?_
    rw [Finset.sum_comm]
    refine Finset.sum_congr rfl fun b _ => Finset.sum_congr rfl fun j _ => ?_
    rw [star_mul']; ring
  simp only [e1]
  rw [Finset.sum_comm]
  refine Finset.sum_congr rfl fun a _ => ?_
  rw [Finset.sum_comm]
  refine Finset.sum_congr rfl fun b _ => ?_
  rw [← Finset.mul_sum, ← Finset.sum_mul, ← star_sum]
  push_cast
  rw [Complex.normSq_eq_conj_mul_self]
  simp only [RCLike.star_def]
  ring

lemma conv_form {Nx Ny n : ℕ} (s : Fin Nx → Fin Ny → ℂ) (G : Fin n → ℤ × ℤ)
    (C : Matrix (Fin n) (Fin n) ℂ) (hC : ∀ i j, C i j = fourierCoeff s (G i - G j)) (x : Fin n → ℂ) :
    ∃ w : Fin Nx → Fin Ny → ℝ, (∀ a b, 0 ≤ w a b) ∧ star x ⬝ᵥ (C *ᵥ x) = ∑ a, ∑ b, s a b * (w a b : ℂ) := by
  obtain ⟨w, hw, h⟩ := conv_weights (Nx := Nx) (Ny := Ny) G x
  exact ⟨w, hw, h s C hC⟩

end

end Nidn
