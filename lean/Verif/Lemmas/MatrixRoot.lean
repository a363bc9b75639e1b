/-
The square root of a matrix whose eigenvalues have positive imaginary part is a smooth function of the matrix, also where eigenvectors are not.
-/
import Mathlib.Analysis.Calculus.InverseFunctionTheorem.ContDiff
import Mathlib.Analysis.Normed.Algebra.MatrixExponential
import Mathlib.Analysis.Matrix.Normed
import Mathlib.Topology.Algebra.Module.FiniteDimension
import Verif.Lemmas.Smooth

set_option linter.unusedSectionVars false

namespace Nidn

open Matrix Topology

section

variable {ι : Type} [Fintype ι] [DecidableEq ι]

/-- two square roots agree if one has all eigenvalues in the open, the other in the closed upper half plane -/
lemma root_unique {A φ : Matrix ι ι ℂ} {q : ι → ℂ} (hA : ∀ z : ℂ, z.im ≤ 0 → ∀ v, A *ᵥ v = z • v → v = 0) (hφ : IsUnit φ.det)
    (hq : ∀ m, 0 ≤ (q m).im) (h : A * A * φ = φ * diagonal fun m => q m ^ 2) : φ * diagonal q * φ⁻¹ = A := by
  have key : φ * diagonal q = A * φ := by
    ext i m
    set v : ι → ℂ := fun i => φ i m with hv
    have e1 : A *ᵥ (A *ᵥ v) = q m ^ 2 • v := by
      ext i
      have := congrFun (congrFun h i) m
      rw [Matrix.mul_diagonal] at this
      rw [Matrix.mulVec_mulVec, Pi.smul_apply, smul_eq_mul, mul_comm]
      exact this
    have e2 : A *ᵥ (A *ᵥ v - q m • v) = (-q m) • (A *ᵥ v - q m • v) := by
      rw [Matrix.mulVec_sub, e1, Matrix.mulVec_smul, smul_sub, neg_smul, neg_smul, smul_smul, sq]
      abel
    have e3 := hA (-q m) (by rw [Complex.neg_im]; linarith [hq m]) _ e2
    have e4 := congrFun (sub_eq_zero.1 e3) i
    rw [Matrix.mul_diagonal, mul_comm]
    exact e4.symm
  rw [key, Matrix.mul_nonsing_inv_cancel_right _ _ hφ]

/-- a diagonalised matrix has no other eigenvalues -/
lemma eig_only {φ : Matrix ι ι ℂ} {q : ι → ℂ} (hφ : IsUnit φ.det) (hq : ∀ m, 0 < (q m).im) (z : ℂ) (hz : z.im ≤ 0) (v : ι → ℂ)
    (h : (φ * diagonal q * φ⁻¹) *ᵥ v = z • v) : v = 0 := by
  set w := φ⁻¹ *ᵥ v with hw
  have hv : v = φ *ᵥ w := by rw [hw, Matrix.mulVec_mulVec, Matrix.mul_nonsing_inv _ hφ, Matrix.one_mulVec]
  have h1 : diagonal q *ᵥ w = z • w := by
    have := congrArg (fun u => φ⁻¹ *ᵥ u) h
    simp only [Matrix.mulVec_mulVec, ← Matrix.mul_assoc, Matrix.nonsing_inv_mul _ hφ, Matrix.one_mul, Matrix.mulVec_smul] at this
    rw [← hw] at this
    rw [hw, Matrix.mulVec_mulVec]
    exact this
  have h2 : w = 0 := by
    ext m
    have := congrFun h1 m
    rw [Matrix.mulVec_diagonal, Pi.smul_apply, smul_eq_mul] at this
    rcases mul_eq_mul_right_iff.1 this with h | h
    · have := hq m
      rw [h] at this
      linarith
    · exact h
  rw [hv, h2, Matrix.mulVec_zero]

open scoped Matrix.Norms.Operator in
/-- the square root around a diagonalised matrix -/
lemma root_local {φ : Matrix ι ι ℂ} {q : ι → ℂ} (hφ : IsUnit φ.det) (hq : ∀ m, 0 < (q m).im) :
    ∃ g : Matrix ι ι ℂ → Matrix ι ι ℂ, ContDiffAt ℂ ⊤ g (φ * diagonal q * φ⁻¹ * (φ * diagonal q * φ⁻¹)) ∧
      ∀ᶠ M in 𝓝 (φ * diagonal q * φ⁻¹ * (φ * diagonal q * φ⁻¹)), ∀ (φ' : Matrix ι ι ℂ) (q' : ι → ℂ), IsUnit φ'.det → (∀ m, 0 ≤ (q' m).im) →
        M * φ' = φ' * diagonal (fun m => q' m ^ 2) → φ' * diagonal q' * φ'⁻¹ = g M := by
  set Q := φ * diagonal q * φ⁻¹ with hQ
  have hQe : ∀ z : ℂ, z.im ≤ 0 → ∀ v, Q *ᵥ v = z • v → v = 0 := fun z hz v h => eig_only hφ hq z hz v h
  -- derivative of squaring
  let D : Matrix ι ι ℂ →ₗ[ℂ] Matrix ι ι ℂ := LinearMap.mulLeft ℂ Q + LinearMap.mulRight ℂ Q
  have hinj : Function.Injective D := by
    rw [injective_iff_map_eq_zero]
    intro H hH
    have hH' : Q * H = -(H * Q) := eq_neg_of_add_eq_zero_left hH
    have hz : H * φ = 0 := by
      ext i m
      have e1 : Q *ᵥ (fun i => φ i m) = q m • fun i => φ i m := by
        have : Q * φ = φ * diagonal q := by rw [hQ, Matrix.nonsing_inv_mul_cancel_right _ _ hφ]
        ext i
        have := congrFun (congrFun this i) m
        rw [Matrix.mul_diagonal] at this
        rw [Pi.smul_apply, smul_eq_mul, mul_comm]
        exact this
      have e2 : Q *ᵥ (H *ᵥ fun i => φ i m) = (-q m) • (H *ᵥ fun i => φ i m) := by
        rw [Matrix.mulVec_mulVec, hH', Matrix.neg_mulVec, ← Matrix.mulVec_mulVec, e1, Matrix.mulVec_smul, neg_smul]
      exact congrFun (hQe (-q m) (by rw [Complex.neg_im]; linarith [hq m]) _ e2) i
    rw [← Matrix.mul_nonsing_inv_cancel_right φ H hφ, hz, Matrix.zero_mul]
  let De : Matrix ι ι ℂ ≃L[ℂ] Matrix ι ι ℂ := (LinearEquiv.ofInjectiveEndo D hinj).toContinuousLinearEquiv
  have hsm : ContDiffAt ℂ ⊤ (fun A : Matrix ι ι ℂ => A * A) Q := contDiffAt_id.mul contDiffAt_id
  have hder : HasFDerivAt (fun A : Matrix ι ι ℂ => A * A) (De : Matrix ι ι ℂ →L[ℂ] Matrix ι ι ℂ) Q := by
    have := (hasFDerivAt_id (𝕜 := ℂ) Q).mul' (hasFDerivAt_id (𝕜 := ℂ) Q)
    refine this.congr_fderiv ?_
    ext H : 1
    rfl
  have htop : (⊤ : WithTop ℕ∞) ≠ 0 := by simp
  refine ⟨hsm.localInverse hder htop, hsm.to_localInverse hder htop, ?_⟩
  have hinv : ∀ᶠ M in 𝓝 (Q * Q), hsm.localInverse hder htop M * hsm.localInverse hder htop M = M :=
    (hsm.hasStrictFDerivAt' hder htop).eventually_right_inverse
  have hcont : ContinuousAt (hsm.localInverse hder htop) (Q * Q) := (hsm.to_localInverse hder htop).continuousAt
  have himg : hsm.localInverse hder htop (Q * Q) = Q := hsm.localInverse_apply_image hder htop
  have hK : IsCompact ({z : ℂ | z.im ≤ 0} ∩ Metric.closedBall 0 (‖Q‖ + 1)) :=
    (isCompact_closedBall _ _).inter_left (isClosed_le Complex.continuous_im continuous_const)
  have htube : ∀ᶠ A in 𝓝 Q, ∀ z ∈ {z : ℂ | z.im ≤ 0} ∩ Metric.closedBall 0 (‖Q‖ + 1), (A - z • (1 : Matrix ι ι ℂ)).det ≠ 0 := by
    refine hK.eventually_forall_of_forall_eventually fun z hz => ?_
    have hne : (Q - z • (1 : Matrix ι ι ℂ)).det ≠ 0 := by
      intro h0
      obtain ⟨v, hv, h⟩ := Matrix.exists_mulVec_eq_zero_iff.2 h0
      refine hv (hQe z hz.1 v ?_)
      rw [Matrix.sub_mulVec, Matrix.smul_mulVec, Matrix.one_mulVec] at h
      exact sub_eq_zero.1 h
    have hc : ContinuousAt (fun p : Matrix ι ι ℂ × ℂ => (p.1 - p.2 • (1 : Matrix ι ι ℂ)).det) (Q, z) := by
      have : _root_.Continuous fun p : Matrix ι ι ℂ × ℂ => (p.1 - p.2 • (1 : Matrix ι ι ℂ)).det :=
        (continuous_fst.sub (continuous_snd.smul continuous_const)).matrix_det
      exact this.continuousAt
    exact hc.eventually_ne hne
  have hnorm : ∀ᶠ A in 𝓝 Q, ‖A‖ < ‖Q‖ + 1 := continuous_norm.continuousAt.eventually_lt continuousAt_const (by linarith)
  rw [← himg] at htube hnorm
  filter_upwards [hinv, hcont.eventually htube, hcont.eventually hnorm] with M h1 h2 h3 φ' q' hφ' hq' he
  refine root_unique (fun z hz v hv => ?_) hφ' hq' (by rw [h1]; exact he)
  by_contra hne
  have hb : ‖z‖ ≤ ‖hsm.localInverse hder htop M‖ := by
    have := Matrix.linfty_opNorm_mulVec (hsm.localInverse hder htop M) v
    rw [hv, norm_smul] at this
    exact le_of_mul_le_mul_right this (norm_pos_iff.2 hne)
  rw [himg] at h2 h3
  refine hne (Matrix.eq_zero_of_mulVec_eq_zero (h2 z ⟨hz, ?_⟩) ?_)
  · rw [mem_closedBall_zero_iff]; linarith
  · rw [Matrix.sub_mulVec, Matrix.smul_mulVec, Matrix.one_mulVec, hv, sub_self]

variable {E : Type} [NormedAddCommGroup E] [NormedSpace ℝ E] {k : WithTop ℕ∞} {x0 : E}

open scoped Matrix.Norms.Operator in
lemma smoothM_iff {M : E → Matrix ι ι ℂ} : SmoothM k x0 M ↔ ContDiffAt ℝ k M x0 := by
  constructor
  · intro h
    have e : M = fun x => ∑ i, ∑ j, M x i j • Matrix.single i j (1 : ℂ) := by
      funext x
      conv_lhs => rw [Matrix.matrix_eq_sum_single (M x)]
      simp
    rw [e]
    exact ContDiffAt.sum fun i _ => ContDiffAt.sum fun j _ => (h i j).smul contDiffAt_const
  · intro h i j
    let f : Matrix ι ι ℂ →L[ℝ] ℂ := (LinearMap.restrictScalars ℝ (Matrix.entryLinearMap ℂ ℂ i j)).toContinuousLinearMap
    exact f.contDiff.contDiffAt.comp x0 h

open scoped Matrix.Norms.Operator in
/-- the square root of a matrix that depends smoothly on parameters -/
lemma root_near {M : E → Matrix ι ι ℂ} (hM : SmoothM k x0 M) {φ : Matrix ι ι ℂ} {q : ι → ℂ} (hφ : IsUnit φ.det) (hq : ∀ m, 0 < (q m).im)
    (h : M x0 * φ = φ * diagonal fun m => q m ^ 2) :
    ∃ Q : E → Matrix ι ι ℂ, SmoothM k x0 Q ∧ ∀ᶠ x in 𝓝 x0, ∀ (φ' : Matrix ι ι ℂ) (q' : ι → ℂ), IsUnit φ'.det → (∀ m, 0 ≤ (q' m).im) →
        M x * φ' = φ' * diagonal (fun m => q' m ^ 2) → φ' * diagonal q' * φ'⁻¹ = Q x := by
  obtain ⟨g, hg, hn⟩ := root_local hφ hq
  have e : φ * diagonal q * φ⁻¹ * (φ * diagonal q * φ⁻¹) = M x0 := by
    calc φ * diagonal q * φ⁻¹ * (φ * diagonal q * φ⁻¹) = φ * diagonal q * (φ⁻¹ * φ) * diagonal q * φ⁻¹ := by simp only [Matrix.mul_assoc]
      _ = φ * (diagonal q * diagonal q) * φ⁻¹ := by rw [Matrix.nonsing_inv_mul _ hφ, Matrix.mul_one, Matrix.mul_assoc φ]
      _ = M x0 := by
        rw [Matrix.diagonal_mul_diagonal]
        simp only [← sq]
        rw [← h, Matrix.mul_nonsing_inv_cancel_right _ _ hφ]
  rw [e] at hg hn
  have hM' := smoothM_iff.1 hM
  refine ⟨fun x => g (M x), smoothM_iff.2 (((hg.of_le le_top).restrict_scalars ℝ).comp x0 hM'), ?_⟩
  exact hM'.continuousAt.eventually hn

open scoped Matrix.Norms.Operator in
/-- the exponential of a matrix that depends smoothly on parameters -/
lemma smooth_expm {M : E → Matrix ι ι ℂ} (hM : SmoothM k x0 M) : SmoothM k x0 fun x => NormedSpace.exp (M x) := by
  have h : AnalyticAt ℂ (NormedSpace.exp : Matrix ι ι ℂ → Matrix ι ι ℂ) (M x0) := NormedSpace.exp_analytic (𝕂 := ℂ) _
  exact smoothM_iff.2 ((h.contDiffAt.restrict_scalars ℝ).comp x0 (smoothM_iff.1 hM))

lemma expm_conj {φ : Matrix ι ι ℂ} (hφ : IsUnit φ.det) (v : ι → ℂ) :
    φ * diagonal (fun m => Complex.exp (v m)) * φ⁻¹ = NormedSpace.exp (φ * diagonal v * φ⁻¹) := by
  rw [Matrix.exp_conj _ _ ((Matrix.isUnit_iff_isUnit_det _).2 hφ), Matrix.exp_diagonal]
  congr 3
  funext m
  rw [Pi.coe_exp, Complex.exp_eq_exp_ℂ]

end

end Nidn
