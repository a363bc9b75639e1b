/-
Property C102: the modes of every layer are solutions of Maxwell's equations.
-/
import Verif.Spec.Maxwell
import Verif.Props.Energy
import Verif.Props.Fresnel
import Mathlib.Analysis.ODE.ExistUnique

set_option linter.unusedSectionVars false

namespace Nidn

open Matrix

variable {κ : Type} [Fintype κ] [DecidableEq κ]

lemma translate_fst (L : LayerData (κ ⊕ κ)) (a b : κ ⊕ κ → ℂ) (z : ℝ) : (translateAmplitudes L z a b).1 = fwdAt L a z := by
  ext m; simp only [translateAmplitudes, fwdAt]; ring

lemma translate_snd (L : LayerData (κ ⊕ κ)) (a b : κ ⊕ κ → ℂ) (z : ℝ) : (translateAmplitudes L z a b).2 = bwdAt L b z := by
  ext m; simp only [translateAmplitudes, bwdAt]; ring

lemma kp_apply (ω : ℂ) (epinv : Matrix κ κ ℂ) (kx ky : κ → ℂ) (h : κ ⊕ κ → ℂ) (hω : ω ≠ 0) (i : κ) :
    (kpPatterned ω epinv kx ky *ᵥ h) (.inl i) = ω ^ 2 * h (.inl i) -
        ω * (ky i * (epinv *ᵥ fun j => (ky j * h (.inl j) - kx j * h (.inr j)) / ω) i) ∧
    (kpPatterned ω epinv kx ky *ᵥ h) (.inr i) = ω ^ 2 * h (.inr i) +
        ω * (kx i * (epinv *ᵥ fun j => (ky j * h (.inl j) - kx j * h (.inr j)) / ω) i) := by
  have hJ : (jkMat kx ky).transpose *ᵥ h = (-ω) • fun j => (ky j * h (.inl j) - kx j * h (.inr j)) / ω := by
    ext j
    rw [jkMat, Matrix.transpose_fromRows, Matrix.fromCols_mulVec, Matrix.diagonal_transpose, Matrix.diagonal_transpose]
    simp only [Pi.add_apply, Matrix.mulVec_diagonal, Function.comp_apply, Pi.smul_apply, smul_eq_mul]
    field_simp
    ring
  have hk : kpPatterned ω epinv kx ky *ᵥ h = ω ^ 2 • h - jkMat kx ky *ᵥ (epinv *ᵥ ((jkMat kx ky).transpose *ᵥ h)) := by
    rw [kpPatterned, Matrix.sub_mulVec, Matrix.smul_mulVec, Matrix.one_mulVec, Matrix.mulVec_mulVec, Matrix.mulVec_mulVec, Matrix.mul_assoc]
  rw [hk, hJ, Matrix.mulVec_smul, Matrix.mulVec_smul]
  refine ⟨?_, ?_⟩
  · simp only [Pi.sub_apply, Pi.smul_apply, smul_eq_mul, jkMat, Matrix.fromRows_mulVec, Sum.elim_inl, Matrix.mulVec_diagonal]
    ring
  · simp only [Pi.sub_apply, Pi.smul_apply, smul_eq_mul, jkMat, Matrix.fromRows_mulVec, Sum.elim_inr, Matrix.mulVec_diagonal]
    ring

/-- fields of a layer, general form -/
lemma maxwell_of_mats {ω : ℂ} (hω : ω ≠ 0) {kx ky : κ → ℂ} {A B εz epinv : Matrix κ κ ℂ} {L : LayerData (κ ⊕ κ)} {kind : LayerKind κ}
    (hkind : ∀ v, applyEpinv kind v = epinv *ᵥ v) (hz : εz * epinv = 1)
    (hkp : L.kp = kpPatterned ω epinv kx ky)
    (heig : eigenMat (Matrix.fromBlocks A 0 0 B) L.kp kx ky * L.phi = L.phi * diagonal fun m => L.q m ^ 2)
    (hq : ∀ m, L.q m ≠ 0) (a b : κ ⊕ κ → ℂ) :
    SolvesMaxwell ω kx ky B A εz (fieldFourierAt ω kx ky kind L a b) := by
  set u := fwdAt L a with hu
  set v := bwdAt L b with hv
  set h : ℝ → κ ⊕ κ → ℂ := fun z => fieldH L (u z) (v z) with hh
  set e : ℝ → κ ⊕ κ → ℂ := fun z => fieldE ω L (u z) (v z) with he
  have hF : ∀ z, fieldFourierAt ω kx ky kind L a b z =
      { ex := fun i => e z (.inr i), ey := fun i => -e z (.inl i),
        ez := epinv *ᵥ fun i => (ky i * h z (.inl i) - kx i * h z (.inr i)) / ω,
        hx := fun i => h z (.inl i), hy := fun i => h z (.inr i),
        hz := fun i => (kx i * -e z (.inl i) - ky i * e z (.inr i)) / ω } := by
    intro z
    simp only [fieldFourierAt, translate_fst, translate_snd, hkind]
    rfl
  -- derivatives
  have hE : ∀ z m, HasDerivAt (fun z => e z m) ((Complex.I / ω) * (L.kp *ᵥ h z) m) z := by
    intro z m
    have h1 : ∀ j, HasDerivAt (fun z => (u z j - v z j) / ω / L.q j) (Complex.I / ω * (u z j + v z j)) z := by
      intro j
      have := (((hasDerivAt_fwd L a z j).sub (hasDerivAt_bwd L b z j)).div_const ω).div_const (L.q j)
      convert! this using 1
      have := hq j
      field_simp
      ring
    have h2 := fun i => hasDerivAt_mulVec L.phi (fun z => fun j => (u z j - v z j) / ω / L.q j) _ z h1 i
    have h3 := hasDerivAt_mulVec L.kp (fun z => L.phi *ᵥ fun j => (u z j - v z j) / ω / L.q j) _ z h2 m
    convert! h3 using 1
    have : (fun j => Complex.I / ω * (u z j + v z j)) = (Complex.I / ω) • (u z + v z) := by ext j; simp
    rw [this, Matrix.mulVec_smul, Matrix.mulVec_smul, Pi.smul_apply, smul_eq_mul]
    rfl
  have hH0 : ∀ z m, HasDerivAt (fun z => h z m) ((L.phi *ᵥ fun j => Complex.I * L.q j * (u z j - v z j)) m) z := by
    intro z m
    refine hasDerivAt_mulVec L.phi (fun z => u z + v z) _ z (fun j => ?_) m
    have := (hasDerivAt_fwd L a z j).add (hasDerivAt_bwd L b z j)
    convert! this using 1
    ring
  -- the eigen equation turns the derivative of h into the material equation
  have hH : ∀ z, (L.phi *ᵥ fun j => Complex.I * L.q j * (u z j - v z j)) =
      (Complex.I * ω) • (Matrix.fromBlocks A 0 0 B *ᵥ e z) - (Complex.I / ω) • (kMat kx ky *ᵥ ((kMat kx ky).transpose *ᵥ e z)) := by
    intro z
    set w : κ ⊕ κ → ℂ := fun j => (u z j - v z j) / ω / L.q j with hw
    have e1 : e z = L.kp *ᵥ (L.phi *ᵥ w) := rfl
    have e2 : (fun j => Complex.I * L.q j * (u z j - v z j)) = (Complex.I * ω) • ((diagonal fun m => L.q m ^ 2) *ᵥ w) := by
      ext j
      simp only [Pi.smul_apply, smul_eq_mul, Matrix.mulVec_diagonal, hw]
      have := hq j
      field_simp
    have e3 : L.phi *ᵥ ((diagonal fun m => L.q m ^ 2) *ᵥ w) = eigenMat (Matrix.fromBlocks A 0 0 B) L.kp kx ky *ᵥ (L.phi *ᵥ w) := by
      rw [Matrix.mulVec_mulVec, ← heig, ← Matrix.mulVec_mulVec]
    have e4 : (kMat kx ky).transpose *ᵥ e z = ω ^ 2 • ((kMat kx ky).transpose *ᵥ (L.phi *ᵥ w)) := by
      rw [e1, hkp, kpPatterned, Matrix.sub_mulVec, Matrix.smul_mulVec, Matrix.one_mulVec, Matrix.mulVec_sub, Matrix.mulVec_smul,
        Matrix.mulVec_mulVec (M := (kMat kx ky).transpose) (N := jkMat kx ky * epinv * (jkMat kx ky).transpose), ← Matrix.mul_assoc, ← Matrix.mul_assoc,
        kT_J, Matrix.zero_mul, Matrix.zero_mul, Matrix.zero_mulVec, sub_zero]
    rw [e2, Matrix.mulVec_smul, e3, e4, eigenMat, Matrix.sub_mulVec, smul_sub, ← Matrix.mulVec_mulVec, ← e1, Matrix.mulVec_smul, smul_smul,
      ← Matrix.mulVec_mulVec]
    congr 2
    field_simp
  have hK : ∀ z j, ((kMat kx ky).transpose *ᵥ e z) j = kx j * e z (.inl j) + ky j * e z (.inr j) := by
    intro z j
    rw [kMat, Matrix.transpose_fromRows, Matrix.fromCols_mulVec, Matrix.diagonal_transpose, Matrix.diagonal_transpose]
    simp only [Pi.add_apply, Matrix.mulVec_diagonal, Function.comp_apply]
  have hB : ∀ z, Matrix.fromBlocks A 0 0 B *ᵥ e z = Sum.elim (A *ᵥ fun i => e z (.inl i)) (B *ᵥ fun i => e z (.inr i)) := by
    intro z
    rw [Matrix.fromBlocks_mulVec]
    simp only [Matrix.zero_mulVec, add_zero, zero_add]
    rfl
  refine ⟨fun z i => ?_, fun z i => ?_, fun z i => ?_, fun z i => ?_, fun z i => ?_, fun z i => ?_⟩
  · simp only [hF]
    convert! hH0 z (.inr i) using 1
    rw [hH, Pi.sub_apply, Pi.smul_apply, Pi.smul_apply, hB, Sum.elim_inr, kMat, Matrix.fromRows_mulVec, Sum.elim_inr, Matrix.mulVec_diagonal,
      ← kMat, hK]
    simp only [smul_eq_mul]
    ring
  · simp only [hF]
    convert! hH0 z (.inl i) using 1
    have hneg : (fun i => -e z (.inl i)) = -fun i => e z (.inl i) := rfl
    rw [hH, Pi.sub_apply, Pi.smul_apply, Pi.smul_apply, hB, Sum.elim_inl, kMat, Matrix.fromRows_mulVec, Sum.elim_inl, Matrix.mulVec_diagonal,
      ← kMat, hK, hneg, Matrix.mulVec_neg, Pi.neg_apply]
    simp only [smul_eq_mul]
    ring
  · simp only [hF]
    rw [Matrix.mulVec_mulVec, hz, Matrix.one_mulVec]
    field_simp
    ring
  · simp only [hF]
    have := (hE z (.inl i)).neg
    convert! this using 1
    rw [hkp, (kp_apply ω epinv kx ky (h z) hω i).1]
    field_simp
    ring
  · simp only [hF]
    have := hE z (.inr i)
    convert! this using 1
    rw [hkp, (kp_apply ω epinv kx ky (h z) hω i).2]
    field_simp
    ring
  · simp only [hF]
    field_simp

/-- the first-order system behind Maxwell's equations, for any solution of them -/
lemma maxwell_system {ω : ℂ} (hω : ω ≠ 0) {kx ky : κ → ℂ} {A B εz epinv : Matrix κ κ ℂ} (hz : epinv * εz = 1) {F : ℝ → FieldVec κ}
    (hF : SolvesMaxwell ω kx ky B A εz F) (z : ℝ) :
    (∀ m, HasDerivAt (fun z => (Sum.elim (F z).hx (F z).hy : κ ⊕ κ → ℂ) m)
      ((((Complex.I * ω) • Matrix.fromBlocks A 0 0 B - (Complex.I / ω) • (kMat kx ky * (kMat kx ky).transpose)) *ᵥ
        (Sum.elim (fun i => -(F z).ey i) (F z).ex)) m) z) ∧
    (∀ m, HasDerivAt (fun z => (Sum.elim (fun i => -(F z).ey i) (F z).ex : κ ⊕ κ → ℂ) m)
      ((((Complex.I / ω) • kpPatterned ω epinv kx ky) *ᵥ (Sum.elim (F z).hx (F z).hy)) m) z) := by
  have hK : ∀ e : κ ⊕ κ → ℂ, (kMat kx ky).transpose *ᵥ e = fun j => kx j * e (.inl j) + ky j * e (.inr j) := by
    intro e; ext j
    rw [kMat, Matrix.transpose_fromRows, Matrix.fromCols_mulVec, Matrix.diagonal_transpose, Matrix.diagonal_transpose]
    simp only [Pi.add_apply, Matrix.mulVec_diagonal, Function.comp_apply]
  have hhz : ∀ i, (F z).hz i = (kx i * (F z).ey i - ky i * (F z).ex i) / ω := by
    intro i
    have := hF.curlE_z z i
    have hI := Complex.I_ne_zero
    field_simp
    have h2 : Complex.I * (kx i * (F z).ey i - ky i * (F z).ex i) = Complex.I * (ω * (F z).hz i) := by linear_combination this
    rw [mul_comm, mul_left_cancel₀ hI h2]
  have hez : (F z).ez = epinv *ᵥ fun j => (ky j * (F z).hx j - kx j * (F z).hy j) / ω := by
    have h1 : εz *ᵥ (F z).ez = fun j => (ky j * (F z).hx j - kx j * (F z).hy j) / ω := by
      ext i
      have := hF.curlH_z z i
      have h2 : Complex.I * (ω * (εz *ᵥ (F z).ez) i) = Complex.I * (ky i * (F z).hx i - kx i * (F z).hy i) := by linear_combination this
      have h3 := mul_left_cancel₀ Complex.I_ne_zero h2
      field_simp
      rw [mul_comm]
      exact h3
    rw [← h1, Matrix.mulVec_mulVec, hz, Matrix.one_mulVec]
  refine ⟨?_, ?_⟩
  · rintro (i | i)
    · have := hF.curlH_y z i
      convert! this using 1
      have hneg : (fun i => -(F z).ey i) = -(F z).ey := rfl
      rw [Matrix.sub_mulVec, Matrix.smul_mulVec, Matrix.smul_mulVec, ← Matrix.mulVec_mulVec, hK, Matrix.fromBlocks_mulVec, kMat,
        Matrix.fromRows_mulVec]
      simp only [Sum.elim_comp_inl, Sum.elim_comp_inr, Matrix.zero_mulVec, add_zero, Pi.sub_apply, Pi.smul_apply, Sum.elim_inl,
        Sum.elim_inr, Matrix.mulVec_diagonal, smul_eq_mul, hhz, hneg, Matrix.mulVec_neg, Pi.neg_apply]
      ring
    · have := hF.curlH_x z i
      convert! this using 1
      rw [Matrix.sub_mulVec, Matrix.smul_mulVec, Matrix.smul_mulVec, ← Matrix.mulVec_mulVec, hK, Matrix.fromBlocks_mulVec, kMat,
        Matrix.fromRows_mulVec]
      simp only [Sum.elim_comp_inl, Sum.elim_comp_inr, Matrix.zero_mulVec, add_zero, zero_add, Pi.sub_apply, Pi.smul_apply, Sum.elim_inl,
        Sum.elim_inr, Matrix.mulVec_diagonal, smul_eq_mul, hhz]
      ring
  · rintro (i | i)
    · have := (hF.curlE_x z i).neg
      convert! this using 1
      rw [Matrix.smul_mulVec, Pi.smul_apply, (kp_apply ω epinv kx ky _ hω i).1, hez]
      simp only [Sum.elim_inl, Sum.elim_inr, smul_eq_mul]
      field_simp
      ring
    · have := hF.curlE_y z i
      convert! this using 1
      rw [Matrix.smul_mulVec, Pi.smul_apply, (kp_apply ω epinv kx ky _ hω i).2, hez]
      simp only [Sum.elim_inl, Sum.elim_inr, smul_eq_mul]
      field_simp
      ring

/-- two solutions with the same tangential fields at one depth are equal -/
lemma maxwell_unique {ω : ℂ} (hω : ω ≠ 0) {kx ky : κ → ℂ} {A B εz epinv : Matrix κ κ ℂ} (hz : epinv * εz = 1) {F F' : ℝ → FieldVec κ}
    (hF : SolvesMaxwell ω kx ky B A εz F) (hF' : SolvesMaxwell ω kx ky B A εz F') (z0 : ℝ) (h1 : (F z0).hx = (F' z0).hx)
    (h2 : (F z0).hy = (F' z0).hy) (h3 : (F z0).ex = (F' z0).ex) (h4 : (F z0).ey = (F' z0).ey) : F = F' := by
  set M1 := (Complex.I * ω) • Matrix.fromBlocks A 0 0 B - (Complex.I / ω) • (kMat kx ky * (kMat kx ky).transpose) with hM1
  set M2 := (Complex.I / ω) • kpPatterned ω epinv kx ky with hM2
  let V : ((κ ⊕ κ → ℂ) × (κ ⊕ κ → ℂ)) →ₗ[ℝ] ((κ ⊕ κ → ℂ) × (κ ⊕ κ → ℂ)) :=
    LinearMap.prod ((M1.mulVecLin.restrictScalars ℝ).comp (LinearMap.snd ℝ _ _)) ((M2.mulVecLin.restrictScalars ℝ).comp (LinearMap.fst ℝ _ _))
  let Y : (ℝ → FieldVec κ) → ℝ → (κ ⊕ κ → ℂ) × (κ ⊕ κ → ℂ) := fun F z =>
    (Sum.elim (F z).hx (F z).hy, Sum.elim (fun i => -(F z).ey i) (F z).ex)
  have hY : ∀ F, SolvesMaxwell ω kx ky B A εz F → ∀ z, HasDerivAt (Y F) (V (Y F z)) z := by
    intro F hF z
    obtain ⟨e1, e2⟩ := maxwell_system hω hz hF z
    exact (hasDerivAt_pi.2 e1).prodMk (hasDerivAt_pi.2 e2)
  have heq : Y F = Y F' := by
    refine ODE_solution_unique_univ (v := fun _ y => V y) (s := fun _ => Set.univ) (K := ‖V.toContinuousLinearMap‖₊) (t₀ := z0)
      (fun t => (V.toContinuousLinearMap.lipschitz).lipschitzOnWith) (fun t => ⟨hY F hF t, trivial⟩) (fun t => ⟨hY F' hF' t, trivial⟩) ?_
    simp only [Y, h1, h2, h3, h4]
  have hc : ∀ z, (F z).hx = (F' z).hx ∧ (F z).hy = (F' z).hy ∧ (F z).ey = (F' z).ey ∧ (F z).ex = (F' z).ex := by
    intro z
    have := congrFun heq z
    simp only [Y, Prod.mk.injEq] at this
    obtain ⟨e1, e2⟩ := this
    refine ⟨funext fun i => congrFun e1 (.inl i), funext fun i => congrFun e1 (.inr i), funext fun i => ?_, funext fun i => congrFun e2 (.inr i)⟩
    have := congrFun e2 (.inl i)
    simpa using this
  funext z
  obtain ⟨c1, c2, c3, c4⟩ := hc z
  have c5 : (F z).hz = (F' z).hz := by
    funext i
    have e1 := hF.curlE_z z i
    have e2 := hF'.curlE_z z i
    rw [← c3, ← c4, e1] at e2
    exact mul_left_cancel₀ (mul_ne_zero Complex.I_ne_zero hω) e2
  have c6 : (F z).ez = (F' z).ez := by
    have e : εz *ᵥ (F z).ez = εz *ᵥ (F' z).ez := by
      funext i
      have e1 := hF.curlH_z z i
      have e2 := hF'.curlH_z z i
      rw [← c1, ← c2, e1] at e2
      exact mul_left_cancel₀ (mul_ne_zero Complex.I_ne_zero hω) (neg_injective e2)
    have := congrArg (epinv *ᵥ ·) e
    simpa only [Matrix.mulVec_mulVec, hz, Matrix.one_mulVec] using this
  cases hx : F z; cases hx' : F' z
  rw [hx, hx'] at c1 c2 c3 c4 c5 c6
  simp_all

/-- every solution in a layer with invertible matrices is a superposition of the modes -/
lemma maxwell_complete {ω : ℂ} (hω : ω ≠ 0) {kx ky : κ → ℂ} {A B εz epinv : Matrix κ κ ℂ} {L : LayerData (κ ⊕ κ)} {kind : LayerKind κ}
    (hkind : ∀ v, applyEpinv kind v = epinv *ᵥ v) (hz : εz * epinv = 1)
    (hkp : L.kp = kpPatterned ω epinv kx ky)
    (heig : eigenMat (Matrix.fromBlocks A 0 0 B) L.kp kx ky * L.phi = L.phi * diagonal fun m => L.q m ^ 2)
    (hr : L.Regular) {F : ℝ → FieldVec κ} (hF : SolvesMaxwell ω kx ky B A εz F) :
    ∃ a b, F = fieldFourierAt ω kx ky kind L a b := by
  set h0 : κ ⊕ κ → ℂ := Sum.elim (F 0).hx (F 0).hy with hh0
  set e0 : κ ⊕ κ → ℂ := Sum.elim (fun i => -(F 0).ey i) (F 0).ex with he0
  set s := L.phi⁻¹ *ᵥ h0 with hs
  set t : κ ⊕ κ → ℂ := fun m => ω * L.q m * (L.phi⁻¹ *ᵥ (L.kp⁻¹ *ᵥ e0)) m with ht
  refine ⟨fun m => (s m + t m) / 2, fun m => Complex.exp (-(Complex.I * L.q m * L.d)) * ((s m - t m) / 2), ?_⟩
  set a : κ ⊕ κ → ℂ := fun m => (s m + t m) / 2 with ha
  set b : κ ⊕ κ → ℂ := fun m => Complex.exp (-(Complex.I * L.q m * L.d)) * ((s m - t m) / 2) with hb
  have hb0 : bwdAt L b 0 = fun m => (s m - t m) / 2 := by
    ext m
    simp only [bwdAt, hb, Complex.ofReal_zero, sub_zero]
    rw [← mul_assoc, ← Complex.exp_add, add_neg_cancel, Complex.exp_zero, one_mul]
  have hH : fieldH L (fwdAt L a 0) (bwdAt L b 0) = h0 := by
    rw [fwdAt_zero, hb0, fieldH, ha]
    have : ((fun m => (s m + t m) / 2) + fun m => (s m - t m) / 2) = s := by ext m; simp only [Pi.add_apply]; ring
    rw [this, hs, Matrix.mulVec_mulVec, Matrix.mul_nonsing_inv _ hr.phi, Matrix.one_mulVec]
  have hE : fieldE ω L (fwdAt L a 0) (bwdAt L b 0) = e0 := by
    rw [fwdAt_zero, hb0, fieldE, ha]
    have : (fun m => ((s m + t m) / 2 - (s m - t m) / 2) / ω / L.q m) = L.phi⁻¹ *ᵥ (L.kp⁻¹ *ᵥ e0) := by
      ext m
      have := hr.q m
      simp only [ht]
      field_simp
      ring
    have h2 : L.phi *ᵥ (L.phi⁻¹ *ᵥ (L.kp⁻¹ *ᵥ e0)) = L.kp⁻¹ *ᵥ e0 := by
      rw [Matrix.mulVec_mulVec, Matrix.mul_nonsing_inv _ hr.phi, Matrix.one_mulVec]
    rw [this, h2, Matrix.mulVec_mulVec, Matrix.mul_nonsing_inv _ hr.kp, Matrix.one_mulVec]
  have hG := maxwell_of_mats hω hkind hz hkp heig hr.q a b
  refine maxwell_unique hω (mul_eq_one_comm.1 hz) hF hG 0 ?_ ?_ ?_ ?_ <;>
    simp only [fieldFourierAt, translate_fst, translate_snd, hH, hE, h0, e0] <;> funext i <;> simp

/-- `L` (a layer of kind `kind` in the solver) has the modes of the medium `M`. -/
structure Realises (ω : ℂ) (kx ky : κ → ℂ) (kind : LayerKind κ) (L : LayerData (κ ⊕ κ)) (M : Medium κ) : Prop where
  d : L.d = M.d
  regular : L.Regular
  mats : ∃ epinv, (∀ v, applyEpinv kind v = epinv *ᵥ v) ∧ M.εz * epinv = 1 ∧ L.kp = kpPatterned ω epinv kx ky ∧
    eigenMat (Matrix.fromBlocks M.εy 0 0 M.εx) L.kp kx ky * L.phi = L.phi * diagonal fun m => L.q m ^ 2

lemma Realises.solves {ω : ℂ} (hω : ω ≠ 0) {kx ky : κ → ℂ} {kind : LayerKind κ} {L : LayerData (κ ⊕ κ)} {M : Medium κ}
    (h : Realises ω kx ky kind L M) (a b : κ ⊕ κ → ℂ) : SolvesMaxwell ω kx ky M.εx M.εy M.εz (fieldFourierAt ω kx ky kind L a b) := by
  obtain ⟨epinv, h1, h2, h3, h4⟩ := h.mats
  exact maxwell_of_mats hω h1 h2 h3 h4 h.regular.q a b

lemma Realises.complete {ω : ℂ} (hω : ω ≠ 0) {kx ky : κ → ℂ} {kind : LayerKind κ} {L : LayerData (κ ⊕ κ)} {M : Medium κ}
    (h : Realises ω kx ky kind L M) {F : ℝ → FieldVec κ} (hF : SolvesMaxwell ω kx ky M.εx M.εy M.εz F) :
    ∃ a b, F = fieldFourierAt ω kx ky kind L a b := by
  obtain ⟨epinv, h1, h2, h3, h4⟩ := h.mats
  exact maxwell_complete hω h1 h2 h3 h4 h.regular hF

lemma fieldE_eq (ω : ℂ) (L : LayerData (κ ⊕ κ)) (u v : κ ⊕ κ → ℂ) : fieldE ω L u v = ω⁻¹ • L.eTan u v := by
  have : (fun m => (u m - v m) / ω / L.q m) = ω⁻¹ • fun m => (u m - v m) / L.q m := by
    ext m; simp only [Pi.smul_apply, smul_eq_mul]; ring
  rw [fieldE, this, Matrix.mulVec_smul, Matrix.mulVec_smul, LayerData.eTan]

lemma joined_iff {ω : ℂ} (hω : ω ≠ 0) (kx ky : κ → ℂ) (kind kind' : LayerKind κ) (L L' : LayerData (κ ⊕ κ)) (a b a' b' : κ ⊕ κ → ℂ) :
    Joined L.d (fieldFourierAt ω kx ky kind L a b) (fieldFourierAt ω kx ky kind' L' a' b') ↔ Continuous L L' a b a' b' := by
  have e1 : Joined L.d (fieldFourierAt ω kx ky kind L a b) (fieldFourierAt ω kx ky kind' L' a' b') ↔
      fieldH L (L.through a) b = fieldH L' a' (L'.through b') ∧ fieldE ω L (L.through a) b = fieldE ω L' a' (L'.through b') := by
    simp only [Joined, fieldFourierAt, translate_fst, translate_snd, fwdAt_zero, fwdAt_d, bwdAt_zero, bwdAt_d]
    constructor
    · rintro ⟨h1, h2, h3, h4⟩
      refine ⟨?_, ?_⟩
      · funext m; rcases m with i | i
        · exact congrFun h1 i
        · exact congrFun h2 i
      · funext m; rcases m with i | i
        · exact neg_injective (congrFun h4 i)
        · exact congrFun h3 i
    · rintro ⟨h1, h2⟩
      exact ⟨by rw [h1], by rw [h1], by rw [h2], by rw [h2]⟩
  rw [e1, fieldE_eq, fieldE_eq]
  constructor
  · rintro ⟨h1, h2⟩
    exact ⟨h1, smul_right_injective _ (inv_ne_zero hω) h2⟩
  · rintro ⟨h1, h2⟩
    exact ⟨h1, by rw [h2]⟩

/-- the fields determine the amplitudes -/
lemma field_inj {ω : ℂ} (hω : ω ≠ 0) (kx ky : κ → ℂ) (kind : LayerKind κ) {L : LayerData (κ ⊕ κ)} (hr : L.Regular) {a b a' b' : κ ⊕ κ → ℂ}
    (h : fieldFourierAt ω kx ky kind L a b = fieldFourierAt ω kx ky kind L a' b') : a = a' ∧ b = b' := by
  have h0 := congrFun h L.d
  simp only [fieldFourierAt, translate_fst, translate_snd, fwdAt_d, bwdAt_d, FieldVec.mk.injEq] at h0
  obtain ⟨h1, h2, -, h3, h4, -⟩ := h0
  have hH : fieldH L (L.through a) b = fieldH L (L.through a') b' := by
    funext m; rcases m with i | i
    · exact congrFun h3 i
    · exact congrFun h4 i
  have hE : fieldE ω L (L.through a) b = fieldE ω L (L.through a') b' := by
    funext m; rcases m with i | i
    · exact neg_injective (congrFun h2 i)
    · exact congrFun h1 i
  rw [fieldE_eq, fieldE_eq] at hE
  have hE' := smul_right_injective _ (inv_ne_zero hω) hE
  have iphi := Matrix.mulVec_injective_of_isUnit ((Matrix.isUnit_iff_isUnit_det _).2 hr.phi)
  have ikp := Matrix.mulVec_injective_of_isUnit ((Matrix.isUnit_iff_isUnit_det _).2 hr.kp)
  have s1 := iphi hH
  have s2 := iphi (ikp hE')
  have hm : ∀ m, L.through a m = L.through a' m ∧ b m = b' m := by
    intro m
    have t1 : L.through a m + b m = L.through a' m + b' m := congrFun s1 m
    have t2 : (L.through a m - b m) / L.q m = (L.through a' m - b' m) / L.q m := congrFun s2 m
    have t3 := (div_left_inj' (hr.q m)).1 t2
    refine ⟨by linear_combination (t1 + t3) / 2, by linear_combination (t1 - t3) / 2⟩
  refine ⟨funext fun m => ?_, funext fun m => (hm m).2⟩
  exact mul_left_cancel₀ (Complex.exp_ne_zero _) (hm m).1

/-- One layer of a stack: how the solver stores it and the medium it stands for. -/
structure StackLayer (κ : Type) where
  kind : LayerKind κ
  L : LayerData (κ ⊕ κ)
  M : Medium κ

/-- C102, whole stacks: amplitudes are a solution of the solver's interface equations exactly if they are the amplitudes, in the first and
last layer, of fields that solve Maxwell's equations in every layer and have continuous tangential components at every interface. -/
theorem C102_stack (ω : ℂ) (hω : ω ≠ 0) (kx ky : κ → ℂ) (S0 SN : StackLayer κ) (mid : List (StackLayer κ)) (S : List (StackLayer κ))
    (hS : S = S0 :: mid) (hlast : S.getLast? = some SN) (hr : ∀ s ∈ S, Realises ω kx ky s.kind s.L s.M) (a0 b0 aN bN : κ ⊕ κ → ℂ) :
    StackSol (S.map (·.L)) a0 b0 aN bN ↔
      ∃ Fs, StackFields ω kx ky (S.map (·.M)) Fs ∧ Fs.head? = some (fieldFourierAt ω kx ky S0.kind S0.L a0 b0) ∧
        Fs.getLast? = some (fieldFourierAt ω kx ky SN.kind SN.L aN bN) := by
  subst hS
  induction mid generalizing S0 a0 b0 with
  | nil =>
    simp only [List.getLast?_singleton, Option.some.injEq] at hlast
    subst hlast
    simp only [List.map_cons, List.map_nil, StackSol]
    constructor
    · rintro ⟨rfl, rfl⟩
      exact ⟨[fieldFourierAt ω kx ky S0.kind S0.L aN bN], (hr S0 (by simp)).solves hω aN bN, rfl, rfl⟩
    · rintro ⟨Fs, h1, h2, h3⟩
      match Fs, h1, h2, h3 with
      | [F], h1, h2, h3 =>
        simp only [List.head?_cons, List.getLast?_singleton, Option.some.injEq] at h2 h3
        have := field_inj hω kx ky S0.kind (hr S0 (by simp)).regular (h3.symm.trans h2)
        exact this
  | cons S1 mid ih =>
    have hlast' : (S1 :: mid).getLast? = some SN := by rwa [List.getLast?_cons_cons] at hlast
    have ih' := fun a b => ih S1 a b hlast' (fun s hs => hr s (List.mem_cons_of_mem _ hs))
    have hd : S0.L.d = S0.M.d := (hr S0 (by simp)).d
    simp only [List.map_cons] at ih' ⊢
    rw [StackSol]
    constructor
    · rintro ⟨a', b', hc, hs⟩
      obtain ⟨Fs, h1, h2, h3⟩ := (ih' a' b').1 hs
      match Fs, h1, h2, h3 with
      | F' :: Fs, h1, h2, h3 =>
        simp only [List.head?_cons, Option.some.injEq] at h2
        subst h2
        refine ⟨fieldFourierAt ω kx ky S0.kind S0.L a0 b0 :: fieldFourierAt ω kx ky S1.kind S1.L a' b' :: Fs, ?_, rfl, ?_⟩
        · refine ⟨(hr S0 (by simp)).solves hω a0 b0, ?_, h1⟩
          rw [← hd]
          exact (joined_iff hω kx ky _ _ _ _ _ _ _ _).2 hc
        · rw [List.getLast?_cons_cons]; exact h3
    · rintro ⟨Fs, h1, h2, h3⟩
      match Fs, h1, h2, h3 with
      | F :: F' :: Fs, h1, h2, h3 =>
        obtain ⟨-, hj, h1⟩ := h1
        simp only [List.head?_cons, Option.some.injEq] at h2
        subst h2
        have hF' : SolvesMaxwell ω kx ky S1.M.εx S1.M.εy S1.M.εz F' := by
          cases mid with
          | nil =>
            cases Fs with
            | nil => exact h1
            | cons _ _ => exact h1.elim
          | cons _ _ =>
            cases Fs with
            | nil => exact h1.elim
            | cons _ _ => exact h1.1
        obtain ⟨a', b', rfl⟩ := (hr S1 (by simp)).complete hω hF'
        refine ⟨a', b', ?_, (ih' a' b').2 ⟨_, h1, rfl, ?_⟩⟩
        · rw [← hd] at hj
          exact (joined_iff hω kx ky _ _ _ _ _ _ _ _).1 hj
        · rwa [List.getLast?_cons_cons] at h3

/-- C102: what `SolveExterior` returns are the outgoing amplitudes of the one electromagnetic field of the stack with the given incoming amplitudes:
such a field exists, and every such field has these outgoing amplitudes. -/
theorem C102_solver (ω : ℂ) (hω : ω ≠ 0) (kx ky : κ → ℂ) (S0 SN : StackLayer κ) (mid : List (StackLayer κ)) (S : List (StackLayer κ))
    (hS : S = S0 :: mid) (hlast : S.getLast? = some SN) (hr : ∀ s ∈ S, Realises ω kx ky s.kind s.L s.M) (a0 b0 aN bN : κ ⊕ κ → ℂ)
    (r : (κ ⊕ κ → ℂ) × (κ ⊕ κ → ℂ)) (h : solveExterior (S.map (·.L)) a0 bN = .ok r) :
    (∃ Fs, StackFields ω kx ky (S.map (·.M)) Fs ∧ Fs.head? = some (fieldFourierAt ω kx ky S0.kind S0.L a0 b0) ∧
        Fs.getLast? = some (fieldFourierAt ω kx ky SN.kind SN.L aN bN)) ↔ aN = r.1 ∧ b0 = r.2 := by
  rw [← C102_stack ω hω kx ky S0 SN mid S hS hlast hr a0 b0 aN bN]
  refine C16_exterior _ (fun M hM => ?_) a0 bN aN b0 r h
  obtain ⟨s, hs, rfl⟩ := List.mem_map.1 hM
  exact (hr s hs).regular.q

/-- C102, uniform layers: whatever the amplitudes of the modes are, the six field components belonging to them solve Maxwell's equations with
the permittivity of the layer, at every depth and in every diffraction order. Excluded are grazing orders (`q = 0`), where the solver divides
by zero. -/
theorem C102_uniform (ω : ℂ) (hω : ω ≠ 0) (kx ky : κ → ℂ) (ε : ℂ) (hε : ε ≠ 0) (d : ℝ)
    (hq : ∀ i, kx i ^ 2 + ky i ^ 2 ≠ ε * ω ^ 2) (a b : κ ⊕ κ → ℂ) :
    SolvesMaxwell ω kx ky (ε • (1 : Matrix κ κ ℂ)) (ε • (1 : Matrix κ κ ℂ)) (ε • (1 : Matrix κ κ ℂ))
      (fieldFourierAt ω kx ky (.uniform ε) (uniformLayer ω kx ky ε d) a b) := by
  refine maxwell_of_mats hω (epinv := (1 / ε) • (1 : Matrix κ κ ℂ)) (fun v => ?_) ?_ (kpUniform_eq _ _ _ _) ?_ (fun m hm => ?_) a b
  · ext i
    simp only [applyEpinv, Matrix.smul_mulVec, Matrix.one_mulVec, Pi.smul_apply, smul_eq_mul]
    ring
  · rw [Matrix.smul_mul, Matrix.one_mul, smul_smul, mul_one_div_cancel hε, one_smul]
  · have : Matrix.fromBlocks (ε • (1 : Matrix κ κ ℂ)) 0 0 (ε • (1 : Matrix κ κ ℂ)) = ε • (1 : Matrix (κ ⊕ κ) (κ ⊕ κ) ℂ) := by
      rw [← Matrix.fromBlocks_one, Matrix.fromBlocks_smul, smul_zero]
    rw [this]
    exact uniform_eig kx ky hε d
  · rcases m with i | i
    · have := (qUniform_sq ω ε kx ky i).1
      have hm' : qUniform ω ε kx ky (.inl i) = 0 := hm
      rw [hm'] at this
      exact hq i (by linear_combination this)
    · have := (qUniform_sq ω ε kx ky i).2
      have hm' : qUniform ω ε kx ky (.inr i) = 0 := hm
      rw [hm'] at this
      exact hq i (by linear_combination this)

/-- C102: a uniform layer of the solver is a layer of its medium (real transverse wave numbers, no grazing order). -/
theorem C102_uniform_realises (ω : ℂ) (hω : ω ≠ 0) (kx ky : κ → ℂ) (hx : ∀ i, (kx i).im = 0) (hy : ∀ i, (ky i).im = 0) (ε : ℂ) (hε : ε ≠ 0)
    (d : ℝ) (hq : ∀ i, kx i ^ 2 + ky i ^ 2 ≠ ε * ω ^ 2) :
    Realises ω kx ky (.uniform ε) (uniformLayer ω kx ky ε d) ⟨ε • 1, ε • 1, ε • 1, d⟩ where
  d := rfl
  regular := uniform_regular hω hx hy hε d fun i hi => hq i (by
    have := qOrd_sq ω ε kx ky i
    rw [hi] at this; linear_combination this)
  mats := by
    refine ⟨(1 / ε) • (1 : Matrix κ κ ℂ), fun v => ?_, ?_, kpUniform_eq _ _ _ _, ?_⟩
    · ext i
      simp only [applyEpinv, Matrix.smul_mulVec, Matrix.one_mulVec, Pi.smul_apply, smul_eq_mul]
      ring
    · rw [Matrix.smul_mul, Matrix.one_mul, smul_smul, mul_one_div_cancel hε, one_smul]
    · have : Matrix.fromBlocks (ε • (1 : Matrix κ κ ℂ)) 0 0 (ε • (1 : Matrix κ κ ℂ)) = ε • (1 : Matrix (κ ⊕ κ) (κ ⊕ κ) ℂ) := by
        rw [← Matrix.fromBlocks_one, Matrix.fromBlocks_smul, smul_zero]
      rw [this]
      exact uniform_eig kx ky hε d

section Grid

variable {n : ℕ}

lemma fromBlocks_filter (A B : Matrix (Fin n) (Fin n) ℂ) :
    (Matrix.fromBlocks A 0 0 B).map zeroSmall = Matrix.fromBlocks (A.map zeroSmall) 0 0 (B.map zeroSmall) := by
  rw [Matrix.fromBlocks_map]
  congr 1 <;> (ext i j; simp [zeroSmall])

/-- C102, patterned layers: the fields of every superposition of the modes found by the eigen-solver solve Maxwell's equations with the
convolution matrix of the pattern; along x and y after the filter of `Epsilon_fft` (see C15 for what that filter does). -/
theorem C102_grid {Nx Ny : ℕ} (s : Fin Nx → Fin Ny → ℂ) (G : Fin n → ℤ × ℤ) (C epinv : Matrix (Fin n) (Fin n) ℂ)
    (ep2 : Matrix (Fin n ⊕ Fin n) (Fin n ⊕ Fin n) ℂ) (hC : getConv (1 / Nx / Ny) s G = .ok C)
    (h : epsilonFft (1 / Nx / Ny) (.iso s) G = .ok (epinv, ep2)) (ω : ℂ) (hω : ω ≠ 0) (kx ky : Fin n → ℂ)
    (lam : Fin n ⊕ Fin n → ℂ) (phi : Matrix (Fin n ⊕ Fin n) (Fin n ⊕ Fin n) ℂ)
    (he : IsEig (eigenMat ep2 (kpPatterned ω epinv kx ky) kx ky) lam phi) (hl : ∀ m, lam m ≠ 0) (d : ℝ) (a b : Fin n ⊕ Fin n → ℂ) :
    SolvesMaxwell ω kx ky (C.map zeroSmall) (C.map zeroSmall) C
      (fieldFourierAt ω kx ky (.grid epinv ep2) (patternedLayer ω kx ky epinv lam phi d) a b) := by
  simp only [epsilonFft, hC, ok_bind] at h
  obtain ⟨inv, h3, h4⟩ := bind_ok.1 h
  obtain ⟨-, -, hi⟩ := torchInverse_ok h3
  injection h4 with h4
  injection h4 with h5 h6
  subst h5 h6
  refine maxwell_of_mats hω (fun v => rfl) hi rfl ?_ (fun m hm => ?_) a b
  · simp only [patternedLayer, branchQ_sq, csqrt_sq]
    rw [← fromBlocks_filter]
    exact he
  · have : (patternedLayer ω kx ky inv lam phi d).q m ^ 2 = lam m := by simp only [patternedLayer, branchQ_sq, csqrt_sq]
    rw [hm] at this
    exact hl m (by rw [← this]; ring)

/-- C102: a patterned layer of the solver is a layer of the medium given by its convolution matrices, provided the mode matrices can be inverted
(otherwise `GetSMatrix` raises) and no mode is grazing. -/
theorem C102_grid_realises {Nx Ny : ℕ} (s : Fin Nx → Fin Ny → ℂ) (G : Fin n → ℤ × ℤ) (C epinv : Matrix (Fin n) (Fin n) ℂ)
    (ep2 : Matrix (Fin n ⊕ Fin n) (Fin n ⊕ Fin n) ℂ) (hC : getConv (1 / Nx / Ny) s G = .ok C)
    (h : epsilonFft (1 / Nx / Ny) (.iso s) G = .ok (epinv, ep2)) (ω : ℂ) (kx ky : Fin n → ℂ)
    (lam : Fin n ⊕ Fin n → ℂ) (phi : Matrix (Fin n ⊕ Fin n) (Fin n ⊕ Fin n) ℂ)
    (he : IsEig (eigenMat ep2 (kpPatterned ω epinv kx ky) kx ky) lam phi) (hl : ∀ m, lam m ≠ 0) (hphi : IsUnit phi.det)
    (hkp : IsUnit (kpPatterned ω epinv kx ky).det) (d : ℝ) :
    Realises ω kx ky (.grid epinv ep2) (patternedLayer ω kx ky epinv lam phi d) ⟨C.map zeroSmall, C.map zeroSmall, C, d⟩ := by
  simp only [epsilonFft, hC, ok_bind] at h
  obtain ⟨inv, h3, h4⟩ := bind_ok.1 h
  obtain ⟨-, -, hi⟩ := torchInverse_ok h3
  injection h4 with h4
  injection h4 with h5 h6
  subst h5 h6
  refine ⟨rfl, ⟨hphi, hkp, fun m hm => ?_⟩, inv, fun v => rfl, hi, rfl, ?_⟩
  · have : (patternedLayer ω kx ky inv lam phi d).q m ^ 2 = lam m := by simp only [patternedLayer, branchQ_sq, csqrt_sq]
    rw [hm] at this
    exact hl m (by rw [← this]; ring)
  · simp only [patternedLayer, branchQ_sq, csqrt_sq]
    rw [← fromBlocks_filter]
    exact he

/-- C110: what the solver really solves for an anisotropic pattern `(sx, sy, sz)`: Maxwell's equations in which fields along x see the pattern
`sy` and fields along y see the pattern `sx`; only the z-component is right. -/
theorem C110_swapped_partial {Nx Ny : ℕ} (sx sy sz : Fin Nx → Fin Ny → ℂ) (G : Fin n → ℤ × ℤ) (X Y Z epinv : Matrix (Fin n) (Fin n) ℂ)
    (ep2 : Matrix (Fin n ⊕ Fin n) (Fin n ⊕ Fin n) ℂ) (hX : getConv (1 / Nx / Ny) sx G = .ok X) (hY : getConv (1 / Nx / Ny) sy G = .ok Y)
    (hZ : getConv (1 / Nx / Ny) sz G = .ok Z)
    (h : epsilonFft (1 / Nx / Ny) (.aniso sx sy sz) G = .ok (epinv, ep2)) (ω : ℂ) (hω : ω ≠ 0) (kx ky : Fin n → ℂ)
    (lam : Fin n ⊕ Fin n → ℂ) (phi : Matrix (Fin n ⊕ Fin n) (Fin n ⊕ Fin n) ℂ)
    (he : IsEig (eigenMat ep2 (kpPatterned ω epinv kx ky) kx ky) lam phi) (hl : ∀ m, lam m ≠ 0) (d : ℝ) (a b : Fin n ⊕ Fin n → ℂ) :
    SolvesMaxwell ω kx ky (Y.map zeroSmall) (X.map zeroSmall) Z
      (fieldFourierAt ω kx ky (.grid epinv ep2) (patternedLayer ω kx ky epinv lam phi d) a b) := by
  simp only [epsilonFft, hX, hY, hZ, ok_bind] at h
  obtain ⟨inv, h3, h4⟩ := bind_ok.1 h
  obtain ⟨-, -, hi⟩ := torchInverse_ok h3
  injection h4 with h4
  injection h4 with h5 h6
  subst h5 h6
  refine maxwell_of_mats hω (fun v => rfl) hi rfl ?_ (fun m hm => ?_) a b
  · simp only [patternedLayer, branchQ_sq, csqrt_sq]
    rw [← fromBlocks_filter]
    exact he
  · have : (patternedLayer ω kx ky inv lam phi d).q m ^ 2 = lam m := by simp only [patternedLayer, branchQ_sq, csqrt_sq]
    rw [hm] at this
    exact hl m (by rw [← this]; ring)

/-! ### a homogeneous anisotropic layer -/

/-- The constant pattern `c` on a 1 x 1 grid. -/
def flatPattern (c : ℂ) : Fin 1 → Fin 1 → ℂ := fun _ _ => c

lemma getConv_flat (c : ℂ) : getConv (1 / (1 : ℕ) / (1 : ℕ)) (flatPattern c) oneOrder = .ok (Matrix.of fun _ _ => c) := by
  have hG : Function.Injective oneOrder := fun i j _ => Subsingleton.elim i j
  have hr : Resolved 1 1 oneOrder := by intro i j; simp [oneOrder]
  obtain ⟨C, h1, h2⟩ := (C15_entries (flatPattern c) oneOrder).1 hr
  rw [h1]
  congr 1
  ext i j
  rw [h2]
  simp [fourierCoeff, flatPattern, oneOrder]

lemma of_map_filter (x : ℝ) (hx : 1 ≤ x) : (Matrix.of fun (_ _ : Fin 1) => (x : ℂ)).map zeroSmall = Matrix.of fun _ _ => (x : ℂ) := by
  ext i j
  show zeroSmall (x : ℂ) = x
  rw [zeroSmall, if_neg]
  rintro ⟨h, -⟩
  rw [Complex.ofReal_re] at h
  norm_num at h
  linarith

lemma anisoFlat (x y : ℝ) (hx : 1 ≤ x) (hy : 1 ≤ y) :
    epsilonFft (1 / (1 : ℕ) / (1 : ℕ)) (.aniso (flatPattern x) (flatPattern y) (flatPattern 1)) oneOrder =
      .ok (1, diagonal (Sum.elim (fun _ => (x : ℂ)) fun _ => (y : ℂ))) := by
  have h1 : (Matrix.of fun (_ _ : Fin 1) => (1 : ℂ)) = 1 := by ext i j; rw [Subsingleton.elim i j]; simp
  simp only [epsilonFft, getConv_flat, ok_bind, h1]
  have h2 : torchInverse (1 : Matrix (Fin 1) (Fin 1) ℂ) = .ok 1 := by
    rw [torchInverse, if_pos (by simp), inv_one]
  rw [h2, ok_bind, fromBlocks_filter, of_map_filter x hx, of_map_filter y hy]
  have : (Matrix.fromBlocks (Matrix.of fun (_ _ : Fin 1) => (x : ℂ)) 0 0 (Matrix.of fun (_ _ : Fin 1) => (y : ℂ))) =
      diagonal (Sum.elim (fun _ => (x : ℂ)) fun _ => (y : ℂ)) := by
    ext (i | i) (j | j)
    · rw [Subsingleton.elim i j]; simp
    · simp
    · simp
    · rw [Subsingleton.elim i j]; simp
  rw [this]
  rfl

/-- The layer with permittivities 4 along x, 1 along y and z, as the solver builds it for `omega = 1` at normal incidence. -/
noncomputable def anisoLayer (d : ℝ) : LayerData (Fin 1 ⊕ Fin 1) :=
  patternedLayer 1 0 0 1 (Sum.elim (fun _ => 4) fun _ => 1) 1 d

lemma kp_flat : kpPatterned 1 (1 : Matrix (Fin 1) (Fin 1) ℂ) 0 0 = 1 := by
  have hj : jkMat (0 : Fin 1 → ℂ) 0 = 0 := by
    ext (i | i) j <;> simp [jkMat]
  rw [kpPatterned, hj, Matrix.zero_mul, Matrix.zero_mul, sub_zero]; simp

lemma aniso_eig : IsEig (eigenMat (diagonal (Sum.elim (fun _ => ((4 : ℝ) : ℂ)) fun _ => ((1 : ℝ) : ℂ))) (kpPatterned 1 (1 : Matrix (Fin 1) (Fin 1) ℂ) 0 0) 0 0)
    (Sum.elim (fun _ => 4) fun _ => 1) 1 := by
  have hk : kMat (0 : Fin 1 → ℂ) 0 = 0 := by
    ext (i | i) j <;> simp [kMat]
  rw [IsEig, kp_flat, eigenMat, hk, Matrix.zero_mul, sub_zero, Matrix.mul_one, Matrix.mul_one, Matrix.one_mul]
  simp

/-- C110 is false: in the homogeneous layer with permittivity 4 along x and 1 along y, the solver's mode with its electric field along x does not
solve Maxwell's equations with these permittivities. (It is a wave with the permittivity 1 of the y-direction.) -/
theorem C110_axes_false : ∃ (epinv X Y Z : Matrix (Fin 1) (Fin 1) ℂ) (ep2 phi : Matrix (Fin 1 ⊕ Fin 1) (Fin 1 ⊕ Fin 1) ℂ) (lam a b : Fin 1 ⊕ Fin 1 → ℂ),
    getConv (1 / (1 : ℕ) / (1 : ℕ)) (flatPattern 4) oneOrder = .ok X ∧ getConv (1 / (1 : ℕ) / (1 : ℕ)) (flatPattern 1) oneOrder = .ok Y ∧ Z = Y ∧
    epsilonFft (1 / (1 : ℕ) / (1 : ℕ)) (.aniso (flatPattern 4) (flatPattern 1) (flatPattern 1)) oneOrder = .ok (epinv, ep2) ∧
    IsEig (eigenMat ep2 (kpPatterned 1 epinv 0 0) 0 0) lam phi ∧ (∀ m, lam m ≠ 0) ∧ IsUnit phi.det ∧
    ∀ d : ℝ, ¬ SolvesMaxwell 1 0 0 X Y Z (fieldFourierAt 1 0 0 (.grid epinv ep2) (patternedLayer 1 0 0 epinv lam phi d) a b) := by
  have hA := anisoFlat 4 1 (by norm_num) le_rfl
  have hX := getConv_flat ((4 : ℝ) : ℂ)
  have hY := getConv_flat ((1 : ℝ) : ℂ)
  have hl : ∀ m : Fin 1 ⊕ Fin 1, (Sum.elim (fun _ => 4) fun _ => 1 : Fin 1 ⊕ Fin 1 → ℂ) m ≠ 0 := by
    rintro (i | i) <;> simp
  refine ⟨1, _, _, _, _, 1, Sum.elim (fun _ => 4) fun _ => 1, Sum.elim 0 fun _ => 1, 0, by simpa using hX, by simpa using hY, rfl,
    by simpa using hA, by simpa using aniso_eig, hl, by simp, fun d hM => ?_⟩
  have hZ : getConv (1 / (1 : ℕ) / (1 : ℕ)) (flatPattern 1) oneOrder = .ok (Matrix.of fun _ _ => 1) := by simpa using hY
  have hS := C110_swapped_partial (flatPattern ((4 : ℝ) : ℂ)) (flatPattern ((1 : ℝ) : ℂ)) (flatPattern 1) oneOrder _ _ _ 1 _ hX hY hZ hA 1 one_ne_zero 0 0
    (Sum.elim (fun _ => 4) fun _ => 1) 1 aniso_eig hl d (Sum.elim 0 fun _ => 1) 0
  rw [of_map_filter 4 (by norm_num), of_map_filter 1 le_rfl] at hS
  have h1 := hM.curlH_x 0 0
  have h2 := hS.curlH_x 0 0
  simp only [Complex.ofReal_one, Complex.ofReal_ofNat] at h2
  have h3 := h1.unique h2
  have hex : (fieldFourierAt (κ := Fin 1) 1 0 0 (.grid 1 (diagonal (Sum.elim (fun _ => (4 : ℂ)) fun _ => (1 : ℂ))))
      (patternedLayer 1 0 0 1 (Sum.elim (fun _ => 4) fun _ => 1) 1 d) (Sum.elim 0 fun _ => 1) 0 0).ex 0 = 1 := by
    have hq : branchQ (csqrt 1) = 1 := by
      have := branchQ_csqrt_of_sq 1 (by simp) (by simp)
      simpa using this
    simp only [fieldFourierAt, fieldE, translateAmplitudes, patternedLayer, kp_flat, Matrix.one_mulVec, Sum.elim_inr, hq]
    simp
  simp only [Matrix.mulVec, dotProduct, Matrix.of_apply, Finset.univ_unique, Finset.sum_singleton, Fin.default_eq_zero, mul_one] at h3
  rw [hex] at h3
  have : Complex.I * 3 = 0 := by linear_combination h3
  simp at this

/-- Hypotheses of `C102_uniform_realises`: glass at two diffraction orders, one of them evanescent. -/
example : Realises 1 (fun i : Fin 2 => if i = 0 then 0 else 2) 0 (.uniform 2) (uniformLayer 1 (fun i : Fin 2 => if i = 0 then 0 else 2) 0 2 1)
    ⟨(2 : ℂ) • 1, (2 : ℂ) • 1, (2 : ℂ) • 1, 1⟩ := by
  refine C102_uniform_realises 1 one_ne_zero _ _ (fun i => ?_) (fun i => by simp) 2 two_ne_zero 1 (fun i => ?_)
  · fin_cases i <;> simp
  · fin_cases i <;> norm_num

/-- Hypotheses of `C102_grid` and `C102_grid_realises`: the homogeneous pattern 4 on a 1 x 1 grid. -/
example : ∃ C epinv ep2 lam phi, getConv (1 / (1 : ℕ) / (1 : ℕ)) (flatPattern ((4 : ℝ) : ℂ)) oneOrder = .ok C ∧
    epsilonFft (1 / (1 : ℕ) / (1 : ℕ)) (.iso (flatPattern ((4 : ℝ) : ℂ))) oneOrder = .ok (epinv, ep2) ∧
    IsEig (eigenMat ep2 (kpPatterned 1 epinv 0 0) 0 0) lam phi ∧ (∀ m, lam m ≠ 0) ∧ IsUnit phi.det ∧ IsUnit (kpPatterned 1 epinv 0 0).det := by
  have hC := getConv_flat ((4 : ℝ) : ℂ)
  have hu : IsUnit (Matrix.of fun (_ _ : Fin 1) => ((4 : ℝ) : ℂ)).det := by simp
  have hj : jkMat (0 : Fin 1 → ℂ) 0 = 0 := by
    ext (i | i) j <;> simp [jkMat]
  have hk : kMat (0 : Fin 1 → ℂ) 0 = 0 := by
    ext (i | i) j <;> simp [kMat]
  have hkp : ∀ e : Matrix (Fin 1) (Fin 1) ℂ, kpPatterned 1 e 0 0 = 1 := by
    intro e; rw [kpPatterned, hj, Matrix.zero_mul, Matrix.zero_mul, sub_zero]; simp
  refine ⟨_, _, _, fun _ => 4, 1, hC, by simp only [epsilonFft, hC, ok_bind, torchInverse, if_pos hu]; rfl, ?_, by simp, by simp, by rw [hkp]; simp⟩
  rw [IsEig, hkp, eigenMat, hk, Matrix.zero_mul, sub_zero, Matrix.mul_one, Matrix.mul_one, Matrix.one_mul, fromBlocks_filter,
    of_map_filter 4 (by norm_num)]
  ext (i | i) (j | j)
  · rw [Subsingleton.elim i j]; simp
  · simp
  · simp
  · rw [Subsingleton.elim i j]; simp

end Grid

end Nidn
