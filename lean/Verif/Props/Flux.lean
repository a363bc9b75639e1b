/-
Properties C22 (decaying branch) and C23 (splitting of the power flux).
-/
import Verif.Lemmas.Layers

set_option linter.unusedSectionVars false

namespace Nidn

open Matrix

variable {κ : Type} [Fintype κ] [DecidableEq κ]

/-! ## C22 -/

/-- Spec: a layer none of whose propagation factors grows: every mode has Im(q) >= 0 and |exp(i q z)| <= 1 for every depth z >= 0. -/
def Decaying {ι : Type} (L : LayerData ι) : Prop :=
  ∀ m, 0 ≤ (L.q m).im ∧ ∀ z : ℝ, 0 ≤ z → ‖Complex.exp (Complex.I * L.q m * z)‖ ≤ 1

lemma decaying_of_im {ι : Type} (L : LayerData ι) (h : ∀ m, 0 ≤ (L.q m).im) : Decaying L := by
  intro m
  refine ⟨h m, fun z hz => ?_⟩
  rw [Complex.norm_exp]
  have : (Complex.I * L.q m * z).re = -((L.q m).im * z) := by
    rw [Complex.re_mul_ofReal, Complex.I_mul_re]; ring
  rw [this, Real.exp_le_one_iff]
  have := mul_nonneg (h m) hz
  linarith

/-- C22, uniform layers: no propagation factor grows, whatever the permittivity, frequency, wave vectors and thickness; and `q` really is
a wave number of the medium. -/
theorem C22_uniform (ω ε : ℂ) (kx ky : κ → ℂ) (d : ℝ) :
    Decaying (uniformLayer ω kx ky ε d) ∧
    ∀ i, (uniformLayer ω kx ky ε d).q (.inl i) ^ 2 = ε * ω ^ 2 - kx i ^ 2 - ky i ^ 2 ∧
      (uniformLayer ω kx ky ε d).q (.inr i) ^ 2 = ε * ω ^ 2 - kx i ^ 2 - ky i ^ 2 := by
  refine ⟨decaying_of_im _ fun m => ?_, fun i => qUniform_sq ω ε kx ky i⟩
  rcases m with i | i <;> exact branchQ_im _

/-- C22, patterned layers: no propagation factor grows, whatever the eigenvalues, and `q` squares to the eigenvalue. -/
theorem C22_patterned (ω : ℂ) (kx ky : κ → ℂ) (epinv : Matrix κ κ ℂ) (lam : κ ⊕ κ → ℂ) (phi : Matrix (κ ⊕ κ) (κ ⊕ κ) ℂ) (d : ℝ) :
    Decaying (patternedLayer ω kx ky epinv lam phi d) ∧ ∀ m, (patternedLayer ω kx ky epinv lam phi d).q m ^ 2 = lam m := by
  refine ⟨decaying_of_im _ fun m => branchQ_im _, fun m => ?_⟩
  rw [patternedLayer, branchQ_sq, csqrt_sq]

/-- C22: the factors that `GetSMatrix` multiplies with (`exp(i q thickness)`) have modulus at most one for a non-negative thickness. -/
theorem C22_phase {ι : Type} (L : LayerData ι) (h : Decaying L) (hd : 0 ≤ L.d) (m : ι) : ‖L.phase m‖ ≤ 1 :=
  (h m).2 L.d hd

/-- C22: evanescent waves (real squared wave number below zero) and waves in an absorbing medium really decay: their factor has modulus
strictly below one at every positive depth. -/
theorem C22_strict (ω ε : ℂ) (kx ky : κ → ℂ) (d : ℝ) (i : κ) (h : (ε * ω ^ 2 - kx i ^ 2 - ky i ^ 2).im ≠ 0 ∨
    (ε * ω ^ 2 - kx i ^ 2 - ky i ^ 2).re < 0) (z : ℝ) (hz : 0 < z) :
    ‖Complex.exp (Complex.I * (uniformLayer ω kx ky ε d).q (.inl i) * z)‖ < 1 := by
  set q := (uniformLayer ω kx ky ε d).q (.inl i) with hq
  have h0 : 0 ≤ q.im := branchQ_im _
  have h1 : q ^ 2 = ε * ω ^ 2 - kx i ^ 2 - ky i ^ 2 := (qUniform_sq ω ε kx ky i).1
  rw [← h1] at h
  have h2 : 0 < q.im := by
    rcases lt_or_eq_of_le h0 with h3 | h3
    · exact h3
    · exfalso
      rw [sq, Complex.mul_im, Complex.mul_re, ← h3] at h
      rcases h with h | h
      · exact h (by ring)
      · nlinarith [mul_self_nonneg q.re]
  rw [Complex.norm_exp]
  have : (Complex.I * q * z).re = -(q.im * z) := by
    rw [Complex.re_mul_ofReal, Complex.I_mul_re]; ring
  rw [this, Real.exp_lt_one_iff]
  have := mul_pos h2 hz
  linarith

/-- Vacuum with a transverse wave number 2 at frequency 1: evanescent. -/
example : ((1 : ℂ) * 1 ^ 2 - (fun _ : Unit => (2 : ℂ)) () ^ 2 - (fun _ : Unit => (0 : ℂ)) () ^ 2).re < 0 := by norm_num

/-! ## C23 -/

/-- Spec: tangential electric field of the modes, `E = A (a - b)`, and magnetic field `H = phi (a + b)`, order by order; the Poynting flux of
order `i` is `Re(conj E_x H_x + conj E_y H_y)` in the code's rotated basis. -/
noncomputable def orderFlux (ω : ℂ) (L : LayerData (κ ⊕ κ)) (a b : κ ⊕ κ → ℂ) (i : κ) : ℝ :=
  (star ((ω⁻¹ • L.eTan a b) (.inl i)) * L.hTan a b (.inl i)).re + (star ((ω⁻¹ • L.eTan a b) (.inr i)) * L.hTan a b (.inr i)).re

lemma fluxA_mulVec (ω : ℂ) (L : LayerData (κ ⊕ κ)) (a : κ ⊕ κ → ℂ) :
    (fluxA ω L) *ᵥ a = ω⁻¹ • (L.kp *ᵥ (L.phi *ᵥ fun m => a m / L.q m)) := by
  rw [fluxA, ← Matrix.mulVec_mulVec, ← Matrix.mulVec_mulVec, ← Matrix.mulVec_smul, ← Matrix.mulVec_smul]
  congr 2
  ext m
  rw [Matrix.mulVec_diagonal, Pi.smul_apply, smul_eq_mul]
  ring

lemma eTan_eq (ω : ℂ) (L : LayerData (κ ⊕ κ)) (a b : κ ⊕ κ → ℂ) :
    ω⁻¹ • L.eTan a b = (fluxA ω L) *ᵥ a - (fluxA ω L) *ᵥ b := by
  rw [fluxA_mulVec, fluxA_mulVec, ← smul_sub, ← Matrix.mulVec_sub, ← Matrix.mulVec_sub, LayerData.eTan]
  congr 3
  ext m
  rw [Pi.sub_apply]; ring_nf

lemma xy_sum (ω : ℂ) (L : LayerData (κ ⊕ κ)) (a b : κ ⊕ κ → ℂ) (m : κ ⊕ κ) :
    (forwardXY ω L a b m + backwardXY ω L a b m).re = (star ((ω⁻¹ • L.eTan a b) m) * L.hTan a b m).re := by
  rw [eTan_eq, LayerData.hTan, Matrix.mulVec_add, forwardXY, backwardXY, fluxDiff, Pi.sub_apply, Pi.add_apply]
  generalize (fluxA ω L *ᵥ a) m = A1
  generalize (fluxA ω L *ᵥ b) m = A2
  generalize (L.phi *ᵥ a) m = p1
  generalize (L.phi *ᵥ b) m = p2
  rw [show (0.5 : ℂ) = ((1 / 2 : ℝ) : ℂ) by norm_num]
  simp [Complex.mul_re, Complex.mul_im]
  ring

/-- C23: for all amplitudes and layer matrices, in every order the forward and backward flux add up to the Poynting flux of the combined
field. -/
theorem C23_by_order (ω : ℂ) (L : LayerData (κ ⊕ κ)) (a b : κ ⊕ κ → ℂ) (i : κ) :
    ((fluxByOrder ω L a b).1 i + (fluxByOrder ω L a b).2 i).re = orderFlux ω L a b i := by
  rw [orderFlux, ← xy_sum, ← xy_sum]
  simp only [fluxByOrder, Complex.add_re]
  ring

lemma zflux_eq_layerFlux (ω : ℂ) (L : LayerData (κ ⊕ κ)) (a b : κ ⊕ κ → ℂ) :
    ((zPoyntingFlux ω L a b).1 + (zPoyntingFlux ω L a b).2).re = layerFlux ω L a b := by
  have h1 : (zPoyntingFlux ω L a b).1 + (zPoyntingFlux ω L a b).2 =
      ∑ i, (forwardXY ω L a b (.inl i) + backwardXY ω L a b (.inl i)) + ∑ i, (forwardXY ω L a b (.inr i) + backwardXY ω L a b (.inr i)) := by
    rw [zPoyntingFlux, fluxByOrder]
    simp only [Finset.sum_add_distrib]
    ring
  rw [h1, Complex.add_re, Complex.re_sum, Complex.re_sum]
  simp only [xy_sum]
  rw [layerFlux, poynting, dotProduct, Fintype.sum_sum_type, Complex.add_re, Complex.re_sum, Complex.re_sum]
  rfl

/-- C23: the summed forward and backward fluxes add up to the Poynting flux of the combined field over the whole cell. -/
theorem C23_total (ω : ℂ) (L : LayerData (κ ⊕ κ)) (a b : κ ⊕ κ → ℂ) :
    ((zPoyntingFlux ω L a b).1 + (zPoyntingFlux ω L a b).2).re = poynting (ω⁻¹ • L.eTan a b) (L.hTan a b) :=
  zflux_eq_layerFlux ω L a b

/-- C23: the interference parts of the two directions cancel in the imaginary part, so the sum of both fluxes is real (its value is
the one of `C23_total`, nothing is lost by taking real parts), in every order and in total. -/
theorem C23_total_real (ω : ℂ) (L : LayerData (κ ⊕ κ)) (a b : κ ⊕ κ → ℂ) :
    (∀ i, ((fluxByOrder ω L a b).1 i + (fluxByOrder ω L a b).2 i).im = 0) ∧
    ((zPoyntingFlux ω L a b).1 + (zPoyntingFlux ω L a b).2).im = 0 := by
  have hxy : ∀ m, (forwardXY ω L a b m).im + (backwardXY ω L a b m).im = 0 := fun m => by
    simp [forwardXY, backwardXY]
  have h1 : ∀ i, ((fluxByOrder ω L a b).1 i + (fluxByOrder ω L a b).2 i).im = 0 := fun i => by
    have e1 := hxy (.inl i)
    have e2 := hxy (.inr i)
    simp only [fluxByOrder, Complex.add_im]
    linarith
  refine ⟨h1, ?_⟩
  have h2 : (zPoyntingFlux ω L a b).1 + (zPoyntingFlux ω L a b).2 =
      ∑ i, ((fluxByOrder ω L a b).1 i + (fluxByOrder ω L a b).2 i) := by
    rw [zPoyntingFlux, Finset.sum_add_distrib]
  rw [h2, Complex.im_sum]
  exact Finset.sum_eq_zero fun i _ => h1 i

/-- C23: the summed flux is the sum over the by-order fluxes. -/
theorem C23_orders_sum (ω : ℂ) (L : LayerData (κ ⊕ κ)) (a b : κ ⊕ κ → ℂ) :
    (zPoyntingFlux ω L a b).1.re + (zPoyntingFlux ω L a b).2.re = ∑ i, orderFlux ω L a b i := by
  rw [← Complex.add_re, zflux_eq_layerFlux, layerFlux, poynting, dotProduct, Fintype.sum_sum_type, Complex.add_re, Complex.re_sum, Complex.re_sum,
    ← Finset.sum_add_distrib]
  rfl

/-- C23: without a backward wave the backward flux vanishes and the forward flux is the flux of the forward field, in every order and in
total; likewise without a forward wave. -/
theorem C23_one_way (ω : ℂ) (L : LayerData (κ ⊕ κ)) (a b : κ ⊕ κ → ℂ) :
    (∀ i, (fluxByOrder ω L a 0).2 i = 0 ∧ (fluxByOrder ω L a 0).1 i = orderFlux ω L a 0 i) ∧
    (zPoyntingFlux ω L a 0).2 = 0 ∧
    (∀ i, (fluxByOrder ω L 0 b).1 i = 0 ∧ (fluxByOrder ω L 0 b).2 i = orderFlux ω L 0 b i) ∧
    (zPoyntingFlux ω L 0 b).1 = 0 := by
  have hd1 : ∀ m, fluxDiff ω L a 0 m = 0 := fun m => by simp [fluxDiff]
  have hd2 : ∀ m, fluxDiff ω L 0 b m = 0 := fun m => by simp [fluxDiff]
  have hb1 : ∀ m, backwardXY ω L a 0 m = 0 := fun m => by rw [backwardXY, hd1]; simp
  have hf2 : ∀ m, forwardXY ω L 0 b m = 0 := fun m => by rw [forwardXY, hd2]; simp
  have hf1 : ∀ m, forwardXY ω L a 0 m = ((star ((ω⁻¹ • L.eTan a 0) m) * L.hTan a 0 m).re : ℝ) := fun m => by
    have := xy_sum ω L a 0 m
    rw [← this, hb1, add_zero, forwardXY, hd1]; simp
  have hb2 : ∀ m, backwardXY ω L 0 b m = ((star ((ω⁻¹ • L.eTan 0 b) m) * L.hTan 0 b m).re : ℝ) := fun m => by
    have := xy_sum ω L 0 b m
    rw [← this, hf2, zero_add, backwardXY, hd2]; simp
  refine ⟨fun i => ⟨by simp [fluxByOrder, hb1], ?_⟩, by simp [zPoyntingFlux, fluxByOrder, hb1],
    fun i => ⟨by simp [fluxByOrder, hf2], ?_⟩, by simp [zPoyntingFlux, fluxByOrder, hf2]⟩
  · simp only [fluxByOrder, hf1, orderFlux]; push_cast; rfl
  · simp only [fluxByOrder, hb2, orderFlux]; push_cast; rfl

/-- A vacuum layer with one order at frequency 1 carries flux 1 in a unit forward wave and -1 in a unit backward wave. -/
example : (zPoyntingFlux 1 (uniformLayer (κ := Unit) 1 (fun _ => 0) (fun _ => 0) 1 1) (Sum.elim 0 1) 0).1 = 1 ∧
    (zPoyntingFlux 1 (uniformLayer (κ := Unit) 1 (fun _ => 0) (fun _ => 0) 1 1) 0 (Sum.elim 0 1)).2 = -1 := by
  have hq : qUniform (κ := Unit) 1 1 (fun _ => 0) (fun _ => 0) = fun _ => 1 := by
    ext m
    have := branchQ_csqrt_of_sq 1 (by simp) (by simp)
    rcases m with m | m <;> · simp [qUniform]; simpa using this
  have hkp : kpUniform (κ := Unit) 1 (1 / 1) (fun _ => 0) (fun _ => 0) = 1 := by
    have : jkMat (κ := Unit) (fun _ => 0) (fun _ => 0) = 0 := by
      ext (i | i) j <;> simp [jkMat]
    rw [kpUniform, this]; simp
  have hA : fluxA 1 (uniformLayer (κ := Unit) 1 (fun _ => 0) (fun _ => 0) 1 1) = 1 := by
    rw [fluxA, uniformLayer, hq, hkp]; simp
  have hp : (uniformLayer (κ := Unit) 1 (fun _ => 0) (fun _ => 0) 1 1).phi = 1 := rfl
  constructor <;> simp [zPoyntingFlux, fluxByOrder, forwardXY, backwardXY, fluxDiff, hA, hp]

end Nidn
