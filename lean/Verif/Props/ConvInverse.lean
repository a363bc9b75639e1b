/-
C189: the inverse permittivity an RCWA layer works with lies between the inverse of the mean permittivity and the mean of the inverse.
-/
import Verif.Props.ConvSolvable
import Verif.Props.Fft
import Mathlib.Algebra.QuadraticDiscriminant

namespace Nidn

open Matrix

/-- the convolution matrix as a form: the mean over the pixels of the pattern times the two fields -/
lemma conv_sesquilinear {Nx Ny n : ℕ} (s : Fin Nx → Fin Ny → ℂ) (G : Fin n → ℤ × ℤ) (C : Matrix (Fin n) (Fin n) ℂ) (hC : ∀ i j, C i j = fourierCoeff s (G i - G j)) (x y : Fin n → ℂ) :
    star y ⬝ᵥ (C *ᵥ x) = 1 / (Nx * Ny) * ∑ m : Fin Nx, ∑ k : Fin Ny, s m k * ordersField G x m k * (starRingEnd ℂ) (ordersField G y m k) := by
  have e0 : ∀ i, (C *ᵥ x) i = fourierCoeff (fun m k => s m k * ordersField G x m k) (G i) := by
    intro i
    rw [fourierCoeff_product, Matrix.mulVec, dotProduct]
    exact Finset.sum_congr rfl fun j _ => by rw [hC]
  have e : ∀ (m : Fin Nx) (k : Fin Ny), s m k * ordersField G x m k * (starRingEnd ℂ) (ordersField G y m k) =
      ∑ i, (starRingEnd ℂ) (y i) * (s m k * ordersField G x m k * Complex.exp (-(2 * Real.pi * Complex.I) * ((m : ℕ) * (G i).1 / Nx + (k : ℕ) * (G i).2 / Ny))) := by
    intro m k
    conv_lhs => rw [show ordersField G y m k = ∑ i, y i * Complex.exp (2 * Real.pi * Complex.I * ((m : ℕ) * (G i).1 / Nx + (k : ℕ) * (G i).2 / Ny)) from rfl]
    rw [map_sum, Finset.mul_sum]
    refine Finset.sum_congr rfl fun i _ => ?_
    rw [map_mul, ← Complex.exp_conj]
    have : (starRingEnd ℂ) (2 * Real.pi * Complex.I * ((m : ℕ) * (G i).1 / Nx + (k : ℕ) * (G i).2 / Ny)) = -(2 * Real.pi * Complex.I) * ((m : ℕ) * (G i).1 / Nx + (k : ℕ) * (G i).2 / Ny) := by
      simp only [map_mul, map_add, map_div₀, Complex.conj_ofReal, Complex.conj_I, map_natCast, map_intCast, map_ofNat]
      ring
    rw [this]; ring
  rw [Finset.sum_congr rfl fun m (_ : m ∈ Finset.univ) => Finset.sum_congr rfl fun k (_ : k ∈ Finset.univ) => e m k, dotProduct]
  have h1 : ∑ m : Fin Nx, ∑ k : Fin Ny, ∑ i, (starRingEnd ℂ) (y i) * (s m k * ordersField G x m k * Complex.exp (-(2 * Real.pi * Complex.I) * ((m : ℕ) * (G i).1 / Nx + (k : ℕ) * (G i).2 / Ny))) =
      ∑ i, (starRingEnd ℂ) (y i) * ∑ m : Fin Nx, ∑ k : Fin Ny, s m k * ordersField G x m k * Complex.exp (-(2 * Real.pi * Complex.I) * ((m : ℕ) * (G i).1 / Nx + (k : ℕ) * (G i).2 / Ny)) := by
    simp only [Finset.mul_sum]
    rw [Finset.sum_comm (s := (Finset.univ : Finset (Fin n)))]
    refine Finset.sum_congr rfl fun m _ => ?_
    rw [Finset.sum_comm]
  rw [h1, Finset.mul_sum]
  refine Finset.sum_congr rfl fun i _ => ?_
  rw [e0, fourierCoeff, Pi.star_apply, Complex.star_def]
  ring

/-- the mean over the pixels of a real quantity -/
noncomputable def pixelMean {Nx Ny : ℕ} (f : Fin Nx → Fin Ny → ℝ) : ℝ := 1 / (Nx * Ny) * ∑ m, ∑ k, f m k

lemma pixelMean_nonneg {Nx Ny : ℕ} {f : Fin Nx → Fin Ny → ℝ} (h : ∀ m k, 0 ≤ f m k) : 0 ≤ pixelMean f :=
  mul_nonneg (by positivity) (Finset.sum_nonneg fun m _ => Finset.sum_nonneg fun k _ => h m k)

lemma pixelMean_add {Nx Ny : ℕ} (f g : Fin Nx → Fin Ny → ℝ) : pixelMean (fun m k => f m k + g m k) = pixelMean f + pixelMean g := by
  simp only [pixelMean, Finset.sum_add_distrib, mul_add]

lemma pixelMean_mul {Nx Ny : ℕ} (c : ℝ) (f : Fin Nx → Fin Ny → ℝ) : pixelMean (fun m k => c * f m k) = c * pixelMean f := by
  simp only [pixelMean, ← Finset.mul_sum]; ring

lemma pixelMean_mono {Nx Ny : ℕ} {f g : Fin Nx → Fin Ny → ℝ} (h : ∀ m k, f m k ≤ g m k) : pixelMean f ≤ pixelMean g :=
  mul_le_mul_of_nonneg_left (Finset.sum_le_sum fun m _ => Finset.sum_le_sum fun k _ => h m k) (by positivity)

/-- the form of a real pattern with one field -/
lemma conv_form_real {Nx Ny n : ℕ} (ε : Fin Nx → Fin Ny → ℝ) (G : Fin n → ℤ × ℤ) (C : Matrix (Fin n) (Fin n) ℂ) (hC : ∀ i j, C i j = fourierCoeff (fun m k => (ε m k : ℂ)) (G i - G j)) (x : Fin n → ℂ) :
    star x ⬝ᵥ (C *ᵥ x) = ((pixelMean fun m k => ε m k * Complex.normSq (ordersField G x m k) : ℝ) : ℂ) := by
  rw [conv_sesquilinear _ G C hC]
  simp only [pixelMean, mul_assoc, Complex.mul_conj]
  push_cast
  rfl

/-- the real part of the form of a real pattern with two fields -/
lemma conv_form_re {Nx Ny n : ℕ} (ε : Fin Nx → Fin Ny → ℝ) (G : Fin n → ℤ × ℤ) (C : Matrix (Fin n) (Fin n) ℂ) (hC : ∀ i j, C i j = fourierCoeff (fun m k => (ε m k : ℂ)) (G i - G j)) (x y : Fin n → ℂ) :
    (star y ⬝ᵥ (C *ᵥ x)).re = pixelMean fun m k => ε m k * (ordersField G x m k * (starRingEnd ℂ) (ordersField G y m k)).re := by
  rw [conv_sesquilinear _ G C hC, pixelMean]
  have : (1 / (Nx * Ny) : ℂ) = ((1 / (Nx * Ny) : ℝ) : ℂ) := by push_cast; rfl
  rw [this, Complex.re_ofReal_mul, Complex.re_sum]
  congr 1
  refine Finset.sum_congr rfl fun m _ => ?_
  rw [Complex.re_sum]
  refine Finset.sum_congr rfl fun k _ => ?_
  rw [mul_assoc, Complex.re_ofReal_mul]

/-- the identity is the convolution matrix of the pattern 1 -/
lemma one_conv {Nx Ny n : ℕ} (G : Fin n → ℤ × ℤ) (hG : Function.Injective G) (hr : Resolved Nx Ny G) (i j : Fin n) :
    (1 : Matrix (Fin n) (Fin n) ℂ) i j = fourierCoeff (fun (_ : Fin Nx) (_ : Fin Ny) => ((1 : ℝ) : ℂ)) (G i - G j) := by
  rw [fourierCoeff_const _ _ (hr i j).1 (hr i j).2, Matrix.one_apply]
  simp [sub_eq_zero, hG.eq_iff]

/-- C189: for a lossless pattern of positive permittivities, distinct orders and a grid that resolves them, `Epsilon_fft` returns an inverse permittivity whose mean over any field of the orders is real, at least the inverse of
the mean permittivity and at most the mean of the inverse permittivity (the rule for fields along and across the stripes of a grating). -/
theorem C189_between {Nx Ny n : ℕ} (ε : Fin Nx → Fin Ny → ℝ) (hε : ∀ m k, 0 < ε m k) (G : Fin n → ℤ × ℤ) (hG : Function.Injective G) (hr : Resolved Nx Ny G) :
    ∃ C epinv ep2 R, getConv (1 / Nx / Ny) (fun m k => (ε m k : ℂ)) G = .ok C ∧ epsilonFft (1 / Nx / Ny) (.iso fun m k => (ε m k : ℂ)) G = .ok (epinv, ep2) ∧
      getConv (1 / Nx / Ny) (fun m k => (1 / ε m k : ℂ)) G = .ok R ∧
      ∀ x : Fin n → ℂ, (star x ⬝ᵥ (epinv *ᵥ x)).im = 0 ∧ (∑ i, ‖x i‖ ^ 2) ^ 2 ≤ (star x ⬝ᵥ (C *ᵥ x)).re * (star x ⬝ᵥ (epinv *ᵥ x)).re ∧
        (star x ⬝ᵥ (epinv *ᵥ x)).re ≤ (star x ⬝ᵥ (R *ᵥ x)).re := by
  obtain ⟨C, epinv, ep2, h1, h2, h3, h4⟩ := C15_invertible (fun m k => (ε m k : ℂ)) G hG hr Complex.I (fun a b => by simpa using hε a b)
  obtain ⟨C', e1, hC⟩ := (C15_entries (fun m k => (ε m k : ℂ)) G).1 hr
  rw [h1] at e1; injection e1 with e1; subst e1
  obtain ⟨R, r1, hR⟩ := (C15_entries (fun m k => (1 / ε m k : ℂ)) G).1 hr
  refine ⟨C, epinv, ep2, R, h1, h2, r1, fun x => ?_⟩
  set y := epinv *ᵥ x with hy
  have hCy : C *ᵥ y = x := by rw [hy, Matrix.mulVec_mulVec, h4, Matrix.one_mulVec]
  set X := ordersField (Nx := Nx) (Ny := Ny) G x with hX
  set Y := ordersField (Nx := Nx) (Ny := Ny) G y with hY
  have hR' : ∀ i j, R i j = fourierCoeff (fun m k => ((1 / ε m k : ℝ) : ℂ)) (G i - G j) := by
    intro i j; rw [hR]; push_cast; rfl
  have hone := one_conv (Nx := Nx) (Ny := Ny) G hG hr
  set a := pixelMean fun m k => ε m k * Complex.normSq (Y m k) with ha
  set c := pixelMean fun m k => ε m k * Complex.normSq (X m k) with hc
  set r := pixelMean fun m k => 1 / ε m k * Complex.normSq (X m k) with hrr
  set N := pixelMean fun (m : Fin Nx) (k : Fin Ny) => 1 * Complex.normSq (X m k) with hN
  have qa : star y ⬝ᵥ x = (a : ℂ) := by
    have := conv_form_real ε G C hC y
    rwa [hCy] at this
  have qx : star x ⬝ᵥ y = (a : ℂ) := by
    have := congrArg star qa
    rw [← Matrix.star_dotProduct_star] at this
    rw [show star x ⬝ᵥ y = star (star y ⬝ᵥ x) by rw [← Matrix.star_dotProduct_star, star_star, dotProduct_comm], qa]
    simp
  have qc : (star x ⬝ᵥ (C *ᵥ x)).re = c := by rw [conv_form_real ε G C hC x, Complex.ofReal_re]
  have qr : (star x ⬝ᵥ (R *ᵥ x)).re = r := by rw [conv_form_real _ G R hR' x, Complex.ofReal_re]
  have qN : star x ⬝ᵥ x = (N : ℂ) := by
    have := conv_form_real (fun (_ : Fin Nx) (_ : Fin Ny) => (1 : ℝ)) G 1 hone x
    rwa [Matrix.one_mulVec] at this
  have qN' : ∑ i, ‖x i‖ ^ 2 = N := by
    rw [star_dot_self] at qN
    have := Complex.ofReal_injective qN
    rw [← this]
    exact Finset.sum_congr rfl fun i _ => (Complex.normSq_eq_norm_sq _).symm
  have cross1 : pixelMean (fun m k => (1 : ℝ) * (X m k * (starRingEnd ℂ) (Y m k)).re) = a := by
    have := conv_form_re (fun (_ : Fin Nx) (_ : Fin Ny) => (1 : ℝ)) G 1 hone x y
    rw [Matrix.one_mulVec, qa, Complex.ofReal_re] at this
    exact this.symm
  have cross2 : pixelMean (fun m k => ε m k * (Y m k * (starRingEnd ℂ) (X m k)).re) = N := by
    have := conv_form_re ε G C hC y x
    rw [hCy, qN, Complex.ofReal_re] at this
    exact this.symm
  refine ⟨by rw [qx, Complex.ofReal_im], ?_, ?_⟩
  · rw [qc, qx, Complex.ofReal_re, qN']
    have hq : ∀ t : ℝ, 0 ≤ a * (t * t) + (-2 * N) * t + c := by
      intro t
      have e : a * (t * t) + (-2 * N) * t + c = pixelMean fun m k => ε m k * Complex.normSq (X m k - t * Y m k) := by
        have : (fun (m : Fin Nx) (k : Fin Ny) => ε m k * Complex.normSq (X m k - t * Y m k)) = fun m k =>
            ((t * t) * (ε m k * Complex.normSq (Y m k)) + (-2 * t) * (ε m k * (Y m k * (starRingEnd ℂ) (X m k)).re)) + ε m k * Complex.normSq (X m k) := by
          funext m k
          simp only [Complex.normSq_apply, Complex.sub_re, Complex.sub_im, Complex.mul_re, Complex.mul_im, Complex.ofReal_re, Complex.ofReal_im, Complex.conj_re, Complex.conj_im]
          ring
        rw [this, pixelMean_add, pixelMean_add, pixelMean_mul, pixelMean_mul, cross2]
        ring
      rw [e]
      exact pixelMean_nonneg fun m k => mul_nonneg (hε m k).le (Complex.normSq_nonneg _)
    have := discrim_le_zero hq
    unfold discrim at this
    linarith
  · rw [qr, qx, Complex.ofReal_re]
    have e : r - a = pixelMean fun m k => ε m k * Complex.normSq (Y m k - ((1 / ε m k : ℝ) : ℂ) * X m k) := by
      have : (fun (m : Fin Nx) (k : Fin Ny) => ε m k * Complex.normSq (Y m k - ((1 / ε m k : ℝ) : ℂ) * X m k)) = fun m k =>
          (ε m k * Complex.normSq (Y m k) + (-2) * ((1 : ℝ) * (X m k * (starRingEnd ℂ) (Y m k)).re)) + 1 / ε m k * Complex.normSq (X m k) := by
        funext m k
        have := (hε m k).ne'
        simp only [Complex.normSq_apply, Complex.sub_re, Complex.sub_im, Complex.mul_re, Complex.mul_im, Complex.ofReal_re, Complex.ofReal_im, Complex.conj_re, Complex.conj_im]
        field_simp
        ring
      rw [this, pixelMean_add, pixelMean_add, pixelMean_mul, cross1]
      ring
    have h0 : 0 ≤ r - a := by
      rw [e]
      exact pixelMean_nonneg fun m k => mul_nonneg (hε m k).le (Complex.normSq_nonneg _)
    linarith

/-- C189: with as many orders as pixels nothing is lost: the inverse permittivity `Epsilon_fft` returns is the convolution matrix of the inverse pattern. -/
theorem C189_complete {Nx Ny n : ℕ} (s : Fin Nx → Fin Ny → ℂ) (hs : ∀ m k, s m k ≠ 0) (G : Fin n → ℤ × ℤ) (hG : Function.Injective G) (hr : Resolved Nx Ny G) (hi : OrdersInRange Nx Ny G) (hn : n = Nx * Ny) :
    ∃ epinv ep2, epsilonFft (1 / Nx / Ny) (.iso s) G = .ok (epinv, ep2) ∧ getConv (1 / Nx / Ny) (fun m k => 1 / s m k) G = .ok epinv := by
  obtain ⟨C, h1, hC⟩ := (C15_entries s G).1 hr
  obtain ⟨R, r1, hR⟩ := (C15_entries (fun m k => 1 / s m k) G).1 hr
  have key : C * R = 1 := by
    apply Matrix.ext_of_mulVec_single
    intro j
    rw [Matrix.one_mulVec, ← Matrix.mulVec_mulVec]
    set x : Fin n → ℂ := Pi.single j 1 with hx
    have e1 : R *ᵥ x = fun i => fourierCoeff (fun m k => 1 / s m k * ordersField G x m k) (G i) := by
      funext i
      rw [fourierCoeff_product, Matrix.mulVec, dotProduct]
      exact Finset.sum_congr rfl fun j _ => by rw [hR]
    have e2 := C185_complete G hG hr hn _ _ ((C185_coefficients (fun m k => 1 / s m k * ordersField G x m k) G).1 hi)
    rw [← e1] at e2
    funext i
    have e4 : (C *ᵥ (R *ᵥ x)) i = fourierCoeff (fun m k => s m k * ordersField G (R *ᵥ x) m k) (G i) := by
      rw [fourierCoeff_product, Matrix.mulVec, dotProduct]
      exact Finset.sum_congr rfl fun j _ => by rw [hC]
    rw [e4, e2]
    have e5 : (fun m k => s m k * (1 / s m k * ordersField (Nx := Nx) (Ny := Ny) G x m k)) = ordersField G x := by
      funext m k
      rw [← mul_assoc, mul_one_div, div_self (hs m k), one_mul]
    rw [e5, fourierCoeff_ordersField G hG hr]
  have hu : IsUnit C.det := (Matrix.isUnit_iff_isUnit_det C).1 (IsUnit.of_mul_eq_one R key)
  obtain ⟨inv, eps2, h, e1, e2, -⟩ := (C15_solver_matrices_partial s G C h1).1 hu
  refine ⟨inv, eps2, h, ?_⟩
  rw [r1]
  congr 1
  calc R = inv * C * R := by rw [e1, Matrix.one_mul]
    _ = inv := by rw [Matrix.mul_assoc, key, Matrix.mul_one]

/-- C189: for permittivities between `lo > 0` and `hi` the inverse permittivity lies between `1 / hi` and `1 / lo`. -/
theorem C189_bounds {Nx Ny n : ℕ} (ε : Fin Nx → Fin Ny → ℝ) (lo hi : ℝ) (hlo : 0 < lo) (hε : ∀ m k, lo ≤ ε m k ∧ ε m k ≤ hi) (G : Fin n → ℤ × ℤ) (hG : Function.Injective G)
    (epinv : Matrix (Fin n) (Fin n) ℂ) (ep2 : Matrix (Fin n ⊕ Fin n) (Fin n ⊕ Fin n) ℂ) (h : epsilonFft (1 / Nx / Ny) (.iso fun m k => (ε m k : ℂ)) G = .ok (epinv, ep2))
    (x : Fin n → ℂ) (hx : ∑ i, ‖x i‖ ^ 2 = 1) : 1 / hi ≤ (star x ⬝ᵥ (epinv *ᵥ x)).re ∧ (star x ⬝ᵥ (epinv *ᵥ x)).re ≤ 1 / lo := by
  have hr : Resolved Nx Ny G := by
    by_contra hn
    simp only [epsilonFft] at h
    rw [(C15_entries (fun m k => (ε m k : ℂ)) G).2 hn] at h
    cases h
  have hpos : ∀ m k, 0 < ε m k := fun m k => hlo.trans_le (hε m k).1
  obtain ⟨C, epinv', ep2', R, h1, h2, h3, h4⟩ := C189_between ε hpos G hG hr
  rw [h] at h2
  injection h2 with h2
  obtain ⟨rfl, rfl⟩ := Prod.mk.inj h2
  obtain ⟨-, l, u⟩ := h4 x
  obtain ⟨C', e1, hC⟩ := (C15_entries (fun m k => (ε m k : ℂ)) G).1 hr
  rw [h1] at e1; injection e1 with e1; subst e1
  obtain ⟨R', e1, hR⟩ := (C15_entries (fun m k => (1 / ε m k : ℂ)) G).1 hr
  rw [h3] at e1; injection e1 with e1; subst e1
  have hR' : ∀ i j, R i j = fourierCoeff (fun m k => ((1 / ε m k : ℝ) : ℂ)) (G i - G j) := by
    intro i j; rw [hR]; push_cast; rfl
  have hN : pixelMean (fun (m : Fin Nx) (k : Fin Ny) => Complex.normSq (ordersField G x m k)) = 1 := by
    have q := conv_form_real (fun (_ : Fin Nx) (_ : Fin Ny) => (1 : ℝ)) G 1 (one_conv G hG hr) x
    rw [Matrix.one_mulVec, star_dot_self] at q
    have q := Complex.ofReal_injective q
    simp only [one_mul] at q
    rw [← q, ← hx]
    exact Finset.sum_congr rfl fun i _ => Complex.normSq_eq_norm_sq _
  have hc : (star x ⬝ᵥ (C *ᵥ x)).re ≤ hi := by
    rw [conv_form_real ε G C hC x, Complex.ofReal_re]
    refine (pixelMean_mono fun m k => mul_le_mul_of_nonneg_right (hε m k).2 (Complex.normSq_nonneg _)).trans ?_
    rw [pixelMean_mul, hN, mul_one]
  have hc0 : lo ≤ (star x ⬝ᵥ (C *ᵥ x)).re := by
    rw [conv_form_real ε G C hC x, Complex.ofReal_re]
    refine le_trans ?_ (pixelMean_mono fun m k => mul_le_mul_of_nonneg_right (hε m k).1 (Complex.normSq_nonneg _))
    rw [pixelMean_mul, hN, mul_one]
  have hrr : (star x ⬝ᵥ (R *ᵥ x)).re ≤ 1 / lo := by
    rw [conv_form_real _ G R hR' x, Complex.ofReal_re]
    refine (pixelMean_mono fun m k => mul_le_mul_of_nonneg_right (one_div_le_one_div_of_le hlo (hε m k).1) (Complex.normSq_nonneg _)).trans ?_
    rw [pixelMean_mul, hN, mul_one]
  refine ⟨?_, u.trans hrr⟩
  rw [hx, one_pow] at l
  have hcp : 0 < (star x ⬝ᵥ (C *ᵥ x)).re := hlo.trans_le hc0
  calc 1 / hi ≤ 1 / (star x ⬝ᵥ (C *ᵥ x)).re := one_div_le_one_div_of_le hcp hc
    _ ≤ _ := by rw [div_le_iff₀ hcp, mul_comm]; exact l

/-- C189, patterns with loss: where no pixel amplifies, the inverse permittivity amplifies for no field either. -/
theorem C189_passive {Nx Ny n : ℕ} (s : Fin Nx → Fin Ny → ℂ) (hs : ∀ m k, 0 ≤ (s m k).im) (G : Fin n → ℤ × ℤ)
    (epinv : Matrix (Fin n) (Fin n) ℂ) (ep2 : Matrix (Fin n ⊕ Fin n) (Fin n ⊕ Fin n) ℂ) (h : epsilonFft (1 / Nx / Ny) (.iso s) G = .ok (epinv, ep2))
    (x : Fin n → ℂ) : (star x ⬝ᵥ (epinv *ᵥ x)).im ≤ 0 := by
  have hr : Resolved Nx Ny G := by
    by_contra hn
    simp only [epsilonFft] at h
    rw [(C15_entries s G).2 hn] at h
    cases h
  obtain ⟨C, h1, hC⟩ := (C15_entries s G).1 hr
  have hu : IsUnit C.det := by
    by_contra hn
    rw [(C15_solver_matrices_partial s G C h1).2 hn] at h
    cases h
  obtain ⟨inv, eps2, h2, -, h4, -⟩ := (C15_solver_matrices_partial s G C h1).1 hu
  rw [h] at h2
  injection h2 with h2
  obtain ⟨rfl, rfl⟩ := Prod.mk.inj h2
  set y := epinv *ᵥ x with hy
  have hCy : C *ᵥ y = x := by rw [hy, Matrix.mulVec_mulVec, h4, Matrix.one_mulVec]
  have q := conv_sesquilinear s G C hC y y
  rw [hCy] at q
  have him : 0 ≤ (star y ⬝ᵥ x).im := by
    have : (1 / (Nx * Ny) : ℂ) = ((1 / (Nx * Ny) : ℝ) : ℂ) := by push_cast; rfl
    rw [q, this, Complex.im_ofReal_mul, Complex.im_sum]
    refine mul_nonneg (by positivity) (Finset.sum_nonneg fun m _ => ?_)
    rw [Complex.im_sum]
    refine Finset.sum_nonneg fun k _ => ?_
    rw [mul_assoc, Complex.mul_conj, Complex.im_mul_ofReal]
    exact mul_nonneg (hs m k) (Complex.normSq_nonneg _)
  rw [show star x ⬝ᵥ y = star (star y ⬝ᵥ x) by rw [← Matrix.star_dotProduct_star, star_star, dotProduct_comm]]
  simpa using him

/-- C189, anisotropic patterns: the inverse permittivity is the one of the third pattern alone, so all of C189 holds for it. -/
theorem C189_anisotropic {Nx Ny n : ℕ} (sx sy sz : Fin Nx → Fin Ny → ℂ) (G : Fin n → ℤ × ℤ) (epinv : Matrix (Fin n) (Fin n) ℂ) :
    (∃ ep2, epsilonFft (1 / Nx / Ny) (.aniso sx sy sz) G = .ok (epinv, ep2)) ↔ ∃ ep2, epsilonFft (1 / Nx / Ny) (.iso sz) G = .ok (epinv, ep2) := by
  by_cases hr : Resolved Nx Ny G
  · obtain ⟨X, x1, -⟩ := (C15_entries sx G).1 hr
    obtain ⟨Y, y1, -⟩ := (C15_entries sy G).1 hr
    obtain ⟨Z, z1, -⟩ := (C15_entries sz G).1 hr
    simp only [epsilonFft]
    rw [x1, ok_bind, y1, ok_bind, z1, ok_bind, ok_bind]
    unfold torchInverse
    by_cases hu : IsUnit Z.det
    · rw [if_pos hu, ok_bind, ok_bind]
      constructor
      · rintro ⟨e, he⟩
        cases he
        exact ⟨_, rfl⟩
      · rintro ⟨e, he⟩
        cases he
        exact ⟨_, rfl⟩
    · rw [if_neg hu]
      constructor <;> rintro ⟨e, he⟩ <;> cases he
  · simp only [epsilonFft]
    rw [(C15_entries sx G).2 hr, (C15_entries sz G).2 hr]
    constructor <;> rintro ⟨e, he⟩ <;> cases he

/-- the two-pixel grating of permittivities 1 and 3 with the zeroth order only: the mean permittivity is 2, the inverse permittivity 1/2, below the mean inverse permittivity 2/3 -/
example : ∃ C epinv ep2 R, getConv (1 / (2 : ℕ) / (1 : ℕ)) (fun (m : Fin 2) (_ : Fin 1) => ((if m = 0 then 1 else 3 : ℝ) : ℂ)) oneOrder = .ok C ∧
    epsilonFft (1 / (2 : ℕ) / (1 : ℕ)) (.iso fun (m : Fin 2) (_ : Fin 1) => ((if m = 0 then 1 else 3 : ℝ) : ℂ)) oneOrder = .ok (epinv, ep2) ∧
    getConv (1 / (2 : ℕ) / (1 : ℕ)) (fun (m : Fin 2) (_ : Fin 1) => (1 / ((if m = 0 then 1 else 3 : ℝ) : ℂ) : ℂ)) oneOrder = .ok R ∧ C 0 0 = 2 ∧ epinv 0 0 = 1 / 2 ∧ R 0 0 = 2 / 3 := by
  have hr : Resolved 2 1 oneOrder := by intro i j; simp [oneOrder]
  have hG : Function.Injective oneOrder := fun i j _ => Subsingleton.elim i j
  obtain ⟨C, epinv, ep2, R, h1, h2, h3, -⟩ := C189_between (fun (m : Fin 2) (_ : Fin 1) => if m = 0 then 1 else 3) (fun m _ => by split_ifs <;> norm_num) oneOrder hG hr
  obtain ⟨C', e1, hC⟩ := (C15_entries (fun (m : Fin 2) (_ : Fin 1) => ((if m = 0 then 1 else 3 : ℝ) : ℂ)) oneOrder).1 hr
  obtain rfl : C = C' := by rw [h1] at e1; injection e1
  obtain ⟨R', e1, hR⟩ := (C15_entries (fun (m : Fin 2) (_ : Fin 1) => (1 / ((if m = 0 then 1 else 3 : ℝ) : ℂ) : ℂ)) oneOrder).1 hr
  obtain rfl : R = R' := by rw [h3] at e1; injection e1
  have c0 : C 0 0 = 2 := by rw [hC]; simp [fourierCoeff, oneOrder, Fin.sum_univ_two]; norm_num
  have r0 : R 0 0 = 2 / 3 := by rw [hR]; simp [fourierCoeff, oneOrder, Fin.sum_univ_two]; norm_num
  have hu : IsUnit C.det := by rw [Matrix.det_fin_one, c0]; norm_num
  obtain ⟨inv, eps2, h, e1, e2, -⟩ := (C15_solver_matrices_partial _ oneOrder C h1).1 hu
  rw [h] at h2
  injection h2 with h2
  obtain ⟨rfl, rfl⟩ := Prod.mk.inj h2
  have i0 : inv 0 0 = 1 / 2 := by
    have := congrFun (congrFun e1 0) 0
    rw [Matrix.mul_apply, Fin.sum_univ_one, c0, Matrix.one_apply_eq] at this
    rw [← this]; ring
  exact ⟨C, inv, eps2, R, h1, h, h3, c0, i0, r0⟩

/-- the hypotheses of `C189_complete` for the two-pixel grating with the orders 0 and 1 -/
example : (∀ m k, twoPixel m k ≠ 0) ∧ Function.Injective twoOrders ∧ Resolved 2 1 twoOrders ∧ OrdersInRange 2 1 twoOrders ∧ 2 = 2 * 1 := by
  refine ⟨fun m k => ?_, by unfold twoOrders; decide, resolved_twoOrders 2 le_rfl, fun i => ?_, rfl⟩
  · fin_cases m <;> simp [twoPixel]
  · fin_cases i <;> simp [twoOrders]

/-- a lossy grating with an answer -/
example : (∀ (m : Fin 2) (_ : Fin 1), 0 ≤ (if m = 0 then ⟨1, 1⟩ else ⟨-3, 2⟩ : ℂ).im) ∧
    ∃ epinv ep2, epsilonFft (1 / (2 : ℕ) / (1 : ℕ)) (.iso fun (m : Fin 2) (_ : Fin 1) => (if m = 0 then ⟨1, 1⟩ else ⟨-3, 2⟩ : ℂ)) twoOrders = .ok (epinv, ep2) := by
  refine ⟨fun m _ => by fin_cases m <;> simp, ?_⟩
  obtain ⟨-, epinv, ep2, -, h, -⟩ := C15_invertible (fun (m : Fin 2) (_ : Fin 1) => (if m = 0 then ⟨1, 1⟩ else ⟨-3, 2⟩ : ℂ)) twoOrders (by unfold twoOrders; decide) (resolved_twoOrders 2 le_rfl) 1
    (fun a _ => by fin_cases a <;> simp)
  exact ⟨epinv, ep2, h⟩

end Nidn
