/-
Properties C19 (lossless stacks conserve energy) and C20 (passive stacks never amplify).
-/
import Verif.Lemmas.HalfSpace
import Verif.Props.SMatrix

set_option linter.unusedSectionVars false

namespace Nidn

open Matrix

section General

variable {κ : Type} [Fintype κ] [DecidableEq κ]

lemma through_inOrder {ω ε : ℂ} {kx ky : κ → ℂ} {d : ℝ} {o : κ} {a : κ ⊕ κ → ℂ} (ha : InOrder o a) :
    (uniformLayer ω kx ky ε d).through a = Complex.exp (Complex.I * qOrd ω ε kx ky o * d) • a := by
  ext m
  rcases m with i | i
  · rcases eq_or_ne i o with rfl | h
    · rfl
    · simp [LayerData.through, (ha i h).1]
  · rcases eq_or_ne i o with rfl | h
    · rfl
    · simp [LayerData.through, (ha i h).2]

lemma inOrder_smul {o : κ} {a : κ ⊕ κ → ℂ} (ha : InOrder o a) (c : ℂ) : InOrder o (c • a) := by
  intro i h
  simp [(ha i h).1, (ha i h).2]

lemma oneWay_smul (ω : ℂ) (L : LayerData (κ ⊕ κ)) (c : ℂ) (a : κ ⊕ κ → ℂ) : oneWay ω L (c • a) = Complex.normSq c * oneWay ω L a := by
  rw [oneWay, oneWay, Matrix.mulVec_smul, Matrix.mulVec_smul, star_smul c, smul_dotProduct (star c), dotProduct_smul, smul_smul, smul_eq_mul,
    ← Complex.re_ofReal_mul, Complex.normSq_eq_conj_mul_self]
  rfl

lemma planewave_inOrder (θ φ : ℝ) (s p : ℂ) (o : κ) : InOrder o (planewave θ φ s p o) := by
  intro i h
  simp [planewave, h]

/-- the powers behind the two numbers returned by `RT_Solve` -/
lemma rt_values {ω ε0 εN : ℂ} {kx ky : κ → ℂ} {d0 dN norm : ℝ} {mids : List (LayerData (κ ⊕ κ))} {o : κ} (hr : RealOrder ω ε0 kx ky o)
    {a0 : κ ⊕ κ → ℂ} (ha : InOrder o a0)
    (hq : ∀ M ∈ uniformLayer ω kx ky ε0 d0 :: mids ++ [uniformLayer ω kx ky εN dN], ∀ m, M.q m ≠ 0) {R T : ℝ}
    (h : rtForward ω norm (uniformLayer ω kx ky ε0 d0 :: mids ++ [uniformLayer ω kx ky εN dN]) a0 0 = .ok (R, T)) :
    ∃ aN b0, StackSol (uniformLayer ω kx ky ε0 d0 :: mids ++ [uniformLayer ω kx ky εN dN]) a0 b0 aN 0 ∧
      R = oneWay ω (uniformLayer ω kx ky ε0 d0) b0 * norm ∧ T = oneWay ω (uniformLayer ω kx ky εN dN) aN * norm := by
  unfold rtForward at h
  rw [bind_ok] at h
  obtain ⟨r, h1, h2⟩ := h
  have hsol := (C16_exterior _ hq a0 0 r.1 r.2 r h1).2 ⟨rfl, rfl⟩
  refine ⟨r.1, r.2, hsol, ?_⟩
  have e1 : (uniformLayer ω kx ky ε0 d0 :: mids ++ [uniformLayer ω kx ky εN dN]).head? = some (uniformLayer ω kx ky ε0 d0) := rfl
  have e2 : (uniformLayer ω kx ky ε0 d0 :: mids ++ [uniformLayer ω kx ky εN dN]).getLast? = some (uniformLayer ω kx ky εN dN) :=
    List.getLast?_append_of_ne_nil _ (by simp)
  rw [e1, e2] at h2
  simp only at h2
  injection h2 with h2
  injection h2 with h3 h4
  rw [← h3, ← h4]
  refine ⟨by rw [backward_re hr d0 a0 r.2 ha], ?_⟩
  have hz := (C23_one_way ω (uniformLayer ω kx ky εN dN) r.1 0).2.1
  have := zflux_eq_layerFlux ω (uniformLayer ω kx ky εN dN) r.1 0
  rw [hz, add_zero, layerFlux_zero] at this
  rw [this]

lemma through_zero {L : LayerData (κ ⊕ κ)} : L.through 0 = 0 := by ext m; simp [LayerData.through]

end General

variable {n : ℕ}

/-- One interior layer of a stack as the solver builds it, with every permittivity value satisfying `P`: a uniform layer, or a layer patterned
on an `Nx × Ny` grid whose matrices come from `Epsilon_fft` and whose modes come from the eigen-solver. The permittivity filter of
`Epsilon_fft` is assumed not to alter the matrix (see C15 for patterns where it does). -/
inductive SolverLayer (ω : ℂ) (kx ky : Fin n → ℂ) (G : Fin n → ℤ × ℤ) (P : ℂ → Prop) : LayerData (Fin n ⊕ Fin n) → Prop
  | uniform (ε : ℂ) (d : ℝ) (hd : 0 ≤ d) (hε : ε ≠ 0) (hP : P ε) : SolverLayer ω kx ky G P (uniformLayer ω kx ky ε d)
  | patterned {Nx Ny : ℕ} (s : Fin Nx → Fin Ny → ℂ) (hP : ∀ a b, P (s a b)) (epinv : Matrix (Fin n) (Fin n) ℂ)
      (ep2 : Matrix (Fin n ⊕ Fin n) (Fin n ⊕ Fin n) ℂ) (h : epsilonFft (1 / Nx / Ny) (.iso s) G = .ok (epinv, ep2))
      (hf : ∀ C, getConv (1 / Nx / Ny) s G = .ok C → C.map zeroSmall = C)
      (lam : Fin n ⊕ Fin n → ℂ) (phi : Matrix (Fin n ⊕ Fin n) (Fin n ⊕ Fin n) ℂ)
      (he : IsEig (eigenMat ep2 (kpPatterned ω epinv kx ky) kx ky) lam phi) (d : ℝ) (hd : 0 ≤ d) :
      SolverLayer ω kx ky G P (patternedLayer ω kx ky epinv lam phi d)

/-- what `Epsilon_fft` returns when the filter is inactive -/
lemma epsilonFft_spec {Nx Ny : ℕ} {s : Fin Nx → Fin Ny → ℂ} {G : Fin n → ℤ × ℤ} {epinv : Matrix (Fin n) (Fin n) ℂ}
    {ep2 : Matrix (Fin n ⊕ Fin n) (Fin n ⊕ Fin n) ℂ} (h : epsilonFft (1 / Nx / Ny) (.iso s) G = .ok (epinv, ep2))
    (hf : ∀ C, getConv (1 / Nx / Ny) s G = .ok C → C.map zeroSmall = C) :
    ∃ C : Matrix (Fin n) (Fin n) ℂ, (∀ i j, C i j = fourierCoeff s (G i - G j)) ∧ IsUnit C.det ∧ epinv = C⁻¹ ∧
      ep2 = fromBlocks C 0 0 C := by
  simp only [epsilonFft] at h
  rw [bind_ok] at h
  obtain ⟨C, h1, h2⟩ := h
  rw [bind_ok] at h2
  obtain ⟨inv, h3, h4⟩ := h2
  injection h4 with h4
  injection h4 with h5 h6
  have hr : Resolved Nx Ny G := by
    by_contra hn; rw [(C15_entries s G).2 hn] at h1; simp at h1
  obtain ⟨C', h7, h8⟩ := (C15_entries s G).1 hr
  rw [h7] at h1; injection h1 with h1; subst h1
  unfold torchInverse at h3
  split at h3
  · rename_i hu
    injection h3 with h3
    refine ⟨C', h8, hu, by rw [← h5, ← h3], ?_⟩
    rw [← h6, Matrix.fromBlocks_map, hf _ h7]
    congr 1 <;> (ext i j; simp [zeroSmall])
  · simp at h3

lemma sum_im_nonneg {Nx Ny : ℕ} {ω : ℂ} {s : Fin Nx → Fin Ny → ℂ} (hs : ∀ a b, 0 ≤ (ω * s a b).im) {w : Fin Nx → Fin Ny → ℝ}
    (hw : ∀ a b, 0 ≤ w a b) : 0 ≤ (ω * ∑ a, ∑ b, s a b * (w a b : ℂ)).im := by
  rw [Finset.mul_sum, Complex.im_sum]
  refine Finset.sum_nonneg fun a _ => ?_
  rw [Finset.mul_sum, Complex.im_sum]
  refine Finset.sum_nonneg fun b _ => ?_
  rw [← mul_assoc, Complex.im_mul_ofReal]
  exact mul_nonneg (hs a b) (hw a b)

lemma solverLayer_flux_le {ω : ℂ} (hω : ω ≠ 0) (hi : 0 ≤ ω.im) {kx ky : Fin n → ℂ} (hx : ∀ i, (kx i).im = 0) (hy : ∀ i, (ky i).im = 0)
    {G : Fin n → ℤ × ℤ} {L : LayerData (Fin n ⊕ Fin n)} (hL : SolverLayer ω kx ky G (fun ε => 0 ≤ (ω * ε).im) L)
    (hq : ∀ m, L.q m ≠ 0) (a b : Fin n ⊕ Fin n → ℂ) : layerFlux ω L (L.through a) b ≤ layerFlux ω L a (L.through b) := by
  cases hL with
  | uniform ε d hd hε hP => exact flux_le (uniform_maxwell hω hx hy hε d hq) (uniform_passive hi hP) hd a b
  | patterned s hP epinv ep2 h hf lam phi he d hd =>
    refine flux_le (patterned_maxwell hω hx hy he d hq) ?_ hd a b
    obtain ⟨C, hC, hu, rfl, rfl⟩ := epsilonFft_spec h hf
    have key : ∀ x, 0 ≤ (ω * (star x ⬝ᵥ (C *ᵥ x))).im := by
      intro x
      obtain ⟨w, hw, e⟩ := conv_form s G C hC x
      rw [e]
      exact sum_im_nonneg hP hw
    refine ⟨hi, fun e => ?_, fun y => ?_⟩
    · rw [block_form, mul_add, Complex.add_im]
      exact add_nonneg (key _) (key _)
    · rw [inv_form_im hu]
      exact div_nonpos_of_nonpos_of_nonneg (by linarith [key (C⁻¹ *ᵥ y)]) (Complex.normSq_nonneg _)

lemma solverLayer_flux_eq {ω : ℂ} (hω : ω ≠ 0) (hi : ω.im = 0) {kx ky : Fin n → ℂ} (hx : ∀ i, (kx i).im = 0) (hy : ∀ i, (ky i).im = 0)
    {G : Fin n → ℤ × ℤ} {L : LayerData (Fin n ⊕ Fin n)} (hL : SolverLayer ω kx ky G (fun ε => ε.im = 0) L)
    (hq : ∀ m, L.q m ≠ 0) (a b : Fin n ⊕ Fin n → ℂ) : layerFlux ω L (L.through a) b = layerFlux ω L a (L.through b) := by
  cases hL with
  | uniform ε d hd hε hP => exact flux_eq (uniform_maxwell hω hx hy hε d hq) (uniform_lossless hi hP) a b
  | patterned s hP epinv ep2 h hf lam phi he d hd =>
    refine flux_eq (patterned_maxwell hω hx hy he d hq) ?_ a b
    obtain ⟨C, hC, hu, rfl, rfl⟩ := epsilonFft_spec h hf
    have key : ∀ x, (ω * (star x ⬝ᵥ (C *ᵥ x))).im = 0 := by
      intro x
      obtain ⟨w, hw, e⟩ := conv_form s G C hC x
      have h1 := sum_im_nonneg (ω := ω) (s := s) (fun a b => by rw [Complex.mul_im, hi, hP a b]; simp) hw
      have h2 := sum_im_nonneg (ω := -ω) (s := s) (fun a b => by rw [Complex.mul_im, Complex.neg_im, hi, hP a b]; simp) hw
      rw [neg_mul, Complex.neg_im] at h2
      rw [e]; linarith
    refine ⟨hi, fun e => ?_, fun y => ?_⟩
    · rw [block_form, mul_add, Complex.add_im, key, key, add_zero]
    · rw [inv_form_im hu, key]; simp

/-! ### the incident plane wave -/

lemma qOrd_oblique {ω θ ε0 : ℝ} (hω : 0 < ω) (hc : 0 < Real.cos θ) (h0 : 0 < ε0) (φ : ℝ) {kx ky : Fin n → ℂ} {o : Fin n}
    (hkx : kx o = (ω * Real.sin θ * Real.cos φ * Real.sqrt ε0 : ℝ)) (hky : ky o = (ω * Real.sin θ * Real.sin φ * Real.sqrt ε0 : ℝ)) :
    qOrd ω ε0 kx ky o = ((Real.sqrt ε0 * ω * Real.cos θ : ℝ) : ℂ) := by
  have hs := Real.sqrt_pos.2 h0
  have h1 : (ε0 : ℂ) * ω ^ 2 - kx o ^ 2 - ky o ^ 2 = ((Real.sqrt ε0 * ω * Real.cos θ : ℝ) : ℂ) ^ 2 := by
    rw [hkx, hky]
    norm_cast
    have e1 := Real.sq_sqrt h0.le
    have e2 := Real.sin_sq_add_cos_sq θ
    have e3 := Real.sin_sq_add_cos_sq φ
    linear_combination -(ω ^ 2) * e1 - ω ^ 2 * Real.sqrt ε0 ^ 2 * Real.sin θ ^ 2 * e3 - ω ^ 2 * Real.sqrt ε0 ^ 2 * e2
  rw [qOrd, h1]
  exact branchQ_csqrt_of_sq _ (by rw [Complex.ofReal_re]; positivity) (by rw [Complex.ofReal_im])

lemma qOrd_normal {ω : ℂ} (hre : 0 < ω.re) (him : 0 ≤ ω.im) {ε0 : ℝ} (h0 : 0 < ε0) {κ : Type} {kx ky : κ → ℂ} {o : κ}
    (hkx : kx o = 0) (hky : ky o = 0) : qOrd ω ε0 kx ky o = (Real.sqrt ε0 : ℂ) * ω := by
  have hs := Real.sqrt_pos.2 h0
  have h1 : (ε0 : ℂ) * ω ^ 2 - kx o ^ 2 - ky o ^ 2 = ((Real.sqrt ε0 : ℂ) * ω) ^ 2 := by
    have e1 : ((Real.sqrt ε0 : ℝ) : ℂ) ^ 2 = ε0 := by exact_mod_cast congrArg (Complex.ofReal) (Real.sq_sqrt h0.le)
    rw [hkx, hky, mul_pow, e1]; ring
  rw [qOrd, h1]
  exact branchQ_csqrt_of_sq _ (by rw [Complex.re_ofReal_mul]; positivity) (by rw [Complex.im_ofReal_mul]; positivity)

lemma realOrder_oblique {ω θ ε0 : ℝ} (hω : 0 < ω) (hc : 0 < Real.cos θ) (h0 : 0 < ε0) (φ : ℝ) {kx ky : Fin n → ℂ} {o : Fin n}
    (hkx : kx o = (ω * Real.sin θ * Real.cos φ * Real.sqrt ε0 : ℝ)) (hky : ky o = (ω * Real.sin θ * Real.sin φ * Real.sqrt ε0 : ℝ)) :
    RealOrder ω ε0 kx ky o := by
  have hq := qOrd_oblique hω hc h0 φ hkx hky
  constructor <;> rw [hq] <;> simp only [hkx, hky, ← Complex.ofReal_inv, ← Complex.ofReal_mul, ← Complex.ofReal_pow, ← Complex.ofReal_one,
    ← Complex.ofReal_div, ← Complex.ofReal_sub, Complex.ofReal_im]

lemma realOrder_normal {ω : ℂ} (hre : 0 < ω.re) (him : 0 ≤ ω.im) {ε0 : ℝ} (h0 : 0 < ε0) {κ : Type} {kx ky : κ → ℂ} {o : κ}
    (hkx : kx o = 0) (hky : ky o = 0) : RealOrder ω ε0 kx ky o := by
  have hq := qOrd_normal hre him h0 hkx hky
  have hω : ω ≠ 0 := fun h => by rw [h] at hre; simp at hre
  have e : ω⁻¹ * ((Real.sqrt ε0 : ℂ) * ω)⁻¹ * (ω ^ 2 - 1 / ε0 * 0 ^ 2) = ((1 / Real.sqrt ε0 : ℝ) : ℂ) := by
    have : (Real.sqrt ε0 : ℂ) ≠ 0 := by exact_mod_cast (Real.sqrt_pos.2 h0).ne'
    push_cast; field_simp; ring
  constructor
  · rw [hq, hky, e, Complex.ofReal_im]
  · rw [hkx, hky]; simp
  · rw [hq, hkx, e, Complex.ofReal_im]

/-- power of a plane wave in its order -/
lemma oneWay_planewave (ω ε : ℂ) (kx ky : Fin n → ℂ) (hx : ∀ i, (kx i).im = 0) (hy : ∀ i, (ky i).im = 0) (d : ℝ) {o : Fin n}
    {a : Fin n ⊕ Fin n → ℂ} (ha : InOrder o a) :
    oneWay ω (uniformLayer ω kx ky ε d) a = (ω⁻¹ * (qOrd ω ε kx ky o)⁻¹ *
      (ω ^ 2 * ((Complex.normSq (a (.inl o)) + Complex.normSq (a (.inr o)) : ℝ) : ℂ)
        - 1 / ε * ((Complex.normSq (kx o * a (.inr o) - ky o * a (.inl o)) : ℝ) : ℂ))).re := by
  rw [oneWay_uniform ω ε kx ky hx hy, Finset.sum_eq_single o]
  · intro i _ h
    rw [(ha i h).1, (ha i h).2]; simp
  · simp

lemma planewave_norm (θ φ : ℝ) (s p : ℂ) (o : Fin n) :
    Complex.normSq (planewave θ φ s p o (.inl o)) + Complex.normSq (planewave θ φ s p o (.inr o)) =
      Complex.normSq s * Real.cos θ ^ 2 + Complex.normSq p := by
  have e3 := Real.sin_sq_add_cos_sq φ
  simp only [planewave, Sum.elim_inl, Sum.elim_inr, if_true, Complex.normSq_apply]
  generalize Real.cos θ = c
  generalize Real.cos φ = x at *
  generalize Real.sin φ = y at *
  simp
  linear_combination ((s.re ^ 2 + s.im ^ 2) * c ^ 2 + p.re ^ 2 + p.im ^ 2) * e3

/-- power of the incident wave at oblique incidence -/
lemma incident_oblique {ω θ ε0 : ℝ} (hω : 0 < ω) (hc : 0 < Real.cos θ) (h0 : 0 < ε0) (φ : ℝ) {kx ky : Fin n → ℂ}
    (hx : ∀ i, (kx i).im = 0) (hy : ∀ i, (ky i).im = 0) {o : Fin n}
    (hkx : kx o = (ω * Real.sin θ * Real.cos φ * Real.sqrt ε0 : ℝ)) (hky : ky o = (ω * Real.sin θ * Real.sin φ * Real.sqrt ε0 : ℝ))
    (d : ℝ) (s p : ℂ) :
    oneWay ω (uniformLayer ω kx ky ε0 d) (planewave θ φ s p o) * rtNormalization ε0 θ = Complex.normSq s + Complex.normSq p := by
  rw [oneWay_planewave ω ε0 kx ky hx hy d (planewave_inOrder θ φ s p o), planewave_norm, qOrd_oblique hω hc h0 φ hkx hky, hkx, hky]
  have hs := Real.sqrt_pos.2 h0
  have e1 := Real.sq_sqrt h0.le
  have e2 := Real.sin_sq_add_cos_sq θ
  have e3 := Real.sin_sq_add_cos_sq φ
  have hcross : Complex.normSq (((ω * Real.sin θ * Real.cos φ * Real.sqrt ε0 : ℝ) : ℂ) * planewave θ φ s p o (.inr o) -
      ((ω * Real.sin θ * Real.sin φ * Real.sqrt ε0 : ℝ) : ℂ) * planewave θ φ s p o (.inl o)) =
      ω ^ 2 * Real.sin θ ^ 2 * ε0 * Complex.normSq p := by
    have : ((ω * Real.sin θ * Real.cos φ * Real.sqrt ε0 : ℝ) : ℂ) * planewave θ φ s p o (.inr o) -
      ((ω * Real.sin θ * Real.sin φ * Real.sqrt ε0 : ℝ) : ℂ) * planewave θ φ s p o (.inl o) =
      ((ω * Real.sin θ * Real.sqrt ε0 * (Real.sin φ ^ 2 + Real.cos φ ^ 2) : ℝ) : ℂ) * p := by
      simp only [planewave, Sum.elim_inl, Sum.elim_inr, if_true]
      push_cast; ring
    rw [this, e3, mul_one, Complex.normSq_mul, Complex.normSq_ofReal]
    linear_combination (ω ^ 2 * Real.sin θ ^ 2 * Complex.normSq p) * e1
  rw [hcross]
  have hre : ((ω : ℂ)⁻¹ * ((Real.sqrt ε0 * ω * Real.cos θ : ℝ) : ℂ)⁻¹ *
      ((ω : ℂ) ^ 2 * ((Complex.normSq s * Real.cos θ ^ 2 + Complex.normSq p : ℝ) : ℂ) -
        1 / (ε0 : ℂ) * ((ω ^ 2 * Real.sin θ ^ 2 * ε0 * Complex.normSq p : ℝ) : ℂ))) =
      ((ω⁻¹ * (Real.sqrt ε0 * ω * Real.cos θ)⁻¹ * (ω ^ 2 * (Complex.normSq s * Real.cos θ ^ 2 + Complex.normSq p) -
        1 / ε0 * (ω ^ 2 * Real.sin θ ^ 2 * ε0 * Complex.normSq p)) : ℝ) : ℂ) := by push_cast; ring
  rw [hre, Complex.ofReal_re, rtNormalization]
  field_simp
  linear_combination (-(Complex.normSq p)) * e2

/-- power of the incident wave at normal incidence, complex frequency allowed -/
lemma incident_normal {ω : ℂ} (hre : 0 < ω.re) (him : 0 ≤ ω.im) {ε0 : ℝ} (h0 : 0 < ε0) (φ : ℝ) {kx ky : Fin n → ℂ}
    (hx : ∀ i, (kx i).im = 0) (hy : ∀ i, (ky i).im = 0) {o : Fin n} (hkx : kx o = 0) (hky : ky o = 0) (d : ℝ) (s p : ℂ) :
    oneWay ω (uniformLayer ω kx ky ε0 d) (planewave 0 φ s p o) * rtNormalization ε0 0 = Complex.normSq s + Complex.normSq p := by
  have hω : ω ≠ 0 := fun h => by rw [h] at hre; simp at hre
  rw [oneWay_planewave ω ε0 kx ky hx hy d (planewave_inOrder 0 φ s p o), planewave_norm, qOrd_normal hre him h0 hkx hky, hkx, hky]
  have hs := Real.sqrt_pos.2 h0
  have hs' : (Real.sqrt ε0 : ℂ) ≠ 0 := by exact_mod_cast hs.ne'
  have e : (ω⁻¹ * ((Real.sqrt ε0 : ℂ) * ω)⁻¹ * (ω ^ 2 * ((Complex.normSq s * Real.cos 0 ^ 2 + Complex.normSq p : ℝ) : ℂ) -
      1 / (ε0 : ℂ) * ((Complex.normSq (0 * planewave 0 φ s p o (.inr o) - 0 * planewave 0 φ s p o (.inl o)) : ℝ) : ℂ))) =
      (((Complex.normSq s + Complex.normSq p) / Real.sqrt ε0 : ℝ) : ℂ) := by
    simp only [zero_mul, sub_zero, map_zero, Real.cos_zero, one_pow, mul_one, Complex.ofReal_zero, mul_zero]
    push_cast
    field_simp
  rw [e, Complex.ofReal_re, rtNormalization, Real.cos_zero]
  field_simp

/-! ## the theorems -/

/-- The transverse wave vectors of the retained orders. -/
noncomputable def kxOf (ω : ℂ) (θ φ ε0 : ℝ) (Lk1 Lk2 : ℝ × ℝ) (G : Fin n → ℤ × ℤ) : Fin n → ℂ := fun i => waveX ω θ φ ε0 Lk1 Lk2 (G i)

noncomputable def kyOf (ω : ℂ) (θ φ ε0 : ℝ) (Lk1 Lk2 : ℝ × ℝ) (G : Fin n → ℤ × ℤ) : Fin n → ℂ := fun i => waveY ω θ φ ε0 Lk1 Lk2 (G i)

lemma kxOf_real (ω : ℝ) (θ φ ε0 : ℝ) (Lk1 Lk2 : ℝ × ℝ) (G : Fin n → ℤ × ℤ) (i : Fin n) : (kxOf ω θ φ ε0 Lk1 Lk2 G i).im = 0 := by
  have : kxOf ω θ φ ε0 Lk1 Lk2 G i =
      ((ω * Real.sin θ * Real.cos φ * Real.sqrt ε0 + 2 * Real.pi * (Lk1.1 * (G i).1 + Lk2.1 * (G i).2) : ℝ) : ℂ) := by
    rw [kxOf, waveX]; push_cast; ring
  rw [this, Complex.ofReal_im]

lemma kyOf_real (ω : ℝ) (θ φ ε0 : ℝ) (Lk1 Lk2 : ℝ × ℝ) (G : Fin n → ℤ × ℤ) (i : Fin n) : (kyOf ω θ φ ε0 Lk1 Lk2 G i).im = 0 := by
  have : kyOf ω θ φ ε0 Lk1 Lk2 G i =
      ((ω * Real.sin θ * Real.sin φ * Real.sqrt ε0 + 2 * Real.pi * (Lk1.2 * (G i).1 + Lk2.2 * (G i).2) : ℝ) : ℂ) := by
    rw [kyOf, waveY]; push_cast; ring
  rw [this, Complex.ofReal_im]

lemma kOf_zero (ω : ℂ) (φ ε0 : ℝ) (Lk1 Lk2 : ℝ × ℝ) (G : Fin n → ℤ × ℤ) (i : Fin n) :
    (kxOf ω 0 φ ε0 Lk1 Lk2 G i).im = 0 ∧ (kyOf ω 0 φ ε0 Lk1 Lk2 G i).im = 0 := by
  have h1 : kxOf ω 0 φ ε0 Lk1 Lk2 G i = ((2 * Real.pi * (Lk1.1 * (G i).1 + Lk2.1 * (G i).2) : ℝ) : ℂ) := by
    rw [kxOf, waveX, Real.sin_zero]; push_cast; ring
  have h2 : kyOf ω 0 φ ε0 Lk1 Lk2 G i = ((2 * Real.pi * (Lk1.2 * (G i).1 + Lk2.2 * (G i).2) : ℝ) : ℂ) := by
    rw [kyOf, waveY, Real.sin_zero]; push_cast; ring
  rw [h1, h2, Complex.ofReal_im, Complex.ofReal_im]; exact ⟨rfl, rfl⟩

lemma kxOf_order (ω : ℝ) (θ φ ε0 : ℝ) (Lk1 Lk2 : ℝ × ℝ) {G : Fin n → ℤ × ℤ} {o : Fin n} (ho : G o = (0, 0)) :
    kxOf ω θ φ ε0 Lk1 Lk2 G o = (ω * Real.sin θ * Real.cos φ * Real.sqrt ε0 : ℝ) ∧
    kyOf ω θ φ ε0 Lk1 Lk2 G o = (ω * Real.sin θ * Real.sin φ * Real.sqrt ε0 : ℝ) := by
  rw [kxOf, kyOf, waveX, waveY, ho]; push_cast; constructor <;> ring

lemma kOf_zero_order (ω : ℂ) (φ ε0 : ℝ) (Lk1 Lk2 : ℝ × ℝ) {G : Fin n → ℤ × ℤ} {o : Fin n} (ho : G o = (0, 0)) :
    kxOf ω 0 φ ε0 Lk1 Lk2 G o = 0 ∧ kyOf ω 0 φ ε0 Lk1 Lk2 G o = 0 := by
  rw [kxOf, kyOf, waveX, waveY, ho, Real.sin_zero]; push_cast; constructor <;> ring

/-- energy balance of a stack of layers that do not amplify -/
lemma balance_le {ω : ℂ} {ε0 εN : ℂ} {kx ky : Fin n → ℂ} {d0 dN norm : ℝ} (hn : 0 ≤ norm) {mids : List (LayerData (Fin n ⊕ Fin n))} {o : Fin n}
    (hr : RealOrder ω ε0 kx ky o) {a0 : Fin n ⊕ Fin n → ℂ} (ha : InOrder o a0)
    (hq : ∀ M ∈ uniformLayer ω kx ky ε0 d0 :: mids ++ [uniformLayer ω kx ky εN dN], ∀ m, M.q m ≠ 0)
    (hm : ∀ M ∈ mids, ∀ a b, layerFlux ω M (M.through a) b ≤ layerFlux ω M a (M.through b)) {R T : ℝ}
    (h : rtForward ω norm (uniformLayer ω kx ky ε0 d0 :: mids ++ [uniformLayer ω kx ky εN dN]) a0 0 = .ok (R, T)) :
    R + T ≤ Complex.normSq (Complex.exp (Complex.I * qOrd ω ε0 kx ky o * d0)) * (oneWay ω (uniformLayer ω kx ky ε0 d0) a0 * norm) := by
  obtain ⟨aN, b0, hsol, rfl, rfl⟩ := rt_values hr ha hq h
  have := stack_flux_le hm hsol
  rw [through_zero, layerFlux_zero, through_inOrder ha, layerFlux_incident hr d0 _ _ (inOrder_smul ha _), oneWay_smul] at this
  nlinarith

lemma balance_eq {ω : ℂ} {ε0 εN : ℂ} {kx ky : Fin n → ℂ} {d0 dN norm : ℝ} {mids : List (LayerData (Fin n ⊕ Fin n))} {o : Fin n}
    (hr : RealOrder ω ε0 kx ky o) {a0 : Fin n ⊕ Fin n → ℂ} (ha : InOrder o a0)
    (hq : ∀ M ∈ uniformLayer ω kx ky ε0 d0 :: mids ++ [uniformLayer ω kx ky εN dN], ∀ m, M.q m ≠ 0)
    (hm : ∀ M ∈ mids, ∀ a b, layerFlux ω M (M.through a) b = layerFlux ω M a (M.through b)) {R T : ℝ}
    (h : rtForward ω norm (uniformLayer ω kx ky ε0 d0 :: mids ++ [uniformLayer ω kx ky εN dN]) a0 0 = .ok (R, T)) :
    R + T = Complex.normSq (Complex.exp (Complex.I * qOrd ω ε0 kx ky o * d0)) * (oneWay ω (uniformLayer ω kx ky ε0 d0) a0 * norm) := by
  obtain ⟨aN, b0, hsol, rfl, rfl⟩ := rt_values hr ha hq h
  have := stack_flux_eq hm hsol
  rw [through_zero, layerFlux_zero, through_inOrder ha, layerFlux_incident hr d0 _ _ (inOrder_smul ha _), oneWay_smul] at this
  rw [← add_mul, this]; ring

lemma normSq_exp (z : ℂ) : Complex.normSq (Complex.exp z) = Real.exp (2 * z.re) := by
  rw [Complex.normSq_eq_norm_sq, Complex.norm_exp, ← Real.exp_nat_mul]; norm_num

/-- C19, patterned layers included. Every stack of lossless layers (real permittivity values, uniform or patterned, any number, any
non-negative thickness) between a transparent first and a lossless last layer reflects and transmits exactly the incident power, at every
real frequency, angle of incidence and polarisation. Missing: patterned layers whose convolution matrix is altered by the entry filter of
C15. `hq` excludes the grazing orders at which the code divides by zero. -/
theorem C19_patterned_partial (ω θ φ ε0 : ℝ) (hω : 0 < ω) (hc : 0 < Real.cos θ) (h0 : 0 < ε0) (Lk1 Lk2 : ℝ × ℝ)
    (G : Fin n → ℤ × ℤ) (o : Fin n) (ho : G o = (0, 0)) (d0 dN εN : ℝ) (mids : List (LayerData (Fin n ⊕ Fin n)))
    (hm : ∀ M ∈ mids, SolverLayer ω (kxOf ω θ φ ε0 Lk1 Lk2 G) (kyOf ω θ φ ε0 Lk1 Lk2 G) G (fun ε => ε.im = 0) M)
    (hq : ∀ M ∈ uniformLayer ω (kxOf ω θ φ ε0 Lk1 Lk2 G) (kyOf ω θ φ ε0 Lk1 Lk2 G) ε0 d0 :: mids ++
      [uniformLayer ω (kxOf ω θ φ ε0 Lk1 Lk2 G) (kyOf ω θ φ ε0 Lk1 Lk2 G) εN dN], ∀ m, M.q m ≠ 0)
    (s p : ℂ) (hsp : Complex.normSq s + Complex.normSq p = 1) (R T : ℝ)
    (h : rtForward ω (rtNormalization ε0 θ) (uniformLayer ω (kxOf ω θ φ ε0 Lk1 Lk2 G) (kyOf ω θ φ ε0 Lk1 Lk2 G) ε0 d0 :: mids ++
      [uniformLayer ω (kxOf ω θ φ ε0 Lk1 Lk2 G) (kyOf ω θ φ ε0 Lk1 Lk2 G) εN dN]) (planewave θ φ s p o) 0 = .ok (R, T)) :
    R + T = 1 := by
  obtain ⟨hkx, hky⟩ := kxOf_order ω θ φ ε0 Lk1 Lk2 ho
  have hx := kxOf_real ω θ φ ε0 Lk1 Lk2 G
  have hy := kyOf_real ω θ φ ε0 Lk1 Lk2 G
  have hωc : (ω : ℂ) ≠ 0 := by exact_mod_cast hω.ne'
  rw [balance_eq (realOrder_oblique hω hc h0 φ hkx hky) (planewave_inOrder θ φ s p o) hq
    (fun M hM => solverLayer_flux_eq hωc (Complex.ofReal_im ω) hx hy (hm M hM) (hq M (by simp [hM]))) h,
    incident_oblique hω hc h0 φ hx hy hkx hky, hsp, normSq_exp, qOrd_oblique hω hc h0 φ hkx hky]
  have : (Complex.I * ((Real.sqrt ε0 * ω * Real.cos θ : ℝ) : ℂ) * (d0 : ℂ)).re = 0 := by
    rw [mul_assoc, ← Complex.ofReal_mul, Complex.I_mul_re, Complex.ofReal_im, neg_zero]
  rw [this]; simp

/-- C19 for stacks of uniform layers, without restriction: any list of real non-zero permittivities and thicknesses. -/
theorem C19_uniform (ω θ φ ε0 : ℝ) (hω : 0 < ω) (hc : 0 < Real.cos θ) (h0 : 0 < ε0) (Lk1 Lk2 : ℝ × ℝ)
    (G : Fin n → ℤ × ℤ) (o : Fin n) (ho : G o = (0, 0)) (d0 dN εN : ℝ) (mids : List (ℝ × ℝ)) (hm : ∀ l ∈ mids, l.1 ≠ 0 ∧ 0 ≤ l.2)
    (layers : List (LayerData (Fin n ⊕ Fin n)))
    (hl : layers = ((ε0, d0) :: mids ++ [(εN, dN)]).map fun l =>
      uniformLayer ω (kxOf ω θ φ ε0 Lk1 Lk2 G) (kyOf ω θ φ ε0 Lk1 Lk2 G) l.1 l.2)
    (hq : ∀ M ∈ layers, ∀ m, M.q m ≠ 0) (s p : ℂ) (hsp : Complex.normSq s + Complex.normSq p = 1) (R T : ℝ)
    (h : rtForward ω (rtNormalization ε0 θ) layers (planewave θ φ s p o) 0 = .ok (R, T)) : R + T = 1 := by
  subst hl
  simp only [List.map_append, List.map_cons, List.map_nil] at hq h
  refine C19_patterned_partial ω θ φ ε0 hω hc h0 Lk1 Lk2 G o ho d0 dN εN _ (fun M hM => ?_) hq s p hsp R T h
  obtain ⟨l, hl, rfl⟩ := List.mem_map.1 hM
  exact .uniform l.1 l.2 (hm l hl).2 (by exact_mod_cast (hm l hl).1) (Complex.ofReal_im _)

/-- C20 at a real frequency, patterned layers included: every stack of layers whose permittivity values have Im >= 0, between transparent
half-spaces, has R >= 0, T >= 0 and R + T <= 1, so the absorption 1 - R - T lies in [0, 1]. Missing: patterned layers altered by the
filter of C15. -/
theorem C20_patterned_partial (ω θ φ ε0 εN : ℝ) (hω : 0 < ω) (hc : 0 < Real.cos θ) (h0 : 0 < ε0) (hN : 0 < εN) (Lk1 Lk2 : ℝ × ℝ)
    (G : Fin n → ℤ × ℤ) (o : Fin n) (ho : G o = (0, 0)) (d0 dN : ℝ) (mids : List (LayerData (Fin n ⊕ Fin n)))
    (hm : ∀ M ∈ mids, SolverLayer ω (kxOf ω θ φ ε0 Lk1 Lk2 G) (kyOf ω θ φ ε0 Lk1 Lk2 G) G (fun ε => 0 ≤ ε.im) M)
    (hq : ∀ M ∈ uniformLayer ω (kxOf ω θ φ ε0 Lk1 Lk2 G) (kyOf ω θ φ ε0 Lk1 Lk2 G) ε0 d0 :: mids ++
      [uniformLayer ω (kxOf ω θ φ ε0 Lk1 Lk2 G) (kyOf ω θ φ ε0 Lk1 Lk2 G) εN dN], ∀ m, M.q m ≠ 0)
    (s p : ℂ) (hsp : Complex.normSq s + Complex.normSq p = 1) (R T : ℝ)
    (h : rtForward ω (rtNormalization ε0 θ) (uniformLayer ω (kxOf ω θ φ ε0 Lk1 Lk2 G) (kyOf ω θ φ ε0 Lk1 Lk2 G) ε0 d0 :: mids ++
      [uniformLayer ω (kxOf ω θ φ ε0 Lk1 Lk2 G) (kyOf ω θ φ ε0 Lk1 Lk2 G) εN dN]) (planewave θ φ s p o) 0 = .ok (R, T)) :
    0 ≤ R ∧ 0 ≤ T ∧ R + T ≤ 1 := by
  obtain ⟨hkx, hky⟩ := kxOf_order ω θ φ ε0 Lk1 Lk2 ho
  have hx := kxOf_real ω θ φ ε0 Lk1 Lk2 G
  have hy := kyOf_real ω θ φ ε0 Lk1 Lk2 G
  have hωc : (ω : ℂ) ≠ 0 := by exact_mod_cast hω.ne'
  have hn : 0 ≤ rtNormalization ε0 θ := div_nonneg (Real.sqrt_nonneg _) hc.le
  have hre : 0 < (ω : ℂ).re := by rwa [Complex.ofReal_re]
  have him : 0 ≤ (ω : ℂ).im := by rw [Complex.ofReal_im]
  have hro := realOrder_oblique hω hc h0 φ hkx hky
  have hpass : ∀ M ∈ mids, SolverLayer ω (kxOf ω θ φ ε0 Lk1 Lk2 G) (kyOf ω θ φ ε0 Lk1 Lk2 G) G (fun ε => 0 ≤ ((ω : ℂ) * ε).im) M := by
    intro M hM
    cases hm M hM with
    | uniform ε d hd hε hP => exact .uniform ε d hd hε (by rw [Complex.im_ofReal_mul]; exact mul_nonneg hω.le hP)
    | patterned s hP epinv ep2 h hf lam phi he d hd =>
      exact .patterned s (fun a b => by rw [Complex.im_ofReal_mul]; exact mul_nonneg hω.le (hP a b)) epinv ep2 h hf lam phi he d hd
  obtain ⟨aN, b0, hsol, hR, hT⟩ := rt_values hro (planewave_inOrder θ φ s p o) hq h
  refine ⟨?_, ?_, ?_⟩
  · rw [hR]
    exact mul_nonneg (oneWay_nonneg hre him hx hy h0 d0 (hq _ (by simp)) b0) hn
  · rw [hT]
    exact mul_nonneg (oneWay_nonneg hre him hx hy hN dN (hq _ (by simp)) aN) hn
  · refine (balance_le hn hro (planewave_inOrder θ φ s p o) hq
      (fun M hM => solverLayer_flux_le hωc him hx hy (hpass M hM) (hq M (by simp [hM]))) h).trans ?_
    rw [incident_oblique hω hc h0 φ hx hy hkx hky, hsp, normSq_exp, qOrd_oblique hω hc h0 φ hkx hky]
    have : (Complex.I * ((Real.sqrt ε0 * ω * Real.cos θ : ℝ) : ℂ) * (d0 : ℂ)).re = 0 := by
      rw [mul_assoc, ← Complex.ofReal_mul, Complex.I_mul_re, Complex.ofReal_im, neg_zero]
    rw [this]; simp

/-- C20 for stacks of uniform layers at a real frequency, without restriction. -/
theorem C20_uniform (ω θ φ ε0 εN : ℝ) (hω : 0 < ω) (hc : 0 < Real.cos θ) (h0 : 0 < ε0) (hN : 0 < εN) (Lk1 Lk2 : ℝ × ℝ)
    (G : Fin n → ℤ × ℤ) (o : Fin n) (ho : G o = (0, 0)) (d0 dN : ℝ) (mids : List (ℂ × ℝ))
    (hm : ∀ l ∈ mids, l.1 ≠ 0 ∧ 0 ≤ l.1.im ∧ 0 ≤ l.2) (layers : List (LayerData (Fin n ⊕ Fin n)))
    (hl : layers = (((ε0 : ℂ), d0) :: mids ++ [((εN : ℂ), dN)]).map fun l =>
      uniformLayer ω (kxOf ω θ φ ε0 Lk1 Lk2 G) (kyOf ω θ φ ε0 Lk1 Lk2 G) l.1 l.2)
    (hq : ∀ M ∈ layers, ∀ m, M.q m ≠ 0) (s p : ℂ) (hsp : Complex.normSq s + Complex.normSq p = 1) (R T : ℝ)
    (h : rtForward ω (rtNormalization ε0 θ) layers (planewave θ φ s p o) 0 = .ok (R, T)) : 0 ≤ R ∧ 0 ≤ T ∧ R + T ≤ 1 := by
  subst hl
  simp only [List.map_append, List.map_cons, List.map_nil] at hq h
  refine C20_patterned_partial ω θ φ ε0 εN hω hc h0 hN Lk1 Lk2 G o ho d0 dN _ (fun M hM => ?_) hq s p hsp R T h
  obtain ⟨l, hl, rfl⟩ := List.mem_map.1 hM
  exact .uniform l.1 l.2 (hm l hl).2.2 (hm l hl).1 (hm l hl).2.1

/-- C20 at the slightly complex frequencies the driver really uses (`freq * (1 + i/(2 Qabs))`, normal incidence). The passivity condition is
`Im(omega * eps) >= 0`: it follows from `Im(eps) >= 0` where `Re(eps) >= 0`, but is stronger for metals. Missing: layers with
`Re(eps) < 0` and `Im(eps)` below `|Re(eps)|/(2 Qabs)`, oblique incidence, patterns altered by the filter of C15. -/
theorem C20_damped_partial (ω : ℂ) (hre : 0 < ω.re) (him : 0 ≤ ω.im) (φ ε0 εN : ℝ) (h0 : 0 < ε0) (hN : 0 < εN) (Lk1 Lk2 : ℝ × ℝ)
    (G : Fin n → ℤ × ℤ) (o : Fin n) (ho : G o = (0, 0)) (d0 dN : ℝ) (hd : 0 ≤ d0) (mids : List (LayerData (Fin n ⊕ Fin n)))
    (hm : ∀ M ∈ mids, SolverLayer ω (kxOf ω 0 φ ε0 Lk1 Lk2 G) (kyOf ω 0 φ ε0 Lk1 Lk2 G) G (fun ε => 0 ≤ (ω * ε).im) M)
    (hq : ∀ M ∈ uniformLayer ω (kxOf ω 0 φ ε0 Lk1 Lk2 G) (kyOf ω 0 φ ε0 Lk1 Lk2 G) ε0 d0 :: mids ++
      [uniformLayer ω (kxOf ω 0 φ ε0 Lk1 Lk2 G) (kyOf ω 0 φ ε0 Lk1 Lk2 G) εN dN], ∀ m, M.q m ≠ 0)
    (s p : ℂ) (hsp : Complex.normSq s + Complex.normSq p = 1) (R T : ℝ)
    (h : rtForward ω (rtNormalization ε0 0) (uniformLayer ω (kxOf ω 0 φ ε0 Lk1 Lk2 G) (kyOf ω 0 φ ε0 Lk1 Lk2 G) ε0 d0 :: mids ++
      [uniformLayer ω (kxOf ω 0 φ ε0 Lk1 Lk2 G) (kyOf ω 0 φ ε0 Lk1 Lk2 G) εN dN]) (planewave 0 φ s p o) 0 = .ok (R, T)) :
    0 ≤ R ∧ 0 ≤ T ∧ R + T ≤ 1 := by
  obtain ⟨hkx, hky⟩ := kOf_zero_order ω φ ε0 Lk1 Lk2 ho
  have hx := fun i => (kOf_zero ω φ ε0 Lk1 Lk2 G i).1
  have hy := fun i => (kOf_zero ω φ ε0 Lk1 Lk2 G i).2
  have hωc : ω ≠ 0 := fun h => by rw [h] at hre; simp at hre
  have hn : 0 ≤ rtNormalization ε0 0 := div_nonneg (Real.sqrt_nonneg _) (by rw [Real.cos_zero]; norm_num)
  have hro := realOrder_normal hre him h0 hkx hky
  obtain ⟨aN, b0, hsol, hR, hT⟩ := rt_values hro (planewave_inOrder 0 φ s p o) hq h
  refine ⟨?_, ?_, ?_⟩
  · rw [hR]
    exact mul_nonneg (oneWay_nonneg hre him hx hy h0 d0 (hq _ (by simp)) b0) hn
  · rw [hT]
    exact mul_nonneg (oneWay_nonneg hre him hx hy hN dN (hq _ (by simp)) aN) hn
  · refine (balance_le hn hro (planewave_inOrder 0 φ s p o) hq
      (fun M hM => solverLayer_flux_le hωc him hx hy (hm M hM) (hq M (by simp [hM]))) h).trans ?_
    rw [incident_normal hre him h0 φ hx hy hkx hky, hsp, normSq_exp, mul_one, Real.exp_le_one_iff]
    have hqi : 0 ≤ (qOrd ω ε0 (kxOf ω 0 φ ε0 Lk1 Lk2 G) (kyOf ω 0 φ ε0 Lk1 Lk2 G) o).im := branchQ_im _
    rw [Complex.re_mul_ofReal, Complex.I_mul_re]
    nlinarith

end Nidn
