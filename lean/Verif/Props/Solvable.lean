/-
Property C113: when the RCWA solver answers at all.
-/
import Verif.Lemmas.Solvable
import Verif.Props.Films

set_option linter.unusedSectionVars false

namespace Nidn

open Matrix

/-- C113: a stack of regular layers (invertible matrices, no wave number zero) is solved exactly when no front part of it - the first layers,
the last of them continued for ever - carries a field without being lit. -/
theorem C113_modes {ι : Type} [Fintype ι] [DecidableEq ι] (L : LayerData ι) (rest : List (LayerData ι)) (hr : ∀ M ∈ L :: rest, M.Regular)
    (a0 bN : ι → ℂ) :
    (∃ r, solveExterior (L :: rest) a0 bN = .ok r) ↔
      ∀ p, p <+: rest → ∀ b0 aN, StackSol (L :: p) 0 b0 aN 0 → aN = 0 ∧ b0 = 0 := by
  have hl : (L :: rest).length - 1 = rest.length := rfl
  constructor
  · rintro ⟨r, h⟩
    rw [solveExterior, hl] at h
    obtain ⟨S, hS, -⟩ := bind_ok.1 h
    exact getSMatrix_ok_unique L rest (fun M hM => (hr M hM).q) hS
  · intro h
    obtain ⟨S, hS⟩ := getSMatrix_ok L rest hr fun p _ hp b0 aN hs => (h p hp b0 aN hs).1
    rw [solveExterior, hl, hS]; exact ⟨_, rfl⟩

variable {n : ℕ}

/-- what is known of a passive layer at a damped frequency -/
lemma solverLayer_damped {ω : ℂ} (hω : 0 < ω.im) {kx ky : Fin n → ℂ} (hx : ∀ i, (kx i).im = 0) (hy : ∀ i, (ky i).im = 0)
    {G : Fin n → ℤ × ℤ} {L : LayerData (Fin n ⊕ Fin n)} (hL : SolverLayer ω kx ky G (fun ε => 0 ≤ (ω * ε).im) L) (hphi : IsUnit L.phi.det) :
    L.Regular ∧ ∀ a, 0 ≤ layerFlux ω L a 0 ∧ (a ≠ 0 → 0 < layerFlux ω L a 0) := by
  have hω0 : ω ≠ 0 := by rintro rfl; simp at hω
  have fin : ∀ {L : LayerData (Fin n ⊕ Fin n)} {ep2 : Matrix (Fin n ⊕ Fin n) (Fin n ⊕ Fin n) ℂ} {epinv : Matrix (Fin n) (Fin n) ℂ},
      MaxwellLayer ω kx ky ep2 epinv L → PassiveMats ω ep2 epinv → IsUnit L.phi.det → (∀ m, 0 ≤ (L.q m).im) →
      L.Regular ∧ ∀ a, 0 ≤ layerFlux ω L a 0 ∧ (a ≠ 0 → 0 < layerFlux ω L a 0) := by
    intro L ep2 epinv hM hp hphi hb
    refine ⟨⟨hphi, by rw [hM.kp]; exact kp_unit_damped hω hx hy hp, hM.q⟩, fun a => ?_⟩
    rcases eq_or_ne a 0 with rfl | ha
    · refine ⟨?_, fun h => absurd rfl h⟩
      rw [layerFlux_zero, ← zero_smul ℂ (0 : Fin n ⊕ Fin n → ℂ), oneWay_smul]; simp
    · exact ⟨(flux_pos hM hp hω hphi hb a ha).le, fun _ => flux_pos hM hp hω hphi hb a ha⟩
  cases hL with
  | uniform ε d hd hε hP =>
    have hp : PassiveMats ω (ε • (1 : Matrix (Fin n ⊕ Fin n) (Fin n ⊕ Fin n) ℂ)) ((1 / ε) • (1 : Matrix (Fin n) (Fin n) ℂ)) := uniform_passive hω.le hP
    have hq : ∀ m, (uniformLayer ω kx ky ε d).q m ≠ 0 := by
      refine q_ne_zero_damped hω hx hy hp ?_ hphi ?_
      · rw [Matrix.det_smul, Matrix.det_one, mul_one]; exact (isUnit_iff_ne_zero.2 hε).pow _
      · rw [← kpUniform_eq]; exact uniform_eig kx ky hε d
    refine fin (uniform_maxwell hω0 hx hy hε d hq) hp hphi fun m => ?_
    rcases m with i | i <;> exact branchQ_im _
  | patterned s hP epinv ep2 h hf lam phi he d hd =>
    obtain ⟨C, hC, hu, rfl, rfl⟩ := epsilonFft_spec h hf
    have key : ∀ x, 0 ≤ (ω * (star x ⬝ᵥ (C *ᵥ x))).im := by
      intro x
      obtain ⟨w, hw, e⟩ := conv_form s G C hC x
      rw [e]
      exact sum_im_nonneg hP hw
    have hp : PassiveMats ω (fromBlocks C 0 0 C) C⁻¹ := by
      refine ⟨hω.le, fun e => ?_, fun y => ?_⟩
      · rw [block_form, mul_add, Complex.add_im]
        exact add_nonneg (key _) (key _)
      · rw [inv_form_im hu]
        exact div_nonpos_of_nonpos_of_nonneg (by linarith [key (C⁻¹ *ᵥ y)]) (Complex.normSq_nonneg _)
    have hq : ∀ m, (patternedLayer ω kx ky C⁻¹ lam phi d).q m ≠ 0 := by
      refine q_ne_zero_damped hω hx hy hp ?_ hphi ?_
      · rw [Matrix.det_fromBlocks_zero₂₁]; exact hu.mul hu
      · simp only [patternedLayer, branchQ_sq, csqrt_sq]; exact he
    exact fin (patterned_maxwell hω0 hx hy he d hq) hp hphi fun m => branchQ_im _

/-- C113: at a damped frequency (positive imaginary part, as the driver always uses) the solver never fails on passive structures: any number
of layers, uniform or patterned, any thicknesses, orders and excitation. Assumed of the library: the eigenvectors of each patterned layer are
independent. Not covered: patterned layers whose convolution matrix is altered by the entry filter of C15, or cannot be inverted. -/
theorem C113_damped_partial (ω : ℂ) (hω : 0 < ω.im) (kx ky : Fin n → ℂ) (hx : ∀ i, (kx i).im = 0) (hy : ∀ i, (ky i).im = 0) (G : Fin n → ℤ × ℤ)
    (L0 LN : LayerData (Fin n ⊕ Fin n)) (mids : List (LayerData (Fin n ⊕ Fin n)))
    (hl : ∀ M ∈ L0 :: mids ++ [LN], SolverLayer ω kx ky G (fun ε => 0 ≤ (ω * ε).im) M ∧ IsUnit M.phi.det) (norm : ℝ) (a0 bN : Fin n ⊕ Fin n → ℂ) :
    ∃ R T, rtForward ω norm (L0 :: mids ++ [LN]) a0 bN = .ok (R, T) := by
  have hω0 : ω ≠ 0 := by rintro rfl; simp at hω
  have hd : ∀ M ∈ L0 :: mids ++ [LN], M.Regular ∧ ∀ a, 0 ≤ layerFlux ω M a 0 ∧ (a ≠ 0 → 0 < layerFlux ω M a 0) :=
    fun M hM => solverLayer_damped hω hx hy (hl M hM).1 (hl M hM).2
  obtain ⟨S, hS⟩ := getSMatrix_ok L0 (mids ++ [LN]) (fun M hM => (hd M hM).1) fun p hp hpre b0 aN hs => by
    have hsub : ∀ M ∈ L0 :: p, M ∈ L0 :: mids ++ [LN] := by
      intro M hM
      rcases List.mem_cons.1 hM with rfl | hM
      · simp
      · exact List.mem_cons_of_mem _ (hpre.subset hM)
    exact no_source_free hp (fun M hM => (hd M (hsub M hM)).2)
      (fun M hM => solverLayer_flux_le hω0 hω.le hx hy (hl M (hsub M (List.mem_cons_of_mem _ hM))).1
        (hd M (hsub M (List.mem_cons_of_mem _ hM))).1.q) hs
  rw [List.length_append, List.length_singleton] at hS
  exact rt_ok hS a0 bN

/-- C113 for the driver: at every positive frequency and normal incidence, every stack of homogeneous layers with permittivities that do not
amplify (non-negative imaginary part, and non-negative real part or an imaginary part above the driver's damping) is solved; the divisions by
wave numbers that other theorems exclude by hypothesis are harmless. -/
theorem C113_driver (f : ℝ) (hf : 0 < f) (φ ε0 : ℝ) (h0 : 0 < ε0) (Lk1 Lk2 : ℝ × ℝ) (G : Fin n → ℤ × ℤ) (d0 : ℝ) (hd0 : 0 ≤ d0)
    (mids : List (ℂ × ℝ)) (hm : ∀ m ∈ mids, m.1 ≠ 0 ∧ 0 ≤ m.2 ∧ -m.1.re / 2 / 1e5 ≤ m.1.im) (εN : ℂ) (dN : ℝ) (hdN : 0 ≤ dN) (hεN : εN ≠ 0)
    (hN : -εN.re / 2 / 1e5 ≤ εN.im) (kx ky : Fin n → ℂ) (hkx : kx = kxOf (driverOmega f) 0 φ ε0 Lk1 Lk2 G)
    (hky : ky = kyOf (driverOmega f) 0 φ ε0 Lk1 Lk2 G) (layers : List (LayerData (Fin n ⊕ Fin n)))
    (hl : layers = (((ε0 : ℂ), d0) :: mids ++ [(εN, dN)]).map fun l => uniformLayer (driverOmega f) kx ky l.1 l.2)
    (norm : ℝ) (a0 bN : Fin n ⊕ Fin n → ℂ) :
    (∀ M ∈ layers, ∀ m, M.q m ≠ 0) ∧ ∃ R T, rtForward (driverOmega f) norm layers a0 bN = .ok (R, T) := by
  have hπ := Real.pi_pos
  have him : 0 < (driverOmega f).im := by rw [driverOmega_im]; positivity
  have hx : ∀ i, (kx i).im = 0 := fun i => by rw [hkx]; exact (kOf_zero _ φ ε0 Lk1 Lk2 G i).1
  have hy : ∀ i, (ky i).im = 0 := fun i => by rw [hky]; exact (kOf_zero _ φ ε0 Lk1 Lk2 G i).2
  have hpass : ∀ ε : ℂ, -ε.re / 2 / 1e5 ≤ ε.im → 0 ≤ (driverOmega f * ε).im := by
    intro ε h
    rw [Complex.mul_im, driverOmega_re, driverOmega_im]
    have e : 2 * Real.pi * f * ε.im + 2 * Real.pi * f / 2 / 1e5 * ε.re = 2 * Real.pi * f * (ε.im + ε.re / 2 / 1e5) := by ring
    rw [e]
    refine mul_nonneg (by positivity) ?_
    have : -ε.re / 2 / 1e5 = -(ε.re / 2 / 1e5) := by ring
    linarith
  have hcases : ∀ M ∈ layers, SolverLayer (driverOmega f) kx ky G (fun ε => 0 ≤ (driverOmega f * ε).im) M ∧ IsUnit M.phi.det := by
    intro M hM
    rw [hl] at hM
    obtain ⟨l, hl', rfl⟩ := List.mem_map.1 hM
    refine ⟨?_, by simp [uniformLayer]⟩
    simp only [List.cons_append, List.mem_cons, List.mem_append, List.not_mem_nil, or_false] at hl'
    rcases hl' with rfl | hl' | rfl
    · refine .uniform _ _ hd0 (Complex.ofReal_ne_zero.2 h0.ne') (hpass _ ?_)
      rw [Complex.ofReal_re, Complex.ofReal_im, neg_div, neg_div, neg_nonpos]; positivity
    · obtain ⟨h1, h2, h3⟩ := hm l hl'
      exact .uniform _ _ h2 h1 (hpass _ h3)
    · exact .uniform _ _ hdN hεN (hpass _ hN)
  refine ⟨fun M hM => (solverLayer_damped him hx hy (hcases M hM).1 (hcases M hM).2).1.q, ?_⟩
  have hl2 : layers = uniformLayer (driverOmega f) kx ky ε0 d0 :: mids.map (fun l => uniformLayer (driverOmega f) kx ky l.1 l.2) ++
      [uniformLayer (driverOmega f) kx ky εN dN] := by rw [hl]; simp
  rw [hl2] at hcases ⊢
  exact C113_damped_partial _ him kx ky hx hy G _ _ _ hcases norm a0 bN

/-! ### real frequencies -/

/-- outgoing power in a half-space that does not amplify, at a real frequency -/
lemma oneWay_nonneg_passive {ω : ℝ} (hω : 0 < ω) {kx ky : Fin n → ℂ} (hx : ∀ i, (kx i).im = 0) (hy : ∀ i, (ky i).im = 0) {ε : ℂ} (hε : 0 ≤ ε.im)
    (h0 : ε ≠ 0) (d : ℝ) (a : Fin n ⊕ Fin n → ℂ) : 0 ≤ oneWay ω (uniformLayer ω kx ky ε d) a := by
  rw [oneWay_uniform (ω : ℂ) ε kx ky hx hy]
  refine Finset.sum_nonneg fun i _ => ?_
  set q := qOrd ω ε kx ky i with hqd
  have hq2 : q ^ 2 = ε * (ω : ℂ) ^ 2 - kx i ^ 2 - ky i ^ 2 := qOrd_sq ω ε kx ky i
  obtain ⟨x, hxr⟩ : ∃ x : ℝ, kx i = x := ⟨(kx i).re, Complex.ext rfl (by simp [hx i])⟩
  obtain ⟨y, hyr⟩ : ∃ y : ℝ, ky i = y := ⟨(ky i).re, Complex.ext rfl (by simp [hy i])⟩
  have hqim : 0 ≤ q.im := branchQ_im _
  have hz : (ε * (ω : ℂ) ^ 2 - kx i ^ 2 - ky i ^ 2).im = ε.im * ω ^ 2 := by
    rw [hxr, hyr, ← Complex.ofReal_pow, ← Complex.ofReal_pow, ← Complex.ofReal_pow, Complex.sub_im, Complex.sub_im, Complex.ofReal_im,
      Complex.ofReal_im, Complex.im_mul_ofReal]; ring
  have hqre : 0 ≤ q.re := by
    apply branchQ_csqrt_re
    rw [hz]; positivity
  set s := Complex.normSq (a (.inl i)) + Complex.normSq (a (.inr i)) with hs
  set t := Complex.normSq (kx i * a (.inr i) - ky i * a (.inl i)) with ht
  have ht0 : 0 ≤ t := Complex.normSq_nonneg _
  have hts : t ≤ (x ^ 2 + y ^ 2) * s := by
    have e : (x ^ 2 + y ^ 2) * s - t = Complex.normSq (kx i * a (.inl i) + ky i * a (.inr i)) := by
      rw [hs, ht, hxr, hyr]
      simp [Complex.normSq_apply]; ring
    have := Complex.normSq_nonneg (kx i * a (.inl i) + ky i * a (.inr i))
    linarith
  have hs0 : 0 ≤ s := add_nonneg (Complex.normSq_nonneg _) (Complex.normSq_nonneg _)
  -- real and imaginary part of the square
  have hre : q.re ^ 2 - q.im ^ 2 = ε.re * ω ^ 2 - (x ^ 2 + y ^ 2) := by
    have := congrArg Complex.re hq2
    rw [hxr, hyr, ← Complex.ofReal_pow, ← Complex.ofReal_pow, ← Complex.ofReal_pow, Complex.sub_re, Complex.sub_re, Complex.ofReal_re,
      Complex.ofReal_re, Complex.re_mul_ofReal, sq q, Complex.mul_re] at this
    linarith
  have him : 2 * q.re * q.im = ε.im * ω ^ 2 := by
    have := congrArg Complex.im hq2
    rw [hz, sq q, Complex.mul_im] at this
    linarith
  have key : ((ω : ℂ)⁻¹ * q⁻¹ * ((ω : ℂ) ^ 2 * (s : ℂ) - 1 / ε * (t : ℂ))).re =
      ω⁻¹ * ((q.re * ω ^ 2 * s) / Complex.normSq q - ((q⁻¹ * ε⁻¹).re * t)) := by
    rw [← Complex.ofReal_inv, ← Complex.ofReal_pow, mul_assoc, Complex.re_ofReal_mul, mul_sub, Complex.sub_re]
    congr 2
    · rw [← Complex.ofReal_mul, Complex.re_mul_ofReal, Complex.inv_re]; ring
    · rw [one_div, ← mul_assoc, Complex.re_mul_ofReal]
  rw [key]
  refine mul_nonneg (inv_nonneg.2 hω.le) ?_
  rcases eq_or_ne q 0 with hq0 | hq0
  · simp [hq0]
  have hn := Complex.normSq_pos.2 hq0
  have hne := Complex.normSq_pos.2 h0
  rw [← mul_inv, Complex.inv_re, Complex.normSq_mul, Complex.mul_re, sub_nonneg, div_mul_eq_mul_div, div_le_div_iff₀ (mul_pos hn hne) hn]
  have e3 : Complex.normSq ε = ε.re ^ 2 + ε.im ^ 2 := by rw [Complex.normSq_apply]; ring
  -- (q ε).re t ≤ q.re ω² s |ε|²
  suffices h : (q.re * ε.re - q.im * ε.im) * t ≤ q.re * ω ^ 2 * s * Complex.normSq ε by
    nlinarith
  have hk0 : 0 ≤ x ^ 2 + y ^ 2 := by positivity
  have hω2 : 0 < ω ^ 2 := by positivity
  by_cases hneg : q.re * ε.re - q.im * ε.im ≤ 0
  · exact (mul_nonpos_of_nonpos_of_nonneg hneg ht0).trans (by positivity)
  · have h1 : (q.re * ε.re - q.im * ε.im) * t ≤ (q.re * ε.re - q.im * ε.im) * ((x ^ 2 + y ^ 2) * s) :=
      mul_le_mul_of_nonneg_left hts (not_le.1 hneg).le
    refine h1.trans ?_
    have h2 : (q.re * ε.re - q.im * ε.im) * (x ^ 2 + y ^ 2) ≤ q.re * ω ^ 2 * Complex.normSq ε := by
      rw [e3]
      have e4 : q.re * ω ^ 2 * (ε.re ^ 2 + ε.im ^ 2) - (q.re * ε.re - q.im * ε.im) * (x ^ 2 + y ^ 2) =
          q.re * ε.re * (ε.re * ω ^ 2 - (x ^ 2 + y ^ 2)) + q.im * ε.im * (x ^ 2 + y ^ 2) + q.re * ε.im * (ε.im * ω ^ 2) := by ring
      have e5 : 0 ≤ q.re * ε.re * (ε.re * ω ^ 2 - (x ^ 2 + y ^ 2)) + q.im * ε.im * (x ^ 2 + y ^ 2) + q.re * ε.im * (ε.im * ω ^ 2) := by
        rw [← hre, ← him]
        have e6 : (x ^ 2 + y ^ 2) = ε.re * ω ^ 2 - (q.re ^ 2 - q.im ^ 2) := by linarith
        have e7 : 0 ≤ ω ^ 2 * (q.re * ε.re * (q.re ^ 2 - q.im ^ 2) + q.im * ε.im * (x ^ 2 + y ^ 2) + q.re * ε.im * (2 * q.re * q.im)) := by
          have e8 : ω ^ 2 * (q.re * ε.re * (q.re ^ 2 - q.im ^ 2) + q.im * ε.im * (x ^ 2 + y ^ 2) + q.re * ε.im * (2 * q.re * q.im)) =
              q.re * (ε.re * ω ^ 2) * (q.re ^ 2 - q.im ^ 2) + q.im * (ε.im * ω ^ 2) * (x ^ 2 + y ^ 2) + q.re * (ε.im * ω ^ 2) * (2 * q.re * q.im) := by
            ring
          rw [e8, ← him, show ε.re * ω ^ 2 = q.re ^ 2 - q.im ^ 2 + (x ^ 2 + y ^ 2) by linarith]
          have : q.re * (q.re ^ 2 - q.im ^ 2 + (x ^ 2 + y ^ 2)) * (q.re ^ 2 - q.im ^ 2) + q.im * (2 * q.re * q.im) * (x ^ 2 + y ^ 2) +
              q.re * (2 * q.re * q.im) * (2 * q.re * q.im) =
              q.re * ((q.re ^ 2 + q.im ^ 2) ^ 2 + (x ^ 2 + y ^ 2) * (q.re ^ 2 + q.im ^ 2)) := by ring
          rw [this]; positivity
        exact nonneg_of_mul_nonneg_right e7 hω2
      linarith
    have := mul_le_mul_of_nonneg_right h2 hs0
    nlinarith

/-- a wave leaving through a transparent half-space in which every order propagates carries power -/
lemma oneWay_pos_propagating {ω ε : ℝ} (hω : 0 < ω) (hε : 0 < ε) {kx ky : Fin n → ℂ} (hx : ∀ i, (kx i).im = 0) (hy : ∀ i, (ky i).im = 0)
    (hprop : ∀ i, (kx i).re ^ 2 + (ky i).re ^ 2 < ε * ω ^ 2) (d : ℝ) (a : Fin n ⊕ Fin n → ℂ) (ha : a ≠ 0) :
    0 < oneWay (ω : ℂ) (uniformLayer ω kx ky ε d) a := by
  rw [oneWay_uniform (ω : ℂ) ε kx ky hx hy]
  have key : ∀ i, ∃ c : ℝ, 0 < c ∧ c * (Complex.normSq (a (.inl i)) + Complex.normSq (a (.inr i))) ≤
      ((ω : ℂ)⁻¹ * (qOrd ω ε kx ky i)⁻¹ * ((ω : ℂ) ^ 2 * ((Complex.normSq (a (.inl i)) + Complex.normSq (a (.inr i)) : ℝ) : ℂ) -
        1 / ε * ((Complex.normSq (kx i * a (.inr i) - ky i * a (.inl i)) : ℝ) : ℂ))).re := by
    intro i
    obtain ⟨x, hxr⟩ : ∃ x : ℝ, kx i = x := ⟨(kx i).re, Complex.ext rfl (by simp [hx i])⟩
    obtain ⟨y, hyr⟩ : ∃ y : ℝ, ky i = y := ⟨(ky i).re, Complex.ext rfl (by simp [hy i])⟩
    have hp := hprop i
    rw [hxr, hyr, Complex.ofReal_re, Complex.ofReal_re] at hp
    set r := Real.sqrt (ε * ω ^ 2 - x ^ 2 - y ^ 2) with hr
    have hr0 : 0 < r := Real.sqrt_pos.2 (by linarith)
    have hr2 : r ^ 2 = ε * ω ^ 2 - x ^ 2 - y ^ 2 := Real.sq_sqrt (by linarith)
    have hq : qOrd ω ε kx ky i = (r : ℂ) := by
      rw [qOrd, hxr, hyr]
      have e : (ε : ℂ) * (ω : ℂ) ^ 2 - (x : ℂ) ^ 2 - (y : ℂ) ^ 2 = (r : ℂ) ^ 2 := by exact_mod_cast congrArg Complex.ofReal hr2.symm
      rw [e]
      exact branchQ_csqrt_of_sq _ (by rwa [Complex.ofReal_re]) (by rw [Complex.ofReal_im])
    set s := Complex.normSq (a (.inl i)) + Complex.normSq (a (.inr i)) with hs
    set t := Complex.normSq (kx i * a (.inr i) - ky i * a (.inl i)) with ht
    have hs0 : 0 ≤ s := add_nonneg (Complex.normSq_nonneg _) (Complex.normSq_nonneg _)
    have hts : t ≤ (x ^ 2 + y ^ 2) * s := by
      have e : (x ^ 2 + y ^ 2) * s - t = Complex.normSq (kx i * a (.inl i) + ky i * a (.inr i)) := by
        rw [hs, ht, hxr, hyr]
        simp [Complex.normSq_apply]; ring
      have := Complex.normSq_nonneg (kx i * a (.inl i) + ky i * a (.inr i))
      linarith
    refine ⟨ω⁻¹ * r⁻¹ * (r ^ 2 / ε), by positivity, ?_⟩
    have e : (ω : ℂ)⁻¹ * (r : ℂ)⁻¹ * ((ω : ℂ) ^ 2 * (s : ℂ) - 1 / ε * (t : ℂ)) = ((ω⁻¹ * r⁻¹ * (ω ^ 2 * s - 1 / ε * t) : ℝ) : ℂ) := by push_cast; ring
    rw [hq, e, Complex.ofReal_re, mul_assoc (ω⁻¹ * r⁻¹)]
    refine mul_le_mul_of_nonneg_left ?_ (by positivity)
    have h1 : ω ^ 2 * s - 1 / ε * t - r ^ 2 / ε * s = ((x ^ 2 + y ^ 2) * s - t) / ε := by rw [hr2]; field_simp; ring
    have h2 : 0 ≤ ((x ^ 2 + y ^ 2) * s - t) / ε := div_nonneg (by linarith) hε.le
    linarith
  have hnn : ∀ i, 0 ≤ Complex.normSq (a (.inl i)) + Complex.normSq (a (.inr i)) :=
    fun i => add_nonneg (Complex.normSq_nonneg _) (Complex.normSq_nonneg _)
  obtain ⟨i, hi⟩ : ∃ i, 0 < Complex.normSq (a (.inl i)) + Complex.normSq (a (.inr i)) := by
    by_contra hc
    push Not at hc
    apply ha
    ext m
    rcases m with i | i
    · have := hc i
      exact Complex.normSq_eq_zero.1 (le_antisymm (by linarith [Complex.normSq_nonneg (a (.inr i))]) (Complex.normSq_nonneg _))
    · have := hc i
      exact Complex.normSq_eq_zero.1 (le_antisymm (by linarith [Complex.normSq_nonneg (a (.inl i))]) (Complex.normSq_nonneg _))
  refine Finset.sum_pos' (fun j _ => ?_) ⟨i, Finset.mem_univ i, ?_⟩
  · obtain ⟨c, hc, h⟩ := key j
    exact (mul_nonneg hc.le (hnn j)).trans h
  · obtain ⟨c, hc, h⟩ := key i
    exact (mul_pos hc hi).trans_le h

/-- no field behind a front without fields -/
lemma dark_behind {ι : Type} [Fintype ι] [DecidableEq ι] (l : List (LayerData ι)) (hr : ∀ M ∈ l, M.Regular) (aN bN : ι → ℂ)
    (h : StackSol l 0 0 aN bN) : aN = 0 := by
  induction l with
  | nil => exact h.elim
  | cons L rest ih =>
    cases rest with
    | nil => exact h.1
    | cons L' rest =>
      obtain ⟨a', b', hc, hs⟩ := h
      have hR := hr L' (by simp)
      have hz : L.through 0 = 0 := by ext m; simp [LayerData.through]
      have h1 := hc.h
      have h2 := hc.e
      rw [hz, LayerData.hTan, add_zero, Matrix.mulVec_zero, LayerData.hTan] at h1
      have e0 : L.eTan 0 0 = 0 := by
        rw [LayerData.eTan]
        have : (fun m => ((0 : ι → ℂ) m - (0 : ι → ℂ) m) / L.q m) = 0 := by ext m; simp
        rw [this, Matrix.mulVec_zero, Matrix.mulVec_zero]
      rw [hz, e0, LayerData.eTan] at h2
      have g1 := mulVec_cancel (Matrix.nonsing_inv_mul _ hR.phi) (h1.symm.trans (Matrix.mulVec_zero _).symm)
      have g2 := mulVec_cancel (Matrix.nonsing_inv_mul _ hR.kp) (h2.symm.trans (Matrix.mulVec_zero _).symm)
      have g3 := mulVec_cancel (Matrix.nonsing_inv_mul _ hR.phi) (g2.trans (Matrix.mulVec_zero L'.phi).symm)
      have g4 : ∀ m, a' m = 0 ∧ L'.through b' m = 0 := by
        intro m
        have u1 := congrFun g1 m
        have u2 := congrFun g3 m
        simp only [Pi.add_apply, Pi.zero_apply] at u1 u2
        have u3 := (div_eq_zero_iff.1 u2).resolve_right (hR.q m)
        exact ⟨by linear_combination (u1 + u3) / 2, by linear_combination (u1 - u3) / 2⟩
      have ha : a' = 0 := funext fun m => (g4 m).1
      have hb : b' = 0 := by
        ext m
        have := (g4 m).2
        rw [LayerData.through] at this
        exact (mul_eq_zero.1 this).resolve_left (Complex.exp_ne_zero _)
      subst ha hb
      exact ih (fun M hM => hr M (List.mem_cons_of_mem _ hM)) hs

/-- C113 at real frequencies: a stack of homogeneous layers that do not amplify, lit from a transparent half-space in which every retained
order propagates (one order always does), is solved. `hq` excludes the grazing orders at which the code divides by zero. -/
theorem C113_real (ω θ φ ε0 : ℝ) (hω : 0 < ω) (h0 : 0 < ε0) (Lk1 Lk2 : ℝ × ℝ) (G : Fin n → ℤ × ℤ) (kx ky : Fin n → ℂ)
    (hkx : kx = kxOf ω θ φ ε0 Lk1 Lk2 G) (hky : ky = kyOf ω θ φ ε0 Lk1 Lk2 G) (hprop : ∀ i, (kx i).re ^ 2 + (ky i).re ^ 2 < ε0 * ω ^ 2) (d0 : ℝ)
    (mids : List (ℂ × ℝ)) (hm : ∀ m ∈ mids, m.1 ≠ 0 ∧ 0 ≤ m.1.im ∧ 0 ≤ m.2) (εN : ℂ) (dN : ℝ) (hεN : εN ≠ 0) (hN : 0 ≤ εN.im)
    (layers : List (LayerData (Fin n ⊕ Fin n)))
    (hl : layers = uniformLayer ω kx ky ε0 d0 :: (mids ++ [(εN, dN)]).map fun e => uniformLayer ω kx ky e.1 e.2)
    (hq : ∀ M ∈ layers, ∀ m, M.q m ≠ 0) (norm : ℝ) (a0 bN : Fin n ⊕ Fin n → ℂ) : ∃ R T, rtForward ω norm layers a0 bN = .ok (R, T) := by
  have hω0 : (ω : ℂ) ≠ 0 := Complex.ofReal_ne_zero.2 hω.ne'
  have hx : ∀ i, (kx i).im = 0 := by rw [hkx]; exact kxOf_real ω θ φ ε0 Lk1 Lk2 G
  have hy : ∀ i, (ky i).im = 0 := by rw [hky]; exact kyOf_real ω θ φ ε0 Lk1 Lk2 G
  subst hl
  have hr : ∀ M ∈ uniformLayer ω kx ky ε0 d0 :: (mids ++ [(εN, dN)]).map fun e => uniformLayer ω kx ky e.1 e.2, M.Regular := by
    intro M hM
    have hqM := hq M hM
    rcases List.mem_cons.1 hM with rfl | hM
    · exact uniform_regular hω0 hx hy (Complex.ofReal_ne_zero.2 h0.ne') d0 fun i => hqM (.inl i)
    · obtain ⟨e, he, rfl⟩ := List.mem_map.1 hM
      refine uniform_regular hω0 hx hy ?_ e.2 fun i => hqM (.inl i)
      rcases List.mem_append.1 he with he | he
      · exact (hm e he).1
      · rw [List.mem_singleton.1 he]; exact hεN
  obtain ⟨S, hS⟩ := getSMatrix_ok _ _ hr fun p hp hpre b0 aN hs => by
    have hsub : ∀ M ∈ uniformLayer ω kx ky ε0 d0 :: p, M.Regular := by
      intro M hM
      rcases List.mem_cons.1 hM with rfl | hM
      · exact hr _ (by simp)
      · exact hr M (List.mem_cons_of_mem _ (hpre.subset hM))
    obtain ⟨init, last, rfl⟩ : ∃ init last, p = init ++ [last] := ⟨p.dropLast, p.getLast hp, (List.dropLast_append_getLast hp).symm⟩
    -- the last layer of the front part, and those before it
    have hlast : ∃ ε d, ε ≠ 0 ∧ 0 ≤ ε.im ∧ last = uniformLayer ω kx ky ε d := by
      have : last ∈ (mids ++ [(εN, dN)]).map fun e => uniformLayer ω kx ky e.1 e.2 := hpre.subset (by simp)
      obtain ⟨e, he, rfl⟩ := List.mem_map.1 this
      rcases List.mem_append.1 he with he | he
      · exact ⟨e.1, e.2, (hm e he).1, (hm e he).2.1, rfl⟩
      · rw [List.mem_singleton.1 he]; exact ⟨εN, dN, hεN, hN, rfl⟩
    have hinit : ∀ M ∈ init, ∃ e ∈ mids, M = uniformLayer ω kx ky e.1 e.2 := by
      obtain ⟨t, ht⟩ := hpre
      intro M hM
      have e1 : init <+: mids.map fun e => uniformLayer ω kx ky e.1 e.2 := by
        rw [List.map_append, List.append_assoc] at ht
        have h1 : init <+: (mids.map fun e => uniformLayer ω kx ky e.1 e.2) ++ [(εN, dN)].map fun e => uniformLayer ω kx ky e.1 e.2 := ⟨_, ht⟩
        refine List.prefix_of_prefix_length_le h1 (List.prefix_append _ _) ?_
        have := congrArg List.length ht
        simp only [List.length_append, List.length_map, List.length_cons, List.length_nil] at this ⊢
        omega
      obtain ⟨e, he, rfl⟩ := List.mem_map.1 (e1.subset hM)
      exact ⟨e, he, rfl⟩
    have h1 := stack_flux_le (ω := (ω : ℂ)) (fun M hM a b => by
      obtain ⟨e, he, rfl⟩ := hinit M hM
      obtain ⟨g1, g2, g3⟩ := hm e he
      exact flux_le (uniform_maxwell hω0 hx hy g1 e.2 (hsub _ (List.mem_cons_of_mem _ (List.mem_append_left _ hM))).q)
        (uniform_passive (by rw [Complex.ofReal_im]) (by rw [Complex.im_ofReal_mul]; positivity)) g3 a b) hs
    obtain ⟨ε, d, g1, g2, rfl⟩ := hlast
    have h2 : 0 ≤ layerFlux ω (uniformLayer ω kx ky ε d) aN 0 := by
      rw [layerFlux_zero]; exact oneWay_nonneg_passive hω hx hy g2 g1 d aN
    rw [through_zero, through_zero] at h1
    have hb0 : b0 = 0 := by
      by_contra hb
      have h3 := oneWay_pos_propagating hω h0 hx hy hprop d0 b0 hb
      have h4 : layerFlux ω (uniformLayer ω kx ky ε0 d0) 0 b0 = -layerFlux ω (uniformLayer ω kx ky ε0 d0) b0 0 := by
        have e1 : (uniformLayer ω kx ky ε0 d0).eTan 0 b0 = -(uniformLayer ω kx ky ε0 d0).eTan b0 0 := by
          rw [LayerData.eTan, LayerData.eTan, ← Matrix.mulVec_neg, ← Matrix.mulVec_neg]
          congr 2; ext m; simp [neg_div]
        have e2 : (uniformLayer ω kx ky ε0 d0).hTan 0 b0 = (uniformLayer ω kx ky ε0 d0).hTan b0 0 := by
          rw [LayerData.hTan, LayerData.hTan, zero_add, add_zero]
        rw [layerFlux, layerFlux, e1, e2, poynting, poynting, smul_neg, star_neg, neg_dotProduct, Complex.neg_re]
      rw [h4, layerFlux_zero ω (uniformLayer ω kx ky ε0 d0)] at h1
      linarith
    subst hb0
    exact dark_behind _ hsub aN 0 hs
  have hmap : uniformLayer ω kx ky ε0 d0 :: (mids ++ [(εN, dN)]).map (fun e => uniformLayer ω kx ky e.1 e.2) =
      uniformLayer ω kx ky ε0 d0 :: mids.map (fun e => uniformLayer ω kx ky e.1 e.2) ++ [uniformLayer ω kx ky εN dN] := by
    rw [List.map_append]; rfl
  rw [hmap] at hS ⊢
  refine rt_ok (S := S) ?_ a0 bN
  rw [← hS]; simp

/-! ### a structure that is not solved -/

/-- two orders -/
def plasmonOrders : Fin 2 → ℤ × ℤ := ![(0, 0), (1, 0)]

/-- C113 is not true of all passive structures at real frequencies: with a grating period for which the first order excites the surface
plasmon, the plane surface of a lossless metal of permittivity -2 makes the solver raise, whatever the excitation. -/
theorem C113_plasmon_false (norm : ℝ) (a0 bN : Fin 2 ⊕ Fin 2 → ℂ) :
    ∃ e, rtForward ((1 : ℝ) : ℂ) norm
      [uniformLayer ((1 : ℝ) : ℂ) (kxOf (1 : ℝ) 0 0 1 (Real.sqrt 2 / (2 * Real.pi), 0) (0, 1) plasmonOrders)
        (kyOf (1 : ℝ) 0 0 1 (Real.sqrt 2 / (2 * Real.pi), 0) (0, 1) plasmonOrders) ((1 : ℝ) : ℂ) 1,
       uniformLayer ((1 : ℝ) : ℂ) (kxOf (1 : ℝ) 0 0 1 (Real.sqrt 2 / (2 * Real.pi), 0) (0, 1) plasmonOrders)
        (kyOf (1 : ℝ) 0 0 1 (Real.sqrt 2 / (2 * Real.pi), 0) (0, 1) plasmonOrders) ((-2 : ℝ) : ℂ) 1] a0 bN = .error e := by
  set kx := kxOf (1 : ℝ) 0 0 1 (Real.sqrt 2 / (2 * Real.pi), 0) (0, 1) plasmonOrders with hkx
  set ky := kyOf (1 : ℝ) 0 0 1 (Real.sqrt 2 / (2 * Real.pi), 0) (0, 1) plasmonOrders with hky
  have hπ := Real.pi_pos
  have s2 : ((Real.sqrt 2 : ℝ) : ℂ) ^ 2 = 2 := by exact_mod_cast congrArg Complex.ofReal (Real.sq_sqrt (zero_le_two (α := ℝ)))
  have kx0 : kx 0 = 0 := by rw [hkx, kxOf, waveX]; simp [plasmonOrders]
  have kx1 : kx 1 = (Real.sqrt 2 : ℝ) := by
    rw [hkx, kxOf, waveX]
    have : (Real.pi : ℂ) ≠ 0 := Complex.ofReal_ne_zero.2 hπ.ne'
    simp [plasmonOrders]
    field_simp
  have ky0 : ∀ i, ky i = 0 := by
    intro i
    rw [hky, kyOf, waveY]
    fin_cases i <;> simp [plasmonOrders]
  have hq2 : ∀ (ε : ℝ) i, qOrd ((1 : ℝ) : ℂ) ε kx ky i ^ 2 = ε - kx i ^ 2 := by
    intro ε i; rw [qOrd_sq, ky0]; push_cast; ring
  have hq : ∀ (ε : ℝ), ε ≠ 0 → ε ≠ 2 → ∀ i, qOrd ((1 : ℝ) : ℂ) ε kx ky i ≠ 0 := by
    intro ε h0 h2 i h
    have := hq2 ε i
    rw [h] at this
    fin_cases i
    · simp only [Fin.zero_eta, kx0] at this
      apply h0
      have : (ε : ℂ) = 0 := by linear_combination -this
      exact_mod_cast this
    · simp only [Fin.mk_one, kx1] at this
      rw [s2] at this
      apply h2
      have : (ε : ℂ) = 2 := by linear_combination -this
      exact_mod_cast this
  have qa : qOrd ((1 : ℝ) : ℂ) ((1 : ℝ) : ℂ) kx ky 1 = Complex.I := by
    have := qOrd_root (n := 2) (ω := ((1 : ℝ) : ℂ)) (ε := ((1 : ℝ) : ℂ)) (c := Complex.I) (kx := kx) (ky := ky) (o := 1)
      (by rw [kx1, ky0, s2, mul_pow, Complex.I_sq]; push_cast; ring) (.inl (by simp))
    rw [this]; simp
  have qb : qOrd ((1 : ℝ) : ℂ) ((-2 : ℝ) : ℂ) kx ky 1 = 2 * Complex.I := by
    have := qOrd_root (n := 2) (ω := ((1 : ℝ) : ℂ)) (ε := ((-2 : ℝ) : ℂ)) (c := 2 * Complex.I) (kx := kx) (ky := ky) (o := 1)
      (by rw [kx1, ky0, s2, mul_pow, mul_pow, Complex.I_sq]; push_cast; ring) (.inl (by simp))
    rw [this]; simp
  cases h : rtForward ((1 : ℝ) : ℂ) norm [uniformLayer ((1 : ℝ) : ℂ) kx ky ((1 : ℝ) : ℂ) 1, uniformLayer ((1 : ℝ) : ℂ) kx ky ((-2 : ℝ) : ℂ) 1] a0 bN with
  | error e => exact ⟨e, rfl⟩
  | ok r =>
    exfalso
    rw [rtForward] at h
    obtain ⟨u, hu, -⟩ := bind_ok.1 h
    rw [solveExterior] at hu
    obtain ⟨S, hS, -⟩ := bind_ok.1 hu
    have hsol : StackSol [uniformLayer ((1 : ℝ) : ℂ) kx ky ((1 : ℝ) : ℂ) 1, uniformLayer ((1 : ℝ) : ℂ) kx ky ((-2 : ℝ) : ℂ) 1] 0
        (Pi.single (.inr 1) 1) (Pi.single (.inr 1) 1) 0 := by
      refine ⟨Pi.single (.inr 1) 1, 0, ⟨?_, ?_⟩, rfl, rfl⟩
      · rw [through_zero, through_zero, LayerData.hTan, LayerData.hTan, zero_add, add_zero]; rfl
      · rw [through_zero, through_zero, LayerData.eTan, LayerData.eTan]
        have e1 : (uniformLayer ((1 : ℝ) : ℂ) kx ky ((1 : ℝ) : ℂ) 1).phi = 1 := rfl
        have e2 : (uniformLayer ((1 : ℝ) : ℂ) kx ky ((-2 : ℝ) : ℂ) 1).phi = 1 := rfl
        have e3 : (uniformLayer ((1 : ℝ) : ℂ) kx ky ((1 : ℝ) : ℂ) 1).kp = kpUniform ((1 : ℝ) : ℂ) (1 / ((1 : ℝ) : ℂ)) kx ky := rfl
        have e4 : (uniformLayer ((1 : ℝ) : ℂ) kx ky ((-2 : ℝ) : ℂ) 1).kp = kpUniform ((1 : ℝ) : ℂ) (1 / ((-2 : ℝ) : ℂ)) kx ky := rfl
        have e5 : (uniformLayer ((1 : ℝ) : ℂ) kx ky ((1 : ℝ) : ℂ) 1).q (.inr 1) = Complex.I := qa
        have e6 : (uniformLayer ((1 : ℝ) : ℂ) kx ky ((-2 : ℝ) : ℂ) 1).q (.inr 1) = 2 * Complex.I := qb
        rw [e1, e2, e3, e4, Matrix.one_mulVec, Matrix.one_mulVec]
        ext m
        rcases m with i | i
        · rw [(kpUniform_mulVec _ _ _ _ _ i).1, (kpUniform_mulVec _ _ _ _ _ i).1, ky0]
          simp
        · rw [(kpUniform_mulVec _ _ _ _ _ i).2, (kpUniform_mulVec _ _ _ _ _ i).2, ky0]
          fin_cases i
          · simp
          · simp only [Fin.mk_one, Pi.single_eq_same, Pi.zero_apply, e5, e6, kx1]
            have hI := Complex.I_ne_zero
            push_cast
            field_simp
            linear_combination 3 * s2
    have := (getSMatrix_ok_unique _ [uniformLayer ((1 : ℝ) : ℂ) kx ky ((-2 : ℝ) : ℂ) 1] (fun M hM m => by
      simp only [List.mem_cons, List.not_mem_nil, or_false] at hM
      rcases hM with rfl | rfl
      · exact qs_of_ord (hq 1 (by norm_num) (by norm_num)) m
      · exact qs_of_ord (hq (-2) (by norm_num) (by norm_num)) m) hS _ (List.prefix_refl _) _ _ hsol).1
    simpa using congrFun this (.inr 1)

/-- The hypotheses of `C113_driver` are met by titanium dioxide over gold-like metal over glass at frequency one, with three orders. -/
example : ∃ R T, rtForward (driverOmega 1) (rtNormalization 1 0)
    ((((((1 : ℝ) : ℂ), (1 : ℝ)) :: [(⟨25 / 4, 0⟩, 3 / 10), (⟨-10, 1⟩, 1 / 10)] ++ [((9 / 4 : ℂ), 1)]) : List (ℂ × ℝ)).map fun l =>
      uniformLayer (driverOmega 1) (kxOf (driverOmega 1) 0 0 1 (1, 0) (0, 1) threeOrders) (kyOf (driverOmega 1) 0 0 1 (1, 0) (0, 1) threeOrders) l.1 l.2)
    (planewave 0 0 1 0 (0 : Fin 3)) 0 = .ok (R, T) := by
  refine (C113_driver 1 one_pos 0 1 one_pos (1, 0) (0, 1) threeOrders 1 zero_le_one [(⟨25 / 4, 0⟩, 3 / 10), (⟨-10, 1⟩, 1 / 10)] ?_ (9 / 4) 1
    zero_le_one (by norm_num) ?_ _ _ rfl rfl _ rfl _ _ _).2
  · intro m hm
    simp only [List.mem_cons, List.not_mem_nil, or_false] at hm
    rcases hm with rfl | rfl
    · refine ⟨fun h => ?_, by norm_num, by norm_num⟩
      have := congrArg Complex.re h
      norm_num at this
    · refine ⟨fun h => ?_, by norm_num, by norm_num⟩
      have := congrArg Complex.re h
      norm_num at this
  · have e : (9 / 4 : ℂ) = ((9 / 4 : ℝ) : ℂ) := by push_cast; rfl
    rw [e, Complex.ofReal_re, Complex.ofReal_im]; norm_num

/-- The hypotheses of `C113_modes` and `C113_real` are met by a lossy metal film between vacuum and glass at frequency one, one order. -/
example : (∃ R T, rtForward ((1 : ℝ) : ℂ) (rtNormalization 1 0)
    (uniformLayer ((1 : ℝ) : ℂ) (kxOf (1 : ℝ) 0 0 1 (1, 0) (0, 1) oneOrder) (kyOf (1 : ℝ) 0 0 1 (1, 0) (0, 1) oneOrder) ((1 : ℝ) : ℂ) 1 ::
      (([(⟨-10, 1⟩, 1 / 10)] ++ [((4 : ℂ), (1 : ℝ))]) : List (ℂ × ℝ)).map fun e => uniformLayer ((1 : ℝ) : ℂ) (kxOf (1 : ℝ) 0 0 1 (1, 0) (0, 1) oneOrder)
        (kyOf (1 : ℝ) 0 0 1 (1, 0) (0, 1) oneOrder) e.1 e.2) (planewave 0 0 1 0 (0 : Fin 1)) 0 = .ok (R, T)) ∧
    (uniformLayer ((1 : ℝ) : ℂ) (kxOf (1 : ℝ) 0 0 1 (1, 0) (0, 1) oneOrder) (kyOf (1 : ℝ) 0 0 1 (1, 0) (0, 1) oneOrder) ((1 : ℝ) : ℂ) 1).Regular := by
  have hk : ∀ i, kxOf ((1 : ℝ) : ℂ) 0 0 1 (1, 0) (0, 1) oneOrder i = 0 ∧ kyOf ((1 : ℝ) : ℂ) 0 0 1 (1, 0) (0, 1) oneOrder i = 0 :=
    fun i => kOf_zero_order _ 0 1 (1, 0) (0, 1) (by rfl)
  have hq : ∀ ε : ℂ, ε ≠ 0 → ∀ i, qOrd ((1 : ℝ) : ℂ) ε (kxOf (1 : ℝ) 0 0 1 (1, 0) (0, 1) oneOrder) (kyOf (1 : ℝ) 0 0 1 (1, 0) (0, 1) oneOrder) i ≠ 0 := by
    intro ε he i h
    have := qOrd_sq ((1 : ℝ) : ℂ) ε (kxOf (1 : ℝ) 0 0 1 (1, 0) (0, 1) oneOrder) (kyOf (1 : ℝ) 0 0 1 (1, 0) (0, 1) oneOrder) i
    rw [h, (hk i).1, (hk i).2] at this
    exact he (by simpa using this.symm)
  have hm : (⟨-10, 1⟩ : ℂ) ≠ 0 := fun h => by
    have := congrArg Complex.im h
    norm_num at this
  constructor
  · refine C113_real 1 0 0 1 one_pos one_pos (1, 0) (0, 1) oneOrder _ _ rfl rfl (fun i => ?_) 1 [(⟨-10, 1⟩, 1 / 10)] (fun m hm' => ?_) 4 1 (by norm_num)
      (by simp) _ rfl (fun M hM => ?_) _ _ _
    · rw [(hk i).1, (hk i).2]; norm_num
    · rw [List.mem_singleton.1 hm']
      exact ⟨hm, by norm_num, by norm_num⟩
    · simp only [List.mem_cons, List.cons_append, List.nil_append, List.map_cons, List.map_nil, List.not_mem_nil, or_false] at hM
      rcases hM with rfl | rfl | rfl
      · exact qs_of_ord (hq _ (by norm_num))
      · exact qs_of_ord (hq _ hm)
      · exact qs_of_ord (hq _ (by norm_num))
  · exact uniform_regular (by norm_num) (fun i => by rw [(hk i).1]; simp) (fun i => by rw [(hk i).2]; simp) (by norm_num) 1 (hq _ (by norm_num))

end Nidn
