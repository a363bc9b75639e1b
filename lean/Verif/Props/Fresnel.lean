/-
Property C21: a single interface reproduces Fresnel's formulas; stacks of a single material are invisible.
-/
import Verif.Props.Energy
import Mathlib.LinearAlgebra.Matrix.ToLinearEquiv

set_option linter.unusedSectionVars false

namespace Nidn

open Matrix

section General

variable {κ : Type} [Fintype κ] [DecidableEq κ]

lemma det_unit_of_inj {ι : Type} [Fintype ι] [DecidableEq ι] {M : Matrix ι ι ℂ} (h : ∀ x, M *ᵥ x = 0 → x = 0) : IsUnit M.det := by
  rw [isUnit_iff_ne_zero]
  intro h0
  obtain ⟨v, hv, hv'⟩ := Matrix.exists_mulVec_eq_zero_iff.2 h0
  exact hv (h v hv')

/-- a vector in one order vanishes when its components along and across the wave vector vanish -/
lemma order_zero {x y : ℝ} {u v : ℂ} (hk : x ^ 2 + y ^ 2 ≠ 0) (h1 : (x : ℂ) * u + y * v = 0) (h2 : (x : ℂ) * v - y * u = 0) :
    u = 0 ∧ v = 0 := by
  have hk' : ((x : ℂ) ^ 2 + (y : ℂ) ^ 2) ≠ 0 := by exact_mod_cast hk
  constructor
  · apply (mul_eq_zero.1 (_ : ((x : ℂ) ^ 2 + (y : ℂ) ^ 2) * u = 0)).resolve_left hk'
    linear_combination (x : ℂ) * h1 - (y : ℂ) * h2
  · apply (mul_eq_zero.1 (_ : ((x : ℂ) ^ 2 + (y : ℂ) ^ 2) * v = 0)).resolve_left hk'
    linear_combination (y : ℂ) * h1 + (x : ℂ) * h2

/-- `p kp1 + q kp2` acts injectively when its two eigenvalues do not vanish in any order -/
lemma kp_comb_inj {ω ε1 ε2 : ℂ} (hω : ω ≠ 0) {kx ky : κ → ℂ} (hx : ∀ i, (kx i).im = 0) (hy : ∀ i, (ky i).im = 0)
    (α β : κ → ℂ) (h1 : ∀ i, α i + β i ≠ 0)
    (h2 : ∀ i, α i * (ω ^ 2 - 1 / ε1 * (kx i ^ 2 + ky i ^ 2)) + β i * (ω ^ 2 - 1 / ε2 * (kx i ^ 2 + ky i ^ 2)) ≠ 0)
    (x : κ ⊕ κ → ℂ)
    (h : kpUniform ω (1 / ε1) kx ky *ᵥ (fun m => Sum.elim α α m * x m) + kpUniform ω (1 / ε2) kx ky *ᵥ (fun m => Sum.elim β β m * x m) = 0) :
    x = 0 := by
  have key : ∀ i, x (.inl i) = 0 ∧ x (.inr i) = 0 := by
    intro i
    have e1 := congrFun h (.inl i)
    have e2 := congrFun h (.inr i)
    rw [Pi.add_apply, (kpUniform_mulVec _ _ _ _ _ i).1, (kpUniform_mulVec _ _ _ _ _ i).1] at e1
    rw [Pi.add_apply, (kpUniform_mulVec _ _ _ _ _ i).2, (kpUniform_mulVec _ _ _ _ _ i).2] at e2
    simp only [Sum.elim_inl, Sum.elim_inr, Pi.zero_apply] at e1 e2
    obtain ⟨a, ha⟩ : ∃ a : ℝ, kx i = a := ⟨(kx i).re, Complex.ext rfl (by simp [hx i])⟩
    obtain ⟨b, hb⟩ : ∃ b : ℝ, ky i = b := ⟨(ky i).re, Complex.ext rfl (by simp [hy i])⟩
    have hs := h1 i
    have ht := h2 i
    rw [ha, hb] at e1 e2 ht
    by_cases hk : a ^ 2 + b ^ 2 = 0
    · have ha0 : a = 0 := by nlinarith [sq_nonneg a, sq_nonneg b]
      have hb0 : b = 0 := by nlinarith [sq_nonneg a, sq_nonneg b]
      rw [ha0, hb0] at e1 e2
      push_cast at e1 e2
      have hw : ω ^ 2 * (α i + β i) ≠ 0 := mul_ne_zero (pow_ne_zero _ hω) hs
      constructor
      · exact (mul_eq_zero.1 (by linear_combination e1 : ω ^ 2 * (α i + β i) * x (.inl i) = 0)).resolve_left hw
      · exact (mul_eq_zero.1 (by linear_combination e2 : ω ^ 2 * (α i + β i) * x (.inr i) = 0)).resolve_left hw
    · refine order_zero hk ?_ ?_
      · have hw : ω ^ 2 * (α i + β i) ≠ 0 := mul_ne_zero (pow_ne_zero _ hω) hs
        exact (mul_eq_zero.1 (by linear_combination (a : ℂ) * e1 + (b : ℂ) * e2 :
          ω ^ 2 * (α i + β i) * ((a : ℂ) * x (.inl i) + b * x (.inr i)) = 0)).resolve_left hw
      · exact (mul_eq_zero.1 (by linear_combination (a : ℂ) * e2 - (b : ℂ) * e1 :
          (α i * (ω ^ 2 - 1 / ε1 * ((a : ℂ) ^ 2 + (b : ℂ) ^ 2)) + β i * (ω ^ 2 - 1 / ε2 * ((a : ℂ) ^ 2 + (b : ℂ) ^ 2))) *
            ((a : ℂ) * x (.inr i) - b * x (.inl i)) = 0)).resolve_left ht
  ext m
  rcases m with i | i
  · exact (key i).1
  · exact (key i).2

/-- `omega^2 - k^2/eps = q^2/eps` -/
lemma kp_eigen {ω ε : ℂ} (hε : ε ≠ 0) (kx ky : κ → ℂ) (i : κ) :
    ω ^ 2 - 1 / ε * (kx i ^ 2 + ky i ^ 2) = qOrd ω ε kx ky i ^ 2 / ε := by
  rw [qOrd_sq]; field_simp; ring

/-- a uniform layer without grazing orders is regular -/
lemma uniform_regular {ω : ℂ} (hω : ω ≠ 0) {kx ky : κ → ℂ} (hx : ∀ i, (kx i).im = 0) (hy : ∀ i, (ky i).im = 0) {ε : ℂ} (hε : ε ≠ 0)
    (d : ℝ) (hq : ∀ i, qOrd ω ε kx ky i ≠ 0) : (uniformLayer ω kx ky ε d).Regular where
  phi := by simp [uniformLayer]
  kp := by
    apply det_unit_of_inj
    intro x hx0
    refine kp_comb_inj (ε1 := ε) (ε2 := ε) hω hx hy (fun _ => 1) (fun _ => 0) (by simp) (fun i => ?_) x ?_
    · rw [kp_eigen hε]
      simp only [one_mul, zero_mul, add_zero]
      exact div_ne_zero (pow_ne_zero _ (hq i)) hε
    · have e1 : (fun m => Sum.elim (fun _ : κ => (1 : ℂ)) (fun _ => 1) m * x m) = x := by
        ext (i | i) <;> simp
      have e2 : (fun m => Sum.elim (fun _ : κ => (0 : ℂ)) (fun _ => 0) m * x m) = 0 := by
        ext (i | i) <;> simp
      rw [e1, e2, Matrix.mulVec_zero, add_zero]
      exact hx0
  q m := by rcases m with i | i <;> exact hq i

/-- first quadrant, not zero -/
lemma quadrant_add {p q : ℂ} (h1 : 0 ≤ p.re) (h2 : 0 ≤ p.im) (h3 : 0 ≤ q.re) (h4 : 0 ≤ q.im) (hp : p ≠ 0) {c : ℝ} (hc : 0 ≤ c) {c' : ℝ}
    (hc' : 0 < c') : c' * p + c * q ≠ 0 := by
  intro h
  have e1 := congrArg Complex.re h
  have e2 := congrArg Complex.im h
  rw [Complex.add_re, Complex.re_ofReal_mul, Complex.re_ofReal_mul, Complex.zero_re] at e1
  rw [Complex.add_im, Complex.im_ofReal_mul, Complex.im_ofReal_mul, Complex.zero_im] at e2
  have := mul_nonneg hc h3
  have := mul_nonneg hc h4
  have g1 : p.re = 0 := by nlinarith
  have g2 : p.im = 0 := by nlinarith
  exact hp (Complex.ext g1 g2)

/-- wave numbers of a transparent medium lie in the first quadrant -/
lemma qOrd_quadrant {ω : ℂ} (hre : 0 < ω.re) (him : 0 ≤ ω.im) {ε : ℝ} (hε : 0 < ε) {kx ky : κ → ℂ} (hx : ∀ i, (kx i).im = 0)
    (hy : ∀ i, (ky i).im = 0) (i : κ) : 0 ≤ (qOrd ω ε kx ky i).re ∧ 0 ≤ (qOrd ω ε kx ky i).im := by
  refine ⟨branchQ_csqrt_re _ ?_, branchQ_im _⟩
  rw [Complex.sub_im, Complex.sub_im, Complex.im_ofReal_mul, sq, sq, sq, Complex.mul_im, Complex.mul_im, Complex.mul_im, hx i, hy i]
  have := mul_nonneg hre.le him
  nlinarith

/-- the interface between two transparent half-spaces never makes the solver fail -/
lemma interface_ok {ω : ℂ} (hre : 0 < ω.re) (him : 0 ≤ ω.im) {ε1 ε2 : ℝ} (h1 : 0 < ε1) (h2 : 0 < ε2) {kx ky : κ → ℂ}
    (hx : ∀ i, (kx i).im = 0) (hy : ∀ i, (ky i).im = 0) (d1 d2 : ℝ) (hq1 : ∀ i, qOrd ω ε1 kx ky i ≠ 0) (hq2 : ∀ i, qOrd ω ε2 kx ky i ≠ 0) :
    ∃ S, getSMatrix [uniformLayer ω kx ky ε1 d1, uniformLayer ω kx ky ε2 d2] 0 1 = .ok S := by
  have hω : ω ≠ 0 := fun h => by rw [h] at hre; simp at hre
  have h1c : (ε1 : ℂ) ≠ 0 := by exact_mod_cast h1.ne'
  have h2c : (ε2 : ℂ) ≠ 0 := by exact_mod_cast h2.ne'
  have hr1 := uniform_regular hω hx hy h1c d1 hq1
  have hr2 := uniform_regular hω hx hy h2c d2 hq2
  set L := uniformLayer ω kx ky ε1 d1 with hL
  set L' := uniformLayer ω kx ky ε2 d2 with hL'
  have hphi : L.phi = 1 := rfl
  have hphi' : L'.phi = 1 := rfl
  have hinv : torchInverse L.phi = .ok 1 := by rw [torchInverse, if_pos hr1.phi, hphi, inv_one]
  have hkp : torchInverse (L.kp * L.phi) = .ok (L.kp)⁻¹ := by
    rw [hphi, Matrix.mul_one, torchInverse, if_pos hr1.kp]
  have hT : ∀ x, (((1 / 2 : ℂ) • (1 * L'.phi + diagonal L.q * (L.kp)⁻¹ * (L'.kp * L'.phi * diagonal fun m => 1 / L'.q m))) -
      diagonal L.phase * SMat.id.s12 * ((1 / 2 : ℂ) • (1 * L'.phi - diagonal L.q * (L.kp)⁻¹ * (L'.kp * L'.phi * diagonal fun m => 1 / L'.q m))))
        *ᵥ x = 0 → x = 0 := by
    intro x hx0
    have e0 : (SMat.id : SMat (κ ⊕ κ)).s12 = 0 := rfl
    rw [e0, Matrix.mul_zero, Matrix.zero_mul, sub_zero, Matrix.smul_mulVec, hphi', Matrix.mul_one, Matrix.mul_one, Matrix.add_mulVec,
      Matrix.one_mulVec, ← Matrix.mulVec_mulVec, ← Matrix.mulVec_mulVec, ← Matrix.mulVec_mulVec] at hx0
    have hx1 : x + (diagonal L.q *ᵥ (L.kp⁻¹ *ᵥ (L'.kp *ᵥ (diagonal (fun m => 1 / L'.q m) *ᵥ x)))) = 0 := by
      have := congrArg (fun v => (2 : ℂ) • v) hx0
      simpa [smul_smul] using this
    -- multiply by kp diag(1/q)
    have hx2 : L.kp *ᵥ (fun m => x m / L.q m) + L'.kp *ᵥ (fun m => x m / L'.q m) = 0 := by
      set y := L'.kp *ᵥ (diagonal (fun m => 1 / L'.q m) *ᵥ x) with hy'
      have ey : L'.kp *ᵥ (fun m => x m / L'.q m) = y := by
        rw [hy']; congr 1; ext m; rw [Matrix.mulVec_diagonal]; ring
      have ez : (fun m => x m / L.q m) = -(L.kp⁻¹ *ᵥ y) := by
        ext m
        have := congrFun hx1 m
        rw [Pi.add_apply, Matrix.mulVec_diagonal, Pi.zero_apply] at this
        rw [Pi.neg_apply, div_eq_iff (hr1.q m)]
        linear_combination this
      rw [ey, ez, Matrix.mulVec_neg, Matrix.mulVec_mulVec, Matrix.mul_nonsing_inv _ hr1.kp, Matrix.one_mulVec, neg_add_cancel]
    refine kp_comb_inj (ε1 := ε1) (ε2 := ε2) hω hx hy (fun i => (qOrd ω ε1 kx ky i)⁻¹) (fun i => (qOrd ω ε2 kx ky i)⁻¹) (fun i => ?_)
      (fun i => ?_) x ?_
    · obtain ⟨g1, g2⟩ := qOrd_quadrant hre him h1 hx hy i
      obtain ⟨g3, g4⟩ := qOrd_quadrant hre him h2 hx hy i
      have := quadrant_add g1 g2 g3 g4 (hq1 i) zero_le_one zero_lt_one
      intro h
      have a1 := hq1 i
      have a2 := hq2 i
      field_simp at h
      apply this
      rw [Complex.ofReal_one, one_mul, one_mul, add_comm, h, mul_zero]
    · obtain ⟨g1, g2⟩ := qOrd_quadrant hre him h1 hx hy i
      obtain ⟨g3, g4⟩ := qOrd_quadrant hre him h2 hx hy i
      rw [kp_eigen h1c, kp_eigen h2c]
      have := quadrant_add g1 g2 g3 g4 (hq1 i) (c := 1 / ε2) (by positivity) (c' := 1 / ε1) (by positivity)
      intro h
      apply this
      have a1 := hq1 i
      have a2 := hq2 i
      rw [← h]
      push_cast
      field_simp
    · rw [← hx2]
      congr 2 <;> (ext (i | i) <;> simp only [Sum.elim_inl, Sum.elim_inr, div_eq_inv_mul] <;> rfl)
  have hgoal : getSMatrix [L, L'] 0 1 = smStep L L' SMat.id := by
    rw [getSMatrix]
    simp only [zero_ne_one, if_false, show ¬ (0 > 1) by omega, show 1 - 0 = 1 by rfl, List.range'_one, List.foldlM_cons, List.foldlM_nil, smIter,
      List.getElem?_cons_zero, List.getElem?_cons_succ, bind_pure]
  rw [hgoal, smStep, hinv, ok_bind, hkp, ok_bind, recipVec_ok hr2.q, ok_bind]
  simp only
  rw [torchInverse, if_pos (det_unit_of_inj hT), ok_bind]
  exact ⟨_, rfl⟩

end General

variable {n : ℕ}

lemma rt_ok {κ : Type} [Fintype κ] [DecidableEq κ] {ω : ℂ} {norm : ℝ} {L0 LN : LayerData (κ ⊕ κ)} {mids : List (LayerData (κ ⊕ κ))} {S : SMat (κ ⊕ κ)}
    (h : getSMatrix (L0 :: mids ++ [LN]) 0 (mids.length + 1) = .ok S) (a0 bN : κ ⊕ κ → ℂ) :
    ∃ R T, rtForward ω norm (L0 :: mids ++ [LN]) a0 bN = .ok (R, T) := by
  have hl : (L0 :: mids ++ [LN]).length - 1 = mids.length + 1 := by simp
  have e1 : (L0 :: mids ++ [LN]).head? = some L0 := rfl
  have e2 : (L0 :: mids ++ [LN]).getLast? = some LN := List.getLast?_append_of_ne_nil _ (by simp)
  rw [rtForward, solveExterior, hl, h, ok_bind, e1, e2]
  exact ⟨_, _, rfl⟩

lemma qs_of_ord {ω ε : ℂ} {kx ky : Fin n → ℂ} {d : ℝ} (h : ∀ i, qOrd ω ε kx ky i ≠ 0) (m : Fin n ⊕ Fin n) :
    (uniformLayer ω kx ky ε d).q m ≠ 0 := by rcases m with i | i <;> exact h i

/-- Spec: power reflectance and transmittance of an interface between media of refractive index `n1`, `n2` at normal incidence. -/
noncomputable def fresnelR (n1 n2 : ℝ) : ℝ := ((n1 - n2) / (n1 + n2)) ^ 2
noncomputable def fresnelT (n1 n2 : ℝ) : ℝ := 4 * n1 * n2 / (n1 + n2) ^ 2

/-- C21: for two half-spaces of index `n1`, `n2` at normal incidence (any truncation of the orders, any polarisation, any frequency in the
closed first quadrant, no grazing order), the solver succeeds and returns Fresnel's coefficients, multiplied by the damping that the wave
suffers in the first layer of thickness `d0`. At a real frequency the damping factor is one. -/
theorem C21_fresnel (ω : ℂ) (hre : 0 < ω.re) (him : 0 ≤ ω.im) (n1 n2 : ℝ) (h1 : 0 < n1) (h2 : 0 < n2) (φ : ℝ) (Lk1 Lk2 : ℝ × ℝ)
    (G : Fin n → ℤ × ℤ) (o : Fin n) (ho : G o = (0, 0)) (d0 dN : ℝ) (kx ky : Fin n → ℂ) (hkx : kx = kxOf ω 0 φ (n1 ^ 2) Lk1 Lk2 G)
    (hky : ky = kyOf ω 0 φ (n1 ^ 2) Lk1 Lk2 G)
    (hq1 : ∀ i, ((n1 ^ 2 : ℝ) : ℂ) * ω ^ 2 ≠ kx i ^ 2 + ky i ^ 2) (hq2 : ∀ i, ((n2 ^ 2 : ℝ) : ℂ) * ω ^ 2 ≠ kx i ^ 2 + ky i ^ 2)
    (s p : ℂ) (hsp : Complex.normSq s + Complex.normSq p = 1) :
    rtForward ω (rtNormalization (n1 ^ 2) 0) [uniformLayer ω kx ky ((n1 ^ 2 : ℝ) : ℂ) d0, uniformLayer ω kx ky ((n2 ^ 2 : ℝ) : ℂ) dN]
      (planewave 0 φ s p o) 0 =
    .ok (Real.exp (-2 * n1 * ω.im * d0) * fresnelR n1 n2, Real.exp (-2 * n1 * ω.im * d0) * fresnelT n1 n2) := by
  have hω : ω ≠ 0 := fun h => by rw [h] at hre; simp at hre
  have e1 : 0 < n1 ^ 2 := by positivity
  have e2 : 0 < n2 ^ 2 := by positivity
  have hx : ∀ i, (kx i).im = 0 := fun i => by rw [hkx]; exact (kOf_zero ω φ (n1 ^ 2) Lk1 Lk2 G i).1
  have hy : ∀ i, (ky i).im = 0 := fun i => by rw [hky]; exact (kOf_zero ω φ (n1 ^ 2) Lk1 Lk2 G i).2
  have hkx0 : kx o = 0 := by rw [hkx]; exact (kOf_zero_order ω φ (n1 ^ 2) Lk1 Lk2 ho).1
  have hky0 : ky o = 0 := by rw [hky]; exact (kOf_zero_order ω φ (n1 ^ 2) Lk1 Lk2 ho).2
  have hq1' : ∀ i, qOrd ω ((n1 ^ 2 : ℝ) : ℂ) kx ky i ≠ 0 := fun i h => hq1 i (by
    have := qOrd_sq ω ((n1 ^ 2 : ℝ) : ℂ) kx ky i
    rw [h] at this; linear_combination -this)
  have hq2' : ∀ i, qOrd ω ((n2 ^ 2 : ℝ) : ℂ) kx ky i ≠ 0 := fun i h => hq2 i (by
    have := qOrd_sq ω ((n2 ^ 2 : ℝ) : ℂ) kx ky i
    rw [h] at this; linear_combination -this)
  obtain ⟨S, hS⟩ := interface_ok hre him e1 e2 hx hy d0 dN hq1' hq2'
  obtain ⟨R, T, hRT⟩ := rt_ok (ω := ω) (norm := rtNormalization (n1 ^ 2) 0) (mids := []) hS (planewave 0 φ s p o) 0
  have hqs : ∀ M ∈ uniformLayer ω kx ky ((n1 ^ 2 : ℝ) : ℂ) d0 :: [] ++ [uniformLayer ω kx ky ((n2 ^ 2 : ℝ) : ℂ) dN], ∀ m, M.q m ≠ 0 := by
    intro M hM
    simp only [List.cons_append, List.nil_append, List.mem_cons, List.not_mem_nil, or_false] at hM
    rcases hM with rfl | rfl
    · exact qs_of_ord hq1'
    · exact qs_of_ord hq2'
  have hro := realOrder_normal hre him e1 hkx0 hky0
  set a0 := planewave 0 φ s p o with ha0
  have hin : InOrder o a0 := planewave_inOrder 0 φ s p o
  have qa : qOrd ω ((n1 ^ 2 : ℝ) : ℂ) kx ky o = n1 * ω := by
    rw [qOrd_normal hre him e1 hkx0 hky0, Real.sqrt_sq h1.le]
  have qb : qOrd ω ((n2 ^ 2 : ℝ) : ℂ) kx ky o = n2 * ω := by
    rw [qOrd_normal hre him e2 hkx0 hky0, Real.sqrt_sq h2.le]
  set D := Complex.exp (Complex.I * qOrd ω ((n1 ^ 2 : ℝ) : ℂ) kx ky o * d0) with hD
  have hn12 : ((n1 : ℂ) + n2) ≠ 0 := by
    have : n1 + n2 ≠ 0 := by positivity
    exact_mod_cast this
  have hn1 : (n1 : ℂ) ≠ 0 := by exact_mod_cast h1.ne'
  have hn2 : (n2 : ℂ) ≠ 0 := by exact_mod_cast h2.ne'
  -- the explicit solution
  set r : ℂ := (n2 - n1) / (n1 + n2) with hr
  set t : ℂ := 2 * n2 / (n1 + n2) with ht
  have hsol : StackSol [uniformLayer ω kx ky ((n1 ^ 2 : ℝ) : ℂ) d0, uniformLayer ω kx ky ((n2 ^ 2 : ℝ) : ℂ) dN] a0 ((r * D) • a0) ((t * D) • a0) 0 := by
    refine ⟨(t * D) • a0, 0, ⟨?_, ?_⟩, rfl, rfl⟩
    · rw [through_inOrder hin, through_zero, ← hD]
      simp only [LayerData.hTan, uniformLayer, Matrix.one_mulVec, add_zero, ← add_smul]
      congr 1
      rw [hr, ht]; field_simp; ring
    · rw [through_inOrder hin, through_zero, ← hD]
      simp only [LayerData.eTan, uniformLayer, Matrix.one_mulVec]
      ext m
      rcases m with i | i
      · rw [(kpUniform_mulVec _ _ _ _ _ i).1, (kpUniform_mulVec _ _ _ _ _ i).1]
        rcases eq_or_ne i o with rfl | h
        · have eq1 : qUniform ω ((n1 ^ 2 : ℝ) : ℂ) kx ky (.inl i) = n1 * ω := qa
          have eq2 : qUniform ω ((n2 ^ 2 : ℝ) : ℂ) kx ky (.inl i) = n2 * ω := qb
          rw [eq1, eq2, hkx0, hky0]
          simp only [Pi.smul_apply, smul_eq_mul, Pi.zero_apply]
          rw [hr, ht]; field_simp; ring
        · simp [(hin i h).1, (hin i h).2]
      · rw [(kpUniform_mulVec _ _ _ _ _ i).2, (kpUniform_mulVec _ _ _ _ _ i).2]
        rcases eq_or_ne i o with rfl | h
        · have eq1 : qUniform ω ((n1 ^ 2 : ℝ) : ℂ) kx ky (.inr i) = n1 * ω := qa
          have eq2 : qUniform ω ((n2 ^ 2 : ℝ) : ℂ) kx ky (.inr i) = n2 * ω := qb
          rw [eq1, eq2, hkx0, hky0]
          simp only [Pi.smul_apply, smul_eq_mul, Pi.zero_apply]
          rw [hr, ht]; field_simp; ring
        · simp [(hin i h).1, (hin i h).2]
  -- uniqueness
  have hval := rt_values (mids := []) hro hin hqs hRT
  obtain ⟨aN, b0, hsol', hR, hT⟩ := hval
  have hext : ∃ x, solveExterior [uniformLayer ω kx ky ((n1 ^ 2 : ℝ) : ℂ) d0, uniformLayer ω kx ky ((n2 ^ 2 : ℝ) : ℂ) dN] a0 0 = .ok x := by
    rw [solveExterior]
    simp only [List.length_cons, List.length_nil, Nat.zero_add, Nat.reduceAdd, Nat.reduceSub]
    rw [hS, ok_bind]; exact ⟨_, rfl⟩
  obtain ⟨x, hx'⟩ := hext
  obtain ⟨u1, u2⟩ := (C16_exterior _ hqs a0 0 _ _ x hx').1 hsol
  obtain ⟨u3, u4⟩ := (C16_exterior _ hqs a0 0 _ _ x hx').1 hsol'
  have hinc := incident_normal hre him e1 φ hx hy hkx0 hky0 d0 s p
  have hinc2 := incident_normal hre him e2 φ hx hy hkx0 hky0 dN s p
  rw [← ha0] at hinc hinc2
  have hD2 : Complex.normSq D = Real.exp (-2 * n1 * ω.im * d0) := by
    rw [hD, normSq_exp, qa, Complex.re_mul_ofReal, Complex.I_mul_re, Complex.im_ofReal_mul]
    congr 1; ring
  have hRv : R = Real.exp (-2 * n1 * ω.im * d0) * fresnelR n1 n2 := by
    rw [hR, u4, ← u2, oneWay_smul, mul_assoc, hinc, hsp, mul_one, Complex.normSq_mul, hD2, mul_comm]
    congr 1
    rw [hr, show ((n2 : ℂ) - n1) / (n1 + n2) = (((n2 - n1) / (n1 + n2) : ℝ) : ℂ) by push_cast; ring, Complex.normSq_ofReal, fresnelR]
    ring
  have hTv : T = Real.exp (-2 * n1 * ω.im * d0) * fresnelT n1 n2 := by
    rw [hT, u3, ← u1, oneWay_smul, Complex.normSq_mul, hD2]
    have hnorm : rtNormalization (n1 ^ 2) 0 = n1 / n2 * rtNormalization (n2 ^ 2) 0 := by
      rw [rtNormalization, rtNormalization, Real.sqrt_sq h1.le, Real.sqrt_sq h2.le, Real.cos_zero]; field_simp
    rw [hnorm, ht, show 2 * (n2 : ℂ) / (n1 + n2) = ((2 * n2 / (n1 + n2) : ℝ) : ℂ) by push_cast; ring, Complex.normSq_ofReal, fresnelT]
    have : 2 * n2 / (n1 + n2) * (2 * n2 / (n1 + n2)) * Real.exp (-2 * n1 * ω.im * d0) *
        oneWay ω (uniformLayer ω kx ky ((n2 ^ 2 : ℝ) : ℂ) dN) a0 * (n1 / n2 * rtNormalization (n2 ^ 2) 0) =
        2 * n2 / (n1 + n2) * (2 * n2 / (n1 + n2)) * Real.exp (-2 * n1 * ω.im * d0) * (n1 / n2) *
        (oneWay ω (uniformLayer ω kx ky ((n2 ^ 2 : ℝ) : ℂ) dN) a0 * rtNormalization (n2 ^ 2) 0) := by ring
    rw [this, hinc2, hsp]
    field_simp
    ring
  rw [← hRv, ← hTv]
  exact hRT

/-- C21 at a real frequency: exactly Fresnel's formulas. -/
theorem C21_fresnel_real (ω : ℝ) (hω : 0 < ω) (n1 n2 : ℝ) (h1 : 0 < n1) (h2 : 0 < n2) (φ : ℝ) (Lk1 Lk2 : ℝ × ℝ)
    (G : Fin n → ℤ × ℤ) (o : Fin n) (ho : G o = (0, 0)) (d0 dN : ℝ) (kx ky : Fin n → ℂ) (hkx : kx = kxOf ω 0 φ (n1 ^ 2) Lk1 Lk2 G)
    (hky : ky = kyOf ω 0 φ (n1 ^ 2) Lk1 Lk2 G)
    (hq1 : ∀ i, ((n1 ^ 2 : ℝ) : ℂ) * (ω : ℂ) ^ 2 ≠ kx i ^ 2 + ky i ^ 2) (hq2 : ∀ i, ((n2 ^ 2 : ℝ) : ℂ) * (ω : ℂ) ^ 2 ≠ kx i ^ 2 + ky i ^ 2)
    (s p : ℂ) (hsp : Complex.normSq s + Complex.normSq p = 1) :
    rtForward ω (rtNormalization (n1 ^ 2) 0) [uniformLayer ω kx ky ((n1 ^ 2 : ℝ) : ℂ) d0, uniformLayer ω kx ky ((n2 ^ 2 : ℝ) : ℂ) dN]
      (planewave 0 φ s p o) 0 = .ok (((n1 - n2) / (n1 + n2)) ^ 2, 4 * n1 * n2 / (n1 + n2) ^ 2) := by
  have := C21_fresnel ω (by rwa [Complex.ofReal_re]) (by rw [Complex.ofReal_im]) n1 n2 h1 h2 φ Lk1 Lk2 G o ho d0 dN kx ky hkx hky hq1 hq2 s p hsp
  rw [this, Complex.ofReal_im]
  simp [fresnelR, fresnelT]

/-- a wave in a stack of one material travels on without reflection -/
lemma same_sol {κ : Type} [Fintype κ] [DecidableEq κ] {ω ε : ℂ} {kx ky : κ → ℂ} {o : κ} (d0 : ℝ) (ds : List ℝ) {a : κ ⊕ κ → ℂ} (ha : InOrder o a) :
    StackSol ((d0 :: ds).map (uniformLayer ω kx ky ε)) a 0 (Complex.exp (Complex.I * qOrd ω ε kx ky o * ((d0 :: ds).dropLast.sum : ℝ)) • a) 0 := by
  induction ds generalizing d0 a with
  | nil => simp [StackSol]
  | cons d1 ds ih =>
    simp only [List.map_cons] at ih ⊢
    rw [StackSol]
    refine ⟨Complex.exp (Complex.I * qOrd ω ε kx ky o * d0) • a, 0, ⟨?_, ?_⟩, ?_⟩
    · rw [through_inOrder ha, through_zero]; rfl
    · rw [through_inOrder ha, through_zero]; rfl
    · have := ih d1 (inOrder_smul ha (Complex.exp (Complex.I * qOrd ω ε kx ky o * d0)))
      rw [smul_smul, ← Complex.exp_add] at this
      convert! this using 3
      rw [List.dropLast_cons_cons, List.sum_cons]
      push_cast; ring

/-- C21: a stack of any number of layers of one transparent material (in particular vacuum), of any thicknesses, reflects nothing and
transmits everything; at a complex frequency the transmitted power is damped over the layers before the last one. -/
theorem C21_vacuum (ω : ℂ) (hre : 0 < ω.re) (him : 0 ≤ ω.im) (n1 : ℝ) (h1 : 0 < n1) (φ : ℝ) (Lk1 Lk2 : ℝ × ℝ)
    (G : Fin n → ℤ × ℤ) (o : Fin n) (ho : G o = (0, 0)) (d0 dN : ℝ) (ds : List ℝ) (kx ky : Fin n → ℂ)
    (hkx : kx = kxOf ω 0 φ (n1 ^ 2) Lk1 Lk2 G) (hky : ky = kyOf ω 0 φ (n1 ^ 2) Lk1 Lk2 G)
    (hq : ∀ i, ((n1 ^ 2 : ℝ) : ℂ) * ω ^ 2 ≠ kx i ^ 2 + ky i ^ 2) (s p : ℂ) (hsp : Complex.normSq s + Complex.normSq p = 1) :
    rtForward ω (rtNormalization (n1 ^ 2) 0) ((d0 :: ds ++ [dN]).map (uniformLayer ω kx ky ((n1 ^ 2 : ℝ) : ℂ)))
      (planewave 0 φ s p o) 0 = .ok (0, Real.exp (-2 * n1 * ω.im * (d0 + ds.sum))) := by
  have hω : ω ≠ 0 := fun h => by rw [h] at hre; simp at hre
  have e1 : 0 < n1 ^ 2 := by positivity
  have e1c : ((n1 ^ 2 : ℝ) : ℂ) ≠ 0 := by exact_mod_cast e1.ne'
  have hx : ∀ i, (kx i).im = 0 := fun i => by rw [hkx]; exact (kOf_zero ω φ (n1 ^ 2) Lk1 Lk2 G i).1
  have hy : ∀ i, (ky i).im = 0 := fun i => by rw [hky]; exact (kOf_zero ω φ (n1 ^ 2) Lk1 Lk2 G i).2
  have hkx0 : kx o = 0 := by rw [hkx]; exact (kOf_zero_order ω φ (n1 ^ 2) Lk1 Lk2 ho).1
  have hky0 : ky o = 0 := by rw [hky]; exact (kOf_zero_order ω φ (n1 ^ 2) Lk1 Lk2 ho).2
  have hq' : ∀ i, qOrd ω ((n1 ^ 2 : ℝ) : ℂ) kx ky i ≠ 0 := fun i h => hq i (by
    have := qOrd_sq ω ((n1 ^ 2 : ℝ) : ℂ) kx ky i
    rw [h] at this; linear_combination -this)
  set U := uniformLayer ω kx ky ((n1 ^ 2 : ℝ) : ℂ) with hU
  have hreg : (U d0).Regular := uniform_regular hω hx hy e1c d0 hq'
  obtain ⟨S, hS⟩ := getSMatrix_same_ok (U d0) hreg ((ds ++ [dN]).map U) (fun M hM => by
    obtain ⟨d, _, rfl⟩ := List.mem_map.1 hM
    exact ⟨rfl, rfl, rfl⟩)
  have hform : (d0 :: ds ++ [dN]).map U = U d0 :: ds.map U ++ [U dN] := by simp
  have hform' : U d0 :: (ds ++ [dN]).map U = U d0 :: ds.map U ++ [U dN] := by simp
  have hlen : ((ds ++ [dN]).map U).length = (ds.map U).length + 1 := by simp
  rw [hform', hlen] at hS
  rw [hform]
  obtain ⟨R, T, hRT⟩ := rt_ok (ω := ω) (norm := rtNormalization (n1 ^ 2) 0) hS (planewave 0 φ s p o) 0
  have hqs : ∀ M ∈ U d0 :: ds.map U ++ [U dN], ∀ m, M.q m ≠ 0 := by
    rw [← hform]
    intro M hM
    obtain ⟨d, _, rfl⟩ := List.mem_map.1 hM
    exact qs_of_ord hq'
  have hro := realOrder_normal hre him e1 hkx0 hky0
  have hin : InOrder o (planewave 0 φ s p o) := planewave_inOrder 0 φ s p o
  obtain ⟨aN, b0, hsol', hR, hT⟩ := rt_values hro hin hqs hRT
  have hext : ∃ x, solveExterior (U d0 :: ds.map U ++ [U dN]) (planewave 0 φ s p o) 0 = .ok x := by
    rw [solveExterior]
    have hl : (U d0 :: ds.map U ++ [U dN]).length - 1 = (ds.map U).length + 1 := by simp
    rw [hl, hS, ok_bind]; exact ⟨_, rfl⟩
  obtain ⟨x, hx'⟩ := hext
  have hsol := same_sol (ω := ω) (ε := ((n1 ^ 2 : ℝ) : ℂ)) (kx := kx) (ky := ky) d0 (ds ++ [dN]) hin
  have hform2 : (d0 :: (ds ++ [dN])).map U = U d0 :: ds.map U ++ [U dN] := by simp
  rw [← hU, hform2] at hsol
  have hdl : (d0 :: (ds ++ [dN])).dropLast = d0 :: ds := by
    rw [← List.cons_append, List.dropLast_concat]
  rw [hdl, List.sum_cons] at hsol
  obtain ⟨u1, u2⟩ := (C16_exterior _ hqs _ 0 _ _ x hx').1 hsol
  obtain ⟨u3, u4⟩ := (C16_exterior _ hqs _ 0 _ _ x hx').1 hsol'
  have hinc := incident_normal hre him e1 φ hx hy hkx0 hky0 dN s p
  have hRv : R = 0 := by
    rw [hR, u4, ← u2]
    simp [oneWay]
  have qa : qOrd ω ((n1 ^ 2 : ℝ) : ℂ) kx ky o = n1 * ω := by
    rw [qOrd_normal hre him e1 hkx0 hky0, Real.sqrt_sq h1.le]
  have hTv : T = Real.exp (-2 * n1 * ω.im * (d0 + ds.sum)) := by
    rw [hT, u3, ← u1, oneWay_smul, mul_assoc, hinc, hsp, mul_one, normSq_exp, qa, Complex.re_mul_ofReal, Complex.I_mul_re, Complex.im_ofReal_mul]
    congr 1; ring
  rw [hRT, hRv, hTv]

/-- The single retained order (0,0). -/
def oneOrder : Fin 1 → ℤ × ℤ := fun _ => (0, 0)

/-- The frequency that the driver hands to the solver (init_trcwa.py:29 and trcwa.py:32). -/
noncomputable def driverOmega (f : ℝ) : ℂ := 2 * Real.pi * (f * (1 + Complex.I / 2 / 1e5))

lemma driverOmega_re (f : ℝ) : (driverOmega f).re = 2 * Real.pi * f := by
  have : driverOmega f = ((2 * Real.pi * f : ℝ) : ℂ) + ((2 * Real.pi * f / 2 / 1e5 : ℝ) : ℂ) * Complex.I := by
    rw [driverOmega]; push_cast; ring
  rw [this, Complex.add_re, Complex.ofReal_re, Complex.re_ofReal_mul, Complex.I_re]; ring

lemma driverOmega_im (f : ℝ) : (driverOmega f).im = 2 * Real.pi * f / 2 / 1e5 := by
  have : driverOmega f = ((2 * Real.pi * f : ℝ) : ℂ) + ((2 * Real.pi * f / 2 / 1e5 : ℝ) : ℂ) * Complex.I := by
    rw [driverOmega]; push_cast; ring
  rw [this, Complex.add_im, Complex.ofReal_im, Complex.im_ofReal_mul, Complex.I_im]; ring

/-- C21 does not hold literally at the complex frequencies that the driver uses: for every positive frequency an all-vacuum stack
with the driver's half-space thickness 1 reflects nothing but transmits strictly less than one. -/
theorem C21_vacuum_driver_false (f : ℝ) (hf : 0 < f) : ∃ T : ℝ, T < 1 ∧
    rtForward (driverOmega f) (rtNormalization (1 ^ 2) 0)
      (([1, 0, 1] : List ℝ).map (uniformLayer (driverOmega f) (kxOf (driverOmega f) 0 0 (1 ^ 2) (1, 0) (0, 1) oneOrder)
        (kyOf (driverOmega f) 0 0 (1 ^ 2) (1, 0) (0, 1) oneOrder) ((1 ^ 2 : ℝ) : ℂ))) (planewave 0 0 1 0 0) 0 = .ok (0, T) := by
  have hre : 0 < (driverOmega f).re := by rw [driverOmega_re]; have := Real.pi_pos; positivity
  have him : 0 < (driverOmega f).im := by rw [driverOmega_im]; have := Real.pi_pos; positivity
  have h := C21_vacuum (driverOmega f) hre him.le 1 one_pos 0 (1, 0) (0, 1) oneOrder 0 rfl 1 1 [0] _ _ rfl rfl (fun i => ?_) 1 0 (by simp)
  · refine ⟨_, ?_, h⟩
    rw [Real.exp_lt_one_iff]
    simp only [List.sum_cons, List.sum_nil]
    linarith
  · have h0 : oneOrder i = (0, 0) := rfl
    rw [(kOf_zero_order (driverOmega f) 0 (1 ^ 2) (1, 0) (0, 1) h0).1, (kOf_zero_order (driverOmega f) 0 (1 ^ 2) (1, 0) (0, 1) h0).2]
    have : driverOmega f ≠ 0 := fun h => by rw [h] at hre; simp at hre
    simp [this]

/-- Hypotheses of C19, C20 and C21 are met by the vacuum/glass interface (indices 1 and 3/2) with one order: R = 1/25, T = 24/25. -/
example : ∃ R T : ℝ, rtForward ((1 : ℝ) : ℂ) (rtNormalization (1 ^ 2) 0)
    (((((1 ^ 2 : ℝ), (1 : ℝ)) :: [] ++ [((3 / 2) ^ 2, 1)]) : List (ℝ × ℝ)).map fun l =>
      uniformLayer ((1 : ℝ) : ℂ) (kxOf ((1 : ℝ) : ℂ) 0 0 (1 ^ 2) (1, 0) (0, 1) oneOrder)
        (kyOf ((1 : ℝ) : ℂ) 0 0 (1 ^ 2) (1, 0) (0, 1) oneOrder) l.1 l.2) (planewave 0 0 1 0 0) 0 = .ok (R, T) ∧ R + T = 1 ∧ R = 1 / 25 := by
  have hk : ∀ i, kxOf ((1 : ℝ) : ℂ) 0 0 (1 ^ 2) (1, 0) (0, 1) oneOrder i = 0 ∧ kyOf ((1 : ℝ) : ℂ) 0 0 (1 ^ 2) (1, 0) (0, 1) oneOrder i = 0 :=
    fun i => kOf_zero_order _ 0 (1 ^ 2) (1, 0) (0, 1) (by rfl)
  have h := C21_fresnel_real 1 one_pos 1 (3 / 2) one_pos (by norm_num) 0 (1, 0) (0, 1) oneOrder 0 rfl 1 1 _ _ rfl rfl
    (fun i => by rw [(hk i).1, (hk i).2]; norm_num) (fun i => by rw [(hk i).1, (hk i).2]; norm_num) 1 0 (by simp)
  refine ⟨_, _, h, ?_, ?_⟩
  · refine C19_uniform 1 0 0 (1 ^ 2) one_pos (by simp) (by norm_num) (1, 0) (0, 1) oneOrder 0 rfl 1 1 ((3 / 2) ^ 2) [] (by simp) _ rfl
      (fun M hM => ?_) 1 0 (by simp) _ _ h
    simp only [List.cons_append, List.nil_append, List.map_cons, List.map_nil, List.mem_cons, List.not_mem_nil, or_false] at hM
    rcases hM with rfl | rfl
    · refine qs_of_ord fun i hi => ?_
      have := qOrd_sq ((1 : ℝ) : ℂ) ((1 ^ 2 : ℝ) : ℂ) (kxOf ((1 : ℝ) : ℂ) 0 0 (1 ^ 2) (1, 0) (0, 1) oneOrder)
        (kyOf ((1 : ℝ) : ℂ) 0 0 (1 ^ 2) (1, 0) (0, 1) oneOrder) i
      rw [hi, (hk i).1, (hk i).2] at this
      norm_num at this
    · refine qs_of_ord fun i hi => ?_
      have := qOrd_sq ((1 : ℝ) : ℂ) (((3 / 2) ^ 2 : ℝ) : ℂ) (kxOf ((1 : ℝ) : ℂ) 0 0 (1 ^ 2) (1, 0) (0, 1) oneOrder)
        (kyOf ((1 : ℝ) : ℂ) 0 0 (1 ^ 2) (1, 0) (0, 1) oneOrder) i
      rw [hi, (hk i).1, (hk i).2] at this
      norm_num at this
  · norm_num

end Nidn
