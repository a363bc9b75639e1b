/-
C15, C113: the convolution matrix of a pattern that does not amplify can be inverted, so the solver takes every such pattern.
-/
import Verif.Props.Solvable
import Verif.Props.Maxwell

namespace Nidn

noncomputable section

open Matrix

variable {n : ℕ}


/-- the weights of `conv_weights` add up to the squared length of the vector -/
lemma conv_definite {Nx Ny : ℕ} (s : Fin Nx → Fin Ny → ℂ) (G : Fin n → ℤ × ℤ) (hG : Function.Injective G) (hr : Resolved Nx Ny G) (c : ℂ) (hs : ∀ a b, 0 < (c * s a b).im)
    (C : Matrix (Fin n) (Fin n) ℂ) (hC : ∀ i j, C i j = fourierCoeff s (G i - G j)) (x : Fin n → ℂ) (hx : x ≠ 0) : 0 < (c * (star x ⬝ᵥ (C *ᵥ x))).im := by
  obtain ⟨w, hw, h⟩ := conv_weights (Nx := Nx) (Ny := Ny) G x
  have h1 := h (fun _ _ => 1) 1 (fun i j => by
    rw [fourierCoeff_const 1 _ (hr i j).1 (hr i j).2, Matrix.one_apply]
    simp [sub_eq_zero, hG.eq_iff])
  rw [Matrix.one_mulVec, star_dot_self] at h1
  have hpos : 0 < sqNorm x := lt_of_le_of_ne (sqNorm_nonneg x) fun h0 => hx (sqNorm_zero h0.ge)
  have hex : ∃ a b, 0 < w a b := by
    by_contra hn
    push Not at hn
    have hz : ∀ a b, w a b = 0 := fun a b => le_antisymm (hn a b) (hw a b)
    simp only [hz, Complex.ofReal_zero, mul_zero, Finset.sum_const_zero] at h1
    exact hpos.ne' (Complex.ofReal_eq_zero.1 h1)
  obtain ⟨a0, b0, hab⟩ := hex
  rw [h s C hC, Finset.mul_sum, Complex.im_sum]
  have t : ∀ a b, (c * (s a b * (w a b : ℂ))).im = (c * s a b).im * w a b := fun a b => by rw [← mul_assoc, Complex.im_mul_ofReal]
  refine Finset.sum_pos' (fun a _ => ?_) ⟨a0, Finset.mem_univ _, ?_⟩
  · rw [Finset.mul_sum, Complex.im_sum]
    exact Finset.sum_nonneg fun b _ => by rw [t]; exact mul_nonneg (hs a b).le (hw a b)
  · rw [Finset.mul_sum, Complex.im_sum]
    refine Finset.sum_pos' (fun b _ => by rw [t]; exact mul_nonneg (hs a0 b).le (hw a0 b)) ⟨b0, Finset.mem_univ _, ?_⟩
    rw [t]
    exact mul_pos (hs a0 b0) hab

/-- C15: for different orders that the grid resolves, the convolution matrix of every pattern whose permittivities lie on one side of a line through zero (positive permittivities with `c = i`; lossy ones with `c = 1`; in
general `c` is the direction of the line) is invertible, so `Epsilon_fft` answers. -/
theorem C15_invertible {Nx Ny : ℕ} (s : Fin Nx → Fin Ny → ℂ) (G : Fin n → ℤ × ℤ) (hG : Function.Injective G) (hr : Resolved Nx Ny G) (c : ℂ) (hs : ∀ a b, 0 < (c * s a b).im) :
    ∃ C epinv ep2, getConv (1 / Nx / Ny) s G = .ok C ∧ epsilonFft (1 / Nx / Ny) (.iso s) G = .ok (epinv, ep2) ∧ epinv * C = 1 ∧ C * epinv = 1 := by
  obtain ⟨C, h1, h2⟩ := (C15_entries s G).1 hr
  have hu : IsUnit C.det := by
    refine det_unit_of_inj fun x hx => ?_
    by_contra h0
    have := conv_definite s G hG hr c hs C h2 x h0
    rw [hx, dotProduct_zero, mul_zero] at this
    exact lt_irrefl _ this
  obtain ⟨inv, eps2, h, e1, e2, -⟩ := (C15_solver_matrices_partial s G C h1).1 hu
  exact ⟨C, inv, eps2, h1, h, e1, e2⟩

/-- two pixels of vacuum and silicon, orders 0 and 1 -/
example : Function.Injective twoOrders ∧ Resolved 2 1 twoOrders ∧ ∀ (a : Fin 2) (_ : Fin 1), 0 < (Complex.I * (if a = 0 then 1 else 12 : ℂ)).im := by
  refine ⟨by decide, resolved_twoOrders 2 le_rfl, fun a _ => ?_⟩
  split_ifs <;> simp

/-- the material of a layer: one permittivity or a pattern on a grid -/
inductive LayerMaterial
  | plain (ε : ℂ)
  | pattern (Nx Ny : ℕ) (s : Fin Nx → Fin Ny → ℂ)

/-- every permittivity of the material -/
def LayerMaterial.All (P : ℂ → Prop) : LayerMaterial → Prop
  | .plain ε => P ε
  | .pattern _ _ s => ∀ a b, P (s a b)

/-- the grid of a pattern resolves the orders, and no coefficient falls under the filter of `Epsilon_fft` (C15) -/
def LayerMaterial.Kept (G : Fin n → ℤ × ℤ) : LayerMaterial → Prop
  | .plain _ => True
  | .pattern Nx Ny s => Resolved Nx Ny G ∧ ∀ C, getConv (1 / Nx / Ny) s G = .ok C → C.map zeroSmall = C

/-- The layers the solver makes for a material and a thickness: for patterns with any eigenvectors that are independent. -/
inductive MadeOf (ω : ℂ) (kx ky : Fin n → ℂ) (G : Fin n → ℤ × ℤ) : LayerMaterial → ℝ → LayerData (Fin n ⊕ Fin n) → Prop
  | plain (ε : ℂ) (d : ℝ) : MadeOf ω kx ky G (.plain ε) d (uniformLayer ω kx ky ε d)
  | pattern {Nx Ny : ℕ} (s : Fin Nx → Fin Ny → ℂ) (epinv : Matrix (Fin n) (Fin n) ℂ) (ep2 : Matrix (Fin n ⊕ Fin n) (Fin n ⊕ Fin n) ℂ)
      (h : epsilonFft (1 / Nx / Ny) (.iso s) G = .ok (epinv, ep2)) (lam : Fin n ⊕ Fin n → ℂ) (phi : Matrix (Fin n ⊕ Fin n) (Fin n ⊕ Fin n) ℂ)
      (he : IsEig (eigenMat ep2 (kpPatterned ω epinv kx ky) kx ky) lam phi) (hphi : IsUnit phi.det) (d : ℝ) :
      MadeOf ω kx ky G (.pattern Nx Ny s) d (patternedLayer ω kx ky epinv lam phi d)

/-- C113: at a damped frequency every structure of at least two layers, uniform or patterned, whose permittivities do not amplify gets its matrices from `Epsilon_fft` and, with whatever independent eigenvectors the library
finds, an answer of the solver. Missing: patterns with coefficients that the filter of C15 drops; patterns whose eigenvectors are dependent. -/
theorem C113_patterned_partial (ω : ℂ) (hω : 0 < ω.im) (kx ky : Fin n → ℂ) (hx : ∀ i, (kx i).im = 0) (hy : ∀ i, (ky i).im = 0) (G : Fin n → ℤ × ℤ) (hG : Function.Injective G)
    (m0 mN : LayerMaterial × ℝ) (ms : List (LayerMaterial × ℝ)) (hm : ∀ m ∈ m0 :: ms ++ [mN], m.1.All (fun ε => 0 < (ω * ε).im) ∧ m.1.Kept G ∧ 0 ≤ m.2) :
    (∀ m ∈ m0 :: ms ++ [mN], ∀ Nx Ny s, m.1 = .pattern Nx Ny s → ∃ r, epsilonFft (1 / Nx / Ny) (.iso s) G = .ok r) ∧
    ∀ L0 LN mids, List.Forall₂ (fun m L => MadeOf ω kx ky G m.1 m.2 L) (m0 :: ms ++ [mN]) (L0 :: mids ++ [LN]) → ∀ (norm : ℝ) (a0 bN : Fin n ⊕ Fin n → ℂ),
      ∃ R T, rtForward ω norm (L0 :: mids ++ [LN]) a0 bN = .ok (R, T) := by
  constructor
  · intro m hmem Nx Ny s hs
    obtain ⟨h1, h2, -⟩ := hm m hmem
    rw [hs] at h1 h2
    obtain ⟨C, epinv, ep2, -, h, -⟩ := C15_invertible s G hG h2.1 ω h1
    exact ⟨_, h⟩
  · intro L0 LN mids hf norm a0 bN
    refine C113_damped_partial ω hω kx ky hx hy G L0 LN mids (fun M hM => ?_) norm a0 bN
    obtain ⟨i, hi, rfl⟩ := List.getElem_of_mem hM
    have hi' : i < (m0 :: ms ++ [mN]).length := by rw [hf.length_eq]; exact hi
    have hmade := (List.forall₂_iff_get.1 hf).2 i hi' hi
    simp only [List.get_eq_getElem] at hmade
    obtain ⟨h1, h2, h3⟩ := hm _ (List.getElem_mem hi')
    generalize (m0 :: ms ++ [mN])[i] = m at hmade h1 h2 h3
    generalize (L0 :: mids ++ [LN])[i] = L at hmade
    obtain ⟨mat, d⟩ := m
    cases hmade with
    | plain ε d =>
      refine ⟨.uniform ε d h3 ?_ (show 0 ≤ _ from le_of_lt h1), by simp [uniformLayer]⟩
      rintro rfl
      have : 0 < (ω * 0).im := h1
      simp at this
    | pattern s epinv ep2 h lam phi he hphi d =>
      exact ⟨.patterned s (fun a b => (h1 a b).le) epinv ep2 h h2.2 lam phi he d h3, hphi⟩

/-- one pixel of vacuum beside one of silicon -/
def halfSilicon (a : Fin 2) (_ : Fin 1) : ℂ := if a = 0 then 1 else 12

lemma halfSilicon_conv (C : Matrix (Fin 1) (Fin 1) ℂ) (h : getConv (1 / (2 : ℕ) / (1 : ℕ)) halfSilicon oneOrder = .ok C) : C = Matrix.of fun _ _ => ((13 / 2 : ℝ) : ℂ) := by
  obtain ⟨C', h1, h2⟩ := (C15_entries halfSilicon oneOrder).1 (by intro i j; simp [oneOrder])
  rw [h1] at h
  cases h
  ext i j
  rw [h2]
  simp [fourierCoeff, halfSilicon, oneOrder, Fin.sum_univ_two]
  norm_num

/-- The hypotheses of `C113_patterned_partial` are met by a grating of vacuum and silicon between vacuum and glass, at normal incidence with the zeroth order, and there are layers made of these materials. -/
example : (∀ m ∈ ((LayerMaterial.plain 1, (1 : ℝ)) :: [(LayerMaterial.pattern 2 1 halfSilicon, 1 / 2)] ++ [(LayerMaterial.plain 4, 1)]),
      m.1.All (fun ε => 0 < ((⟨1, 1⟩ : ℂ) * ε).im) ∧ m.1.Kept oneOrder ∧ 0 ≤ m.2) ∧
    ∃ L, MadeOf ⟨1, 1⟩ 0 0 oneOrder (.pattern 2 1 halfSilicon) (1 / 2) L := by
  have hk : (LayerMaterial.pattern 2 1 halfSilicon).Kept oneOrder := by
    refine ⟨by intro i j; simp [oneOrder], fun C hC => ?_⟩
    rw [halfSilicon_conv C hC]
    exact of_map_filter _ (by norm_num)
  have ha : ∀ a b, 0 < ((⟨1, 1⟩ : ℂ) * halfSilicon a b).im := by
    intro a b
    unfold halfSilicon
    split_ifs <;> simp
  constructor
  · intro m hm
    simp only [List.mem_cons, List.cons_append, List.nil_append, List.not_mem_nil, or_false] at hm
    rcases hm with rfl | rfl | rfl
    · exact ⟨by simp [LayerMaterial.All], trivial, by norm_num⟩
    · exact ⟨ha, hk, by norm_num⟩
    · exact ⟨by simp [LayerMaterial.All], trivial, by norm_num⟩
  · have hG : Function.Injective oneOrder := fun i j _ => Subsingleton.elim i j
    obtain ⟨C, epinv, ep2, hC, h, -⟩ := C15_invertible halfSilicon oneOrder hG hk.1 _ ha
    obtain ⟨C', h1, -, -, h2⟩ := epsilonFft_spec h hk.2
    have hC' : C' = Matrix.of fun _ _ => ((13 / 2 : ℝ) : ℂ) := by
      rw [← halfSilicon_conv C hC]
      obtain ⟨C'', h1', h2'⟩ := (C15_entries halfSilicon oneOrder).1 hk.1
      rw [hC] at h1'
      cases h1'
      ext i j
      rw [h1, h2']
    have hj : jkMat (0 : Fin 1 → ℂ) 0 = 0 := by
      ext (i | i) j <;> simp [jkMat]
    have hkm : kMat (0 : Fin 1 → ℂ) 0 = 0 := by
      ext (i | i) j <;> simp [kMat]
    refine ⟨_, .pattern halfSilicon epinv ep2 h (fun _ => ((13 / 2 : ℝ) : ℂ) * (⟨1, 1⟩ : ℂ) ^ 2) 1 ?_ (by simp) _⟩
    rw [IsEig, eigenMat, hkm, Matrix.zero_mul, sub_zero, kpPatterned, hj, Matrix.zero_mul, Matrix.zero_mul, sub_zero, h2, hC', Matrix.mul_one, Matrix.one_mul]
    ext (i | i) (j | j)
    · rw [Subsingleton.elim i j]; simp; ring
    · simp
    · simp
    · rw [Subsingleton.elim i j]; simp; ring

end

end Nidn
