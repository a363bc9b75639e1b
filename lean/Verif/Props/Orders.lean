/-
Property C108: reflected and transmitted power by diffraction order.
-/
import Verif.Props.Backward

set_option linter.unusedSectionVars false

namespace Nidn

open Matrix

variable {κ : Type} [Fintype κ] [DecidableEq κ]

/-- C108: for every structure, direction, excitation and normalisation, asking by order succeeds exactly when asking for the totals does,
and the values by order add up to the totals. -/
theorem C108_sum (dir : String) (nrm bo : ℤ) (hbo : bo ≠ 0) (ω : ℂ) (norm : ℝ) (layers : List (LayerData (κ ⊕ κ))) (a0 bN : κ ⊕ κ → ℂ) :
    (∀ R T, rtSolve dir nrm bo ω norm layers a0 bN = .ok (.orders R T) →
      rtSolve dir nrm 0 ω norm layers a0 bN = .ok (.total (∑ i, R i) (∑ i, T i))) ∧
    (∀ R T, rtSolve dir nrm 0 ω norm layers a0 bN = .ok (.total R T) →
      ∃ R' T', rtSolve dir nrm bo ω norm layers a0 bN = .ok (.orders R' T') ∧ ∑ i, R' i = R ∧ ∑ i, T' i = T) := by
  by_cases hf : dir = "forward"
  · subst hf
    constructor
    · intro R T h
      obtain ⟨u, L0, LN, hu, h0, hN⟩ := rtSolve_ok h
      rw [rtSolve_forward hu h0 hN, if_neg hbo] at h
      injection h with h
      injection h with h1 h2
      rw [rtSolve_forward hu h0 hN, if_pos rfl, ← h1, ← h2]
      simp only [zPoyntingFlux, ← Finset.sum_mul, Complex.re_sum, Complex.neg_re, Finset.sum_neg_distrib]
    · intro R T h
      obtain ⟨u, L0, LN, hu, h0, hN⟩ := rtSolve_ok h
      rw [rtSolve_forward hu h0 hN, if_pos rfl] at h
      injection h with h
      injection h with h1 h2
      rw [rtSolve_forward hu h0 hN, if_neg hbo]
      refine ⟨_, _, rfl, ?_, ?_⟩
      · rw [← h1]; simp only [zPoyntingFlux, ← Finset.sum_mul, Complex.re_sum, Complex.neg_re, Finset.sum_neg_distrib]
      · rw [← h2]; simp only [zPoyntingFlux, ← Finset.sum_mul, Complex.re_sum]
  · by_cases hb : dir = "backward"
    · subst hb
      constructor
      · intro R T h
        obtain ⟨u, L0, LN, hu, h0, hN⟩ := rtSolve_ok h
        rw [rtSolve_backward hu h0 hN, if_neg hbo] at h
        injection h with h
        injection h with h1 h2
        rw [rtSolve_backward hu h0 hN, if_pos rfl, ← h1, ← h2]
        simp only [zPoyntingFlux, ← Finset.sum_mul, Complex.re_sum, Complex.neg_re, Finset.sum_neg_distrib]
      · intro R T h
        obtain ⟨u, L0, LN, hu, h0, hN⟩ := rtSolve_ok h
        rw [rtSolve_backward hu h0 hN, if_pos rfl] at h
        injection h with h
        injection h with h1 h2
        rw [rtSolve_backward hu h0 hN, if_neg hbo]
        refine ⟨_, _, rfl, ?_, ?_⟩
        · rw [← h1]; simp only [zPoyntingFlux, ← Finset.sum_mul, Complex.re_sum]
        · rw [← h2]; simp only [zPoyntingFlux, ← Finset.sum_mul, Complex.re_sum, Complex.neg_re, Finset.sum_neg_distrib]
    · constructor
      · intro R T h
        obtain ⟨u, L0, LN, hu, h0, hN⟩ := rtSolve_ok h
        rw [rtSolve, hu, ok_bind, h0, hN] at h
        simp [hbo, hf, hb] at h
      · intro R T h
        obtain ⟨u, L0, LN, hu, h0, hN⟩ := rtSolve_ok h
        rw [rtSolve, hu, ok_bind, h0, hN] at h
        simp [hf, hb] at h

/-- the part of an amplitude vector that lives in order `o` -/
def onlyOrder (o : κ) (a : κ ⊕ κ → ℂ) : κ ⊕ κ → ℂ :=
  Sum.elim (fun i => if i = o then a (.inl i) else 0) (fun i => if i = o then a (.inr i) else 0)

lemma onlyOrder_inOrder (o : κ) (a : κ ⊕ κ → ℂ) : InOrder o (onlyOrder o a) := by
  intro i h; simp [onlyOrder, h]

lemma onlyOrder_of_inOrder {o : κ} {a : κ ⊕ κ → ℂ} (h : InOrder o a) : onlyOrder o a = a := by
  ext (i | i)
  · by_cases hi : i = o
    · simp [onlyOrder, hi]
    · simp [onlyOrder, hi, (h i hi).1]
  · by_cases hi : i = o
    · simp [onlyOrder, hi]
    · simp [onlyOrder, hi, (h i hi).2]

lemma onlyOrder_zero (o : κ) : onlyOrder o (0 : κ ⊕ κ → ℂ) = 0 := by ext (i | i) <;> simp [onlyOrder]

/-- power of a one-way wave in one order of a uniform medium -/
lemma oneWay_only (ω ε : ℂ) (kx ky : κ → ℂ) (d : ℝ) (b : κ ⊕ κ → ℂ) (i : κ) :
    oneWay ω (uniformLayer ω kx ky ε d) (onlyOrder i b) =
      (star ((fluxA ω (uniformLayer ω kx ky ε d) *ᵥ b) (.inl i)) * b (.inl i)).re +
      (star ((fluxA ω (uniformLayer ω kx ky ε d) *ᵥ b) (.inr i)) * b (.inr i)).re := by
  have hphi : (uniformLayer ω kx ky ε d).phi = 1 := rfl
  rw [oneWay, dotProduct, Fintype.sum_sum_type, hphi, Matrix.one_mulVec, Finset.sum_eq_single i, Finset.sum_eq_single i, Complex.add_re]
  · simp only [Pi.star_apply]
    rw [(uniformA_apply ω ε kx ky d (onlyOrder i b) i).1, (uniformA_apply ω ε kx ky d (onlyOrder i b) i).2, (uniformA_apply ω ε kx ky d b i).1,
      (uniformA_apply ω ε kx ky d b i).2]
    simp only [onlyOrder, Sum.elim_inl, Sum.elim_inr, if_true]
  · intro j _ h; simp [onlyOrder, h]
  · simp
  · intro j _ h; simp [onlyOrder, h]
  · simp

lemma back_order {ω ε : ℂ} {kx ky : κ → ℂ} {o : κ} (hr : RealOrder ω ε kx ky o) (d : ℝ) (a b : κ ⊕ κ → ℂ) (ha : InOrder o a) (i : κ) :
    (-(fluxByOrder ω (uniformLayer ω kx ky ε d) a b).2 i).re = oneWay ω (uniformLayer ω kx ky ε d) (onlyOrder i b) := by
  have := congrArg (starRingEnd ℂ) (diff_zero hr d a b ha i)
  rw [map_add, map_zero] at this
  have hphi : (uniformLayer ω kx ky ε d).phi = 1 := rfl
  have h : backwardXY ω (uniformLayer ω kx ky ε d) a b (.inl i) + backwardXY ω (uniformLayer ω kx ky ε d) a b (.inr i) =
      -((star ((fluxA ω (uniformLayer ω kx ky ε d) *ᵥ b) (.inl i)) * b (.inl i)).re +
        (star ((fluxA ω (uniformLayer ω kx ky ε d) *ᵥ b) (.inr i)) * b (.inr i)).re : ℝ) := by
    simp only [backwardXY, hphi, Matrix.one_mulVec]
    push_cast
    simp only [RCLike.star_def]
    linear_combination this
  rw [oneWay_only]
  simp only [fluxByOrder]
  rw [h, neg_neg, Complex.ofReal_re]

lemma fwd_order {ω ε : ℂ} {kx ky : κ → ℂ} (d : ℝ) (a : κ ⊕ κ → ℂ) (i : κ) :
    ((fluxByOrder ω (uniformLayer ω kx ky ε d) a 0).1 i).re = oneWay ω (uniformLayer ω kx ky ε d) (onlyOrder i a) := by
  have hphi : (uniformLayer ω kx ky ε d).phi = 1 := rfl
  rw [oneWay_only]
  simp only [fluxByOrder, forwardXY, fluxDiff, hphi, Matrix.one_mulVec, Matrix.mulVec_zero, Pi.zero_apply, map_zero, zero_mul, sub_zero, mul_zero,
    add_zero, Complex.add_re, Complex.ofReal_re, RCLike.star_def]

/-- an evanescent order carries no power -/
lemma oneWay_evanescent {ω ε : ℝ} {kx ky : κ → ℂ} (hx : ∀ i, (kx i).im = 0) (hy : ∀ i, (ky i).im = 0) (d : ℝ) {o : κ} {a : κ ⊕ κ → ℂ}
    (ha : InOrder o a) (he : ε * ω ^ 2 < (kx o).re ^ 2 + (ky o).re ^ 2) : oneWay (ω : ℂ) (uniformLayer ω kx ky ε d) a = 0 := by
  rw [oneWay_uniform (ω : ℂ) ε kx ky hx hy]
  refine Finset.sum_eq_zero fun i _ => ?_
  by_cases hi : i = o
  · subst hi
    have hx' : kx i = ((kx i).re : ℂ) := Complex.ext rfl (by simp [hx i])
    have hy' : ky i = ((ky i).re : ℂ) := Complex.ext rfl (by simp [hy i])
    have h2 := qOrd_sq (ω : ℂ) (ε : ℂ) kx ky i
    rw [hx', hy'] at h2
    set q := qOrd (ω : ℂ) (ε : ℂ) kx ky i
    have h3 : q ^ 2 = ((ε * ω ^ 2 - (kx i).re ^ 2 - (ky i).re ^ 2 : ℝ) : ℂ) := by rw [h2]; push_cast; ring
    have h4 : q.re = 0 := by
      have e1 := congrArg Complex.im h3
      have e2 := congrArg Complex.re h3
      rw [Complex.ofReal_im, sq, Complex.mul_im] at e1
      rw [Complex.ofReal_re, sq, Complex.mul_re] at e2
      have h5 : q.im ≠ 0 := fun h => by rw [h] at e2; nlinarith [mul_self_nonneg q.re]
      have : q.re * q.im = 0 := by linarith
      exact (mul_eq_zero.1 this).resolve_right h5
    have h6 : (q⁻¹).re = 0 := by rw [Complex.inv_re, h4, zero_div]
    set S := Complex.normSq (a (.inl i)) + Complex.normSq (a (.inr i))
    set t := Complex.normSq (kx i * a (.inr i) - ky i * a (.inl i))
    have h7 : (ω : ℂ)⁻¹ * q⁻¹ * ((ω : ℂ) ^ 2 * (S : ℂ) - 1 / (ε : ℂ) * (t : ℂ)) = ((ω⁻¹ * (ω ^ 2 * S - 1 / ε * t) : ℝ) : ℂ) * q⁻¹ := by
      push_cast; ring
    rw [h7, Complex.re_ofReal_mul, h6, mul_zero]
  · rw [(ha i hi).1, (ha i hi).2]; simp

variable {n : ℕ}

/-- C108: at a real frequency, between transparent half-spaces, whatever lies between them: no order reflects or transmits negative power,
and an order that is evanescent in the outer medium carries none. -/
theorem C108_orders (ω θ φ ε0 εN : ℝ) (hω : 0 < ω) (hc : 0 < Real.cos θ) (h0 : 0 < ε0) (hN : 0 < εN) (Lk1 Lk2 : ℝ × ℝ)
    (G : Fin n → ℤ × ℤ) (o : Fin n) (ho : G o = (0, 0)) (d0 dN : ℝ) (mids : List (LayerData (Fin n ⊕ Fin n))) (kx ky : Fin n → ℂ)
    (hkx : kx = kxOf ω θ φ ε0 Lk1 Lk2 G) (hky : ky = kyOf ω θ φ ε0 Lk1 Lk2 G)
    (hq : ∀ M ∈ uniformLayer ω kx ky ε0 d0 :: mids ++ [uniformLayer ω kx ky εN dN], ∀ m, M.q m ≠ 0)
    (s p : ℂ) (bo : ℤ) (hbo : bo ≠ 0) (R T : Fin n → ℝ)
    (h : rtSolve "forward" 1 bo ω (rtNormalization ε0 θ) (uniformLayer ω kx ky ε0 d0 :: mids ++ [uniformLayer ω kx ky εN dN])
      (planewave θ φ s p o) 0 = .ok (.orders R T)) (i : Fin n) :
    0 ≤ R i ∧ 0 ≤ T i ∧ (ε0 * ω ^ 2 < (kx i).re ^ 2 + (ky i).re ^ 2 → R i = 0) ∧ (εN * ω ^ 2 < (kx i).re ^ 2 + (ky i).re ^ 2 → T i = 0) := by
  obtain ⟨hx0, hy0⟩ := kxOf_order ω θ φ ε0 Lk1 Lk2 ho
  have hx := kxOf_real ω θ φ ε0 Lk1 Lk2 G
  have hy := kyOf_real ω θ φ ε0 Lk1 Lk2 G
  rw [← hkx] at hx hx0
  rw [← hky] at hy hy0
  have hn : 0 ≤ rtNormalization ε0 θ := div_nonneg (Real.sqrt_nonneg _) hc.le
  have hre : 0 < (ω : ℂ).re := by rwa [Complex.ofReal_re]
  have him : 0 ≤ (ω : ℂ).im := by rw [Complex.ofReal_im]
  obtain ⟨u, L0, LN, hu, e0, eN⟩ := rtSolve_ok h
  have e1 : L0 = uniformLayer ω kx ky ε0 d0 := (Option.some.inj e0).symm
  have e2 : LN = uniformLayer ω kx ky εN dN := by
    have : (uniformLayer ω kx ky ε0 d0 :: mids ++ [uniformLayer ω kx ky εN dN]).getLast? = some (uniformLayer (ω : ℂ) kx ky εN dN) :=
      List.getLast?_append_of_ne_nil _ (by simp)
    rw [this] at eN; exact (Option.some.inj eN).symm
  rw [rtSolve_forward hu e0 eN, if_neg hbo] at h
  injection h with h
  injection h with h1 h2
  simp only [if_true] at h1 h2
  have r1 : R i = oneWay ω (uniformLayer ω kx ky ε0 d0) (onlyOrder i u.2) * rtNormalization ε0 θ := by
    rw [← h1, e1, ← back_order (realOrder_oblique hω hc h0 φ hx0 hy0) d0 _ _ (planewave_inOrder θ φ s p o) i]
  have t1 : T i = oneWay ω (uniformLayer ω kx ky εN dN) (onlyOrder i u.1) * rtNormalization ε0 θ := by
    rw [← h2, e2, ← fwd_order]
  refine ⟨?_, ?_, fun he => ?_, fun he => ?_⟩
  · rw [r1]; exact mul_nonneg (oneWay_nonneg hre him hx hy h0 d0 (hq _ (by simp)) _) hn
  · rw [t1]; exact mul_nonneg (oneWay_nonneg hre him hx hy hN dN (hq _ (by simp)) _) hn
  · rw [r1, oneWay_evanescent hx hy d0 (onlyOrder_inOrder i u.2) he, zero_mul]
  · rw [t1, oneWay_evanescent hx hy dN (onlyOrder_inOrder i u.1) he, zero_mul]

/-! ### unpatterned stacks do not diffract -/

lemma only_through {ω ε : ℂ} {kx ky : κ → ℂ} {d : ℝ} (o : κ) (a : κ ⊕ κ → ℂ) :
    (uniformLayer ω kx ky ε d).through (onlyOrder o a) = onlyOrder o ((uniformLayer ω kx ky ε d).through a) := by
  ext (i | i) <;> by_cases hi : i = o <;> simp [LayerData.through, onlyOrder, hi]

lemma only_hTan {ω ε : ℂ} {kx ky : κ → ℂ} {d : ℝ} (o : κ) (u v : κ ⊕ κ → ℂ) :
    (uniformLayer ω kx ky ε d).hTan (onlyOrder o u) (onlyOrder o v) = onlyOrder o ((uniformLayer ω kx ky ε d).hTan u v) := by
  have hphi : (uniformLayer ω kx ky ε d).phi = 1 := rfl
  rw [LayerData.hTan, LayerData.hTan, hphi, Matrix.one_mulVec, Matrix.one_mulVec]
  ext (i | i) <;> by_cases hi : i = o <;> simp [onlyOrder, hi]

lemma only_eTan {ω ε : ℂ} {kx ky : κ → ℂ} {d : ℝ} (o : κ) (u v : κ ⊕ κ → ℂ) :
    (uniformLayer ω kx ky ε d).eTan (onlyOrder o u) (onlyOrder o v) = onlyOrder o ((uniformLayer ω kx ky ε d).eTan u v) := by
  have hphi : (uniformLayer ω kx ky ε d).phi = 1 := rfl
  have hkp : (uniformLayer ω kx ky ε d).kp = kpUniform ω (1 / ε) kx ky := rfl
  rw [LayerData.eTan, LayerData.eTan, hphi, hkp, Matrix.one_mulVec, Matrix.one_mulVec]
  ext (i | i)
  · rw [(kpUniform_mulVec ω (1 / ε) kx ky _ i).1]
    by_cases hi : i = o
    · subst hi
      simp only [onlyOrder, Sum.elim_inl, Sum.elim_inr, if_true]
      rw [(kpUniform_mulVec ω (1 / ε) kx ky _ i).1]
    · simp [onlyOrder, hi]
  · rw [(kpUniform_mulVec ω (1 / ε) kx ky _ i).2]
    by_cases hi : i = o
    · subst hi
      simp only [onlyOrder, Sum.elim_inl, Sum.elim_inr, if_true]
      rw [(kpUniform_mulVec ω (1 / ε) kx ky _ i).2]
    · simp [onlyOrder, hi]

lemma only_sol {ω : ℂ} {kx ky : κ → ℂ} {l : List (LayerData (κ ⊕ κ))} (hl : ∀ M ∈ l, ∃ ε d, M = uniformLayer ω kx ky ε d) (o : κ)
    {a0 b0 aN bN : κ ⊕ κ → ℂ} (h : StackSol l a0 b0 aN bN) :
    StackSol l (onlyOrder o a0) (onlyOrder o b0) (onlyOrder o aN) (onlyOrder o bN) := by
  induction l generalizing a0 b0 with
  | nil => exact h
  | cons L rest ih =>
    cases rest with
    | nil =>
      obtain ⟨rfl, rfl⟩ := h
      exact ⟨rfl, rfl⟩
    | cons L' rest =>
      obtain ⟨a', b', hc, hs⟩ := h
      refine ⟨onlyOrder o a', onlyOrder o b', ?_, ih (fun M hM => hl M (List.mem_cons_of_mem _ hM)) hs⟩
      obtain ⟨ε, d, rfl⟩ := hl L (by simp)
      obtain ⟨ε', d', rfl⟩ := hl L' (by simp)
      exact ⟨by rw [only_through, only_through, only_hTan, only_hTan, hc.h], by rw [only_through, only_through, only_eTan, only_eTan, hc.e]⟩

/-- C108: a stack of uniform layers, lossy or not, at any complex frequency, sends no power into any order but the incident one. -/
theorem C108_specular (ω : ℂ) (kx ky : κ → ℂ) (layers : List (LayerData (κ ⊕ κ))) (hl : ∀ M ∈ layers, ∃ ε d, M = uniformLayer ω kx ky ε d)
    (hq : ∀ M ∈ layers, ∀ m, M.q m ≠ 0) (nrm bo : ℤ) (hbo : bo ≠ 0) (norm θ φ : ℝ) (s p : ℂ) (o : κ) (R T : κ → ℝ)
    (h : rtSolve "forward" nrm bo ω norm layers (planewave θ φ s p o) 0 = .ok (.orders R T)) (i : κ) (hi : i ≠ o) : R i = 0 ∧ T i = 0 := by
  obtain ⟨u, L0, LN, hu, e0, eN⟩ := rtSolve_ok h
  have hs := (C16_exterior _ hq _ 0 u.1 u.2 u hu).2 ⟨rfl, rfl⟩
  have ho := only_sol hl o hs
  have hw := planewave_inOrder θ φ s p o
  rw [onlyOrder_of_inOrder hw, onlyOrder_zero] at ho
  obtain ⟨ea, eb⟩ := (C16_exterior _ hq _ 0 _ _ u hu).1 ho
  rw [rtSolve_forward hu e0 eN, if_neg hbo] at h
  injection h with h
  injection h with h1 h2
  obtain ⟨ε, d, rfl⟩ := hl L0 (List.mem_of_head? e0)
  obtain ⟨ε', d', rfl⟩ := hl LN (List.mem_of_getLast? eN)
  have hA : ∀ {ε : ℂ} {d : ℝ} {x : κ ⊕ κ → ℂ}, InOrder o x → (fluxA ω (uniformLayer ω kx ky ε d) *ᵥ x) (.inl i) = 0 ∧
      (fluxA ω (uniformLayer ω kx ky ε d) *ᵥ x) (.inr i) = 0 := by
    intro ε d x hx
    rw [(uniformA_apply ω ε kx ky d x i).1, (uniformA_apply ω ε kx ky d x i).2, (hx i hi).1, (hx i hi).2]
    constructor <;> ring
  have hb : InOrder o u.2 := by rw [← eb]; exact onlyOrder_inOrder o u.2
  have ha : InOrder o u.1 := by rw [← ea]; exact onlyOrder_inOrder o u.1
  have p1 : (uniformLayer ω kx ky ε d).phi = 1 := rfl
  have p2 : (uniformLayer ω kx ky ε' d').phi = 1 := rfl
  constructor
  · rw [← h1]
    simp only [fluxByOrder, backwardXY, fluxDiff, p1, Matrix.one_mulVec, (hA hb).1, (hA hb).2, (hA hw).1, (hA hw).2, (hw i hi).1, (hw i hi).2]
    simp
  · rw [← h2]
    simp only [fluxByOrder, forwardXY, fluxDiff, p2, Matrix.one_mulVec, (hA ha).1, (hA ha).2, (ha i hi).1, (ha i hi).2]
    simp

/-- Asking for `normalize = 0` leaves out the factor by which the powers are related to the incident one: for a vacuum front layer at normal
incidence it is one, for any other front medium the returned numbers are not fractions of the incident power. -/
theorem C108_unnormalised (bo : ℤ) (nrm : ℤ) (hn : nrm ≠ 1) (ω : ℂ) (norm : ℝ) (hnorm : norm ≠ 0) (layers : List (LayerData (κ ⊕ κ)))
    (a0 bN : κ ⊕ κ → ℂ) (R T : κ → ℝ) (hbo : bo ≠ 0) (h : rtSolve "forward" 1 bo ω norm layers a0 bN = .ok (.orders R T)) :
    rtSolve "forward" nrm bo ω norm layers a0 bN = .ok (.orders (fun i => R i / norm) (fun i => T i / norm)) := by
  obtain ⟨u, L0, LN, hu, e0, eN⟩ := rtSolve_ok h
  rw [rtSolve_forward hu e0 eN, if_neg hbo, if_pos rfl] at h
  injection h with h
  injection h with h1 h2
  rw [rtSolve_forward hu e0 eN, if_neg hbo, if_neg hn, ← h1, ← h2]
  congr 2
  · ext i; field_simp
  · ext i; field_simp

/-- Three orders of a square lattice of period one. -/
def threeOrders : Fin 3 → ℤ × ℤ := ![(0, 0), (1, 0), (-1, 0)]

/-- The hypotheses of `C108_orders` are met by a vacuum-glass interface at frequency one with three orders, and in front of it the second order
is evanescent. -/
example : (∃ R T, rtSolve "forward" 1 1 ((1 : ℝ) : ℂ) (rtNormalization 1 0)
      (uniformLayer ((1 : ℝ) : ℂ) (kxOf (1 : ℝ) 0 0 1 (1, 0) (0, 1) threeOrders) (kyOf (1 : ℝ) 0 0 1 (1, 0) (0, 1) threeOrders) ((1 : ℝ) : ℂ) 1 :: [] ++
        [uniformLayer ((1 : ℝ) : ℂ) (kxOf (1 : ℝ) 0 0 1 (1, 0) (0, 1) threeOrders) (kyOf (1 : ℝ) 0 0 1 (1, 0) (0, 1) threeOrders) ((4 : ℝ) : ℂ) 1])
      (planewave 0 0 1 0 0) 0 = .ok (.orders R T)) ∧
    (1 : ℝ) * 1 ^ 2 < (kxOf (1 : ℝ) 0 0 1 (1, 0) (0, 1) threeOrders 1).re ^ 2 + (kyOf (1 : ℝ) 0 0 1 (1, 0) (0, 1) threeOrders 1).re ^ 2 := by
  have hpi := Real.pi_gt_three
  have hk : ∀ i, kxOf (1 : ℝ) 0 0 1 (1, 0) (0, 1) threeOrders i = ((2 * Real.pi * ((threeOrders i).1 : ℝ) : ℝ) : ℂ) ∧
      kyOf (1 : ℝ) 0 0 1 (1, 0) (0, 1) threeOrders i = ((2 * Real.pi * ((threeOrders i).2 : ℝ) : ℝ) : ℂ) := by
    intro i
    simp [kxOf, kyOf, waveX, waveY]
  have hq : ∀ ε : ℝ, 0 < ε → ε < 9 → ∀ i, qOrd ((1 : ℝ) : ℂ) (ε : ℂ) (kxOf (1 : ℝ) 0 0 1 (1, 0) (0, 1) threeOrders)
      (kyOf (1 : ℝ) 0 0 1 (1, 0) (0, 1) threeOrders) i ≠ 0 := by
    intro ε he h9 i h
    have := qOrd_sq ((1 : ℝ) : ℂ) (ε : ℂ) (kxOf (1 : ℝ) 0 0 1 (1, 0) (0, 1) threeOrders) (kyOf (1 : ℝ) 0 0 1 (1, 0) (0, 1) threeOrders) i
    rw [h, (hk i).1, (hk i).2] at this
    norm_cast at this
    fin_cases i <;> simp [threeOrders] at this <;> nlinarith
  refine ⟨?_, ?_⟩
  · obtain ⟨S, hS⟩ := interface_ok (ω := ((1 : ℝ) : ℂ)) (by rw [Complex.ofReal_re]; norm_num) (by rw [Complex.ofReal_im]) one_pos
      (by norm_num : (0 : ℝ) < 4) (kxOf_real 1 0 0 1 (1, 0) (0, 1) threeOrders) (kyOf_real 1 0 0 1 (1, 0) (0, 1) threeOrders) 1 1
      (hq 1 one_pos (by norm_num)) (hq 4 (by norm_num) (by norm_num))
    have hu : ∃ u, solveExterior [uniformLayer ((1 : ℝ) : ℂ) (kxOf (1 : ℝ) 0 0 1 (1, 0) (0, 1) threeOrders)
        (kyOf (1 : ℝ) 0 0 1 (1, 0) (0, 1) threeOrders) ((1 : ℝ) : ℂ) 1, uniformLayer ((1 : ℝ) : ℂ) (kxOf (1 : ℝ) 0 0 1 (1, 0) (0, 1) threeOrders)
        (kyOf (1 : ℝ) 0 0 1 (1, 0) (0, 1) threeOrders) ((4 : ℝ) : ℂ) 1] (planewave 0 0 1 0 0) 0 = .ok u := by
      rw [solveExterior]
      simp only [List.length_cons, List.length_nil]
      rw [hS, ok_bind]
      exact ⟨_, rfl⟩
    obtain ⟨u, hu⟩ := hu
    exact ⟨_, _, (rtSolve_forward hu rfl rfl).trans (by rw [if_neg (by norm_num)])⟩
  · rw [(hk 1).1, (hk 1).2]
    simp [threeOrders]
    rw [abs_of_pos (by linarith)]
    linarith

end Nidn
