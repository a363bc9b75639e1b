/-
C190: more orders and larger permittivities move the matrices of a layer in one direction only.
-/
import Verif.Props.ConvInverse

namespace Nidn

open Matrix

/-- the two matrices of a positive pattern -/
lemma conv_pair {Nx Ny n : ℕ} {ε : Fin Nx → Fin Ny → ℝ} (hε : ∀ m k, 0 < ε m k) {G : Fin n → ℤ × ℤ} (hG : Function.Injective G)
    {epinv : Matrix (Fin n) (Fin n) ℂ} {ep2 : Matrix (Fin n ⊕ Fin n) (Fin n ⊕ Fin n) ℂ} (h : epsilonFft (1 / Nx / Ny) (.iso fun m k => (ε m k : ℂ)) G = .ok (epinv, ep2)) :
    ∃ C : Matrix (Fin n) (Fin n) ℂ, (∀ i j, C i j = fourierCoeff (fun m k => (ε m k : ℂ)) (G i - G j)) ∧ C * epinv = 1 := by
  have hr : Resolved Nx Ny G := by
    by_contra hn
    simp only [epsilonFft] at h
    rw [(C15_entries (fun m k => (ε m k : ℂ)) G).2 hn] at h
    cases h
  obtain ⟨C, epinv', ep2', h1, h2, h3, h4⟩ := C15_invertible (fun m k => (ε m k : ℂ)) G hG hr Complex.I (fun a b => by simpa using hε a b)
  rw [h] at h2
  injection h2 with h2
  obtain ⟨rfl, rfl⟩ := Prod.mk.inj h2
  obtain ⟨C', e1, hC⟩ := (C15_entries (fun m k => (ε m k : ℂ)) G).1 hr
  rw [h1] at e1; injection e1 with e1; subst e1
  exact ⟨C, hC, h4⟩

/-- the inverse maximises: no other vector gives more of twice the overlap with `x` less the form -/
lemma inverse_maximises {Nx Ny n : ℕ} (ε : Fin Nx → Fin Ny → ℝ) (hε : ∀ m k, 0 < ε m k) (G : Fin n → ℤ × ℤ) (C : Matrix (Fin n) (Fin n) ℂ)
    (hC : ∀ i j, C i j = fourierCoeff (fun m k => (ε m k : ℂ)) (G i - G j)) (x y z : Fin n → ℂ) (hy : C *ᵥ y = x) :
    2 * (star z ⬝ᵥ x).re - (star z ⬝ᵥ (C *ᵥ z)).re ≤ (star x ⬝ᵥ y).re := by
  have h0 : 0 ≤ (star (z - y) ⬝ᵥ (C *ᵥ (z - y))).re := by
    rw [conv_form_real ε G C hC, Complex.ofReal_re]
    exact pixelMean_nonneg fun m k => mul_nonneg (hε m k).le (Complex.normSq_nonneg _)
  have hsym : (star y ⬝ᵥ (C *ᵥ z)).re = (star z ⬝ᵥ x).re := by
    rw [← hy, conv_form_re ε G C hC, conv_form_re ε G C hC]
    congr 1
    funext m k
    simp only [Complex.mul_re, Complex.conj_re, Complex.conj_im]
    ring
  have hxy : (star x ⬝ᵥ y).re = (star y ⬝ᵥ x).re := by
    rw [show star x ⬝ᵥ y = star (star y ⬝ᵥ x) by rw [← Matrix.star_dotProduct_star, star_star, dotProduct_comm]]
    simp
  rw [Matrix.mulVec_sub, hy, star_sub, sub_dotProduct, dotProduct_sub, dotProduct_sub] at h0
  simp only [Complex.sub_re] at h0
  rw [hsym] at h0
  rw [hxy]
  linarith

/-- the form of the inverse is the form of the matrix at the solution -/
lemma inverse_form {n : ℕ} (C : Matrix (Fin n) (Fin n) ℂ) (x y : Fin n → ℂ) (hy : C *ᵥ y = x) :
    (star x ⬝ᵥ y).re = (star y ⬝ᵥ x).re ∧ (star y ⬝ᵥ (C *ᵥ y)).re = (star y ⬝ᵥ x).re := by
  refine ⟨?_, by rw [hy]⟩
  rw [show star x ⬝ᵥ y = star (star y ⬝ᵥ x) by rw [← Matrix.star_dotProduct_star, star_star, dotProduct_comm]]
  simp

/-- C190: raising the permittivity of some pixels (all positive) lowers no mean permittivity and raises no mean inverse permittivity, for any field of the orders. -/
theorem C190_monotone {Nx Ny n : ℕ} (ε ε' : Fin Nx → Fin Ny → ℝ) (hε : ∀ m k, 0 < ε m k) (hle : ∀ m k, ε m k ≤ ε' m k) (G : Fin n → ℤ × ℤ) (hG : Function.Injective G) (C C' : Matrix (Fin n) (Fin n) ℂ)
    (hC : getConv (1 / Nx / Ny) (fun m k => (ε m k : ℂ)) G = .ok C) (hC' : getConv (1 / Nx / Ny) (fun m k => (ε' m k : ℂ)) G = .ok C')
    (epinv epinv' : Matrix (Fin n) (Fin n) ℂ) (ep2 ep2' : Matrix (Fin n ⊕ Fin n) (Fin n ⊕ Fin n) ℂ)
    (h : epsilonFft (1 / Nx / Ny) (.iso fun m k => (ε m k : ℂ)) G = .ok (epinv, ep2)) (h' : epsilonFft (1 / Nx / Ny) (.iso fun m k => (ε' m k : ℂ)) G = .ok (epinv', ep2')) (x : Fin n → ℂ) :
    (star x ⬝ᵥ (C *ᵥ x)).re ≤ (star x ⬝ᵥ (C' *ᵥ x)).re ∧ (star x ⬝ᵥ (epinv' *ᵥ x)).re ≤ (star x ⬝ᵥ (epinv *ᵥ x)).re := by
  have hr : Resolved Nx Ny G := by
    by_contra hn; rw [(C15_entries _ G).2 hn] at hC; cases hC
  have hε' : ∀ m k, 0 < ε' m k := fun m k => (hε m k).trans_le (hle m k)
  have key : ∀ (D D' : Matrix (Fin n) (Fin n) ℂ) (_ : ∀ i j, D i j = fourierCoeff (fun m k => (ε m k : ℂ)) (G i - G j)) (_ : ∀ i j, D' i j = fourierCoeff (fun m k => (ε' m k : ℂ)) (G i - G j)) (z : Fin n → ℂ),
      (star z ⬝ᵥ (D *ᵥ z)).re ≤ (star z ⬝ᵥ (D' *ᵥ z)).re := by
    intro D D' hD hD' z
    rw [conv_form_real ε G D hD, conv_form_real ε' G D' hD', Complex.ofReal_re, Complex.ofReal_re]
    exact pixelMean_mono fun m k => mul_le_mul_of_nonneg_right (hle m k) (Complex.normSq_nonneg _)
  obtain ⟨C₁, e1, f1⟩ := (C15_entries (fun m k => (ε m k : ℂ)) G).1 hr
  rw [hC] at e1; injection e1 with e1; subst e1
  obtain ⟨C₁, e1, f1'⟩ := (C15_entries (fun m k => (ε' m k : ℂ)) G).1 hr
  rw [hC'] at e1; injection e1 with e1; subst e1
  refine ⟨key C C' f1 f1' x, ?_⟩
  obtain ⟨D, hD, hDi⟩ := conv_pair hε hG h
  obtain ⟨D', hD', hDi'⟩ := conv_pair hε' hG h'
  have hy : D *ᵥ (epinv *ᵥ x) = x := by rw [Matrix.mulVec_mulVec, hDi, Matrix.one_mulVec]
  have hy' : D' *ᵥ (epinv' *ᵥ x) = x := by rw [Matrix.mulVec_mulVec, hDi', Matrix.one_mulVec]
  have hmax := inverse_maximises ε hε G D hD x _ (epinv' *ᵥ x) hy
  have hk := key D D' hD hD' (epinv' *ᵥ x)
  obtain ⟨q1, q2⟩ := inverse_form D' x _ hy'
  rw [q2] at hk
  rw [q1]
  linarith

/-- C190: with more orders the matrix for the fewer ones is a part of the new one, and the mean inverse permittivity that a field sees through the fewer orders is never above the
one it sees through more (it climbs towards the mean of the inverse pattern, which it meets when there are as many orders as pixels, C189). -/
theorem C190_more_orders {Nx Ny n n' : ℕ} (ε : Fin Nx → Fin Ny → ℝ) (hε : ∀ m k, 0 < ε m k) (G : Fin n → ℤ × ℤ) (G' : Fin n' → ℤ × ℤ) (hG' : Function.Injective G') (f : Fin n → Fin n') (hf : Function.Injective f)
    (hGf : ∀ i, G i = G' (f i)) (epinv : Matrix (Fin n) (Fin n) ℂ) (epinv' : Matrix (Fin n') (Fin n') ℂ) (ep2 : Matrix (Fin n ⊕ Fin n) (Fin n ⊕ Fin n) ℂ) (ep2' : Matrix (Fin n' ⊕ Fin n') (Fin n' ⊕ Fin n') ℂ)
    (h : epsilonFft (1 / Nx / Ny) (.iso fun m k => (ε m k : ℂ)) G = .ok (epinv, ep2)) (h' : epsilonFft (1 / Nx / Ny) (.iso fun m k => (ε m k : ℂ)) G' = .ok (epinv', ep2')) :
    (∃ C C', getConv (1 / Nx / Ny) (fun m k => (ε m k : ℂ)) G = .ok C ∧ getConv (1 / Nx / Ny) (fun m k => (ε m k : ℂ)) G' = .ok C' ∧ ∀ i j, C i j = C' (f i) (f j)) ∧
    ∀ x' : Fin n' → ℂ, (star (x' ∘ f) ⬝ᵥ (epinv *ᵥ (x' ∘ f))).re ≤ (star x' ⬝ᵥ (epinv' *ᵥ x')).re := by
  have hG : Function.Injective G := fun i j hij => hf (hG' (by rw [← hGf, ← hGf, hij]))
  have hr' : Resolved Nx Ny G' := by
    by_contra hn
    simp only [epsilonFft] at h'
    rw [(C15_entries (fun m k => (ε m k : ℂ)) G').2 hn] at h'
    cases h'
  have hr : Resolved Nx Ny G := fun i j => by rw [hGf, hGf]; exact hr' _ _
  obtain ⟨C, c1, c2⟩ := (C15_entries (fun m k => (ε m k : ℂ)) G).1 hr
  obtain ⟨C', c1', c2'⟩ := (C15_entries (fun m k => (ε m k : ℂ)) G').1 hr'
  have hsub : ∀ i j, C i j = C' (f i) (f j) := fun i j => by rw [c2, c2', hGf, hGf]
  refine ⟨⟨C, C', c1, c1', hsub⟩, fun x' => ?_⟩
  obtain ⟨D, hD, hDi⟩ := conv_pair hε hG h
  obtain ⟨D', hD', hDi'⟩ := conv_pair hε hG' h'
  obtain rfl : D = C := by ext i j; rw [hD, c2]
  obtain rfl : D' = C' := by ext i j; rw [hD', c2']
  set x := x' ∘ f with hx
  set y := epinv *ᵥ x with hyd
  have hy : D *ᵥ y = x := by rw [hyd, Matrix.mulVec_mulVec, hDi, Matrix.one_mulVec]
  have hy' : D' *ᵥ (epinv' *ᵥ x') = x' := by rw [Matrix.mulVec_mulVec, hDi', Matrix.one_mulVec]
  set z : Fin n' → ℂ := Function.extend f y 0 with hz
  have hzf : ∀ i, z (f i) = y i := fun i => hf.extend_apply y 0 i
  have hz0 : ∀ j, j ∉ Set.range f → z j = 0 := fun j hj => by rw [hz, Function.extend_apply' _ _ _ (by simpa using hj)]; rfl
  have hdot : ∀ v : Fin n' → ℂ, star z ⬝ᵥ v = star y ⬝ᵥ (v ∘ f) := by
    intro v
    rw [dotProduct, dotProduct]
    refine (Fintype.sum_of_injective f hf _ _ (fun j hj => ?_) (fun i => ?_)).symm
    · rw [Pi.star_apply, hz0 j hj, star_zero, zero_mul]
    · rw [Pi.star_apply, Pi.star_apply, hzf, Function.comp_apply]
  have hmul : (D' *ᵥ z) ∘ f = x := by
    rw [← hy]
    funext i
    rw [Function.comp_apply, Matrix.mulVec, Matrix.mulVec, dotProduct, dotProduct]
    refine (Fintype.sum_of_injective f hf _ _ (fun j hj => ?_) (fun j => ?_)).symm
    · rw [hz0 j hj, mul_zero]
    · rw [hzf, hsub]
  have hmax := inverse_maximises ε hε G' D' hD' x' _ z hy'
  rw [hdot, hdot, hmul] at hmax
  obtain ⟨q1, -⟩ := inverse_form D x y hy
  rw [q1]
  linarith

/-- a grating of 1 and 3 and one of 2 and 3: both have answers, and the first is nowhere above the second -/
example : (∀ (m : Fin 2) (_ : Fin 1), (0 : ℝ) < (if m = 0 then 1 else 3) ∧ (if m = 0 then 1 else 3 : ℝ) ≤ (if m = 0 then 2 else 3)) ∧ Function.Injective twoOrders ∧
    (∃ C epinv ep2, getConv (1 / (2 : ℕ) / (1 : ℕ)) (fun (m : Fin 2) (_ : Fin 1) => ((if m = 0 then 1 else 3 : ℝ) : ℂ)) twoOrders = .ok C ∧
      epsilonFft (1 / (2 : ℕ) / (1 : ℕ)) (.iso fun (m : Fin 2) (_ : Fin 1) => ((if m = 0 then 1 else 3 : ℝ) : ℂ)) twoOrders = .ok (epinv, ep2)) ∧
    ∃ C epinv ep2, getConv (1 / (2 : ℕ) / (1 : ℕ)) (fun (m : Fin 2) (_ : Fin 1) => ((if m = 0 then 2 else 3 : ℝ) : ℂ)) twoOrders = .ok C ∧
      epsilonFft (1 / (2 : ℕ) / (1 : ℕ)) (.iso fun (m : Fin 2) (_ : Fin 1) => ((if m = 0 then 2 else 3 : ℝ) : ℂ)) twoOrders = .ok (epinv, ep2) := by
  have hG : Function.Injective twoOrders := by unfold twoOrders; decide
  refine ⟨fun m _ => ⟨?_, ?_⟩, hG, ?_, ?_⟩
  · split_ifs <;> norm_num
  · split_ifs <;> norm_num
  · obtain ⟨C, epinv, ep2, -, h1, h2, -⟩ := C189_between (fun (m : Fin 2) (_ : Fin 1) => if m = 0 then 1 else 3) (fun m _ => by split_ifs <;> norm_num) twoOrders hG (resolved_twoOrders 2 le_rfl)
    exact ⟨C, epinv, ep2, h1, h2⟩
  · obtain ⟨C, epinv, ep2, -, h1, h2, -⟩ := C189_between (fun (m : Fin 2) (_ : Fin 1) => if m = 0 then 2 else 3) (fun m _ => by split_ifs <;> norm_num) twoOrders hG (resolved_twoOrders 2 le_rfl)
    exact ⟨C, epinv, ep2, h1, h2⟩

/-- the grating of 1 and 3 with the zeroth order and with both: the inverse permittivity of the zeroth order climbs from 1/2 to 2/3 -/
example : Function.Injective twoOrders ∧ Function.Injective (fun _ : Fin 1 => (0 : Fin 2)) ∧ (∀ i : Fin 1, oneOrder i = twoOrders 0) ∧
    ∃ epinv ep2 epinv' ep2', epsilonFft (1 / (2 : ℕ) / (1 : ℕ)) (.iso fun (m : Fin 2) (_ : Fin 1) => ((if m = 0 then 1 else 3 : ℝ) : ℂ)) oneOrder = .ok (epinv, ep2) ∧
      epsilonFft (1 / (2 : ℕ) / (1 : ℕ)) (.iso fun (m : Fin 2) (_ : Fin 1) => ((if m = 0 then 1 else 3 : ℝ) : ℂ)) twoOrders = .ok (epinv', ep2') ∧ epinv 0 0 = 1 / 2 ∧ epinv' 0 0 = 2 / 3 := by
  have hG : Function.Injective twoOrders := by unfold twoOrders; decide
  have hG1 : Function.Injective oneOrder := fun i j _ => Subsingleton.elim i j
  have hr1 : Resolved 2 1 oneOrder := by intro i j; simp [oneOrder]
  refine ⟨hG, fun i j _ => Subsingleton.elim i j, fun i => rfl, ?_⟩
  obtain ⟨C, epinv, ep2, h1, h2, h3, -⟩ := C15_invertible (fun (m : Fin 2) (_ : Fin 1) => ((if m = 0 then 1 else 3 : ℝ) : ℂ)) oneOrder hG1 hr1 Complex.I (fun a _ => by fin_cases a <;> simp)
  obtain ⟨C', e1, hC⟩ := (C15_entries (fun (m : Fin 2) (_ : Fin 1) => ((if m = 0 then 1 else 3 : ℝ) : ℂ)) oneOrder).1 hr1
  obtain rfl : C = C' := by rw [h1] at e1; injection e1
  have c0 : C 0 0 = 2 := by rw [hC]; simp [fourierCoeff, oneOrder, Fin.sum_univ_two]; norm_num
  have i0 : epinv 0 0 = 1 / 2 := by
    have := congrFun (congrFun h3 0) 0
    rw [Matrix.mul_apply, Fin.sum_univ_one, c0, Matrix.one_apply_eq] at this
    rw [← this]; ring
  obtain ⟨epinv', ep2', g1, g2⟩ := C189_complete (fun (m : Fin 2) (_ : Fin 1) => ((if m = 0 then 1 else 3 : ℝ) : ℂ)) (fun m _ => by fin_cases m <;> simp) twoOrders hG (resolved_twoOrders 2 le_rfl)
    (fun i => by fin_cases i <;> simp [twoOrders]) rfl
  obtain ⟨R, r1, r2⟩ := (C15_entries (fun (m : Fin 2) (_ : Fin 1) => 1 / ((if m = 0 then 1 else 3 : ℝ) : ℂ)) twoOrders).1 (resolved_twoOrders 2 le_rfl)
  obtain rfl : epinv' = R := by rw [g2] at r1; injection r1
  refine ⟨epinv, ep2, epinv', ep2', h2, g1, i0, ?_⟩
  rw [r2]
  simp [fourierCoeff, twoOrders, Fin.sum_univ_two]
  norm_num

end Nidn
