/-
C116: shifted patterns.
-/
import Verif.Props.Relabel

set_option linter.unusedSectionVars false

namespace Nidn

open Matrix

variable {Nx Ny n : ℕ}

/-- the phases of the orders under a shift by `a` and `b` pixels -/
noncomputable def shiftPhase (a : Fin Nx) (b : Fin Ny) (G : Fin n → ℤ × ℤ) (i : Fin n) : ℂ := chi Nx (G i).1 a * chi Ny (G i).2 b

lemma shiftPhase_unit (a : Fin Nx) (b : Fin Ny) (G : Fin n → ℤ × ℤ) (i : Fin n) :
    (starRingEnd ℂ) (shiftPhase a b G i) * shiftPhase a b G i = 1 := by
  rw [shiftPhase, map_mul, chi_conj, chi_conj]
  linear_combination chi Ny (-(G i).2) b * chi Ny (G i).2 b * chi_neg_index (G i).1 a + chi_neg_index (G i).2 b

lemma shiftPhase_unitary (a : Fin Nx) (b : Fin Ny) (G : Fin n → ℤ × ℤ) :
    (diagonal (shiftPhase a b G)).conjTranspose * diagonal (shiftPhase a b G) = 1 := by
  rw [Matrix.diagonal_conjTranspose, Matrix.diagonal_mul_diagonal, ← Matrix.diagonal_one]
  congr 1
  funext i
  exact shiftPhase_unit a b G i

/-- the coefficients of the shifted pattern -/
lemma shift_coeff [NeZero Nx] [NeZero Ny] (a : Fin Nx) (b : Fin Ny) (s : Fin Nx → Fin Ny → ℂ) (G : Fin n → ℤ × ℤ) (i j : Fin n) :
    fourierCoeff (shiftPattern a b s) (G i - G j) * shiftPhase a b G j = shiftPhase a b G i * fourierCoeff s (G i - G j) := by
  have h1 : ∀ {N : ℕ} (d e : ℤ) (m : Fin N), chi N (d - e) m * chi N e m = chi N d m := fun d e m => by
    rw [← chi_add_index, sub_add_cancel]
  rw [coeff_shift, shiftPhase, shiftPhase]
  show chi Nx ((G i).1 - (G j).1) a * chi Ny ((G i).2 - (G j).2) b * fourierCoeff s (G i - G j) * (chi Nx (G j).1 a * chi Ny (G j).2 b) = _
  linear_combination fourierCoeff s (G i - G j) * (chi Ny ((G i).2 - (G j).2) b * chi Ny (G j).2 b) * h1 (G i).1 (G j).1 a +
    fourierCoeff s (G i - G j) * chi Nx (G i).1 a * h1 (G i).2 (G j).2 b

/-- the filter of `Epsilon_fft` leaves the coefficients of the pattern alone: each is zero or has a real or imaginary part of at least 1e-14 -/
def Unfiltered (s : Fin Nx → Fin Ny → ℂ) (G : Fin n → ℤ × ℤ) : Prop :=
  ∀ i j, fourierCoeff s (G i - G j) = 0 ∨ 1e-14 ≤ (fourierCoeff s (G i - G j)).re ∨ 1e-14 ≤ (fourierCoeff s (G i - G j)).im

lemma zeroSmall_unfiltered {z : ℂ} (h : z = 0 ∨ 1e-14 ≤ z.re ∨ 1e-14 ≤ z.im) : zeroSmall z = z := by
  rw [zeroSmall]
  split
  · rename_i h'
    rcases h with h | h | h
    · exact h.symm
    · linarith [h'.1]
    · linarith [h'.2]
  · rfl

lemma shift_eps [NeZero Nx] [NeZero Ny] (a : Fin Nx) (b : Fin Ny) {s : Fin Nx → Fin Ny → ℂ} {G : Fin n → ℤ × ℤ} (hf : Unfiltered s G)
    (hf' : Unfiltered (shiftPattern a b s) G) {epinv epinv' : Matrix (Fin n) (Fin n) ℂ} {ep2 ep2' : Matrix (Fin n ⊕ Fin n) (Fin n ⊕ Fin n) ℂ}
    (h : epsilonFft (1 / Nx / Ny) (.iso s) G = .ok (epinv, ep2))
    (h' : epsilonFft (1 / Nx / Ny) (.iso (shiftPattern a b s)) G = .ok (epinv', ep2')) :
    epinv' * diagonal (shiftPhase a b G) = diagonal (shiftPhase a b G) * epinv ∧
      ep2' * orthBlock 1 0 0 1 (diagonal (shiftPhase a b G)) = orthBlock 1 0 0 1 (diagonal (shiftPhase a b G)) * ep2 := by
  obtain ⟨C, hC, hu, rfl, rfl⟩ := epsilonFft_form h
  obtain ⟨C', hC', hu', rfl, rfl⟩ := epsilonFft_form h'
  have e : C' * diagonal (shiftPhase a b G) = diagonal (shiftPhase a b G) * C := by
    ext i j
    rw [Matrix.mul_diagonal, Matrix.diagonal_mul, hC, hC', shift_coeff]
  have m1 : C.map zeroSmall = C := by
    ext i j; rw [Matrix.map_apply, hC]; exact zeroSmall_unfiltered (hf i j)
  have m2 : C'.map zeroSmall = C' := by
    ext i j; rw [Matrix.map_apply, hC']; exact zeroSmall_unfiltered (hf' i j)
  constructor
  · have h1 : C'⁻¹ * (C' * diagonal (shiftPhase a b G)) * C⁻¹ = C'⁻¹ * (diagonal (shiftPhase a b G) * C) * C⁻¹ := by rw [e]
    rw [← Matrix.mul_assoc, Matrix.nonsing_inv_mul _ hu', Matrix.one_mul, ← Matrix.mul_assoc, Matrix.mul_assoc, Matrix.mul_nonsing_inv _ hu,
      Matrix.mul_one] at h1
    exact h1.symm
  · rw [m1, m2]
    exact blocks_comm e

/-- the phase of the incident wave does not matter -/
lemma rt_phase {κ : Type} [Fintype κ] [DecidableEq κ] {c : ℂ} (hc : (starRingEnd ℂ) c * c = 1) (ω : ℂ) (norm : ℝ) (l : List (LayerData (κ ⊕ κ)))
    (a0 : κ ⊕ κ → ℂ) (r : ℝ × ℝ) : rtForward ω norm l (c • a0) 0 = .ok r ↔ rtForward ω norm l a0 0 = .ok r := by
  have hz : ∀ (L : LayerData (κ ⊕ κ)) (x y : κ ⊕ κ → ℂ), zPoyntingFlux ω L (c • x) (c • y) = zPoyntingFlux ω L x y := by
    intro L x y
    have hd : ∀ u v : κ ⊕ κ → ℂ, star (c • u) ⬝ᵥ (c • v) = star u ⬝ᵥ v := fun u v => by
      rw [star_smul, smul_dotProduct, dotProduct_smul, smul_smul, Complex.star_def, hc, one_smul]
    rw [zflux_dot, zflux_dot]
    simp only [Matrix.mulVec_smul, hd]
  have hz0 : ∀ (L : LayerData (κ ⊕ κ)) (x : κ ⊕ κ → ℂ), zPoyntingFlux ω L (c • x) 0 = zPoyntingFlux ω L x 0 := fun L x => by
    rw [← hz L x 0, smul_zero]
  rw [rtForward, rtForward, solveExterior, solveExterior]
  cases getSMatrix l 0 (l.length - 1) with
  | error e => exact Iff.rfl
  | ok S =>
    simp only [ok_bind, pure, Except.pure, Matrix.mulVec_zero, add_zero, Matrix.mulVec_smul]
    cases l.head? with
    | none => exact Iff.rfl
    | some L0 =>
      cases l.getLast? with
      | none => exact Iff.rfl
      | some LN => simp only [hz, hz0]

/-- C116, as far as it holds: all patterned layers shifted by the same number of pixels, the same reflectance and transmittance.
Missing: patterns with a coefficient that the filter of `Epsilon_fft` drops before or after the shift (see `C116_shift_false`). -/
theorem C116_shift_partial [NeZero Nx] [NeZero Ny] (a : Fin Nx) (b : Fin Ny) (ω : ℂ) (kx ky : Fin n → ℂ) (G : Fin n → ℤ × ℤ)
    (slabs : List (Slab Nx Ny)) (hf : ∀ s d, Slab.patterned s d ∈ slabs → Unfiltered s G ∧ Unfiltered (shiftPattern a b s) G)
    (m m' : List (LayerData (Fin n ⊕ Fin n))) (hm' : List.Forall₂ (Built ω kx ky G) (slabs.map (Slab.mapPattern (shiftPattern a b))) m')
    (hm : List.Forall₂ (Built ω kx ky G) slabs m) (ε0 εN : ℂ) (h0 : ε0 ≠ 0) (hN : εN ≠ 0) (d0 dN : ℝ)
    (hr : ∀ M ∈ uniformLayer ω kx ky ε0 d0 :: m ++ [uniformLayer ω kx ky εN dN], M.Regular) (norm θ φ : ℝ) (s p : ℂ) (q : Fin n) (r : ℝ × ℝ) :
    rtForward ω norm (uniformLayer ω kx ky ε0 d0 :: m' ++ [uniformLayer ω kx ky εN dN]) (planewave θ φ s p q) 0 = .ok r ↔
      rtForward ω norm (uniformLayer ω kx ky ε0 d0 :: m ++ [uniformLayer ω kx ky εN dN]) (planewave θ φ s p q) 0 = .ok r := by
  have w : WaveSym 1 1 0 0 1 (diagonal (shiftPhase a b G)) kx ky kx ky := by
    constructor <;> intro i j h <;> rw [Matrix.diagonal_apply] at h <;> split at h
    · rename_i e; subst e; simp
    · simp at h
    · rename_i e; subst e; simp
    · simp at h
  have hs : List.Forall₂ (SlabSym 1 (diagonal (shiftPhase a b G)) (orthBlock 1 0 0 1 (diagonal (shiftPhase a b G))) G G) slabs
      (slabs.map (Slab.mapPattern (shiftPattern a b))) := by
    clear hm' hm
    induction slabs with
    | nil => exact .nil
    | cons s _ ih =>
      refine .cons ?_ (ih fun s d h => hf s d (List.mem_cons_of_mem _ h))
      cases s with
      | uniform ε d =>
        have := SlabSym.uniform (Nx := Nx) (Ny := Ny) (c := 1) (D := diagonal (shiftPhase a b G))
          (U := orthBlock 1 0 0 1 (diagonal (shiftPhase a b G))) (G := G) (G' := G) ε d
        rwa [one_mul] at this
      | patterned s d =>
        obtain ⟨f1, f2⟩ := hf s d (List.mem_cons_self)
        have := SlabSym.patterned (c := 1) (D := diagonal (shiftPhase a b G)) (U := orthBlock 1 0 0 1 (diagonal (shiftPhase a b G)))
          (G := G) (G' := G) s (shiftPattern a b s) d fun epinv ep2 epinv' ep2' h1 h2 => shift_eps a b f1 f2 h1 h2
        rwa [one_mul] at this
  have hpw : orthBlock 1 0 0 1 (diagonal (shiftPhase a b G)) *ᵥ planewave θ φ s p q = shiftPhase a b G q • planewave θ φ s p q := by
    rw [orthBlock, planewave, Matrix.fromBlocks_mulVec]
    simp only [Complex.ofReal_one, one_smul, Complex.ofReal_zero, zero_smul, Matrix.zero_mulVec, add_zero, zero_add]
    ext (i | i)
    · simp only [Sum.elim_inl, Matrix.mulVec_diagonal, Function.comp_apply, Pi.smul_apply, smul_eq_mul]
      split
      · rename_i e; rw [e]
      · rw [mul_zero, mul_zero]
    · simp only [Sum.elim_inr, Matrix.mulVec_diagonal, Function.comp_apply, Pi.smul_apply, smul_eq_mul]
      split
      · rename_i e; rw [e]
      · rw [mul_zero, mul_zero]
  have e : ω / ((1 : ℝ) : ℂ) = ω := by simp
  have := sym_rt one_pos orth_one (shiftPhase_unitary a b G) w ω hs hm (by rw [e]; exact hm') h0 hN d0 dN hr norm (planewave θ φ s p q) 0 r
  rwa [e, hpw, Matrix.mulVec_zero, one_mul, one_mul, rt_phase (shiftPhase_unit a b G q)] at this

/-! ## an example -/

/-- a grating of four pixels with mean 1 and the first coefficient `a + i b` -/
def quadPattern (a b : ℝ) : Fin 4 → Fin 1 → ℂ := fun m _ => ![1 + 2 * a, 1 - 2 * b, 1 - 2 * a, 1 + 2 * b] m

lemma chi_quarter (m : Fin 4) : chi 4 1 m = ![1, -Complex.I, -1, Complex.I] m ∧ chi 4 (-1) m = ![1, Complex.I, -1, -Complex.I] m := by
  have h : Complex.exp (-(2 * Real.pi * Complex.I) * (1 / 4)) = -Complex.I := by
    rw [show -(2 * Real.pi * Complex.I) * (1 / 4 : ℂ) = -(Real.pi / 2 * Complex.I) by ring, Complex.exp_neg, Complex.exp_pi_div_two_mul_I, Complex.inv_I]
  have h1 : ∀ m : Fin 4, chi 4 1 m = (-Complex.I) ^ (m : ℕ) := fun m => by
    rw [chi, ← h, ← Complex.exp_nat_mul]
    congr 1
    push_cast
    ring
  have hI := Complex.I_sq
  have h3 : Complex.I ^ 3 = -Complex.I := by linear_combination Complex.I * hI
  have ht : ∀ m : Fin 4, chi 4 1 m = ![1, -Complex.I, -1, Complex.I] m := fun m => by
    rw [h1]
    fin_cases m
    · simp
    · simp
    · simp
    · simp only [Fin.reduceFinMk, Matrix.cons_val]
      linear_combination -h3
  refine ⟨ht m, ?_⟩
  rw [← chi_conj, ht]
  fin_cases m <;> simp

lemma quad_coeff (a b : ℝ) : fourierCoeff (quadPattern a b) (0, 0) = 1 ∧ fourierCoeff (quadPattern a b) (1, 0) = a + b * Complex.I ∧
    fourierCoeff (quadPattern a b) (-1, 0) = a - b * Complex.I := by
  have h1 : ∀ m : Fin 1, chi 1 0 m = 1 := fun m => by simp [chi]
  have h4 : ∀ m : Fin 4, chi 4 0 m = 1 := fun m => by simp [chi]
  refine ⟨?_, ?_, ?_⟩ <;> rw [coeff_chi] <;> simp only [h1, h4, (chi_quarter _).1, (chi_quarter _).2, Fin.sum_univ_four, quadPattern] <;> simp <;> ring

lemma quad_shift (a b : ℝ) : shiftPattern 1 0 (quadPattern a b) = quadPattern b (-a) := by
  funext m n
  show quadPattern a b (m - 1) _ = _
  fin_cases m
  · rw [show (⟨0, by norm_num⟩ : Fin 4) - 1 = 3 from rfl]; simp [quadPattern]
  · rw [show (⟨1, by norm_num⟩ : Fin 4) - 1 = 0 from rfl]; simp [quadPattern]
  · rw [show (⟨2, by norm_num⟩ : Fin 4) - 1 = 1 from rfl]; simp [quadPattern, sub_eq_add_neg]
  · rw [show (⟨3, by norm_num⟩ : Fin 4) - 1 = 2 from rfl]; simp [quadPattern, sub_eq_add_neg]

/-- the matrix of the coefficients at the two orders -/
lemma quad_matrix (a b : ℝ) : (Matrix.of fun i j => fourierCoeff (quadPattern a b) (litOrders i - litOrders j)) =
    !![1, a + b * Complex.I; a - b * Complex.I, 1] := by
  obtain ⟨h0, h1, h2⟩ := quad_coeff a b
  have z : ((0 : ℤ × ℤ)) = (0, 0) := rfl
  ext i j
  fin_cases i <;> fin_cases j <;> simp [litOrders, z, h0, h1, h2]

lemma quad_fft {a b : ℝ} (h : a ^ 2 + b ^ 2 ≠ 1) : ∃ r, epsilonFft (1 / (4 : ℕ) / (1 : ℕ)) (.iso (quadPattern a b)) litOrders = .ok r := by
  refine epsilonFft_ok (fun i j => ?_) ?_
  · fin_cases i <;> fin_cases j <;> simp [litOrders]
  · rw [quad_matrix, Matrix.det_fin_two_of, isUnit_iff_ne_zero]
    intro h'
    apply h
    have : ((a ^ 2 + b ^ 2 : ℝ) : ℂ) = 1 := by
      push_cast
      linear_combination -h' + b ^ 2 * Complex.I_sq
    exact_mod_cast this

lemma quad_unfiltered {a b : ℝ} (ha : 1e-14 ≤ a) : Unfiltered (quadPattern a b) litOrders := by
  intro i j
  obtain ⟨h0, h1, h2⟩ := quad_coeff a b
  have z : ((0 : ℤ × ℤ)) = (0, 0) := rfl
  fin_cases i <;> fin_cases j
  · right; left; simp [litOrders, z, h0]; norm_num
  · right; left; simp [litOrders, h1]; norm_num at ha ⊢; exact ha
  · right; left; simp [litOrders, h2]; norm_num at ha ⊢; exact ha
  · right; left; simp [litOrders, z, h0]; norm_num

/-- the grating of four pixels with a real coefficient has the matrices of the grating of two pixels -/
lemma quad_built : Built 13 litKx litKy litOrders (.patterned (quadPattern (24 / 169) 0) (Real.pi / 2)) (litSlab (24 / 169) (24 / 169)) := by
  obtain ⟨⟨epinv, ep2⟩, hr⟩ := quad_fft (a := 24 / 169) (b := 0) (by norm_num)
  have hr' := hr
  obtain ⟨C, hC, -, rfl, rfl⟩ := epsilonFft_form hr
  have hm : C = litC ((24 / 169 : ℝ) : ℂ) := by
    have : C = Matrix.of fun i j => fourierCoeff (quadPattern (24 / 169) 0) (litOrders i - litOrders j) := by ext i j; rw [hC]; rfl
    rw [this, quad_matrix, litC]
    simp
  obtain ⟨C', hC', -, e1, e2⟩ := epsilonFft_form (lit_fft (c := ((24 / 169 : ℝ) : ℂ)) (by norm_num) lit_kept.filter)
  have hm' : C' = litC ((24 / 169 : ℝ) : ℂ) := by
    ext i j
    rw [hC']
    have z : ((0 : ℤ × ℤ)) = (0, 0) := rfl
    fin_cases i <;> fin_cases j <;> simp [litOrders, litC, z, lit_coeff] <;> ring
  rw [hm, ← hm', ← e1, ← e2] at hr'
  exact .patterned _ _ _ _ hr' _ _ (lit_eig (24 / 169) (24 / 169) (by norm_num) (by norm_num)) litPhi_unit

/-- the grating with the first coefficient `a + i b` of modulus 24/169: what the solver holds for it, and its answer -/
lemma quad_answer {a b : ℝ} (ha : 1e-14 ≤ a) (hab : a ^ 2 + b ^ 2 = (24 / 169) ^ 2) :
    ∃ L, Built 13 litKx litKy litOrders (.patterned (quadPattern a b) (Real.pi / 2)) L ∧
      (∀ M ∈ uniformLayer 13 litKx litKy (1 : ℝ) 0 :: [L] ++ [uniformLayer 13 litKx litKy (1 : ℝ) 0], M.Regular) ∧
      rtForward 13 (rtNormalization 1 litTheta) (uniformLayer 13 litKx litKy (1 : ℝ) 0 :: [L] ++ [uniformLayer 13 litKx litKy (1 : ℝ) 0])
        (planewave litTheta 0 1 0 (0 : Fin 2)) 0 = .ok (110736 / 231361, 120625 / 231361) := by
  have hab' : (a : ℂ) ^ 2 + b ^ 2 = (24 / 169) ^ 2 := by
    have := congrArg (fun x : ℝ => (x : ℂ)) hab
    push_cast at this
    exact this
  have hI := Complex.I_sq
  set u : Fin 2 → ℂ := ![1, (a - b * Complex.I) * (169 / 24)] with hu
  have hD : (diagonal u).conjTranspose * diagonal u = 1 := by
    rw [Matrix.diagonal_conjTranspose, Matrix.diagonal_mul_diagonal, ← Matrix.diagonal_one]
    congr 1
    funext i
    fin_cases i
    · simp [hu]
    · simp [hu]
      linear_combination (169 / 24) ^ 2 * hab' - (169 / 24) ^ 2 * b ^ 2 * hI
  have w : WaveSym 1 1 0 0 1 (diagonal u) litKx litKy litKx litKy := by
    constructor <;> intro i j h <;> rw [Matrix.diagonal_apply] at h <;> split at h
    · rename_i e; subst e; simp
    · simp at h
    · rename_i e; subst e; simp
    · simp at h
  have hs : SlabSym 1 (diagonal u) (orthBlock 1 0 0 1 (diagonal u)) litOrders litOrders (.patterned (quadPattern (24 / 169) 0) (Real.pi / 2))
      (.patterned (quadPattern a b) (1 * (Real.pi / 2))) := by
    refine .patterned _ _ _ fun epinv ep2 epinv' ep2' h h' => ?_
    obtain ⟨C, hC, hu1, rfl, rfl⟩ := epsilonFft_form h
    obtain ⟨C', hC', hu1', rfl, rfl⟩ := epsilonFft_form h'
    have m1 : C.map zeroSmall = C := by
      ext i j; rw [Matrix.map_apply, hC]; exact zeroSmall_unfiltered (quad_unfiltered (by norm_num) i j)
    have m2 : C'.map zeroSmall = C' := by
      ext i j; rw [Matrix.map_apply, hC']; exact zeroSmall_unfiltered (quad_unfiltered ha i j)
    have e : C' * diagonal u = diagonal u * C := by
      have h1 : C = _ := (show C = Matrix.of fun i j => fourierCoeff (quadPattern (24 / 169) 0) (litOrders i - litOrders j) by
        ext i j; rw [hC]; rfl).trans (quad_matrix _ _)
      have h2 : C' = _ := (show C' = Matrix.of fun i j => fourierCoeff (quadPattern a b) (litOrders i - litOrders j) by
        ext i j; rw [hC']; rfl).trans (quad_matrix _ _)
      rw [h1, h2]
      ext i j
      rw [Matrix.mul_diagonal, Matrix.diagonal_mul]
      fin_cases i <;> fin_cases j <;> simp [hu]
      · linear_combination (169 / 24) * hab' - (169 / 24) * b ^ 2 * hI
      · ring
    constructor
    · have h1 : C'⁻¹ * (C' * diagonal u) * C⁻¹ = C'⁻¹ * (diagonal u * C) * C⁻¹ := by rw [e]
      rw [← Matrix.mul_assoc, Matrix.nonsing_inv_mul _ hu1', Matrix.one_mul, ← Matrix.mul_assoc, Matrix.mul_assoc, Matrix.mul_nonsing_inv _ hu1,
        Matrix.mul_one] at h1
      exact h1.symm
    · rw [m1, m2]
      exact blocks_comm e
  obtain ⟨L, hL⟩ := built_image one_pos orth_one hD w hs (fun p d e => by
    injection e with e
    subst e
    exact quad_fft (by rw [hab]; norm_num)) quad_built
  obtain ⟨X, hX, hg⟩ := built_gauge one_pos orth_one hD w hs quad_built hL
  have hreg : L.Regular := hg.regular one_ne_zero (isUnit_of_unitary (orthBlock_unitary orth_one hD)) hX (litSlab_regular lit_kept)
  have := sym_rt one_pos orth_one hD w 13 (.cons hs .nil) (.cons quad_built .nil) (.cons hL .nil) (by norm_num : ((1 : ℝ) : ℂ) ≠ 0)
    (by norm_num : ((1 : ℝ) : ℂ) ≠ 0) 0 0 (lit_regular lit_kept) (rtNormalization 1 litTheta) (planewave litTheta 0 1 0 (0 : Fin 2)) 0
    (110736 / 231361, 120625 / 231361)
  have hpw : orthBlock 1 0 0 1 (diagonal u) *ᵥ planewave litTheta 0 1 0 (0 : Fin 2) = planewave litTheta 0 1 0 (0 : Fin 2) := by
    rw [orthBlock, planewave, Matrix.fromBlocks_mulVec]
    ext (i | i) <;> fin_cases i <;> simp [hu, Matrix.mulVec_diagonal]
  rw [Complex.ofReal_one, div_one, one_mul] at hL
  rw [hpw, Matrix.mulVec_zero, Complex.ofReal_one, div_one, one_mul] at this
  refine ⟨L, hL, fun M hM => ?_, this.2 lit_answer⟩
  simp only [List.mem_cons, List.not_mem_nil, or_false, List.cons_append, List.nil_append] at hM
  rcases hM with rfl | rfl | rfl
  exacts [litFront_regular, hreg, litFront_regular]

/-- Hypotheses of `C116_shift_partial`: a grating of four pixels whose first coefficient is 24/169 (4 + 3 i)/5, shifted by one pixel; both
reflect 110736/231361 of the power. -/
example : ∃ L L', Built 13 litKx litKy litOrders (.patterned (quadPattern (96 / 845) (72 / 845)) (Real.pi / 2)) L ∧
    Built 13 litKx litKy litOrders (.patterned (shiftPattern 1 0 (quadPattern (96 / 845) (72 / 845))) (Real.pi / 2)) L' ∧
    rtForward 13 (rtNormalization 1 litTheta) (uniformLayer 13 litKx litKy (1 : ℝ) 0 :: [L'] ++ [uniformLayer 13 litKx litKy (1 : ℝ) 0])
      (planewave litTheta 0 1 0 (0 : Fin 2)) 0 = .ok (110736 / 231361, 120625 / 231361) := by
  obtain ⟨L, hL, hr, hrun⟩ := quad_answer (a := 96 / 845) (b := 72 / 845) (by norm_num) (by norm_num)
  obtain ⟨L', hL', -, -⟩ := quad_answer (a := 72 / 845) (b := -(96 / 845)) (by norm_num) (by norm_num)
  rw [← quad_shift] at hL'
  refine ⟨L, L', hL, hL', ?_⟩
  refine (C116_shift_partial 1 0 13 litKx litKy litOrders [.patterned (quadPattern (96 / 845) (72 / 845)) (Real.pi / 2)] (fun s d hs => ?_) [L] [L']
    (.cons hL' .nil) (.cons hL .nil) _ _ (by norm_num) (by norm_num) 0 0 hr _ _ _ _ _ _ _).2 hrun
  rw [List.mem_singleton] at hs
  injection hs with hs
  subst hs
  exact ⟨quad_unfiltered (by norm_num), by rw [quad_shift]; exact quad_unfiltered (by norm_num)⟩

end Nidn
