/-
Two concrete structures used as witnesses and examples: a lossless grating of two pixels in vacuum with two retained orders, for which the
answer of the solver is computed in closed form, and patterns seen through a single order.
-/
import Verif.Props.Solvable
import Verif.Props.Maxwell
import Verif.Spec.Structure
import Mathlib.Analysis.SpecialFunctions.Trigonometric.Inverse

namespace Nidn

open Matrix

noncomputable section

/-- a grating of two pixels with mean permittivity 1 -/
def litPattern (c : ℂ) : Fin 2 → Fin 1 → ℂ := fun m _ => if m = 0 then 1 + c else 1 - c

/-- the central order and its neighbour -/
def litOrders : Fin 2 → ℤ × ℤ := ![(0, 0), (-1, 0)]

/-- the angle of incidence with sine 12/13 -/
def litTheta : ℝ := Real.arcsin (12 / 13)

/-- the transverse wave numbers at the frequency 13 and the period pi/12: the two orders travel in opposite directions along x -/
def litKx : Fin 2 → ℂ := kxOf 13 litTheta 0 1 (12 / Real.pi, 0) (0, 1) litOrders

def litKy : Fin 2 → ℂ := kyOf 13 litTheta 0 1 (12 / Real.pi, 0) (0, 1) litOrders

lemma lit_sin : Real.sin litTheta = 12 / 13 := Real.sin_arcsin (by norm_num) (by norm_num)

lemma lit_cos : Real.cos litTheta = 5 / 13 := by
  rw [litTheta, Real.cos_arcsin, show (1 : ℝ) - (12 / 13) ^ 2 = (5 / 13) ^ 2 by norm_num, Real.sqrt_sq (by norm_num)]

lemma litKx_eq : litKx = ![12, -12] := by
  have hπ : (Real.pi : ℂ) ≠ 0 := Complex.ofReal_ne_zero.2 Real.pi_ne_zero
  have h : ∀ g : ℤ × ℤ, waveX 13 litTheta 0 1 (12 / Real.pi, 0) (0, 1) g = 12 + 24 * g.1 := by
    intro g
    rw [waveX, lit_sin, Real.cos_zero, Real.sqrt_one]
    push_cast
    field_simp
    ring
  funext i
  fin_cases i
  · simp [litKx, kxOf, h, litOrders]
  · simp [litKx, kxOf, h, litOrders]; norm_num

lemma litKy_eq : litKy = 0 := by
  funext i
  fin_cases i <;> simp [litKy, kyOf, waveY, litOrders]

/-! ### the matrices of the grating -/

lemma lit_coeff (c : ℂ) (d : ℤ) : fourierCoeff (litPattern c) (d, 0) = ((1 + c) + (1 - c) * (-1) ^ d) / 2 := by
  have h : Complex.exp (-(2 * Real.pi * Complex.I) * (1 * d / 2)) = (-1) ^ d := by
    rw [show -(2 * Real.pi * Complex.I) * (1 * d / 2) = d * (-(2 * Real.pi * Complex.I) * (1 / 2)) by ring, Complex.exp_int_mul, exp_neg_pi_I]
  rw [fourierCoeff, Fin.sum_univ_two]
  simp only [Finset.univ_unique, Finset.sum_singleton, litPattern, Fin.default_eq_zero, Fin.val_zero, Fin.val_one, if_true]
  rw [if_neg (by decide)]
  have e : Complex.exp (-(2 * Real.pi * Complex.I) * (((1 : ℕ) : ℂ) * ((d, (0 : ℤ)).1 : ℤ) / ((2 : ℕ) : ℂ) + ((0 : ℕ) : ℂ) * ((d, (0 : ℤ)).2 : ℤ) / ((1 : ℕ) : ℂ))) =
      (-1) ^ d := by
    rw [← h]; congr 1; push_cast; ring
  rw [e]
  simp
  ring

def litC (c : ℂ) : Matrix (Fin 2) (Fin 2) ℂ := !![1, c; c, 1]

def litInv (c : ℂ) : Matrix (Fin 2) (Fin 2) ℂ := (1 - c ^ 2)⁻¹ • !![1, -c; -c, 1]

lemma lit_resolved : Resolved 2 1 litOrders := by
  intro i j
  fin_cases i <;> fin_cases j <;> simp [litOrders]

lemma lit_fft {c e : ℂ} (hc : 1 - c ^ 2 ≠ 0) (he : zeroSmall c = e) :
    epsilonFft (1 / (2 : ℕ) / (1 : ℕ)) (.iso (litPattern c)) litOrders = .ok (litInv c, fromBlocks (litC e) 0 0 (litC e)) := by
  obtain ⟨C, h1, h2⟩ := (C15_entries (litPattern c) litOrders).1 lit_resolved
  have hC : C = litC c := by
    ext i j
    rw [h2]
    have z : ((0 : ℤ × ℤ)) = (0, 0) := rfl
    fin_cases i <;> fin_cases j <;> simp [litOrders, litC, z, lit_coeff]
    · ring
    · ring
  have hi : (litC c)⁻¹ = litInv c := by
    apply inv_eq_left_inv
    ext i j
    fin_cases i <;> fin_cases j <;> simp [litC, litInv, Matrix.mul_apply, Fin.sum_univ_two] <;> field_simp <;> ring
  have hu : IsUnit (litC c).det := by
    rw [litC, det_fin_two_of, isUnit_iff_ne_zero]
    intro h; apply hc; linear_combination h
  have z0 : zeroSmall 0 = 0 := by simp [zeroSmall]
  have z1 : zeroSmall 1 = 1 := by rw [zeroSmall, if_neg]; norm_num
  simp only [epsilonFft]
  rw [h1, ok_bind, hC, torchInverse, if_pos hu, ok_bind, hi]
  congr 2
  rw [fromBlocks_map, Matrix.map_zero _ z0]
  congr 1 <;> ext i j <;> fin_cases i <;> fin_cases j <;> simp [litC, he, z1]

def litV : Matrix (Fin 2) (Fin 2) ℂ := !![1, 1; 1, -1]

def litPhi : Matrix (Fin 2 ⊕ Fin 2) (Fin 2 ⊕ Fin 2) ℂ := fromBlocks litV 0 0 litV

/-- the eigenvalues of `kp` -/
def litMu (c : ℝ) : Fin 2 ⊕ Fin 2 → ℝ := Sum.elim ![169, 169] ![169 - 144 / (1 - c), 169 - 144 / (1 + c)]

/-- the squares of the propagation constants -/
def litLam (c e : ℝ) : Fin 2 ⊕ Fin 2 → ℝ :=
  Sum.elim ![169 * (1 + e) - 144, 169 * (1 - e) - 144] ![(1 + e) * (169 - 144 / (1 - c)), (1 - e) * (169 - 144 / (1 + c))]

/-- the magnetic block of `kp` -/
def litB (c : ℂ) : Matrix (Fin 2) (Fin 2) ℂ := (169 : ℂ) • 1 - (144 / (1 - c ^ 2)) • litC c

lemma lit_kp (c : ℂ) : kpPatterned 13 (litInv c) litKx litKy = fromBlocks ((169 : ℂ) • 1) 0 0 (litB c) := by
  have hj : jkMat litKx litKy = fromRows 0 (diagonal ![12, -12]) := by
    rw [jkMat, litKx_eq, litKy_eq]; congr 1; ext i j; simp
  have hB : diagonal ![12, -12] * litInv c * diagonal ![12, -12] = (144 / (1 - c ^ 2)) • litC c := by
    ext i j
    rw [Matrix.mul_diagonal, Matrix.diagonal_mul]
    fin_cases i <;> fin_cases j <;> simp [litInv, litC] <;> ring
  rw [kpPatterned, hj, Matrix.transpose_fromRows, Matrix.fromRows_mul, Matrix.fromRows_mul_fromCols, Matrix.diagonal_transpose, hB, Matrix.zero_mul,
    Matrix.transpose_zero, Matrix.mul_zero, Matrix.mul_zero, Matrix.zero_mul, ← Matrix.fromBlocks_one, Matrix.fromBlocks_smul, litB]
  rw [sub_eq_add_neg, Matrix.fromBlocks_neg, Matrix.fromBlocks_add]
  norm_num
  rw [← sub_eq_add_neg]

lemma lit_kp_eig (c : ℝ) (h1 : 1 - c ≠ 0) (h2 : 1 + c ≠ 0) :
    kpPatterned 13 (litInv c) litKx litKy * litPhi = litPhi * diagonal fun m => ((litMu c m : ℝ) : ℂ) := by
  have e1 : (1 : ℂ) - c ≠ 0 := by exact_mod_cast Complex.ofReal_ne_zero.2 h1
  have e2 : (1 : ℂ) + c ≠ 0 := by exact_mod_cast Complex.ofReal_ne_zero.2 h2
  have e3 : (1 : ℂ) - c ^ 2 ≠ 0 := by rw [show (1 : ℂ) - c ^ 2 = (1 - c) * (1 + c) by ring]; exact mul_ne_zero e1 e2
  rw [lit_kp, litPhi, Matrix.fromBlocks_multiply]
  ext (i | i) (j | j)
  · rw [Matrix.mul_diagonal]
    fin_cases i <;> fin_cases j <;> simp [litV, litMu]
  · rw [Matrix.mul_diagonal]; simp
  · rw [Matrix.mul_diagonal]; simp
  · rw [Matrix.mul_diagonal]
    fin_cases i <;> fin_cases j <;> simp [litV, litMu, litB, litC, Matrix.mul_apply, Fin.sum_univ_two] <;> field_simp <;> ring

lemma lit_eig (c e : ℝ) (h1 : 1 - c ≠ 0) (h2 : 1 + c ≠ 0) :
    IsEig (eigenMat (fromBlocks (litC e) 0 0 (litC e)) (kpPatterned 13 (litInv c) litKx litKy) litKx litKy) (fun m => ((litLam c e m : ℝ) : ℂ)) litPhi := by
  have hk : kMat litKx litKy * (kMat litKx litKy).transpose = fromBlocks ((144 : ℂ) • 1) 0 0 0 := by
    have hk : kMat litKx litKy = fromRows (diagonal ![12, -12]) 0 := by
      rw [kMat, litKx_eq, litKy_eq]; congr 1; ext i j; simp
    rw [hk, Matrix.transpose_fromRows, Matrix.fromRows_mul_fromCols, Matrix.diagonal_transpose, Matrix.diagonal_mul_diagonal, Matrix.transpose_zero,
      Matrix.mul_zero, Matrix.zero_mul, Matrix.mul_zero]
    congr 1
    ext i j
    fin_cases i <;> fin_cases j <;> norm_num [Matrix.diagonal_apply]
  rw [IsEig, eigenMat, Matrix.sub_mul, Matrix.mul_assoc, lit_kp_eig c h1 h2, hk]
  ext (i | i) (j | j)
  · rw [Matrix.mul_diagonal, ← Matrix.mul_assoc, Matrix.sub_apply, Matrix.mul_diagonal, litPhi, Matrix.fromBlocks_multiply, Matrix.fromBlocks_multiply]
    fin_cases i <;> fin_cases j <;> simp [litV, litMu, litLam, litC] <;> ring
  · rw [Matrix.mul_diagonal, ← Matrix.mul_assoc, Matrix.sub_apply, Matrix.mul_diagonal, litPhi, Matrix.fromBlocks_multiply, Matrix.fromBlocks_multiply]
    simp
  · rw [Matrix.mul_diagonal, ← Matrix.mul_assoc, Matrix.sub_apply, Matrix.mul_diagonal, litPhi, Matrix.fromBlocks_multiply, Matrix.fromBlocks_multiply]
    simp
  · rw [Matrix.mul_diagonal, ← Matrix.mul_assoc, Matrix.sub_apply, Matrix.mul_diagonal, litPhi, Matrix.fromBlocks_multiply, Matrix.fromBlocks_multiply]
    fin_cases i <;> fin_cases j <;> simp [litV, litMu, litLam, litC] <;> ring_nf <;> simp

/-! ### the layers and the fields -/

def litFront : LayerData (Fin 2 ⊕ Fin 2) := uniformLayer 13 litKx litKy (1 : ℝ) 0

def litSlab (c e : ℝ) : LayerData (Fin 2 ⊕ Fin 2) := patternedLayer 13 litKx litKy (litInv c) (fun m => ((litLam c e m : ℝ) : ℂ)) litPhi (Real.pi / 2)

/-- amplitudes in the electric half -/
def litW (x y : ℂ) : Fin 2 ⊕ Fin 2 → ℂ := Sum.elim ![x, y] 0

lemma litW_add (x y x' y' : ℂ) : litW x y + litW x' y' = litW (x + x') (y + y') := by
  ext (i | i) <;> fin_cases i <;> simp [litW]

lemma litPhi_W (x y : ℂ) : litPhi *ᵥ litW x y = litW (x + y) (x - y) := by
  rw [litPhi, Matrix.fromBlocks_mulVec]
  ext (i | i) <;> fin_cases i <;> simp [litW, litV]; ring

lemma litKp_W (c x y : ℂ) : kpPatterned 13 (litInv c) litKx litKy *ᵥ litW x y = litW (169 * x) (169 * y) := by
  rw [lit_kp, Matrix.fromBlocks_mulVec]
  ext (i | i) <;> fin_cases i <;> simp [litW, Matrix.mulVec, dotProduct, Fin.sum_univ_two, litB]

lemma litFront_kp : litFront.kp = kpPatterned 13 (litInv 0) litKx litKy := by
  have : litInv 0 = (1 / ((1 : ℝ) : ℂ)) • 1 := by
    ext i j
    fin_cases i <;> fin_cases j <;> simp [litInv]
  rw [this]
  exact kpUniform_eq _ _ _ _

lemma litFront_q (m : Fin 2 ⊕ Fin 2) : litFront.q m = 5 := by
  have h : ∀ i, branchQ (csqrt (((1 : ℝ) : ℂ) * 13 ^ 2 - litKx i ^ 2 - litKy i ^ 2)) = 5 := by
    intro i
    rw [litKx_eq, litKy_eq]
    have := branchQ_csqrt_of_sq 5 (by norm_num) (by norm_num)
    convert this using 3
    fin_cases i <;> norm_num
  rcases m with i | i <;> exact h i

lemma litSlab_q {c e : ℝ} {m : Fin 2 ⊕ Fin 2} {p : ℝ} (hp : 0 < p) (h : litLam c e m = p ^ 2) : (litSlab c e).q m = p := by
  show branchQ (csqrt ((litLam c e m : ℝ) : ℂ)) = p
  rw [h, Complex.ofReal_pow]
  exact branchQ_csqrt_of_sq _ (by rwa [Complex.ofReal_re]) (by rw [Complex.ofReal_im])

lemma litFront_through (a : Fin 2 ⊕ Fin 2 → ℂ) : litFront.through a = a := by
  ext m
  simp [LayerData.through, litFront, uniformLayer]

/-- the parameters of the grating: coefficient `c` of the pattern, what the filter makes of it, and the propagation constants of the two waves -/
structure LitCase (c e p r : ℝ) : Prop where
  filter : zeroSmall c = e
  c_gt : -(25 / 169) < c
  c_lt : c < 25 / 169
  e_gt : -1 < e
  e_lt : e < 1
  p_pos : 0 < p
  r_pos : 0 < r
  p_sq : 169 * (1 + e) - 144 = p ^ 2
  r_sq : 169 * (1 - e) - 144 = r ^ 2
  p_phase : Complex.exp (Complex.I * p * (Real.pi / 2 : ℝ)) ^ 2 = -1
  r_phase : Complex.exp (Complex.I * r * (Real.pi / 2 : ℝ)) ^ 2 = -1

variable {c e p r : ℝ}

lemma litSlab_q0 (h : LitCase c e p r) : (litSlab c e).q (.inl 0) = p := litSlab_q h.p_pos h.p_sq

lemma litSlab_q1 (h : LitCase c e p r) : (litSlab c e).q (.inl 1) = r := litSlab_q h.r_pos h.r_sq

lemma litSlab_through (h : LitCase c e p r) (x y : ℂ) :
    (litSlab c e).through (litW x y) = litW (Complex.exp (Complex.I * p * (Real.pi / 2 : ℝ)) * x) (Complex.exp (Complex.I * r * (Real.pi / 2 : ℝ)) * y) := by
  have hd : (litSlab c e).d = Real.pi / 2 := rfl
  ext (i | i)
  · fin_cases i
    · show Complex.exp (Complex.I * (litSlab c e).q (.inl 0) * (litSlab c e).d) * _ = _
      rw [litSlab_q0 h, hd]; rfl
    · show Complex.exp (Complex.I * (litSlab c e).q (.inl 1) * (litSlab c e).d) * _ = _
      rw [litSlab_q1 h, hd]; rfl
  · simp [LayerData.through, litW]

lemma litFront_h (x y x' y' : ℂ) : litFront.hTan (litW x y) (litW x' y') = litW (x + x') (y + y') := by
  rw [LayerData.hTan, litW_add]
  exact Matrix.one_mulVec _

lemma litFront_e (x y x' y' : ℂ) : litFront.eTan (litW x y) (litW x' y') = litW (169 * ((x - x') / 5)) (169 * ((y - y') / 5)) := by
  have : (fun m => (litW x y m - litW x' y' m) / litFront.q m) = litW ((x - x') / 5) ((y - y') / 5) := by
    ext (i | i) <;> simp only [litFront_q] <;> fin_cases i <;> simp [litW]
  rw [LayerData.eTan, this, litFront_kp]
  show _ *ᵥ ((1 : Matrix (Fin 2 ⊕ Fin 2) (Fin 2 ⊕ Fin 2) ℂ) *ᵥ _) = _
  rw [Matrix.one_mulVec, litKp_W]

lemma litSlab_h (x y x' y' : ℂ) : (litSlab c e).hTan (litW x y) (litW x' y') = litW (x + x' + (y + y')) (x + x' - (y + y')) := by
  rw [LayerData.hTan, litW_add]
  exact litPhi_W _ _

lemma litSlab_e (h : LitCase c e p r) (x y x' y' : ℂ) :
    (litSlab c e).eTan (litW x y) (litW x' y') = litW (169 * ((x - x') / p + (y - y') / r)) (169 * ((x - x') / p - (y - y') / r)) := by
  have : (fun m => (litW x y m - litW x' y' m) / (litSlab c e).q m) = litW ((x - x') / p) ((y - y') / r) := by
    ext (i | i)
    · fin_cases i
      · show _ / (litSlab c e).q (.inl 0) = _
        rw [litSlab_q0 h]; rfl
      · show _ / (litSlab c e).q (.inl 1) = _
        rw [litSlab_q1 h]; rfl
    · simp [litW]
  rw [LayerData.eTan, this]
  show kpPatterned 13 (litInv c) litKx litKy *ᵥ (litPhi *ᵥ _) = _
  rw [litPhi_W, litKp_W]

lemma lit_sol (h : LitCase c e p r) (α f g : ℂ) (hf : f = Complex.exp (Complex.I * p * (Real.pi / 2 : ℝ)))
    (hg : g = Complex.exp (Complex.I * r * (Real.pi / 2 : ℝ))) :
    StackSol [litFront, litSlab c e, litFront] (litW α 0)
      (litW (α / 2 * ((p ^ 2 - 25) / (p ^ 2 + 25) + (r ^ 2 - 25) / (r ^ 2 + 25))) (α / 2 * ((p ^ 2 - 25) / (p ^ 2 + 25) - (r ^ 2 - 25) / (r ^ 2 + 25))))
      (litW (α / 2 * (f * (10 * p / (p ^ 2 + 25)) + g * (10 * r / (r ^ 2 + 25)))) (α / 2 * (f * (10 * p / (p ^ 2 + 25)) - g * (10 * r / (r ^ 2 + 25))))) 0 := by
  have hf2 : f ^ 2 = -1 := by rw [hf]; exact h.p_phase
  have hg2 : g ^ 2 = -1 := by rw [hg]; exact h.r_phase
  have hp : (p : ℂ) ≠ 0 := Complex.ofReal_ne_zero.2 h.p_pos.ne'
  have hr : (r : ℂ) ≠ 0 := Complex.ofReal_ne_zero.2 h.r_pos.ne'
  have hp2 : (p : ℂ) ^ 2 + 25 ≠ 0 := by
    have : (p : ℝ) ^ 2 + 25 ≠ 0 := by positivity
    exact_mod_cast this
  have hr2 : (r : ℂ) ^ 2 + 25 ≠ 0 := by
    have : (r : ℝ) ^ 2 + 25 ≠ 0 := by positivity
    exact_mod_cast this
  have z : (0 : Fin 2 ⊕ Fin 2 → ℂ) = litW 0 0 := by ext (i | i) <;> fin_cases i <;> simp [litW]
  refine ⟨litW (α * p * (5 + p) / (2 * (p ^ 2 + 25))) (α * r * (5 + r) / (2 * (r ^ 2 + 25))),
    litW (α * f * p * (5 - p) / (2 * (p ^ 2 + 25))) (α * g * r * (5 - r) / (2 * (r ^ 2 + 25))), ⟨?_, ?_⟩, ?_⟩
  · rw [litFront_through, litSlab_through h, litFront_h, litSlab_h, ← hf, ← hg]
    congr 1
    · field_simp
      ring_nf
      rw [hf2, hg2]
      ring
    · field_simp
      ring_nf
      rw [hf2, hg2]
      ring
  · rw [litFront_through, litSlab_through h, litFront_e, litSlab_e h, ← hf, ← hg]
    congr 1
    · field_simp
      ring_nf
      rw [hf2, hg2]
      ring
    · field_simp
      ring_nf
      rw [hf2, hg2]
      ring
  · refine ⟨_, 0, ⟨?_, ?_⟩, rfl, rfl⟩
    · rw [litFront_through, litSlab_through h, z, litFront_h, litSlab_h, ← hf, ← hg]
      congr 1
      · field_simp
        ring
      · field_simp
        ring
    · rw [litFront_through, litSlab_through h, z, litFront_e, litSlab_e h, ← hf, ← hg]
      congr 1
      · field_simp
        ring
      · field_simp
        ring

/-! ### the solver answers -/

lemma litKx_real (i : Fin 2) : (litKx i).im = 0 := by rw [litKx_eq]; fin_cases i <;> simp

lemma litKy_real (i : Fin 2) : (litKy i).im = 0 := by rw [litKy_eq]; simp

lemma LitCase.mu_pos (h : LitCase c e p r) (m : Fin 2 ⊕ Fin 2) : 0 < litMu c m := by
  have h1 := h.c_gt
  have h2 := h.c_lt
  rcases m with i | i <;> fin_cases i
  · norm_num [litMu]
  · norm_num [litMu]
  · show 0 < 169 - 144 / (1 - c)
    rw [sub_pos, div_lt_iff₀ (by linarith)]; linarith
  · show 0 < 169 - 144 / (1 + c)
    rw [sub_pos, div_lt_iff₀ (by linarith)]; linarith

lemma LitCase.lam_pos (h : LitCase c e p r) (m : Fin 2 ⊕ Fin 2) : 0 < litLam c e m := by
  have h1 := h.e_gt
  have h2 := h.e_lt
  rcases m with i | i <;> fin_cases i
  · show 0 < 169 * (1 + e) - 144
    rw [h.p_sq]; have := h.p_pos; positivity
  · show 0 < 169 * (1 - e) - 144
    rw [h.r_sq]; have := h.r_pos; positivity
  · exact mul_pos (by linarith) (h.mu_pos (.inr 0))
  · exact mul_pos (by linarith) (h.mu_pos (.inr 1))

lemma LitCase.q_eq (h : LitCase c e p r) (m : Fin 2 ⊕ Fin 2) : (litSlab c e).q m = ((Real.sqrt (litLam c e m) : ℝ) : ℂ) :=
  litSlab_q (Real.sqrt_pos.2 (h.lam_pos m)) (Real.sq_sqrt (h.lam_pos m).le).symm

lemma LitCase.q_ne (h : LitCase c e p r) (m : Fin 2 ⊕ Fin 2) : (litSlab c e).q m ≠ 0 := by
  rw [h.q_eq]; exact Complex.ofReal_ne_zero.2 (Real.sqrt_pos.2 (h.lam_pos m)).ne'

lemma litPhi_unit : IsUnit litPhi.det := by
  rw [litPhi, Matrix.det_fromBlocks_zero₁₂, litV, Matrix.det_fin_two_of, isUnit_iff_ne_zero]
  norm_num

lemma LitCase.c_ne (h : LitCase c e p r) : 1 - c ≠ 0 ∧ 1 + c ≠ 0 := by
  have h1 := h.c_gt
  have h2 := h.c_lt
  exact ⟨by linarith, by linarith⟩

lemma litSlab_regular (h : LitCase c e p r) : (litSlab c e).Regular := by
  refine ⟨litPhi_unit, ?_, h.q_ne⟩
  have hk := congrArg Matrix.det (lit_kp_eig c h.c_ne.1 h.c_ne.2)
  rw [Matrix.det_mul, Matrix.det_mul, mul_comm, Matrix.det_diagonal] at hk
  have := mul_left_cancel₀ litPhi_unit.ne_zero hk
  show IsUnit (kpPatterned 13 (litInv c) litKx litKy).det
  rw [this, isUnit_iff_ne_zero]
  exact Finset.prod_ne_zero_iff.2 fun m _ => Complex.ofReal_ne_zero.2 (h.mu_pos m).ne'

lemma litFront_regular : litFront.Regular := by
  refine uniform_regular (by norm_num) litKx_real litKy_real (by norm_num) 0 fun i => ?_
  have := litFront_q (.inl i)
  rw [show qOrd 13 ((1 : ℝ) : ℂ) litKx litKy i = litFront.q (.inl i) from rfl, this]
  norm_num

lemma litPhi_dot (x y : Fin 2 ⊕ Fin 2 → ℂ) : star (litPhi *ᵥ x) ⬝ᵥ (litPhi *ᵥ y) = 2 * (star x ⬝ᵥ y) := by
  have : litPhi.conjTranspose * litPhi = (2 : ℂ) • 1 := by
    rw [litPhi, Matrix.fromBlocks_conjTranspose, Matrix.fromBlocks_multiply, ← Matrix.fromBlocks_one, Matrix.fromBlocks_smul]
    have hv : litVᴴ * litV = (2 : ℂ) • 1 := by
      ext i j
      fin_cases i <;> fin_cases j <;> norm_num [litV, Matrix.mul_apply, Fin.sum_univ_two, Matrix.conjTranspose_apply]
    simp [hv]
  rw [star_dot_adj, Matrix.mulVec_mulVec, this, Matrix.smul_mulVec, Matrix.one_mulVec, star_smul, smul_dotProduct,
    smul_eq_mul, Complex.star_def, Complex.conj_ofNat]

/-- the waves that travel into the grating carry power forward -/
lemma litSlab_flux (h : LitCase c e p r) (a : Fin 2 ⊕ Fin 2 → ℂ) : 0 ≤ layerFlux 13 (litSlab c e) a 0 ∧ (a ≠ 0 → 0 < layerFlux 13 (litSlab c e) a 0) := by
  have hf : layerFlux 13 (litSlab c e) a 0 = ∑ m, 2 / 13 * (litMu c m / Real.sqrt (litLam c e m)) * Complex.normSq (a m) := by
    have he : (litSlab c e).eTan a 0 = litPhi *ᵥ fun m => ((litMu c m / Real.sqrt (litLam c e m) : ℝ) : ℂ) * a m := by
      show kpPatterned 13 (litInv c) litKx litKy *ᵥ (litPhi *ᵥ _) = _
      rw [Matrix.mulVec_mulVec, lit_kp_eig c h.c_ne.1 h.c_ne.2, ← Matrix.mulVec_mulVec]
      congr 1
      ext m
      rw [Matrix.mulVec_diagonal, h.q_eq]
      simp only [Pi.zero_apply, sub_zero]
      push_cast
      ring
    have hh : (litSlab c e).hTan a 0 = litPhi *ᵥ a := by rw [LayerData.hTan, add_zero]; rfl
    rw [layerFlux, poynting, he, hh, ← Matrix.mulVec_smul, litPhi_dot, dotProduct, Finset.mul_sum, Complex.re_sum]
    refine Finset.sum_congr rfl fun m _ => ?_
    have e1 : star ((((13 : ℂ)⁻¹ • fun m => ((litMu c m / Real.sqrt (litLam c e m) : ℝ) : ℂ) * a m) : Fin 2 ⊕ Fin 2 → ℂ)) m * a m =
        (((1 / 13) * (litMu c m / Real.sqrt (litLam c e m)) * Complex.normSq (a m) : ℝ) : ℂ) := by
      have h13 : (starRingEnd ℂ) (13 : ℂ) = 13 := Complex.conj_ofNat 13
      simp only [Pi.star_apply, Pi.smul_apply, smul_eq_mul, Complex.star_def, map_mul, map_inv₀, Complex.conj_ofReal, h13]
      rw [mul_assoc, mul_assoc, Complex.normSq_eq_conj_mul_self.symm]
      push_cast
      ring
    rw [e1, show (2 : ℂ) = ((2 : ℝ) : ℂ) by norm_num, ← Complex.ofReal_mul, Complex.ofReal_re]
    ring
  have hk : ∀ m, 0 < 2 / 13 * (litMu c m / Real.sqrt (litLam c e m)) := fun m => by
    have := h.mu_pos m
    have := Real.sqrt_pos.2 (h.lam_pos m)
    positivity
  rw [hf]
  constructor
  · exact Finset.sum_nonneg fun m _ => mul_nonneg (hk m).le (Complex.normSq_nonneg _)
  · intro ha
    obtain ⟨m, hm⟩ := Function.ne_iff.1 ha
    exact Finset.sum_pos' (fun m _ => mul_nonneg (hk m).le (Complex.normSq_nonneg _))
      ⟨m, Finset.mem_univ _, mul_pos (hk m) (Complex.normSq_pos.2 hm)⟩

lemma litFront_flux (a : Fin 2 ⊕ Fin 2 → ℂ) : 0 ≤ layerFlux 13 litFront a 0 ∧ (a ≠ 0 → 0 < layerFlux 13 litFront a 0) := by
  have key : a ≠ 0 → 0 < layerFlux 13 litFront a 0 := fun ha => by
    rw [layerFlux_zero]
    have := oneWay_pos_propagating (ω := 13) (ε := 1) (by norm_num) (by norm_num) litKx_real litKy_real (fun i => by
      rw [litKx_eq, litKy_eq]; fin_cases i <;> norm_num) 0 a ha
    simpa [litFront] using this
  refine ⟨?_, key⟩
  rcases eq_or_ne a 0 with rfl | ha
  · rw [layerFlux_zero, oneWay]; simp
  · exact (key ha).le

lemma litC_herm (e : ℝ) (y : Fin 2 → ℂ) : (star y ⬝ᵥ (litC e *ᵥ y)).im = 0 := by
  simp [litC, dotProduct, Fin.sum_univ_two, Matrix.mulVec]
  ring

lemma litSlab_through_flux (h : LitCase c e p r) (a b : Fin 2 ⊕ Fin 2 → ℂ) :
    layerFlux 13 (litSlab c e) ((litSlab c e).through a) b = layerFlux 13 (litSlab c e) a ((litSlab c e).through b) := by
  refine flux_eq (ω := 13) (kx := litKx) (ky := litKy) (ep2 := fromBlocks (litC e) 0 0 (litC e)) (epinv := litInv c)
    ⟨by norm_num, litKx_real, litKy_real, rfl, ?_, h.q_ne⟩ ⟨by norm_num, fun x => ?_, fun y => ?_⟩ a b
  · have := lit_eig c e h.c_ne.1 h.c_ne.2
    rw [IsEig] at this
    show _ * litPhi = litPhi * _
    rw [show (litSlab c e).kp = kpPatterned 13 (litInv c) litKx litKy from rfl, this]
    congr 2
    ext m
    rw [h.q_eq, ← Complex.ofReal_pow, Real.sq_sqrt (h.lam_pos m).le]
  · have e1 : star x ⬝ᵥ (fromBlocks (litC e) 0 0 (litC e) *ᵥ x) =
        star (x ∘ Sum.inl) ⬝ᵥ (litC e *ᵥ (x ∘ Sum.inl)) + star (x ∘ Sum.inr) ⬝ᵥ (litC e *ᵥ (x ∘ Sum.inr)) := by
      rw [Matrix.fromBlocks_mulVec, dotProduct, Fintype.sum_sum_type]
      simp [dotProduct]
    rw [e1, show (13 : ℂ) = ((13 : ℝ) : ℂ) by norm_num, Complex.im_ofReal_mul, Complex.add_im, litC_herm, litC_herm]
    norm_num
  · have e2 : litInv c = (((1 - c ^ 2)⁻¹ : ℝ) : ℂ) • litC ((-c : ℝ) : ℂ) := by
      ext i j
      fin_cases i <;> fin_cases j <;> simp [litInv, litC]
    rw [e2, Matrix.smul_mulVec, dotProduct_smul, smul_eq_mul, show (13 : ℂ)⁻¹ = ((13⁻¹ : ℝ) : ℂ) by norm_num, Complex.im_ofReal_mul,
      Complex.im_ofReal_mul, litC_herm]
    norm_num

lemma litFront_through_flux (a b : Fin 2 ⊕ Fin 2 → ℂ) :
    layerFlux 13 litFront (litFront.through a) b = layerFlux 13 litFront a (litFront.through b) := by
  rw [litFront_through, litFront_through]

lemma lit_ok (h : LitCase c e p r) (norm : ℝ) (a0 : Fin 2 ⊕ Fin 2 → ℂ) :
    ∃ R T, rtForward 13 norm [litFront, litSlab c e, litFront] a0 0 = .ok (R, T) := by
  have hreg : ∀ M ∈ [litFront, litSlab c e, litFront], M.Regular := by
    intro M hM
    simp only [List.mem_cons, List.not_mem_nil, or_false] at hM
    rcases hM with rfl | rfl | rfl
    exacts [litFront_regular, litSlab_regular h, litFront_regular]
  obtain ⟨S, hS⟩ := getSMatrix_ok litFront [litSlab c e, litFront] hreg fun q hq hpre b0 aN hs => by
    have hsub : ∀ M ∈ litFront :: q, M = litFront ∨ M = litSlab c e := by
      intro M hM
      rcases List.mem_cons.1 hM with rfl | hM
      · exact .inl rfl
      · have := hpre.subset hM
        simp only [List.mem_cons, List.not_mem_nil, or_false] at this
        tauto
    refine no_source_free (ω := 13) hq (fun M hM => ?_) (fun M hM a b => ?_) hs
    · rcases hsub M hM with rfl | rfl
      exacts [litFront_flux, litSlab_flux h]
    · rcases hsub M (List.mem_cons_of_mem _ hM) with rfl | rfl
      exacts [(litFront_through_flux a b).le, (litSlab_through_flux h a b).le]
  exact rt_ok (mids := [litSlab c e]) hS a0 0

lemma lit_power (x y : ℂ) : oneWay 13 litFront (litW x y) = 13 / 5 * (Complex.normSq x + Complex.normSq y) := by
  have hq : ∀ i, qOrd 13 ((1 : ℝ) : ℂ) litKx litKy i = 5 := fun i => litFront_q (.inl i)
  rw [litFront, oneWay_uniform _ _ _ _ litKx_real litKy_real, Fin.sum_univ_two, hq, hq, litKy_eq]
  have e0 : (13 : ℂ)⁻¹ * (5 : ℂ)⁻¹ * 13 ^ 2 = ((13 / 5 : ℝ) : ℂ) := by push_cast; norm_num
  simp only [litW, Sum.elim_inl, Sum.elim_inr, Pi.zero_apply, mul_zero, zero_mul, sub_zero, map_zero, Complex.ofReal_zero, add_zero, ← mul_assoc, e0,
    Matrix.cons_val_zero, Matrix.cons_val_one, ← Complex.ofReal_mul, Complex.ofReal_re]
  ring

lemma lit_wave : planewave litTheta 0 1 0 (0 : Fin 2) = litW (-5 / 13) 0 := by
  funext m
  rcases m with i | i <;> fin_cases i <;> simp [planewave, litW, lit_cos]
  norm_num

/-- reflectance and transmittance of the grating -/
lemma lit_run (h : LitCase c e p r) :
    rtForward 13 (rtNormalization 1 litTheta) [litFront, litSlab c e, litFront] (planewave litTheta 0 1 0 (0 : Fin 2)) 0 =
      .ok ((((p ^ 2 - 25) / (p ^ 2 + 25)) ^ 2 + ((r ^ 2 - 25) / (r ^ 2 + 25)) ^ 2) / 2,
        ((10 * p / (p ^ 2 + 25)) ^ 2 + (10 * r / (r ^ 2 + 25)) ^ 2) / 2) := by
  obtain ⟨R, T, hRT⟩ := lit_ok h (rtNormalization 1 litTheta) (planewave litTheta 0 1 0 (0 : Fin 2))
  have hq : ∀ M ∈ [litFront, litSlab c e, litFront], ∀ m, M.q m ≠ 0 := by
    intro M hM m
    simp only [List.mem_cons, List.not_mem_nil, or_false] at hM
    rcases hM with rfl | rfl | rfl
    exacts [litFront_regular.q m, h.q_ne m, litFront_regular.q m]
  have hr : RealOrder 13 ((1 : ℝ) : ℂ) litKx litKy 0 := by
    have := realOrder_oblique (ω := 13) (θ := litTheta) (ε0 := 1) (kx := litKx) (ky := litKy) (o := 0) (by norm_num) (by rw [lit_cos]; norm_num)
      (by norm_num) 0 (by rw [litKx_eq, lit_sin, Real.cos_zero, Real.sqrt_one]; norm_num) (by rw [litKy_eq, Real.sin_zero]; simp)
    rwa [Complex.ofReal_ofNat] at this
  obtain ⟨aN, b0, hsol, hR, hT⟩ := rt_values (mids := [litSlab c e]) hr (planewave_inOrder litTheta 0 1 0 0) hq hRT
  have hs := lit_sol h (-5 / 13) _ _ rfl rfl
  set f := Complex.exp (Complex.I * p * (Real.pi / 2 : ℝ)) with hf
  set g := Complex.exp (Complex.I * r * (Real.pi / 2 : ℝ)) with hg
  rw [← lit_wave] at hs
  obtain ⟨x, hx⟩ : ∃ x, solveExterior [litFront, litSlab c e, litFront] (planewave litTheta 0 1 0 (0 : Fin 2)) 0 = .ok x := by
    rw [rtForward, bind_ok] at hRT
    obtain ⟨x, hx, -⟩ := hRT
    exact ⟨x, hx⟩
  have h1 := (C16_exterior _ hq _ _ _ _ x hx).1 hsol
  have h2 := (C16_exterior _ hq _ _ _ _ x hx).1 hs
  rw [h1.1, ← h2.1] at hT
  rw [h1.2, ← h2.2] at hR
  change R = oneWay 13 litFront _ * _ at hR
  change T = oneWay 13 litFront _ * _ at hT
  have hn : rtNormalization 1 litTheta = 13 / 5 := by rw [rtNormalization, Real.sqrt_one, lit_cos]; norm_num
  have par : ∀ u v : ℂ, Complex.normSq (u + v) + Complex.normSq (u - v) = 2 * (Complex.normSq u + Complex.normSq v) := fun u v => by
    rw [Complex.normSq_add, Complex.normSq_sub]; ring
  have ha : Complex.normSq (-5 / 13 / 2) = 25 / 676 := by
    rw [map_div₀, map_div₀, Complex.normSq_neg]; norm_num [Complex.normSq_ofNat]
  have hfn : Complex.normSq f = 1 := by
    rw [hf, Complex.normSq_eq_norm_sq, show Complex.I * p * (Real.pi / 2 : ℝ) = ((p * (Real.pi / 2) : ℝ) : ℂ) * Complex.I by push_cast; ring,
      Complex.norm_exp_ofReal_mul_I]; norm_num
  have hgn : Complex.normSq g = 1 := by
    rw [hg, Complex.normSq_eq_norm_sq, show Complex.I * r * (Real.pi / 2 : ℝ) = ((r * (Real.pi / 2) : ℝ) : ℂ) * Complex.I by push_cast; ring,
      Complex.norm_exp_ofReal_mul_I]; norm_num
  have sq : ∀ x : ℝ, Complex.normSq (x : ℂ) = x ^ 2 := fun x => by rw [Complex.normSq_ofReal]; ring
  have c1 : ∀ x : ℝ, ((x : ℂ) ^ 2 - 25) / ((x : ℂ) ^ 2 + 25) = (((x ^ 2 - 25) / (x ^ 2 + 25) : ℝ) : ℂ) := fun x => by push_cast; rfl
  have c2 : ∀ x : ℝ, 10 * (x : ℂ) / ((x : ℂ) ^ 2 + 25) = ((10 * x / (x ^ 2 + 25) : ℝ) : ℂ) := fun x => by push_cast; rfl
  rw [lit_power, map_mul, map_mul, ha, ← mul_add, par, c1, c1, sq, sq, hn] at hR
  rw [lit_power, map_mul, map_mul, ha, ← mul_add, par, map_mul, map_mul, hfn, hgn, c2, c2, sq, sq, hn] at hT
  rw [hRT, hR, hT]
  congr 2 <;> ring

lemma odd_phase (k : ℕ) : Complex.exp (Complex.I * ((2 * k + 1 : ℝ) : ℂ) * (Real.pi / 2 : ℝ)) ^ 2 = -1 := by
  rw [← Complex.exp_nat_mul, show ((2 : ℕ) : ℂ) * (Complex.I * ((2 * k + 1 : ℝ) : ℂ) * (Real.pi / 2 : ℝ)) =
    k * (2 * Real.pi * Complex.I) + Real.pi * Complex.I by push_cast; ring, Complex.exp_add, Complex.exp_nat_mul, Complex.exp_two_pi_mul_I,
    Complex.exp_pi_mul_I, one_pow, one_mul]

/-- the coefficient -24/169 is dropped -/
lemma lit_dropped : LitCase (-(24 / 169)) 0 5 5 := by
  have h := odd_phase 2
  rw [show (2 * ((2 : ℕ) : ℝ) + 1) = 5 by norm_num] at h
  refine ⟨?_, by norm_num, by norm_num, by norm_num, by norm_num, by norm_num, by norm_num, by norm_num, by norm_num, h, h⟩
  rw [zeroSmall, if_pos]
  · norm_num
  · rw [Complex.ofReal_re, Complex.ofReal_im]; norm_num

/-- the coefficient 24/169 is kept -/
lemma lit_kept : LitCase (24 / 169) (24 / 169) 7 1 := by
  have h := odd_phase 3
  have h' := odd_phase 0
  rw [show (2 * ((3 : ℕ) : ℝ) + 1) = 7 by norm_num] at h
  rw [show (2 * ((0 : ℕ) : ℝ) + 1) = 1 by norm_num] at h'
  refine ⟨?_, by norm_num, by norm_num, by norm_num, by norm_num, by norm_num, by norm_num, by norm_num, by norm_num, h, h'⟩
  rw [zeroSmall, if_neg]
  rw [Complex.ofReal_re]; norm_num

lemma lit_built (h : LitCase c e p r) : Built 13 litKx litKy litOrders (.patterned (litPattern c) (Real.pi / 2)) (litSlab c e) := by
  refine .patterned _ _ (litInv c) (fromBlocks (litC e) 0 0 (litC e)) (lit_fft ?_ h.filter) _ _ (lit_eig c e h.c_ne.1 h.c_ne.2) litPhi_unit
  rw [show (1 : ℂ) - c ^ 2 = (((1 - c) * (1 + c) : ℝ) : ℂ) by push_cast; ring]
  exact Complex.ofReal_ne_zero.2 (mul_ne_zero h.c_ne.1 h.c_ne.2)

lemma lit_regular (h : LitCase c e p r) : ∀ M ∈ uniformLayer 13 litKx litKy (1 : ℝ) 0 :: [litSlab c e] ++ [uniformLayer 13 litKx litKy (1 : ℝ) 0],
    M.Regular := by
  intro M hM
  simp only [List.mem_cons, List.not_mem_nil, or_false, List.cons_append, List.nil_append] at hM
  rcases hM with rfl | rfl | rfl
  exacts [litFront_regular, litSlab_regular h, litFront_regular]

/-- what the solver answers for the grating with the coefficient 24/169 -/
lemma lit_answer : rtForward 13 (rtNormalization 1 litTheta) (uniformLayer 13 litKx litKy (1 : ℝ) 0 :: [litSlab (24 / 169) (24 / 169)] ++
    [uniformLayer 13 litKx litKy (1 : ℝ) 0]) (planewave litTheta 0 1 0 (0 : Fin 2)) 0 = .ok (110736 / 231361, 120625 / 231361) := by
  refine (lit_run lit_kept).trans ?_
  norm_num

/-! ### patterns seen through a single order at normal incidence -/

/-- what the solver holds for a pattern with mean `μ` at the single order (0,0), frequency 1 and normal incidence -/
def meanLayer (μ : ℝ) (d : ℝ) : LayerData (Fin 1 ⊕ Fin 1) := patternedLayer 1 0 0 (Matrix.of fun _ _ => (μ : ℂ))⁻¹ (fun _ => (μ : ℂ)) 1 d

lemma kp_single (e : Matrix (Fin 1) (Fin 1) ℂ) : kpPatterned 1 e 0 0 = 1 := by
  have hj : jkMat (0 : Fin 1 → ℂ) 0 = 0 := by
    ext (i | i) j <;> simp [jkMat]
  rw [kpPatterned, hj, Matrix.zero_mul, Matrix.zero_mul, sub_zero]; simp

lemma mean_built {Nx Ny : ℕ} [NeZero Nx] [NeZero Ny] (s : Fin Nx → Fin Ny → ℂ) (μ : ℝ) (hμ : 1 ≤ μ) (hs : fourierCoeff s 0 = μ) (d : ℝ) :
    Built 1 0 0 oneOrder (.patterned s d) (meanLayer μ d) := by
  have hμ0 : (μ : ℂ) ≠ 0 := Complex.ofReal_ne_zero.2 (by linarith)
  have hr : Resolved Nx Ny oneOrder := by
    intro i j
    have h1 := NeZero.pos Nx
    have h2 := NeZero.pos Ny
    simp [oneOrder, h1, h2]
  have hk : kMat (0 : Fin 1 → ℂ) 0 = 0 := by
    ext (i | i) j <;> simp [kMat]
  obtain ⟨C, h1, h2⟩ := (C15_entries s oneOrder).1 hr
  have hC : C = Matrix.of fun _ _ => (μ : ℂ) := by
    ext i j
    rw [h2, Subsingleton.elim i j, sub_self, hs]; rfl
  subst hC
  have hu : IsUnit (Matrix.of fun (_ _ : Fin 1) => (μ : ℂ)).det := by simp [hμ0]
  refine .patterned _ _ _ (fromBlocks (Matrix.of fun _ _ => (μ : ℂ)) 0 0 (Matrix.of fun _ _ => (μ : ℂ))) ?_ _ _ ?_ (by simp)
  · simp only [epsilonFft]
    rw [h1, ok_bind, torchInverse, if_pos hu, ok_bind, fromBlocks_filter, of_map_filter μ hμ]
    rfl
  · rw [IsEig, kp_single, eigenMat, hk, Matrix.zero_mul, sub_zero, Matrix.mul_one, Matrix.mul_one, Matrix.one_mul]
    ext (i | i) (j | j)
    · rw [Subsingleton.elim i j]; simp
    · simp
    · simp
    · rw [Subsingleton.elim i j]; simp

lemma mean_regular (μ : ℝ) (hμ : 1 ≤ μ) (d : ℝ) : ∀ M ∈ uniformLayer 1 (0 : Fin 1 → ℂ) 0 (1 : ℝ) 0 :: [meanLayer μ d] ++ [uniformLayer 1 0 0 (1 : ℝ) 0],
    M.Regular := by
  have hf : (uniformLayer 1 (0 : Fin 1 → ℂ) 0 (1 : ℝ) 0).Regular := by
    refine uniform_regular (by norm_num) (by simp) (by simp) (by norm_num) 0 fun i h => ?_
    have := qOrd_sq 1 ((1 : ℝ) : ℂ) (0 : Fin 1 → ℂ) 0 i
    rw [h] at this
    norm_num at this
  intro M hM
  simp only [List.mem_cons, List.not_mem_nil, or_false, List.cons_append, List.nil_append] at hM
  rcases hM with rfl | rfl | rfl
  · exact hf
  · refine ⟨by simp [meanLayer, patternedLayer], ?_, fun m h => ?_⟩
    · show IsUnit (kpPatterned 1 _ 0 0).det
      rw [kp_single]; simp
    · have h0 : branchQ (csqrt (μ : ℂ)) = 0 := h
      have : branchQ (csqrt (μ : ℂ)) ^ 2 = μ := by rw [branchQ_sq, csqrt_sq]
      rw [h0] at this
      have : (μ : ℂ) = 0 := by rw [← this]; simp
      rw [Complex.ofReal_eq_zero] at this
      linarith
  · exact hf

end

end Nidn
