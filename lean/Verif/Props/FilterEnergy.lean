/-
C19 and C20 fail for patterned layers: the filter of `Epsilon_fft` drops a coupling in one direction only, and a lossless grating gains energy.
-/
import Verif.Lemmas.Triangular
import Mathlib.Analysis.SpecialFunctions.Trigonometric.Inverse

namespace Nidn

open Matrix

noncomputable section

/-- A lossless grating of four pixels per period, on a background of permittivity 4. -/
def gainPattern : Fin 4 → Fin 1 → ℂ := fun m _ => if m = 0 ∨ m = 3 then 2 else 6

/-- The central order and its two neighbours. -/
def gainOrders : Fin 3 → ℤ × ℤ := ![(0, 0), (-1, 0), (1, 0)]

/-- Frequency `5 pi / 7` and angle of incidence with sine 4/5. -/
def gainOmega : ℝ := 5 / 2 * (2 * Real.pi / 7)

def gainTheta : ℝ := Real.arcsin (4 / 5)

def gainKx : Fin 3 → ℂ := kxOf gainOmega gainTheta 0 4 (1, 0) (0, 10) gainOrders

def gainKy : Fin 3 → ℂ := kyOf gainOmega gainTheta 0 4 (1, 0) (0, 10) gainOrders

/-- the unit of wave numbers -/
def gainU : ℂ := 2 * Real.pi / 7

lemma gainU_ne : gainU ≠ 0 := by
  rw [gainU]
  have : (Real.pi : ℂ) ≠ 0 := by exact_mod_cast Real.pi_ne_zero
  simp [this]

lemma gainOmega_eq : (gainOmega : ℂ) = 5 / 2 * gainU := by rw [gainOmega, gainU]; push_cast; ring

lemma gain_sin : Real.sin gainTheta = 4 / 5 := Real.sin_arcsin (by norm_num) (by norm_num)

lemma gain_cos : Real.cos gainTheta = 3 / 5 := by
  rw [gainTheta, Real.cos_arcsin, show (1 : ℝ) - (4 / 5) ^ 2 = (3 / 5) ^ 2 by norm_num, Real.sqrt_sq (by norm_num)]

lemma gain_sqrt : Real.sqrt 4 = 2 := by rw [show (4 : ℝ) = 2 ^ 2 by norm_num, Real.sqrt_sq (by norm_num)]

lemma gainKx_eq (i : Fin 3) : gainKx i = (![4, -3, 11] i : ℂ) * gainU := by
  have h : ∀ g : ℤ × ℤ, waveX gainOmega gainTheta 0 4 (1, 0) (0, 10) g = (4 + 7 * g.1) * gainU := by
    intro g
    rw [waveX, gain_sin, gain_sqrt, Real.cos_zero, gainOmega_eq, gainU]
    push_cast; ring
  fin_cases i
  · simp [gainKx, kxOf, h, gainOrders]
  · simp [gainKx, kxOf, h, gainOrders]; ring
  · simp [gainKx, kxOf, h, gainOrders]; left; norm_num

lemma gainKy_eq (i : Fin 3) : gainKy i = 0 := by
  fin_cases i <;> simp [gainKy, kyOf, waveY, gainOrders]

lemma gainQ (i : Fin 3) : qOrd gainOmega 4 gainKx gainKy i ^ 2 = (![9, 16, -96] i : ℂ) * gainU ^ 2 := by
  rw [qOrd_sq, gainKx_eq, gainKy_eq, gainOmega_eq]
  fin_cases i <;> simp <;> ring

lemma gainU_real : gainU = ((2 * Real.pi / 7 : ℝ) : ℂ) := by rw [gainU]; push_cast; ring

lemma gainQ0 : qOrd gainOmega 4 gainKx gainKy 0 = 3 * gainU := by
  have h : (4 : ℂ) * gainOmega ^ 2 - gainKx 0 ^ 2 - gainKy 0 ^ 2 = (3 * gainU) ^ 2 := by
    rw [gainKx_eq, gainKy_eq, gainOmega_eq]; simp; ring
  have hr : (3 * gainU).re = 3 * (2 * Real.pi / 7) := by rw [gainU_real, show (3 : ℂ) = ((3 : ℝ) : ℂ) by norm_num, ← Complex.ofReal_mul, Complex.ofReal_re]
  have hi : (3 * gainU).im = 0 := by rw [gainU_real, show (3 : ℂ) = ((3 : ℝ) : ℂ) by norm_num, ← Complex.ofReal_mul, Complex.ofReal_im]
  rw [qOrd, h, branchQ_csqrt_of_sq _ (by rw [hr]; positivity) (by rw [hi])]

lemma gainQ1 : qOrd gainOmega 4 gainKx gainKy 1 = 4 * gainU := by
  have h : (4 : ℂ) * gainOmega ^ 2 - gainKx 1 ^ 2 - gainKy 1 ^ 2 = (4 * gainU) ^ 2 := by
    rw [gainKx_eq, gainKy_eq, gainOmega_eq]; simp; ring
  have hr : (4 * gainU).re = 4 * (2 * Real.pi / 7) := by rw [gainU_real, show (4 : ℂ) = ((4 : ℝ) : ℂ) by norm_num, ← Complex.ofReal_mul, Complex.ofReal_re]
  have hi : (4 * gainU).im = 0 := by rw [gainU_real, show (4 : ℂ) = ((4 : ℝ) : ℂ) by norm_num, ← Complex.ofReal_mul, Complex.ofReal_im]
  rw [qOrd, h, branchQ_csqrt_of_sq _ (by rw [hr]; positivity) (by rw [hi])]

lemma gainQ_ne (i : Fin 3) : qOrd gainOmega 4 gainKx gainKy i ≠ 0 := by
  intro h
  have h2 := gainQ i
  rw [h] at h2
  have := gainU_ne
  fin_cases i <;> simp [this] at h2

/-! ### What the solver sees of the grating -/

lemma gain_exp (k : ℕ) : Complex.exp (-(2 * Real.pi * Complex.I) * (k / 4)) = (-Complex.I) ^ k := by
  have e1 : Complex.exp (-(2 * Real.pi * Complex.I) * (1 / 4)) = -Complex.I := by
    rw [show -(2 * Real.pi * Complex.I) * (1 / 4) = -(Real.pi / 2 * Complex.I) by ring, Complex.exp_neg, Complex.exp_pi_div_two_mul_I,
      Complex.inv_I]
  rw [← e1, ← Complex.exp_nat_mul]; congr 1; ring

lemma gain_coeff (d : ℤ) : fourierCoeff gainPattern (d, 0) =
    (2 + 6 * Complex.exp (-(2 * Real.pi * Complex.I) * (d / 4)) + 6 * Complex.exp (-(2 * Real.pi * Complex.I) * (2 * d / 4)) +
      2 * Complex.exp (-(2 * Real.pi * Complex.I) * (3 * d / 4))) / 4 := by
  rw [fourierCoeff]
  simp only [Fin.sum_univ_four, Finset.univ_unique, Finset.sum_singleton, gainPattern]
  simp
  ring

lemma gain_exp_int (m : ℤ) : Complex.exp (-(2 * Real.pi * Complex.I) * (m / 4)) = (-Complex.I) ^ m := by
  have e1 : Complex.exp (-(2 * Real.pi * Complex.I) * (1 / 4)) = -Complex.I := by simpa using gain_exp 1
  rw [← e1, ← Complex.exp_int_mul]; congr 1; ring

lemma gain_coeff' (d : ℤ) : fourierCoeff gainPattern (d, 0) = (2 + 6 * (-Complex.I) ^ d + 6 * (-Complex.I) ^ (2 * d) + 2 * (-Complex.I) ^ (3 * d)) / 4 := by
  rw [gain_coeff, ← gain_exp_int d, ← gain_exp_int (2 * d), ← gain_exp_int (3 * d)]
  push_cast; rfl

/-- the coefficient of the kept direction -/
def gainC : ℂ := -1 + Complex.I

lemma negI2 : (-Complex.I) ^ 2 = -1 := by rw [neg_sq, Complex.I_sq]

lemma negI_inv : (-Complex.I)⁻¹ = Complex.I := by rw [inv_neg, Complex.inv_I, neg_neg]

lemma gain_c0 : fourierCoeff gainPattern 0 = 4 := by rw [show (0 : ℤ × ℤ) = (0, 0) from rfl, gain_coeff']; norm_num

lemma I3 : Complex.I ^ 3 = -Complex.I := by rw [pow_succ, Complex.I_sq]; ring

lemma I4 : Complex.I ^ 4 = 1 := Complex.I_pow_four

lemma I6 : Complex.I ^ 6 = -1 := by rw [show (6 : ℕ) = 4 + 2 from rfl, pow_add, I4, Complex.I_sq]; ring

lemma gain_cm1 : fourierCoeff gainPattern (-1, 0) = gainC := by
  rw [gain_coeff', gainC]
  norm_num
  ring_nf
  rw [Complex.inv_I]
  ring_nf
  rw [I3]
  ring

lemma gain_cp1 : fourierCoeff gainPattern (1, 0) = -1 - Complex.I := by
  rw [gain_coeff']
  norm_num [zpow_ofNat, negI2]
  ring_nf
  rw [I3]
  ring

lemma gain_cp2 : fourierCoeff gainPattern (2, 0) = 0 := by
  rw [gain_coeff']
  norm_num [zpow_ofNat]
  ring_nf
  rw [I4, I6]
  ring

lemma gain_cm2 : fourierCoeff gainPattern (-2, 0) = 0 := by
  rw [gain_coeff']
  norm_num
  ring_nf
  rw [Complex.inv_I]
  ring_nf
  rw [I4, I6]
  ring

/-- what is left of the coupling between the orders: from order 0 to order -1 and from order 1 to order 0, not back -/
def gainN : Matrix (Fin 3) (Fin 3) ℂ := !![0, 0, gainC; gainC, 0, 0; 0, 0, 0]

def gainFour : Fin 4 → Fin 1 → ℂ := fun _ _ => 4

lemma gain_resolved : Resolved 4 1 gainOrders := by
  intro i j
  fin_cases i <;> fin_cases j <;> simp [gainOrders]

lemma gain_injective : Function.Injective gainOrders := by
  intro i j h
  fin_cases i <;> fin_cases j <;> simp [gainOrders] at h ⊢

lemma zs4 : zeroSmall 4 = 4 := by rw [zeroSmall, if_neg]; norm_num

lemma zs0 : zeroSmall 0 = 0 := by rw [zeroSmall]; simp

lemma zsC : zeroSmall gainC = gainC := by rw [zeroSmall, if_neg]; simp [gainC]; norm_num

lemma zsD : zeroSmall (-1 - Complex.I) = 0 := by
  rw [zeroSmall, if_pos]
  constructor <;> simp <;> norm_num

lemma gain_fft : epsilonFft (1 / (4 : ℕ) / (1 : ℕ)) (.aniso gainPattern gainFour gainFour) gainOrders =
    .ok ((1 / 4 : ℂ) • (1 : Matrix (Fin 3) (Fin 3) ℂ), fromBlocks ((4 : ℂ) • 1 + gainN) 0 0 ((4 : ℂ) • (1 : Matrix (Fin 3) (Fin 3) ℂ))) := by
  obtain ⟨C, h1, h2⟩ := (C15_entries gainPattern gainOrders).1 gain_resolved
  have h4 := C15_uniform (Nx := 4) (Ny := 1) 4 gainOrders gain_injective gain_resolved
  have hu : IsUnit ((4 : ℂ) • (1 : Matrix (Fin 3) (Fin 3) ℂ)).det := by
    rw [det_smul, det_one, mul_one]; exact (isUnit_iff_ne_zero.2 (by norm_num))
  have hinv : ((4 : ℂ) • (1 : Matrix (Fin 3) (Fin 3) ℂ))⁻¹ = (1 / 4 : ℂ) • (1 : Matrix (Fin 3) (Fin 3) ℂ) := by
    apply inv_eq_left_inv
    rw [smul_mul_smul_comm, Matrix.one_mul]; norm_num
  simp only [epsilonFft]
  rw [h1, ok_bind]
  have h4' : getConv (1 / (4 : ℕ) / (1 : ℕ)) gainFour gainOrders = .ok ((4 : ℂ) • (1 : Matrix (Fin 3) (Fin 3) ℂ)) := h4
  rw [h4', ok_bind, ok_bind, torchInverse, if_pos hu, ok_bind, hinv]
  congr 2
  rw [fromBlocks_map]
  congr 1
  · ext i j
    rw [map_apply, h2]
    fin_cases i <;> fin_cases j <;>
      simp [gainOrders, gainN, gain_c0, gain_cm1, gain_cp1, gain_cm2, gain_cp2, zs4, zsC, zsD, zs0]
  · ext i j; simp [zs0]
  · ext i j; simp [zs0]
  · ext i j
    fin_cases i <;> fin_cases j <;> simp [zs0, zs4]

/-! ### Modes of the grating -/

/-- eigenvalues: those of the background -/
def gainLam : Fin 3 ⊕ Fin 3 → ℂ := fun m => qUniform gainOmega 4 gainKx gainKy m ^ 2

/-- modes: the background's with an admixture of the order they couple to -/
def gainPhiE : Matrix (Fin 3) (Fin 3) ℂ :=
  !![1, 0, -(5 / 84 * gainC); -(25 / 28 * gainC), 1, 25 / 448 * (5 / 84) * gainC ^ 2; 0, 0, 1]

def gainPhi : Matrix (Fin 3 ⊕ Fin 3) (Fin 3 ⊕ Fin 3) ℂ := fromBlocks gainPhiE 0 0 1

lemma gain_kp : kpPatterned gainOmega ((1 / 4 : ℂ) • (1 : Matrix (Fin 3) (Fin 3) ℂ)) gainKx gainKy =
    (uniformLayer gainOmega gainKx gainKy 4 0).kp := (kpUniform_eq _ _ _ _).symm

lemma gain_coupling : fromBlocks gainN 0 0 0 * kpPatterned gainOmega ((1 / 4 : ℂ) • (1 : Matrix (Fin 3) (Fin 3) ℂ)) gainKx gainKy =
    fromBlocks ((gainOmega : ℂ) ^ 2 • gainN) 0 0 (0 : Matrix (Fin 3) (Fin 3) ℂ) := by
  have hky : gainKy = 0 := funext gainKy_eq
  have : kpPatterned gainOmega ((1 / 4 : ℂ) • (1 : Matrix (Fin 3) (Fin 3) ℂ)) gainKx gainKy =
      fromBlocks ((gainOmega : ℂ) ^ 2 • 1) 0 0 ((gainOmega : ℂ) ^ 2 • 1 - (1 / 4 : ℂ) • diagonal fun i => gainKx i * gainKx i) := by
    rw [kpPatterned, jkMat, transpose_fromRows, fromRows_mul, fromRows_mul_fromCols, hky, ← fromBlocks_one, fromBlocks_smul, sub_eq_add_neg, fromBlocks_neg,
      fromBlocks_add]
    simp [sub_eq_add_neg]
  rw [this, fromBlocks_multiply]
  simp

lemma gain_eig : IsEig (eigenMat (fromBlocks ((4 : ℂ) • 1 + gainN) 0 0 ((4 : ℂ) • (1 : Matrix (Fin 3) (Fin 3) ℂ)))
    (kpPatterned gainOmega ((1 / 4 : ℂ) • (1 : Matrix (Fin 3) (Fin 3) ℂ)) gainKx gainKy) gainKx gainKy) gainLam gainPhi := by
  have hu := uniform_eig (ω := gainOmega) gainKx gainKy (ε := 4) (by norm_num) 0
  have hphi : (uniformLayer gainOmega gainKx gainKy 4 0).phi = 1 := rfl
  have hlam : (fun m => (uniformLayer gainOmega gainKx gainKy 4 0).q m ^ 2) = gainLam := rfl
  rw [hphi, Matrix.mul_one, Matrix.one_mul, hlam] at hu
  have hsplit : fromBlocks ((4 : ℂ) • 1 + gainN) 0 0 ((4 : ℂ) • (1 : Matrix (Fin 3) (Fin 3) ℂ)) =
      (4 : ℂ) • (1 : Matrix (Fin 3 ⊕ Fin 3) (Fin 3 ⊕ Fin 3) ℂ) + fromBlocks gainN 0 0 0 := by
    rw [← fromBlocks_one, fromBlocks_smul, fromBlocks_add]; simp
  have hM : eigenMat (fromBlocks ((4 : ℂ) • 1 + gainN) 0 0 ((4 : ℂ) • (1 : Matrix (Fin 3) (Fin 3) ℂ)))
      (kpPatterned gainOmega ((1 / 4 : ℂ) • (1 : Matrix (Fin 3) (Fin 3) ℂ)) gainKx gainKy) gainKx gainKy =
      diagonal gainLam + fromBlocks ((gainOmega : ℂ) ^ 2 • gainN) 0 0 0 := by
    rw [← hu, eigenMat, eigenMat, hsplit, Matrix.add_mul, gain_coupling, ← gain_kp]; abel
  have hl : ∀ i, gainLam (.inl i) = (![9, 16, -96] i : ℂ) * gainU ^ 2 := gainQ
  rw [IsEig, hM, Matrix.add_mul, gainPhi, fromBlocks_multiply]
  ext (i | i) (j | j)
  · rw [Matrix.add_apply, diagonal_mul, mul_diagonal, fromBlocks_apply₁₁, fromBlocks_apply₁₁, hl, hl, gainOmega_eq]
    fin_cases i <;> fin_cases j <;> simp [gainPhiE, gainN] <;> ring
  · simp [diagonal_mul, mul_diagonal]
  · simp [diagonal_mul, mul_diagonal]
  · rw [Matrix.add_apply, diagonal_mul, mul_diagonal, fromBlocks_apply₂₂, fromBlocks_apply₂₂]
    by_cases h : i = j
    · subst h; simp
    · simp [Matrix.one_apply_ne h]

/-! ### The structure -/

def gainFront : LayerData (Fin 3 ⊕ Fin 3) := uniformLayer gainOmega gainKx gainKy (4 : ℝ) 0

def gainSlab : LayerData (Fin 3 ⊕ Fin 3) := patternedLayer gainOmega gainKx gainKy ((1 / 4 : ℂ) • (1 : Matrix (Fin 3) (Fin 3) ℂ)) gainLam gainPhi (7 / 2)

lemma four_cast : ((4 : ℝ) : ℂ) = 4 := by norm_num

lemma gainFront_q (i : Fin 3) : gainFront.q (.inl i) = qOrd gainOmega 4 gainKx gainKy i ∧ gainFront.q (.inr i) = qOrd gainOmega 4 gainKx gainKy i := by
  rw [gainFront, four_cast]; exact ⟨rfl, rfl⟩

lemma gainFront_ne (m : Fin 3 ⊕ Fin 3) : gainFront.q m ≠ 0 := by
  rcases m with i | i
  · rw [(gainFront_q i).1]; exact gainQ_ne i
  · rw [(gainFront_q i).2]; exact gainQ_ne i

lemma branchQ_sq_self (z : ℂ) : branchQ (csqrt (branchQ (csqrt z) ^ 2)) = branchQ (csqrt z) := by rw [branchQ_sq, csqrt_sq]

lemma gainSlab_q : gainSlab.q = gainFront.q := by
  rw [gainFront, four_cast]
  funext m
  rcases m with i | i <;> exact branchQ_sq_self _

lemma gainSlab_kp : gainSlab.kp = gainFront.kp := by rw [gainFront, four_cast]; exact gain_kp

lemma gain_kx_real (i : Fin 3) : (gainKx i).im = 0 := kxOf_real _ _ _ _ _ _ _ i

lemma gain_ky_real (i : Fin 3) : (gainKy i).im = 0 := kyOf_real _ _ _ _ _ _ _ i

lemma gainOmega_pos : 0 < gainOmega := by rw [gainOmega]; have := Real.pi_pos; positivity

lemma gainOmega_ne : (gainOmega : ℂ) ≠ 0 := by exact_mod_cast gainOmega_pos.ne'

lemma gainFront_regular : gainFront.Regular := by
  have h : ∀ i, qOrd gainOmega ((4 : ℝ) : ℂ) gainKx gainKy i ≠ 0 := by rw [four_cast]; exact gainQ_ne
  exact uniform_regular gainOmega_ne gain_kx_real gain_ky_real (by norm_num) 0 h

/-- order in which the modes couple -/
def gainRank : Fin 3 ⊕ Fin 3 → ℕ := Sum.elim ![1, 0, 2] fun _ => 0

lemma gainPhi_tri : TriD gainRank 1 gainPhi := by
  constructor
  · rintro (i | i) (j | j) h h'
    · fin_cases i <;> fin_cases j <;> simp [gainRank, gainPhi, gainPhiE] at h h' ⊢
    · simp [gainPhi]
    · simp [gainPhi]
    · have : i ≠ j := fun e => h (by rw [e])
      simp [gainPhi, Matrix.one_apply_ne this]
  · rintro (i | i)
    · fin_cases i <;> simp [gainPhi, gainPhiE]
    · simp [gainPhi]

/-- amplitudes in the orders 0 and -1 of the polarisation that sees the grating -/
def gainVec (x y : ℂ) : Fin 3 ⊕ Fin 3 → ℂ := Sum.elim ![x, y, 0] 0

lemma gain_phase0 : Complex.exp (Complex.I * (3 * gainU) * ((7 / 2 : ℝ) : ℂ)) = -1 := by
  rw [gainU, show Complex.I * (3 * (2 * Real.pi / 7)) * ((7 / 2 : ℝ) : ℂ) = Real.pi * Complex.I + 2 * Real.pi * Complex.I by push_cast; ring, Complex.exp_add,
    Complex.exp_pi_mul_I, Complex.exp_two_pi_mul_I, mul_one]

lemma gain_phase1 : Complex.exp (Complex.I * (4 * gainU) * ((7 / 2 : ℝ) : ℂ)) = 1 := by
  rw [gainU, show Complex.I * (4 * (2 * Real.pi / 7)) * ((7 / 2 : ℝ) : ℂ) = 2 * Real.pi * Complex.I + 2 * Real.pi * Complex.I by push_cast; ring, Complex.exp_add,
    Complex.exp_two_pi_mul_I, mul_one]

lemma gainFront_through (a : Fin 3 ⊕ Fin 3 → ℂ) : gainFront.through a = a := by
  funext m
  have : gainFront.d = 0 := rfl
  simp [LayerData.through, this]

lemma gainSlab_through (x y : ℂ) : gainSlab.through (gainVec x y) = gainVec (-x) y := by
  funext m
  have hd : gainSlab.d = 7 / 2 := rfl
  simp only [LayerData.through, gainSlab_q, hd]
  rcases m with i | i
  · rw [(gainFront_q i).1]
    fin_cases i
    · have := gain_phase0
      simp [gainVec, gainQ0] at this ⊢
      rw [this]; ring
    · have := gain_phase1
      simp [gainVec, gainQ1] at this ⊢
      rw [this]; ring
    · simp [gainVec]
  · simp [gainVec]

lemma gainVec_div (x y : ℂ) : (fun m => gainVec x y m / gainFront.q m) = gainVec (x / (3 * gainU)) (y / (4 * gainU)) := by
  funext m
  rcases m with i | i
  · rw [(gainFront_q i).1]
    fin_cases i
    · simp [gainVec, gainQ0]
    · simp [gainVec, gainQ1]
    · simp [gainVec]
  · simp [gainVec]

lemma gainVec_add (x y x' y' : ℂ) : gainVec x y + gainVec x' y' = gainVec (x + x') (y + y') := by
  funext m
  rcases m with i | i
  · fin_cases i <;> simp [gainVec]
  · simp [gainVec]

lemma gainVec_sub (x y x' y' : ℂ) (m : Fin 3 ⊕ Fin 3) : gainVec x y m - gainVec x' y' m = gainVec (x - x') (y - y') m := by
  rcases m with i | i
  · fin_cases i <;> simp [gainVec]
  · simp [gainVec]

lemma gainPhi_mulVec (x y : ℂ) : gainPhi *ᵥ gainVec x y = gainVec x (y - 25 / 28 * gainC * x) := by
  rw [gainPhi, gainVec, fromBlocks_mulVec]
  funext m
  rcases m with i | i
  · fin_cases i
    · simp [gainPhiE, gainVec]
    · simp [gainPhiE, gainVec]; ring
    · simp [gainPhiE, gainVec]
  · simp [gainVec]

lemma gainFront_h (x y x' y' : ℂ) : gainFront.hTan (gainVec x y) (gainVec x' y') = gainVec (x + x') (y + y') := by
  rw [LayerData.hTan, gainVec_add, show gainFront.phi = 1 from rfl, one_mulVec]

lemma gainFront_e (x y x' y' : ℂ) : gainFront.eTan (gainVec x y) (gainVec x' y') =
    gainFront.kp *ᵥ gainVec ((x - x') / (3 * gainU)) ((y - y') / (4 * gainU)) := by
  rw [LayerData.eTan, show gainFront.phi = 1 from rfl, one_mulVec, ← gainVec_div]
  simp only [gainVec_sub]

lemma gainSlab_h (x y x' y' : ℂ) : gainSlab.hTan (gainVec x y) (gainVec x' y') = gainVec (x + x') (y + y' - 25 / 28 * gainC * (x + x')) := by
  rw [LayerData.hTan, gainVec_add, show gainSlab.phi = gainPhi from rfl, gainPhi_mulVec]

lemma gainSlab_e (x y x' y' : ℂ) : gainSlab.eTan (gainVec x y) (gainVec x' y') =
    gainFront.kp *ᵥ gainVec ((x - x') / (3 * gainU)) ((y - y') / (4 * gainU) - 25 / 28 * gainC * ((x - x') / (3 * gainU))) := by
  rw [LayerData.eTan, show gainSlab.phi = gainPhi from rfl, gainSlab_kp, ← gainPhi_mulVec, ← gainVec_div, gainSlab_q]
  simp only [gainVec_sub]

/-- the solution for an incident wave of unit power -/
lemma gain_sol : StackSol [gainFront, gainSlab, gainFront] (gainVec (-3 / 5) 0) (gainVec 0 (-(5 / 28) * gainC)) (gainVec (3 / 5) (-(5 / 4) * gainC)) 0 := by
  have hU := gainU_ne
  refine ⟨gainVec (-3 / 5) (-(5 / 8) * gainC), gainVec 0 (-(5 / 56) * gainC), ⟨?_, ?_⟩, gainVec (3 / 5) (-(5 / 4) * gainC), gainVec 0 0, ⟨?_, ?_⟩, rfl, ?_⟩
  · rw [gainFront_through, gainSlab_through, gainFront_h, gainSlab_h]
    congr 1 <;> ring
  · rw [gainFront_through, gainSlab_through, gainFront_e, gainSlab_e]
    congr 2 <;> field_simp <;> ring
  · rw [gainFront_through, gainSlab_through, gainFront_h, gainSlab_h]
    congr 1 <;> ring
  · rw [gainFront_through, gainSlab_through, gainFront_e, gainSlab_e]
    congr 2
    · field_simp
    · field_simp; ring
  · funext m
    rcases m with i | i
    · fin_cases i <;> simp [gainVec]
    · simp [gainVec]

lemma gain_wave : planewave gainTheta 0 1 0 (0 : Fin 3) = gainVec (-3 / 5) 0 := by
  funext m
  rcases m with i | i
  · fin_cases i
    · simp [planewave, gainVec, gain_cos]; norm_num
    · simp [planewave, gainVec]
    · simp [planewave, gainVec]
  · fin_cases i <;> simp [planewave, gainVec]

lemma gain_power (x y : ℂ) : oneWay gainOmega gainFront (gainVec x y) = 5 / 6 * Complex.normSq x + 5 / 8 * Complex.normSq y := by
  have hU := gainU_ne
  rw [gainFront, oneWay_uniform _ _ _ _ gain_kx_real gain_ky_real, Fin.sum_univ_three, four_cast, gainQ0, gainQ1, gainOmega_eq]
  have e0 : (5 / 2 * gainU)⁻¹ * (3 * gainU)⁻¹ * (5 / 2 * gainU) ^ 2 = ((5 / 6 : ℝ) : ℂ) := by push_cast; field_simp; norm_num
  have e1 : (5 / 2 * gainU)⁻¹ * (4 * gainU)⁻¹ * (5 / 2 * gainU) ^ 2 = ((5 / 8 : ℝ) : ℂ) := by push_cast; field_simp; norm_num
  simp only [gainVec, Sum.elim_inl, Sum.elim_inr, gainKy_eq, Pi.zero_apply, mul_zero, zero_mul, sub_zero, map_zero, Complex.ofReal_zero, add_zero, ← mul_assoc, e0, e1]
  simp

/-- the reflected and transmitted power of the lossless grating -/
lemma gain_run : rtForward gainOmega (rtNormalization 4 gainTheta) [gainFront, gainSlab, gainFront] (planewave gainTheta 0 1 0 (0 : Fin 3)) 0 =
    .ok (625 / 4704, 721 / 96) := by
  obtain ⟨x, hx⟩ := slab_ok (r := gainRank) (L0 := gainFront) (L1 := gainSlab) (L2 := gainFront) rfl rfl gainSlab_q rfl gainSlab_kp rfl
    gainFront_regular.kp gainFront_ne gainPhi_tri (gainVec (-3 / 5) 0) 0
  have hq : ∀ M ∈ [gainFront, gainSlab, gainFront], ∀ m, M.q m ≠ 0 := by
    intro M hM m
    simp only [List.mem_cons, List.not_mem_nil, or_false] at hM
    rcases hM with rfl | rfl | rfl
    · exact gainFront_ne m
    · rw [gainSlab_q]; exact gainFront_ne m
    · exact gainFront_ne m
  have hrun : ∃ p, rtForward gainOmega (rtNormalization 4 gainTheta) [gainFront, gainSlab, gainFront] (gainVec (-3 / 5) 0) 0 = .ok p := by
    unfold rtForward
    rw [hx, ok_bind]
    exact ⟨_, rfl⟩
  obtain ⟨⟨R, T⟩, h⟩ := hrun
  have hr : RealOrder gainOmega ((4 : ℝ) : ℂ) gainKx gainKy 0 :=
    realOrder_oblique gainOmega_pos (by rw [gain_cos]; norm_num) (by norm_num) 0 (kxOf_order gainOmega gainTheta 0 4 (1, 0) (0, 10) (by rfl)).1
      (kxOf_order gainOmega gainTheta 0 4 (1, 0) (0, 10) (by rfl)).2
  obtain ⟨aN, b0, hsol, hR, hT⟩ := rt_values (mids := [gainSlab]) hr (gain_wave ▸ planewave_inOrder gainTheta 0 1 0 0) hq h
  have h1 := (C16_exterior _ hq _ _ _ _ x hx).1 hsol
  have h2 := (C16_exterior _ hq _ _ _ _ x hx).1 gain_sol
  rw [h1.1, ← h2.1] at hT
  rw [h1.2, ← h2.2] at hR
  change R = oneWay gainOmega gainFront _ * _ at hR
  change T = oneWay gainOmega gainFront _ * _ at hT
  have hc : Complex.normSq gainC = 2 := by rw [gainC, Complex.normSq_apply]; norm_num
  have hn : rtNormalization 4 gainTheta = 10 / 3 := by rw [rtNormalization, gain_sqrt, gain_cos]; norm_num
  have e1 : Complex.normSq (-(5 / 28)) = 25 / 784 := by rw [Complex.normSq_neg, map_div₀]; norm_num [Complex.normSq_ofNat]
  have e2 : Complex.normSq (-(5 / 4)) = 25 / 16 := by rw [Complex.normSq_neg, map_div₀]; norm_num [Complex.normSq_ofNat]
  have e3 : Complex.normSq (3 / 5) = 9 / 25 := by rw [map_div₀]; norm_num [Complex.normSq_ofNat]
  rw [gain_power, map_mul, hc, hn, e1, map_zero] at hR
  rw [gain_power, map_mul, hc, hn, e2, e3] at hT
  rw [gain_wave, h, hR, hT]
  norm_num

/-- C19 and C20 are false of patterned layers. A lossless grating of four pixels per period (first pattern 2, 6, 6, 2, the other two
constant 4; see C110 for which direction each acts on) in a lossless medium of permittivity 4, lit at an angle of sine 4/5 in the three orders 0, -1 and 1, reflects and transmits more
than seven times the incident power. Of the two conjugate Fourier coefficients `-1 + i` and `-1 - i` of index 1 and -1, `epsilonFft` keeps the first
and drops the second, whose real and imaginary part are both below 1e-14, so the matrix of the lossless pattern is no longer Hermitian. The numbers are those of the solver,
for eigenvectors that solve its eigenvalue problem. -/
theorem C19_patterned_false : ∃ (epinv : Matrix (Fin 3) (Fin 3) ℂ) (ep2 : Matrix (Fin 3 ⊕ Fin 3) (Fin 3 ⊕ Fin 3) ℂ) (lam : Fin 3 ⊕ Fin 3 → ℂ)
    (phi : Matrix (Fin 3 ⊕ Fin 3) (Fin 3 ⊕ Fin 3) ℂ) (R T : ℝ),
    (∀ i j, (gainPattern i j).im = 0 ∧ 0 < (gainPattern i j).re ∧ gainFour i j = 4) ∧
    epsilonFft (1 / (4 : ℕ) / (1 : ℕ)) (.aniso gainPattern gainFour gainFour) gainOrders = .ok (epinv, ep2) ∧
    IsEig (eigenMat ep2 (kpPatterned gainOmega epinv gainKx gainKy) gainKx gainKy) lam phi ∧ IsUnit phi.det ∧
    rtForward gainOmega (rtNormalization 4 gainTheta) [uniformLayer gainOmega gainKx gainKy (4 : ℝ) 0,
      patternedLayer gainOmega gainKx gainKy epinv lam phi (7 / 2), uniformLayer gainOmega gainKx gainKy (4 : ℝ) 0]
      (planewave gainTheta 0 1 0 (0 : Fin 3)) 0 = .ok (R, T) ∧ 7 < R + T := by
  refine ⟨_, _, gainLam, gainPhi, 625 / 4704, 721 / 96, fun i j => ?_, gain_fft, gain_eig, ?_, gain_run, by norm_num⟩
  · refine ⟨?_, ?_, rfl⟩ <;> rw [gainPattern] <;> split <;> simp
  · exact tri_unit gainPhi_tri.1 fun i => by rw [gainPhi_tri.2]; exact one_ne_zero

end

end Nidn
