/-
C191: a pattern that the orders cannot see acts as a uniform layer of its mean permittivity.
-/
import Verif.Props.Invariance
import Verif.Props.Conv

namespace Nidn

open Matrix

/-- Spec: the mean permittivity of a pattern. -/
noncomputable def patternMean {Nx Ny : ℕ} (s : Fin Nx → Fin Ny → ℂ) : ℂ := (∑ m, ∑ k, s m k) / (Nx * Ny)

/-- Spec: the structure in which every pattern is replaced by its mean permittivity. -/
noncomputable def Slab.averaged {Nx Ny : ℕ} : Slab Nx Ny → Slab Nx Ny
  | .uniform ε d => .uniform ε d
  | .patterned s d => .uniform (patternMean s) d

/-- Spec: the pattern has no Fourier component between any two of the orders. -/
def Unseen {Nx Ny n : ℕ} (G : Fin n → ℤ × ℤ) (s : Fin Nx → Fin Ny → ℂ) : Prop :=
  ∀ i j, i ≠ j → ∑ m : Fin Nx, ∑ k : Fin Ny, s m k * Complex.exp (-(2 * Real.pi * Complex.I) * ((m : ℕ) * (G i - G j).1 / Nx + (k : ℕ) * (G i - G j).2 / Ny)) = 0

/-- Spec: the mean permittivity is above the threshold of the filter (C15). -/
def MeanKept {Nx Ny : ℕ} (s : Fin Nx → Fin Ny → ℂ) : Prop := 1e-14 ≤ (patternMean s).re ∨ 1e-14 ≤ (patternMean s).im

lemma MeanKept.ne_zero {Nx Ny : ℕ} {s : Fin Nx → Fin Ny → ℂ} (h : MeanKept s) : patternMean s ≠ 0 := by
  intro h0
  rw [MeanKept, h0] at h
  norm_num at h

/-- the matrices of a pattern that the orders cannot see -/
lemma unseen_fft {Nx Ny n : ℕ} {G : Fin n → ℤ × ℤ} (hr : Resolved Nx Ny G) {s : Fin Nx → Fin Ny → ℂ} (hs : Unseen G s) (hm : MeanKept s) :
    epsilonFft (1 / Nx / Ny) (.iso s) G = .ok ((1 / patternMean s) • 1, patternMean s • 1) := by
  obtain ⟨C, h1, h2⟩ := (C15_entries s G).1 hr
  have hC : C = patternMean s • 1 := by
    ext i j
    rw [h2, fourierCoeff, Matrix.smul_apply, Matrix.one_apply]
    by_cases hij : i = j
    · subst hij
      simp [patternMean]
      ring
    · rw [hs i j hij, if_neg hij, mul_zero, smul_zero]
  have hne := hm.ne_zero
  have hmul : C * ((1 / patternMean s) • 1) = 1 := by
    rw [hC, Matrix.smul_mul, Matrix.mul_smul, Matrix.one_mul, smul_smul, mul_one_div, div_self hne, one_smul]
  have hu : IsUnit C.det := (Matrix.isUnit_iff_isUnit_det C).1 (IsUnit.of_mul_eq_one _ hmul)
  have hinv : C⁻¹ = (1 / patternMean s) • 1 := Matrix.inv_eq_right_inv hmul
  have hz : zeroSmall (patternMean s) = patternMean s := by
    unfold zeroSmall
    rw [if_neg]
    rintro ⟨a, b⟩
    rcases hm with h | h <;> linarith
  simp only [epsilonFft]
  rw [h1, ok_bind, torchInverse, if_pos hu, ok_bind, hinv, hC]
  show Except.ok _ = _
  congr 2
  ext (i | i) (j | j)
  · by_cases hij : i = j
    · subst hij; simp [hz]
    · simp [hij, zeroSmall]
  · simp [zeroSmall]
  · simp [zeroSmall]
  · by_cases hij : i = j
    · subst hij; simp [hz]
    · simp [hij, zeroSmall]

/-- the uniform layer is one of the layers the solver may hold for such a pattern -/
lemma unseen_built {Nx Ny n : ℕ} (ω : ℂ) (kx ky : Fin n → ℂ) {G : Fin n → ℤ × ℤ} (hr : Resolved Nx Ny G) {s : Fin Nx → Fin Ny → ℂ} (hs : Unseen G s) (hm : MeanKept s) (d : ℝ) :
    Built ω kx ky G (.patterned s d) (uniformLayer ω kx ky (patternMean s) d) := by
  have h := Built.patterned (ω := ω) (kx := kx) (ky := ky) s d _ _ (unseen_fft hr hs hm) _ _ (uniform_isEig kx ky hm.ne_zero d) (by simp [uniformLayer])
  have e : patternedLayer ω kx ky ((1 / patternMean s) • 1) (Sum.elim (fun i => patternMean s * ω ^ 2 - kx i ^ 2 - ky i ^ 2) (fun i => patternMean s * ω ^ 2 - kx i ^ 2 - ky i ^ 2))
      (uniformLayer ω kx ky (patternMean s) d).phi d = uniformLayer ω kx ky (patternMean s) d := by
    have hk : (uniformLayer ω kx ky (patternMean s) d).kp = kpPatterned ω ((1 / patternMean s) • 1) kx ky := kpUniform_eq _ _ _ _
    have hq : (fun m => branchQ (csqrt (Sum.elim (fun i => patternMean s * ω ^ 2 - kx i ^ 2 - ky i ^ 2) (fun i => patternMean s * ω ^ 2 - kx i ^ 2 - ky i ^ 2) m))) = qUniform ω (patternMean s) kx ky := by
      funext m
      rcases m with m | m <;> rfl
    unfold patternedLayer
    rw [hq, ← hk]
    rfl
  rwa [e] at h

/-- C191: if no pattern of the structure has a Fourier component between two of the orders, the solver answers for the structure exactly what it answers for the one with every pattern replaced by its mean permittivity, for
every frequency, angle, polarisation and every choice of eigenvectors. -/
theorem C191_unseen {Nx Ny n : ℕ} (ω : ℂ) (kx ky : Fin n → ℂ) (G : Fin n → ℤ × ℤ) (hr : Resolved Nx Ny G) (slabs : List (Slab Nx Ny)) (hs : ∀ s d, Slab.patterned s d ∈ slabs → Unseen G s ∧ MeanKept s)
    (m m' : List (LayerData (Fin n ⊕ Fin n))) (hm : List.Forall₂ (Built ω kx ky G) slabs m) (hm' : List.Forall₂ (Built ω kx ky G) (slabs.map Slab.averaged) m')
    (ε0 εN : ℂ) (h0 : ε0 ≠ 0) (hN : εN ≠ 0) (d0 dN : ℝ) (hreg : ∀ M ∈ uniformLayer ω kx ky ε0 d0 :: m' ++ [uniformLayer ω kx ky εN dN], M.Regular) (norm : ℝ) (a0 bN : Fin n ⊕ Fin n → ℂ) (r : ℝ × ℝ) :
    rtForward ω norm (uniformLayer ω kx ky ε0 d0 :: m ++ [uniformLayer ω kx ky εN dN]) a0 bN = .ok r ↔
      rtForward ω norm (uniformLayer ω kx ky ε0 d0 :: m' ++ [uniformLayer ω kx ky εN dN]) a0 bN = .ok r := by
  have key : List.Forall₂ (Built ω kx ky G) slabs m' := by
    clear hm hreg
    induction slabs generalizing m' with
    | nil => cases hm'; exact .nil
    | cons s rest ih =>
      rw [List.map_cons] at hm'
      cases hm' with
      | cons hh ht =>
        refine .cons ?_ (ih (fun s d h => hs s d (List.mem_cons_of_mem _ h)) _ ht)
        cases s with
        | uniform ε d => exact hh
        | patterned s d =>
          obtain ⟨h1, h2⟩ := hs s d List.mem_cons_self
          cases hh
          exact unseen_built ω kx ky hr h1 h2 d
  exact C114_eigenvectors ω kx ky G slabs m' m key hm ε0 εN h0 hN d0 dN hreg norm a0 bN r

/-- C191, a single order: the solver sees nothing of any pattern but its mean. -/
theorem C191_one_order {Nx Ny : ℕ} (hx : 0 < Nx) (hy : 0 < Ny) (ω : ℂ) (kx ky : Fin 1 → ℂ) (G : Fin 1 → ℤ × ℤ) (slabs : List (Slab Nx Ny)) (hs : ∀ s d, Slab.patterned s d ∈ slabs → MeanKept s)
    (m m' : List (LayerData (Fin 1 ⊕ Fin 1))) (hm : List.Forall₂ (Built ω kx ky G) slabs m) (hm' : List.Forall₂ (Built ω kx ky G) (slabs.map Slab.averaged) m')
    (ε0 εN : ℂ) (h0 : ε0 ≠ 0) (hN : εN ≠ 0) (d0 dN : ℝ) (hreg : ∀ M ∈ uniformLayer ω kx ky ε0 d0 :: m' ++ [uniformLayer ω kx ky εN dN], M.Regular) (norm : ℝ) (a0 bN : Fin 1 ⊕ Fin 1 → ℂ) (r : ℝ × ℝ) :
    rtForward ω norm (uniformLayer ω kx ky ε0 d0 :: m ++ [uniformLayer ω kx ky εN dN]) a0 bN = .ok r ↔
      rtForward ω norm (uniformLayer ω kx ky ε0 d0 :: m' ++ [uniformLayer ω kx ky εN dN]) a0 bN = .ok r := by
  refine C191_unseen ω kx ky G (fun i j => ?_) slabs (fun s d h => ⟨fun i j hij => absurd (Subsingleton.elim i j) hij, hs s d h⟩) m m' hm hm' ε0 εN h0 hN d0 dN hreg norm a0 bN r
  rw [Subsingleton.elim i j]
  simp [hx, hy]

/-- C191, a pattern of one permittivity: it is the uniform layer of that permittivity. -/
theorem C191_constant {Nx Ny n : ℕ} (hx : 0 < Nx) (hy : 0 < Ny) (G : Fin n → ℤ × ℤ) (hG : Function.Injective G) (hr : Resolved Nx Ny G) (ε : ℂ) :
    Unseen G (fun (_ : Fin Nx) (_ : Fin Ny) => ε) ∧ patternMean (fun (_ : Fin Nx) (_ : Fin Ny) => ε) = ε := by
  have hx' : (Nx : ℂ) ≠ 0 := by exact_mod_cast hx.ne'
  have hy' : (Ny : ℂ) ≠ 0 := by exact_mod_cast hy.ne'
  constructor
  · intro i j hij
    have h := fourierCoeff_const (Nx := Nx) (Ny := Ny) ε (G i - G j) (hr i j).1 (hr i j).2
    rw [if_neg (fun h => hij (hG (sub_eq_zero.1 h)))] at h
    unfold fourierCoeff at h
    exact (mul_eq_zero.1 h).resolve_left (one_div_ne_zero (mul_ne_zero hx' hy'))
  · simp [patternMean]
    field_simp

/-- stripes of 1 and 3 that are one pixel wide, two periods in the cell -/
def stripes (m : Fin 4) (_ : Fin 1) : ℂ := ![1, 3, 1, 3] m

lemma stripes_mean : patternMean stripes = 2 := by
  simp [patternMean, stripes, Fin.sum_univ_four]
  norm_num

lemma stripes_unseen : Unseen twoOrders stripes := by
  have hneg : ∀ m : ℕ, Complex.exp (-(2 * Real.pi * Complex.I) * (m * 1 / 4)) = (-Complex.I) ^ m := by
    intro m
    rw [← Complex.exp_neg_pi_div_two_mul_I, ← Complex.exp_nat_mul]
    congr 1; ring
  have hpos : ∀ m : ℕ, Complex.exp (-(2 * Real.pi * Complex.I) * (m * (-1) / 4)) = Complex.I ^ m := by
    intro m
    conv_rhs => rw [← Complex.exp_pi_div_two_mul_I, ← Complex.exp_nat_mul]
    congr 1; ring
  have key : ∀ w : ℂ, w ^ 2 = -1 → ∑ m : Fin 4, ∑ k : Fin 1, stripes m k * w ^ (m : ℕ) = 0 := by
    intro w hw
    have h3 : w ^ 3 = -w := by rw [pow_succ, hw]; ring
    simp [stripes, Fin.sum_univ_four, hw, h3]
  intro i j hij
  have hcases : (i = 0 ∧ j = 1) ∨ (i = 1 ∧ j = 0) := by
    fin_cases i <;> fin_cases j <;> simp at hij ⊢
  rcases hcases with ⟨rfl, rfl⟩ | ⟨rfl, rfl⟩
  · rw [← key Complex.I (by simp)]
    refine Finset.sum_congr rfl fun m _ => Finset.sum_congr rfl fun k _ => ?_
    rw [← hpos]
    simp [twoOrders]
  · rw [← key (-Complex.I) (by simp)]
    refine Finset.sum_congr rfl fun m _ => Finset.sum_congr rfl fun k _ => ?_
    rw [← hneg]
    simp [twoOrders]

/-- The hypotheses of `C191_unseen` for these stripes in vacuum at normal incidence, with the orders 0 and 1 of a cell of the length of a quarter wave: the solver sees a layer of permittivity 2. -/
example : Resolved 4 1 twoOrders ∧ Unseen twoOrders stripes ∧ MeanKept stripes ∧ patternMean stripes = 2 ∧
    Built 1 ![0, 4] 0 twoOrders (.patterned stripes 1) (uniformLayer 1 ![0, 4] 0 2 1) ∧ (uniformLayer 1 ![0, 4] (0 : Fin 2 → ℂ) 2 1).Regular ∧ (uniformLayer 1 ![0, 4] (0 : Fin 2 → ℂ) 1 0).Regular := by
  have hk : MeanKept stripes := by rw [MeanKept, stripes_mean]; left; norm_num
  have hb := unseen_built (1 : ℂ) ![0, 4] 0 (resolved_twoOrders 4 (by norm_num)) stripes_unseen hk 1
  rw [stripes_mean] at hb
  refine ⟨resolved_twoOrders 4 (by norm_num), stripes_unseen, hk, stripes_mean, hb, ?_, ?_⟩
  · refine uniform_regular one_ne_zero (fun i => by fin_cases i <;> simp) (by simp) (by norm_num) 1 fun i h => ?_
    have := qOrd_sq 1 2 (![0, 4] : Fin 2 → ℂ) 0 i
    rw [h] at this
    fin_cases i <;> norm_num at this
  · refine uniform_regular one_ne_zero (fun i => by fin_cases i <;> simp) (by simp) (by norm_num) 0 fun i h => ?_
    have := qOrd_sq 1 1 (![0, 4] : Fin 2 → ℂ) 0 i
    rw [h] at this
    fin_cases i <;> norm_num at this

end Nidn
