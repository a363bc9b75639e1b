/-
C195: a smooth design gives the same answers on every grid that is fine enough for it.
-/
import Verif.Props.Homogenise

namespace Nidn

/-- Spec: a permittivity with finitely many Fourier components, at the point `(x, y)` of the unit cell. -/
noncomputable def smoothDesign (S : Finset (ℤ × ℤ)) (c : ℤ × ℤ → ℂ) (x y : ℝ) : ℂ := ∑ d ∈ S, c d * Complex.exp (2 * Real.pi * Complex.I * (d.1 * x + d.2 * y))

/-- Spec: its samples on a grid. -/
noncomputable def sampledDesign (Nx Ny : ℕ) (S : Finset (ℤ × ℤ)) (c : ℤ × ℤ → ℂ) (m : Fin Nx) (k : Fin Ny) : ℂ := smoothDesign S c ((m : ℕ) / Nx) ((k : ℕ) / Ny)

/-- Spec: the grid resolves the differences of the orders, and also how far the components of the design are from these. -/
def FineFor {n : ℕ} (Nx Ny : ℕ) (G : Fin n → ℤ × ℤ) (S : Finset (ℤ × ℤ)) : Prop :=
  Resolved Nx Ny G ∧ ∀ d ∈ S, ∀ i j, |(G i - G j).1 - d.1| < Nx ∧ |(G i - G j).2 - d.2| < Ny

/-- Spec: a structure whose layers are uniform or smooth designs, and its samples on a grid. -/
inductive DesignSlab
  | uniform (ε : ℂ) (d : ℝ)
  | design (S : Finset (ℤ × ℤ)) (c : ℤ × ℤ → ℂ) (d : ℝ)

/-- Spec: the structure the solver is given when the designs are sampled on a grid. -/
noncomputable def DesignSlab.on (Nx Ny : ℕ) : DesignSlab → Slab Nx Ny
  | .uniform ε d => .uniform ε d
  | .design S c d => .patterned (sampledDesign Nx Ny S c) d

/-- C195: the solver's Fourier coefficients of the samples are the components of the design. -/
theorem C195_coefficients (Nx Ny : ℕ) (S : Finset (ℤ × ℤ)) (c : ℤ × ℤ → ℂ) (δ : ℤ × ℤ) (h : ∀ d ∈ S, |δ.1 - d.1| < Nx ∧ |δ.2 - d.2| < Ny) :
    fourierCoeff (sampledDesign Nx Ny S c) δ = if δ ∈ S then c δ else 0 := by
  have h1 : fourierCoeff (sampledDesign Nx Ny S c) δ = ∑ d ∈ S, fourierCoeff (fun (_ : Fin Nx) (_ : Fin Ny) => c d) (δ - d) := by
    unfold fourierCoeff sampledDesign smoothDesign
    rw [← Finset.mul_sum S]
    congr 1
    symm
    rw [Finset.sum_comm]
    refine Finset.sum_congr rfl fun m _ => ?_
    rw [Finset.sum_comm]
    refine Finset.sum_congr rfl fun k _ => ?_
    rw [Finset.sum_mul]
    refine Finset.sum_congr rfl fun d _ => ?_
    rw [mul_assoc (c d), ← Complex.exp_add]
    congr 2
    push_cast [Prod.fst_sub, Prod.snd_sub]
    ring
  rw [h1, Finset.sum_congr rfl fun d hd => fourierCoeff_const (c d) (δ - d) (h d hd).1 (h d hd).2]
  simp only [sub_eq_zero]
  rw [Finset.sum_ite_eq]

lemma sampled_conv {Nx Ny n : ℕ} (G : Fin n → ℤ × ℤ) (S : Finset (ℤ × ℤ)) (c : ℤ × ℤ → ℂ) (h : FineFor Nx Ny G S) :
    getConv (1 / Nx / Ny) (sampledDesign Nx Ny S c) G = .ok (Matrix.of fun i j => if G i - G j ∈ S then c (G i - G j) else 0) := by
  obtain ⟨C, h1, h2⟩ := (C15_entries (sampledDesign Nx Ny S c) G).1 h.1
  rw [h1]
  congr 1
  ext i j
  rw [h2, C195_coefficients Nx Ny S c _ fun d hd => h.2 d hd i j, Matrix.of_apply]

/-- C195: the matrices for the solver do not depend on the grid. -/
theorem C195_matrices {Nx Ny Nx' Ny' n : ℕ} (G : Fin n → ℤ × ℤ) (S : Finset (ℤ × ℤ)) (c : ℤ × ℤ → ℂ) (h : FineFor Nx Ny G S) (h' : FineFor Nx' Ny' G S) :
    epsilonFft (1 / Nx / Ny) (.iso (sampledDesign Nx Ny S c)) G = epsilonFft (1 / Nx' / Ny') (.iso (sampledDesign Nx' Ny' S c)) G := by
  simp only [epsilonFft, sampled_conv G S c h, sampled_conv G S c h']

/-- C195: neither do reflectance and transmittance, for every frequency, angle, polarisation and choice of eigenvectors. -/
theorem C195_solver {Nx Ny Nx' Ny' n : ℕ} (ω : ℂ) (kx ky : Fin n → ℂ) (G : Fin n → ℤ × ℤ) (slabs : List DesignSlab)
    (hf : ∀ S c d, DesignSlab.design S c d ∈ slabs → FineFor Nx Ny G S ∧ FineFor Nx' Ny' G S) (m m' : List (LayerData (Fin n ⊕ Fin n)))
    (hm : List.Forall₂ (Built ω kx ky G) (slabs.map (DesignSlab.on Nx Ny)) m) (hm' : List.Forall₂ (Built ω kx ky G) (slabs.map (DesignSlab.on Nx' Ny')) m')
    (ε0 εN : ℂ) (h0 : ε0 ≠ 0) (hN : εN ≠ 0) (d0 dN : ℝ) (hreg : ∀ M ∈ uniformLayer ω kx ky ε0 d0 :: m' ++ [uniformLayer ω kx ky εN dN], M.Regular) (norm : ℝ) (a0 bN : Fin n ⊕ Fin n → ℂ) (r : ℝ × ℝ) :
    rtForward ω norm (uniformLayer ω kx ky ε0 d0 :: m ++ [uniformLayer ω kx ky εN dN]) a0 bN = .ok r ↔
      rtForward ω norm (uniformLayer ω kx ky ε0 d0 :: m' ++ [uniformLayer ω kx ky εN dN]) a0 bN = .ok r := by
  have key : List.Forall₂ (Built ω kx ky G) (slabs.map (DesignSlab.on Nx Ny)) m' := by
    clear hm hreg
    induction slabs generalizing m' with
    | nil => cases hm'; exact .nil
    | cons s rest ih =>
      rw [List.map_cons] at hm' ⊢
      cases hm' with
      | cons hh ht =>
        refine .cons ?_ (ih (fun S c d h => hf S c d (List.mem_cons_of_mem _ h)) _ ht)
        cases s with
        | uniform ε d =>
          simp only [DesignSlab.on] at hh ⊢
          cases hh with
          | uniform _ _ hε => exact .uniform ε d hε
        | design S c d =>
          obtain ⟨f, f'⟩ := hf S c d List.mem_cons_self
          simp only [DesignSlab.on] at hh ⊢
          cases hh with
          | patterned _ _ epinv ep2 he lam phi hE hphi => exact .patterned _ d epinv ep2 ((C195_matrices G S c f f').trans he) lam phi hE hphi
  exact C114_eigenvectors ω kx ky G _ m' m key hm ε0 εN h0 hN d0 dN hreg norm a0 bN r

/-- the orders -1, 0, 1 -/
def nearOrders (i : Fin 3) : ℤ × ℤ := ((i : ℤ) - 1, 0)

/-- the design 2 + cos(2 pi x) -/
noncomputable def cosDesign (d : ℤ × ℤ) : ℂ := if d = (0, 0) then 2 else 1 / 2

/-- C195: resolving the differences of the orders, which is all that `get_conv` asks for, is not enough: on three samples it accepts the orders -1, 0, 1, but shows the solver a link between the orders -1 and 1
that the design 2 + cos(2 pi x) does not have; four samples are enough to remove it. -/
theorem C195_coarse_false : ∃ C C', getConv (1 / (3 : ℕ) / (1 : ℕ)) (sampledDesign 3 1 {(0, 0), (1, 0), (-1, 0)} cosDesign) nearOrders = .ok C ∧ C 2 0 = 1 / 2 ∧
    getConv (1 / (4 : ℕ) / (1 : ℕ)) (sampledDesign 4 1 {(0, 0), (1, 0), (-1, 0)} cosDesign) nearOrders = .ok C' ∧ C' 2 0 = 0 := by
  have hr : Resolved 3 1 nearOrders := by unfold Resolved nearOrders; decide
  have hf : FineFor 4 1 nearOrders {(0, 0), (1, 0), (-1, 0)} := by unfold FineFor Resolved nearOrders; decide
  obtain ⟨C, h1, h2⟩ := (C15_entries (sampledDesign 3 1 {(0, 0), (1, 0), (-1, 0)} cosDesign) nearOrders).1 hr
  refine ⟨C, _, h1, ?_, sampled_conv _ _ _ hf, ?_⟩
  · have ha : fourierCoeff (sampledDesign 3 1 {(0, 0), (1, 0), (-1, 0)} cosDesign) (2, 0) = fourierCoeff (sampledDesign 3 1 {(0, 0), (1, 0), (-1, 0)} cosDesign) (-1, 0) := by
      unfold fourierCoeff
      congr 1
      refine Finset.sum_congr rfl fun m _ => Finset.sum_congr rfl fun k _ => ?_
      congr 1
      rw [Complex.exp_eq_exp_iff_exists_int]
      exact ⟨-(m : ℕ), by push_cast; field_simp; ring⟩
    rw [h2, show nearOrders 2 - nearOrders 0 = (2, 0) by decide, ha, C195_coefficients _ _ _ _ _ (by decide)]
    simp [cosDesign]
  · rw [Matrix.of_apply, if_neg (by decide)]

/-- the grids of 4 and of 7 samples are both fine enough for this design, which is a proper pattern -/
example : FineFor 4 1 nearOrders {(0, 0), (1, 0), (-1, 0)} ∧ FineFor 7 1 nearOrders {(0, 0), (1, 0), (-1, 0)} ∧
    smoothDesign {(0, 0), (1, 0), (-1, 0)} cosDesign 0 0 = 3 := by
  refine ⟨by unfold FineFor Resolved nearOrders; decide, by unfold FineFor Resolved nearOrders; decide, ?_⟩
  simp [smoothDesign, cosDesign]
  norm_num

lemma fast_fine (N : ℕ) (hN : 4 ≤ N) : FineFor N 1 twoOrders {(0, 0), (2, 0), (-2, 0)} := by
  refine ⟨resolved_twoOrders N (by omega), fun d hd i j => ?_⟩
  simp only [Finset.mem_insert, Finset.mem_singleton] at hd
  have h4 : (4 : ℤ) ≤ N := by exact_mod_cast hN
  rcases hd with rfl | rfl | rfl <;> fin_cases i <;> fin_cases j <;> simp [twoOrders] <;> omega

/-- the design 2 + cos(4 pi x) with the orders 0 and 1: on every grid of at least four samples it is fine, and the solver may hold a uniform layer for it, so the hypotheses of `C195_solver` are met by any two of these grids -/
example (N : ℕ) (hN : 4 ≤ N) : FineFor N 1 twoOrders {(0, 0), (2, 0), (-2, 0)} ∧
    List.Forall₂ (Built 1 ![0, 4] 0 twoOrders) ([DesignSlab.design {(0, 0), (2, 0), (-2, 0)} cosDesign 1].map (DesignSlab.on N 1)) [uniformLayer 1 ![0, 4] 0 2 1] := by
  have hf := fast_fine N hN
  have hN0 : (N : ℂ) ≠ 0 := by exact_mod_cast (by omega : N ≠ 0)
  refine ⟨hf, .cons ?_ .nil⟩
  have hu : Unseen twoOrders (sampledDesign N 1 {(0, 0), (2, 0), (-2, 0)} cosDesign) := by
    intro i j hij
    have h := C195_coefficients N 1 {(0, 0), (2, 0), (-2, 0)} cosDesign (twoOrders i - twoOrders j) fun d hd => hf.2 d hd i j
    have ho : ∀ i j : Fin 2, i ≠ j → twoOrders i - twoOrders j ∉ ({(0, 0), (2, 0), (-2, 0)} : Finset (ℤ × ℤ)) := by decide
    rw [if_neg (ho i j hij)] at h
    exact (mul_eq_zero.1 h).resolve_left (one_div_ne_zero (mul_ne_zero hN0 (by norm_num)))
  have hm : patternMean (sampledDesign N 1 {(0, 0), (2, 0), (-2, 0)} cosDesign) = 2 := by
    have h := C195_coefficients N 1 {(0, 0), (2, 0), (-2, 0)} cosDesign (0, 0) fun d hd => by
      have := hf.2 d hd 0 0
      simpa using this
    simp [fourierCoeff, cosDesign] at h
    simp only [patternMean, Nat.cast_one, mul_one, div_eq_inv_mul, Finset.univ_unique, Finset.sum_singleton]
    simpa using h
  have hb := unseen_built (1 : ℂ) ![0, 4] 0 hf.1 hu (by rw [MeanKept, hm]; left; norm_num) 1
  rw [hm] at hb
  exact hb

end Nidn
