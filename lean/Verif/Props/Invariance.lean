/-
C114, C115: the reflectance and transmittance of the RCWA solver do not depend on the choice of eigenvectors or on the unit of length.
-/
import Verif.Lemmas.Invariance
import Verif.Lemmas.Grating

set_option linter.unusedSectionVars false

namespace Nidn

open Matrix

variable {Nx Ny n : ℕ}

lemma orth_one : Orth 1 0 0 1 := ⟨by norm_num, by norm_num, by norm_num⟩

lemma orthBlock_one : orthBlock 1 0 0 1 (1 : Matrix (Fin n) (Fin n) ℂ) = 1 := by
  rw [orthBlock]
  simp

lemma one_unitary : (1 : Matrix (Fin n) (Fin n) ℂ).conjTranspose * 1 = 1 := by simp

/-- the same slab, with lengths scaled -/
def Slab.scale (c : ℝ) : Slab Nx Ny → Slab Nx Ny
  | .uniform ε d => .uniform ε (c * d)
  | .patterned s d => .patterned s (c * d)

/-- transformations that leave the pixels and the list of orders unchanged -/
lemma slabSym_scale (c : ℝ) (o11 o12 o21 o22 : ℝ) (G : Fin n → ℤ × ℤ) (slabs : List (Slab Nx Ny)) :
    List.Forall₂ (SlabSym c 1 (orthBlock o11 o12 o21 o22 (1 : Matrix (Fin n) (Fin n) ℂ)) G G) slabs (slabs.map (Slab.scale c)) := by
  induction slabs with
  | nil => exact .nil
  | cons s _ ih =>
    refine .cons ?_ ih
    cases s with
    | uniform ε d => exact .uniform ε d
    | patterned s d =>
      refine .patterned s s d fun epinv ep2 epinv' ep2' h1 h2 => ?_
      rw [h1] at h2
      injection h2 with h2
      injection h2 with h2 h3
      subst h2 h3
      refine ⟨by simp, ?_⟩
      simp only [epsilonFft] at h1
      rw [bind_ok] at h1
      obtain ⟨C, -, h1⟩ := h1
      rw [bind_ok] at h1
      obtain ⟨_, -, h1⟩ := h1
      injection h1 with h1
      injection h1 with h1 h3
      have z0 : zeroSmall 0 = 0 := by simp [zeroSmall]
      rw [← h3, Matrix.fromBlocks_map, Matrix.map_zero _ z0]
      exact blocks_comm (by simp)

lemma scale_one (slabs : List (Slab Nx Ny)) : slabs.map (Slab.scale 1) = slabs := by
  conv_rhs => rw [← List.map_id slabs]
  congr 1
  funext s
  cases s <;> simp [Slab.scale]

/-- C114: whatever eigenvectors the library returns for the patterned layers (in any order, with any normalisation, any basis of the
degenerate modes), the solver raises or not, and if it answers, the reflectance and transmittance are the same. -/
theorem C114_eigenvectors (ω : ℂ) (kx ky : Fin n → ℂ) (G : Fin n → ℤ × ℤ) (slabs : List (Slab Nx Ny)) (m m' : List (LayerData (Fin n ⊕ Fin n)))
    (hm : List.Forall₂ (Built ω kx ky G) slabs m) (hm' : List.Forall₂ (Built ω kx ky G) slabs m') (ε0 εN : ℂ) (h0 : ε0 ≠ 0) (hN : εN ≠ 0)
    (d0 dN : ℝ) (hr : ∀ M ∈ uniformLayer ω kx ky ε0 d0 :: m ++ [uniformLayer ω kx ky εN dN], M.Regular) (norm : ℝ)
    (a0 bN : Fin n ⊕ Fin n → ℂ) (r : ℝ × ℝ) :
    rtForward ω norm (uniformLayer ω kx ky ε0 d0 :: m' ++ [uniformLayer ω kx ky εN dN]) a0 bN = .ok r ↔
      rtForward ω norm (uniformLayer ω kx ky ε0 d0 :: m ++ [uniformLayer ω kx ky εN dN]) a0 bN = .ok r := by
  have hs := slabSym_scale 1 1 0 0 1 G slabs
  rw [scale_one] at hs
  have w : WaveSym 1 1 0 0 1 (1 : Matrix (Fin n) (Fin n) ℂ) kx ky kx ky := by
    constructor <;> intro i j h <;> rw [Matrix.one_apply] at h <;> split at h
    · rename_i e; subst e; simp
    · simp at h
    · rename_i e; subst e; simp
    · simp at h
  have e : ω / ((1 : ℝ) : ℂ) = ω := by simp
  have := sym_rt one_pos orth_one one_unitary w ω hs hm (by rw [e]; exact hm') h0 hN d0 dN hr norm a0 bN r
  rw [e, orthBlock_one, one_mul, one_mul, Matrix.one_mulVec, Matrix.one_mulVec] at this
  exact this

/-! ## C115 -/

/-- the wave numbers of the scaled structure -/
lemma scale_wave {c : ℝ} (hc : 0 < c) (ω : ℂ) (θ φ e0 : ℝ) {a b a' b' : ℝ} {Lk1 Lk2 Lk1' Lk2' : ℝ × ℝ}
    (hL : latticeReciprocate [a, b] [a', b'] = .ok (Lk1, Lk2)) (hL' : latticeReciprocate [c * a, c * b] [c * a', c * b'] = .ok (Lk1', Lk2'))
    (G : Fin n → ℤ × ℤ) {kx ky kx' ky' : Fin n → ℂ} (hkx : kx = kxOf ω θ φ e0 Lk1 Lk2 G) (hky : ky = kyOf ω θ φ e0 Lk1 Lk2 G)
    (hkx' : kx' = kxOf (ω / c) θ φ e0 Lk1' Lk2' G) (hky' : ky' = kyOf (ω / c) θ φ e0 Lk1' Lk2' G) :
    WaveSym c 1 0 0 1 (1 : Matrix (Fin n) (Fin n) ℂ) kx ky kx' ky' := by
  have hc' : (c : ℂ) ≠ 0 := Complex.ofReal_ne_zero.2 hc.ne'
  have hLk : Lk1' = (Lk1.1 / c, Lk1.2 / c) ∧ Lk2' = (Lk2.1 / c, Lk2.2 / c) := by
    simp only [latticeReciprocate] at hL hL'
    split at hL
    · simp at hL
    · rename_i hd
      split at hL'
      · simp at hL'
      · rename_i hd'
        injection hL with hL
        injection hL' with hL'
        injection hL with e1 e2
        injection hL' with e3 e4
        rw [← e1, ← e2, ← e3, ← e4]
        have e : c * a * (c * b') - c * b * (c * a') = c ^ 2 * (a * b' - b * a') := by ring
        refine ⟨Prod.ext ?_ ?_, Prod.ext ?_ ?_⟩ <;> simp only [] <;> rw [e] <;> field_simp
  obtain ⟨e1, e2⟩ := hLk
  constructor <;> intro i j h <;> rw [Matrix.one_apply] at h <;> split at h
  · rename_i e; subst e
    rw [hkx, hkx', kxOf, kxOf, waveX, waveX, e1, e2]
    push_cast
    field_simp
    ring
  · simp at h
  · rename_i e; subst e
    rw [hky, hky', kyOf, kyOf, waveY, waveY, e1, e2]
    push_cast
    field_simp
    ring
  · simp at h

/-- C115: a structure with all lengths (lattice vectors and thicknesses) multiplied by `c`, at the frequency divided by `c`, has the same
reflectance and transmittance, for every angle, polarisation and every pattern. -/
theorem C115_scale (c : ℝ) (hc : 0 < c) (ω : ℂ) (θ φ e0 : ℝ) (a b a' b' : ℝ) (Lk1 Lk2 Lk1' Lk2' : ℝ × ℝ)
    (hL : latticeReciprocate [a, b] [a', b'] = .ok (Lk1, Lk2)) (hL' : latticeReciprocate [c * a, c * b] [c * a', c * b'] = .ok (Lk1', Lk2'))
    (G : Fin n → ℤ × ℤ) (slabs : List (Slab Nx Ny)) (m m' : List (LayerData (Fin n ⊕ Fin n)))
    (kx ky kx' ky' : Fin n → ℂ) (hkx : kx = kxOf ω θ φ e0 Lk1 Lk2 G) (hky : ky = kyOf ω θ φ e0 Lk1 Lk2 G)
    (hkx' : kx' = kxOf (ω / c) θ φ e0 Lk1' Lk2' G) (hky' : ky' = kyOf (ω / c) θ φ e0 Lk1' Lk2' G)
    (hm : List.Forall₂ (Built ω kx ky G) slabs m) (hm' : List.Forall₂ (Built (ω / c) kx' ky' G) (slabs.map (Slab.scale c)) m')
    (ε0 εN : ℂ) (h0 : ε0 ≠ 0) (hN : εN ≠ 0) (d0 dN : ℝ)
    (hr : ∀ M ∈ uniformLayer ω kx ky ε0 d0 :: m ++ [uniformLayer ω kx ky εN dN], M.Regular) (norm : ℝ) (a0 bN : Fin n ⊕ Fin n → ℂ)
    (r : ℝ × ℝ) :
    rtForward (ω / c) norm (uniformLayer (ω / c) kx' ky' ε0 (c * d0) :: m' ++ [uniformLayer (ω / c) kx' ky' εN (c * dN)]) a0 bN = .ok r ↔
      rtForward ω norm (uniformLayer ω kx ky ε0 d0 :: m ++ [uniformLayer ω kx ky εN dN]) a0 bN = .ok r := by
  have w := scale_wave hc ω θ φ e0 hL hL' G hkx hky hkx' hky'
  have := sym_rt hc orth_one one_unitary w ω (slabSym_scale c 1 0 0 1 G slabs) hm hm' h0 hN d0 dN hr norm a0 bN r
  rwa [orthBlock_one, Matrix.one_mulVec, Matrix.one_mulVec] at this

/-! ## examples -/

/-- Hypotheses of `C114_eigenvectors`: a lossless grating of two pixels in vacuum, lit at an angle of sine 12/13, with its eigenvectors and
with three times these; the solver reflects 110736/231361 of the power in both cases. -/
example : ∃ L L' : LayerData (Fin 2 ⊕ Fin 2), L ≠ L' ∧
    Built 13 litKx litKy litOrders (.patterned (litPattern ((24 / 169 : ℝ) : ℂ)) (Real.pi / 2)) L ∧
    Built 13 litKx litKy litOrders (.patterned (litPattern ((24 / 169 : ℝ) : ℂ)) (Real.pi / 2)) L' ∧
    ∃ T, rtForward 13 (rtNormalization 1 litTheta) (uniformLayer 13 litKx litKy (1 : ℝ) 0 :: [L] ++ [uniformLayer 13 litKx litKy (1 : ℝ) 0])
      (planewave litTheta 0 1 0 (0 : Fin 2)) 0 = .ok (110736 / 231361, T) ∧
    rtForward 13 (rtNormalization 1 litTheta) (uniformLayer 13 litKx litKy (1 : ℝ) 0 :: [L'] ++ [uniformLayer 13 litKx litKy (1 : ℝ) 0])
      (planewave litTheta 0 1 0 (0 : Fin 2)) 0 = .ok (110736 / 231361, T) := by
  have hb := lit_built lit_kept
  have he' : IsEig (eigenMat (fromBlocks (litC ((24 / 169 : ℝ) : ℂ)) 0 0 (litC ((24 / 169 : ℝ) : ℂ)))
      (kpPatterned 13 (litInv ((24 / 169 : ℝ) : ℂ)) litKx litKy) litKx litKy)
      (fun m => ((litLam (24 / 169) (24 / 169) m : ℝ) : ℂ)) ((3 : ℂ) • litPhi) := by
    have he := lit_eig (24 / 169) (24 / 169) (by norm_num) (by norm_num)
    rw [IsEig] at he
    rw [IsEig, Matrix.mul_smul, he, Matrix.smul_mul]
  have hphi' : IsUnit ((3 : ℂ) • litPhi).det := by
    rw [Matrix.det_smul, isUnit_iff_ne_zero]
    exact mul_ne_zero (pow_ne_zero _ (by norm_num)) litPhi_unit.ne_zero
  have hL' := Built.patterned (ω := 13) _ (Real.pi / 2) _ _ (lit_fft (by norm_num) lit_kept.filter) _ _ he' hphi'
  refine ⟨litSlab (24 / 169) (24 / 169), _, fun e => ?_, hb, hL', ?_⟩
  · have := congrFun (congrFun (congrArg LayerData.phi e) (.inl 0)) (.inl 0)
    simp [litSlab, patternedLayer, litPhi, litV] at this
  · exact ⟨_, lit_answer, (C114_eigenvectors 13 litKx litKy litOrders [_] [litSlab (24 / 169) (24 / 169)] _ (.cons hb .nil) (.cons hL' .nil) _ _ (by norm_num)
      (by norm_num) 0 0 (lit_regular lit_kept) _ _ _ _).2 lit_answer⟩

lemma lit_lattice : latticeReciprocate [Real.pi / 12, 0] [0, 1] = .ok ((12 / Real.pi, (0 : ℝ)), ((0 : ℝ), (1 : ℝ))) := by
  have hπ := Real.pi_ne_zero
  simp only [latticeReciprocate]
  rw [if_neg (by simp [hπ])]
  congr 3 <;> field_simp <;> simp

lemma lit_lattice_scaled : latticeReciprocate [2 * (Real.pi / 12), 2 * 0] [2 * 0, 2 * 1] = .ok ((6 / Real.pi, (0 : ℝ)), ((0 : ℝ), (1 / 2 : ℝ))) := by
  have hπ := Real.pi_ne_zero
  simp only [latticeReciprocate]
  rw [if_neg (by simp [hπ])]
  congr 3 <;> field_simp <;> norm_num
  ring

/-- Hypotheses of `C115_scale`: the same grating with all lengths doubled, at half the frequency. -/
example : ∃ (L' : LayerData (Fin 2 ⊕ Fin 2)) (T : ℝ),
    rtForward (13 / (2 : ℝ)) (rtNormalization 1 litTheta)
      (uniformLayer (13 / (2 : ℝ)) (kxOf (13 / (2 : ℝ)) litTheta 0 1 (6 / Real.pi, 0) (0, 1 / 2) litOrders)
          (kyOf (13 / (2 : ℝ)) litTheta 0 1 (6 / Real.pi, 0) (0, 1 / 2) litOrders) (1 : ℝ) (2 * 0) :: [L'] ++
        [uniformLayer (13 / (2 : ℝ)) (kxOf (13 / (2 : ℝ)) litTheta 0 1 (6 / Real.pi, 0) (0, 1 / 2) litOrders)
          (kyOf (13 / (2 : ℝ)) litTheta 0 1 (6 / Real.pi, 0) (0, 1 / 2) litOrders) (1 : ℝ) (2 * 0)])
      (planewave litTheta 0 1 0 (0 : Fin 2)) 0 = .ok (110736 / 231361, T) := by
  have w := scale_wave two_pos 13 litTheta 0 1 lit_lattice lit_lattice_scaled litOrders rfl rfl rfl rfl
  have hs := slabSym_scale 2 1 0 0 1 litOrders [.patterned (litPattern ((24 / 169 : ℝ) : ℂ)) (Real.pi / 2)]
  have hb := lit_built lit_kept
  obtain ⟨L', hL'⟩ := built_image two_pos orth_one one_unitary w (List.forall₂_cons.1 hs).1 (fun p d e => by
    injection e with e
    subst e
    exact ⟨_, lit_fft (by norm_num) lit_kept.filter⟩) hb
  exact ⟨L', _, (C115_scale 2 two_pos 13 litTheta 0 1 _ _ _ _ _ _ _ _ lit_lattice lit_lattice_scaled litOrders [_] [litSlab (24 / 169) (24 / 169)] [L'] _ _ _ _
    rfl rfl rfl rfl (.cons hb .nil) (.cons hL' .nil) _ _ (by norm_num) (by norm_num) 0 0 (lit_regular lit_kept) _ _ _ _).2 lit_answer⟩

end Nidn
