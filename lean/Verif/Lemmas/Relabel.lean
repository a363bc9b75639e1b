/-
Renumbering of the retained orders, and patterns whose Fourier coefficients are those of another pattern at renumbered orders.
-/
import Verif.Lemmas.Invariance

set_option linter.unusedSectionVars false

namespace Nidn

open Matrix

variable {Nx Ny n : ℕ}

/-- the permutation matrix that takes the entry `σ i` to the place `i` -/
def permMat (σ : Fin n ≃ Fin n) : Matrix (Fin n) (Fin n) ℂ := (1 : Matrix (Fin n) (Fin n) ℂ).submatrix σ id

lemma permMat_apply (σ : Fin n ≃ Fin n) (i j : Fin n) : permMat σ i j = if σ i = j then 1 else 0 := by
  rw [permMat, Matrix.submatrix_apply, Matrix.one_apply]; rfl

lemma mul_permMat (σ : Fin n ≃ Fin n) (C : Matrix (Fin n) (Fin n) ℂ) : C.submatrix σ σ * permMat σ = C.submatrix σ id := by
  rw [permMat, Matrix.submatrix_mul_equiv, Matrix.mul_one]

lemma permMat_mul (σ : Fin n ≃ Fin n) (C : Matrix (Fin n) (Fin n) ℂ) : permMat σ * C = C.submatrix σ id := by
  have := Matrix.submatrix_mul_equiv (1 : Matrix (Fin n) (Fin n) ℂ) C (σ : Fin n → Fin n) (Equiv.refl (Fin n)) id
  rw [Matrix.one_mul] at this
  exact this

lemma permMat_unitary (σ : Fin n ≃ Fin n) : (permMat σ).conjTranspose * permMat σ = 1 := by
  rw [permMat, Matrix.conjTranspose_submatrix, Matrix.conjTranspose_one, Matrix.submatrix_mul_equiv, Matrix.mul_one]
  rfl

lemma permMat_mulVec (σ : Fin n ≃ Fin n) (v : Fin n → ℂ) : permMat σ *ᵥ v = fun i => v (σ i) := by
  ext i
  simp only [Matrix.mulVec, dotProduct, permMat_apply, ite_mul, one_mul, zero_mul]
  rw [Finset.sum_ite_eq]
  simp

/-- the matrices `Epsilon_fft` returns, in terms of the Fourier coefficients (with its filter) -/
lemma epsilonFft_form {s : Fin Nx → Fin Ny → ℂ} {G : Fin n → ℤ × ℤ} {epinv : Matrix (Fin n) (Fin n) ℂ}
    {ep2 : Matrix (Fin n ⊕ Fin n) (Fin n ⊕ Fin n) ℂ} (h : epsilonFft (1 / Nx / Ny) (.iso s) G = .ok (epinv, ep2)) :
    ∃ C : Matrix (Fin n) (Fin n) ℂ, (∀ i j, C i j = fourierCoeff s (G i - G j)) ∧ IsUnit C.det ∧ epinv = C⁻¹ ∧
      ep2 = fromBlocks (C.map zeroSmall) 0 0 (C.map zeroSmall) := by
  have z0 : zeroSmall 0 = 0 := by simp [zeroSmall]
  simp only [epsilonFft] at h
  rw [bind_ok] at h
  obtain ⟨C, h1, h⟩ := h
  rw [bind_ok] at h
  obtain ⟨inv, h3, h⟩ := h
  injection h with h
  injection h with h5 h6
  have hr : Resolved Nx Ny G := by
    by_contra hn; rw [(C15_entries s G).2 hn] at h1; simp at h1
  obtain ⟨C', h7, h8⟩ := (C15_entries s G).1 hr
  rw [h7] at h1
  injection h1 with h1
  subst h1
  unfold torchInverse at h3
  split at h3
  · rename_i hu
    injection h3 with h3
    refine ⟨C', h8, hu, by rw [← h5, ← h3], ?_⟩
    rw [← h6, Matrix.fromBlocks_map, Matrix.map_zero _ z0]
  · simp at h3

/-- `Epsilon_fft` answers when the pixels resolve the orders and the matrix of the coefficients is invertible -/
lemma epsilonFft_ok {s : Fin Nx → Fin Ny → ℂ} {G : Fin n → ℤ × ℤ} (hr : Resolved Nx Ny G)
    (hu : IsUnit (Matrix.of fun i j => fourierCoeff s (G i - G j)).det) : ∃ r, epsilonFft (1 / Nx / Ny) (.iso s) G = .ok r := by
  obtain ⟨C, h1, h2⟩ := (C15_entries s G).1 hr
  have hC : C = Matrix.of fun i j => fourierCoeff s (G i - G j) := by ext i j; rw [h2]; rfl
  simp only [epsilonFft]
  rw [h1, ok_bind, torchInverse, if_pos (hC ▸ hu), ok_bind]
  exact ⟨_, rfl⟩

/-- two patterns with the same coefficients up to a renumbering of the orders -/
lemma perm_eps (σ : Fin n ≃ Fin n) {s s' : Fin Nx → Fin Ny → ℂ} {G G' : Fin n → ℤ × ℤ}
    (hc : ∀ i j, fourierCoeff s' (G' i - G' j) = fourierCoeff s (G (σ i) - G (σ j))) (o11 o12 o21 o22 : ℝ)
    {epinv epinv' : Matrix (Fin n) (Fin n) ℂ} {ep2 ep2' : Matrix (Fin n ⊕ Fin n) (Fin n ⊕ Fin n) ℂ}
    (h : epsilonFft (1 / Nx / Ny) (.iso s) G = .ok (epinv, ep2)) (h' : epsilonFft (1 / Nx / Ny) (.iso s') G' = .ok (epinv', ep2')) :
    epinv' * permMat σ = permMat σ * epinv ∧ ep2' * orthBlock o11 o12 o21 o22 (permMat σ) = orthBlock o11 o12 o21 o22 (permMat σ) * ep2 := by
  obtain ⟨C, hC, -, rfl, rfl⟩ := epsilonFft_form h
  obtain ⟨C', hC', -, rfl, rfl⟩ := epsilonFft_form h'
  have e : C' = C.submatrix σ σ := by
    ext i j
    rw [hC', hc, Matrix.submatrix_apply, hC]
  constructor
  · rw [e, Matrix.inv_submatrix_equiv, mul_permMat, permMat_mul]
  · refine blocks_comm ?_
    rw [e, permMat_mul, show (C.submatrix σ σ).map zeroSmall = (C.map zeroSmall).submatrix σ σ from rfl, mul_permMat]

/-- an incident wave in order `q`, in the renumbered list -/
lemma orth_perm_planewave {o11 o12 o21 o22 : ℝ} (σ : Fin n ≃ Fin n) (θ φ θ' φ' : ℝ) (s p s' p' : ℂ)
    (hsp1 : -s' * Real.cos θ' * Real.cos φ' - p' * Real.sin φ' = o11 * (-s * Real.cos θ * Real.cos φ - p * Real.sin φ) +
      o12 * (-s * Real.cos θ * Real.sin φ + p * Real.cos φ))
    (hsp2 : -s' * Real.cos θ' * Real.sin φ' + p' * Real.cos φ' = o21 * (-s * Real.cos θ * Real.cos φ - p * Real.sin φ) +
      o22 * (-s * Real.cos θ * Real.sin φ + p * Real.cos φ)) (q : Fin n) :
    orthBlock o11 o12 o21 o22 (permMat σ) *ᵥ planewave θ φ s p (σ q) = planewave θ' φ' s' p' q := by
  rw [orthBlock, planewave, Matrix.fromBlocks_mulVec]
  simp only [Matrix.smul_mulVec, permMat_mulVec, planewave]
  ext (i | i)
  · simp only [Sum.elim_inl, Sum.elim_inr, Pi.add_apply, Pi.smul_apply, smul_eq_mul, Function.comp_apply, EmbeddingLike.apply_eq_iff_eq]
    split
    · rw [hsp1]
    · ring
  · simp only [Sum.elim_inl, Sum.elim_inr, Pi.add_apply, Pi.smul_apply, smul_eq_mul, Function.comp_apply, EmbeddingLike.apply_eq_iff_eq]
    split
    · rw [hsp2]
    · ring

end Nidn
