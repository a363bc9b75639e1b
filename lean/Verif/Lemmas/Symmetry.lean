/-
Symmetries of the matrices of the RCWA solver: an orthogonal transformation `O` of the transverse plane, a unitary matrix `D` on the retained
orders, and a scaling of all lengths by `c`.
-/
import Verif.Lemmas.Gauge

set_option linter.unusedSectionVars false

namespace Nidn

open Matrix

variable {κ : Type} [Fintype κ] [DecidableEq κ]

/-- the square root the code chooses is the one in the upper half plane, or on the non-negative real axis -/
lemma branch_unique {w z : ℂ} (h : w ^ 2 = z ^ 2) (hw : 0 ≤ w.im) (hz : 0 ≤ z.im) (hw' : w.im = 0 → 0 ≤ w.re) (hz' : z.im = 0 → 0 ≤ z.re) :
    w = z := by
  rcases sq_eq_sq_iff_eq_or_eq_neg.1 h with h | h
  · exact h
  · have h1 : w.im = 0 := by
      have := congrArg Complex.im h
      rw [Complex.neg_im] at this
      linarith
    have h2 : z.im = 0 := by
      have := congrArg Complex.im h
      rw [Complex.neg_im] at this
      linarith
    have h3 := hw' h1
    have h4 := hz' h2
    have h5 : w.re = -z.re := by rw [h, Complex.neg_re]
    exact Complex.ext (by linarith) (by rw [h1, h2])

lemma branchQ_axis (z : ℂ) (h : (branchQ (csqrt z)).im = 0) : 0 ≤ (branchQ (csqrt z)).re := by
  rw [branchQ] at h ⊢
  split at h
  · rename_i h1
    rw [Complex.neg_im] at h
    linarith
  · rename_i h1
    rw [if_neg h1]
    exact csqrt_re_nonneg z

lemma branch_scale {c : ℝ} (hc : 0 < c) {z z' : ℂ} (h : (c : ℂ) ^ 2 * z' = z) : (c : ℂ) * branchQ (csqrt z') = branchQ (csqrt z) := by
  refine branch_unique ?_ ?_ (branchQ_im _) (fun h0 => ?_) (branchQ_axis _)
  · rw [mul_pow, branchQ_sq, csqrt_sq, branchQ_sq, csqrt_sq, h]
  · rw [Complex.im_ofReal_mul]; exact mul_nonneg hc.le (branchQ_im _)
  · rw [Complex.im_ofReal_mul] at h0
    rw [Complex.re_ofReal_mul]
    exact mul_nonneg hc.le (branchQ_axis _ (by rcases mul_eq_zero.1 h0 with h | h; exact absurd h hc.ne'; exact h))

/-- a real orthogonal matrix `((o11, o12), (o21, o22))` -/
structure Orth (o11 o12 o21 o22 : ℝ) : Prop where
  c1 : o11 * o11 + o21 * o21 = 1
  c2 : o12 * o12 + o22 * o22 = 1
  c12 : o11 * o12 + o21 * o22 = 0

/-- `O ⊗ D` -/
noncomputable def orthBlock (o11 o12 o21 o22 : ℝ) (D : Matrix κ κ ℂ) : Matrix (κ ⊕ κ) (κ ⊕ κ) ℂ :=
  fromBlocks ((o11 : ℂ) • D) ((o12 : ℂ) • D) ((o21 : ℂ) • D) ((o22 : ℂ) • D)

/-- `D` carries the wave vectors `k` to the wave vectors `k'`, which are those of `k` transformed by `O` and divided by `c`. -/
structure WaveSym (c o11 o12 o21 o22 : ℝ) (D : Matrix κ κ ℂ) (kx ky kx' ky' : κ → ℂ) : Prop where
  x : ∀ i j, D i j ≠ 0 → (c : ℂ) * kx' i = o11 * kx j + o12 * ky j
  y : ∀ i j, D i j ≠ 0 → (c : ℂ) * ky' i = o21 * kx j + o22 * ky j

section

variable {c o11 o12 o21 o22 : ℝ} {D : Matrix κ κ ℂ} {kx ky kx' ky' : κ → ℂ}

lemma WaveSym.dx (w : WaveSym c o11 o12 o21 o22 D kx ky kx' ky') :
    (c : ℂ) • (diagonal kx' * D) = (o11 : ℂ) • (D * diagonal kx) + (o12 : ℂ) • (D * diagonal ky) := by
  ext i j
  simp only [Matrix.smul_apply, Matrix.add_apply, Matrix.diagonal_mul, Matrix.mul_diagonal, smul_eq_mul]
  by_cases h : D i j = 0
  · simp [h]
  · linear_combination D i j * w.x i j h

lemma WaveSym.dy (w : WaveSym c o11 o12 o21 o22 D kx ky kx' ky') :
    (c : ℂ) • (diagonal ky' * D) = (o21 : ℂ) • (D * diagonal kx) + (o22 : ℂ) • (D * diagonal ky) := by
  ext i j
  simp only [Matrix.smul_apply, Matrix.add_apply, Matrix.diagonal_mul, Matrix.mul_diagonal, smul_eq_mul]
  by_cases h : D i j = 0
  · simp [h]
  · linear_combination D i j * w.y i j h

/-- the determinant of `O` -/
lemma Orth.det_sq (o : Orth o11 o12 o21 o22) : (o11 * o22 - o12 * o21) ^ 2 = 1 := by
  have h1 := o.c1
  have h2 := o.c2
  have h3 := o.c12
  linear_combination (o12 * o12 + o22 * o22) * h1 + h2 - (o11 * o12 + o21 * o22) * h3

lemma Orth.adj (o : Orth o11 o12 o21 o22) : ∃ e : ℝ, e ^ 2 = 1 ∧ o11 * o22 - o12 * o21 = e ∧ o22 = e * o11 ∧ o21 = -(e * o12) := by
  refine ⟨o11 * o22 - o12 * o21, o.det_sq, rfl, ?_, ?_⟩
  · linear_combination -o22 * o.c1 + o21 * o.c12
  · linear_combination -o21 * o.c2 + o22 * o.c12

lemma WaveSym.k_left (w : WaveSym c o11 o12 o21 o22 D kx ky kx' ky') :
    (c : ℂ) • (kMat kx' ky' * D) = orthBlock o11 o12 o21 o22 D * kMat kx ky := by
  rw [kMat, kMat, orthBlock, Matrix.fromRows_mul, Matrix.fromBlocks_mul_fromRows]
  ext (i | i) j
  · have := congrFun (congrFun w.dx i) j
    simpa using this
  · have := congrFun (congrFun w.dy i) j
    simpa using this

lemma WaveSym.k_right (w : WaveSym c o11 o12 o21 o22 D kx ky kx' ky') (o : Orth o11 o12 o21 o22) :
    (c : ℂ) • ((kMat kx' ky').transpose * orthBlock o11 o12 o21 o22 D) = D * (kMat kx ky).transpose := by
  have c1 : (o11 : ℂ) * o11 + o21 * o21 = 1 := by exact_mod_cast o.c1
  have c2 : (o12 : ℂ) * o12 + o22 * o22 = 1 := by exact_mod_cast o.c2
  have c12 : (o11 : ℂ) * o12 + o21 * o22 = 0 := by exact_mod_cast o.c12
  rw [kMat, kMat, orthBlock, Matrix.transpose_fromRows, Matrix.transpose_fromRows, Matrix.fromCols_mul_fromBlocks, Matrix.mul_fromCols]
  ext i (j | j)
  · have hx := congrFun (congrFun w.dx i) j
    have hy := congrFun (congrFun w.dy i) j
    simp only [Matrix.smul_apply, Matrix.add_apply, Matrix.diagonal_mul, Matrix.mul_diagonal, smul_eq_mul, Matrix.fromCols_apply_inl,
      Matrix.diagonal_transpose] at hx hy ⊢
    linear_combination o11 * hx + o21 * hy + D i j * kx j * c1 + D i j * ky j * c12
  · have hx := congrFun (congrFun w.dx i) j
    have hy := congrFun (congrFun w.dy i) j
    simp only [Matrix.smul_apply, Matrix.add_apply, Matrix.diagonal_mul, Matrix.mul_diagonal, smul_eq_mul, Matrix.fromCols_apply_inr,
      Matrix.diagonal_transpose] at hx hy ⊢
    linear_combination o12 * hx + o22 * hy + D i j * ky j * c2 + D i j * kx j * c12

lemma WaveSym.jk_left (w : WaveSym c o11 o12 o21 o22 D kx ky kx' ky') (o : Orth o11 o12 o21 o22) :
    (c : ℂ) • (jkMat kx' ky' * D) = ((o11 * o22 - o12 * o21 : ℝ) : ℂ) • (orthBlock o11 o12 o21 o22 D * jkMat kx ky) := by
  obtain ⟨e, he, e0, e1, e2⟩ := o.adj
  rw [e0]
  have he' : (e : ℂ) ^ 2 = 1 := by exact_mod_cast he
  have e1' : (o22 : ℂ) = e * o11 := by exact_mod_cast e1
  have e2' : (o21 : ℂ) = -(e * o12) := by exact_mod_cast e2
  rw [jkMat, jkMat, orthBlock, Matrix.fromRows_mul, Matrix.fromBlocks_mul_fromRows]
  ext (i | i) j
  · have hy := congrFun (congrFun w.dy i) j
    simp only [Matrix.smul_apply, Matrix.add_apply, Matrix.diagonal_mul, Matrix.mul_diagonal, smul_eq_mul, Matrix.fromRows_apply_inl,
      Matrix.smul_mul, e1', e2'] at hy ⊢
    linear_combination -hy
  · have hx := congrFun (congrFun w.dx i) j
    simp only [Matrix.smul_apply, Matrix.add_apply, Matrix.diagonal_mul, Matrix.mul_diagonal, smul_eq_mul, Matrix.fromRows_apply_inr,
      Matrix.smul_mul, e1', e2'] at hx ⊢
    linear_combination hx - (D i j * (o11 * kx j + o12 * ky j)) * he'

lemma WaveSym.jk_right (w : WaveSym c o11 o12 o21 o22 D kx ky kx' ky') :
    (c : ℂ) • ((jkMat kx' ky').transpose * orthBlock o11 o12 o21 o22 D) = ((o11 * o22 - o12 * o21 : ℝ) : ℂ) • (D * (jkMat kx ky).transpose) := by
  rw [jkMat, jkMat, orthBlock, Matrix.transpose_fromRows, Matrix.transpose_fromRows, Matrix.fromCols_mul_fromBlocks, Matrix.mul_fromCols]
  push_cast
  ext i (j | j)
  · have hx := congrFun (congrFun w.dx i) j
    have hy := congrFun (congrFun w.dy i) j
    simp only [Matrix.smul_apply, Matrix.add_apply, Matrix.diagonal_mul, Matrix.mul_diagonal, smul_eq_mul, Matrix.fromCols_apply_inl,
      Matrix.diagonal_transpose] at hx hy ⊢
    linear_combination o21 * hx - o11 * hy
  · have hx := congrFun (congrFun w.dx i) j
    have hy := congrFun (congrFun w.dy i) j
    simp only [Matrix.smul_apply, Matrix.add_apply, Matrix.diagonal_mul, Matrix.mul_diagonal, smul_eq_mul, Matrix.fromCols_apply_inr,
      Matrix.diagonal_transpose] at hx hy ⊢
    linear_combination o22 * hx - o12 * hy

lemma WaveSym.kp (w : WaveSym c o11 o12 o21 o22 D kx ky kx' ky') (o : Orth o11 o12 o21 o22) (hc : c ≠ 0) (ω : ℂ) {epinv epinv' : Matrix κ κ ℂ}
    (he : epinv' * D = D * epinv) :
    (c : ℂ) ^ 2 • (kpPatterned (ω / c) epinv' kx' ky' * orthBlock o11 o12 o21 o22 D) =
      orthBlock o11 o12 o21 o22 D * kpPatterned ω epinv kx ky := by
  have hc' : (c : ℂ) ≠ 0 := Complex.ofReal_ne_zero.2 hc
  have hd : ((o11 * o22 - o12 * o21 : ℝ) : ℂ) * ((o11 * o22 - o12 * o21 : ℝ) : ℂ) = 1 := by
    rw [← Complex.ofReal_mul, ← sq, o.det_sq, Complex.ofReal_one]
  set U := orthBlock o11 o12 o21 o22 D with hU
  set e := ((o11 * o22 - o12 * o21 : ℝ) : ℂ) with hedef
  have h1 : (c : ℂ) ^ 2 • (jkMat kx' ky' * epinv' * (jkMat kx' ky').transpose * U) = U * (jkMat kx ky * epinv * (jkMat kx ky).transpose) := by
    calc (c : ℂ) ^ 2 • (jkMat kx' ky' * epinv' * (jkMat kx' ky').transpose * U)
        = (c : ℂ) • (jkMat kx' ky' * epinv' * ((c : ℂ) • ((jkMat kx' ky').transpose * U))) := by
          rw [Matrix.mul_smul, smul_smul, sq]; simp only [Matrix.mul_assoc]
      _ = (c : ℂ) • (e • (jkMat kx' ky' * (epinv' * D) * (jkMat kx ky).transpose)) := by
          rw [w.jk_right, ← hedef, Matrix.mul_smul]; simp only [Matrix.mul_assoc]
      _ = e • (((c : ℂ) • (jkMat kx' ky' * D)) * (epinv * (jkMat kx ky).transpose)) := by
          rw [he, smul_comm, Matrix.smul_mul]; simp only [Matrix.mul_assoc]
      _ = U * (jkMat kx ky * epinv * (jkMat kx ky).transpose) := by
          rw [w.jk_left o, ← hU, ← hedef, Matrix.smul_mul, smul_smul, hd, one_smul]; simp only [Matrix.mul_assoc]
  rw [kpPatterned, kpPatterned, Matrix.sub_mul, Matrix.mul_sub, smul_sub, h1, Matrix.smul_mul, Matrix.one_mul, smul_smul, Matrix.mul_smul,
    Matrix.mul_one]
  congr 2
  field_simp

lemma WaveSym.eigen (w : WaveSym c o11 o12 o21 o22 D kx ky kx' ky') (o : Orth o11 o12 o21 o22) {ep2 ep2' kp kp' : Matrix (κ ⊕ κ) (κ ⊕ κ) ℂ}
    (hk : (c : ℂ) ^ 2 • (kp' * orthBlock o11 o12 o21 o22 D) = orthBlock o11 o12 o21 o22 D * kp)
    (he : ep2' * orthBlock o11 o12 o21 o22 D = orthBlock o11 o12 o21 o22 D * ep2) :
    (c : ℂ) ^ 2 • (eigenMat ep2' kp' kx' ky' * orthBlock o11 o12 o21 o22 D) = orthBlock o11 o12 o21 o22 D * eigenMat ep2 kp kx ky := by
  set U := orthBlock o11 o12 o21 o22 D with hU
  have h1 : (c : ℂ) ^ 2 • (kMat kx' ky' * (kMat kx' ky').transpose * U) = U * (kMat kx ky * (kMat kx ky).transpose) := by
    calc (c : ℂ) ^ 2 • (kMat kx' ky' * (kMat kx' ky').transpose * U)
        = (c : ℂ) • (kMat kx' ky' * ((c : ℂ) • ((kMat kx' ky').transpose * U))) := by
          rw [Matrix.mul_smul, smul_smul, sq]; simp only [Matrix.mul_assoc]
      _ = ((c : ℂ) • (kMat kx' ky' * D)) * (kMat kx ky).transpose := by
          rw [w.k_right o, Matrix.smul_mul]; simp only [Matrix.mul_assoc]
      _ = U * (kMat kx ky * (kMat kx ky).transpose) := by rw [w.k_left, ← hU]; simp only [Matrix.mul_assoc]
  have h2 : (c : ℂ) ^ 2 • (ep2' * kp' * U) = U * (ep2 * kp) := by
    rw [Matrix.mul_assoc, ← Matrix.mul_smul, hk, ← Matrix.mul_assoc, he, Matrix.mul_assoc]
  rw [eigenMat, eigenMat, Matrix.sub_mul, Matrix.mul_sub, smul_sub, h1, h2]

lemma blocks_comm {C C' : Matrix κ κ ℂ} (h : C' * D = D * C) :
    fromBlocks C' 0 0 C' * orthBlock o11 o12 o21 o22 D = orthBlock o11 o12 o21 o22 D * fromBlocks C 0 0 C := by
  rw [orthBlock, Matrix.fromBlocks_multiply, Matrix.fromBlocks_multiply]
  simp only [Matrix.mul_smul, Matrix.smul_mul, h, Matrix.zero_mul, Matrix.mul_zero, smul_zero, add_zero, zero_add]

lemma orthBlock_unitary (o : Orth o11 o12 o21 o22) (hD : D.conjTranspose * D = 1) :
    (orthBlock o11 o12 o21 o22 D).conjTranspose * orthBlock o11 o12 o21 o22 D = 1 := by
  have c1 : (o11 : ℂ) * o11 + o21 * o21 = 1 := by exact_mod_cast o.c1
  have c2 : (o12 : ℂ) * o12 + o22 * o22 = 1 := by exact_mod_cast o.c2
  have c12 : (o11 : ℂ) * o12 + o21 * o22 = 0 := by exact_mod_cast o.c12
  have c21 : (o12 : ℂ) * o11 + o22 * o21 = 0 := by linear_combination c12
  rw [orthBlock, Matrix.fromBlocks_conjTranspose, Matrix.fromBlocks_multiply]
  simp only [Matrix.conjTranspose_smul, Complex.star_def, Complex.conj_ofReal, Matrix.smul_mul, Matrix.mul_smul, hD, smul_smul, ← add_smul,
    c1, c2, c12, c21, one_smul, zero_smul]
  exact Matrix.fromBlocks_one

/-- two patterned layers related by a symmetry, with whatever eigenvectors the library returned for them -/
lemma gauge_of_sym (hc : 0 < c) {U : Matrix (κ ⊕ κ) (κ ⊕ κ) ℂ} (hU : IsUnit U.det) {M M' : Matrix (κ ⊕ κ) (κ ⊕ κ) ℂ}
    (hM : (c : ℂ) ^ 2 • (M' * U) = U * M) {L L' : LayerData (κ ⊕ κ)} {lam lam' : κ ⊕ κ → ℂ} (hL : IsEig M lam L.phi) (hL' : IsEig M' lam' L'.phi)
    (hq : ∀ m, L.q m = branchQ (csqrt (lam m))) (hq' : ∀ m, L'.q m = branchQ (csqrt (lam' m))) (hp : IsUnit L.phi.det)
    (hp' : IsUnit L'.phi.det) (hk : (c : ℂ) ^ 2 • (L'.kp * U) = U * L.kp) (hd : L'.d = c * L.d) :
    IsUnit (L.phi⁻¹ * U⁻¹ * L'.phi).det ∧ Gauge c U (L.phi⁻¹ * U⁻¹ * L'.phi) L L' := by
  set X := L.phi⁻¹ * U⁻¹ * L'.phi with hX
  have hphi : L'.phi = U * L.phi * X := by
    rw [hX, Matrix.mul_assoc, Matrix.mul_assoc, Matrix.mul_nonsing_inv_cancel_left _ _ hp, Matrix.mul_nonsing_inv_cancel_left _ _ hU]
  refine ⟨?_, hphi, hk, fun m n h => ?_, hd⟩
  · rw [hX, Matrix.det_mul, Matrix.det_mul]
    exact ((Matrix.isUnit_nonsing_inv_det _ hp).mul (Matrix.isUnit_nonsing_inv_det _ hU)).mul hp'
  · have key : (c : ℂ) ^ 2 • (X * diagonal lam') = diagonal lam * X := by
      have e1 : (c : ℂ) ^ 2 • (L'.phi * diagonal lam') = U * L.phi * (diagonal lam * X) := by
        calc (c : ℂ) ^ 2 • (L'.phi * diagonal lam') = (c : ℂ) ^ 2 • (M' * L'.phi) := by rw [hL']
          _ = ((c : ℂ) ^ 2 • (M' * U)) * (L.phi * X) := by rw [Matrix.smul_mul, hphi]; simp only [Matrix.mul_assoc]
          _ = U * (M * L.phi) * X := by rw [hM]; simp only [Matrix.mul_assoc]
          _ = U * L.phi * (diagonal lam * X) := by rw [hL]; simp only [Matrix.mul_assoc]
      have e2 : U * L.phi * ((c : ℂ) ^ 2 • (X * diagonal lam')) = U * L.phi * (diagonal lam * X) := by
        rw [← e1, hphi, Matrix.mul_smul]; simp only [Matrix.mul_assoc]
      have hu : IsUnit (U * L.phi).det := by rw [Matrix.det_mul]; exact hU.mul hp
      have := congrArg ((U * L.phi)⁻¹ * ·) e2
      simpa only [Matrix.nonsing_inv_mul_cancel_left _ _ hu] using this
    have := congrFun (congrFun key m) n
    rw [Matrix.smul_apply, Matrix.mul_diagonal, Matrix.diagonal_mul, smul_eq_mul] at this
    rw [hq, hq']
    refine branch_scale hc ?_
    have e : X m n * ((c : ℂ) ^ 2 * lam' n) = X m n * lam m := by linear_combination this
    exact mul_left_cancel₀ h e

end

end Nidn
