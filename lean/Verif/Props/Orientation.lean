/-
C117, C118: the reflectance and transmittance of the RCWA solver do not depend on the orientation of the structure in its plane, nor on the
numbering of the retained orders.
-/
import Verif.Props.Invariance

set_option linter.unusedSectionVars false

namespace Nidn

open Matrix

variable {Nx Ny n : ℕ}

/-- the solver's lattice vectors for a lattice transformed by the orthogonal matrix `O` -/
lemma reciprocate_orth {o11 o12 o21 o22 : ℝ} (o : Orth o11 o12 o21 o22) {a b a' b' : ℝ} {Lk1 Lk2 Lk1' Lk2' : ℝ × ℝ}
    (hL : latticeReciprocate [a, b] [a', b'] = .ok (Lk1, Lk2))
    (hL' : latticeReciprocate [o11 * a + o12 * b, o21 * a + o22 * b] [o11 * a' + o12 * b', o21 * a' + o22 * b'] = .ok (Lk1', Lk2')) :
    Lk1' = (o11 * Lk1.1 + o12 * Lk1.2, o21 * Lk1.1 + o22 * Lk1.2) ∧ Lk2' = (o11 * Lk2.1 + o12 * Lk2.2, o21 * Lk2.1 + o22 * Lk2.2) := by
  obtain ⟨e, he, e0, e1, e2⟩ := o.adj
  have hne : e ≠ 0 := by rintro rfl; norm_num at he
  simp only [latticeReciprocate] at hL hL'
  split at hL
  · simp at hL
  · rename_i hd
    split at hL'
    · simp at hL'
    · rename_i hd'
      injection hL with hL
      injection hL' with hL'
      injection hL with h1 h2
      injection hL' with h3 h4
      rw [← h1, ← h2, ← h3, ← h4]
      have k : (o11 * a + o12 * b) * (o21 * a' + o22 * b') - (o21 * a + o22 * b) * (o11 * a' + o12 * b') = e * (a * b' - b * a') := by
        rw [← e0]; ring
      have h1e : e = 1 ∨ e = -1 := by
        have h : (e - 1) * (e + 1) = 0 := by linear_combination he
        rcases mul_eq_zero.1 h with h | h
        · exact .inl (by linarith)
        · exact .inr (by linarith)
      rcases h1e with rfl | rfl
      · refine ⟨Prod.ext ?_ ?_, Prod.ext ?_ ?_⟩ <;> simp only [] <;> rw [k, e1, e2] <;> ring
      · refine ⟨Prod.ext ?_ ?_, Prod.ext ?_ ?_⟩ <;> simp only [] <;> rw [k, e1, e2, neg_one_mul (a * b' - b * a'), div_neg] <;> ring

/-- the wave numbers of the transformed structure -/
lemma orient_wave {o11 o12 o21 o22 : ℝ} (o : Orth o11 o12 o21 o22) (ω : ℂ) (θ φ φ' e0 : ℝ)
    (hφ1 : Real.cos φ' = o11 * Real.cos φ + o12 * Real.sin φ) (hφ2 : Real.sin φ' = o21 * Real.cos φ + o22 * Real.sin φ)
    {a b a' b' : ℝ} {Lk1 Lk2 Lk1' Lk2' : ℝ × ℝ} (hL : latticeReciprocate [a, b] [a', b'] = .ok (Lk1, Lk2))
    (hL' : latticeReciprocate [o11 * a + o12 * b, o21 * a + o22 * b] [o11 * a' + o12 * b', o21 * a' + o22 * b'] = .ok (Lk1', Lk2'))
    (G : Fin n → ℤ × ℤ) {kx ky kx' ky' : Fin n → ℂ} (hkx : kx = kxOf ω θ φ e0 Lk1 Lk2 G) (hky : ky = kyOf ω θ φ e0 Lk1 Lk2 G)
    (hkx' : kx' = kxOf ω θ φ' e0 Lk1' Lk2' G) (hky' : ky' = kyOf ω θ φ' e0 Lk1' Lk2' G) :
    WaveSym 1 o11 o12 o21 o22 (1 : Matrix (Fin n) (Fin n) ℂ) kx ky kx' ky' := by
  obtain ⟨e1, e2⟩ := reciprocate_orth o hL hL'
  have hφ1' : ((Real.cos φ' : ℝ) : ℂ) = o11 * Real.cos φ + o12 * Real.sin φ := by rw [hφ1]; push_cast; rfl
  have hφ2' : ((Real.sin φ' : ℝ) : ℂ) = o21 * Real.cos φ + o22 * Real.sin φ := by rw [hφ2]; push_cast; rfl
  constructor <;> intro i j h <;> rw [Matrix.one_apply] at h <;> split at h
  · rename_i e; subst e
    rw [hkx, hkx', hky, kxOf, kxOf, kyOf, waveX, waveX, waveY, e1, e2, hφ1', Complex.ofReal_one]
    simp only [Complex.ofReal_add, Complex.ofReal_mul]
    ring
  · simp at h
  · rename_i e; subst e
    rw [hky, hky', hkx, kyOf, kyOf, kxOf, waveX, waveY, waveY, e1, e2, hφ2', Complex.ofReal_one]
    simp only [Complex.ofReal_add, Complex.ofReal_mul]
    ring
  · simp at h

/-- C117, in the form in which it is used for rotations and reflections: the lattice, the direction of incidence and the polarisation are
transformed by an orthogonal matrix -/
lemma orient_rt {o11 o12 o21 o22 : ℝ} (o : Orth o11 o12 o21 o22) (ω : ℂ) (θ φ φ' e0 : ℝ)
    (hφ1 : Real.cos φ' = o11 * Real.cos φ + o12 * Real.sin φ) (hφ2 : Real.sin φ' = o21 * Real.cos φ + o22 * Real.sin φ)
    (a b a' b' : ℝ) (Lk1 Lk2 Lk1' Lk2' : ℝ × ℝ) (hL : latticeReciprocate [a, b] [a', b'] = .ok (Lk1, Lk2))
    (hL' : latticeReciprocate [o11 * a + o12 * b, o21 * a + o22 * b] [o11 * a' + o12 * b', o21 * a' + o22 * b'] = .ok (Lk1', Lk2'))
    (G : Fin n → ℤ × ℤ) (slabs : List (Slab Nx Ny)) (m m' : List (LayerData (Fin n ⊕ Fin n)))
    (kx ky kx' ky' : Fin n → ℂ) (hkx : kx = kxOf ω θ φ e0 Lk1 Lk2 G) (hky : ky = kyOf ω θ φ e0 Lk1 Lk2 G)
    (hkx' : kx' = kxOf ω θ φ' e0 Lk1' Lk2' G) (hky' : ky' = kyOf ω θ φ' e0 Lk1' Lk2' G)
    (hm : List.Forall₂ (Built ω kx ky G) slabs m) (hm' : List.Forall₂ (Built ω kx' ky' G) slabs m')
    (ε0 εN : ℂ) (h0 : ε0 ≠ 0) (hN : εN ≠ 0) (d0 dN : ℝ)
    (hr : ∀ M ∈ uniformLayer ω kx ky ε0 d0 :: m ++ [uniformLayer ω kx ky εN dN], M.Regular) (norm : ℝ) (s p s' p' : ℂ)
    (hsp1 : -s' * Real.cos θ * Real.cos φ' - p' * Real.sin φ' = o11 * (-s * Real.cos θ * Real.cos φ - p * Real.sin φ) +
      o12 * (-s * Real.cos θ * Real.sin φ + p * Real.cos φ))
    (hsp2 : -s' * Real.cos θ * Real.sin φ' + p' * Real.cos φ' = o21 * (-s * Real.cos θ * Real.cos φ - p * Real.sin φ) +
      o22 * (-s * Real.cos θ * Real.sin φ + p * Real.cos φ)) (q : Fin n) (r : ℝ × ℝ) :
    rtForward ω norm (uniformLayer ω kx' ky' ε0 d0 :: m' ++ [uniformLayer ω kx' ky' εN dN]) (planewave θ φ' s' p' q) 0 = .ok r ↔
      rtForward ω norm (uniformLayer ω kx ky ε0 d0 :: m ++ [uniformLayer ω kx ky εN dN]) (planewave θ φ s p q) 0 = .ok r := by
  have w := orient_wave o ω θ φ φ' e0 hφ1 hφ2 hL hL' G hkx hky hkx' hky'
  have e : ω / ((1 : ℝ) : ℂ) = ω := by simp
  have hs := slabSym_scale 1 o11 o12 o21 o22 G slabs
  rw [scale_one] at hs
  have hpw : orthBlock o11 o12 o21 o22 (1 : Matrix (Fin n) (Fin n) ℂ) *ᵥ planewave θ φ s p q = planewave θ φ' s' p' q := by
    rw [orthBlock, planewave, Matrix.fromBlocks_mulVec]
    simp only [Matrix.smul_mulVec, Matrix.one_mulVec, planewave]
    ext (i | i)
    · simp only [Sum.elim_inl, Sum.elim_inr, Pi.add_apply, Pi.smul_apply, smul_eq_mul, Function.comp_apply]
      split
      · rw [hsp1]
      · ring
    · simp only [Sum.elim_inl, Sum.elim_inr, Pi.add_apply, Pi.smul_apply, smul_eq_mul, Function.comp_apply]
      split
      · rw [hsp2]
      · ring
  have := sym_rt one_pos o one_unitary w ω hs hm (by rw [e]; exact hm') h0 hN d0 dN hr norm (planewave θ φ s p q) 0 r
  rwa [e, hpw, Matrix.mulVec_zero, one_mul, one_mul] at this

/-- C117: a structure whose lattice is rotated in its plane by `α`, illuminated from the direction rotated by `α` with the same amplitudes
of the two polarisations, has the same reflectance and transmittance; for every lattice (also oblique), pattern, angle and polarisation. -/
theorem C117_rotation (α : ℝ) (ω : ℂ) (θ φ e0 : ℝ) (a b a' b' : ℝ) (Lk1 Lk2 Lk1' Lk2' : ℝ × ℝ)
    (hL : latticeReciprocate [a, b] [a', b'] = .ok (Lk1, Lk2))
    (hL' : latticeReciprocate [Real.cos α * a - Real.sin α * b, Real.sin α * a + Real.cos α * b]
      [Real.cos α * a' - Real.sin α * b', Real.sin α * a' + Real.cos α * b'] = .ok (Lk1', Lk2'))
    (G : Fin n → ℤ × ℤ) (slabs : List (Slab Nx Ny)) (m m' : List (LayerData (Fin n ⊕ Fin n)))
    (kx ky kx' ky' : Fin n → ℂ) (hkx : kx = kxOf ω θ φ e0 Lk1 Lk2 G) (hky : ky = kyOf ω θ φ e0 Lk1 Lk2 G)
    (hkx' : kx' = kxOf ω θ (φ + α) e0 Lk1' Lk2' G) (hky' : ky' = kyOf ω θ (φ + α) e0 Lk1' Lk2' G)
    (hm : List.Forall₂ (Built ω kx ky G) slabs m) (hm' : List.Forall₂ (Built ω kx' ky' G) slabs m')
    (ε0 εN : ℂ) (h0 : ε0 ≠ 0) (hN : εN ≠ 0) (d0 dN : ℝ)
    (hr : ∀ M ∈ uniformLayer ω kx ky ε0 d0 :: m ++ [uniformLayer ω kx ky εN dN], M.Regular) (norm : ℝ) (s p : ℂ) (q : Fin n) (r : ℝ × ℝ) :
    rtForward ω norm (uniformLayer ω kx' ky' ε0 d0 :: m' ++ [uniformLayer ω kx' ky' εN dN]) (planewave θ (φ + α) s p q) 0 = .ok r ↔
      rtForward ω norm (uniformLayer ω kx ky ε0 d0 :: m ++ [uniformLayer ω kx ky εN dN]) (planewave θ φ s p q) 0 = .ok r := by
  have h1 := Real.sin_sq_add_cos_sq α
  have o : Orth (Real.cos α) (-Real.sin α) (Real.sin α) (Real.cos α) := ⟨by linarith, by linarith, by ring⟩
  refine orient_rt o ω θ φ (φ + α) e0 (by rw [Real.cos_add]; ring) (by rw [Real.sin_add]; ring) a b a' b' Lk1 Lk2 Lk1' Lk2' hL
    (by simpa only [neg_mul, ← sub_eq_add_neg] using hL') G slabs m m' kx ky kx' ky' hkx hky hkx' hky' hm hm' ε0 εN h0 hN d0 dN hr norm s p s p
    ?_ ?_ q r
  · rw [Real.cos_add, Real.sin_add]; simp only [Complex.ofReal_sub, Complex.ofReal_add, Complex.ofReal_mul, Complex.ofReal_neg]; ring
  · rw [Real.cos_add, Real.sin_add]; simp only [Complex.ofReal_sub, Complex.ofReal_add, Complex.ofReal_mul]; ring

/-- C117: a structure reflected in the x axis, illuminated from the reflected direction with the reflected polarisation (the amplitude `p`
changes its sign), has the same reflectance and transmittance. -/
theorem C117_mirror (ω : ℂ) (θ φ e0 : ℝ) (a b a' b' : ℝ) (Lk1 Lk2 Lk1' Lk2' : ℝ × ℝ)
    (hL : latticeReciprocate [a, b] [a', b'] = .ok (Lk1, Lk2)) (hL' : latticeReciprocate [a, -b] [a', -b'] = .ok (Lk1', Lk2'))
    (G : Fin n → ℤ × ℤ) (slabs : List (Slab Nx Ny)) (m m' : List (LayerData (Fin n ⊕ Fin n)))
    (kx ky kx' ky' : Fin n → ℂ) (hkx : kx = kxOf ω θ φ e0 Lk1 Lk2 G) (hky : ky = kyOf ω θ φ e0 Lk1 Lk2 G)
    (hkx' : kx' = kxOf ω θ (-φ) e0 Lk1' Lk2' G) (hky' : ky' = kyOf ω θ (-φ) e0 Lk1' Lk2' G)
    (hm : List.Forall₂ (Built ω kx ky G) slabs m) (hm' : List.Forall₂ (Built ω kx' ky' G) slabs m')
    (ε0 εN : ℂ) (h0 : ε0 ≠ 0) (hN : εN ≠ 0) (d0 dN : ℝ)
    (hr : ∀ M ∈ uniformLayer ω kx ky ε0 d0 :: m ++ [uniformLayer ω kx ky εN dN], M.Regular) (norm : ℝ) (s p : ℂ) (q : Fin n) (r : ℝ × ℝ) :
    rtForward ω norm (uniformLayer ω kx' ky' ε0 d0 :: m' ++ [uniformLayer ω kx' ky' εN dN]) (planewave θ (-φ) s (-p) q) 0 = .ok r ↔
      rtForward ω norm (uniformLayer ω kx ky ε0 d0 :: m ++ [uniformLayer ω kx ky εN dN]) (planewave θ φ s p q) 0 = .ok r := by
  have o : Orth 1 0 0 (-1) := ⟨by norm_num, by norm_num, by norm_num⟩
  refine orient_rt o ω θ φ (-φ) e0 (by rw [Real.cos_neg]; ring) (by rw [Real.sin_neg]; ring) a b a' b' Lk1 Lk2 Lk1' Lk2' hL
    (by simpa using hL') G slabs m m' kx ky kx' ky' hkx hky hkx' hky' hm hm' ε0 εN h0 hN d0 dN hr norm s p s (-p) ?_ ?_ q r
  · rw [Real.cos_neg, Real.sin_neg]; simp only [Complex.ofReal_neg, Complex.ofReal_one, Complex.ofReal_zero]; ring
  · rw [Real.cos_neg, Real.sin_neg]; simp only [Complex.ofReal_neg, Complex.ofReal_one, Complex.ofReal_zero]; ring

/-- Hypotheses of `C117_rotation`: the grating of two pixels (`litPattern`), rotated by any angle. -/
example (α : ℝ) : ∃ (Lk1' Lk2' : ℝ × ℝ) (L' : LayerData (Fin 2 ⊕ Fin 2)) (T : ℝ),
    latticeReciprocate [Real.cos α * (Real.pi / 12), Real.sin α * (Real.pi / 12)] [-Real.sin α, Real.cos α] = .ok (Lk1', Lk2') ∧
    rtForward 13 (rtNormalization 1 litTheta)
      (uniformLayer 13 (kxOf 13 litTheta (0 + α) 1 Lk1' Lk2' litOrders) (kyOf 13 litTheta (0 + α) 1 Lk1' Lk2' litOrders) (1 : ℝ) 0 :: [L'] ++
        [uniformLayer 13 (kxOf 13 litTheta (0 + α) 1 Lk1' Lk2' litOrders) (kyOf 13 litTheta (0 + α) 1 Lk1' Lk2' litOrders) (1 : ℝ) 0])
      (planewave litTheta (0 + α) 1 0 (0 : Fin 2)) 0 = .ok (110736 / 231361, T) := by
  have h1 := Real.sin_sq_add_cos_sq α
  have hπ := Real.pi_pos
  have o : Orth (Real.cos α) (-Real.sin α) (Real.sin α) (Real.cos α) := ⟨by linarith, by linarith, by ring⟩
  obtain ⟨Lk, hL⟩ : ∃ Lk, latticeReciprocate [Real.cos α * (Real.pi / 12) - Real.sin α * 0, Real.sin α * (Real.pi / 12) + Real.cos α * 0]
      [Real.cos α * 0 - Real.sin α * 1, Real.sin α * 0 + Real.cos α * 1] = .ok Lk := by
    simp only [latticeReciprocate]
    rw [if_neg]
    · exact ⟨_, rfl⟩
    · rw [show (Real.cos α * (Real.pi / 12) - Real.sin α * 0) * (Real.sin α * 0 + Real.cos α * 1) -
        (Real.sin α * (Real.pi / 12) + Real.cos α * 0) * (Real.cos α * 0 - Real.sin α * 1) = Real.pi / 12 * (Real.sin α ^ 2 + Real.cos α ^ 2) by ring, h1]
      positivity
  have w := orient_wave o 13 litTheta 0 (0 + α) 1 (by rw [Real.cos_add]; ring) (by rw [Real.sin_add]; ring) lit_lattice
    (by simpa only [neg_mul, ← sub_eq_add_neg] using hL) litOrders rfl rfl rfl rfl
  have hs := slabSym_scale 1 (Real.cos α) (-Real.sin α) (Real.sin α) (Real.cos α) litOrders [.patterned (litPattern ((24 / 169 : ℝ) : ℂ)) (Real.pi / 2)]
  rw [scale_one] at hs
  have hb := lit_built lit_kept
  obtain ⟨L', hL'⟩ := built_image one_pos o one_unitary w (List.forall₂_cons.1 hs).1 (fun p d e => by
    injection e with e
    subst e
    exact ⟨_, lit_fft (by norm_num) lit_kept.filter⟩) hb
  rw [Complex.ofReal_one, div_one] at hL'
  refine ⟨Lk.1, Lk.2, L', 120625 / 231361, by simpa using hL, ?_⟩
  exact (C117_rotation α 13 litTheta 0 1 _ _ _ _ _ _ _ _ lit_lattice hL litOrders [_] [litSlab (24 / 169) (24 / 169)] [L'] _ _ _ _
    rfl rfl rfl rfl (.cons hb .nil) (.cons hL' .nil) _ _ (by norm_num) (by norm_num) 0 0 (lit_regular lit_kept) _ _ _ _ _).2 lit_answer

/-- Hypotheses of `C117_mirror`: the same grating, reflected in the x axis. -/
example : ∃ (Lk1' Lk2' : ℝ × ℝ) (L' : LayerData (Fin 2 ⊕ Fin 2)) (T : ℝ),
    latticeReciprocate [Real.pi / 12, 0] [0, -1] = .ok (Lk1', Lk2') ∧
    rtForward 13 (rtNormalization 1 litTheta)
      (uniformLayer 13 (kxOf 13 litTheta (-0) 1 Lk1' Lk2' litOrders) (kyOf 13 litTheta (-0) 1 Lk1' Lk2' litOrders) (1 : ℝ) 0 :: [L'] ++
        [uniformLayer 13 (kxOf 13 litTheta (-0) 1 Lk1' Lk2' litOrders) (kyOf 13 litTheta (-0) 1 Lk1' Lk2' litOrders) (1 : ℝ) 0])
      (planewave litTheta (-0) 1 (-0) (0 : Fin 2)) 0 = .ok (110736 / 231361, T) := by
  have hπ := Real.pi_pos
  have o : Orth 1 0 0 (-1) := ⟨by norm_num, by norm_num, by norm_num⟩
  obtain ⟨Lk, hL⟩ : ∃ Lk, latticeReciprocate [Real.pi / 12, -0] [(0 : ℝ), -1] = .ok Lk := by
    simp only [latticeReciprocate]
    rw [if_neg]
    · exact ⟨_, rfl⟩
    · simp [hπ.ne']
  have w := orient_wave o 13 litTheta 0 (-0) 1 (by rw [Real.cos_neg]; ring) (by rw [Real.sin_neg]; ring) lit_lattice
    (by simpa using hL) litOrders rfl rfl rfl rfl
  have hs := slabSym_scale 1 1 0 0 (-1) litOrders [.patterned (litPattern ((24 / 169 : ℝ) : ℂ)) (Real.pi / 2)]
  rw [scale_one] at hs
  have hb := lit_built lit_kept
  obtain ⟨L', hL'⟩ := built_image one_pos o one_unitary w (List.forall₂_cons.1 hs).1 (fun p d e => by
    injection e with e
    subst e
    exact ⟨_, lit_fft (by norm_num) lit_kept.filter⟩) hb
  rw [Complex.ofReal_one, div_one] at hL'
  refine ⟨Lk.1, Lk.2, L', 120625 / 231361, by simpa using hL, ?_⟩
  exact (C117_mirror 13 litTheta 0 1 _ _ _ _ _ _ _ _ lit_lattice hL litOrders [_] [litSlab (24 / 169) (24 / 169)] [L'] _ _ _ _
    rfl rfl rfl rfl (.cons hb .nil) (.cons hL' .nil) _ _ (by norm_num) (by norm_num) 0 0 (lit_regular lit_kept) _ _ _ _ _).2 lit_answer

/-! ## the retained orders -/

lemma orth_norm2 {o11 o12 o21 o22 : ℝ} (o : Orth o11 o12 o21 o22) (v : ℝ × ℝ) : norm2 (o11 * v.1 + o12 * v.2, o21 * v.1 + o22 * v.2) = norm2 v := by
  rw [norm2, norm2]
  congr 1
  linear_combination v.1 ^ 2 * o.c1 + v.2 ^ 2 * o.c2 + 2 * v.1 * v.2 * o.c12

lemma orth_dot2 {o11 o12 o21 o22 : ℝ} (o : Orth o11 o12 o21 o22) (v w : ℝ × ℝ) :
    dot2 (o11 * v.1 + o12 * v.2, o21 * v.1 + o22 * v.2) (o11 * w.1 + o12 * w.2, o21 * w.1 + o22 * w.2) = dot2 v w := by
  rw [dot2, dot2]
  linear_combination v.1 * w.1 * o.c1 + v.2 * w.2 * o.c2 + (v.1 * w.2 + v.2 * w.1) * o.c12

lemma orth_cross2 {o11 o12 o21 o22 : ℝ} (o : Orth o11 o12 o21 o22) (v w : ℝ × ℝ) :
    |cross2 (o11 * v.1 + o12 * v.2, o21 * v.1 + o22 * v.2) (o11 * w.1 + o12 * w.2, o21 * w.1 + o22 * w.2)| = |cross2 v w| := by
  have : cross2 (o11 * v.1 + o12 * v.2, o21 * v.1 + o22 * v.2) (o11 * w.1 + o12 * w.2, o21 * w.1 + o22 * w.2) =
      (o11 * o22 - o12 * o21) * cross2 v w := by rw [cross2, cross2]; ring
  rw [this, abs_mul, ← Real.sqrt_sq_eq_abs (o11 * o22 - o12 * o21), o.det_sq, Real.sqrt_one, one_mul]

/-- C117: a rotation or reflection of the lattice does not change the selection of the orders: the lengths by which they are sorted, the box
of candidates, and the answer for every sorted list of candidates are the same. -/
theorem C117_orders {o11 o12 o21 o22 : ℝ} (c1 : o11 * o11 + o21 * o21 = 1) (c2 : o12 * o12 + o22 * o22 = 1) (c12 : o11 * o12 + o21 * o22 = 0)
    (nG : ℕ) (Lk1 Lk2 Lk1' Lk2' : ℝ × ℝ) (h1 : Lk1' = (o11 * Lk1.1 + o12 * Lk1.2, o21 * Lk1.1 + o22 * Lk1.2))
    (h2 : Lk2' = (o11 * Lk2.1 + o12 * Lk2.2, o21 * Lk2.1 + o22 * Lk2.2)) (sorted : List (ℤ × ℤ)) :
    (∀ g, gl2 Lk1' Lk2' g = gl2 Lk1 Lk2 g) ∧
    orderBox (extent nG Lk1' Lk2' (norm2 Lk1')) (extent nG Lk1' Lk2' (norm2 Lk2')) =
      orderBox (extent nG Lk1 Lk2 (norm2 Lk1)) (extent nG Lk1 Lk2 (norm2 Lk2)) ∧
    gselCircular nG Lk1' Lk2' sorted = gselCircular nG Lk1 Lk2 sorted := by
  have o : Orth o11 o12 o21 o22 := ⟨c1, c2, c12⟩
  have n1 : norm2 Lk1' = norm2 Lk1 := by rw [h1, orth_norm2 o]
  have n2 : norm2 Lk2' = norm2 Lk2 := by rw [h2, orth_norm2 o]
  have dt : dot2 Lk1' Lk2' = dot2 Lk1 Lk2 := by rw [h1, h2, orth_dot2 o]
  have cr : |cross2 Lk1' Lk2'| = |cross2 Lk1 Lk2| := by rw [h1, h2, orth_cross2 o]
  have hg : gl2 Lk1' Lk2' = gl2 Lk1 Lk2 := by funext g; rw [gl2, gl2, n1, n2, dt]
  have hx : ∀ w, extent nG Lk1' Lk2' w = extent nG Lk1 Lk2 w := fun w => by
    rw [extent, extent, circRadius, circRadius, n1, n2, dt, cr]
  refine ⟨fun g => by rw [hg], by rw [hx, hx, n1, n2], ?_⟩
  rw [gselCircular, gselCircular, hx, hx, n1, n2, hg]

lemma norm2_scale {c : ℝ} (hc : 0 < c) (v : ℝ × ℝ) : norm2 (v.1 / c, v.2 / c) = norm2 v / c := by
  rw [norm2, norm2]
  simp only []
  rw [div_pow, div_pow, ← add_div, Real.sqrt_div' _ (sq_nonneg c), Real.sqrt_sq hc.le]

/-- C115: the selection of the orders does not depend on the unit of length either. -/
theorem C115_orders (c : ℝ) (hc : 0 < c) (nG : ℕ) (Lk1 Lk2 : ℝ × ℝ) (sorted : List (ℤ × ℤ)) :
    (∀ g h, gl2 (Lk1.1 / c, Lk1.2 / c) (Lk2.1 / c, Lk2.2 / c) g ≤ gl2 (Lk1.1 / c, Lk1.2 / c) (Lk2.1 / c, Lk2.2 / c) h ↔
      gl2 Lk1 Lk2 g ≤ gl2 Lk1 Lk2 h) ∧
    orderBox (extent nG (Lk1.1 / c, Lk1.2 / c) (Lk2.1 / c, Lk2.2 / c) (norm2 (Lk1.1 / c, Lk1.2 / c)))
      (extent nG (Lk1.1 / c, Lk1.2 / c) (Lk2.1 / c, Lk2.2 / c) (norm2 (Lk2.1 / c, Lk2.2 / c))) =
      orderBox (extent nG Lk1 Lk2 (norm2 Lk1)) (extent nG Lk1 Lk2 (norm2 Lk2)) ∧
    gselCircular nG (Lk1.1 / c, Lk1.2 / c) (Lk2.1 / c, Lk2.2 / c) sorted = gselCircular nG Lk1 Lk2 sorted := by
  have hc2 : 0 < c ^ 2 := by positivity
  have n1 := norm2_scale hc Lk1
  have n2 := norm2_scale hc Lk2
  have dt : dot2 (Lk1.1 / c, Lk1.2 / c) (Lk2.1 / c, Lk2.2 / c) = dot2 Lk1 Lk2 / c ^ 2 := by
    rw [dot2, dot2]; field_simp
  have cr : |cross2 (Lk1.1 / c, Lk1.2 / c) (Lk2.1 / c, Lk2.2 / c)| = |cross2 Lk1 Lk2| / c ^ 2 := by
    have : cross2 (Lk1.1 / c, Lk1.2 / c) (Lk2.1 / c, Lk2.2 / c) = cross2 Lk1 Lk2 / c ^ 2 := by rw [cross2, cross2]; field_simp
    rw [this, abs_div, abs_of_pos hc2]
  have hg : ∀ g, gl2 (Lk1.1 / c, Lk1.2 / c) (Lk2.1 / c, Lk2.2 / c) g = gl2 Lk1 Lk2 g / c ^ 2 := fun g => by
    rw [gl2, gl2, n1, n2, dt]; field_simp
  have hrad : circRadius nG (Lk1.1 / c, Lk1.2 / c) (Lk2.1 / c, Lk2.2 / c) = circRadius nG Lk1 Lk2 / c := by
    rw [circRadius, circRadius, n1, n2, cr, show (nG : ℝ) * (|cross2 Lk1 Lk2| / c ^ 2) / Real.pi = nG * |cross2 Lk1 Lk2| / Real.pi / c ^ 2 by ring,
      Real.sqrt_div' _ hc2.le, Real.sqrt_sq hc.le]
    ring
  have hx : ∀ w, extent nG (Lk1.1 / c, Lk1.2 / c) (Lk2.1 / c, Lk2.2 / c) (w / c) = extent nG Lk1 Lk2 w := fun w => by
    rw [extent, extent, hrad, dt, n1, n2]
    have : (dot2 Lk1 Lk2 / c ^ 2) ^ 2 / (norm2 Lk1 / c * (norm2 Lk2 / c)) ^ 2 = dot2 Lk1 Lk2 ^ 2 / (norm2 Lk1 * norm2 Lk2) ^ 2 := by
      rw [show norm2 Lk1 / c * (norm2 Lk2 / c) = norm2 Lk1 * norm2 Lk2 / c ^ 2 by field_simp, ← div_pow, div_div_div_cancel_right₀ hc2.ne', div_pow]
    rw [this, div_mul_eq_mul_div, div_div_div_cancel_right₀ hc.ne']
  refine ⟨fun g h => by rw [hg, hg, div_le_div_iff_of_pos_right hc2], by rw [n1, n2, hx, hx], ?_⟩
  have ht : ∀ (l : List (ℤ × ℤ)) (tol : ℝ) (i : ℕ), truncLoop (l.map (gl2 (Lk1.1 / c, Lk1.2 / c) (Lk2.1 / c, Lk2.2 / c))) (tol / c ^ 2) i =
      truncLoop (l.map (gl2 Lk1 Lk2)) tol i := by
    intro l tol i
    have hget : ∀ k, (l.map (gl2 (Lk1.1 / c, Lk1.2 / c) (Lk2.1 / c, Lk2.2 / c))).getD k 0 = (l.map (gl2 Lk1 Lk2)).getD k 0 / c ^ 2 := by
      intro k
      simp only [List.getD_eq_getElem?_getD, List.getElem?_map]
      cases l[k]? with
      | none => simp
      | some g => simp [hg]
    induction i with
    | zero => rfl
    | succ i ih =>
      rw [truncLoop, truncLoop, ih, hget, hget, ← sub_div, abs_div, abs_of_pos hc2]
      simp only [gt_iff_lt, div_lt_div_iff_of_pos_right hc2]
  rw [gselCircular, gselCircular, n1, n2, hx, hx]
  simp only []
  rw [div_pow, div_pow, max_div_div_right hc2.le, ← mul_div_assoc, ht]

/-- Hypotheses of `C117_orders`: the square lattice turned by the angle with cosine 3/5. -/
example (nG : ℕ) (sorted : List (ℤ × ℤ)) : gselCircular nG (3 / 5, 4 / 5) (-4 / 5, 3 / 5) sorted = gselCircular nG (1, 0) (0, 1) sorted :=
  (C117_orders (o11 := 3 / 5) (o12 := -4 / 5) (o21 := 4 / 5) (o22 := 3 / 5) (by norm_num) (by norm_num) (by norm_num) nG (1, 0) (0, 1) _ _ (by norm_num)
    (by norm_num) sorted).2.2

/-- Hypotheses of `C115_orders`: an oblique lattice of twice the size. -/
example (nG : ℕ) (sorted : List (ℤ × ℤ)) : gselCircular nG (1 / 2, 0 / 2) (3 / 2, 1 / 2) sorted = gselCircular nG (1, 0) (3, 1) sorted :=
  (C115_orders 2 two_pos nG (1, 0) (3, 1) sorted).2.2

end Nidn
