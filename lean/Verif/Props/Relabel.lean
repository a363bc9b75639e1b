/-
C116, C118, C119: shifted patterns, the numbering of the retained orders, flipped and rotated patterns, and the polarisation.
-/
import Verif.Lemmas.Relabel
import Verif.Lemmas.Pixels
import Verif.Props.Orientation

set_option linter.unusedSectionVars false

namespace Nidn

open Matrix

variable {Nx Ny n : ℕ}

/-- a change of the pattern of the patterned layers -/
def Slab.mapPattern (f : (Fin Nx → Fin Ny → ℂ) → Fin Nx → Fin Ny → ℂ) : Slab Nx Ny → Slab Nx Ny
  | .uniform ε d => .uniform ε d
  | .patterned s d => .patterned (f s) d

/-- patterns that have the coefficients of the old patterns at renumbered orders -/
lemma slabSym_perm (σ : Fin n ≃ Fin n) (o11 o12 o21 o22 : ℝ) (G G' : Fin n → ℤ × ℤ) (f : (Fin Nx → Fin Ny → ℂ) → Fin Nx → Fin Ny → ℂ)
    (hf : ∀ s i j, fourierCoeff (f s) (G' i - G' j) = fourierCoeff s (G (σ i) - G (σ j))) (slabs : List (Slab Nx Ny)) :
    List.Forall₂ (SlabSym 1 (permMat σ) (orthBlock o11 o12 o21 o22 (permMat σ)) G G') slabs (slabs.map (Slab.mapPattern f)) := by
  induction slabs with
  | nil => exact .nil
  | cons s _ ih =>
    refine .cons ?_ ih
    cases s with
    | uniform ε d =>
      have := SlabSym.uniform (Nx := Nx) (Ny := Ny) (c := 1) (D := permMat σ) (U := orthBlock o11 o12 o21 o22 (permMat σ)) (G := G) (G' := G') ε d
      rwa [one_mul] at this
    | patterned s d =>
      have := SlabSym.patterned (c := 1) (D := permMat σ) (U := orthBlock o11 o12 o21 o22 (permMat σ)) (G := G) (G' := G') s (f s) d
        fun epinv ep2 epinv' ep2' h1 h2 => perm_eps σ (hf s) o11 o12 o21 o22 h1 h2
      rwa [one_mul] at this

lemma perm_wave {o11 o12 o21 o22 : ℝ} (σ : Fin n ≃ Fin n) {kx ky kx' ky' : Fin n → ℂ}
    (hx : ∀ i, kx' i = o11 * kx (σ i) + o12 * ky (σ i)) (hy : ∀ i, ky' i = o21 * kx (σ i) + o22 * ky (σ i)) :
    WaveSym 1 o11 o12 o21 o22 (permMat σ) kx ky kx' ky' := by
  constructor <;> intro i j h <;> rw [permMat_apply] at h <;> split at h
  · rename_i e; subst e; rw [hx]; simp
  · simp at h
  · rename_i e; subst e; rw [hy]; simp
  · simp at h

/-- the lemma behind C118 and C119 -/
lemma perm_rt {o11 o12 o21 o22 : ℝ} (o : Orth o11 o12 o21 o22) (σ : Fin n ≃ Fin n) (ω : ℂ) (kx ky kx' ky' : Fin n → ℂ)
    (hx : ∀ i, kx' i = o11 * kx (σ i) + o12 * ky (σ i)) (hy : ∀ i, ky' i = o21 * kx (σ i) + o22 * ky (σ i)) (G G' : Fin n → ℤ × ℤ)
    (f : (Fin Nx → Fin Ny → ℂ) → Fin Nx → Fin Ny → ℂ) (hf : ∀ s i j, fourierCoeff (f s) (G' i - G' j) = fourierCoeff s (G (σ i) - G (σ j)))
    (slabs : List (Slab Nx Ny)) (m m' : List (LayerData (Fin n ⊕ Fin n)))
    (hm' : List.Forall₂ (Built ω kx' ky' G') (slabs.map (Slab.mapPattern f)) m')
    (hm : List.Forall₂ (Built ω kx ky G) slabs m) (ε0 εN : ℂ) (h0 : ε0 ≠ 0) (hN : εN ≠ 0) (d0 dN : ℝ)
    (hr : ∀ M ∈ uniformLayer ω kx ky ε0 d0 :: m ++ [uniformLayer ω kx ky εN dN], M.Regular) (norm : ℝ)
    (θ φ θ' φ' : ℝ) (s p s' p' : ℂ)
    (hsp1 : -s' * Real.cos θ' * Real.cos φ' - p' * Real.sin φ' = o11 * (-s * Real.cos θ * Real.cos φ - p * Real.sin φ) +
      o12 * (-s * Real.cos θ * Real.sin φ + p * Real.cos φ))
    (hsp2 : -s' * Real.cos θ' * Real.sin φ' + p' * Real.cos φ' = o21 * (-s * Real.cos θ * Real.cos φ - p * Real.sin φ) +
      o22 * (-s * Real.cos θ * Real.sin φ + p * Real.cos φ)) (q : Fin n) (r : ℝ × ℝ) :
    rtForward ω norm (uniformLayer ω kx' ky' ε0 d0 :: m' ++ [uniformLayer ω kx' ky' εN dN]) (planewave θ' φ' s' p' q) 0 = .ok r ↔
      rtForward ω norm (uniformLayer ω kx ky ε0 d0 :: m ++ [uniformLayer ω kx ky εN dN]) (planewave θ φ s p (σ q)) 0 = .ok r := by
  have w := perm_wave σ hx hy
  have e : ω / ((1 : ℝ) : ℂ) = ω := by simp
  have := sym_rt one_pos o (permMat_unitary σ) w ω (slabSym_perm σ o11 o12 o21 o22 G G' f hf slabs) hm (by rw [e]; exact hm') h0 hN d0 dN hr norm
    (planewave θ φ s p (σ q)) 0 r
  rwa [e, orth_perm_planewave σ θ φ θ' φ' s p s' p' hsp1 hsp2 q, Matrix.mulVec_zero, one_mul, one_mul] at this

/-- C118: the numbering of the retained orders (numpy's default sort leaves the order of equally long ones open) does not matter: with the
orders listed in any other order, the same wave gives the same reflectance and transmittance. -/
theorem C118_numbering (σ : Fin n ≃ Fin n) (ω : ℂ) (θ φ e0 : ℝ) (Lk1 Lk2 : ℝ × ℝ) (G G' : Fin n → ℤ × ℤ) (hG : ∀ i, G' i = G (σ i))
    (slabs : List (Slab Nx Ny)) (m m' : List (LayerData (Fin n ⊕ Fin n)))
    (kx ky kx' ky' : Fin n → ℂ) (hkx : kx = kxOf ω θ φ e0 Lk1 Lk2 G) (hky : ky = kyOf ω θ φ e0 Lk1 Lk2 G)
    (hkx' : kx' = kxOf ω θ φ e0 Lk1 Lk2 G') (hky' : ky' = kyOf ω θ φ e0 Lk1 Lk2 G') (hm' : List.Forall₂ (Built ω kx' ky' G') slabs m')
    (hm : List.Forall₂ (Built ω kx ky G) slabs m) (ε0 εN : ℂ) (h0 : ε0 ≠ 0) (hN : εN ≠ 0) (d0 dN : ℝ)
    (hr : ∀ M ∈ uniformLayer ω kx ky ε0 d0 :: m ++ [uniformLayer ω kx ky εN dN], M.Regular) (norm : ℝ)
    (s p : ℂ) (q : Fin n) (r : ℝ × ℝ) :
    rtForward ω norm (uniformLayer ω kx' ky' ε0 d0 :: m' ++ [uniformLayer ω kx' ky' εN dN]) (planewave θ φ s p q) 0 = .ok r ↔
      rtForward ω norm (uniformLayer ω kx ky ε0 d0 :: m ++ [uniformLayer ω kx ky εN dN]) (planewave θ φ s p (σ q)) 0 = .ok r := by
  have e : slabs.map (Slab.mapPattern fun s => s) = slabs := by
    conv_rhs => rw [← List.map_id slabs]
    congr 1
    funext s
    cases s <;> rfl
  refine perm_rt orth_one σ ω kx ky kx' ky' (fun i => ?_) (fun i => ?_) G G' (fun s => s) (fun s i j => by rw [hG, hG]) slabs m m' (by rw [e]; exact hm')
    hm ε0 εN h0 hN d0 dN hr norm θ φ θ φ s p s p (by simp) (by simp) q r
  · rw [hkx, hkx', hky, kxOf, kxOf, kyOf, hG]; simp
  · rw [hkx, hky', hky, kxOf, kyOf, kyOf, hG]; simp

/-- Hypotheses of `C118_numbering`: the grating of two pixels (`litPattern`) with its two orders exchanged; the central order is then number 1. -/
example : ∃ (L' : LayerData (Fin 2 ⊕ Fin 2)),
    rtForward 13 (rtNormalization 1 litTheta)
      (uniformLayer 13 (kxOf 13 litTheta 0 1 (12 / Real.pi, 0) (0, 1) ![(-1, 0), (0, 0)]) (kyOf 13 litTheta 0 1 (12 / Real.pi, 0) (0, 1) ![(-1, 0), (0, 0)])
          (1 : ℝ) 0 :: [L'] ++
        [uniformLayer 13 (kxOf 13 litTheta 0 1 (12 / Real.pi, 0) (0, 1) ![(-1, 0), (0, 0)])
          (kyOf 13 litTheta 0 1 (12 / Real.pi, 0) (0, 1) ![(-1, 0), (0, 0)]) (1 : ℝ) 0])
      (planewave litTheta 0 1 0 (1 : Fin 2)) 0 = .ok (110736 / 231361, 120625 / 231361) := by
  have hG : ∀ i, (![(-1, 0), (0, 0)] : Fin 2 → ℤ × ℤ) i = litOrders (Equiv.swap 0 1 i) := by
    intro i; fin_cases i <;> simp [litOrders]
  have hb := lit_built lit_kept
  have w := perm_wave (o11 := 1) (o12 := 0) (o21 := 0) (o22 := 1) (Equiv.swap (0 : Fin 2) 1) (kx := litKx) (ky := litKy)
    (kx' := kxOf 13 litTheta 0 1 (12 / Real.pi, 0) (0, 1) ![(-1, 0), (0, 0)]) (ky' := kyOf 13 litTheta 0 1 (12 / Real.pi, 0) (0, 1) ![(-1, 0), (0, 0)])
    (fun i => by rw [litKx, litKy, kxOf, kxOf, hG]; simp) (fun i => by rw [litKx, litKy, kyOf, kyOf, hG]; simp)
  have hs := slabSym_perm (Equiv.swap (0 : Fin 2) 1) 1 0 0 1 litOrders ![(-1, 0), (0, 0)] (fun s => s)
    (fun s i j => by rw [hG, hG]) [.patterned (litPattern ((24 / 169 : ℝ) : ℂ)) (Real.pi / 2)]
  obtain ⟨L', hL'⟩ := built_image one_pos orth_one (permMat_unitary _) w (List.forall₂_cons.1 hs).1 (fun p d e => by
    injection e with e
    subst e
    refine epsilonFft_ok (fun i j => ?_) ?_
    · fin_cases i <;> fin_cases j <;> simp
    · have z : ((0 : ℤ × ℤ)) = (0, 0) := rfl
      rw [Matrix.det_fin_two]
      simp [z, lit_coeff]
      norm_num) hb
  rw [Complex.ofReal_one, div_one] at hL'
  refine ⟨L', ?_⟩
  refine (C118_numbering (Equiv.swap 0 1) 13 litTheta 0 1 _ _ litOrders ![(-1, 0), (0, 0)] hG [_] [litSlab (24 / 169) (24 / 169)] [L'] litKx litKy _ _
    rfl rfl rfl rfl (.cons hL' .nil) (.cons hb .nil) _ _ (by norm_num) (by norm_num) 0 0 (lit_regular lit_kept) _ _ _ _ _).2 ?_
  rw [Equiv.swap_apply_right]
  exact lit_answer

/-- C119: on a rectangular lattice, patterns flipped along x (the array axis of the pixels) and a wave from the flipped direction with the
flipped polarisation give the same reflectance and transmittance. -/
theorem C119_flip [NeZero Nx] (σ : Fin n ≃ Fin n) (ω : ℂ) (θ φ e0 u v : ℝ) (G : Fin n → ℤ × ℤ) (hG : ∀ i, G (σ i) = (-(G i).1, (G i).2))
    (slabs : List (Slab Nx Ny)) (m m' : List (LayerData (Fin n ⊕ Fin n)))
    (kx ky kx' ky' : Fin n → ℂ) (hkx : kx = kxOf ω θ φ e0 (u, 0) (0, v) G) (hky : ky = kyOf ω θ φ e0 (u, 0) (0, v) G)
    (hkx' : kx' = kxOf ω θ (Real.pi - φ) e0 (u, 0) (0, v) G) (hky' : ky' = kyOf ω θ (Real.pi - φ) e0 (u, 0) (0, v) G)
    (hm' : List.Forall₂ (Built ω kx' ky' G) (slabs.map (Slab.mapPattern flipPattern)) m')
    (hm : List.Forall₂ (Built ω kx ky G) slabs m) (ε0 εN : ℂ) (h0 : ε0 ≠ 0) (hN : εN ≠ 0) (d0 dN : ℝ)
    (hr : ∀ M ∈ uniformLayer ω kx ky ε0 d0 :: m ++ [uniformLayer ω kx ky εN dN], M.Regular) (norm : ℝ)
    (s p : ℂ) (q : Fin n) (r : ℝ × ℝ) :
    rtForward ω norm (uniformLayer ω kx' ky' ε0 d0 :: m' ++ [uniformLayer ω kx' ky' εN dN]) (planewave θ (Real.pi - φ) s (-p) q) 0 = .ok r ↔
      rtForward ω norm (uniformLayer ω kx ky ε0 d0 :: m ++ [uniformLayer ω kx ky εN dN]) (planewave θ φ s p (σ q)) 0 = .ok r := by
  have o : Orth (-1) 0 0 1 := ⟨by norm_num, by norm_num, by norm_num⟩
  refine perm_rt o σ ω kx ky kx' ky' (fun i => ?_) (fun i => ?_) G G flipPattern (fun s i j => ?_) slabs m m' hm'
    hm ε0 εN h0 hN d0 dN hr norm θ φ θ (Real.pi - φ) s p s (-p) ?_ ?_ q r
  · rw [hkx, hkx', hky, kxOf, kxOf, kyOf, waveX, waveX, hG, Real.cos_pi_sub]; push_cast; ring
  · rw [hkx, hky', hky, kxOf, kyOf, kyOf, waveY, waveY, hG, Real.sin_pi_sub]; push_cast; ring
  · rw [coeff_flip, hG, hG]
    congr 1
    ext <;> simp
    ring
  · rw [Real.cos_pi_sub, Real.sin_pi_sub]; push_cast; ring
  · rw [Real.cos_pi_sub, Real.sin_pi_sub]; push_cast; ring

/-- C119: on a square lattice, patterns rotated by a quarter turn and a wave from the rotated direction give the same reflectance and
transmittance. -/
theorem C119_turn {N : ℕ} [NeZero N] (σ : Fin n ≃ Fin n) (ω : ℂ) (θ φ e0 u : ℝ) (G : Fin n → ℤ × ℤ) (hG : ∀ i, G (σ i) = ((G i).2, -(G i).1))
    (slabs : List (Slab N N)) (m m' : List (LayerData (Fin n ⊕ Fin n)))
    (kx ky kx' ky' : Fin n → ℂ) (hkx : kx = kxOf ω θ φ e0 (u, 0) (0, u) G) (hky : ky = kyOf ω θ φ e0 (u, 0) (0, u) G)
    (hkx' : kx' = kxOf ω θ (φ + Real.pi / 2) e0 (u, 0) (0, u) G) (hky' : ky' = kyOf ω θ (φ + Real.pi / 2) e0 (u, 0) (0, u) G)
    (hm' : List.Forall₂ (Built ω kx' ky' G) (slabs.map (Slab.mapPattern turnPattern)) m')
    (hm : List.Forall₂ (Built ω kx ky G) slabs m) (ε0 εN : ℂ) (h0 : ε0 ≠ 0) (hN : εN ≠ 0) (d0 dN : ℝ)
    (hr : ∀ M ∈ uniformLayer ω kx ky ε0 d0 :: m ++ [uniformLayer ω kx ky εN dN], M.Regular) (norm : ℝ)
    (s p : ℂ) (q : Fin n) (r : ℝ × ℝ) :
    rtForward ω norm (uniformLayer ω kx' ky' ε0 d0 :: m' ++ [uniformLayer ω kx' ky' εN dN]) (planewave θ (φ + Real.pi / 2) s p q) 0 = .ok r ↔
      rtForward ω norm (uniformLayer ω kx ky ε0 d0 :: m ++ [uniformLayer ω kx ky εN dN]) (planewave θ φ s p (σ q)) 0 = .ok r := by
  have o : Orth 0 (-1) 1 0 := ⟨by norm_num, by norm_num, by norm_num⟩
  refine perm_rt o σ ω kx ky kx' ky' (fun i => ?_) (fun i => ?_) G G turnPattern (fun s i j => ?_) slabs m m' hm'
    hm ε0 εN h0 hN d0 dN hr norm θ φ θ (φ + Real.pi / 2) s p s p ?_ ?_ q r
  · rw [hkx, hkx', hky, kxOf, kxOf, kyOf, waveX, waveY, hG, Real.cos_add_pi_div_two]; push_cast; ring
  · rw [hkx, hky', hky, kxOf, kyOf, kyOf, waveX, waveY, hG, Real.sin_add_pi_div_two]; push_cast; ring
  · rw [coeff_turn, hG, hG]
    congr 1
    ext <;> simp
    ring
  · rw [Real.cos_add_pi_div_two, Real.sin_add_pi_div_two]; push_cast; ring
  · rw [Real.cos_add_pi_div_two, Real.sin_add_pi_div_two]; push_cast; ring

/-! ## the polarisation -/

/-- a sesquilinear expression of real combinations of two vectors -/
lemma star_dot_comb {ι : Type} [Fintype ι] (x1 x2 y1 y2 : ι → ℂ) : ∃ α β γ : ℂ, ∀ s p : ℝ,
    star ((s : ℂ) • x1 + (p : ℂ) • x2) ⬝ᵥ ((s : ℂ) • y1 + (p : ℂ) • y2) = (s : ℂ) ^ 2 * α + (p : ℂ) ^ 2 * β + s * p * γ := by
  refine ⟨star x1 ⬝ᵥ y1, star x2 ⬝ᵥ y2, star x1 ⬝ᵥ y2 + star x2 ⬝ᵥ y1, fun s p => ?_⟩
  simp only [star_add, star_smul, add_dotProduct, dotProduct_add, smul_dotProduct, dotProduct_smul, smul_eq_mul, Complex.star_def,
    Complex.conj_ofReal]
  ring

/-- the fluxes of real combinations of two waves -/
lemma zflux_comb (ω : ℂ) (L : LayerData (Fin n ⊕ Fin n)) (a1 a2 b1 b2 : Fin n ⊕ Fin n → ℂ) : ∃ α β γ α' β' γ' : ℝ, ∀ s p : ℝ,
    ((zPoyntingFlux ω L ((s : ℂ) • a1 + (p : ℂ) • a2) ((s : ℂ) • b1 + (p : ℂ) • b2)).1).re = s ^ 2 * α + p ^ 2 * β + s * p * γ ∧
    ((zPoyntingFlux ω L ((s : ℂ) • a1 + (p : ℂ) • a2) ((s : ℂ) • b1 + (p : ℂ) • b2)).2).re = s ^ 2 * α' + p ^ 2 * β' + s * p * γ' := by
  obtain ⟨f1, f2, f3, hf⟩ := star_dot_comb (fluxA ω L *ᵥ a1) (fluxA ω L *ᵥ a2) (L.phi *ᵥ a1) (L.phi *ᵥ a2)
  obtain ⟨g1, g2, g3, hg⟩ := star_dot_comb (fluxA ω L *ᵥ b1) (fluxA ω L *ᵥ b2) (L.phi *ᵥ b1) (L.phi *ᵥ b2)
  obtain ⟨i1, i2, i3, hi⟩ := star_dot_comb (L.phi *ᵥ b1) (L.phi *ᵥ b2) (fluxA ω L *ᵥ a1) (fluxA ω L *ᵥ a2)
  obtain ⟨j1, j2, j3, hj⟩ := star_dot_comb (fluxA ω L *ᵥ b1) (fluxA ω L *ᵥ b2) (L.phi *ᵥ a1) (L.phi *ᵥ a2)
  refine ⟨f1.re + 0.5 * (i1 - j1).re, f2.re + 0.5 * (i2 - j2).re, f3.re + 0.5 * (i3 - j3).re, -g1.re + 0.5 * (i1 - j1).re,
    -g2.re + 0.5 * (i2 - j2).re, -g3.re + 0.5 * (i3 - j3).re, fun s p => ?_⟩
  have e : (0.5 : ℂ) = ((0.5 : ℝ) : ℂ) := by norm_num
  rw [zflux_dot]
  simp only [Matrix.mulVec_add, Matrix.mulVec_smul, hf, hg, hi, hj, Complex.add_re, Complex.neg_re, Complex.ofReal_re, Complex.conj_re, e,
    Complex.re_ofReal_mul, Complex.sub_re, ← Complex.ofReal_pow, ← Complex.ofReal_mul]
  constructor <;> ring

lemma planewave_comb (θ φ : ℝ) (s p : ℂ) (q : Fin n) : planewave θ φ s p q = s • planewave θ φ 1 0 q + p • planewave θ φ 0 1 q := by
  ext (i | i) <;> simp only [planewave, Sum.elim_inl, Sum.elim_inr, Pi.add_apply, Pi.smul_apply, smul_eq_mul] <;> split <;> ring

/-- reflectance and transmittance are quadratic in the amplitudes of the two linear polarisations -/
lemma rt_quadratic (ω : ℂ) (norm : ℝ) (l : List (LayerData (Fin n ⊕ Fin n))) (θ φ : ℝ) (q : Fin n) {r : ℝ × ℝ}
    (h : rtForward ω norm l (planewave θ φ 1 0 q) 0 = .ok r) : ∃ α β γ α' β' γ' : ℝ, ∀ s p : ℝ,
    rtForward ω norm l (planewave θ φ s p q) 0 = .ok (s ^ 2 * α + p ^ 2 * β + s * p * γ, s ^ 2 * α' + p ^ 2 * β' + s * p * γ') := by
  rw [rtForward, bind_ok] at h
  obtain ⟨x, hx, h⟩ := h
  rw [solveExterior, bind_ok] at hx
  obtain ⟨S, hS, -⟩ := hx
  cases e1 : l.head? with
  | none => rw [e1] at h; simp at h
  | some L0 =>
    cases e2 : l.getLast? with
    | none => rw [e1, e2] at h; simp at h
    | some LN =>
      obtain ⟨_, _, _, f1, f2, f3, hf⟩ := zflux_comb ω L0 (planewave θ φ 1 0 q) (planewave θ φ 0 1 q) (S.s21 *ᵥ planewave θ φ 1 0 q)
        (S.s21 *ᵥ planewave θ φ 0 1 q)
      obtain ⟨g1, g2, g3, _, _, _, hg⟩ := zflux_comb ω LN (S.s11 *ᵥ planewave θ φ 1 0 q) (S.s11 *ᵥ planewave θ φ 0 1 q) 0 0
      refine ⟨-f1 * norm, -f2 * norm, -f3 * norm, g1 * norm, g2 * norm, g3 * norm, fun s p => ?_⟩
      rw [rtForward, solveExterior, hS, ok_bind]
      have e0 := planewave_comb θ φ (s : ℂ) (p : ℂ) q
      have hf' := (hf s p).2
      have hg' := (hg s p).1
      rw [← Matrix.mulVec_smul, ← Matrix.mulVec_smul, ← Matrix.mulVec_add, ← e0] at hf' hg'
      simp only [smul_zero, add_zero] at hg'
      simp only [Matrix.mulVec_zero, add_zero, pure, Except.pure]
      rw [ok_bind, e1, e2]
      simp only []
      rw [Complex.neg_re, hf', hg']
      congr 2 <;> ring

/-- C119: at normal incidence on a square lattice, a structure whose patterns do not change under a quarter turn reflects and transmits all
linear polarisations alike: reflectance and transmittance only depend on the total intensity `s² + p²`. -/
theorem C119_polarisation {N : ℕ} [NeZero N] (σ : Fin n ≃ Fin n) (ω : ℂ) (e0 u : ℝ) (G : Fin n → ℤ × ℤ) (hG : ∀ i, G (σ i) = ((G i).2, -(G i).1))
    (slabs : List (Slab N N)) (hsym : ∀ s d, Slab.patterned s d ∈ slabs → ∀ x y, s y (-x) = s x y) (m : List (LayerData (Fin n ⊕ Fin n)))
    (kx ky : Fin n → ℂ) (hkx : kx = kxOf ω 0 0 e0 (u, 0) (0, u) G) (hky : ky = kyOf ω 0 0 e0 (u, 0) (0, u) G)
    (hm : List.Forall₂ (Built ω kx ky G) slabs m) (ε0 εN : ℂ) (h0 : ε0 ≠ 0) (hN : εN ≠ 0) (d0 dN : ℝ)
    (hr : ∀ M ∈ uniformLayer ω kx ky ε0 d0 :: m ++ [uniformLayer ω kx ky εN dN], M.Regular) (norm : ℝ)
    (q : Fin n) (hq : σ q = q) (R T : ℝ)
    (h : rtForward ω norm (uniformLayer ω kx ky ε0 d0 :: m ++ [uniformLayer ω kx ky εN dN]) (planewave 0 0 1 0 q) 0 = .ok (R, T)) (s p : ℝ) :
    rtForward ω norm (uniformLayer ω kx ky ε0 d0 :: m ++ [uniformLayer ω kx ky εN dN]) (planewave 0 0 s p q) 0 =
      .ok ((s ^ 2 + p ^ 2) * R, (s ^ 2 + p ^ 2) * T) := by
  have hmap : slabs.map (Slab.mapPattern turnPattern) = slabs := by
    conv_rhs => rw [← List.map_id slabs]
    refine List.map_congr_left fun x hx => ?_
    cases x with
    | uniform ε d => rfl
    | patterned s d =>
      have : turnPattern s = s := by funext x y; exact hsym s d hx x y
      rw [Slab.mapPattern, this]; rfl
  have hkx' : kx = kxOf ω 0 (0 + Real.pi / 2) e0 (u, 0) (0, u) G := by rw [hkx]; funext i; simp [kxOf, waveX]
  have hky' : ky = kyOf ω 0 (0 + Real.pi / 2) e0 (u, 0) (0, u) G := by rw [hky]; funext i; simp [kyOf, waveY]
  have key := fun (s p : ℂ) (r : ℝ × ℝ) => C119_turn σ ω 0 0 e0 u G hG slabs m m kx ky kx ky hkx hky hkx' hky' (by rw [hmap]; exact hm) hm ε0 εN h0
    hN d0 dN hr norm s p q r
  have hpw : ∀ s p : ℂ, planewave 0 (0 + Real.pi / 2) s p q = planewave 0 0 p (-s) q := by
    intro s p
    ext (i | i) <;> simp [planewave]
  rw [hq] at key
  simp only [hpw] at key
  obtain ⟨α, β, γ, α', β', γ', hquad⟩ := rt_quadratic ω norm _ 0 0 q h
  have k : ∀ s p : ℝ, s ^ 2 * α + p ^ 2 * β + s * p * γ = p ^ 2 * α + s ^ 2 * β - s * p * γ ∧
      s ^ 2 * α' + p ^ 2 * β' + s * p * γ' = p ^ 2 * α' + s ^ 2 * β' - s * p * γ' := by
    intro s p
    have h1 := (key s p _).2 (hquad s p)
    have h2 := hquad p (-s)
    rw [Complex.ofReal_neg, h1] at h2
    injection h2 with h2
    injection h2 with h2 h3
    exact ⟨by linarith, by linarith⟩
  have hone := hquad 1 0
  rw [Complex.ofReal_one, Complex.ofReal_zero, h] at hone
  injection hone with hone
  injection hone with eR eT
  obtain ⟨k1, k1'⟩ := k 1 0
  obtain ⟨k2, k2'⟩ := k 1 1
  have e1 : β = α := by linarith
  have e2 : γ = 0 := by linarith
  have e3 : β' = α' := by linarith
  have e4 : γ' = 0 := by linarith
  rw [hquad, e1, e2, e3, e4, eR, eT]
  congr 2 <;> ring

/-! ## examples -/

/-- nine different pixels, with mean 5 -/
def ninePixels : Fin 3 → Fin 3 → ℂ := fun i j => 1 + 3 * (i : ℕ) + (j : ℕ)

/-- a square post in a unit cell of nine pixels, with mean 2 -/
def postPixels : Fin 3 → Fin 3 → ℂ := fun i j => if i = 0 ∧ j = 0 then 10 else 1

lemma nine_mean : fourierCoeff ninePixels 0 = (5 : ℝ) ∧ fourierCoeff (flipPattern ninePixels) 0 = (5 : ℝ) ∧
    fourierCoeff (turnPattern ninePixels) 0 = (5 : ℝ) := by
  have h : fourierCoeff ninePixels 0 = (5 : ℝ) := by
    simp [fourierCoeff, ninePixels, Fin.sum_univ_three]; norm_num
  refine ⟨h, ?_, ?_⟩
  · rw [coeff_flip]; exact h
  · rw [coeff_turn]; exact h

lemma post_mean : fourierCoeff postPixels 0 = (2 : ℝ) := by
  simp [fourierCoeff, postPixels, Fin.sum_univ_three]; norm_num

lemma single_k (φ u v : ℝ) : kxOf 1 0 φ 1 (u, 0) (0, v) oneOrder = 0 ∧ kyOf 1 0 φ 1 (u, 0) (0, v) oneOrder = 0 := by
  constructor <;> funext i <;> simp [kxOf, kyOf, waveX, waveY, oneOrder]

/-- Hypotheses of `C119_flip`: nine different pixels at normal incidence, with the central order retained. -/
example (norm : ℝ) (s p : ℂ) (r : ℝ × ℝ) :
    rtForward 1 norm (uniformLayer 1 (0 : Fin 1 → ℂ) 0 (1 : ℝ) 0 :: [meanLayer 5 2] ++ [uniformLayer 1 0 0 (1 : ℝ) 0])
        (planewave 0 (Real.pi - 0) s (-p) 0) 0 = .ok r ↔
      rtForward 1 norm (uniformLayer 1 (0 : Fin 1 → ℂ) 0 (1 : ℝ) 0 :: [meanLayer 5 2] ++ [uniformLayer 1 0 0 (1 : ℝ) 0]) (planewave 0 0 s p 0) 0 = .ok r :=
  C119_flip (Equiv.refl _) 1 0 0 1 1 2 oneOrder (fun i => rfl) [.patterned ninePixels 2] [meanLayer 5 2] [meanLayer 5 2] 0 0 0 0
    (single_k 0 1 2).1.symm (single_k 0 1 2).2.symm (single_k _ 1 2).1.symm (single_k _ 1 2).2.symm
    (.cons (mean_built _ 5 (by norm_num) nine_mean.2.1 2) .nil) (.cons (mean_built _ 5 (by norm_num) nine_mean.1 2) .nil) _ _ (by norm_num) (by norm_num) 0 0
    (mean_regular 5 (by norm_num) 2) norm s p 0 r

/-- Hypotheses of `C119_turn`: the same pixels and their quarter turn. -/
example (norm : ℝ) (s p : ℂ) (r : ℝ × ℝ) :
    rtForward 1 norm (uniformLayer 1 (0 : Fin 1 → ℂ) 0 (1 : ℝ) 0 :: [meanLayer 5 2] ++ [uniformLayer 1 0 0 (1 : ℝ) 0])
        (planewave 0 (0 + Real.pi / 2) s p 0) 0 = .ok r ↔
      rtForward 1 norm (uniformLayer 1 (0 : Fin 1 → ℂ) 0 (1 : ℝ) 0 :: [meanLayer 5 2] ++ [uniformLayer 1 0 0 (1 : ℝ) 0]) (planewave 0 0 s p 0) 0 = .ok r :=
  C119_turn (Equiv.refl _) 1 0 0 1 1 oneOrder (fun i => rfl) [.patterned ninePixels 2] [meanLayer 5 2] [meanLayer 5 2] 0 0 0 0
    (single_k 0 1 1).1.symm (single_k 0 1 1).2.symm (single_k _ 1 1).1.symm (single_k _ 1 1).2.symm
    (.cons (mean_built _ 5 (by norm_num) nine_mean.2.2 2) .nil) (.cons (mean_built _ 5 (by norm_num) nine_mean.1 2) .nil) _ _ (by norm_num) (by norm_num) 0 0
    (mean_regular 5 (by norm_num) 2) norm s p 0 r

/-- Hypotheses of `C119_polarisation`: the square post, and light polarised along the diagonal of the cell. -/
example (R T : ℝ) (h : rtForward 1 1 (uniformLayer 1 (0 : Fin 1 → ℂ) 0 (1 : ℝ) 0 :: [meanLayer 2 3] ++ [uniformLayer 1 0 0 (1 : ℝ) 0])
    (planewave 0 0 1 0 0) 0 = .ok (R, T)) :
    rtForward 1 1 (uniformLayer 1 (0 : Fin 1 → ℂ) 0 (1 : ℝ) 0 :: [meanLayer 2 3] ++ [uniformLayer 1 0 0 (1 : ℝ) 0])
      (planewave 0 0 ((3 / 5 : ℝ) : ℂ) ((4 / 5 : ℝ) : ℂ) 0) 0 = .ok (R, T) := by
  have := C119_polarisation (Equiv.refl _) 1 1 1 oneOrder (fun i => rfl) [.patterned postPixels 3] (fun s d hs x y => by
      rw [List.mem_singleton] at hs
      injection hs with hs
      subst hs
      fin_cases x <;> fin_cases y <;> rfl) [meanLayer 2 3] 0 0 (single_k 0 1 1).1.symm (single_k 0 1 1).2.symm
    (.cons (mean_built _ 2 (by norm_num) post_mean 3) .nil) _ _ (by norm_num) (by norm_num) 0 0 (mean_regular 2 (by norm_num) 3) 1 0 rfl R T h (3 / 5) (4 / 5)
  rw [this]
  norm_num

end Nidn
