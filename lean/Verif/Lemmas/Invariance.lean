/-
Structures related by a symmetry have the same reflectance and transmittance.
-/
import Verif.Lemmas.Symmetry
import Verif.Spec.Structure

set_option linter.unusedSectionVars false

namespace Nidn

open Matrix

variable {Nx Ny n : ℕ}

/-- The slab `t` is the slab `s` with lengths scaled by `c`, transformed by `U = O ⊗ D`: the matrices that the solver computes for its
permittivity are the transformed ones. -/
inductive SlabSym (c : ℝ) (D : Matrix (Fin n) (Fin n) ℂ) (U : Matrix (Fin n ⊕ Fin n) (Fin n ⊕ Fin n) ℂ) (G G' : Fin n → ℤ × ℤ) :
    Slab Nx Ny → Slab Nx Ny → Prop
  | uniform (ε : ℂ) (d : ℝ) : SlabSym c D U G G' (.uniform ε d) (.uniform ε (c * d))
  | patterned (s s' : Fin Nx → Fin Ny → ℂ) (d : ℝ)
      (h : ∀ epinv ep2 epinv' ep2', epsilonFft (1 / Nx / Ny) (.iso s) G = .ok (epinv, ep2) →
        epsilonFft (1 / Nx / Ny) (.iso s') G' = .ok (epinv', ep2') → epinv' * D = D * epinv ∧ ep2' * U = U * ep2) :
      SlabSym c D U G G' (.patterned s d) (.patterned s' (c * d))

section

variable {c o11 o12 o21 o22 : ℝ} {D : Matrix (Fin n) (Fin n) ℂ} {kx ky kx' ky' : Fin n → ℂ}

lemma uniform_isEig {ω : ℂ} (kx ky : Fin n → ℂ) {ε : ℂ} (hε : ε ≠ 0) (d : ℝ) :
    IsEig (eigenMat (ε • (1 : Matrix (Fin n ⊕ Fin n) (Fin n ⊕ Fin n) ℂ)) (kpPatterned ω ((1 / ε) • 1) kx ky) kx ky)
      (Sum.elim (fun i => ε * ω ^ 2 - kx i ^ 2 - ky i ^ 2) (fun i => ε * ω ^ 2 - kx i ^ 2 - ky i ^ 2)) (uniformLayer ω kx ky ε d).phi := by
  have := uniform_eig (ω := ω) kx ky hε d
  rw [show (uniformLayer ω kx ky ε d).kp = kpPatterned ω ((1 / ε) • 1) kx ky from kpUniform_eq _ _ _ _] at this
  rw [IsEig, this]
  congr 2
  ext (m | m)
  · exact (qUniform_sq ω ε kx ky m).1
  · exact (qUniform_sq ω ε kx ky m).2

lemma uniform_gauge (hc : 0 < c) (o : Orth o11 o12 o21 o22) (hD : D.conjTranspose * D = 1) (w : WaveSym c o11 o12 o21 o22 D kx ky kx' ky')
    (ω : ℂ) {ε : ℂ} (hε : ε ≠ 0) (d : ℝ) :
    IsUnit (orthBlock o11 o12 o21 o22 D)⁻¹.det ∧
      Gauge c (orthBlock o11 o12 o21 o22 D) (orthBlock o11 o12 o21 o22 D)⁻¹ (uniformLayer ω kx ky ε d) (uniformLayer (ω / c) kx' ky' ε (c * d)) := by
  have hU := isUnit_of_unitary (orthBlock_unitary o hD)
  have hk := w.kp o hc.ne' ω (epinv := (1 / ε) • 1) (epinv' := (1 / ε) • 1) (by simp)
  have he := w.eigen o hk (ep2 := ε • 1) (ep2' := ε • 1) (by simp)
  have key := gauge_of_sym hc hU he (L := uniformLayer ω kx ky ε d) (L' := uniformLayer (ω / c) kx' ky' ε (c * d))
    (uniform_isEig kx ky hε d) (uniform_isEig kx' ky' hε (c * d)) (by rintro (m | m) <;> rfl) (by rintro (m | m) <;> rfl)
    (by simp [uniformLayer]) (by simp [uniformLayer])
    (by
      rw [show (uniformLayer ω kx ky ε d).kp = kpPatterned ω ((1 / ε) • 1) kx ky from kpUniform_eq _ _ _ _,
        show (uniformLayer (ω / c) kx' ky' ε (c * d)).kp = kpPatterned (ω / c) ((1 / ε) • 1) kx' ky' from kpUniform_eq _ _ _ _]
      exact hk) rfl
  rw [show (uniformLayer ω kx ky ε d).phi⁻¹ * (orthBlock o11 o12 o21 o22 D)⁻¹ * (uniformLayer (ω / c) kx' ky' ε (c * d)).phi =
    (orthBlock o11 o12 o21 o22 D)⁻¹ by simp [uniformLayer]] at key
  exact key

lemma built_gauge (hc : 0 < c) (o : Orth o11 o12 o21 o22) (hD : D.conjTranspose * D = 1) (w : WaveSym c o11 o12 o21 o22 D kx ky kx' ky')
    {ω : ℂ} {G G' : Fin n → ℤ × ℤ} {s s' : Slab Nx Ny} (hs : SlabSym c D (orthBlock o11 o12 o21 o22 D) G G' s s') {L L' : LayerData (Fin n ⊕ Fin n)}
    (hL : Built ω kx ky G s L) (hL' : Built (ω / c) kx' ky' G' s' L') :
    ∃ X, IsUnit X.det ∧ Gauge c (orthBlock o11 o12 o21 o22 D) X L L' := by
  cases hs with
  | uniform ε d =>
    cases hL with
    | uniform _ _ hε =>
      cases hL' with
      | uniform _ _ _ => exact ⟨_, uniform_gauge hc o hD w ω hε d⟩
  | patterned s s' d h =>
    cases hL with
    | patterned _ _ epinv ep2 h1 lam phi he hphi =>
      cases hL' with
      | patterned _ _ epinv' ep2' h2 lam' phi' he' hphi' =>
        obtain ⟨e1, e2⟩ := h _ _ _ _ h1 h2
        have hk := w.kp o hc.ne' ω e1
        exact ⟨_, gauge_of_sym hc (isUnit_of_unitary (orthBlock_unitary o hD)) (w.eigen o hk e2) (L := patternedLayer ω kx ky epinv lam phi d)
          (L' := patternedLayer (ω / c) kx' ky' epinv' lam' phi' (c * d)) he he' (fun _ => rfl) (fun _ => rfl) hphi hphi' hk rfl⟩

/-- the image of a structure under a symmetry has eigenvectors as soon as the structure has -/
lemma built_image (hc : 0 < c) (o : Orth o11 o12 o21 o22) (hD : D.conjTranspose * D = 1) (w : WaveSym c o11 o12 o21 o22 D kx ky kx' ky')
    {ω : ℂ} {G G' : Fin n → ℤ × ℤ} {s s' : Slab Nx Ny} (hs : SlabSym c D (orthBlock o11 o12 o21 o22 D) G G' s s')
    (he : ∀ p d, s' = .patterned p d → ∃ r, epsilonFft (1 / Nx / Ny) (.iso p) G' = .ok r) {L : LayerData (Fin n ⊕ Fin n)}
    (hL : Built ω kx ky G s L) : ∃ L', Built (ω / c) kx' ky' G' s' L' := by
  cases hs with
  | uniform ε d =>
    cases hL with
    | uniform _ _ hε => exact ⟨_, .uniform ε _ hε⟩
  | patterned s s' d h =>
    cases hL with
    | patterned _ _ epinv ep2 h1 lam phi hE hphi =>
      obtain ⟨⟨epinv', ep2'⟩, h2⟩ := he _ _ rfl
      obtain ⟨e1, e2⟩ := h _ _ _ _ h1 h2
      have hM := w.eigen o (w.kp o hc.ne' ω e1) e2
      have hU := isUnit_of_unitary (orthBlock_unitary o hD)
      have hc' : (c : ℂ) ^ 2 ≠ 0 := pow_ne_zero _ (Complex.ofReal_ne_zero.2 hc.ne')
      refine ⟨_, .patterned s' _ epinv' ep2' h2 (fun m => lam m / (c : ℂ) ^ 2) (orthBlock o11 o12 o21 o22 D * phi) ?_
        (by rw [Matrix.det_mul]; exact hU.mul hphi)⟩
      have hd : (diagonal fun m => lam m / (c : ℂ) ^ 2) = ((c : ℂ) ^ 2)⁻¹ • diagonal lam := by
        ext i j
        rw [Matrix.smul_apply, Matrix.diagonal_apply, Matrix.diagonal_apply]
        split
        · rw [smul_eq_mul]; ring
        · simp
      rw [IsEig, hd, Matrix.mul_smul, Matrix.mul_assoc, ← hE, ← Matrix.mul_assoc, ← Matrix.mul_assoc, ← hM, Matrix.smul_mul, smul_smul, inv_mul_cancel₀ hc',
        one_smul]

lemma gaugeStack_mk {ι : Type} [Fintype ι] [DecidableEq ι] {U X Z : Matrix ι ι ℂ} {L0 L0' LN LN' : LayerData ι} {m m' : List (LayerData ι)}
    (h0 : IsUnit X.det ∧ Gauge c U X L0 L0') (hm : List.Forall₂ (fun L L' => ∃ X, IsUnit X.det ∧ Gauge c U X L L') m m')
    (hN : IsUnit Z.det ∧ Gauge c U Z LN LN') : GaugeStack c U X Z (L0 :: m ++ [LN]) (L0' :: m' ++ [LN']) := by
  induction hm generalizing X L0 L0' with
  | nil => exact .cons h0.2 h0.1 (.one hN.2 hN.1)
  | cons h _ ih =>
    obtain ⟨Y, hY⟩ := h
    exact .cons h0.2 h0.1 (ih hY)

/-- the main lemma: a structure and its image under a symmetry -/
lemma sym_rt (hc : 0 < c) (o : Orth o11 o12 o21 o22) (hD : D.conjTranspose * D = 1) (w : WaveSym c o11 o12 o21 o22 D kx ky kx' ky')
    (ω : ℂ) {G G' : Fin n → ℤ × ℤ} {slabs slabs' : List (Slab Nx Ny)}
    (hs : List.Forall₂ (SlabSym c D (orthBlock o11 o12 o21 o22 D) G G') slabs slabs') {m m' : List (LayerData (Fin n ⊕ Fin n))}
    (hm : List.Forall₂ (Built ω kx ky G) slabs m) (hm' : List.Forall₂ (Built (ω / c) kx' ky' G') slabs' m') {ε0 εN : ℂ} (h0 : ε0 ≠ 0)
    (hN : εN ≠ 0) (d0 dN : ℝ) (hr : ∀ M ∈ uniformLayer ω kx ky ε0 d0 :: m ++ [uniformLayer ω kx ky εN dN], M.Regular) (norm : ℝ)
    (a0 bN : Fin n ⊕ Fin n → ℂ) (r : ℝ × ℝ) :
    rtForward (ω / c) norm (uniformLayer (ω / c) kx' ky' ε0 (c * d0) :: m' ++ [uniformLayer (ω / c) kx' ky' εN (c * dN)])
        (orthBlock o11 o12 o21 o22 D *ᵥ a0) (orthBlock o11 o12 o21 o22 D *ᵥ bN) = .ok r ↔
      rtForward ω norm (uniformLayer ω kx ky ε0 d0 :: m ++ [uniformLayer ω kx ky εN dN]) a0 bN = .ok r := by
  have hg : List.Forall₂ (fun L L' => ∃ X, IsUnit X.det ∧ Gauge c (orthBlock o11 o12 o21 o22 D) X L L') m m' := by
    clear hr
    induction hs generalizing m m' with
    | nil => cases hm; cases hm'; exact .nil
    | cons h _ ih =>
      cases hm with
      | cons k hm =>
        cases hm' with
        | cons k' hm' => exact .cons (built_gauge hc o hD w h k k') (ih hm hm')
  have hst := gaugeStack_mk (uniform_gauge hc o hD w ω h0 d0) hg (uniform_gauge hc o hD w ω hN dN)
  have hu := isUnit_of_unitary (orthBlock_unitary o hD)
  have := gauge_rt_iff hc.ne' (orthBlock_unitary o hD) hst hr ω norm (orthBlock o11 o12 o21 o22 D *ᵥ a0) (orthBlock o11 o12 o21 o22 D *ᵥ bN) r
  rwa [Matrix.mulVec_mulVec, Matrix.mulVec_mulVec, Matrix.nonsing_inv_mul _ hu, Matrix.one_mulVec, Matrix.one_mulVec] at this

end

end Nidn
