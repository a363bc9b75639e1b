/-
C121: reciprocity. Light that runs the opposite way through a stack is reflected in the mirror direction and transmitted straight on in the same
amount, whatever the layers absorb.
-/
import Verif.Lemmas.Reciprocity
import Verif.Props.Backward
import Verif.Props.Selection
import Verif.Props.Solvable

set_option linter.unusedSectionVars false

namespace Nidn

open Matrix

variable {Nx Ny n : ℕ}

/-! ### wave vectors of the opposite direction -/

lemma kOf_opposite (ω : ℂ) (θ φ ε0 θ' εN : ℝ) (hsnell : Real.sin θ' * Real.sqrt εN = Real.sin θ * Real.sqrt ε0) (Lk1 Lk2 : ℝ × ℝ) {G : Fin n → ℤ × ℤ}
    {σ : Fin n ≃ Fin n} (hG : ∀ i, G (σ i) = -G i) (i : Fin n) :
    kxOf ω θ' (φ + Real.pi) εN Lk1 Lk2 G (σ i) = -kxOf ω θ φ ε0 Lk1 Lk2 G i ∧ kyOf ω θ' (φ + Real.pi) εN Lk1 Lk2 G (σ i) = -kyOf ω θ φ ε0 Lk1 Lk2 G i := by
  have h : (Real.sin θ' : ℂ) * Real.sqrt εN = Real.sin θ * Real.sqrt ε0 := by exact_mod_cast congrArg Complex.ofReal hsnell
  constructor
  · simp only [kxOf, waveX, hG, Prod.fst_neg, Prod.snd_neg, Real.cos_add_pi, Int.cast_neg, Complex.ofReal_neg]
    linear_combination -(ω * Real.cos φ) * h
  · simp only [kyOf, waveY, hG, Prod.fst_neg, Prod.snd_neg, Real.sin_add_pi, Int.cast_neg, Complex.ofReal_neg]
    linear_combination -(ω * Real.sin φ) * h

lemma kOf_central (ω : ℂ) (θ φ ε0 : ℝ) (Lk1 Lk2 : ℝ × ℝ) {G : Fin n → ℤ × ℤ} {o : Fin n} (ho : G o = (0, 0)) :
    kxOf ω θ φ ε0 Lk1 Lk2 G o = ω * Real.sin θ * Real.cos φ * Real.sqrt ε0 ∧ kyOf ω θ φ ε0 Lk1 Lk2 G o = ω * Real.sin θ * Real.sin φ * Real.sqrt ε0 := by
  simp [kxOf, kyOf, waveX, waveY, ho]

lemma planewave_along (θ φ : ℝ) (s p : ℂ) (o : Fin n) : alongK φ o (planewave θ φ s p o) = -(s * Real.cos θ) ∧ acrossK φ o (planewave θ φ s p o) = p := by
  have c2 : (Real.sin φ : ℂ) ^ 2 = 1 - Real.cos φ ^ 2 := by exact_mod_cast congrArg Complex.ofReal (Real.sin_sq φ)
  simp only [alongK, acrossK, planewave, Sum.elim_inl, Sum.elim_inr, if_true]
  constructor
  · linear_combination (-(s * Real.cos θ)) * c2
  · linear_combination p * c2

lemma along_opposite (φ : ℝ) (o : Fin n) (x : Fin n ⊕ Fin n → ℂ) : alongK (φ + Real.pi) o x = -alongK φ o x ∧ acrossK (φ + Real.pi) o x = -acrossK φ o x := by
  simp only [alongK, acrossK, Real.cos_add_pi, Real.sin_add_pi, Complex.ofReal_neg]
  constructor <;> ring

/-! ### what a run shows of the central order -/

/-- the reflectance and transmittance of the central order of a run, in terms of the amplitudes -/
lemma run_central {ω : ℂ} (hre : 0 < ω.re) (him : 0 ≤ ω.im) {θ φ ε0 : ℝ} (hc : 0 < Real.cos θ) (h0 : 0 < ε0) {θN εN : ℝ} {kx ky : Fin n → ℂ} {o : Fin n}
    (hkx : kx o = ω * Real.sin θ * Real.cos φ * Real.sqrt ε0) (hky : ky o = ω * Real.sin θ * Real.sin φ * Real.sqrt ε0) {LN : LayerData (Fin n ⊕ Fin n)}
    {d0 : ℝ} {mids : List (LayerData (Fin n ⊕ Fin n))}
    (hq : ∀ M ∈ uniformLayer ω kx ky ε0 d0 :: mids ++ [LN], ∀ m, M.q m ≠ 0) {s p : ℂ} {bo : ℤ} (hbo : bo ≠ 0) {R T : Fin n → ℝ}
    (h : rtSolve "forward" 1 bo ω (rtNormalization ε0 θ) (uniformLayer ω kx ky ε0 d0 :: mids ++ [LN]) (planewave θ φ s p o) 0 = .ok (.orders R T)) :
    ∃ b0 aN, StackSol (uniformLayer ω kx ky ε0 d0 :: mids ++ [LN]) (planewave θ φ s p o) b0 aN 0 ∧
      R o = (Complex.normSq (alongK φ o b0) + Real.cos θ ^ 2 * Complex.normSq (acrossK φ o b0)) / Real.cos θ ^ 2 ∧
      (∀ dN, LN = uniformLayer ω kx ky εN dN → 0 < Real.cos θN → 0 < εN → kx o = ω * Real.sin θN * Real.cos φ * Real.sqrt εN →
        ky o = ω * Real.sin θN * Real.sin φ * Real.sqrt εN → T o = (Complex.normSq (alongK φ o aN) + Real.cos θN ^ 2 * Complex.normSq (acrossK φ o aN)) *
          (Real.sqrt ε0 / (Real.sqrt εN * (Real.cos θN * Real.cos θ)))) := by
  have hs := Real.sqrt_pos.2 h0
  obtain ⟨u, L0, LN', hu, e0, eN⟩ := rtSolve_ok h
  have e1 : L0 = uniformLayer ω kx ky ε0 d0 := (Option.some.inj e0).symm
  have e2 : LN' = LN := by
    have : (uniformLayer ω kx ky ε0 d0 :: mids ++ [LN]).getLast? = some LN := List.getLast?_append_of_ne_nil _ (by simp)
    rw [this] at eN; exact (Option.some.inj eN).symm
  refine ⟨u.2, u.1, (C16_exterior _ hq _ _ _ _ u hu).2 ⟨rfl, rfl⟩, ?_, ?_⟩
  · rw [rtSolve_forward hu e0 eN, if_neg hbo] at h
    injection h with h
    injection h with h1 _
    rw [← h1]
    beta_reduce
    rw [if_pos rfl, e1, back_order (realOrder_incident hre him hc h0 φ hkx hky) d0 _ _ (planewave_inOrder θ φ s p o) o,
      power_incident hre him hc h0 φ hkx hky, rtNormalization]
    field_simp
  · intro dN e3 hcN hN hkxN hkyN
    have := Real.sqrt_pos.2 hN
    rw [rtSolve_forward hu e0 eN, if_neg hbo] at h
    injection h with h
    injection h with _ h2
    rw [← h2]
    beta_reduce
    rw [if_pos rfl, e2, e3, fwd_order, power_incident hre him hcN hN φ hkxN hkyN, rtNormalization]
    field_simp

/-! ## C121 -/

/-- C121: at every frequency with positive real and non-negative imaginary part, for every stack of films and patterned layers, absorbing or not: when the retained orders come
in opposite pairs, the part of unpolarised light that is reflected in the mirror direction is the same for light from the azimuths `φ` and `φ + π`. -/
theorem C121_specular (ω : ℂ) (hre : 0 < ω.re) (him : 0 ≤ ω.im) (θ φ ε0 : ℝ) (hc : 0 < Real.cos θ) (h0 : 0 < ε0) (Lk1 Lk2 : ℝ × ℝ)
    (G : Fin n → ℤ × ℤ) (σ : Fin n ≃ Fin n) (hG : ∀ i, G (σ i) = -G i) (o : Fin n) (hσ : σ o = o) (ho : G o = (0, 0))
    (kx ky kx' ky' : Fin n → ℂ) (hkx : kx = kxOf ω θ φ ε0 Lk1 Lk2 G) (hky : ky = kyOf ω θ φ ε0 Lk1 Lk2 G)
    (hkx' : kx' = kxOf ω θ (φ + Real.pi) ε0 Lk1 Lk2 G) (hky' : ky' = kyOf ω θ (φ + Real.pi) ε0 Lk1 Lk2 G)
    (slabs : List (Slab Nx Ny)) (m m' : List (LayerData (Fin n ⊕ Fin n))) (hm : List.Forall₂ (Built ω kx ky G) slabs m)
    (hm' : List.Forall₂ (Built ω kx' ky' G) slabs m') (εN : ℂ) (hεN : εN ≠ 0) (d0 dN : ℝ)
    (hq : ∀ M ∈ uniformLayer ω kx ky ε0 d0 :: m ++ [uniformLayer ω kx ky εN dN], ∀ k, M.q k ≠ 0)
    (hq' : ∀ M ∈ uniformLayer ω kx' ky' ε0 d0 :: m' ++ [uniformLayer ω kx' ky' εN dN], ∀ k, M.q k ≠ 0) (bo : ℤ) (hbo : bo ≠ 0)
    (Rs Rp Ts Tp Rs' Rp' Ts' Tp' : Fin n → ℝ)
    (hs : rtSolve "forward" 1 bo ω (rtNormalization ε0 θ) (uniformLayer ω kx ky ε0 d0 :: m ++ [uniformLayer ω kx ky εN dN])
      (planewave θ φ 1 0 o) 0 = .ok (.orders Rs Ts))
    (hp : rtSolve "forward" 1 bo ω (rtNormalization ε0 θ) (uniformLayer ω kx ky ε0 d0 :: m ++ [uniformLayer ω kx ky εN dN])
      (planewave θ φ 0 1 o) 0 = .ok (.orders Rp Tp))
    (hs' : rtSolve "forward" 1 bo ω (rtNormalization ε0 θ) (uniformLayer ω kx' ky' ε0 d0 :: m' ++ [uniformLayer ω kx' ky' εN dN])
      (planewave θ (φ + Real.pi) 1 0 o) 0 = .ok (.orders Rs' Ts'))
    (hp' : rtSolve "forward" 1 bo ω (rtNormalization ε0 θ) (uniformLayer ω kx' ky' ε0 d0 :: m' ++ [uniformLayer ω kx' ky' εN dN])
      (planewave θ (φ + Real.pi) 0 1 o) 0 = .ok (.orders Rp' Tp')) :
    (Rs o + Rp o) / 2 = (Rs' o + Rp' o) / 2 := by
  have hω : ω ≠ 0 := fun h => by rw [h] at hre; simp at hre
  obtain ⟨hx0, hy0⟩ := kOf_central ω θ φ ε0 Lk1 Lk2 ho
  obtain ⟨hx0', hy0'⟩ := kOf_central ω θ (φ + Real.pi) ε0 Lk1 Lk2 ho
  rw [← hkx] at hx0
  rw [← hky] at hy0
  rw [← hkx'] at hx0'
  rw [← hky'] at hy0'
  have hx : ∀ i, kx' (σ i) = -kx i := fun i => by rw [hkx, hkx']; exact (kOf_opposite ω θ φ ε0 θ ε0 rfl Lk1 Lk2 hG i).1
  have hy : ∀ i, ky' (σ i) = -ky i := fun i => by rw [hky, hky']; exact (kOf_opposite ω θ φ ε0 θ ε0 rfl Lk1 Lk2 hG i).2
  have hε0 : (ε0 : ℂ) ≠ 0 := Complex.ofReal_ne_zero.2 h0.ne'
  -- the two stacks are related
  have hrel : List.Forall₂ (Reciprocal (Equiv.sumCongr σ σ)) (uniformLayer ω kx ky ε0 d0 :: m ++ [uniformLayer ω kx ky εN dN])
      (uniformLayer ω kx' ky' ε0 d0 :: m' ++ [uniformLayer ω kx' ky' εN dN]) := by
    refine .cons (uniform_reciprocal σ hx hy hε0 d0 (hq _ (by simp))) (List.rel_append ?_ (.cons (uniform_reciprocal σ hx hy hεN dN (hq _ (by simp))) .nil))
    exact forall₂_reciprocal σ hG hx hy hm hm' (fun M hM => hq M (by simp [hM])) (fun M hM => hq' M (by simp [hM]))
  obtain ⟨bs, _, ss, rs, -⟩ := run_central (θN := 0) (εN := 0) hre him hc h0 hx0 hy0 hq hbo hs
  obtain ⟨bp, _, sp, rp, -⟩ := run_central (θN := 0) (εN := 0) hre him hc h0 hx0 hy0 hq hbo hp
  obtain ⟨bs', _, ss', rs', -⟩ := run_central (θN := 0) (εN := 0) hre him hc h0 hx0' hy0' hq' hbo hs'
  obtain ⟨bp', _, sp', rp', -⟩ := run_central (θN := 0) (εN := 0) hre him hc h0 hx0' hy0' hq' hbo hp'
  have q0 : qOrd ω ε0 kx ky o ≠ 0 := hq _ (List.mem_cons_self ..) (.inl o)
  have hE : 2 * (Complex.exp (Complex.I * qOrd ω ε0 kx ky o * d0) / qOrd ω ε0 kx ky o * ω ^ 2) ≠ 0 :=
    mul_ne_zero two_ne_zero (mul_ne_zero (div_ne_zero (Complex.exp_ne_zero _) q0) (pow_ne_zero _ hω))
  have key : ∀ {s p s' p' : ℂ} {b aN b' aN' : Fin n ⊕ Fin n → ℂ},
      StackSol (uniformLayer ω kx ky ε0 d0 :: m ++ [uniformLayer ω kx ky εN dN]) (planewave θ φ s p o) b aN 0 →
      StackSol (uniformLayer ω kx' ky' ε0 d0 :: m' ++ [uniformLayer ω kx' ky' εN dN]) (planewave θ (φ + Real.pi) s' p' o) b' aN' 0 →
      alongK φ o b' * (-(s * Real.cos θ)) + Real.cos θ ^ 2 * (acrossK φ o b' * p) =
        (s' * Real.cos θ) * alongK φ o b + Real.cos θ ^ 2 * (-p' * acrossK φ o b) := by
    intro s p s' p' b aN b' aN' h h'
    have e := stack_lorentz hrel h h' rfl rfl (List.getLast?_append_of_ne_nil _ (by simp)) (List.getLast?_append_of_ne_nil _ (by simp))
    rw [layerForm_outer h0 σ hσ kx' ky' hx0 hy0 d0 (Or.inr (planewave_inOrder θ φ s p o)) (Or.inl (planewave_inOrder θ (φ + Real.pi) s' p' o))] at e
    have e0 : layerForm (Equiv.sumCongr σ σ) (uniformLayer ω kx ky εN dN) (uniformLayer ω kx' ky' εN dN) aN 0 aN' 0 = 0 := by simp [layerForm]
    replace e := e.trans e0
    have e1 := (mul_eq_zero.1 e).resolve_left hE
    obtain ⟨w1, w2⟩ := planewave_along θ φ s p o
    obtain ⟨w3, w4⟩ := planewave_along θ (φ + Real.pi) s' p' o
    rw [(along_opposite φ o _).1] at w3
    rw [(along_opposite φ o _).2] at w4
    rw [w1, w2, show alongK φ o (planewave θ (φ + Real.pi) s' p' o) = s' * Real.cos θ by rw [neg_eq_iff_eq_neg.1 w3, neg_neg],
      show acrossK φ o (planewave θ (φ + Real.pi) s' p' o) = -p' by rw [neg_eq_iff_eq_neg.1 w4]] at e1
    exact sub_eq_zero.1 e1
  have hcc : ((Real.cos θ : ℝ) : ℂ) ≠ 0 := Complex.ofReal_ne_zero.2 hc.ne'
  have k1 : alongK φ o bs' = -alongK φ o bs := by
    have := key ss ss'
    refine mul_right_cancel₀ hcc ?_
    linear_combination -this
  have k2 : acrossK φ o bp' = -acrossK φ o bp := by
    have := key sp sp'
    refine mul_left_cancel₀ (pow_ne_zero 2 hcc) ?_
    linear_combination this
  have k3 : alongK φ o bp = Real.cos θ * acrossK φ o bs' := by
    have := key sp ss'
    refine mul_left_cancel₀ hcc ?_
    linear_combination -this
  have k4 : alongK φ o bp' = Real.cos θ * acrossK φ o bs := by
    have := key ss sp'
    refine mul_left_cancel₀ hcc ?_
    linear_combination -this
  rw [rs, rp, rs', rp', (along_opposite φ o _).1, (along_opposite φ o _).2, (along_opposite φ o _).1, (along_opposite φ o _).2, k1, k2, k3, k4]
  simp only [Complex.normSq_neg, Complex.normSq_mul, Complex.normSq_ofReal]
  ring

/-- C121: at the same frequencies and for the same stacks between transparent media: the part of unpolarised light that goes straight through
is the same in both directions along the same path, with the solver's normalisations of either side (up to the damping in the two outer layers,
which is none at a real frequency and the same for equal outer media of equal thickness). -/
theorem C121_through (ω : ℂ) (hre : 0 < ω.re) (him : 0 ≤ ω.im) (θ θN φ ε0 εN : ℝ) (hc : 0 < Real.cos θ) (hcN : 0 < Real.cos θN) (h0 : 0 < ε0)
    (hN : 0 < εN) (hsnell : Real.sin θN * Real.sqrt εN = Real.sin θ * Real.sqrt ε0) (Lk1 Lk2 : ℝ × ℝ)
    (G : Fin n → ℤ × ℤ) (σ : Fin n ≃ Fin n) (hG : ∀ i, G (σ i) = -G i) (o : Fin n) (hσ : σ o = o) (ho : G o = (0, 0))
    (kx ky kx' ky' : Fin n → ℂ) (hkx : kx = kxOf ω θ φ ε0 Lk1 Lk2 G) (hky : ky = kyOf ω θ φ ε0 Lk1 Lk2 G)
    (hkx' : kx' = kxOf ω θN (φ + Real.pi) εN Lk1 Lk2 G) (hky' : ky' = kyOf ω θN (φ + Real.pi) εN Lk1 Lk2 G)
    (slabs : List (Slab Nx Ny)) (m m' : List (LayerData (Fin n ⊕ Fin n))) (hm : List.Forall₂ (Built ω kx ky G) slabs m)
    (hm' : List.Forall₂ (Built ω kx' ky' G) slabs.reverse m') (d0 dN : ℝ)
    (hq : ∀ M ∈ uniformLayer ω kx ky ε0 d0 :: m ++ [uniformLayer ω kx ky εN dN], ∀ k, M.q k ≠ 0)
    (hq' : ∀ M ∈ uniformLayer ω kx' ky' εN dN :: m' ++ [uniformLayer ω kx' ky' ε0 d0], ∀ k, M.q k ≠ 0) (bo : ℤ) (hbo : bo ≠ 0)
    (Rs Rp Ts Tp Rs' Rp' Ts' Tp' : Fin n → ℝ)
    (hs : rtSolve "forward" 1 bo ω (rtNormalization ε0 θ) (uniformLayer ω kx ky ε0 d0 :: m ++ [uniformLayer ω kx ky εN dN])
      (planewave θ φ 1 0 o) 0 = .ok (.orders Rs Ts))
    (hp : rtSolve "forward" 1 bo ω (rtNormalization ε0 θ) (uniformLayer ω kx ky ε0 d0 :: m ++ [uniformLayer ω kx ky εN dN])
      (planewave θ φ 0 1 o) 0 = .ok (.orders Rp Tp))
    (hs' : rtSolve "forward" 1 bo ω (rtNormalization εN θN) (uniformLayer ω kx' ky' εN dN :: m' ++ [uniformLayer ω kx' ky' ε0 d0])
      (planewave θN (φ + Real.pi) 1 0 o) 0 = .ok (.orders Rs' Ts'))
    (hp' : rtSolve "forward" 1 bo ω (rtNormalization εN θN) (uniformLayer ω kx' ky' εN dN :: m' ++ [uniformLayer ω kx' ky' ε0 d0])
      (planewave θN (φ + Real.pi) 0 1 o) 0 = .ok (.orders Rp' Tp')) :
    (Ts' o + Tp' o) / 2 * Real.exp (-2 * (Real.sqrt ε0 * Real.cos θ) * ω.im * d0) =
      (Ts o + Tp o) / 2 * Real.exp (-2 * (Real.sqrt εN * Real.cos θN) * ω.im * dN) := by
  have hω : ω ≠ 0 := fun h => by rw [h] at hre; simp at hre
  have hsn : (Real.sin θN : ℂ) * Real.sqrt εN = Real.sin θ * Real.sqrt ε0 := by exact_mod_cast congrArg Complex.ofReal hsnell
  obtain ⟨hx0, hy0⟩ := kOf_central ω θ φ ε0 Lk1 Lk2 ho
  obtain ⟨hx0', hy0'⟩ := kOf_central ω θN (φ + Real.pi) εN Lk1 Lk2 ho
  rw [← hkx] at hx0
  rw [← hky] at hy0
  rw [← hkx'] at hx0'
  rw [← hky'] at hy0'
  have hxN : kx o = ω * Real.sin θN * Real.cos φ * Real.sqrt εN := by rw [hx0]; linear_combination (-(ω * Real.cos φ)) * hsn
  have hyN : ky o = ω * Real.sin θN * Real.sin φ * Real.sqrt εN := by rw [hy0]; linear_combination (-(ω * Real.sin φ)) * hsn
  have hxN' : kx' o = ω * Real.sin θ * Real.cos (φ + Real.pi) * Real.sqrt ε0 := by rw [hx0']; linear_combination (ω * Real.cos (φ + Real.pi)) * hsn
  have hyN' : ky' o = ω * Real.sin θ * Real.sin (φ + Real.pi) * Real.sqrt ε0 := by rw [hy0']; linear_combination (ω * Real.sin (φ + Real.pi)) * hsn
  have hx : ∀ i, kx' (σ i) = -kx i := fun i => by rw [hkx, hkx']; exact (kOf_opposite ω θ φ ε0 θN εN hsnell Lk1 Lk2 hG i).1
  have hy : ∀ i, ky' (σ i) = -ky i := fun i => by rw [hky, hky']; exact (kOf_opposite ω θ φ ε0 θN εN hsnell Lk1 Lk2 hG i).2
  have hε0 : (ε0 : ℂ) ≠ 0 := Complex.ofReal_ne_zero.2 h0.ne'
  have hεN : (εN : ℂ) ≠ 0 := Complex.ofReal_ne_zero.2 hN.ne'
  have hrev : (uniformLayer ω kx' ky' εN dN :: m' ++ [uniformLayer ω kx' ky' ε0 d0]).reverse =
      uniformLayer ω kx' ky' ε0 d0 :: m'.reverse ++ [uniformLayer ω kx' ky' εN dN] := by simp
  have hrel : List.Forall₂ (Reciprocal (Equiv.sumCongr σ σ)) (uniformLayer ω kx ky ε0 d0 :: m ++ [uniformLayer ω kx ky εN dN])
      (uniformLayer ω kx' ky' ε0 d0 :: m'.reverse ++ [uniformLayer ω kx' ky' εN dN]) := by
    refine .cons (uniform_reciprocal σ hx hy hε0 d0 (hq _ (by simp))) (List.rel_append ?_ (.cons (uniform_reciprocal σ hx hy hεN dN (hq _ (by simp))) .nil))
    refine forall₂_reciprocal σ hG hx hy hm ?_ (fun M hM => hq M (by simp [hM])) (fun M hM => hq' M (by simp [List.mem_reverse.1 hM]))
    have := List.rel_reverse hm'
    rwa [List.reverse_reverse] at this
  obtain ⟨_, as, ss, -, ts⟩ := run_central (θN := θN) (εN := εN) hre him hc h0 hx0 hy0 hq hbo hs
  obtain ⟨_, ap, sp, -, tp⟩ := run_central (θN := θN) (εN := εN) hre him hc h0 hx0 hy0 hq hbo hp
  obtain ⟨_, as', ss', -, ts'⟩ := run_central (θN := θ) (εN := ε0) hre him hcN hN hx0' hy0' hq' hbo hs'
  obtain ⟨_, ap', sp', -, tp'⟩ := run_central (θN := θ) (εN := ε0) hre him hcN hN hx0' hy0' hq' hbo hp'
  replace ts := ts dN rfl hcN hN hxN hyN
  replace tp := tp dN rfl hcN hN hxN hyN
  replace ts' := ts' d0 rfl hc h0 hxN' hyN'
  replace tp' := tp' d0 rfl hc h0 hxN' hyN'
  have q0 := qOrd_incident hre him hc h0 φ hx0 hy0
  have qN := qOrd_incident hre him hcN hN φ hxN hyN
  set P0 := Complex.exp (Complex.I * qOrd ω ε0 kx ky o * d0) with hP0
  set PN := Complex.exp (Complex.I * qOrd ω εN kx ky o * dN) with hPN
  have s0 := Real.sqrt_pos.2 h0
  have sN := Real.sqrt_pos.2 hN
  have hcc : ((Real.cos θ : ℝ) : ℂ) ≠ 0 := Complex.ofReal_ne_zero.2 hc.ne'
  have hccN : ((Real.cos θN : ℝ) : ℂ) ≠ 0 := Complex.ofReal_ne_zero.2 hcN.ne'
  have hs0 : ((Real.sqrt ε0 : ℝ) : ℂ) ≠ 0 := Complex.ofReal_ne_zero.2 s0.ne'
  have hsN : ((Real.sqrt εN : ℝ) : ℂ) ≠ 0 := Complex.ofReal_ne_zero.2 sN.ne'
  have aux : ∀ X Y : ℂ, 2 * (P0 / (Real.sqrt ε0 * Real.cos θ * ω) * ω ^ 2) * X = 2 * (PN / (Real.sqrt εN * Real.cos θN * ω) * ω ^ 2) * Y →
      P0 * (Real.sqrt εN * Real.cos θN) * X = PN * (Real.sqrt ε0 * Real.cos θ) * Y := by
    intro X Y h
    generalize P0 = p0 at h ⊢
    generalize PN = pN at h ⊢
    field_simp at h
    linear_combination h
  have key : ∀ {s p s' p' : ℂ} {b aN b' aN' : Fin n ⊕ Fin n → ℂ},
      StackSol (uniformLayer ω kx ky ε0 d0 :: m ++ [uniformLayer ω kx ky εN dN]) (planewave θ φ s p o) b aN 0 →
      StackSol (uniformLayer ω kx' ky' εN dN :: m' ++ [uniformLayer ω kx' ky' ε0 d0]) (planewave θN (φ + Real.pi) s' p' o) b' aN' 0 →
      P0 * (Real.sqrt εN * Real.cos θN) * (alongK φ o aN' * (-(s * Real.cos θ)) + Real.cos θ ^ 2 * (acrossK φ o aN' * p)) =
        PN * (Real.sqrt ε0 * Real.cos θ) * ((s' * Real.cos θN) * alongK φ o aN + Real.cos θN ^ 2 * (-p' * acrossK φ o aN)) := by
    intro s p s' p' b aN b' aN' h h'
    have h'' := stackSol_flip h'
    rw [hrev] at h''
    have e := stack_lorentz hrel h h'' rfl rfl (List.getLast?_append_of_ne_nil _ (by simp)) (List.getLast?_append_of_ne_nil _ (by simp))
    have z : InOrder o (0 : Fin n ⊕ Fin n → ℂ) := fun i _ => ⟨rfl, rfl⟩
    have eN := layerForm_outer hN σ hσ kx' ky' hxN hyN dN (a := aN) (b := 0) (a' := b') (b' := planewave θN (φ + Real.pi) s' p' o)
      (Or.inl (planewave_inOrder θN (φ + Real.pi) s' p' o)) (Or.inr z)
    rw [layerForm_outer h0 σ hσ kx' ky' hx0 hy0 d0 (Or.inr (planewave_inOrder θ φ s p o)) (Or.inl z)] at e
    replace e := e.trans eN
    have za : alongK φ o (0 : Fin n ⊕ Fin n → ℂ) = 0 := by simp [alongK]
    have zb : acrossK φ o (0 : Fin n ⊕ Fin n → ℂ) = 0 := by simp [acrossK]
    obtain ⟨w1, w2⟩ := planewave_along θ φ s p o
    obtain ⟨w3, w4⟩ := planewave_along θN (φ + Real.pi) s' p' o
    rw [(along_opposite φ o _).1] at w3
    rw [(along_opposite φ o _).2] at w4
    rw [w1, w2, show alongK φ o (planewave θN (φ + Real.pi) s' p' o) = s' * Real.cos θN by rw [neg_eq_iff_eq_neg.1 w3, neg_neg],
      show acrossK φ o (planewave θN (φ + Real.pi) s' p' o) = -p' by rw [neg_eq_iff_eq_neg.1 w4], za, zb, ← hP0, ← hPN, q0, qN, Complex.ofReal_mul, Complex.ofReal_mul] at e
    linear_combination aux _ _ e
  have k1 : P0 * Real.sqrt εN * alongK φ o as' = -(PN * Real.sqrt ε0 * alongK φ o as) := by
    have := key ss ss'
    refine mul_right_cancel₀ (mul_ne_zero hcc hccN) ?_
    linear_combination -this
  have k2 : P0 * Real.sqrt εN * Real.cos θ * acrossK φ o ap' = -(PN * Real.sqrt ε0 * Real.cos θN * acrossK φ o ap) := by
    have := key sp sp'
    refine mul_right_cancel₀ (mul_ne_zero hcc hccN) ?_
    linear_combination this
  have k3 : P0 * Real.sqrt εN * Real.cos θ * acrossK φ o as' = PN * Real.sqrt ε0 * alongK φ o ap := by
    have := key sp ss'
    refine mul_right_cancel₀ (mul_ne_zero hcc hccN) ?_
    linear_combination this
  have k4 : P0 * Real.sqrt εN * alongK φ o ap' = PN * Real.sqrt ε0 * Real.cos θN * acrossK φ o as := by
    have := key ss sp'
    refine mul_right_cancel₀ (mul_ne_zero hcc hccN) ?_
    linear_combination -this
  have mod : ∀ (r d : ℝ), Complex.normSq (Complex.exp (Complex.I * ((r : ℂ) * ω) * d)) = Real.exp (-2 * r * ω.im * d) := by
    intro r d
    rw [Complex.normSq_eq_norm_sq, Complex.norm_exp, ← Real.exp_nat_mul]
    congr 1
    simp [Complex.mul_re, Complex.mul_im]
    ring
  rw [← mod, ← mod, ← q0, ← qN, ← hP0, ← hPN, ts, tp, ts', tp', (along_opposite φ o _).1, (along_opposite φ o _).2, (along_opposite φ o _).1,
    (along_opposite φ o _).2]
  replace k1 := congrArg Complex.normSq k1
  replace k2 := congrArg Complex.normSq k2
  replace k3 := congrArg Complex.normSq k3
  replace k4 := congrArg Complex.normSq k4
  simp only [Complex.normSq_neg, Complex.normSq_mul, Complex.normSq_ofReal] at k1 k2 k3 k4 ⊢
  field_simp
  linear_combination k1 + k2 + k3 + k4

/-- C121: on every lattice the retained orders come in opposite pairs and the central order is its own opposite, as `C121_specular` and
`C121_through` ask, for every requested number of orders. -/
theorem C121_pairs (nG : ℕ) (hn : 0 < nG) (Lk1 Lk2 : ℝ × ℝ) (hc : cross2 Lk1 Lk2 ≠ 0) (sorted : List (ℤ × ℤ))
    (hs : IsSortOf Lk1 Lk2 (candidates nG Lk1 Lk2) sorted) :
    ∃ (n : ℕ) (G : Fin n → ℤ × ℤ) (σ : Fin n ≃ Fin n), gselCircular nG Lk1 Lk2 sorted = .ok (List.ofFn G, n) ∧
      (∀ i, G (σ i) = -G i) ∧ ∀ o, G o = (0, 0) → σ o = o := by
  obtain ⟨sel, h1, -, nd, -, -, hneg, -⟩ := C14_whole_shells nG hn Lk1 Lk2 hc sorted hs
  obtain ⟨σ, hσ⟩ := renumber (G := sel.get) (get_injective nd) (fun g => -g) neg_injective fun i => by
    obtain ⟨j, hj⟩ := List.get_of_mem (hneg _ (List.get_mem sel i))
    exact ⟨j, hj⟩
  refine ⟨sel.length, sel.get, σ, by rw [h1, List.ofFn_get], hσ, fun o h => get_injective nd ?_⟩
  rw [hσ, h]; rfl

/-- C121: at a real frequency, in front of a structure so fine that no order but the central one propagates in the medium of the incident light, the
whole reflectance for unpolarised light is the same for light from the azimuths `φ` and `φ + π`. -/
theorem C121_subwavelength (ω θ φ ε0 εN : ℝ) (hω : 0 < ω) (hc : 0 < Real.cos θ) (h0 : 0 < ε0) (hN : 0 < εN) (Lk1 Lk2 : ℝ × ℝ)
    (G : Fin n → ℤ × ℤ) (σ : Fin n ≃ Fin n) (hG : ∀ i, G (σ i) = -G i) (o : Fin n) (hσ : σ o = o) (ho : G o = (0, 0))
    (kx ky kx' ky' : Fin n → ℂ) (hkx : kx = kxOf ω θ φ ε0 Lk1 Lk2 G) (hky : ky = kyOf ω θ φ ε0 Lk1 Lk2 G)
    (hkx' : kx' = kxOf ω θ (φ + Real.pi) ε0 Lk1 Lk2 G) (hky' : ky' = kyOf ω θ (φ + Real.pi) ε0 Lk1 Lk2 G)
    (hfine : ∀ i, i ≠ o → ε0 * ω ^ 2 < (kx i).re ^ 2 + (ky i).re ^ 2)
    (slabs : List (Slab Nx Ny)) (m m' : List (LayerData (Fin n ⊕ Fin n))) (hm : List.Forall₂ (Built ω kx ky G) slabs m)
    (hm' : List.Forall₂ (Built ω kx' ky' G) slabs m') (d0 dN : ℝ)
    (hq : ∀ M ∈ uniformLayer ω kx ky ε0 d0 :: m ++ [uniformLayer ω kx ky εN dN], ∀ k, M.q k ≠ 0)
    (hq' : ∀ M ∈ uniformLayer ω kx' ky' ε0 d0 :: m' ++ [uniformLayer ω kx' ky' εN dN], ∀ k, M.q k ≠ 0)
    (Rs Rp Ts Tp Rs' Rp' Ts' Tp' : ℝ)
    (hs : rtSolve "forward" 1 0 ω (rtNormalization ε0 θ) (uniformLayer ω kx ky ε0 d0 :: m ++ [uniformLayer ω kx ky εN dN])
      (planewave θ φ 1 0 o) 0 = .ok (.total Rs Ts))
    (hp : rtSolve "forward" 1 0 ω (rtNormalization ε0 θ) (uniformLayer ω kx ky ε0 d0 :: m ++ [uniformLayer ω kx ky εN dN])
      (planewave θ φ 0 1 o) 0 = .ok (.total Rp Tp))
    (hs' : rtSolve "forward" 1 0 ω (rtNormalization ε0 θ) (uniformLayer ω kx' ky' ε0 d0 :: m' ++ [uniformLayer ω kx' ky' εN dN])
      (planewave θ (φ + Real.pi) 1 0 o) 0 = .ok (.total Rs' Ts'))
    (hp' : rtSolve "forward" 1 0 ω (rtNormalization ε0 θ) (uniformLayer ω kx' ky' ε0 d0 :: m' ++ [uniformLayer ω kx' ky' εN dN])
      (planewave θ (φ + Real.pi) 0 1 o) 0 = .ok (.total Rp' Tp')) :
    (Rs + Rp) / 2 = (Rs' + Rp') / 2 := by
  have hre : 0 < (ω : ℂ).re := by rwa [Complex.ofReal_re]
  have him : 0 ≤ (ω : ℂ).im := by rw [Complex.ofReal_im]
  have hfine' : ∀ i, i ≠ o → ε0 * ω ^ 2 < (kx' i).re ^ 2 + (ky' i).re ^ 2 := by
    intro i hi
    obtain ⟨j, rfl⟩ : ∃ j, i = σ j := ⟨σ.symm i, by simp⟩
    have hj : j ≠ o := fun e => hi (by rw [e, hσ])
    obtain ⟨e1, e2⟩ := kOf_opposite ω θ φ ε0 θ ε0 rfl Lk1 Lk2 hG j
    rw [hkx', hky', e1, e2, ← hkx, ← hky, Complex.neg_re, Complex.neg_re, neg_sq, neg_sq]
    exact hfine j hj
  obtain ⟨rs, ts, as, us, -⟩ := (C108_sum "forward" 1 1 one_ne_zero ω _ _ _ _).2 _ _ hs
  obtain ⟨rp, tp, ap, up, -⟩ := (C108_sum "forward" 1 1 one_ne_zero ω _ _ _ _).2 _ _ hp
  obtain ⟨rs', ts', as', us', -⟩ := (C108_sum "forward" 1 1 one_ne_zero ω _ _ _ _).2 _ _ hs'
  obtain ⟨rp', tp', ap', up', -⟩ := (C108_sum "forward" 1 1 one_ne_zero ω _ _ _ _).2 _ _ hp'
  have one : ∀ r : Fin n → ℝ, (∀ i, i ≠ o → r i = 0) → ∑ i, r i = r o := fun r h => Finset.sum_eq_single o (fun i _ hi => h i hi) (by simp)
  rw [one rs fun i hi => (C108_orders ω θ φ ε0 εN hω hc h0 hN Lk1 Lk2 G o ho d0 dN m kx ky hkx hky hq _ _ 1 one_ne_zero rs ts as i).2.2.1 (hfine i hi)] at us
  rw [one rp fun i hi => (C108_orders ω θ φ ε0 εN hω hc h0 hN Lk1 Lk2 G o ho d0 dN m kx ky hkx hky hq _ _ 1 one_ne_zero rp tp ap i).2.2.1 (hfine i hi)] at up
  rw [one rs' fun i hi => (C108_orders ω θ (φ + Real.pi) ε0 εN hω hc h0 hN Lk1 Lk2 G o ho d0 dN m' kx' ky' hkx' hky' hq' _ _ 1 one_ne_zero rs' ts' as'
    i).2.2.1 (hfine' i hi)] at us'
  rw [one rp' fun i hi => (C108_orders ω θ (φ + Real.pi) ε0 εN hω hc h0 hN Lk1 Lk2 G o ho d0 dN m' kx' ky' hkx' hky' hq' _ _ 1 one_ne_zero rp' tp' ap'
    i).2.2.1 (hfine' i hi)] at up'
  rw [← us, ← up, ← us', ← up']
  exact C121_specular ω hre him θ φ ε0 hc h0 Lk1 Lk2 G σ hG o hσ ho kx ky kx' ky' hkx hky hkx' hky' slabs m m' hm hm' εN
    (Complex.ofReal_ne_zero.2 hN.ne') d0 dN hq hq' 1 one_ne_zero rs rp ts tp rs' rp' ts' tp' as ap as' ap'

/-! ### a case: a thin film of metal in the air, light at thirty degrees -/

noncomputable def metalStack (φ : ℝ) : List (LayerData (Fin 1 ⊕ Fin 1)) :=
  uniformLayer ((1 : ℝ) : ℂ) (kxOf (1 : ℝ) (Real.pi / 6) φ 1 (1, 0) (0, 1) oneOrder) (kyOf (1 : ℝ) (Real.pi / 6) φ 1 (1, 0) (0, 1) oneOrder) ((1 : ℝ) : ℂ) 1 ::
    [uniformLayer ((1 : ℝ) : ℂ) (kxOf (1 : ℝ) (Real.pi / 6) φ 1 (1, 0) (0, 1) oneOrder) (kyOf (1 : ℝ) (Real.pi / 6) φ 1 (1, 0) (0, 1) oneOrder)
      ⟨-10, 1⟩ (1 / 10)] ++
    [uniformLayer ((1 : ℝ) : ℂ) (kxOf (1 : ℝ) (Real.pi / 6) φ 1 (1, 0) (0, 1) oneOrder) (kyOf (1 : ℝ) (Real.pi / 6) φ 1 (1, 0) (0, 1) oneOrder)
      ((1 : ℝ) : ℂ) 1]

lemma metal_ok (φ : ℝ) : (∀ M ∈ metalStack φ, ∀ k, M.q k ≠ 0) ∧
    ∀ s p : ℂ, ∃ R T, rtSolve "forward" 1 1 ((1 : ℝ) : ℂ) (rtNormalization 1 (Real.pi / 6)) (metalStack φ) (planewave (Real.pi / 6) φ s p (0 : Fin 1)) 0 =
      .ok (.orders R T) := by
  have hsum : ∀ i, kxOf ((1 : ℝ) : ℂ) (Real.pi / 6) φ 1 (1, 0) (0, 1) oneOrder i ^ 2 + kyOf ((1 : ℝ) : ℂ) (Real.pi / 6) φ 1 (1, 0) (0, 1) oneOrder i ^ 2 = 1 / 4 := by
    intro i
    obtain ⟨e1, e2⟩ := kOf_central ((1 : ℝ) : ℂ) (Real.pi / 6) φ 1 (1, 0) (0, 1) (G := oneOrder) (o := i) rfl
    rw [e1, e2, Real.sqrt_one, Real.sin_pi_div_six]
    have c2 : (Real.sin φ : ℂ) ^ 2 = 1 - Real.cos φ ^ 2 := by exact_mod_cast congrArg Complex.ofReal (Real.sin_sq φ)
    push_cast
    push_cast at c2
    linear_combination (1 / 4) * c2
  have hq : ∀ ε : ℂ, ε ≠ 1 / 4 → ∀ i, qOrd ((1 : ℝ) : ℂ) ε (kxOf (1 : ℝ) (Real.pi / 6) φ 1 (1, 0) (0, 1) oneOrder)
      (kyOf (1 : ℝ) (Real.pi / 6) φ 1 (1, 0) (0, 1) oneOrder) i ≠ 0 := by
    intro ε he i h
    have := qOrd_sq ((1 : ℝ) : ℂ) ε (kxOf (1 : ℝ) (Real.pi / 6) φ 1 (1, 0) (0, 1) oneOrder) (kyOf (1 : ℝ) (Real.pi / 6) φ 1 (1, 0) (0, 1) oneOrder) i
    rw [h, sub_sub, hsum] at this
    simp only [Complex.ofReal_one, one_pow, mul_one] at this
    exact he (by linear_combination -this)
  have hm : (⟨-10, 1⟩ : ℂ) ≠ 1 / 4 := fun h => by
    have := congrArg Complex.im h
    norm_num at this
  have hqs : ∀ M ∈ metalStack φ, ∀ k, M.q k ≠ 0 := by
    intro M hM
    simp only [metalStack, List.mem_cons, List.cons_append, List.nil_append, List.not_mem_nil, or_false] at hM
    rcases hM with rfl | rfl | rfl
    · exact qs_of_ord (hq _ (by norm_num))
    · exact qs_of_ord (hq _ hm)
    · exact qs_of_ord (hq _ (by norm_num))
  refine ⟨hqs, fun s p => ?_⟩
  obtain ⟨R, T, h⟩ := C113_real 1 (Real.pi / 6) φ 1 one_pos one_pos (1, 0) (0, 1) oneOrder _ _ rfl rfl (fun i => by
      have h1 := congrArg Complex.re (hsum i)
      have ex := kxOf_real 1 (Real.pi / 6) φ 1 (1, 0) (0, 1) oneOrder i
      have ey := kyOf_real 1 (Real.pi / 6) φ 1 (1, 0) (0, 1) oneOrder i
      rw [sq, sq, Complex.add_re, Complex.mul_re, Complex.mul_re, ex, ey] at h1
      norm_num at h1 ⊢
      nlinarith) 1 [(⟨-10, 1⟩, 1 / 10)] (fun m hm' => by
      rw [List.mem_singleton.1 hm']
      refine ⟨fun h => ?_, by norm_num, by norm_num⟩
      have := congrArg Complex.im h
      norm_num at this) ((1 : ℝ) : ℂ) 1 (by norm_num) (by simp) (metalStack φ) rfl hqs (rtNormalization 1 (Real.pi / 6))
    (planewave (Real.pi / 6) φ s p (0 : Fin 1)) 0
  obtain ⟨u, hu, -⟩ := bind_ok.1 h
  exact ⟨_, _, by rw [rtSolve_forward hu rfl rfl, if_neg one_ne_zero]⟩

/-- Hypotheses of `C121_specular` and `C121_through`: the film, lit from the azimuths 0.3 and 0.3 + π. -/
example : ∃ Rs Rp Ts Tp Rs' Rp' Ts' Tp' : Fin 1 → ℝ,
    rtSolve "forward" 1 1 ((1 : ℝ) : ℂ) (rtNormalization 1 (Real.pi / 6)) (metalStack 0.3) (planewave (Real.pi / 6) 0.3 1 0 (0 : Fin 1)) 0 = .ok (.orders Rs Ts) ∧
    rtSolve "forward" 1 1 ((1 : ℝ) : ℂ) (rtNormalization 1 (Real.pi / 6)) (metalStack 0.3) (planewave (Real.pi / 6) 0.3 0 1 (0 : Fin 1)) 0 = .ok (.orders Rp Tp) ∧
    rtSolve "forward" 1 1 ((1 : ℝ) : ℂ) (rtNormalization 1 (Real.pi / 6)) (metalStack (0.3 + Real.pi)) (planewave (Real.pi / 6) (0.3 + Real.pi) 1 0 (0 : Fin 1)) 0 =
      .ok (.orders Rs' Ts') ∧
    rtSolve "forward" 1 1 ((1 : ℝ) : ℂ) (rtNormalization 1 (Real.pi / 6)) (metalStack (0.3 + Real.pi)) (planewave (Real.pi / 6) (0.3 + Real.pi) 0 1 (0 : Fin 1)) 0 =
      .ok (.orders Rp' Tp') ∧
    (Rs 0 + Rp 0) / 2 = (Rs' 0 + Rp' 0) / 2 ∧ (Ts 0 + Tp 0) / 2 = (Ts' 0 + Tp' 0) / 2 := by
  have hm : (⟨-10, 1⟩ : ℂ) ≠ 0 := fun h => by
    have := congrArg Complex.im h
    norm_num at this
  obtain ⟨Rs, Ts, h1⟩ := (metal_ok 0.3).2 1 0
  obtain ⟨Rp, Tp, h2⟩ := (metal_ok 0.3).2 0 1
  obtain ⟨Rs', Ts', h3⟩ := (metal_ok (0.3 + Real.pi)).2 1 0
  obtain ⟨Rp', Tp', h4⟩ := (metal_ok (0.3 + Real.pi)).2 0 1
  refine ⟨Rs, Rp, Ts, Tp, Rs', Rp', Ts', Tp', h1, h2, h3, h4, ?_, ?_⟩
  · exact C121_specular (Nx := 1) (Ny := 1) _ (by simp) (by simp) (Real.pi / 6) 0.3 1 (by rw [Real.cos_pi_div_six]; positivity) one_pos (1, 0) (0, 1) oneOrder
      (Equiv.refl _) (fun i => by simp [oneOrder]) 0 rfl rfl _ _ _ _ rfl rfl rfl rfl [.uniform ⟨-10, 1⟩ (1 / 10)] _ _
      (.cons (.uniform _ _ hm) .nil) (.cons (.uniform _ _ hm) .nil) _ (by norm_num) 1 1 (metal_ok _).1 (metal_ok _).1 1 one_ne_zero Rs Rp Ts Tp Rs' Rp' Ts'
      Tp' h1 h2 h3 h4
  · have := C121_through (Nx := 1) (Ny := 1) _ (by simp) (by simp) (Real.pi / 6) (Real.pi / 6) 0.3 1 1 (by rw [Real.cos_pi_div_six]; positivity)
      (by rw [Real.cos_pi_div_six]; positivity) one_pos one_pos rfl (1, 0) (0, 1) oneOrder
      (Equiv.refl _) (fun i => by simp [oneOrder]) 0 rfl rfl _ _ _ _ rfl rfl rfl rfl [.uniform ⟨-10, 1⟩ (1 / 10)] _ _
      (.cons (.uniform _ _ hm) .nil) (.cons (.uniform _ _ hm) .nil) 1 1 (metal_ok _).1 (metal_ok _).1 1 one_ne_zero Rs Rp Ts Tp Rs' Rp' Ts'
      Tp' h1 h2 h3 h4
    simpa using this.symm

end Nidn
