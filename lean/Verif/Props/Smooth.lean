/-
Property C122: reflectance and transmittance are smooth functions of the permittivities and thicknesses of films.
-/
import Verif.Lemmas.Smooth
import Verif.Props.Solvable

set_option linter.unusedSectionVars false

namespace Nidn

open Matrix Topology

variable {n : ℕ} {E : Type} [NormedAddCommGroup E] [NormedSpace ℝ E]

lemma off_slit {z : ℂ} (h : ∀ t : ℝ, 0 ≤ t → z ≠ t) : -z ∈ Complex.slitPlane := by
  rw [Complex.mem_slitPlane_iff]
  by_contra hc
  rw [not_or, not_lt, not_not, Complex.neg_re, Complex.neg_im] at hc
  exact h z.re (by linarith [hc.1]) (Complex.ext rfl (by rw [Complex.ofReal_im]; linarith [hc.2]))

/-- C122: take a stack of films whose permittivities and thicknesses depend smoothly (`k` times continuously differentiable, for any `k`, also
infinitely often or analytically) on parameters. Where the solver answers and no squared wave number is real and non-negative, it answers
around this point, and reflectance and transmittance are `k` times continuously differentiable there: any angle of incidence, complex
frequency and polarisation. -/
theorem C122_films (k : WithTop ℕ∞) (x0 : E) (ω : ℂ) (kx ky : Fin n → ℂ) (first : (E → ℂ) × (E → ℝ)) (films : List ((E → ℂ) × (E → ℝ)))
    (hs : ∀ l ∈ first :: films, ContDiffAt ℝ k l.1 x0 ∧ ContDiffAt ℝ k l.2 x0)
    (hz : ∀ l ∈ first :: films, l.1 x0 ≠ 0 ∧ ∀ i, ∀ t : ℝ, 0 ≤ t → l.1 x0 * ω ^ 2 - kx i ^ 2 - ky i ^ 2 ≠ t) (norm : ℝ) (a0 bN : Fin n ⊕ Fin n → ℂ)
    (r : ℝ × ℝ) (h : rtForward ω norm ((first :: films).map fun l => uniformLayer ω kx ky (l.1 x0) (l.2 x0)) a0 bN = .ok r) :
    ∃ R T : E → ℝ, (R x0, T x0) = r ∧ ContDiffAt ℝ k R x0 ∧ ContDiffAt ℝ k T x0 ∧
      ∀ᶠ x in 𝓝 x0, rtForward ω norm ((first :: films).map fun l => uniformLayer ω kx ky (l.1 x) (l.2 x)) a0 bN = .ok (R x, T x) := by
  have hsl : ∀ l ∈ first :: films, ∀ i, -(l.1 x0 * ω ^ 2 - kx i ^ 2 - ky i ^ 2) ∈ Complex.slitPlane := by
    intro l hl i
    exact off_slit ((hz l hl).2 i)
  have e : ∀ x, (first :: films).map (fun l => uniformLayer ω kx ky (l.1 x) (l.2 x)) =
      ((fun y => uniformLayer ω kx ky (first.1 y) (first.2 y)) :: films.map fun l y => uniformLayer ω kx ky (l.1 y) (l.2 y)).map fun F => F x := by
    intro x
    rw [← List.map_cons (f := fun l : (E → ℂ) × (E → ℝ) => fun y => uniformLayer ω kx ky (l.1 y) (l.2 y)), List.map_map]
    rfl
  have hmem : ∀ F ∈ (fun y => uniformLayer ω kx ky (first.1 y) (first.2 y)) :: films.map fun l y => uniformLayer ω kx ky (l.1 y) (l.2 y),
      ∃ l ∈ first :: films, F = fun y => uniformLayer ω kx ky (l.1 y) (l.2 y) := by
    intro F hF
    rw [← List.map_cons (f := fun l : (E → ℂ) × (E → ℝ) => fun y => uniformLayer ω kx ky (l.1 y) (l.2 y))] at hF
    obtain ⟨l, hl, rfl⟩ := List.mem_map.1 hF
    exact ⟨l, hl, rfl⟩
  simp only [e] at h ⊢
  refine rtForward_near (fun F hF => ?_) (fun F hF m => ?_) a0 bN h
  · obtain ⟨l, hl, rfl⟩ := hmem F hF
    exact smooth_uniform (hs l hl).1 (hs l hl).2 (hz l hl).1 (hsl l hl)
  · obtain ⟨l, hl, rfl⟩ := hmem F hF
    have : ∀ i, branchQ (csqrt (l.1 x0 * ω ^ 2 - kx i ^ 2 - ky i ^ 2)) ≠ 0 := by
      intro i h0
      have h2 := branchQ_sq (csqrt (l.1 x0 * ω ^ 2 - kx i ^ 2 - ky i ^ 2))
      rw [h0, csqrt_sq] at h2
      exact (hz l hl).2 i 0 le_rfl (by rw [← h2]; simp)
    rcases m with i | i <;> exact this i

/-- no squared wave number of a passive film at a damped frequency is real and non-negative -/
lemma damped_slit {ω ε : ℂ} (hω : 0 < ω.im) (hε : ε ≠ 0) (hp : 0 ≤ (ω * ε).im) {kx ky : ℂ} (hx : kx.im = 0) (hy : ky.im = 0) (t : ℝ) (ht : 0 ≤ t) :
    ε * ω ^ 2 - kx ^ 2 - ky ^ 2 ≠ t := by
  intro h
  have ex : kx = (kx.re : ℂ) := Complex.ext rfl (by simp [hx])
  have ey : ky = (ky.re : ℂ) := Complex.ext rfl (by simp [hy])
  have h1 : ω * (ω * ε) = ((t + kx.re ^ 2 + ky.re ^ 2 : ℝ) : ℂ) := by
    push_cast
    rw [← ex, ← ey, ← h]; ring
  have hs : 0 ≤ t + kx.re ^ 2 + ky.re ^ 2 := by positivity
  set w := ω * ε with hw
  have hre := congrArg Complex.re h1
  have him := congrArg Complex.im h1
  rw [Complex.mul_re, Complex.ofReal_re] at hre
  rw [Complex.mul_im, Complex.ofReal_im] at him
  have h2 : ω.im * (w.re ^ 2 + w.im ^ 2) = -w.im * (t + kx.re ^ 2 + ky.re ^ 2) := by rw [← hre]; linear_combination w.re * him
  have h3 : ω.im * (w.re ^ 2 + w.im ^ 2) ≤ 0 := by rw [h2]; nlinarith [mul_nonneg hp hs]
  have h4 : w.re ^ 2 + w.im ^ 2 ≤ 0 := by
    by_contra hc
    push Not at hc
    nlinarith [mul_pos hω hc]
  have h5 : w.re = 0 := by nlinarith [sq_nonneg w.re, sq_nonneg w.im]
  have h6 : w.im = 0 := by nlinarith [sq_nonneg w.re, sq_nonneg w.im]
  have h7 : w = 0 := Complex.ext h5 h6
  rcases mul_eq_zero.1 h7 with h8 | h8
  · rw [h8] at hω; simp at hω
  · exact hε h8

/-- C122 for the driver: at every positive frequency and normal incidence, on every stack of films whose permittivities do not amplify, the
reflectance and transmittance are as smooth as the dependence of permittivities and thicknesses on the parameters. In particular the
gradients that training follows exist at every such design, also for transparent films and at the edges of diffraction orders. -/
theorem C122_driver (k : WithTop ℕ∞) (x0 : E) (f : ℝ) (hf : 0 < f) (φ ε0 : ℝ) (h0 : 0 < ε0) (Lk1 Lk2 : ℝ × ℝ) (G : Fin n → ℤ × ℤ) (d0 : E → ℝ)
    (hd0 : ContDiffAt ℝ k d0 x0 ∧ 0 ≤ d0 x0) (mids : List ((E → ℂ) × (E → ℝ)))
    (hs : ∀ l ∈ mids, ContDiffAt ℝ k l.1 x0 ∧ ContDiffAt ℝ k l.2 x0)
    (hm : ∀ l ∈ mids, l.1 x0 ≠ 0 ∧ 0 ≤ l.2 x0 ∧ -(l.1 x0).re / 2 / 1e5 ≤ (l.1 x0).im) (εN : E → ℂ) (dN : E → ℝ)
    (hsN : ContDiffAt ℝ k εN x0 ∧ ContDiffAt ℝ k dN x0) (hdN : 0 ≤ dN x0) (hεN : εN x0 ≠ 0) (hN : -(εN x0).re / 2 / 1e5 ≤ (εN x0).im)
    (kx ky : Fin n → ℂ) (hkx : kx = kxOf (driverOmega f) 0 φ ε0 Lk1 Lk2 G) (hky : ky = kyOf (driverOmega f) 0 φ ε0 Lk1 Lk2 G)
    (norm : ℝ) (a0 bN : Fin n ⊕ Fin n → ℂ) :
    ∃ R T : E → ℝ, ContDiffAt ℝ k R x0 ∧ ContDiffAt ℝ k T x0 ∧
      ∀ᶠ x in 𝓝 x0, rtForward (driverOmega f) norm (((fun _ => (ε0 : ℂ), d0) :: mids ++ [(εN, dN)]).map fun l =>
        uniformLayer (driverOmega f) kx ky (l.1 x) (l.2 x)) a0 bN = .ok (R x, T x) := by
  have hπ := Real.pi_pos
  have him : 0 < (driverOmega f).im := by rw [driverOmega_im]; positivity
  have hx : ∀ i, (kx i).im = 0 := fun i => by rw [hkx]; exact (kOf_zero _ φ ε0 Lk1 Lk2 G i).1
  have hy : ∀ i, (ky i).im = 0 := fun i => by rw [hky]; exact (kOf_zero _ φ ε0 Lk1 Lk2 G i).2
  have hpass : ∀ ε : ℂ, -ε.re / 2 / 1e5 ≤ ε.im → 0 ≤ (driverOmega f * ε).im := by
    intro ε h
    rw [Complex.mul_im, driverOmega_re, driverOmega_im]
    have e : 2 * Real.pi * f * ε.im + 2 * Real.pi * f / 2 / 1e5 * ε.re = 2 * Real.pi * f * (ε.im + ε.re / 2 / 1e5) := by ring
    rw [e]
    refine mul_nonneg (by positivity) ?_
    have : -ε.re / 2 / 1e5 = -(ε.re / 2 / 1e5) := by ring
    linarith
  obtain ⟨-, R, T, h⟩ := C113_driver f hf φ ε0 h0 Lk1 Lk2 G (d0 x0) hd0.2 (mids.map fun l => (l.1 x0, l.2 x0)) (fun m hm' => by
    obtain ⟨l, hl, rfl⟩ := List.mem_map.1 hm'
    exact hm l hl) (εN x0) (dN x0) hdN hεN hN kx ky hkx hky _ rfl norm a0 bN
  have hcase : ∀ l ∈ (fun _ => (ε0 : ℂ), d0) :: (mids ++ [(εN, dN)]), (ContDiffAt ℝ k l.1 x0 ∧ ContDiffAt ℝ k l.2 x0) ∧ l.1 x0 ≠ 0 ∧
      0 ≤ (driverOmega f * l.1 x0).im := by
    intro l hl
    simp only [List.mem_cons, List.mem_append, List.not_mem_nil, or_false] at hl
    rcases hl with rfl | hl | rfl
    · refine ⟨⟨contDiffAt_const, hd0.1⟩, Complex.ofReal_ne_zero.2 h0.ne', ?_⟩
      rw [Complex.im_mul_ofReal]; positivity
    · exact ⟨hs l hl, (hm l hl).1, hpass _ (hm l hl).2.2⟩
    · exact ⟨hsN, hεN, hpass _ hN⟩
  obtain ⟨R, T, -, hR, hT, hn⟩ := C122_films k x0 (driverOmega f) kx ky (fun _ => (ε0 : ℂ), d0) (mids ++ [(εN, dN)]) (fun l hl => (hcase l hl).1)
    (fun l hl => ⟨(hcase l hl).2.1, fun i t ht => damped_slit him (hcase l hl).2.1 (hcase l hl).2.2 (hx i) (hy i) t ht⟩) norm a0 bN (R, T) (by
      simpa only [List.cons_append, List.map_cons, List.map_append, List.map_map, List.map_nil, Function.comp_def] using h)
  exact ⟨R, T, hR, hT, hn⟩

/-- The hypotheses of `C122_driver` are met by a lossless film whose permittivity and thickness are the parameters, on glass, at frequency
one with three orders: the gradient exists at every design. -/
example (x0 : ℝ × ℝ) (h1 : 0 < x0.1) (h2 : 0 ≤ x0.2) : ∃ R T : ℝ × ℝ → ℝ, DifferentiableAt ℝ R x0 ∧ DifferentiableAt ℝ T x0 ∧
    ∀ᶠ x in 𝓝 x0, rtForward (driverOmega 1) (rtNormalization 1 0)
      ((((fun _ => ((1 : ℝ) : ℂ)), (fun _ => (1 : ℝ))) :: [((fun x : ℝ × ℝ => (x.1 : ℂ)), fun x : ℝ × ℝ => x.2)] ++
        [((fun _ => ((9 / 4 : ℝ) : ℂ)), (fun _ => (1 : ℝ)))] : List ((ℝ × ℝ → ℂ) × (ℝ × ℝ → ℝ))).map fun l =>
        uniformLayer (driverOmega 1) (kxOf (driverOmega 1) 0 0 1 (1, 0) (0, 1) threeOrders) (kyOf (driverOmega 1) 0 0 1 (1, 0) (0, 1) threeOrders) (l.1 x) (l.2 x))
      (planewave 0 0 1 0 (0 : Fin 3)) 0 = .ok (R x, T x) := by
  obtain ⟨R, T, hR, hT, h⟩ := C122_driver 1 x0 1 one_pos 0 1 one_pos (1, 0) (0, 1) threeOrders (fun _ => 1) ⟨contDiffAt_const, zero_le_one⟩
    [((fun x : ℝ × ℝ => (x.1 : ℂ)), fun x : ℝ × ℝ => x.2)]
    (by
      intro l hl
      rw [List.mem_singleton] at hl
      subst hl
      exact ⟨smooth_ofReal contDiffAt_fst, contDiffAt_snd⟩)
    (by
      intro l hl
      rw [List.mem_singleton] at hl
      subst hl
      refine ⟨Complex.ofReal_ne_zero.2 h1.ne', h2, ?_⟩
      rw [Complex.ofReal_re, Complex.ofReal_im, neg_div, neg_div, neg_nonpos]
      positivity)
    (fun _ => ((9 / 4 : ℝ) : ℂ)) (fun _ => 1) ⟨contDiffAt_const, contDiffAt_const⟩ zero_le_one (Complex.ofReal_ne_zero.2 (by norm_num))
    (by rw [Complex.ofReal_re, Complex.ofReal_im]; norm_num) _ _ rfl rfl (rtNormalization 1 0) (planewave 0 0 1 0 (0 : Fin 3)) 0
  exact ⟨R, T, hR.differentiableAt one_ne_zero, hT.differentiableAt one_ne_zero, h⟩

end Nidn
