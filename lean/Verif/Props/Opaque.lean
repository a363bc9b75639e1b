/-
C175: a thick absorbing layer hides what is behind it.
-/
import Verif.Props.FilmsCases
import Verif.Props.FdtdFilms
import Mathlib.Analysis.Calculus.Deriv.MeanValue
import Mathlib.Analysis.SpecialFunctions.Trigonometric.Deriv
import Mathlib.Analysis.SpecialFunctions.Exp

namespace Nidn

open Filter Topology

noncomputable section

/-- power flow of tangential fields (magnetic, electric) -/
def filmFlow (f : ℂ × ℂ) : ℝ := (f.2 * starRingEnd ℂ f.1).re

lemma filmFront_deriv (y k : ℂ) (hy : y ≠ 0) (f : ℂ × ℂ) (z : ℝ) :
    HasDerivAt (fun x : ℝ => (filmFront y (k * x) f).1) (-Complex.I * (k / y) * (filmFront y (k * z) f).2) z ∧
    HasDerivAt (fun x : ℝ => (filmFront y (k * x) f).2) (-Complex.I * (k * y) * (filmFront y (k * z) f).1) z := by
  have hz : HasDerivAt (fun x : ℝ => k * (x : ℂ)) k z := by simpa using ((hasDerivAt_id z).ofReal_comp).const_mul k
  have hc := (Complex.hasDerivAt_cos (k * z)).comp z hz
  have hs := (Complex.hasDerivAt_sin (k * z)).comp z hz
  have hI := Complex.I_sq
  constructor
  · refine ((hc.mul_const f.1).sub (((hs.const_mul Complex.I).div_const y).mul_const f.2)).congr_deriv ?_
    simp only [filmFront]
    field_simp
    linear_combination (-Complex.sin (k * z) * k * y * f.1) * hI
  · refine ((hc.mul_const f.2).sub ((hs.const_mul (Complex.I * y)).mul_const f.1)).congr_deriv ?_
    simp only [filmFront]
    field_simp
    linear_combination (-Complex.sin (k * z) * k * f.2) * hI

/-- in a passive film the power flow does not grow on the way -/
lemma filmFlow_film {y k : ℂ} (hy : y ≠ 0) (h1 : 0 ≤ (k * y).im) (h2 : 0 ≤ (k / y).im) (f : ℂ × ℂ) {d : ℝ} (hd : 0 ≤ d) : filmFlow f ≤ filmFlow (filmFront y (k * d) f) := by
  have hder : ∀ z : ℝ, HasDerivAt (fun x : ℝ => filmFlow (filmFront y (k * x) f))
      ((k * y).im * Complex.normSq (filmFront y (k * z) f).1 + (k / y).im * Complex.normSq (filmFront y (k * z) f).2) z := by
    intro z
    obtain ⟨a, b⟩ := filmFront_deriv y k hy f z
    have h3 := Complex.reCLM.hasFDerivAt.comp_hasDerivAt z (b.mul a.star)
    refine h3.congr_deriv ?_
    simp only [Complex.reCLM_apply, Complex.normSq_apply]
    generalize k * y = u
    generalize k / y = v
    generalize (filmFront y (k * z) f).1 = p
    generalize (filmFront y (k * z) f).2 = q
    simp only [Complex.star_def, map_mul, map_neg, Complex.mul_re, Complex.mul_im, Complex.add_re, Complex.neg_re, Complex.neg_im, Complex.conj_re, Complex.conj_im, Complex.I_re, Complex.I_im]
    ring
  have hm : Monotone fun x : ℝ => filmFlow (filmFront y (k * x) f) := by
    apply monotone_of_deriv_nonneg
    · intro z; exact (hder z).differentiableAt
    · intro z
      rw [(hder z).deriv]
      exact add_nonneg (mul_nonneg h1 (Complex.normSq_nonneg _)) (mul_nonneg h2 (Complex.normSq_nonneg _))
  have := hm hd
  have e : filmFront y (k * (0 : ℝ)) f = f := by simp [filmFront]
  simp only [e] at this
  exact this

/-- films through which light is at most attenuated: impedance and phase thickness -/
def PassiveFilm (f : ℂ × ℂ) : Prop := f.1 ≠ 0 ∧ ∃ (k : ℂ) (d : ℝ), 0 ≤ d ∧ f.2 = k * d ∧ 0 ≤ (k * f.1).im ∧ 0 ≤ (k / f.1).im

lemma front_flow {films : List (ℂ × ℂ)} (h : ∀ f ∈ films, PassiveFilm f) (g : ℂ × ℂ) : filmFlow g ≤ filmFlow (throughFilms films g) := by
  induction films with
  | nil => exact le_rfl
  | cons f films ih =>
    obtain ⟨y, δ⟩ := f
    obtain ⟨hy, k, d, hd, e, h1, h2⟩ := h (y, δ) List.mem_cons_self
    have i := ih fun f hf => h f (List.mem_cons_of_mem _ hf)
    simp only at e hy h1 h2
    rw [throughFilms, e]
    exact i.trans (filmFlow_film hy h1 h2 _ hd)

lemma front_ne {films : List (ℂ × ℂ)} (h : ∀ f ∈ films, f.1 ≠ 0) {g : ℂ × ℂ} (hg : g ≠ 0) : throughFilms films g ≠ 0 := by
  induction films with
  | nil => exact hg
  | cons f films ih =>
    obtain ⟨y, δ⟩ := f
    have hy : y ≠ 0 := h (y, δ) List.mem_cons_self
    have i := ih fun f hf => h f (List.mem_cons_of_mem _ hf)
    intro e
    rw [throughFilms] at e
    have := filmFront_add y (-δ) δ hy (throughFilms films g)
    rw [e] at this
    apply i
    have z : filmFront y (-δ + δ) (throughFilms films g) = throughFilms films g := by simp [filmFront]
    rw [z] at this
    rw [← this]
    simp [filmFront]

/-- an absorbing medium in front of passive films is not in resonance with them -/
lemma entering_ne {films : List (ℂ × ℂ)} (h : ∀ f ∈ films, PassiveFilm f) {y yN : ℂ} (hy : 0 < y.re) (hN : 0 ≤ yN.re) : filmsDen y films yN ≠ 0 := by
  intro e
  have f1 := front_flow h (1, yN)
  have f2 := front_ne (fun f hf => (h f hf).1) (g := ((1 : ℂ), yN)) (by simp)
  rw [filmsDen, frontFields_eq] at e
  set g := throughFilms films (1, yN) with hg
  have e2 : g.2 = -(y * g.1) := by linear_combination e
  have f0 : filmFlow (1, yN) = yN.re := by simp [filmFlow]
  rw [f0, filmFlow, e2] at f1
  have : (-(y * g.1) * starRingEnd ℂ g.1).re = -(y.re * Complex.normSq g.1) := by
    rw [neg_mul, mul_assoc, Complex.mul_conj, Complex.neg_re, Complex.re_mul_ofReal]
  rw [this] at f1
  have n0 := Complex.normSq_nonneg g.1
  have : Complex.normSq g.1 = 0 := by nlinarith
  have z1 : g.1 = 0 := Complex.normSq_eq_zero.1 this
  exact f2 (Prod.ext z1 (by rw [e2, z1]; simp))

lemma throughFilms_comb (films : List (ℂ × ℂ)) (a b : ℂ) (f g : ℂ × ℂ) :
    throughFilms films (a * f.1 + b * g.1, a * f.2 + b * g.2) =
      (a * (throughFilms films f).1 + b * (throughFilms films g).1, a * (throughFilms films f).2 + b * (throughFilms films g).2) := by
  induction films with
  | nil => rfl
  | cons yd films ih =>
    obtain ⟨y, δ⟩ := yd
    rw [throughFilms, throughFilms, throughFilms, ih]
    simp only [filmFront, Prod.mk.injEq]
    constructor <;> ring

/-- the fields in front of a stack with the film `(y, δ)` inside: the wave into the film and, weaker by `exp (2 i δ)`, the wave out of it -/
lemma front_thick (pre post : List (ℂ × ℂ)) {y : ℂ} (hy : y ≠ 0) (yN : ℂ) (hu : filmsDen y post yN ≠ 0) :
    ∃ ρ : ℂ, ∀ δ : ℂ, ∀ v : ℂ, v * (frontFields (pre ++ (y, δ) :: post) yN).1 + (frontFields (pre ++ (y, δ) :: post) yN).2 =
      filmsDen y post yN / (2 * y) * Complex.exp (-(Complex.I * δ)) *
        ((v * (frontFields pre y).1 + (frontFields pre y).2) + ρ * Complex.exp (2 * Complex.I * δ) * (v * (frontFields pre (-y)).1 + (frontFields pre (-y)).2)) := by
  set h := (frontFields post yN).1 with hh
  set e := (frontFields post yN).2 with he
  have hu' : y * h + e ≠ 0 := hu
  refine ⟨(y * h - e) / (y * h + e), fun δ v => ?_⟩
  have e1 : Complex.exp (Complex.I * δ) = Complex.cos δ + Complex.I * Complex.sin δ := by rw [mul_comm, Complex.exp_mul_I]; ring
  have e2 : Complex.exp (-(Complex.I * δ)) = Complex.cos δ - Complex.I * Complex.sin δ := by
    rw [show -(Complex.I * δ) = (-δ) * Complex.I by ring, Complex.exp_mul_I, Complex.cos_neg, Complex.sin_neg]; ring
  have e3 : Complex.exp (-(Complex.I * δ)) * Complex.exp (2 * Complex.I * δ) = Complex.exp (Complex.I * δ) := by
    rw [← Complex.exp_add]; congr 1; ring
  have key : frontFields (pre ++ (y, δ) :: post) yN = throughFilms pre
      ((y * h + e) / (2 * y) * Complex.exp (-(Complex.I * δ)) * ((1 : ℂ), y).1 + (y * h - e) / (2 * y) * Complex.exp (Complex.I * δ) * ((1 : ℂ), -y).1,
        (y * h + e) / (2 * y) * Complex.exp (-(Complex.I * δ)) * ((1 : ℂ), y).2 + (y * h - e) / (2 * y) * Complex.exp (Complex.I * δ) * ((1 : ℂ), -y).2) := by
    rw [frontFields_eq, throughFilms_append, throughFilms, ← frontFields_eq]
    congr 1
    rw [e1, e2]
    refine Prod.ext ?_ ?_
    · simp only [filmFront, ← hh, ← he]
      field_simp
      ring
    · simp only [filmFront, ← hh, ← he]
      field_simp
      ring
  rw [key, throughFilms_comb, ← frontFields_eq, ← frontFields_eq, ← e3]
  have : filmsDen y post yN = y * h + e := rfl
  rw [this]
  field_simp
  ring

/-- in front of a thick absorbing film the reflectance is that of a half-space, and the transmittance falls off by Beer's law -/
lemma film_limit {y0 : ℝ} (h0 : 0 < y0) (pre post : List (ℂ × ℂ)) {y k yN : ℂ} (hy : 0 < y.re) (hk : 0 < k.im) (hpost : ∀ f ∈ post, PassiveFilm f) (hN : 0 ≤ yN.re)
    (hD : filmsDen y0 pre y ≠ 0) :
    Tendsto (fun d : ℝ => filmsR y0 (pre ++ (y, k * d) :: post) yN) atTop (𝓝 (filmsR y0 pre y)) ∧
    ∃ L, 0 ≤ L ∧ (0 < yN.re → 0 < L) ∧ Tendsto (fun d : ℝ => filmsT y0 (pre ++ (y, k * d) :: post) yN * Real.exp (2 * k.im * d)) atTop (𝓝 L) := by
  have hy0 : y ≠ 0 := fun e => by rw [e] at hy; simp at hy
  have hu := entering_ne hpost hy hN
  obtain ⟨ρ, hρ⟩ := front_thick pre post hy0 yN hu
  set A := filmsDen y post yN / (2 * y) with hA
  have hA0 : A ≠ 0 := div_ne_zero hu (mul_ne_zero two_ne_zero hy0)
  -- the weak wave dies out
  have hx : Tendsto (fun d : ℝ => Complex.exp (2 * Complex.I * (k * d))) atTop (𝓝 0) := by
    rw [tendsto_zero_iff_norm_tendsto_zero]
    have : (fun d : ℝ => ‖Complex.exp (2 * Complex.I * (k * d))‖) = fun d : ℝ => Real.exp (-(2 * k.im * d)) := by
      funext d
      rw [Complex.norm_exp]
      congr 1
      simp
      ring
    rw [this]
    exact Real.tendsto_exp_neg_atTop_nhds_zero.comp (tendsto_id.const_mul_atTop (by positivity))
  have lim : ∀ v : ℂ, Tendsto (fun d : ℝ => (v * (frontFields pre y).1 + (frontFields pre y).2) + ρ * Complex.exp (2 * Complex.I * (k * d)) * (v * (frontFields pre (-y)).1 + (frontFields pre (-y)).2))
      atTop (𝓝 (v * (frontFields pre y).1 + (frontFields pre y).2)) := by
    intro v
    have := ((hx.const_mul ρ).mul_const (v * (frontFields pre (-y)).1 + (frontFields pre (-y)).2)).const_add (v * (frontFields pre y).1 + (frontFields pre y).2)
    simpa using this
  have hden : ∀ d : ℝ, filmsDen y0 (pre ++ (y, k * d) :: post) yN = A * Complex.exp (-(Complex.I * (k * d))) *
      ((y0 * (frontFields pre y).1 + (frontFields pre y).2) + ρ * Complex.exp (2 * Complex.I * (k * d)) * (y0 * (frontFields pre (-y)).1 + (frontFields pre (-y)).2)) := fun d => hρ (k * d) y0
  have hnum : ∀ d : ℝ, y0 * (frontFields (pre ++ (y, k * d) :: post) yN).1 - (frontFields (pre ++ (y, k * d) :: post) yN).2 = -(A * Complex.exp (-(Complex.I * (k * d))) *
      ((-y0 * (frontFields pre y).1 + (frontFields pre y).2) + ρ * Complex.exp (2 * Complex.I * (k * d)) * (-y0 * (frontFields pre (-y)).1 + (frontFields pre (-y)).2))) := fun d => by
    have := hρ (k * d) (-y0)
    linear_combination -this
  constructor
  · have hquot : ∀ d : ℝ, filmsR y0 (pre ++ (y, k * d) :: post) yN = Complex.normSq
        (-((-y0 * (frontFields pre y).1 + (frontFields pre y).2) + ρ * Complex.exp (2 * Complex.I * (k * d)) * (-y0 * (frontFields pre (-y)).1 + (frontFields pre (-y)).2)) /
        ((y0 * (frontFields pre y).1 + (frontFields pre y).2) + ρ * Complex.exp (2 * Complex.I * (k * d)) * (y0 * (frontFields pre (-y)).1 + (frontFields pre (-y)).2))) := by
      intro d
      rw [filmsR, hnum, hden, ← mul_neg, mul_div_mul_left _ _ (mul_ne_zero hA0 (Complex.exp_ne_zero _))]
    have e : filmsR y0 pre y = Complex.normSq (-(-y0 * (frontFields pre y).1 + (frontFields pre y).2) / (y0 * (frontFields pre y).1 + (frontFields pre y).2)) := by
      rw [filmsR, filmsDen]
      congr 2
      ring
    rw [e]
    simp only [hquot]
    exact (Complex.continuous_normSq.tendsto _).comp ((lim (-y0)).neg.div (lim y0) hD)
  · refine ⟨4 * y0 * yN.re / (Complex.normSq A * Complex.normSq (filmsDen y0 pre y)), ?_, fun h => ?_, ?_⟩
    · have := Complex.normSq_nonneg A
      have := Complex.normSq_nonneg (filmsDen y0 pre y)
      positivity
    · have := Complex.normSq_pos.2 hA0
      have := Complex.normSq_pos.2 hD
      positivity
    · have eT : ∀ d : ℝ, filmsT y0 (pre ++ (y, k * d) :: post) yN * Real.exp (2 * k.im * d) = 4 * y0 * yN.re / (Complex.normSq A *
          Complex.normSq ((y0 * (frontFields pre y).1 + (frontFields pre y).2) + ρ * Complex.exp (2 * Complex.I * (k * d)) * (y0 * (frontFields pre (-y)).1 + (frontFields pre (-y)).2))) := by
        intro d
        have en : Complex.normSq (Complex.exp (-(Complex.I * (k * d)))) = Real.exp (2 * k.im * d) := by
          rw [Complex.normSq_eq_norm_sq, Complex.norm_exp, ← Real.exp_nat_mul]
          congr 1
          simp
          ring
        have := (Real.exp_pos (2 * k.im * d)).ne'
        rw [filmsT, hden, Complex.normSq_mul, Complex.normSq_mul, en]
        field_simp
      simp only [eT]
      exact tendsto_const_nhds.div (((Complex.continuous_normSq.tendsto _).comp (lim y0)).const_mul _)
        (mul_ne_zero (Complex.normSq_pos.2 hA0).ne' (Complex.normSq_pos.2 hD).ne')

/-- a layer seen by the two polarisations is a passive film -/
lemma passive_s {ω S : ℝ} (hω : 0 < ω) {ε c : ℂ} (hc : c ^ 2 = ε - S) (hc0 : c ≠ 0) (hε : 0 ≤ ε.im) {d : ℝ} (hd : 0 ≤ d) : PassiveFilm (1 / c, ω * c * d) := by
  refine ⟨one_div_ne_zero hc0, ω * c, d, hd, rfl, ?_, ?_⟩
  · show 0 ≤ (ω * c * (1 / c)).im
    rw [mul_assoc, mul_one_div_cancel hc0, mul_one, Complex.ofReal_im]
  · show 0 ≤ (ω * c / (1 / c)).im
    have : (ω * c / (1 / c) : ℂ) = ω * c ^ 2 := by field_simp
    rw [this, hc, Complex.im_ofReal_mul, Complex.sub_im, Complex.ofReal_im, sub_zero]
    exact mul_nonneg hω.le hε

lemma passive_p {ω S : ℝ} (hω : 0 < ω) (hS : 0 ≤ S) {ε c : ℂ} (hc : c ^ 2 = ε - S) (hc0 : c ≠ 0) (hε0 : ε ≠ 0) (hε : 0 ≤ ε.im) {d : ℝ} (hd : 0 ≤ d) : PassiveFilm (c / ε, ω * c * d) := by
  refine ⟨div_ne_zero hc0 hε0, ω * c, d, hd, rfl, ?_, ?_⟩
  · show 0 ≤ (ω * c * (c / ε)).im
    have : (ω * c * (c / ε) : ℂ) = ω * (1 - S * ε⁻¹) := by
      field_simp
      rw [hc]
    rw [this, Complex.im_ofReal_mul, Complex.sub_im, Complex.one_im, Complex.im_ofReal_mul, Complex.inv_im, zero_sub]
    have := Complex.normSq_nonneg ε
    have h2 : 0 ≤ S * (ε.im / Complex.normSq ε) := by positivity
    have e : -(S * (-ε.im / Complex.normSq ε)) = S * (ε.im / Complex.normSq ε) := by ring
    rw [e]
    positivity
  · show 0 ≤ (ω * c / (c / ε)).im
    have : (ω * c / (c / ε) : ℂ) = ω * ε := by field_simp
    rw [this, Complex.im_ofReal_mul]
    exact mul_nonneg hω.le hε

lemma impedance_s {c : ℂ} : (1 / c).re = c.re / Complex.normSq c := by rw [one_div, Complex.inv_re]

lemma impedance_p {S : ℝ} {ε c : ℂ} (hc : c ^ 2 = ε - S) : (c / ε).re = c.re * (Complex.normSq c + S) / Complex.normSq ε := by
  have e : ε = c ^ 2 + S := by rw [hc]; ring
  have e1 : ε.re = c.re ^ 2 - c.im ^ 2 + S := by rw [e]; simp [pow_two]
  have e2 : ε.im = 2 * (c.re * c.im) := by rw [e]; simp [pow_two]; ring
  rw [Complex.div_re, ← add_div, e1, e2, Complex.normSq_apply c]
  congr 1
  ring

variable {n : ℕ}

/-- the film that a layer (permittivity, thickness, normal component of the wave vector) is to the s polarisation -/
def sFilm (ω : ℝ) (m : ℂ × ℝ × ℂ) : ℂ × ℂ := (1 / m.2.2, ω * m.2.2 * m.2.1)

/-- the same for the p polarisation -/
def pFilm (ω : ℝ) (m : ℂ × ℝ × ℂ) : ℂ × ℂ := (m.2.2 / m.1, ω * m.2.2 * m.2.1)

/-- the solver's answer for a stack of uniform passive layers -/
lemma films_answer (ω θ φ ε0 : ℝ) (hω : 0 < ω) (hc : 0 < Real.cos θ) (h0 : 0 < ε0) (Lk1 Lk2 : ℝ × ℝ) (G : Fin n → ℤ × ℤ) (o : Fin n) (ho : G o = (0, 0)) (d0 dN : ℝ) (kx ky : Fin n → ℂ)
    (hkx : kx = kxOf ω θ φ ε0 Lk1 Lk2 G) (hky : ky = kyOf ω θ φ ε0 Lk1 Lk2 G) (hprop : ∀ i, (kx i).re ^ 2 + (ky i).re ^ 2 < ε0 * ω ^ 2) (mids : List (ℂ × ℝ × ℂ)) (εN cN : ℂ)
    (hm : ∀ m ∈ mids, m.1 ≠ 0 ∧ 0 ≤ m.1.im ∧ 0 ≤ m.2.1 ∧ m.2.2 ^ 2 = m.1 - ε0 * Real.sin θ ^ 2) (hεN : εN ≠ 0) (hN : 0 ≤ εN.im) (hcN : cN ^ 2 = εN - ε0 * Real.sin θ ^ 2)
    (hfwd : 0 < cN.im ∨ cN.im = 0 ∧ 0 < cN.re) (hq0 : ∀ i, (ε0 : ℂ) * (ω : ℂ) ^ 2 ≠ kx i ^ 2 + ky i ^ 2) (hqm : ∀ m ∈ mids, ∀ i, m.1 * (ω : ℂ) ^ 2 ≠ kx i ^ 2 + ky i ^ 2)
    (hqN : ∀ i, εN * (ω : ℂ) ^ 2 ≠ kx i ^ 2 + ky i ^ 2) (s p : ℂ) :
    ∃ R T, rtForward ω (rtNormalization ε0 θ) (uniformLayer ω kx ky ε0 d0 :: (mids.map (fun m => (m.1, m.2.1)) ++ [(εN, dN)]).map fun e => uniformLayer ω kx ky e.1 e.2) (planewave θ φ s p o) 0 = .ok (R, T) ∧
      filmsDen (1 / (Real.sqrt ε0 * Real.cos θ) : ℝ) (mids.map (sFilm ω)) (1 / cN) ≠ 0 ∧ filmsDen (Real.cos θ / Real.sqrt ε0 : ℝ) (mids.map (pFilm ω)) (cN / εN) ≠ 0 ∧
      R = Complex.normSq s * filmsR (1 / (Real.sqrt ε0 * Real.cos θ)) (mids.map (sFilm ω)) (1 / cN) + Complex.normSq p * filmsR (Real.cos θ / Real.sqrt ε0) (mids.map (pFilm ω)) (cN / εN) ∧
      T = Complex.normSq s * filmsT (1 / (Real.sqrt ε0 * Real.cos θ)) (mids.map (sFilm ω)) (1 / cN) + Complex.normSq p * filmsT (Real.cos θ / Real.sqrt ε0) (mids.map (pFilm ω)) (cN / εN) := by
  have ord : ∀ {e : ℂ}, (∀ i, e * (ω : ℂ) ^ 2 ≠ kx i ^ 2 + ky i ^ 2) → ∀ i, qOrd ω e kx ky i ≠ 0 := by
    intro e h i h'
    have := qOrd_sq ω e kx ky i
    rw [h'] at this
    exact h i (by linear_combination -this)
  have hqs : ∀ M ∈ uniformLayer ω kx ky ε0 d0 :: (mids.map (fun m => (m.1, m.2.1)) ++ [(εN, dN)]).map fun e => uniformLayer ω kx ky e.1 e.2, ∀ m, M.q m ≠ 0 := by
    intro M hM
    rcases List.mem_cons.1 hM with rfl | hM
    · exact qs_of_ord (ord hq0)
    · obtain ⟨l, hl, rfl⟩ := List.mem_map.1 hM
      rcases List.mem_append.1 hl with hl | hl
      · obtain ⟨m, hm', rfl⟩ := List.mem_map.1 hl
        exact qs_of_ord (ord (hqm m hm'))
      · rw [List.mem_singleton.1 hl]
        exact qs_of_ord (ord hqN)
  obtain ⟨R, T, h⟩ := C113_real ω θ φ ε0 hω h0 Lk1 Lk2 G kx ky hkx hky hprop d0 (mids.map (fun m => (m.1, m.2.1))) (by
    intro m h
    obtain ⟨l, hl, rfl⟩ := List.mem_map.1 h
    exact ⟨(hm l hl).1, (hm l hl).2.1, (hm l hl).2.2.1⟩) εN dN hεN hN _ rfl hqs (rtNormalization ε0 θ) (planewave θ φ s p o) 0
  exact ⟨R, T, h, C112_films ω θ φ ε0 hω hc h0 Lk1 Lk2 G o ho d0 mids (fun m h => ⟨(hm m h).1, (hm m h).2.2.2⟩) εN dN cN hεN hcN hfwd kx ky hkx hky _ rfl hqs s p R T h⟩

/-- **C175.** Make one absorbing layer of a stack of uniform passive layers thicker and thicker (angle of incidence, polarisation and all other layers are arbitrary): the solver answers for every thickness; the reflectance tends to that
of the stack which ends in a half-space of the absorbing material, whatever is behind; the transmittance tends to zero, by Beer's law with the attenuation of the wave in the layer. -/
theorem C175_opaque (ω θ φ ε0 : ℝ) (hω : 0 < ω) (hc : 0 < Real.cos θ) (h0 : 0 < ε0) (Lk1 Lk2 : ℝ × ℝ) (G : Fin n → ℤ × ℤ) (o : Fin n) (ho : G o = (0, 0)) (d0 dN : ℝ) (kx ky : Fin n → ℂ)
    (hkx : kx = kxOf ω θ φ ε0 Lk1 Lk2 G) (hky : ky = kyOf ω θ φ ε0 Lk1 Lk2 G) (hprop : ∀ i, (kx i).re ^ 2 + (ky i).re ^ 2 < ε0 * ω ^ 2) (pre post : List (ℂ × ℝ)) (ε εN c : ℂ)
    (hm : ∀ m ∈ pre ++ post, m.1 ≠ 0 ∧ 0 ≤ m.1.im ∧ 0 ≤ m.2) (hε : 0 < ε.im) (hc2 : c ^ 2 = ε - ε0 * Real.sin θ ^ 2) (hci : 0 < c.im) (hεN : εN ≠ 0) (hN : 0 ≤ εN.im)
    (hq : ∀ e ∈ εN :: (pre ++ post).map (·.1), ∀ i, e * (ω : ℂ) ^ 2 ≠ kx i ^ 2 + ky i ^ 2) (s p : ℂ) :
    ∃ (R T : ℝ → ℝ) (R' T' L : ℝ),
      (∀ d, 0 ≤ d → rtForward ω (rtNormalization ε0 θ) (uniformLayer ω kx ky ε0 d0 :: (pre ++ (ε, d) :: post ++ [(εN, dN)]).map fun e => uniformLayer ω kx ky e.1 e.2) (planewave θ φ s p o) 0 = .ok (R d, T d)) ∧
      rtForward ω (rtNormalization ε0 θ) (uniformLayer ω kx ky ε0 d0 :: (pre ++ [(ε, dN)]).map fun e => uniformLayer ω kx ky e.1 e.2) (planewave θ φ s p o) 0 = .ok (R', T') ∧
      Tendsto R atTop (𝓝 R') ∧ Tendsto T atTop (𝓝 0) ∧ Tendsto (fun d => T d * Real.exp (2 * (ω * c.im) * d)) atTop (𝓝 L) := by
  have hx : ∀ i, (kx i).im = 0 := by rw [hkx]; exact kxOf_real ω θ φ _ Lk1 Lk2 G
  have hy : ∀ i, (ky i).im = 0 := by rw [hky]; exact kyOf_real ω θ φ _ Lk1 Lk2 G
  have ere : ∀ i, kx i ^ 2 + ky i ^ 2 = (((kx i).re ^ 2 + (ky i).re ^ 2 : ℝ) : ℂ) := by
    intro i
    have e1 : kx i = ((kx i).re : ℂ) := Complex.ext rfl (by rw [hx i, Complex.ofReal_im])
    have e2 : ky i = ((ky i).re : ℂ) := Complex.ext rfl (by rw [hy i, Complex.ofReal_im])
    rw [e1, e2]
    push_cast
    simp
  set S : ℝ := ε0 * Real.sin θ ^ 2 with hSdef
  have hS : 0 ≤ S := by positivity
  have hSc : (ε0 : ℂ) * Real.sin θ ^ 2 = (S : ℂ) := by rw [hSdef]; push_cast; ring
  have hko : kx o ^ 2 + ky o ^ 2 = (ω : ℂ) ^ 2 * S := by
    obtain ⟨k1, k2⟩ := kxOf_order ω θ φ ε0 Lk1 Lk2 ho
    rw [← hkx] at k1
    rw [← hky] at k2
    have hs2 := Real.sq_sqrt h0.le
    rw [k1, k2]
    norm_cast
    rw [hSdef]
    linear_combination (ω ^ 2 * Real.sin θ ^ 2 * Real.sqrt ε0 ^ 2) * Real.sin_sq_add_cos_sq φ + (ω ^ 2 * Real.sin θ ^ 2) * hs2
  have hωc : (ω : ℂ) ≠ 0 := Complex.ofReal_ne_zero.2 hω.ne'
  -- no order grazes in any layer
  have hq0 : ∀ i, (ε0 : ℂ) * (ω : ℂ) ^ 2 ≠ kx i ^ 2 + ky i ^ 2 := by
    intro i e
    rw [ere] at e
    have := hprop i
    have e' : ε0 * ω ^ 2 = (kx i).re ^ 2 + (ky i).re ^ 2 := by exact_mod_cast e
    linarith
  have hqε : ∀ i, ε * (ω : ℂ) ^ 2 ≠ kx i ^ 2 + ky i ^ 2 := by
    intro i e
    rw [ere] at e
    have e' := congrArg Complex.im e
    rw [Complex.ofReal_im, ← Complex.ofReal_pow, Complex.im_mul_ofReal] at e'
    have : 0 < ε.im * ω ^ 2 := by positivity
    linarith
  have hε0 : ε ≠ 0 := fun e => by rw [e] at hε; simp at hε
  -- the normal component of the wave vector in each layer
  set rt : ℂ → ℂ := fun e => branchQ (csqrt (e - S)) with hrt
  have rt2 : ∀ e, rt e ^ 2 = e - S := fun e => by rw [hrt]; simp only; rw [branchQ_sq, csqrt_sq]
  have rt0 : ∀ e ∈ εN :: (pre ++ post).map (·.1), rt e ≠ 0 := by
    intro e he h
    have := rt2 e
    rw [h] at this
    refine hq e he o ?_
    rw [hko]
    linear_combination (-(ω : ℂ) ^ 2) * this
  have hcc : c ^ 2 = ε - S := by rw [hc2, hSc]
  have hcr : 0 < c.re := by
    have e := congrArg Complex.im hcc
    rw [Complex.sub_im, Complex.ofReal_im, sub_zero, pow_two, Complex.mul_im] at e
    nlinarith
  have hc0 : c ≠ 0 := fun e => by rw [e] at hci; simp at hci
  have hrN : 0 ≤ (rt εN).re := branchQ_csqrt_re _ (by rw [Complex.sub_im, Complex.ofReal_im, sub_zero]; exact hN)
  have hrN0 := rt0 εN List.mem_cons_self
  have hfwd : 0 < (rt εN).im ∨ (rt εN).im = 0 ∧ 0 < (rt εN).re := by
    rcases (branchQ_im (csqrt (εN - S))).lt_or_eq with h | h
    · exact .inl h
    · refine .inr ⟨h.symm, lt_of_le_of_ne hrN fun e => hrN0 (Complex.ext e.symm h.symm)⟩
  set f : ℂ × ℝ → ℂ × ℝ × ℂ := fun m => (m.1, m.2, rt m.1) with hf
  have back : ∀ l : List (ℂ × ℝ), (l.map f).map (fun m => (m.1, m.2.1)) = l := fun l => by
    rw [List.map_map]
    exact List.map_id'' (fun _ => rfl) l
  have hqm : ∀ m ∈ pre ++ post, ∀ i, m.1 * (ω : ℂ) ^ 2 ≠ kx i ^ 2 + ky i ^ 2 := fun m h => hq _ (List.mem_cons_of_mem _ (List.mem_map_of_mem h))
  have hmf : ∀ m ∈ pre ++ post, (f m).1 ≠ 0 ∧ 0 ≤ (f m).1.im ∧ 0 ≤ (f m).2.1 ∧ (f m).2.2 ^ 2 = (f m).1 - ε0 * Real.sin θ ^ 2 := fun m h =>
    ⟨(hm m h).1, (hm m h).2.1, (hm m h).2.2, by rw [hSc]; exact rt2 _⟩
  -- the stack with the layer of thickness d
  have ans := fun (d : ℝ) (hd : 0 ≤ d) => films_answer ω θ φ ε0 hω hc h0 Lk1 Lk2 G o ho d0 dN kx ky hkx hky hprop (pre.map f ++ (ε, d, c) :: post.map f) εN (rt εN) (by
      intro m h
      rcases List.mem_append.1 h with h | h
      · obtain ⟨l, hl, rfl⟩ := List.mem_map.1 h
        exact hmf l (List.mem_append_left _ hl)
      · rcases List.mem_cons.1 h with rfl | h
        · exact ⟨hε0, hε.le, hd, by rw [hSc]; exact hcc⟩
        · obtain ⟨l, hl, rfl⟩ := List.mem_map.1 h
          exact hmf l (List.mem_append_right _ hl)) hεN hN (by rw [hSc]; exact rt2 _) hfwd hq0 (by
      intro m h
      rcases List.mem_append.1 h with h | h
      · obtain ⟨l, hl, rfl⟩ := List.mem_map.1 h
        exact hqm l (List.mem_append_left _ hl)
      · rcases List.mem_cons.1 h with rfl | h
        · exact hqε
        · obtain ⟨l, hl, rfl⟩ := List.mem_map.1 h
          exact hqm l (List.mem_append_right _ hl)) (hq _ List.mem_cons_self) s p
  -- the stack that ends in the absorbing material
  obtain ⟨R', T', h', hDs, hDp, hR', -⟩ := films_answer ω θ φ ε0 hω hc h0 Lk1 Lk2 G o ho d0 dN kx ky hkx hky hprop (pre.map f) ε c (by
      intro m h
      obtain ⟨l, hl, rfl⟩ := List.mem_map.1 h
      exact hmf l (List.mem_append_left _ hl)) hε0 hε.le (by rw [hSc]; exact hcc) (.inl hci) hq0 (by
      intro m h
      obtain ⟨l, hl, rfl⟩ := List.mem_map.1 h
      exact hqm l (List.mem_append_left _ hl)) hqε s p
  rw [back] at h'
  simp only [List.map_append, List.map_cons, back] at ans
  have hs0 := Real.sqrt_pos.2 h0
  have ncpos : 0 < Complex.normSq c := Complex.normSq_pos.2 hc0
  have nepos : 0 < Complex.normSq ε := Complex.normSq_pos.2 hε0
  have hpost : ∀ m ∈ post, m.1 ≠ 0 ∧ 0 ≤ m.1.im ∧ 0 ≤ m.2 ∧ rt m.1 ≠ 0 := fun m h =>
    ⟨(hm m (List.mem_append_right _ h)).1, (hm m (List.mem_append_right _ h)).2.1, (hm m (List.mem_append_right _ h)).2.2,
      rt0 _ (List.mem_cons_of_mem _ (List.mem_map_of_mem (List.mem_append_right _ h)))⟩
  have hk : 0 < ((ω : ℂ) * c).im := by rw [Complex.im_ofReal_mul]; positivity
  obtain ⟨rs, Ls, -, -, ts⟩ := film_limit (y0 := 1 / (Real.sqrt ε0 * Real.cos θ)) (by positivity) ((pre.map f).map (sFilm ω))
    ((post.map f).map (sFilm ω)) (y := 1 / c) (k := ω * c) (yN := 1 / rt εN) (by rw [impedance_s]; positivity) hk (by
      intro g hg
      obtain ⟨m', hm', rfl⟩ := List.mem_map.1 hg
      obtain ⟨m, hm1, rfl⟩ := List.mem_map.1 hm'
      obtain ⟨a1, a2, a3, a4⟩ := hpost m hm1
      exact passive_s hω (rt2 _) a4 a2 a3) (by rw [impedance_s]; exact div_nonneg hrN (Complex.normSq_nonneg _)) hDs
  obtain ⟨rp, Lp, -, -, tp⟩ := film_limit (y0 := Real.cos θ / Real.sqrt ε0) (by positivity) ((pre.map f).map (pFilm ω))
    ((post.map f).map (pFilm ω)) (y := c / ε) (k := ω * c) (yN := rt εN / εN) (by rw [impedance_p hcc]; positivity) hk (by
      intro g hg
      obtain ⟨m', hm', rfl⟩ := List.mem_map.1 hg
      obtain ⟨m, hm1, rfl⟩ := List.mem_map.1 hm'
      obtain ⟨a1, a2, a3, a4⟩ := hpost m hm1
      exact passive_p hω hS (rt2 _) a4 a1 a2 a3) (by
      rw [impedance_p (rt2 εN)]
      exact div_nonneg (mul_nonneg hrN (add_nonneg (Complex.normSq_nonneg _) hS)) (Complex.normSq_nonneg _)) hDp
  choose! R T hrt' _ _ hR hT using ans
  have hRl : Tendsto R atTop (𝓝 R') := by
    rw [hR']
    refine Tendsto.congr' ?_ ((rs.const_mul _).add (rp.const_mul _))
    filter_upwards [eventually_ge_atTop 0] with d hd
    exact (hR d hd).symm
  have hTl : Tendsto (fun d => T d * Real.exp (2 * (ω * c.im) * d)) atTop (𝓝 (Complex.normSq s * Ls + Complex.normSq p * Lp)) := by
    refine Tendsto.congr' ?_ ((ts.const_mul _).add (tp.const_mul _))
    filter_upwards [eventually_ge_atTop 0] with d hd
    have e := hT d hd
    simp only [sFilm, pFilm] at e
    rw [e, Complex.im_ofReal_mul]
    ring
  refine ⟨R, T, R', T', _, fun d hd => ?_, h', hRl, ?_, hTl⟩
  · have := hrt' d hd
    simp only [List.map_append, List.map_cons]
    exact this
  have hex : Tendsto (fun d : ℝ => Real.exp (-(2 * (ω * c.im) * d))) atTop (𝓝 0) :=
    Real.tendsto_exp_neg_atTop_nhds_zero.comp (tendsto_id.const_mul_atTop (by positivity))
  have := hTl.mul hex
  rw [mul_zero] at this
  refine this.congr fun d => ?_
  rw [mul_assoc, ← Real.exp_add, add_neg_cancel, Real.exp_zero, mul_one]

/-- glass, a layer of permittivity `2 i` that gets thicker, another layer, glass: what is seen in the limit is glass over the absorbing material -/
example : ∃ (R T : ℝ → ℝ) (R' T' L : ℝ),
    (∀ d, 0 ≤ d → rtForward ((1 : ℝ) : ℂ) (rtNormalization 1 0) (uniformLayer ((1 : ℝ) : ℂ) (kxOf ((1 : ℝ) : ℂ) 0 0 1 (1, 0) (0, 1) oneOrder) (kyOf ((1 : ℝ) : ℂ) 0 0 1 (1, 0) (0, 1) oneOrder) ((1 : ℝ) : ℂ) 1 ::
      ([(2, 1)] ++ (2 * Complex.I, d) :: [(3, 1)] ++ [(2, 1)]).map fun e : ℂ × ℝ => uniformLayer ((1 : ℝ) : ℂ) (kxOf ((1 : ℝ) : ℂ) 0 0 1 (1, 0) (0, 1) oneOrder) (kyOf ((1 : ℝ) : ℂ) 0 0 1 (1, 0) (0, 1) oneOrder) e.1 e.2)
      (planewave 0 0 1 0 (0 : Fin 1)) 0 = .ok (R d, T d)) ∧
    rtForward ((1 : ℝ) : ℂ) (rtNormalization 1 0) (uniformLayer ((1 : ℝ) : ℂ) (kxOf ((1 : ℝ) : ℂ) 0 0 1 (1, 0) (0, 1) oneOrder) (kyOf ((1 : ℝ) : ℂ) 0 0 1 (1, 0) (0, 1) oneOrder) ((1 : ℝ) : ℂ) 1 ::
      ([(2, (1 : ℝ))] ++ [(2 * Complex.I, 1)]).map fun e : ℂ × ℝ => uniformLayer ((1 : ℝ) : ℂ) (kxOf ((1 : ℝ) : ℂ) 0 0 1 (1, 0) (0, 1) oneOrder) (kyOf ((1 : ℝ) : ℂ) 0 0 1 (1, 0) (0, 1) oneOrder) e.1 e.2)
      (planewave 0 0 1 0 (0 : Fin 1)) 0 = .ok (R', T') ∧
    Tendsto R atTop (𝓝 R') ∧ Tendsto T atTop (𝓝 0) ∧ Tendsto (fun d => T d * Real.exp (2 * (1 * (1 + Complex.I).im) * d)) atTop (𝓝 L) := by
  refine C175_opaque 1 0 0 1 one_pos (by simp) one_pos (1, 0) (0, 1) oneOrder 0 rfl 1 1 _ _ rfl rfl (fun i => ?_) [(2, 1)] [(3, 1)] (2 * Complex.I) 2 (1 + Complex.I) ?_ (by simp) ?_ (by simp) (by simp) (by simp) (fun e he i => ?_) 1 0
  · obtain ⟨k1, k2⟩ := kOf_zero_order ((1 : ℝ) : ℂ) 0 1 (1, 0) (0, 1) (G := oneOrder) (o := i) (by rfl)
    rw [k1, k2]; norm_num
  · intro m hm
    simp only [List.cons_append, List.nil_append, List.mem_cons, List.not_mem_nil, or_false] at hm
    rcases hm with rfl | rfl <;> simp
  · rw [Real.sin_zero]
    push_cast
    linear_combination Complex.I_sq
  · obtain ⟨k1, k2⟩ := kOf_zero_order ((1 : ℝ) : ℂ) 0 1 (1, 0) (0, 1) (G := oneOrder) (o := i) (by rfl)
    rw [k1, k2]
    simp only [List.cons_append, List.nil_append, List.map_cons, List.map_nil, List.mem_cons, List.not_mem_nil, or_false] at he
    rcases he with rfl | rfl | rfl <;> norm_num

end

end Nidn
