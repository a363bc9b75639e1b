/-
Property C112, continued: the laws of thin-film optics that follow - Fresnel's formulas at oblique incidence, Brewster's angle, total
reflection, quarter-wave coatings and half-wave films - and the damped frequencies of the driver.
-/
import Verif.Props.Solvable

set_option linter.unusedSectionVars false

namespace Nidn

open Matrix

noncomputable section

variable {n : ℕ}

/-- no film: amplitudes of the bare interface -/
lemma films_nil (y0 : ℝ) (yN : ℂ) : filmsR y0 [] yN = Complex.normSq ((y0 - yN) / (y0 + yN)) ∧ filmsT y0 [] yN = 4 * y0 * yN.re / Complex.normSq (y0 + yN) := by
  simp [filmsR, filmsT, filmsDen, frontFields]

/-- Fresnel's power coefficients for light from index `n1` at angle `t1` into index `n2` at angle `t2`: perpendicular polarisation. -/
def fresnelRs (n1 n2 t1 t2 : ℝ) : ℝ := ((n1 * Real.cos t1 - n2 * Real.cos t2) / (n1 * Real.cos t1 + n2 * Real.cos t2)) ^ 2
def fresnelTs (n1 n2 t1 t2 : ℝ) : ℝ := 4 * (n1 * Real.cos t1) * (n2 * Real.cos t2) / (n1 * Real.cos t1 + n2 * Real.cos t2) ^ 2

/-- ... and parallel polarisation. -/
def fresnelRp (n1 n2 t1 t2 : ℝ) : ℝ := ((n2 * Real.cos t1 - n1 * Real.cos t2) / (n2 * Real.cos t1 + n1 * Real.cos t2)) ^ 2
def fresnelTp (n1 n2 t1 t2 : ℝ) : ℝ := 4 * (n2 * Real.cos t1) * (n1 * Real.cos t2) / (n2 * Real.cos t1 + n1 * Real.cos t2) ^ 2

lemma no_grazing {ω : ℝ} {ε : ℝ} {kx ky : Fin n → ℂ} (hq : ∀ i, (ε : ℂ) * (ω : ℂ) ^ 2 ≠ kx i ^ 2 + ky i ^ 2) (i : Fin n) : qOrd ω ε kx ky i ≠ 0 := by
  intro h
  have := qOrd_sq ω ε kx ky i
  rw [h] at this
  exact hq i (by linear_combination -this)

/-- C112: Fresnel's formulas. For two transparent half-spaces, every angle of incidence with refraction angle given by Snell's law, every
azimuth, polarisation, lattice and truncation, the solver answers with Fresnel's coefficients: `s` is the amplitude perpendicular to the plane
of incidence, `p` the one parallel to it. -/
theorem C112_fresnel (ω θ θ' φ n1 n2 : ℝ) (hω : 0 < ω) (hc : 0 < Real.cos θ) (hc' : 0 < Real.cos θ') (h1 : 0 < n1) (h2 : 0 < n2)
    (hsnell : n1 * Real.sin θ = n2 * Real.sin θ') (Lk1 Lk2 : ℝ × ℝ) (G : Fin n → ℤ × ℤ) (o : Fin n) (ho : G o = (0, 0)) (d0 dN : ℝ)
    (kx ky : Fin n → ℂ) (hkx : kx = kxOf ω θ φ (n1 ^ 2) Lk1 Lk2 G) (hky : ky = kyOf ω θ φ (n1 ^ 2) Lk1 Lk2 G)
    (hq1 : ∀ i, ((n1 ^ 2 : ℝ) : ℂ) * (ω : ℂ) ^ 2 ≠ kx i ^ 2 + ky i ^ 2) (hq2 : ∀ i, ((n2 ^ 2 : ℝ) : ℂ) * (ω : ℂ) ^ 2 ≠ kx i ^ 2 + ky i ^ 2) (s p : ℂ) :
    rtForward ω (rtNormalization (n1 ^ 2) θ) [uniformLayer ω kx ky ((n1 ^ 2 : ℝ) : ℂ) d0, uniformLayer ω kx ky ((n2 ^ 2 : ℝ) : ℂ) dN]
      (planewave θ φ s p o) 0 =
    .ok (Complex.normSq s * fresnelRs n1 n2 θ θ' + Complex.normSq p * fresnelRp n1 n2 θ θ',
      Complex.normSq s * fresnelTs n1 n2 θ θ' + Complex.normSq p * fresnelTp n1 n2 θ θ') := by
  have hx : ∀ i, (kx i).im = 0 := by rw [hkx]; exact kxOf_real ω θ φ _ Lk1 Lk2 G
  have hy : ∀ i, (ky i).im = 0 := by rw [hky]; exact kyOf_real ω θ φ _ Lk1 Lk2 G
  have g1 := no_grazing hq1
  have g2 := no_grazing hq2
  obtain ⟨S, hS⟩ := interface_ok (ω := (ω : ℂ)) (by rwa [Complex.ofReal_re]) (by rw [Complex.ofReal_im]) (ε1 := n1 ^ 2) (ε2 := n2 ^ 2) (by positivity)
    (by positivity) hx hy d0 dN g1 g2
  obtain ⟨R, T, h⟩ := rt_ok (ω := (ω : ℂ)) (norm := rtNormalization (n1 ^ 2) θ) (mids := []) (S := S) hS (planewave θ φ s p o) 0
  have hn2 : ((n2 ^ 2 : ℝ) : ℂ) ≠ 0 := Complex.ofReal_ne_zero.2 (by positivity)
  have hf := C112_films ω θ φ (n1 ^ 2) hω hc (by positivity) Lk1 Lk2 G o ho d0 [] (by simp) ((n2 ^ 2 : ℝ) : ℂ) dN ((n2 * Real.cos θ' : ℝ) : ℂ) hn2 (by
      have e := Real.sin_sq_add_cos_sq θ'
      have : (n2 * Real.cos θ') ^ 2 = n2 ^ 2 - n1 ^ 2 * Real.sin θ ^ 2 := by
        rw [← mul_pow n1, hsnell]; linear_combination n2 ^ 2 * e
      exact_mod_cast congrArg Complex.ofReal this) (.inr ⟨Complex.ofReal_im _, by rw [Complex.ofReal_re]; positivity⟩) kx ky hkx hky _ rfl (fun M hM => by
      simp only [List.map_nil, List.nil_append, List.map_cons, List.mem_cons, List.not_mem_nil, or_false] at hM
      rcases hM with rfl | rfl
      · exact qs_of_ord g1
      · exact qs_of_ord g2) s p R T h
  obtain ⟨-, -, hR, hT⟩ := hf
  have h' : rtForward ω (rtNormalization (n1 ^ 2) θ) [uniformLayer ω kx ky ((n1 ^ 2 : ℝ) : ℂ) d0, uniformLayer ω kx ky ((n2 ^ 2 : ℝ) : ℂ) dN]
      (planewave θ φ s p o) 0 = .ok (R, T) := h
  rw [h', hR, hT]
  simp only [List.map_nil]
  rw [(films_nil _ _).1, (films_nil _ _).1, (films_nil _ _).2, (films_nil _ _).2, Real.sqrt_sq h1.le]
  have c1 : (1 : ℂ) / ((n2 * Real.cos θ' : ℝ) : ℂ) = ((1 / (n2 * Real.cos θ') : ℝ) : ℂ) := by rw [Complex.ofReal_div, Complex.ofReal_one]
  have c2 : ((n2 * Real.cos θ' : ℝ) : ℂ) / ((n2 ^ 2 : ℝ) : ℂ) = ((n2 * Real.cos θ' / n2 ^ 2 : ℝ) : ℂ) := by rw [Complex.ofReal_div]
  rw [c1, c2]
  simp only [← Complex.ofReal_sub, ← Complex.ofReal_add, ← Complex.ofReal_div, Complex.normSq_ofReal, Complex.ofReal_re]
  have e1 : (1 / (n1 * Real.cos θ) - 1 / (n2 * Real.cos θ')) / (1 / (n1 * Real.cos θ) + 1 / (n2 * Real.cos θ')) *
      ((1 / (n1 * Real.cos θ) - 1 / (n2 * Real.cos θ')) / (1 / (n1 * Real.cos θ) + 1 / (n2 * Real.cos θ'))) = fresnelRs n1 n2 θ θ' := by
    have : 0 < n1 * Real.cos θ + n2 * Real.cos θ' := by positivity
    rw [fresnelRs]; field_simp; ring
  have e2 : (Real.cos θ / n1 - n2 * Real.cos θ' / n2 ^ 2) / (Real.cos θ / n1 + n2 * Real.cos θ' / n2 ^ 2) *
      ((Real.cos θ / n1 - n2 * Real.cos θ' / n2 ^ 2) / (Real.cos θ / n1 + n2 * Real.cos θ' / n2 ^ 2)) = fresnelRp n1 n2 θ θ' := by
    have : 0 < n2 * Real.cos θ + n1 * Real.cos θ' := by positivity
    rw [fresnelRp]; field_simp
  have e3 : 4 * (1 / (n1 * Real.cos θ)) * (1 / (n2 * Real.cos θ')) / ((1 / (n1 * Real.cos θ) + 1 / (n2 * Real.cos θ')) *
      (1 / (n1 * Real.cos θ) + 1 / (n2 * Real.cos θ'))) = fresnelTs n1 n2 θ θ' := by
    have : 0 < n1 * Real.cos θ + n2 * Real.cos θ' := by positivity
    rw [fresnelTs]; field_simp; ring
  have e4 : 4 * (Real.cos θ / n1) * (n2 * Real.cos θ' / n2 ^ 2) / ((Real.cos θ / n1 + n2 * Real.cos θ' / n2 ^ 2) *
      (Real.cos θ / n1 + n2 * Real.cos θ' / n2 ^ 2)) = fresnelTp n1 n2 θ θ' := by
    have : 0 < n2 * Real.cos θ + n1 * Real.cos θ' := by positivity
    rw [fresnelTp]; field_simp
  rw [e1, e2, e3, e4]

/-- C112: at Brewster's angle (reflected and refracted ray at right angles) parallel polarisation is not reflected. -/
theorem C112_brewster (ω θ φ n1 n2 : ℝ) (hω : 0 < ω) (hc : 0 < Real.cos θ) (hs : 0 < Real.sin θ) (h1 : 0 < n1) (h2 : 0 < n2)
    (hB : n1 * Real.sin θ = n2 * Real.cos θ) (Lk1 Lk2 : ℝ × ℝ) (G : Fin n → ℤ × ℤ) (o : Fin n) (ho : G o = (0, 0)) (d0 dN : ℝ)
    (kx ky : Fin n → ℂ) (hkx : kx = kxOf ω θ φ (n1 ^ 2) Lk1 Lk2 G) (hky : ky = kyOf ω θ φ (n1 ^ 2) Lk1 Lk2 G)
    (hq1 : ∀ i, ((n1 ^ 2 : ℝ) : ℂ) * (ω : ℂ) ^ 2 ≠ kx i ^ 2 + ky i ^ 2) (hq2 : ∀ i, ((n2 ^ 2 : ℝ) : ℂ) * (ω : ℂ) ^ 2 ≠ kx i ^ 2 + ky i ^ 2)
    (p : ℂ) (hp : Complex.normSq p = 1) :
    rtForward ω (rtNormalization (n1 ^ 2) θ) [uniformLayer ω kx ky ((n1 ^ 2 : ℝ) : ℂ) d0, uniformLayer ω kx ky ((n2 ^ 2 : ℝ) : ℂ) dN]
      (planewave θ φ 0 p o) 0 = .ok (0, 1) := by
  have hs' : Real.sin (Real.pi / 2 - θ) = Real.cos θ := Real.sin_pi_div_two_sub θ
  have hc' : Real.cos (Real.pi / 2 - θ) = Real.sin θ := Real.cos_pi_div_two_sub θ
  rw [C112_fresnel ω θ (Real.pi / 2 - θ) φ n1 n2 hω hc (by rwa [hc']) h1 h2 (by rw [hs', hB]) Lk1 Lk2 G o ho d0 dN kx ky hkx hky hq1 hq2 0 p,
    fresnelRp, fresnelTp, hc', hp, ← hB, Complex.normSq_zero]
  have : 0 < n1 * Real.sin θ := by positivity
  have e : 4 * (n1 * Real.sin θ) * (n1 * Real.sin θ) / (n1 * Real.sin θ + n1 * Real.sin θ) ^ 2 = 1 := by field_simp; norm_num
  rw [e]; simp

/-- C112: total reflection. Beyond the critical angle everything is reflected, in every polarisation. -/
theorem C112_total (ω θ φ n1 n2 : ℝ) (hω : 0 < ω) (hc : 0 < Real.cos θ) (h1 : 0 < n1) (h2 : 0 < n2) (hT : n2 < n1 * Real.sin θ)
    (Lk1 Lk2 : ℝ × ℝ) (G : Fin n → ℤ × ℤ) (o : Fin n) (ho : G o = (0, 0)) (d0 dN : ℝ)
    (kx ky : Fin n → ℂ) (hkx : kx = kxOf ω θ φ (n1 ^ 2) Lk1 Lk2 G) (hky : ky = kyOf ω θ φ (n1 ^ 2) Lk1 Lk2 G)
    (hq1 : ∀ i, ((n1 ^ 2 : ℝ) : ℂ) * (ω : ℂ) ^ 2 ≠ kx i ^ 2 + ky i ^ 2) (hq2 : ∀ i, ((n2 ^ 2 : ℝ) : ℂ) * (ω : ℂ) ^ 2 ≠ kx i ^ 2 + ky i ^ 2)
    (s p : ℂ) (hsp : Complex.normSq s + Complex.normSq p = 1) :
    rtForward ω (rtNormalization (n1 ^ 2) θ) [uniformLayer ω kx ky ((n1 ^ 2 : ℝ) : ℂ) d0, uniformLayer ω kx ky ((n2 ^ 2 : ℝ) : ℂ) dN]
      (planewave θ φ s p o) 0 = .ok (1, 0) := by
  have hx : ∀ i, (kx i).im = 0 := by rw [hkx]; exact kxOf_real ω θ φ _ Lk1 Lk2 G
  have hy : ∀ i, (ky i).im = 0 := by rw [hky]; exact kyOf_real ω θ φ _ Lk1 Lk2 G
  have g1 := no_grazing hq1
  have g2 := no_grazing hq2
  obtain ⟨S, hS⟩ := interface_ok (ω := (ω : ℂ)) (by rwa [Complex.ofReal_re]) (by rw [Complex.ofReal_im]) (ε1 := n1 ^ 2) (ε2 := n2 ^ 2) (by positivity)
    (by positivity) hx hy d0 dN g1 g2
  obtain ⟨R, T, h⟩ := rt_ok (ω := (ω : ℂ)) (norm := rtNormalization (n1 ^ 2) θ) (mids := []) (S := S) hS (planewave θ φ s p o) 0
  have hn2 : ((n2 ^ 2 : ℝ) : ℂ) ≠ 0 := Complex.ofReal_ne_zero.2 (by positivity)
  have hpos : 0 < n1 ^ 2 * Real.sin θ ^ 2 - n2 ^ 2 := by nlinarith
  set g := Real.sqrt (n1 ^ 2 * Real.sin θ ^ 2 - n2 ^ 2) with hg
  have hg0 : 0 < g := Real.sqrt_pos.2 hpos
  have hg2 : g ^ 2 = n1 ^ 2 * Real.sin θ ^ 2 - n2 ^ 2 := Real.sq_sqrt hpos.le
  have hq : ∀ M ∈ uniformLayer (ω : ℂ) kx ky ((n1 ^ 2 : ℝ) : ℂ) d0 :: (([] : List (ℂ × ℝ × ℂ)).map (fun m => (m.1, m.2.1)) ++
      [(((n2 ^ 2 : ℝ) : ℂ), dN)]).map fun e => uniformLayer (ω : ℂ) kx ky e.1 e.2, ∀ m, M.q m ≠ 0 := fun M hM => by
    simp only [List.map_nil, List.nil_append, List.map_cons, List.mem_cons, List.not_mem_nil, or_false] at hM
    rcases hM with rfl | rfl
    · exact qs_of_ord g1
    · exact qs_of_ord g2
  have hf := C112_films ω θ φ (n1 ^ 2) hω hc (by positivity) Lk1 Lk2 G o ho d0 [] (by simp) ((n2 ^ 2 : ℝ) : ℂ) dN (Complex.I * (g : ℂ)) hn2 (by
      have : ((g ^ 2 : ℝ) : ℂ) = ((n1 ^ 2 * Real.sin θ ^ 2 - n2 ^ 2 : ℝ) : ℂ) := by rw [hg2]
      rw [mul_pow, Complex.I_sq]
      push_cast at this ⊢
      linear_combination -this) (.inl (by simp [hg0])) kx ky hkx hky _ rfl hq s p R T h
  obtain ⟨-, -, hR, hTT⟩ := hf
  have h' : rtForward ω (rtNormalization (n1 ^ 2) θ) [uniformLayer ω kx ky ((n1 ^ 2 : ℝ) : ℂ) d0, uniformLayer ω kx ky ((n2 ^ 2 : ℝ) : ℂ) dN]
      (planewave θ φ s p o) 0 = .ok (R, T) := h
  have c1 : (1 : ℂ) / (Complex.I * (g : ℂ)) = ⟨0, -(1 / g)⟩ := by
    have : (g : ℂ) ≠ 0 := Complex.ofReal_ne_zero.2 hg0.ne'
    have e : (⟨0, -(1 / g)⟩ : ℂ) = ((-(1 / g) : ℝ) : ℂ) * Complex.I := by apply Complex.ext <;> simp
    rw [e, div_eq_iff (mul_ne_zero Complex.I_ne_zero this)]
    push_cast
    field_simp
    simp
  have c2 : Complex.I * (g : ℂ) / ((n2 ^ 2 : ℝ) : ℂ) = ⟨0, g / n2 ^ 2⟩ := by
    rw [mul_div_assoc, ← Complex.ofReal_div]
    apply Complex.ext
    · rw [Complex.mul_re, Complex.I_re, Complex.I_im, Complex.ofReal_im]; ring
    · rw [Complex.mul_im, Complex.I_re, Complex.I_im, Complex.ofReal_re]; ring
  have key : ∀ y0 b : ℝ, 0 < y0 → Complex.normSq (((y0 : ℂ) - ⟨0, b⟩) / ((y0 : ℂ) + ⟨0, b⟩)) = 1 := by
    intro y0 b hy0
    rw [Complex.normSq_div]
    have e1 : Complex.normSq ((y0 : ℂ) - ⟨0, b⟩) = y0 ^ 2 + b ^ 2 := by rw [Complex.normSq_apply]; simp; ring
    have e2 : Complex.normSq ((y0 : ℂ) + ⟨0, b⟩) = y0 ^ 2 + b ^ 2 := by rw [Complex.normSq_apply]; simp; ring
    rw [e1, e2]; exact div_self (by positivity)
  rw [h', hR, hTT]
  simp only [List.map_nil]
  rw [(films_nil _ _).1, (films_nil _ _).1, (films_nil _ _).2, (films_nil _ _).2, Real.sqrt_sq h1.le, c1, c2, key _ _ (by positivity), key _ _ (by positivity)]
  simp [hsp]

/-- normal incidence at a damped frequency: whenever the solver answers, with the powers of the characteristic-matrix method -/
lemma films_normal {ω : ℂ} (hre : 0 < ω.re) (him : 0 < ω.im) (φ ε0 : ℝ) (h0 : 0 < ε0) {o : Fin n} (d0 : ℝ) (mids : List (ℂ × ℝ × ℂ))
    (hm : ∀ m ∈ mids, m.1 ≠ 0 ∧ m.2.2 ^ 2 = m.1) (εN : ℂ) (dN : ℝ) (cN : ℂ) (hcN : cN ^ 2 = εN) (hp : 0 < (ω * cN).im) (kx ky : Fin n → ℂ)
    (hx : ∀ i, (kx i).im = 0) (hy : ∀ i, (ky i).im = 0) (hkx0 : kx o = 0) (hky0 : ky o = 0) (s p : ℂ) (R T : ℝ)
    (hq : ∀ M ∈ uniformLayer ω kx ky ε0 d0 :: (mids.map (fun m => (m.1, m.2.1)) ++ [(εN, dN)]).map fun e => uniformLayer ω kx ky e.1 e.2,
      ∀ m, M.q m ≠ 0)
    (h : rtForward ω (rtNormalization ε0 0) (uniformLayer ω kx ky ε0 d0 ::
        (mids.map (fun m => (m.1, m.2.1)) ++ [(εN, dN)]).map fun e => uniformLayer ω kx ky e.1 e.2) (planewave 0 φ s p o) 0 = .ok (R, T)) :
    R = Real.exp (-2 * Real.sqrt ε0 * ω.im * d0) * ((Complex.normSq s + Complex.normSq p) *
          filmsR (1 / Real.sqrt ε0) (mids.map fun m => (1 / m.2.2, ω * m.2.2 * m.2.1)) (1 / cN)) ∧
    T = Real.exp (-2 * Real.sqrt ε0 * ω.im * d0) * ((Complex.normSq s + Complex.normSq p) *
          filmsT (1 / Real.sqrt ε0) (mids.map fun m => (1 / m.2.2, ω * m.2.2 * m.2.1)) (1 / cN)) := by
  have hω : ω ≠ 0 := fun h => by rw [h] at hre; simp at hre
  have hs0 := Real.sqrt_pos.2 h0
  have hs2c : ((Real.sqrt ε0 : ℝ) : ℂ) ^ 2 = ε0 := by exact_mod_cast Real.sq_sqrt h0.le
  have hsc : ((Real.sqrt ε0 : ℝ) : ℂ) ≠ 0 := Complex.ofReal_ne_zero.2 hs0.ne'
  have hroot : ∀ {ε c : ℂ}, c ^ 2 = ε → (ω * c) ^ 2 = ε * ω ^ 2 - kx o ^ 2 - ky o ^ 2 := by
    intro ε c h
    rw [hkx0, hky0, ← h]; ring
  have hq0 : qOrd ω ε0 kx ky o = ω * (Real.sqrt ε0 : ℝ) := qOrd_root (hroot hs2c) (.inl (by rw [Complex.im_mul_ofReal]; positivity))
  have hqN : qOrd ω εN kx ky o = ω * cN := qOrd_root (hroot hcN) (.inl hp)
  have hr := realOrder_normal hre him.le h0 hkx0 hky0
  have hS : projY ω kx ky o (fun _ => ω ^ 2) ε0 = ((1 / Real.sqrt ε0 : ℝ) : ℂ) := by
    rw [projY, hq0, Complex.ofReal_div, Complex.ofReal_one]; field_simp
  have eP : (fun ε : ℂ => ω ^ 2 - 1 / ε * ((0 : ℝ) : ℂ) ^ 2) = fun _ => ω ^ 2 := by funext ε; simp
  have hc := films_core (K := 0) (φ := φ) hω hx hy (by rw [hkx0]; simp) (by rw [hky0]; simp) hr (l := mids.map fun m : ℂ × ℝ × ℂ => (m.1, m.2.1)) (fun e he => by
    obtain ⟨m, hm', rfl⟩ := List.mem_map.1 he
    exact (hm m hm').1) hq (one_div_pos.2 hs0) (one_div_pos.2 hs0) hS (by rw [eP]; exact hS) (planewave_inOrder 0 φ s p o) h
  rw [eP] at hc
  obtain ⟨-, -, hR, hT⟩ := hc
  have fS : ∀ y, frontFields (filmsOf ω kx ky o (fun _ => ω ^ 2) (mids.map fun m => (m.1, m.2.1))) y =
      frontFields (mids.map fun m => (1 / m.2.2, ω * m.2.2 * m.2.1)) y := by
    intro y
    rw [filmsOf, List.map_map]
    refine frontFields_congr _ _ _ _ fun m hm' => ?_
    obtain ⟨hε, hcm⟩ := hm m hm'
    simp only [Function.comp_apply, projY]
    rcases qOrd_root_or (hroot hcm) with h | h
    · left; rw [h, Prod.mk.injEq]; exact ⟨by rw [← mul_assoc, ← sq, div_mul_eq_div_div, div_self (pow_ne_zero _ hω)], rfl⟩
    · right
      rw [h, Prod.neg_mk, Prod.mk.injEq]
      exact ⟨by rw [mul_neg, div_neg, ← mul_assoc, ← sq, div_mul_eq_div_div, div_self (pow_ne_zero _ hω)], by ring⟩
  have gS : projY ω kx ky o (fun _ => ω ^ 2) εN = 1 / cN := by
    have : cN ≠ 0 := by rintro rfl; simp at hp
    rw [projY, hqN]; field_simp
  have hE : Complex.normSq (Complex.exp (Complex.I * qOrd ω ε0 kx ky o * d0)) = Real.exp (-2 * Real.sqrt ε0 * ω.im * d0) := by
    rw [normSq_exp, hq0]
    congr 1
    simp [Complex.mul_re, Complex.mul_im]; ring
  have nS : Complex.normSq (proj o (Real.cos φ) (Real.sin φ) (planewave 0 φ s p o)) = Complex.normSq s := by
    have : proj o (Real.cos φ) (Real.sin φ) (planewave 0 φ s p o) = -s := by
      simp only [proj, planewave, Sum.elim_inl, Sum.elim_inr, if_true, Real.cos_zero, Complex.ofReal_one]
      linear_combination (-s) * cos_sin_cast φ
    rw [this, Complex.normSq_neg]
  have nP : Complex.normSq (proj o (-Real.sin φ) (Real.cos φ) (planewave 0 φ s p o)) = Complex.normSq p := by
    have : proj o (-Real.sin φ) (Real.cos φ) (planewave 0 φ s p o) = p := by
      simp only [proj, planewave, Sum.elim_inl, Sum.elim_inr, if_true, Real.cos_zero, Complex.ofReal_one]
      linear_combination p * cos_sin_cast φ
    rw [this]
  have w : rtNormalization ε0 0 * (1 / Real.sqrt ε0) = 1 := by
    rw [rtNormalization, Real.cos_zero]; field_simp
  rw [hE, nS, nP, w, one_mul, one_mul, ← add_mul] at hR hT
  simp only [filmsDen, filmsR, filmsT, gS, fS] at hR hT ⊢
  exact ⟨hR, hT⟩

/-- C112 at the driver's slightly damped frequencies (`1 + 0.5/1e5 i` times the nominal one) and normal incidence: every passive stack of
homogeneous layers is solved, with the powers of the characteristic-matrix method at that complex frequency times the loss
`exp (-2 n0 Im(omega) d0)` in the front layer. -/
theorem C112_driver (f : ℝ) (hf : 0 < f) (φ ε0 : ℝ) (h0 : 0 < ε0) (Lk1 Lk2 : ℝ × ℝ) (G : Fin n → ℤ × ℤ) (o : Fin n) (ho : G o = (0, 0)) (d0 : ℝ)
    (hd0 : 0 ≤ d0) (mids : List (ℂ × ℝ × ℂ)) (hm : ∀ m ∈ mids, m.1 ≠ 0 ∧ 0 ≤ m.2.1 ∧ -m.1.re / 2 / 1e5 ≤ m.1.im ∧ m.2.2 ^ 2 = m.1) (εN : ℂ) (dN : ℝ)
    (hdN : 0 ≤ dN) (cN : ℂ) (hεN : εN ≠ 0) (hN : -εN.re / 2 / 1e5 ≤ εN.im) (hcN : cN ^ 2 = εN) (hp : 0 < (driverOmega f * cN).im) (kx ky : Fin n → ℂ)
    (hkx : kx = kxOf (driverOmega f) 0 φ ε0 Lk1 Lk2 G) (hky : ky = kyOf (driverOmega f) 0 φ ε0 Lk1 Lk2 G) (s p : ℂ) :
    rtForward (driverOmega f) (rtNormalization ε0 0) (uniformLayer (driverOmega f) kx ky ε0 d0 ::
        (mids.map (fun m => (m.1, m.2.1)) ++ [(εN, dN)]).map fun e => uniformLayer (driverOmega f) kx ky e.1 e.2) (planewave 0 φ s p o) 0 =
      .ok (Real.exp (-2 * Real.sqrt ε0 * (driverOmega f).im * d0) * ((Complex.normSq s + Complex.normSq p) *
          filmsR (1 / Real.sqrt ε0) (mids.map fun m => (1 / m.2.2, driverOmega f * m.2.2 * m.2.1)) (1 / cN)),
        Real.exp (-2 * Real.sqrt ε0 * (driverOmega f).im * d0) * ((Complex.normSq s + Complex.normSq p) *
          filmsT (1 / Real.sqrt ε0) (mids.map fun m => (1 / m.2.2, driverOmega f * m.2.2 * m.2.1)) (1 / cN))) := by
  have hπ := Real.pi_pos
  have him : 0 < (driverOmega f).im := by rw [driverOmega_im]; positivity
  have hre : 0 < (driverOmega f).re := by rw [driverOmega_re]; positivity
  obtain ⟨hq, R, T, h⟩ := C113_driver f hf φ ε0 h0 Lk1 Lk2 G d0 hd0 (mids.map fun m => (m.1, m.2.1)) (fun e he => by
    obtain ⟨m, hm', rfl⟩ := List.mem_map.1 he
    exact ⟨(hm m hm').1, (hm m hm').2.1, (hm m hm').2.2.1⟩) εN dN hdN hεN hN kx ky hkx hky _ rfl (rtNormalization ε0 0) (planewave 0 φ s p o) 0
  have hx : ∀ i, (kx i).im = 0 := fun i => by rw [hkx]; exact (kOf_zero _ φ ε0 Lk1 Lk2 G i).1
  have hy : ∀ i, (ky i).im = 0 := fun i => by rw [hky]; exact (kOf_zero _ φ ε0 Lk1 Lk2 G i).2
  have hkx0 : kx o = 0 := by rw [hkx]; exact (kOf_zero_order _ φ ε0 Lk1 Lk2 ho).1
  have hky0 : ky o = 0 := by rw [hky]; exact (kOf_zero_order _ φ ε0 Lk1 Lk2 ho).2
  obtain ⟨hR, hT⟩ := films_normal hre him φ ε0 h0 (o := o) d0 mids (fun m hm' => ⟨(hm m hm').1, (hm m hm').2.2.2⟩) εN dN cN hcN hp kx ky hx hy hkx0 hky0 s p R T hq h
  refine Eq.trans h ?_
  rw [hR, hT]

/-- a film whose phase thickness is a multiple of half a wave changes the fields in front at most in sign -/
lemma frontFields_half (pre post : List (ℂ × ℂ)) (y δ yN : ℂ) (hδ : Complex.sin δ = 0) :
    ∃ c : ℂ, c ^ 2 = 1 ∧ frontFields (pre ++ (y, δ) :: post) yN = c • frontFields (pre ++ post) yN := by
  refine ⟨Complex.cos δ, ?_, ?_⟩
  · have := Complex.sin_sq_add_cos_sq δ
    rw [hδ] at this
    linear_combination this
  · induction pre with
    | nil => simp [frontFields, filmFront, hδ, Prod.smul_def]
    | cons m pre ih =>
      simp only [List.cons_append, frontFields]
      rw [ih]
      ext <;> simp only [filmFront, Prod.smul_fst, Prod.smul_snd, smul_eq_mul] <;> ring

lemma films_half (pre post : List (ℂ × ℂ)) (y δ yN : ℂ) (hδ : Complex.sin δ = 0) (y0 : ℝ) :
    filmsR y0 (pre ++ (y, δ) :: post) yN = filmsR y0 (pre ++ post) yN ∧ filmsT y0 (pre ++ (y, δ) :: post) yN = filmsT y0 (pre ++ post) yN := by
  obtain ⟨c, hc, h⟩ := frontFields_half pre post y δ yN hδ
  have hc0 : c ≠ 0 := by rintro rfl; simp at hc
  have hn : Complex.normSq c = 1 := by
    have := congrArg Complex.normSq hc
    rw [map_pow, map_one] at this
    nlinarith [Complex.normSq_nonneg c]
  have e1 : ∀ a b : ℂ, (y0 : ℂ) * (c * a) - c * b = c * (y0 * a - b) := fun a b => by ring
  have e2 : ∀ a b : ℂ, (y0 : ℂ) * (c * a) + c * b = c * (y0 * a + b) := fun a b => by ring
  simp only [filmsR, filmsT, filmsDen, h, Prod.smul_fst, Prod.smul_snd, smul_eq_mul, e1, e2]
  rw [mul_div_mul_left _ _ hc0, Complex.normSq_mul c, hn, one_mul]
  exact ⟨rfl, rfl⟩

/-- C112: a film of half a wave, or any multiple of it, anywhere in a stack is invisible: reflectance and transmittance, where both stacks
are solved, are those without it, whatever its material. -/
theorem C112_halfwave (ω θ φ ε0 : ℝ) (hω : 0 < ω) (hc : 0 < Real.cos θ) (h0 : 0 < ε0) (Lk1 Lk2 : ℝ × ℝ) (G : Fin n → ℤ × ℤ) (o : Fin n)
    (ho : G o = (0, 0)) (d0 : ℝ) (pre post : List (ℂ × ℝ × ℂ)) (εh dh ch : ℝ) (k : ℤ) (hh : ω * ch * dh = k * Real.pi)
    (hm : ∀ m ∈ pre ++ ((εh : ℂ), dh, (ch : ℂ)) :: post, m.1 ≠ 0 ∧ m.2.2 ^ 2 = m.1 - ε0 * Real.sin θ ^ 2) (εN : ℂ) (dN : ℝ) (cN : ℂ)
    (hεN : εN ≠ 0) (hcN : cN ^ 2 = εN - ε0 * Real.sin θ ^ 2) (hp : 0 < cN.im ∨ cN.im = 0 ∧ 0 < cN.re) (kx ky : Fin n → ℂ)
    (hkx : kx = kxOf ω θ φ ε0 Lk1 Lk2 G) (hky : ky = kyOf ω θ φ ε0 Lk1 Lk2 G) (stack : List (ℂ × ℝ × ℂ) → List (LayerData (Fin n ⊕ Fin n)))
    (hl : ∀ l, stack l = uniformLayer ω kx ky ε0 d0 :: (l.map (fun m => (m.1, m.2.1)) ++ [(εN, dN)]).map fun e => uniformLayer ω kx ky e.1 e.2)
    (hq : ∀ M ∈ stack (pre ++ ((εh : ℂ), dh, (ch : ℂ)) :: post), ∀ m, M.q m ≠ 0) (s p : ℂ) (R T R' T' : ℝ)
    (h : rtForward ω (rtNormalization ε0 θ) (stack (pre ++ ((εh : ℂ), dh, (ch : ℂ)) :: post)) (planewave θ φ s p o) 0 = .ok (R, T))
    (h' : rtForward ω (rtNormalization ε0 θ) (stack (pre ++ post)) (planewave θ φ s p o) 0 = .ok (R', T')) : R = R' ∧ T = T' := by
  obtain ⟨-, -, hR, hT⟩ := C112_films ω θ φ ε0 hω hc h0 Lk1 Lk2 G o ho d0 _ hm εN dN cN hεN hcN hp kx ky hkx hky _ (hl _) hq s p R T h
  obtain ⟨-, -, hR', hT'⟩ := C112_films ω θ φ ε0 hω hc h0 Lk1 Lk2 G o ho d0 (pre ++ post) (fun m hm' => hm m (by
    rcases List.mem_append.1 hm' with h | h
    · exact List.mem_append_left _ h
    · exact List.mem_append_right _ (List.mem_cons_of_mem _ h))) εN dN cN hεN hcN hp kx ky hkx hky _ (hl _) (fun M hM => hq M (by
    rw [hl] at hM ⊢
    rcases List.mem_cons.1 hM with h | h
    · exact h ▸ List.mem_cons_self
    · refine List.mem_cons_of_mem _ (List.map_subset _ ?_ h)
      refine List.append_subset.2 ⟨fun e he => List.mem_append_left _ (List.map_subset _ ?_ he), List.subset_append_right _ _⟩
      exact List.append_subset.2 ⟨List.subset_append_left _ _, fun e he => List.mem_append_right _ (List.mem_cons_of_mem _ he)⟩)) s p R' T' h'
  have hsin : Complex.sin ((ω : ℂ) * (ch : ℂ) * (dh : ℂ)) = 0 := by
    rw [← Complex.ofReal_mul, ← Complex.ofReal_mul, hh, ← Complex.ofReal_sin, Real.sin_int_mul_pi, Complex.ofReal_zero]
  rw [hR, hT, hR', hT']
  simp only [List.map_append, List.map_cons]
  rw [(films_half _ _ _ _ _ hsin _).1, (films_half _ _ _ _ _ hsin _).1, (films_half _ _ _ _ _ hsin _).2, (films_half _ _ _ _ _ hsin _).2]
  exact ⟨rfl, rfl⟩

/-- C112: the quarter-wave coating. At normal incidence a film of a quarter wave whose index is the geometric mean of its neighbours'
suppresses the reflection altogether. -/
theorem C112_quarter (ω φ n0 n1 n2 : ℝ) (hω : 0 < ω) (h0 : 0 < n0) (h1 : 0 < n1) (h2 : 0 < n2) (hn : n1 ^ 2 = n0 * n2) (Lk1 Lk2 : ℝ × ℝ)
    (G : Fin n → ℤ × ℤ) (o : Fin n) (ho : G o = (0, 0)) (d0 d1 dN : ℝ) (hd : ω * n1 * d1 = Real.pi / 2) (kx ky : Fin n → ℂ)
    (hkx : kx = kxOf ω 0 φ (n0 ^ 2) Lk1 Lk2 G) (hky : ky = kyOf ω 0 φ (n0 ^ 2) Lk1 Lk2 G)
    (hprop : ∀ i, (kx i).re ^ 2 + (ky i).re ^ 2 < n0 ^ 2 * ω ^ 2)
    (hq1 : ∀ i, ((n1 ^ 2 : ℝ) : ℂ) * (ω : ℂ) ^ 2 ≠ kx i ^ 2 + ky i ^ 2) (hq2 : ∀ i, ((n2 ^ 2 : ℝ) : ℂ) * (ω : ℂ) ^ 2 ≠ kx i ^ 2 + ky i ^ 2)
    (s p : ℂ) (hsp : Complex.normSq s + Complex.normSq p = 1) :
    rtForward ω (rtNormalization (n0 ^ 2) 0) [uniformLayer ω kx ky ((n0 ^ 2 : ℝ) : ℂ) d0, uniformLayer ω kx ky ((n1 ^ 2 : ℝ) : ℂ) d1,
      uniformLayer ω kx ky ((n2 ^ 2 : ℝ) : ℂ) dN] (planewave 0 φ s p o) 0 = .ok (0, 1) := by
  have hd1 : 0 ≤ d1 := by
    have hπ := Real.pi_pos
    have : 0 < ω * n1 := by positivity
    by_contra hlt
    push Not at hlt
    nlinarith
  have hx : ∀ i, (kx i).im = 0 := by rw [hkx]; exact kxOf_real ω 0 φ _ Lk1 Lk2 G
  have hy : ∀ i, (ky i).im = 0 := by rw [hky]; exact kyOf_real ω 0 φ _ Lk1 Lk2 G
  have hq0 : ∀ i, ((n0 ^ 2 : ℝ) : ℂ) * (ω : ℂ) ^ 2 ≠ kx i ^ 2 + ky i ^ 2 := by
    intro i e
    have e1 : kx i = ((kx i).re : ℂ) := Complex.ext rfl (by rw [hx i, Complex.ofReal_im])
    have e2 : ky i = ((ky i).re : ℂ) := Complex.ext rfl (by rw [hy i, Complex.ofReal_im])
    rw [e1, e2] at e
    have := hprop i
    have e' : n0 ^ 2 * ω ^ 2 = (kx i).re ^ 2 + (ky i).re ^ 2 := by exact_mod_cast e
    linarith
  have hq : ∀ M ∈ uniformLayer (ω : ℂ) kx ky ((n0 ^ 2 : ℝ) : ℂ) d0 :: ([(((n1 ^ 2 : ℝ) : ℂ), d1)] ++ [(((n2 ^ 2 : ℝ) : ℂ), dN)]).map fun e =>
      uniformLayer (ω : ℂ) kx ky e.1 e.2, ∀ m, M.q m ≠ 0 := by
    intro M hM
    simp only [List.cons_append, List.nil_append, List.map_cons, List.map_nil, List.mem_cons, List.not_mem_nil, or_false] at hM
    rcases hM with rfl | rfl | rfl
    · exact qs_of_ord (no_grazing hq0)
    · exact qs_of_ord (no_grazing hq1)
    · exact qs_of_ord (no_grazing hq2)
  have hn1 : ((n1 ^ 2 : ℝ) : ℂ) ≠ 0 := Complex.ofReal_ne_zero.2 (by positivity)
  have hn2 : ((n2 ^ 2 : ℝ) : ℂ) ≠ 0 := Complex.ofReal_ne_zero.2 (by positivity)
  obtain ⟨R, T, h⟩ := C113_real ω 0 φ (n0 ^ 2) hω (by positivity) Lk1 Lk2 G kx ky hkx hky hprop d0 [(((n1 ^ 2 : ℝ) : ℂ), d1)] (by
      intro m hm
      rw [List.mem_singleton] at hm
      subst hm
      exact ⟨hn1, by rw [Complex.ofReal_im], hd1⟩) ((n2 ^ 2 : ℝ) : ℂ) dN hn2 (by rw [Complex.ofReal_im]) _ rfl hq (rtNormalization (n0 ^ 2) 0)
      (planewave 0 φ s p o) 0
  have hf := C112_films ω 0 φ (n0 ^ 2) hω (by simp) (by positivity) Lk1 Lk2 G o ho d0 [(((n1 ^ 2 : ℝ) : ℂ), d1, (n1 : ℂ))] (by
      intro m hm
      rw [List.mem_singleton] at hm
      subst hm
      exact ⟨hn1, by simp⟩) ((n2 ^ 2 : ℝ) : ℂ) dN (n2 : ℂ) hn2 (by simp) (.inr ⟨Complex.ofReal_im _, by rwa [Complex.ofReal_re]⟩) kx ky hkx hky _ rfl
      hq s p R T h
  obtain ⟨-, -, hR, hT⟩ := hf
  have h' : rtForward ω (rtNormalization (n0 ^ 2) 0) [uniformLayer ω kx ky ((n0 ^ 2 : ℝ) : ℂ) d0, uniformLayer ω kx ky ((n1 ^ 2 : ℝ) : ℂ) d1,
      uniformLayer ω kx ky ((n2 ^ 2 : ℝ) : ℂ) dN] (planewave 0 φ s p o) 0 = .ok (R, T) := h
  have hδ : (ω : ℂ) * (n1 : ℂ) * (d1 : ℂ) = ((Real.pi / 2 : ℝ) : ℂ) := by rw [← hd]; push_cast; ring
  have hcos : Complex.cos ((Real.pi / 2 : ℝ) : ℂ) = 0 := by rw [← Complex.ofReal_cos, Real.cos_pi_div_two, Complex.ofReal_zero]
  have hsin : Complex.sin ((Real.pi / 2 : ℝ) : ℂ) = 1 := by rw [← Complex.ofReal_sin, Real.sin_pi_div_two, Complex.ofReal_one]
  have c0 : (n0 : ℂ) ≠ 0 := Complex.ofReal_ne_zero.2 h0.ne'
  have c1 : (n1 : ℂ) ≠ 0 := Complex.ofReal_ne_zero.2 h1.ne'
  have c2 : (n2 : ℂ) ≠ 0 := Complex.ofReal_ne_zero.2 h2.ne'
  have hnc : (n1 : ℂ) ^ 2 = n0 * n2 := by exact_mod_cast hn
  have ey : (n1 : ℂ) / ((n1 ^ 2 : ℝ) : ℂ) = 1 / n1 := by rw [Complex.ofReal_pow]; field_simp
  have eN : (n2 : ℂ) / ((n2 ^ 2 : ℝ) : ℂ) = 1 / n2 := by rw [Complex.ofReal_pow]; field_simp
  have ff : frontFields [((1 : ℂ) / n1, ((Real.pi / 2 : ℝ) : ℂ))] (1 / (n2 : ℂ)) = (-(Complex.I * n1 / n2), -(Complex.I / n1)) := by
    simp only [frontFields, filmFront, hcos, hsin, Prod.mk.injEq]
    constructor <;> field_simp <;> ring
  have hf1 : (1 / (n0 : ℂ)) * (-(Complex.I * n1 / n2)) = -(Complex.I / n1) := by
    field_simp
    linear_combination -hnc
  have hRv : filmsR (1 / n0) [((1 : ℂ) / n1, ((Real.pi / 2 : ℝ) : ℂ))] (1 / (n2 : ℂ)) = 0 := by
    rw [filmsR, ff, Complex.ofReal_div, Complex.ofReal_one, hf1, sub_self, zero_div, Complex.normSq_zero]
  have hTv : filmsT (1 / n0) [((1 : ℂ) / n1, ((Real.pi / 2 : ℝ) : ℂ))] (1 / (n2 : ℂ)) = 1 := by
    rw [filmsT, filmsDen, ff, Complex.ofReal_div, Complex.ofReal_one, hf1]
    have e1 : -(Complex.I / n1) + -(Complex.I / n1) = ((2 / n1 : ℝ) : ℂ) * (-Complex.I) := by push_cast; ring
    have e2 : (1 / (n2 : ℂ)) = ((1 / n2 : ℝ) : ℂ) := by push_cast; ring
    rw [e1, e2, Complex.ofReal_re, Complex.normSq_mul, Complex.normSq_ofReal, Complex.normSq_neg, Complex.normSq_I]
    field_simp
    linear_combination 4 * hn
  rw [h', hR, hT]
  simp only [List.map_cons, List.map_nil, hδ, ey, eN, Real.cos_zero, mul_one, Real.sqrt_sq h0.le]
  rw [hRv, hTv]
  simp [hsp]

/-! ### Concrete cases -/

/-- retaining only the zeroth order, no order grazes in a medium of index `m` unless `m = n1 sin` -/
lemma one_no_grazing {ω θ φ n1 m : ℝ} (hω : 0 < ω) (h : m ^ 2 ≠ n1 ^ 2 * Real.sin θ ^ 2) (i : Fin 1) :
    ((m ^ 2 : ℝ) : ℂ) * (ω : ℂ) ^ 2 ≠ kxOf ω θ φ (n1 ^ 2) (1, 0) (0, 1) oneOrder i ^ 2 + kyOf ω θ φ (n1 ^ 2) (1, 0) (0, 1) oneOrder i ^ 2 := by
  intro e
  obtain ⟨k1, k2⟩ := kxOf_order ω θ φ (n1 ^ 2) (1, 0) (0, 1) (G := oneOrder) (o := i) (by rfl)
  rw [k1, k2] at e
  have e' : m ^ 2 * ω ^ 2 = (ω * Real.sin θ * Real.cos φ * Real.sqrt (n1 ^ 2)) ^ 2 + (ω * Real.sin θ * Real.sin φ * Real.sqrt (n1 ^ 2)) ^ 2 := by
    exact_mod_cast e
  have hs := Real.sq_sqrt (sq_nonneg n1)
  have hcs := Real.sin_sq_add_cos_sq φ
  apply h
  have : ω ^ 2 * m ^ 2 = ω ^ 2 * (n1 ^ 2 * Real.sin θ ^ 2) := by
    linear_combination e' + ω ^ 2 * Real.sin θ ^ 2 * (Real.cos φ ^ 2 + Real.sin φ ^ 2) * hs + ω ^ 2 * Real.sin θ ^ 2 * n1 ^ 2 * hcs
  exact mul_left_cancel₀ (by positivity) this

/-- from index 2 at 60 degrees into vacuum, beyond the critical angle of 30 degrees -/
example : rtForward ((1 : ℝ) : ℂ) (rtNormalization (2 ^ 2) (Real.pi / 3))
    [uniformLayer ((1 : ℝ) : ℂ) (kxOf (1 : ℝ) (Real.pi / 3) 0 (2 ^ 2) (1, 0) (0, 1) oneOrder) (kyOf (1 : ℝ) (Real.pi / 3) 0 (2 ^ 2) (1, 0) (0, 1) oneOrder)
        ((2 ^ 2 : ℝ) : ℂ) 1,
      uniformLayer ((1 : ℝ) : ℂ) (kxOf (1 : ℝ) (Real.pi / 3) 0 (2 ^ 2) (1, 0) (0, 1) oneOrder) (kyOf (1 : ℝ) (Real.pi / 3) 0 (2 ^ 2) (1, 0) (0, 1) oneOrder)
        ((1 ^ 2 : ℝ) : ℂ) 1] (planewave (Real.pi / 3) 0 (3 / 5) (4 / 5) (0 : Fin 1)) 0 = .ok (1, 0) := by
  have h3 : Real.sqrt 3 ^ 2 = 3 := Real.sq_sqrt (by norm_num)
  refine C112_total 1 (Real.pi / 3) 0 2 1 one_pos (by rw [Real.cos_pi_div_three]; norm_num) two_pos one_pos ?_ (1, 0) (0, 1) oneOrder 0 rfl 1 1 _ _ rfl rfl
    (one_no_grazing one_pos ?_) (one_no_grazing one_pos ?_) _ _ (by norm_num)
  · rw [Real.sin_pi_div_three]
    have : (1 : ℝ) < Real.sqrt 3 := by rw [Real.lt_sqrt] <;> norm_num
    linarith
  · rw [Real.sin_pi_div_three, div_pow, h3]; norm_num
  · rw [Real.sin_pi_div_three, div_pow, h3]; norm_num

/-- Brewster's angle of index `sqrt 3` in vacuum is 60 degrees -/
example : rtForward ((1 : ℝ) : ℂ) (rtNormalization (1 ^ 2) (Real.pi / 3))
    [uniformLayer ((1 : ℝ) : ℂ) (kxOf (1 : ℝ) (Real.pi / 3) 0 (1 ^ 2) (1, 0) (0, 1) oneOrder) (kyOf (1 : ℝ) (Real.pi / 3) 0 (1 ^ 2) (1, 0) (0, 1) oneOrder)
        ((1 ^ 2 : ℝ) : ℂ) 1,
      uniformLayer ((1 : ℝ) : ℂ) (kxOf (1 : ℝ) (Real.pi / 3) 0 (1 ^ 2) (1, 0) (0, 1) oneOrder) (kyOf (1 : ℝ) (Real.pi / 3) 0 (1 ^ 2) (1, 0) (0, 1) oneOrder)
        ((Real.sqrt 3 ^ 2 : ℝ) : ℂ) 1] (planewave (Real.pi / 3) 0 0 1 (0 : Fin 1)) 0 = .ok (0, 1) := by
  have h3 : Real.sqrt 3 ^ 2 = 3 := Real.sq_sqrt (by norm_num)
  have h30 : 0 < Real.sqrt 3 := Real.sqrt_pos.2 (by norm_num)
  refine C112_brewster 1 (Real.pi / 3) 0 1 (Real.sqrt 3) one_pos (by rw [Real.cos_pi_div_three]; norm_num) (by rw [Real.sin_pi_div_three]; positivity)
    one_pos h30 ?_ (1, 0) (0, 1) oneOrder 0 rfl 1 1 _ _ rfl rfl (one_no_grazing one_pos ?_) (one_no_grazing one_pos ?_) 1 (by simp)
  · rw [Real.sin_pi_div_three, Real.cos_pi_div_three]; ring
  · rw [Real.sin_pi_div_three, div_pow, h3]; norm_num
  · rw [Real.sin_pi_div_three, div_pow, h3]; norm_num

/-- a coating of index 2 and thickness `pi/4` on index 4, at `omega = 1` -/
example : rtForward ((1 : ℝ) : ℂ) (rtNormalization (1 ^ 2) 0)
    [uniformLayer ((1 : ℝ) : ℂ) (kxOf (1 : ℝ) 0 0 (1 ^ 2) (1, 0) (0, 1) oneOrder) (kyOf (1 : ℝ) 0 0 (1 ^ 2) (1, 0) (0, 1) oneOrder) ((1 ^ 2 : ℝ) : ℂ) 1,
      uniformLayer ((1 : ℝ) : ℂ) (kxOf (1 : ℝ) 0 0 (1 ^ 2) (1, 0) (0, 1) oneOrder) (kyOf (1 : ℝ) 0 0 (1 ^ 2) (1, 0) (0, 1) oneOrder) ((2 ^ 2 : ℝ) : ℂ)
        (Real.pi / 4),
      uniformLayer ((1 : ℝ) : ℂ) (kxOf (1 : ℝ) 0 0 (1 ^ 2) (1, 0) (0, 1) oneOrder) (kyOf (1 : ℝ) 0 0 (1 ^ 2) (1, 0) (0, 1) oneOrder) ((4 ^ 2 : ℝ) : ℂ) 1]
    (planewave 0 0 1 0 (0 : Fin 1)) 0 = .ok (0, 1) := by
  refine C112_quarter 1 0 1 2 4 one_pos one_pos two_pos (by norm_num) (by norm_num) (1, 0) (0, 1) oneOrder 0 rfl 1 (Real.pi / 4) 1 (by ring) _ _ rfl rfl
    (fun i => ?_) (one_no_grazing one_pos (by norm_num)) (one_no_grazing one_pos (by norm_num)) 1 0 (by simp)
  obtain ⟨k1, k2⟩ := kOf_zero_order ((1 : ℝ) : ℂ) 0 (1 ^ 2) (1, 0) (0, 1) (G := oneOrder) (o := i) (by rfl)
  rw [k1, k2]; norm_num

/-- glass and a lossy metal film on a substrate of index 3/2, three orders, at the driver's frequency -/
example : ∃ r t, rtForward (driverOmega 1) (rtNormalization 1 0) (uniformLayer (driverOmega 1) (kxOf (driverOmega 1) 0 0 1 (1, 0) (0, 1) threeOrders)
      (kyOf (driverOmega 1) 0 0 1 (1, 0) (0, 1) threeOrders) ((1 : ℝ) : ℂ) 1 ::
    (([((25 / 4 : ℂ), (3 / 10 : ℝ), (5 / 2 : ℂ)), ((⟨-10, 1⟩ : ℂ), (1 / 10 : ℝ), csqrt ⟨-10, 1⟩)] : List (ℂ × ℝ × ℂ)).map (fun m => (m.1, m.2.1)) ++
      [((9 / 4 : ℂ), (1 : ℝ))]).map fun e => uniformLayer (driverOmega 1) (kxOf (driverOmega 1) 0 0 1 (1, 0) (0, 1) threeOrders)
        (kyOf (driverOmega 1) 0 0 1 (1, 0) (0, 1) threeOrders) e.1 e.2) (planewave 0 0 1 0 (0 : Fin 3)) 0 = .ok (r, t) ∧
    0 ≤ r := by
  have hπ := Real.pi_pos
  refine ⟨_, _, C112_driver 1 one_pos 0 1 one_pos (1, 0) (0, 1) threeOrders 0 rfl 1 zero_le_one
    [((25 / 4 : ℂ), (3 / 10 : ℝ), (5 / 2 : ℂ)), ((⟨-10, 1⟩ : ℂ), (1 / 10 : ℝ), csqrt ⟨-10, 1⟩)] ?_ (9 / 4) 1
    zero_le_one (3 / 2) (by norm_num) ?_ (by norm_num) ?_ _ _ rfl rfl 1 0, ?_⟩
  · intro m hm
    simp only [List.mem_cons, List.not_mem_nil, or_false] at hm
    rcases hm with rfl | rfl
    · refine ⟨by norm_num, by norm_num, ?_, by norm_num⟩
      have e : (25 / 4 : ℂ) = ((25 / 4 : ℝ) : ℂ) := by push_cast; rfl
      simp only [e, Complex.ofReal_re, Complex.ofReal_im]; norm_num
    · refine ⟨fun h => ?_, by norm_num, by norm_num, csqrt_sq _⟩
      have := congrArg Complex.re h
      norm_num at this
  · have e : (9 / 4 : ℂ) = ((9 / 4 : ℝ) : ℂ) := by push_cast; rfl
    rw [e, Complex.ofReal_re, Complex.ofReal_im]; norm_num
  · have e : (3 / 2 : ℂ) = ((3 / 2 : ℝ) : ℂ) := by push_cast; rfl
    rw [e, Complex.im_mul_ofReal, driverOmega_im]; positivity
  · exact mul_nonneg (Real.exp_pos _).le (mul_nonneg (add_nonneg (Complex.normSq_nonneg _) (Complex.normSq_nonneg _)) (Complex.normSq_nonneg _))

/-- a half-wave film of index 2 on index 3: both stacks are solved, with the same powers -/
example : ∃ R T,
    rtForward ((1 : ℝ) : ℂ) (rtNormalization 1 0) (uniformLayer ((1 : ℝ) : ℂ) (kxOf (1 : ℝ) 0 0 1 (1, 0) (0, 1) oneOrder)
      (kyOf (1 : ℝ) 0 0 1 (1, 0) (0, 1) oneOrder) ((1 : ℝ) : ℂ) 1 :: (([(((4 : ℝ) : ℂ), Real.pi / 2)] ++ [((9 : ℂ), (1 : ℝ))]) : List (ℂ × ℝ)).map fun e =>
        uniformLayer ((1 : ℝ) : ℂ) (kxOf (1 : ℝ) 0 0 1 (1, 0) (0, 1) oneOrder) (kyOf (1 : ℝ) 0 0 1 (1, 0) (0, 1) oneOrder) e.1 e.2)
      (planewave 0 0 1 0 (0 : Fin 1)) 0 = .ok (R, T) ∧
    rtForward ((1 : ℝ) : ℂ) (rtNormalization 1 0) (uniformLayer ((1 : ℝ) : ℂ) (kxOf (1 : ℝ) 0 0 1 (1, 0) (0, 1) oneOrder)
      (kyOf (1 : ℝ) 0 0 1 (1, 0) (0, 1) oneOrder) ((1 : ℝ) : ℂ) 1 :: (([] ++ [((9 : ℂ), (1 : ℝ))]) : List (ℂ × ℝ)).map fun e =>
        uniformLayer ((1 : ℝ) : ℂ) (kxOf (1 : ℝ) 0 0 1 (1, 0) (0, 1) oneOrder) (kyOf (1 : ℝ) 0 0 1 (1, 0) (0, 1) oneOrder) e.1 e.2)
      (planewave 0 0 1 0 (0 : Fin 1)) 0 = .ok (R, T) := by
  have hπ := Real.pi_pos
  have hk : ∀ i, kxOf ((1 : ℝ) : ℂ) 0 0 1 (1, 0) (0, 1) oneOrder i = 0 ∧ kyOf ((1 : ℝ) : ℂ) 0 0 1 (1, 0) (0, 1) oneOrder i = 0 :=
    fun i => kOf_zero_order _ 0 1 (1, 0) (0, 1) (by rfl)
  have hq : ∀ ε : ℂ, ε ≠ 0 → ∀ i, qOrd ((1 : ℝ) : ℂ) ε (kxOf (1 : ℝ) 0 0 1 (1, 0) (0, 1) oneOrder) (kyOf (1 : ℝ) 0 0 1 (1, 0) (0, 1) oneOrder) i ≠ 0 := by
    intro ε he i h
    have := qOrd_sq ((1 : ℝ) : ℂ) ε (kxOf (1 : ℝ) 0 0 1 (1, 0) (0, 1) oneOrder) (kyOf (1 : ℝ) 0 0 1 (1, 0) (0, 1) oneOrder) i
    rw [h, (hk i).1, (hk i).2] at this
    exact he (by simpa using this.symm)
  generalize hX : kxOf ((1 : ℝ) : ℂ) 0 0 1 (1, 0) (0, 1) oneOrder = kx at *
  generalize hY : kyOf ((1 : ℝ) : ℂ) 0 0 1 (1, 0) (0, 1) oneOrder = ky at *
  have hprop : ∀ i, (kx i).re ^ 2 + (ky i).re ^ 2 < 1 * 1 ^ 2 := fun i => by rw [(hk i).1, (hk i).2]; norm_num
  have q1 : ∀ M ∈ uniformLayer ((1 : ℝ) : ℂ) kx ky ((1 : ℝ) : ℂ) 1 :: (([(((4 : ℝ) : ℂ), Real.pi / 2)] ++ [((9 : ℂ), (1 : ℝ))]) : List (ℂ × ℝ)).map fun e =>
      uniformLayer ((1 : ℝ) : ℂ) kx ky e.1 e.2, ∀ m, M.q m ≠ 0 := by
    intro M hM
    simp only [List.mem_cons, List.cons_append, List.nil_append, List.map_cons, List.map_nil, List.not_mem_nil, or_false] at hM
    rcases hM with rfl | rfl | rfl
    · exact qs_of_ord (hq _ (by norm_num))
    · exact qs_of_ord (hq _ (by norm_num))
    · exact qs_of_ord (hq _ (by norm_num))
  obtain ⟨R, T, h⟩ := C113_real 1 0 0 1 one_pos one_pos (1, 0) (0, 1) oneOrder kx ky hX.symm hY.symm hprop 1 [(((4 : ℝ) : ℂ), Real.pi / 2)] (fun m hm' => by
    rw [List.mem_singleton.1 hm']
    exact ⟨by norm_num, by simp, by positivity⟩) 9 1 (by norm_num) (by simp) _ rfl q1 (rtNormalization 1 0) (planewave 0 0 1 0 (0 : Fin 1)) 0
  obtain ⟨R', T', h'⟩ := C113_real 1 0 0 1 one_pos one_pos (1, 0) (0, 1) oneOrder kx ky hX.symm hY.symm hprop 1 [] (by simp) 9 1 (by norm_num) (by simp) _ rfl
    (fun M hM => q1 M (by
      simp only [List.nil_append, List.map_cons, List.map_nil, List.mem_cons, List.not_mem_nil, or_false] at hM
      rcases hM with rfl | rfl <;> simp)) (rtNormalization 1 0) (planewave 0 0 1 0 (0 : Fin 1)) 0
  obtain ⟨e1, e2⟩ := C112_halfwave 1 0 0 1 one_pos (by simp) one_pos (1, 0) (0, 1) oneOrder 0 rfl 1 [] [] 4 (Real.pi / 2) 2 1 (by push_cast; ring) (fun m hm => by
    rw [List.nil_append, List.mem_singleton] at hm
    subst hm
    exact ⟨by norm_num, by norm_num⟩) 9 1 3 (by norm_num) (by norm_num) (by norm_num) kx ky hX.symm hY.symm _ (fun _ => rfl) q1 1 0 R T R' T' h h'
  exact ⟨R, T, h, by rw [e1, e2]; exact h'⟩

end

end Nidn
