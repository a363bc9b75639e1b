/-
C111: the windows in which the FDTD solver looks for the steady state.
-/
import Verif.Props.FdtdFront

namespace Nidn

noncomputable section

/-- Specification: number of time steps in one period of light of wavelength `wl`. -/
def periodSteps (g : GridNumbers) (wl : ℝ) : ℝ := wl / (SPEED_OF_LIGHT * g.timeStep)

lemma courant_plane {x : ℤ} (hx : 2 ≤ x) {spacing : ℝ} {g : GridNumbers} (hg : gridInit [.int x, .int 3, .int 1] spacing none = .ok g) :
    7 / 10 ≤ g.courant ∧ g.courant ≤ 7001 / 10000 ∧ g.timeStep = g.courant * spacing / SPEED_OF_LIGHT := by
  obtain ⟨sh, m, cc, hs, hm, hc, rfl⟩ := gridInit_inv hg
  obtain ⟨hd, hpos, hm'⟩ := maxCourant_ok hm
  simp only [chooseCourant] at hc
  cases hc
  have hsh : sh = (x, 3, 1) := by
    simp only [handleTuple, handleDistance] at hs
    cases hs; rfl
  have hdim : gridDims sh = 2 := by
    rw [hsh, gridDims]
    simp only
    rw [if_pos (by omega)]; rfl
  rw [hdim] at hm'
  have h1 : (14142 / 10000 : ℝ) ≤ Real.sqrt (2 : ℕ) := Real.le_sqrt_of_sq_le (by norm_num)
  have h2 : Real.sqrt (2 : ℕ) ≤ (141422 / 100000 : ℝ) := by
    rw [Real.sqrt_le_left (by norm_num)]; norm_num
  have hm1 : m ≤ 1 / (14142 / 10000) := by rw [hm']; exact one_div_le_one_div_of_le (by norm_num) h1
  have hm2 : 1 / (141422 / 100000) ≤ m := by rw [hm']; exact one_div_le_one_div_of_le (lt_of_lt_of_le (by norm_num) h1) h2
  refine ⟨?_, ?_, rfl⟩
  · show 7 / 10 ≤ 0.99 * m
    norm_num at hm2 ⊢
    linarith
  · show 0.99 * m ≤ 7001 / 10000
    norm_num at hm1 ⊢
    linarith

lemma periodSteps_eq {x : ℤ} (hx : 2 ≤ x) {s wl : ℝ} (hs : 0 < s) {g : GridNumbers} (hg : gridInit [.int x, .int 3, .int 1] (UNIT_MAGNITUDE / s) none = .ok g) :
    periodSteps g wl = s * wl * 10 ^ 6 / g.courant := by
  obtain ⟨h1, -, h3⟩ := courant_plane hx hg
  have hc : (SPEED_OF_LIGHT : ℝ) ≠ 0 := by unfold SPEED_OF_LIGHT; norm_num
  have hco : g.courant ≠ 0 := by linarith
  rw [periodSteps, h3, UNIT_MAGNITUDE]
  field_simp
  norm_num
  ring

/-- C111, wavelengths that the configured minimum of grid points resolves with ten points: every window holds at least two full periods of the
light, at every wavelength of the range. Partial: shorter wavelengths (`C111_short_false`). -/
theorem C111_window_partial (wl0 wl gp s : ℝ) (h0 : 0 < wl0) (hwl : wl0 ≤ wl) (hgp : 10 * 1e-6 ≤ gp * wl0) (hs : gridScaling wl0 gp = .ok s) (x : ℤ) (hx : 2 ≤ x)
    (g : GridNumbers) (hg : gridInit [.int x, .int 3, .int 1] (UNIT_MAGNITUDE / s) none = .ok g) : 2 * periodSteps g wl ≤ windowSize gp wl := by
  have hgp0 : 0 < gp := by
    by_contra h
    have : gp * wl0 ≤ 0 := mul_nonpos_of_nonpos_of_nonneg (not_lt.1 h) h0.le
    norm_num at hgp
    linarith
  have hsg : s = gp := by
    unfold gridScaling pyDiv at hs
    rw [if_neg (by positivity)] at hs
    cases hs
    apply max_eq_right
    rw [div_le_iff₀ (by positivity), UNIT_MAGNITUDE]
    norm_num at hgp ⊢
    linarith
  subst hsg
  obtain ⟨h1, -, -⟩ := courant_plane hx hg
  rw [periodSteps_eq hx hgp0 hg]
  have hy : 10 ≤ s * wl * 10 ^ 6 := by
    have : s * wl0 ≤ s * wl := mul_le_mul_of_nonneg_left hwl hgp0.le
    norm_num at hgp ⊢
    linarith
  have hW : (windowSize s wl : ℤ) = ⌊3 * (s * wl * 10 ^ 6)⌋ := by
    unfold windowSize
    rw [pyTrunc_of_nonneg (by have : 0 < wl := by linarith
                              positivity)]
    congr 1
    field_simp
  rw [hW]
  have hf := Int.lt_floor_add_one (3 * (s * wl * 10 ^ 6))
  have : s * wl * 10 ^ 6 / g.courant ≤ s * wl * 10 ^ 6 / (7 / 10) := div_le_div_of_nonneg_left (by linarith) (by norm_num) h1
  generalize s * wl * 10 ^ 6 / g.courant = z at *
  generalize s * wl * 10 ^ 6 = y at *
  rw [div_eq_mul_inv] at this
  norm_num at this
  linarith

/-- C111 is false of shorter wavelengths: once the grid is refined beyond the configured minimum (below 0.476 micrometres for the default of
ten points), the window does not follow and is shorter than one period at the shortest wavelength, for every size of the structure. -/
theorem C111_short_false (wl0 gp s : ℝ) (h0 : 0 < wl0) (h1 : 0 ≤ gp) (hgp : gp * wl0 ≤ 4.76 * 1e-6) (hs : gridScaling wl0 gp = .ok s) (x : ℤ) (hx : 2 ≤ x)
    (g : GridNumbers) (hg : gridInit [.int x, .int 3, .int 1] (UNIT_MAGNITUDE / s) none = .ok g) : (windowSize gp wl0 : ℝ) < periodSteps g wl0 := by
  have hsg : s * wl0 * 10 ^ 6 = 10 := by
    unfold gridScaling pyDiv at hs
    rw [if_neg (by positivity)] at hs
    cases hs
    show max _ _ * _ * _ = _
    rw [max_eq_left, UNIT_MAGNITUDE]
    · field_simp; norm_num
    · rw [le_div_iff₀ (by positivity), UNIT_MAGNITUDE]
      norm_num at hgp ⊢
      linarith
  have hs0 : 0 < s := by
    by_contra h
    have : s * wl0 ≤ 0 := mul_nonpos_of_nonpos_of_nonneg (not_lt.1 h) h0.le
    linarith
  obtain ⟨c1, c2, -⟩ := courant_plane hx hg
  rw [periodSteps_eq hx hs0 hg, hsg]
  have hW : (windowSize gp wl0 : ℤ) = ⌊3 * (gp * wl0 * 10 ^ 6)⌋ := by
    unfold windowSize
    rw [pyTrunc_of_nonneg (by positivity)]
    congr 1
    field_simp
  rw [hW]
  have hf := Int.floor_le (3 * (gp * wl0 * 10 ^ 6))
  have : (10 : ℝ) / (7001 / 10000) ≤ 10 / g.courant := div_le_div_of_nonneg_left (by norm_num) (by linarith) c2
  refine lt_of_le_of_lt (hf.trans ?_) (lt_of_lt_of_le (show (14.28 : ℝ) < _ by norm_num) this)
  norm_num at hgp ⊢
  linarith

/-- C111, the extreme case: if three times the configured number of points per wavelength is below one the window is empty and no pair of
simulations yields coefficients. -/
theorem C111_empty_false (wl gp : ℝ) (h0 : 0 ≤ wl) (h1 : 0 ≤ gp) (h : 3 * gp * wl < 1e-6) (t0 t1 r0 r1 : List ℝ) (p : ℝ × ℝ) :
    coefficients (windowSize gp wl).toNat t0 t1 r0 r1 ≠ .ok p := by
  have hW : (windowSize gp wl) = 0 := by
    unfold windowSize
    rw [pyTrunc_of_nonneg (by positivity), Int.floor_eq_zero_iff]
    refine ⟨by positivity, ?_⟩
    norm_num at h ⊢
    linarith
  rw [hW]
  intro he
  unfold coefficients at he
  obtain ⟨tr, -, he⟩ := bind_ok.1 he
  obtain ⟨⟨⟩, -, he⟩ := bind_ok.1 he
  obtain ⟨⟨⟩, -, he⟩ := bind_ok.1 he
  obtain ⟨l, hl, -⟩ := bind_ok.1 he
  unfold eliminateTransient cutTransient at hl
  simp only [Int.toNat_zero, mul_zero, Nat.not_lt_zero, if_false, if_true] at hl
  split_ifs at hl

/-- not vacuous: 32 points per micrometre resolve half a micrometre; the default of 10 points and violet light of 0.4 micrometres fall short; both
grids exist -/
example : (10 * 1e-6 : ℝ) ≤ 32 * 5e-7 ∧ gridScaling 5e-7 32 = .ok 32 ∧ (10 : ℝ) * 4e-7 ≤ 4.76 * 1e-6 ∧ gridScaling 4e-7 10 = .ok 25 ∧
    ∀ s : ℝ, ∃ g, gridInit [.int 100, .int 3, .int 1] (UNIT_MAGNITUDE / s) none = .ok g := by
  refine ⟨by norm_num, ?_, by norm_num, ?_, fun s => ⟨_, rfl⟩⟩
  all_goals
    unfold gridScaling pyDiv UNIT_MAGNITUDE
    rw [if_neg (by norm_num)]
    norm_num [Except.map]

end

end Nidn
