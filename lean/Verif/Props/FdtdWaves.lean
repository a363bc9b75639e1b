/-
C83: the wavelength the sources of the FDTD solver emit.
-/
import Mathlib.Analysis.Real.Pi.Bounds
import Verif.Props.FdtdPipeline

namespace Nidn

/-- C83, continuous signals: on the grid the solver makes for a wavelength of at least ten cells the source is a sine with a whole number `T` of steps per period, and the wavelength `c·T·dt` it has in vacuum differs from the requested
one by at most five percent. Missing: pulses (C83_ricker_partial, C83_hanning_false). -/
theorem C83_continuous_partial (x : ℤ) (s wl : ℝ) (hs : 0 < s) (hwl : 10 ≤ wl / (1e-6 / s)) (gn : GridNumbers) (hg : gridInit [.int x, .int 3, .int 1] (UNIT_MAGNITUDE / s) none = .ok gn) :
    ∃ T : ℕ, 0 < T ∧ |T * gn.timeStep - wl / 299792458| ≤ gn.timeStep / 2 ∧ |299792458 * (T * gn.timeStep) - wl| ≤ wl / 20 ∧
      ∀ q : ℕ, lineSignal gn (simSpec wl "continuous") q = .ok (Real.sin (2 * Real.pi * q / T)) ∧ pointSignal gn (simSpec wl "continuous") q = .ok (Real.sin (2 * Real.pi * q / T)) := by
  have hU' : UNIT_MAGNITUDE = 1e-6 := by unfold UNIT_MAGNITUDE; norm_num
  have hU : 0 < UNIT_MAGNITUDE / s := div_pos (by rw [hU']; norm_num) hs
  rw [← hU', le_div_iff₀ hU] at hwl
  have hwl0 : 0 < wl := by linarith
  have hC : SPEED_OF_LIGHT = 299792458 := by unfold SPEED_OF_LIGHT; norm_num
  obtain ⟨h1, h2, h3⟩ := C43_limit _ _ _ _ hg
  obtain ⟨h4, -⟩ := C43_default _ _ _ hg
  have hc1 : gn.courant ≤ 1 := by
    refine h2.trans ?_
    rw [div_le_one (by positivity)]
    exact Real.one_le_sqrt.2 (by exact_mod_cast h1)
  have hdt : 0 < gn.timeStep := by rw [h3]; positivity
  have hdc : 299792458 * gn.timeStep ≤ wl / 10 := by
    rw [h3, mul_div_assoc', mul_div_cancel_left₀ _ (by norm_num)]
    nlinarith
  have hp0 : 0 < wl / 299792458 := by positivity
  obtain ⟨hT0, hT⟩ := (C44_time gn.timeStep hdt).2 (wl / 299792458) hp0.le
  have e : handleTime gn.timeStep (simSpec wl "continuous").period = handleTime gn.timeStep (.flt (wl / 299792458)) := by
    show handleTime _ (.flt (wl / SPEED_OF_LIGHT)) = _
    rw [hC]
  obtain ⟨T, hTe⟩ := Int.eq_ofNat_of_zero_le hT0
  rw [hTe] at hT e
  have hTpos : 0 < T := by
    rcases Nat.eq_zero_or_pos T with h | h
    · exfalso
      rw [h] at hT
      have h5 : (((0 : ℕ) : ℤ) : ℝ) * gn.timeStep - wl / 299792458 = -(wl / 299792458) := by simp
      rw [h5, abs_neg, abs_of_pos hp0, div_le_iff₀ (by norm_num)] at hT
      linarith
    · exact h
  have hT' : |(T : ℝ) * gn.timeStep - wl / 299792458| ≤ gn.timeStep / 2 := by exact_mod_cast hT
  refine ⟨T, hTpos, hT', ?_, fun q => ?_⟩
  · have h6 : 299792458 * ((T : ℝ) * gn.timeStep) - wl = 299792458 * ((T : ℝ) * gn.timeStep - wl / 299792458) := by ring
    rw [h6, abs_mul, abs_of_pos (by norm_num)]
    linarith
  · have hp : (simSpec wl "continuous").period.val ≠ 0 := by
      show wl / SPEED_OF_LIGHT ≠ 0
      rw [hC]
      exact hp0.ne'
    have a : (simSpec wl "continuous").signal ≠ "hanning" := by show "continuous" ≠ "hanning"; decide
    have b : (simSpec wl "continuous").signal ≠ "ricker" := by show "continuous" ≠ "ricker"; decide
    have hz : ((T : ℕ) : ℤ) ≠ 0 := by omega
    constructor
    · unfold lineSignal
      rw [if_neg hp, if_neg a, if_neg b, e]
      rw [if_neg (by exact_mod_cast hz)]
      show Except.ok (Real.sin (2 * Real.pi * q / (((T : ℕ) : ℤ) : ℝ) + 0)) = _
      rw [add_zero, Int.cast_natCast]
    · unfold pointSignal
      rw [if_neg hp, if_neg a, if_neg b, e]
      rw [if_neg (by exact_mod_cast hz)]
      show Except.ok (1 * Real.sin (2 * Real.pi * q / (((T : ℕ) : ℤ) : ℝ) + 0)) = _
      rw [add_zero, Int.cast_natCast, one_mul]

/-- The Ricker wavelet (second derivative of a Gaussian) with peak frequency one, centred at time one. -/
noncomputable def rickerShape (u : ℝ) : ℝ := (1 - 2 * Real.pi ^ 2 * (u - 1) ^ 2) * Real.exp (-(Real.pi ^ 2 * (u - 1) ^ 2))

/-- C83, Ricker pulses of line sources: while it lasts the signal is the Ricker wavelet of the requested frequency at the time of the step, for every grid; it lasts six wavelengths worth of cells, and never exceeds one.
Missing: point sources (C57_ricker_false). -/
theorem C83_ricker_partial (x : ℤ) (s wl : ℝ) (hs : 0 < s) (hwl : 0 < wl) (gn : GridNumbers) (hg : gridInit [.int x, .int 3, .int 1] (UNIT_MAGNITUDE / s) none = .ok gn) (q : ℕ) :
    ((q : ℝ) < 6 * (wl / (1e-6 / s)) → lineSignal gn (simSpec wl "ricker") q = .ok (rickerShape (299792458 / wl * (q * gn.timeStep)))) ∧
    (6 * (wl / (1e-6 / s)) ≤ q → lineSignal gn (simSpec wl "ricker") q = .ok 0) ∧ ∀ u, rickerShape u ≤ 1 ∧ rickerShape 1 = 1 := by
  have hU' : UNIT_MAGNITUDE = 1e-6 := by unfold UNIT_MAGNITUDE; norm_num
  have hU : 0 < UNIT_MAGNITUDE / s := div_pos (by rw [hU']; norm_num) hs
  have hC : SPEED_OF_LIGHT = 299792458 := by unfold SPEED_OF_LIGHT; norm_num
  obtain ⟨-, -, h3⟩ := C43_limit _ _ _ _ hg
  have hsp : gn.spacing = UNIT_MAGNITUDE / s := by
    obtain ⟨_, _, _, _, _, _, rfl⟩ := gridInit_inv hg
    rfl
  have hgpw : (simSpec wl "ricker").gpw gn = wl / (1e-6 / s) := by
    show SPEED_OF_LIGHT / (1 / (wl / SPEED_OF_LIGHT)) / gn.spacing = _
    rw [hsp, hC, hU']
    field_simp
  have hp : (simSpec wl "ricker").period.val ≠ 0 := by
    show wl / SPEED_OF_LIGHT ≠ 0
    rw [hC]
    positivity
  have a : (simSpec wl "ricker").signal ≠ "hanning" := by show "ricker" ≠ "hanning"; decide
  have b : (simSpec wl "ricker").signal = "ricker" := rfl
  refine ⟨fun h => ?_, fun h => ?_, fun u => ⟨?_, ?_⟩⟩
  · unfold lineSignal
    rw [if_neg hp, if_neg a, if_pos b, hgpw, if_pos (by linarith)]
    congr 1
    unfold rickerPulse rickerShape
    have e : 299792458 / wl * (q * gn.timeStep) = q * gn.courant / (wl / (1e-6 / s)) := by
      rw [h3, hU']
      field_simp
    rw [e, mul_pow]
    ring_nf
  · unfold lineSignal
    rw [if_neg hp, if_neg a, if_pos b, hgpw, if_neg (by linarith)]
  · unfold rickerShape
    have h1 : 0 ≤ Real.pi ^ 2 * (u - 1) ^ 2 := by positivity
    have h2 : Real.exp (-(Real.pi ^ 2 * (u - 1) ^ 2)) ≤ 1 := by
      rw [Real.exp_le_one_iff]
      linarith
    have h3 := Real.exp_pos (-(Real.pi ^ 2 * (u - 1) ^ 2))
    nlinarith
  · unfold rickerShape
    simp

/-- C83 is false of the Hanning pulse: on a grid of 100 nm cells (scaling 10) the carrier has, for every requested wavelength, a period more than forty percent too long (the pulse advances by one femtosecond per step,
whatever the time step of the grid is, and takes the frequency for an angular frequency). -/
theorem C83_hanning_false :
    ∃ gn, gridInit [.int 100, .int 3, .int 1] (UNIT_MAGNITUDE / 10) none = .ok gn ∧ ∀ wl : ℝ, 0 < wl → ∃ P, 1.4 * (wl / 299792458) < P ∧
      (∀ q : ℕ, ((q : ℝ) + 1) * 1e-15 * 299792458 ≤ 31 * wl → lineSignal gn (simSpec wl "hanning") q = .ok (1 / 2 * (1 - Real.cos (2 * Real.pi * (q * gn.timeStep) / (5 * P))) * Real.sin (2 * Real.pi * (q * gn.timeStep) / P))) := by
  have hU' : UNIT_MAGNITUDE = 1e-6 := by unfold UNIT_MAGNITUDE; norm_num
  have hC : SPEED_OF_LIGHT = 299792458 := by unfold SPEED_OF_LIGHT; norm_num
  have hm : maxCourant (gridDims (100, 3, 1)) = .ok (1 / Real.sqrt 2) := by
    have h2 : gridDims (100, 3, 1) = 2 := by decide
    rw [h2]
    unfold maxCourant
    rw [if_neg (by decide)]
    congr 1
    rw [Real.rpow_neg (by norm_num), ← Real.sqrt_eq_rpow, one_div]
    norm_num
  have hg : gridInit [.int 100, .int 3, .int 1] (UNIT_MAGNITUDE / 10) none = .ok ⟨(100, 3, 1), UNIT_MAGNITUDE / 10, gridDims (100, 3, 1), 0.99 * (1 / Real.sqrt 2), 0.99 * (1 / Real.sqrt 2) * (UNIT_MAGNITUDE / 10) / SPEED_OF_LIGHT⟩ := by
    unfold gridInit handleTuple
    simp only [handleDistance, ok_bind, hm, chooseCourant]
    rfl
  refine ⟨_, hg, fun wl hwl => ?_⟩
  set dt := 0.99 * (1 / Real.sqrt 2) * (UNIT_MAGNITUDE / 10) / SPEED_OF_LIGHT with hdt
  have hs2 : Real.sqrt 2 < 1.4143 := by
    rw [Real.sqrt_lt' (by norm_num)]
    norm_num
  have hs20 : 0 < Real.sqrt 2 := Real.sqrt_pos.2 (by norm_num)
  have hinv : 0.707 < 1 / Real.sqrt 2 := by
    rw [lt_div_iff₀ hs20]
    linarith
  have hdt0 : 2.33e-16 < dt := by
    rw [hdt, hU', hC, lt_div_iff₀ (by norm_num)]
    linarith
  have hpi := Real.pi_gt_d2
  have hdp : 0 < dt := by linarith
  refine ⟨2 * Real.pi * dt / 1e-15 * (wl / 299792458), ?_, fun q hq => ?_⟩
  · refine mul_lt_mul_of_pos_right ?_ (by positivity)
    rw [lt_div_iff₀ (by norm_num)]
    have : 3.14 * 2.33e-16 < Real.pi * dt := by
      refine mul_lt_mul'' hpi hdt0 (by norm_num) (by norm_num)
    linarith
  · have hp : (simSpec wl "hanning").period.val ≠ 0 := by
      show wl / SPEED_OF_LIGHT ≠ 0
      rw [hC]
      positivity
    have hf : (simSpec wl "hanning").frequency = 299792458 / wl := by
      show 1 / (wl / SPEED_OF_LIGHT) = _
      rw [hC, one_div_div]
    have hd : (simSpec wl "hanning").dt = 1e-15 := rfl
    have hc : (simSpec wl "hanning").cycle = 5 := rfl
    unfold lineSignal
    rw [if_neg hp, if_pos (show (simSpec wl "hanning").signal = "hanning" from rfl), hd, hc, if_neg (by norm_num), hf]
    have hst : (q : ℤ) < (simSpec wl "hanning").hanningSteps := by
      unfold SourceSpec.hanningSteps
      rw [hf, hd, hc]
      have h1 : (q : ℝ) + 1 ≤ 2 * Real.pi / (299792458 / wl * 1e-15 / 5) := by
        rw [le_div_iff₀ (by positivity), show ((q : ℝ) + 1) * (299792458 / wl * 1e-15 / 5) = ((q : ℝ) + 1) * 1e-15 * 299792458 / (5 * wl) by field_simp, div_le_iff₀ (by positivity)]
        nlinarith
      rw [pyTrunc_of_nonneg (by positivity)]
      have h2 : ((q : ℤ) + 1 : ℤ) ≤ ⌊2 * Real.pi / (299792458 / wl * 1e-15 / 5)⌋ := Int.le_floor.2 (by push_cast; exact h1)
      omega
    rw [if_pos hst]
    congr 1
    unfold hanningPulse
    have e1 : 299792458 / wl * (q * 1e-15) = 2 * Real.pi * (q * dt) / (2 * Real.pi * dt / 1e-15 * (wl / 299792458)) := by
      field_simp
    have e2 : 299792458 / wl * (q * 1e-15) / 5 = 2 * Real.pi * (q * dt) / (5 * (2 * Real.pi * dt / 1e-15 * (wl / 299792458))) := by
      rw [e1]
      field_simp
    rw [e2, e1]

/-- a case meeting the hypotheses of C83_continuous_partial and C83_ricker_partial: wavelength 1 µm, ten cells per micrometre -/
example : ∃ gn, gridInit [.int 100, .int 3, .int 1] (UNIT_MAGNITUDE / 10) none = .ok gn ∧ (10 : ℝ) ≤ 1e-6 / (1e-6 / 10) := by
  obtain ⟨gn, hg, -⟩ := C83_hanning_false
  exact ⟨gn, hg, by norm_num⟩

end Nidn
