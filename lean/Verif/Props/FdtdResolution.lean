/-
Property C127: which wavelengths the FDTD solver tells apart.
-/
import Verif.Spec.Films
import Verif.Props.FdtdStack
import Verif.Props.FdtdGrid
import Mathlib.Analysis.Real.Pi.Bounds

namespace Nidn

/-- the number of time steps in a period of the source for a requested wavelength -/
noncomputable def gridPeriod (g : GridNumbers) (wl : ℝ) : ℤ := handleTime g.timeStep (.flt (wl / SPEED_OF_LIGHT))

lemma lineSignal_period (g : GridNumbers) {wl wl' : ℝ} (h0 : 0 < wl) (h0' : 0 < wl') (h : gridPeriod g wl = gridPeriod g wl') :
    lineSignal g (simSpec wl "continuous") = lineSignal g (simSpec wl' "continuous") := by
  have hc : (0 : ℝ) < SPEED_OF_LIGHT := by unfold SPEED_OF_LIGHT; norm_num
  have a : ∀ w, (simSpec w "continuous").signal ≠ "hanning" := fun w => by show "continuous" ≠ "hanning"; decide
  have b : ∀ w, (simSpec w "continuous").signal ≠ "ricker" := fun w => by show "continuous" ≠ "ricker"; decide
  have e : ∀ w, handleTime g.timeStep (simSpec w "continuous").period = gridPeriod g w := fun w => rfl
  funext q
  unfold lineSignal
  rw [if_neg (show (simSpec wl "continuous").period.val ≠ 0 from (div_pos h0 hc).ne'), if_neg (show (simSpec wl' "continuous").period.val ≠ 0 from (div_pos h0' hc).ne'),
    if_neg (a wl), if_neg (a wl'), if_neg (b wl), if_neg (b wl'), e, e, h]
  rfl

lemma pointSignal_period (g : GridNumbers) {wl wl' : ℝ} (h0 : 0 < wl) (h0' : 0 < wl') (h : gridPeriod g wl = gridPeriod g wl') :
    pointSignal g (simSpec wl "continuous") = pointSignal g (simSpec wl' "continuous") := by
  have hc : (0 : ℝ) < SPEED_OF_LIGHT := by unfold SPEED_OF_LIGHT; norm_num
  have a : ∀ w, (simSpec w "continuous").signal ≠ "hanning" := fun w => by show "continuous" ≠ "hanning"; decide
  have b : ∀ w, (simSpec w "continuous").signal ≠ "ricker" := fun w => by show "continuous" ≠ "ricker"; decide
  have e : ∀ w, handleTime g.timeStep (simSpec w "continuous").period = gridPeriod g w := fun w => rfl
  funext q
  unfold pointSignal
  rw [if_neg (show (simSpec wl "continuous").period.val ≠ 0 from (div_pos h0 hc).ne'), if_neg (show (simSpec wl' "continuous").period.val ≠ 0 from (div_pos h0' hc).ne'),
    if_neg (a wl), if_neg (a wl'), if_neg (b wl), if_neg (b wl'), e, e, h]
  rfl

lemma placeSource_period (g : GridNumbers) (n : Pos) (x y : ℤ) (ty : String) {wl wl' : ℝ} (h0 : 0 < wl) (h0' : 0 < wl') (h : gridPeriod g wl = gridPeriod g wl') :
    placeSource g n x y wl "continuous" ty = placeSource g n x y wl' "continuous" ty := by
  unfold placeSource
  rw [lineSignal_period g h0 h0' h, pointSignal_period g h0 h0' h]
  rfl

lemma addLayers_real (g : GridNumbers) (n : Pos) (wl wl' : ℝ) : ∀ (L : List ((ℤ × ℤ) × ℂ)) (m : Materials ℝ), (∀ e ∈ L, e.2.im = 0) →
    addLayers g n wl m L = addLayers g n wl' m L
  | [], _, _ => rfl
  | (r, eps) :: rest, m, h => by
    have h1 : addLayer g n wl m r eps = addLayer g n wl' m r eps := by
      unfold addLayer
      simp only [show eps.im = 0 from h _ List.mem_cons_self, zero_mul]
    rw [addLayers, addLayers, h1]
    congr 1
    funext m'
    exact addLayers_real g n wl wl' rest m' fun e he => h e (List.mem_cons_of_mem _ he)

lemma addStack_real (c : FdtdCfg) (s : ℝ) (g : GridNumbers) (n : Pos) (wl wl' : ℝ) (m : Materials ℝ) (layers : Option (List ℂ)) (h : ∀ l ∈ layers, ∀ e ∈ l, e.im = 0) :
    addStack c s g n wl m layers = addStack c s g n wl' m layers := by
  cases layers with
  | none => rfl
  | some eps =>
    rw [addStack, addStack]
    congr 1
    funext ranges
    exact addLayers_real g n wl wl' _ m fun e he => h eps rfl e.2 (List.of_mem_zip (a := e.1) (b := e.2) he).2

/-- C127, what a simulation depends on: the wavelength enters a simulation of a lossless stack with a continuous source only through the number of time steps per period, to which it is
rounded. -/
theorem C127_simulate (c : FdtdCfg) (s : ℝ) (hp : c.pulse = "continuous") (layers : Option (List ℂ)) (hl : ∀ l ∈ layers, ∀ e ∈ l, e.im = 0) {wl wl' : ℝ} (h0 : 0 < wl) (h0' : 0 < wl')
    (h : ∀ g, gridInit [.int (xSize c s), .int 3, .int 1] (UNIT_MAGNITUDE / s) none = .ok g → gridPeriod g wl = gridPeriod g wl') :
    simulate c s layers wl = simulate c s layers wl' := by
  have hi : initFdtd c s layers wl = initFdtd c s layers wl' := by
    rw [initFdtd, initFdtd]
    cases hg : gridInit [.int (xSize c s), .int 3, .int 1] (UNIT_MAGNITUDE / s) none with
    | error e => rfl
    | ok g =>
      rw [ok_bind, ok_bind]
      congr 1
      funext bs
      congr 1
      funext t
      congr 1
      funext r
      congr 1
      funext xy
      rw [hp, placeSource_period g _ _ _ _ h0 h0' (h g hg)]
      congr 1
      funext src
      rw [addStack_real c s g _ wl wl' _ layers hl]
  rw [simulate, simulate, hi]

/-- C127: two wavelengths that round to the same number of time steps per period, and to the same window of the steady-state test, give the same reflection and transmission (or the same exception) for
every lossless stack. -/
theorem C127_point (c : FdtdCfg) (s : ℝ) (hp : c.pulse = "continuous") (g : Grid4 ℂ) (i i' : ℕ) (hi : i < g.sf) (hi' : i' < g.sf)
    (hg : ∀ x y l, g.val x y l i = g.val x y l i') (hl : ∀ l < g.sl, ∀ e, g.val 0 0 l i = some e → e.im = 0) {wl wl' : ℝ} (h0 : 0 < wl) (h0' : 0 < wl')
    (h : ∀ g, gridInit [.int (xSize c s), .int 3, .int 1] (UNIT_MAGNITUDE / s) none = .ok g → gridPeriod g wl = gridPeriod g wl')
    (hw : windowSize c.minGp wl = windowSize c.minGp wl') : fdtdPoint c s g i wl = fdtdPoint c s g i' wl' := by
  have e1 : sliceEntries g i = sliceEntries g i' := by simp only [sliceEntries, hg]
  have e2 : layerEps g i = layerEps g i' := by simp only [layerEps, hg]
  have hl' : ∀ l ∈ some (layerEps g i), ∀ e ∈ l, e.im = 0 := by
    rintro l hl2 e he
    cases hl2
    simp only [layerEps, List.mem_map, List.mem_range] at he
    obtain ⟨j, hj, rfl⟩ := he
    cases hv : g.val 0 0 j i with
    | none => simp
    | some z => exact hl j hj z hv
  rw [fdtdPoint, fdtdPoint, if_neg (by omega), if_neg (by omega), e1, hw, C127_simulate c s hp none (by simp) h0 h0' h, C127_simulate c s hp (some (layerEps g i)) hl' h0 h0' h, e2]

/-- C127, what is told apart: wavelengths that differ by at least the way light goes in one time step are simulated with different periods, and the simulated wavelength differs from the requested one by at
most half of that way. Missing for the full claim: wavelengths that are closer (`C127_resolution_false`). -/
theorem C127_separate_partial (g : GridNumbers) (hdt : 0 < g.timeStep) {wl wl' : ℝ} (h0 : 0 < wl) (h : wl + SPEED_OF_LIGHT * g.timeStep ≤ wl') :
    gridPeriod g wl < gridPeriod g wl' ∧ |SPEED_OF_LIGHT * (gridPeriod g wl * g.timeStep) - wl| ≤ SPEED_OF_LIGHT * g.timeStep / 2 := by
  have hc : (0 : ℝ) < SPEED_OF_LIGHT := by unfold SPEED_OF_LIGHT; norm_num
  have e : ∀ w, 0 < w → gridPeriod g w = ⌊w / SPEED_OF_LIGHT / g.timeStep + 1 / 2⌋ := fun w hw => by
    show pyTrunc (w / SPEED_OF_LIGHT / g.timeStep + 1 / 2) = _
    exact pyTrunc_of_nonneg (by positivity)
  have h0' : 0 < wl' := by nlinarith
  constructor
  · rw [e wl h0, e wl' h0', Int.lt_iff_add_one_le, Int.le_floor]
    push_cast
    have h1 := Int.floor_le (wl / SPEED_OF_LIGHT / g.timeStep + 1 / 2)
    have h2 : wl / SPEED_OF_LIGHT / g.timeStep + 1 ≤ wl' / SPEED_OF_LIGHT / g.timeStep := by
      rw [div_div, div_div, div_add_one (by positivity), div_le_div_iff_of_pos_right (by positivity)]
      exact h
    linarith
  · have := ((C44_time g.timeStep hdt).2 (wl / SPEED_OF_LIGHT) (by positivity)).2
    have e2 : SPEED_OF_LIGHT * (gridPeriod g wl * g.timeStep) - wl = SPEED_OF_LIGHT * ((gridPeriod g wl : ℝ) * g.timeStep - wl / SPEED_OF_LIGHT) := by field_simp
    rw [e2, abs_mul, abs_of_pos hc]
    have := mul_le_mul_of_nonneg_left this hc.le
    rw [← mul_div_assoc] at this
    exact this

/-! ### witness -/

/-- the default config with two target points, at 1.00 and 1.01 micrometres -/
noncomputable def twoLines : FdtdCfg :=
  ⟨⟨1 / 1000000, 101 / 100000000, 2, "linear", none⟩, 10, 3 / 2, 1, [1], 8, 2, [3 / 2, 1], "continuous", "line", 200, none⟩

/-- the same as a config -/
def twoLinesCfg : Cfg := (((fdtdDefault.set "physical_wavelength_range" (.list [.float (1 / 1000000), .float (101 / 100000000)])).set "N_freq" (.int 2)).set
  "target_reflectance_spectrum" (.list [.float 0, .float 1])).set "target_transmittance_spectrum" (.list [.float 1, .float 0])

lemma twoLines_accepted : validateConfig twoLinesCfg = .ok () := by decide +kernel

lemma twoLines_reads : ReadsAs twoLinesCfg twoLines :=
  ⟨⟨_, rfl, [], .cons ⟨_, .float _, by norm_num [twoLines]⟩ (.cons ⟨_, .float _, by norm_num [twoLines]⟩ .nil)⟩, ⟨_, rfl, Denotes.int 2⟩, rfl, fdtdDefault_reads.minGp,
    fdtdDefault_reads.pml, fdtdDefault_reads.free, fdtdDefault_reads.thick, fdtdDefault_reads.nLayers, fdtdDefault_reads.gap, fdtdDefault_reads.source, rfl, rfl, fdtdDefault_reads.niter⟩

lemma twoLines_points : ∃ fc, getFrequencyPoints twoLines.freq = .ok ([101 / 100000000, 1 / 1000000], [100 / 101, 1], fc) ∧ fc.wlMin = 1 / 1000000 := by
  refine ⟨{ twoLines.freq with targetFrequencies := some [100 / 101, 1] }, ?_, rfl⟩
  have h : computeTargetFrequencies twoLines.freq.wlMin twoLines.freq.wlMax twoLines.freq.nFreq twoLines.freq.distribution = .ok [100 / 101, 1] := by
    obtain ⟨fs, hfs, hs, -⟩ := C02_linear (1 / 1000000) (101 / 100000000) 2 (by norm_num) (by norm_num)
    have hl := hs.length
    have e : fs = [100 / 101, 1] := by
      match fs, hl with
      | [a, b], _ =>
        have h1 := hs.first (by norm_num)
        have h2 := hs.last (by norm_num)
        simp only [List.getElem?_cons_zero, Option.some.injEq, List.getElem?_cons_succ] at h1 h2
        norm_num at h1 h2
        rw [h1, h2]
    rw [← e]
    exact hfs
  rw [getFrequencyPoints, h, ok_bind, if_neg (by norm_num)]
  simp only [List.map_cons, List.map_nil, wlToPhysWl, UNIT_MAGNITUDE]
  norm_num
  rfl

lemma two_periods {g : GridNumbers} (hg : gridInit [.int 130, .int 3, .int 1] (UNIT_MAGNITUDE / 10) none = .ok g) : gridPeriod g (101 / 100000000) = 14 ∧ gridPeriod g (1 / 1000000) = 14 := by
  have hU' : UNIT_MAGNITUDE = 1e-6 := by unfold UNIT_MAGNITUDE; norm_num
  have hC : SPEED_OF_LIGHT = 299792458 := by unfold SPEED_OF_LIGHT; norm_num
  have hm : maxCourant (gridDims (130, 3, 1)) = .ok (1 / Real.sqrt 2) := by
    have h2 : gridDims (130, 3, 1) = 2 := by decide
    rw [h2]
    unfold maxCourant
    rw [if_neg (by decide)]
    congr 1
    rw [Real.rpow_neg (by norm_num), ← Real.sqrt_eq_rpow, one_div]
    norm_num
  have hg' : gridInit [.int 130, .int 3, .int 1] (UNIT_MAGNITUDE / 10) none =
      .ok ⟨(130, 3, 1), UNIT_MAGNITUDE / 10, gridDims (130, 3, 1), 0.99 * (1 / Real.sqrt 2), 0.99 * (1 / Real.sqrt 2) * (UNIT_MAGNITUDE / 10) / SPEED_OF_LIGHT⟩ := by
    unfold gridInit handleTuple
    simp only [handleDistance, ok_bind, hm, chooseCourant]
    rfl
  rw [hg'] at hg
  cases hg
  have e : ∀ w : ℝ, 0 < w → ∀ k : ℤ, ((k : ℝ) - 1 / 2) * (0.99 * 1e-7) ≤ w * Real.sqrt 2 → w * Real.sqrt 2 < ((k : ℝ) + 1 / 2) * (0.99 * 1e-7) →
      gridPeriod ⟨(130, 3, 1), UNIT_MAGNITUDE / 10, gridDims (130, 3, 1), 0.99 * (1 / Real.sqrt 2), 0.99 * (1 / Real.sqrt 2) * (UNIT_MAGNITUDE / 10) / SPEED_OF_LIGHT⟩ w = k := by
    intro w hw k h1 h2
    have hs : 0 < Real.sqrt 2 := Real.sqrt_pos.2 (by norm_num)
    show pyTrunc (w / SPEED_OF_LIGHT / (0.99 * (1 / Real.sqrt 2) * (UNIT_MAGNITUDE / 10) / SPEED_OF_LIGHT) + 1 / 2) = k
    have e : w / SPEED_OF_LIGHT / (0.99 * (1 / Real.sqrt 2) * (UNIT_MAGNITUDE / 10) / SPEED_OF_LIGHT) = w * Real.sqrt 2 / (0.99 * 1e-7) := by
      rw [hU', hC]
      field_simp
      norm_num
    rw [e, pyTrunc_of_nonneg (by positivity), Int.floor_eq_iff]
    constructor
    · rw [← sub_le_iff_le_add, le_div_iff₀ (by norm_num)]; exact h1
    · rw [← lt_sub_iff_add_lt, div_lt_iff₀ (by norm_num)]
      refine h2.trans_le (le_of_eq ?_)
      ring
  have l1 : 1.414 < Real.sqrt 2 := Real.lt_sqrt_of_sq_lt (by norm_num)
  have l2 : Real.sqrt 2 < 1.4143 := by rw [Real.sqrt_lt' (by norm_num)]; norm_num
  constructor
  · apply e _ (by norm_num)
    · push_cast; nlinarith
    · push_cast; nlinarith
  · apply e _ (by norm_num)
    · push_cast; nlinarith
    · push_cast; nlinarith

/-- C127 is false: the default config with the two target points 1.00 and 1.01 micrometres is accepted, and for every lossless stack whose permittivities are the same at both, the solver returns the same
reflection and the same transmission at both. -/
theorem C127_resolution_false : validateConfig twoLinesCfg = .ok () ∧ ReadsAs twoLinesCfg twoLines ∧
    ∀ g : Grid4 ℂ, 2 ≤ g.sf → (∀ x y l, g.val x y l 0 = g.val x y l 1) → (∀ l < g.sl, ∀ e, g.val 0 0 l 0 = some e → e.im = 0) →
      ∀ rs ts c', computeSpectrumFdtd g twoLines = .ok ((rs, ts), c') → ∃ r t, rs = [r, r] ∧ ts = [t, t] := by
  refine ⟨twoLines_accepted, twoLines_reads, fun g hsf hg hl rs ts c' h => ?_⟩
  obtain ⟨fc, hfp, hwl⟩ := twoLines_points
  rw [computeSpectrumFdtd, hfp, ok_bind] at h
  split_ifs at h
  have hx : ∀ sc, xSize { expandThick { twoLines with freq := fc } with scaling := sc } 10 = 130 := by
    intro sc
    have e : expandThick { twoLines with freq := fc } = { twoLines with freq := fc, thick := List.replicate 8 1 } := rfl
    rw [e]
    unfold xSize
    rw [show (10 : ℝ) * _ = ((130 : ℤ) : ℝ) by norm_num [twoLines]]
    unfold pyTrunc; norm_num
  have hsc : gridScaling (expandThick { twoLines with freq := fc }).freq.wlMin (expandThick { twoLines with freq := fc }).minGp = .ok 10 := by
    show gridScaling fc.wlMin 10 = _
    rw [hwl]
    exact scaling_default
  replace h : (gridScaling (expandThick { twoLines with freq := fc }).freq.wlMin (expandThick { twoLines with freq := fc }).minGp >>= fun s =>
      fdtdLoop { expandThick { twoLines with freq := fc } with scaling := some s } s g [101 / 100000000, 1 / 1000000] 0 [] [] >>= fun rt =>
        .ok (rt, { expandThick { twoLines with freq := fc } with scaling := some s })) = .ok ((rs, ts), c') := h
  rw [hsc, ok_bind] at h
  set c1 : FdtdCfg := { expandThick { twoLines with freq := fc } with scaling := some 10 } with hc1
  have hp : c1.pulse = "continuous" := rfl
  have hw : windowSize c1.minGp (101 / 100000000) = windowSize c1.minGp (1 / 1000000) := by
    have hm : c1.minGp = 10 := rfl
    rw [hm]
    unfold windowSize
    rw [pyTrunc_of_nonneg (by norm_num), pyTrunc_of_nonneg (by norm_num)]
    norm_num
  have hpt := C127_point c1 10 hp g 0 1 (by omega) (by omega) hg hl (wl := 101 / 100000000) (wl' := 1 / 1000000) (by norm_num) (by norm_num) (fun gn hgn => by
    rw [hx] at hgn
    rw [(two_periods hgn).1, (two_periods hgn).2]) hw
  obtain ⟨rt, hrt, h⟩ := bind_ok.1 h
  obtain rfl : rt = (rs, ts) := congrArg (fun p => p.1) (Except.ok.inj h)
  clear h
  rw [fdtdLoop] at hrt
  obtain ⟨tr, h1, hrt⟩ := bind_ok.1 hrt
  rw [fdtdLoop] at hrt
  obtain ⟨tr', h2, hrt⟩ := bind_ok.1 hrt
  rw [fdtdLoop] at hrt
  rw [hpt, h2] at h1
  cases h1
  cases hrt
  exact ⟨tr.2, tr.1, rfl, rfl⟩

lemma film_two (δ : ℝ) : filmsR 1 [(1 / 2, (δ : ℂ))] 1 = 9 * Real.sin δ ^ 2 / (16 + 9 * Real.sin δ ^ 2) := by
  have h1 : ((1 : ℝ) : ℂ) * (frontFields [(1 / 2, (δ : ℂ))] 1).1 - (frontFields [(1 / 2, (δ : ℂ))] 1).2 = ⟨0, -(3 / 2) * Real.sin δ⟩ := by
    simp only [frontFields, filmFront]
    rw [← Complex.ofReal_cos, ← Complex.ofReal_sin]
    apply Complex.ext
    · simp
    · simp [-Complex.ofReal_sin]; ring
  have h2 : filmsDen ((1 : ℝ) : ℂ) [(1 / 2, (δ : ℂ))] 1 = ⟨2 * Real.cos δ, -(5 / 2) * Real.sin δ⟩ := by
    simp only [filmsDen, frontFields, filmFront]
    rw [← Complex.ofReal_cos, ← Complex.ofReal_sin]
    apply Complex.ext
    · simp [-Complex.ofReal_cos]; ring
    · simp [-Complex.ofReal_sin]; ring
  rw [filmsR, h1, h2, Complex.normSq_div, Complex.normSq_mk, Complex.normSq_mk]
  have hc := Real.sin_sq_add_cos_sq δ
  have e1 : (0 : ℝ) * 0 + -(3 / 2) * Real.sin δ * (-(3 / 2) * Real.sin δ) = 9 * Real.sin δ ^ 2 / 4 := by ring
  have e2 : 2 * Real.cos δ * (2 * Real.cos δ) + -(5 / 2) * Real.sin δ * (-(5 / 2) * Real.sin δ) = (16 + 9 * Real.sin δ ^ 2) / 4 := by nlinarith
  rw [e1, e2, div_div_div_cancel_right₀ (by norm_num)]

/-- What is lost: eight of the default layers with index two let all light of 1.00 micrometres through and reflect more than a fifth at 1.01 micrometres. -/
theorem C127_films : filmsR 1 [(1 / 2, ((2 * Real.pi * 2 * 8 / 1 : ℝ) : ℂ))] 1 = 0 ∧ 1 / 5 < filmsR 1 [(1 / 2, ((2 * Real.pi * 2 * 8 / 1.01 : ℝ) : ℂ))] 1 := by
  constructor
  · rw [film_two, show 2 * Real.pi * 2 * 8 / 1 = ((32 : ℕ) : ℝ) * Real.pi by push_cast; ring, Real.sin_nat_mul_pi]
    norm_num
  · rw [film_two]
    have hp := Real.pi_pos
    have e : 2 * Real.pi * 2 * 8 / 1.01 = ((32 : ℕ) : ℝ) * Real.pi - 32 / 101 * Real.pi := by push_cast; ring
    have h : 1 / 2 ≤ Real.sin (2 * Real.pi * 2 * 8 / 1.01) ^ 2 := by
      rw [e, Real.sin_sub, Real.sin_nat_mul_pi, zero_mul, zero_sub, neg_sq, mul_pow]
      have h1 : Real.cos (((32 : ℕ) : ℝ) * Real.pi) ^ 2 = 1 := by
        have := Real.sin_sq_add_cos_sq (((32 : ℕ) : ℝ) * Real.pi)
        rw [Real.sin_nat_mul_pi] at this
        linarith
      rw [h1, one_mul]
      have h2 : Real.sin (Real.pi / 4) ≤ Real.sin (32 / 101 * Real.pi) := Real.sin_le_sin_of_le_of_le_pi_div_two (by linarith) (by linarith) (by linarith)
      rw [Real.sin_pi_div_four] at h2
      have h3 : Real.sqrt 2 ^ 2 = 2 := Real.sq_sqrt (by norm_num)
      have h4 := Real.sqrt_nonneg 2
      nlinarith
    rw [lt_div_iff₀ (by positivity)]
    linarith

/-- the hypotheses on the stack are met: eight layers of index two at both points -/
example : ∃ g : Grid4 ℂ, 2 ≤ g.sf ∧ (∀ x y l, g.val x y l 0 = g.val x y l 1) ∧ (∀ l < g.sl, ∀ e, g.val 0 0 l 0 = some e → e.im = 0) ∧ g.val 0 0 3 0 = some 4 :=
  ⟨⟨1, 1, 8, 2, fun _ _ _ _ => some 4⟩, le_rfl, fun _ _ _ => rfl, fun _ _ e he => by cases he; rfl, rfl⟩

end Nidn
