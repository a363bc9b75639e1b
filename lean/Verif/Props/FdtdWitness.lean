/-
C66 end to end: an accepted config with an empty structure for which the FDTD solver returns reflection 0 and transmission 1, and with it the hypotheses of the theorems about returned FDTD spectra.
-/
import Verif.Props.FdtdFront
import Verif.Props.FdtdSpectrum
import Mathlib.Analysis.SpecialFunctions.Trigonometric.Bounds

set_option linter.unusedSectionVars false

namespace Nidn

section
variable {K : Type} [Field K] [LinearOrder K] [IsStrictOrderedRing K]

lemma eliminate_short (w : ℕ) (free : Bool) (s : List K) (h : s.length < 2 * w) : eliminateTransient w free s = .ok (s.drop (firstNonZero s)) := by
  unfold eliminateTransient
  exact if_pos (by simp only [List.length_drop]; omega)

lemma findPeaks_short (s : List K) (h : s.length ≤ 2) : findPeaks s = [] := by
  unfold findPeaks
  rw [show s.length - 2 = 0 by omega]
  rfl

lemma zipWith_self_sub (s : List K) : List.zipWith (fun x y => x - y) s s = List.replicate s.length 0 := by
  induction s with
  | nil => rfl
  | cons a l _ => simp [List.replicate_succ]

lemma peakPower_zero (n : ℕ) (h : 0 < n) : peakPower (List.replicate n (0 : K)) = .ok 0 := by
  obtain ⟨m, rfl⟩ := Nat.exists_eq_add_of_lt h
  have hp : findPeaks (List.replicate (0 + m + 1) (0 : K)) = [] := by
    unfold findPeaks
    rw [List.map_eq_nil_iff, List.filter_eq_nil_iff]
    intro i _
    simp
  unfold peakPower
  rw [if_neg (by rw [hp]; decide)]
  have : pyMaxList (List.replicate (0 + m + 1) (0 : K)) = .ok 0 := by
    rw [List.replicate_succ]
    show Except.ok ((List.replicate (0 + m) (0 : K)).foldl max 0) = _
    congr 1
    generalize 0 + m = j
    induction j with
    | zero => rfl
    | succ j ih => rw [List.replicate_succ, List.foldl_cons, max_self]; exact ih
  rw [this]
  simp [Except.map]

/-- coefficients of an empty structure from two short signals -/
lemma coefficients_empty (w : ℕ) (t r : List K) (p q : K) (hr : 0 < r.length) (ht' : t.length < 2 * w) (hr' : r.length < 2 * w) (zt : checkAllZero t = .ok ()) (zr : checkAllZero r = .ok ())
    (pt : peakPower (t.drop (firstNonZero t)) = .ok p) (pr : peakPower (r.drop (firstNonZero r)) = .ok q) (hp : p ≠ 0) (hq : q ≠ 0) : coefficients w t t r r = .ok (1, 0) := by
  have hz : ∀ n, firstNonZero (List.replicate n (0 : K)) = 0 := by
    intro n
    unfold firstNonZero
    have : (List.replicate n (0 : K)).findIdx? (fun v => decide (1 / 10 ^ 8 < |v|)) = none := by
      rw [List.findIdx?_eq_none_iff]
      intro v hv
      rw [List.eq_of_mem_replicate hv, abs_zero]
      simp
    rw [this]
    rfl
  unfold coefficients subSignals
  rw [if_pos rfl, ok_bind, zt, ok_bind, zr, ok_bind, eliminate_short w _ t ht', ok_bind, eliminate_short w _ t ht', ok_bind, eliminate_short w _ r hr', ok_bind, zipWith_self_sub,
    eliminate_short w _ _ (by simpa using hr'), ok_bind, hz, List.drop_zero]
  unfold peakCoefficients
  rw [pt, ok_bind, ok_bind, peakPower_zero _ hr, ok_bind, pr, ok_bind]
  unfold floatDiv
  rw [if_neg hp, ok_bind, if_neg hq, ok_bind, ok_bind]
  unfold normalizeCoefficients
  rw [div_self hp, zero_div]
  norm_num

end

/-- a small accepted config: one layer of one cell, one frequency, four time steps -/
def emptyConfig : Cfg :=
  ((((((((fdtdDefault.set "N_layers" (.int 1)).set "N_freq" (.int 1)).set "physical_wavelength_range" (.list [.float (1 / 1000000), .float (2 / 1000000)])).set "FDTD_pml_thickness" (.float (1 / 10))).set
    "FDTD_free_space_distance" (.float (1 / 2))).set "PER_LAYER_THICKNESS" (.list [.float (1 / 10)])).set "FDTD_gridpoints_from_material_to_detector" (.int 1)).set
    "FDTD_source_position" (.list [.float (3 / 5), .float 1])).set "FDTD_niter" (.int 4)

/-- what the solver reads from it -/
noncomputable def emptyFdtd : FdtdCfg := ⟨⟨1 / 1000000, 2 / 1000000, 1, "linear", none⟩, 10, 1 / 10, 1 / 2, [1 / 10], 1, 1, [3 / 5, 1], "continuous", "line", 4, none⟩

lemma emptyConfig_reads : ReadsAs emptyConfig emptyFdtd where
  wavelengths := ⟨_, rfl, [], .cons ⟨_, .float _, by norm_num [emptyFdtd]⟩ (.cons ⟨_, .float _, by norm_num [emptyFdtd]⟩ .nil)⟩
  nFreq := ⟨_, rfl, Denotes.int 1⟩
  distribution := rfl
  minGp := ⟨_, ⟨_, rfl, .int 10⟩, by norm_num [emptyFdtd]⟩
  pml := ⟨_, ⟨_, rfl, .float _⟩, by norm_num [emptyFdtd]⟩
  free := ⟨_, ⟨_, rfl, .float _⟩, by norm_num [emptyFdtd]⟩
  thick := ⟨_, rfl, .cons ⟨_, .float _, by norm_num⟩ .nil⟩
  nLayers := ⟨_, rfl, Denotes.int 1⟩
  gap := ⟨_, rfl, Denotes.int 1⟩
  source := ⟨_, rfl, .cons ⟨_, .float _, by norm_num⟩ (.cons ⟨_, .float _, by norm_num⟩ .nil)⟩
  pulse := rfl
  sourceType := rfl
  niter := ⟨_, rfl, Denotes.int 4⟩

lemma emptyConfig_accepted : validateConfig emptyConfig = .ok () := by decide +kernel

/-- the config during the run -/
noncomputable def emptyRun (fs : Option (List ℝ)) (sc : Option ℝ) : FdtdCfg := { emptyFdtd with freq := ⟨1 / 1000000, 2 / 1000000, 1, "linear", fs⟩, scaling := sc }

lemma empty_cells (fs : Option (List ℝ)) (sc : Option ℝ) : pmlCells (emptyRun fs sc) 10 = 1 ∧ sourceCell (emptyRun fs sc) 10 = 6 ∧ xSize (emptyRun fs sc) 10 = 13 ∧ tDetectorX (emptyRun fs sc) 10 = 8 ∧ rDetectorX (emptyRun fs sc) 10 = 5 := by
  have t : ∀ z : ℤ, pyTrunc (z : ℝ) = z := fun z => by unfold pyTrunc; split_ifs <;> simp
  refine ⟨?_, ?_, ?_, ?_, ?_⟩
  · unfold pmlCells
    rw [show _ * (10 : ℝ) = ((1 : ℤ) : ℝ) by norm_num [emptyRun, emptyFdtd], t]
  · unfold sourceCell
    rw [show _ * (10 : ℝ) = ((6 : ℤ) : ℝ) by norm_num [emptyRun, emptyFdtd], t]
  · unfold xSize
    rw [show (10 : ℝ) * _ = ((13 : ℤ) : ℝ) by norm_num [emptyRun, emptyFdtd], t]
  · unfold tDetectorX
    rw [show _ * (10 : ℝ) + _ = ((8 : ℤ) : ℝ) by norm_num [emptyRun, emptyFdtd], t]
  · unfold rDetectorX
    rw [show _ * (10 : ℝ) - _ = ((5 : ℤ) : ℝ) by norm_num [emptyRun, emptyFdtd], t]

lemma empty_setup (fs : Option (List ℝ)) (sc : Option ℝ) : LineSetup (emptyRun fs sc) 10 := by
  obtain ⟨h1, h2, h3, -, -⟩ := empty_cells fs sc
  refine ⟨⟨by norm_num, by norm_num [emptyRun, emptyFdtd], by norm_num [emptyRun, emptyFdtd], by norm_num [emptyRun, emptyFdtd], ?_, by simp [emptyRun, emptyFdtd], ?_⟩,
    by rw [h1], rfl, Or.inl rfl, by simp [emptyRun, emptyFdtd], by rw [h2]; norm_num, by rw [h2, h3]; norm_num⟩
  · show (1 : ℤ) ≤ ⌊(10 : ℝ) * (1 / 2)⌋
    norm_num
  · intro t ht
    rw [List.mem_singleton.1 ht]
    norm_num

/-- a permittivity tensor of one vacuum layer at one frequency -/
noncomputable def emptyGrid : Grid4 ℂ := ⟨1, 1, 1, 1, fun _ _ _ _ => some 1⟩

lemma empty_point (fs : Option (List ℝ)) (sc : Option ℝ) (wl : ℝ) (h1 : 1 / 1000000 ≤ wl) (h2 : wl ≤ 2 / 1000000) : fdtdPoint (emptyRun fs sc) 10 emptyGrid 0 wl = .ok (1, 0) := by
  obtain ⟨c1, c2, c3, c4, c5⟩ := empty_cells fs sc
  have hU : UNIT_MAGNITUDE / 10 = 1 / 10000000 := by unfold UNIT_MAGNITUDE; norm_num
  obtain ⟨C, T, t, r, hC1, hC2, hT, hT', hsim, hlt, hlr, harr⟩ := C92_arrival (emptyRun fs sc) 10 (empty_setup fs sc) wl rfl (by rw [hU]; linarith)
  obtain ⟨t0, t1, hpos⟩ := harr _ t (Or.inl rfl) 2 (by rw [c4, c2]; rfl) (by rw [c4, c1]; norm_num) (by rw [c3, c1, c4]; norm_num) (by show (4 : ℤ) ≤ 4; norm_num)
  obtain ⟨r0, r1, -⟩ := harr _ r (Or.inr rfl) 1 (by rw [c5, c2]; rfl) (by rw [c5, c1]; norm_num) (by rw [c3, c1, c5]; norm_num) (by show (3 : ℤ) ≤ 4; norm_num)
  have hlt : t.length = 4 := hlt
  have hlr : r.length = 4 := hlr
  have hT9 : (9 : ℝ) ≤ T := by exact_mod_cast hT
  have hT41 : (T : ℝ) ≤ 41 := by
    have e := (abs_le.1 hT').2
    rw [hU] at e
    have : wl / (C * (1 / 10000000)) ≤ 40 := by
      rw [div_le_iff₀ (by linarith)]
      nlinarith
    linarith
  have hsin : 4 / 41 ≤ Real.sin (2 * Real.pi / T) := by
    have hpi := Real.pi_pos
    have hle : 2 * Real.pi / T ≤ Real.pi / 2 := by
      rw [div_le_iff₀ (by linarith)]
      nlinarith
    refine le_trans ?_ (Real.mul_le_sin (by positivity) hle)
    rw [show 2 / Real.pi * (2 * Real.pi / T) = 4 / T by field_simp; norm_num]
    exact div_le_div_of_nonneg_left (by norm_num) (by linarith) hT41
  have hv2 : 1 / 1000 ≤ C ^ (2 * 2) * Real.sin (2 * Real.pi / T) / 3 := by
    have : (1 / 2 : ℝ) ^ (2 * 2) ≤ C ^ (2 * 2) := pow_le_pow_left₀ (by norm_num) hC1 _
    norm_num at this ⊢
    nlinarith
  have hv1 : 1 / 1000 ≤ C ^ (2 * 1) * Real.sin (2 * Real.pi / T) / 3 := by
    have : (1 / 2 : ℝ) ^ (2 * 1) ≤ C ^ (2 * 1) := pow_le_pow_left₀ (by norm_num) hC1 _
    norm_num at this ⊢
    nlinarith
  generalize C ^ (2 * 2) * Real.sin (2 * Real.pi / T) / 3 = v2 at t1 hv2
  generalize C ^ (2 * 1) * Real.sin (2 * Real.pi / T) / 3 = v1 at r1 hv1
  have et : t = [0, 0, 0, v2] := by
    match t, hlt with
    | [x0, x1, x2, x3], _ =>
      have a0 := t0 0 (by norm_num)
      have a1 := t0 1 (by norm_num)
      have a2 := t0 2 (by norm_num)
      simp only [List.getElem?_cons_zero, List.getElem?_cons_succ, Option.some.injEq] at a0 a1 a2 t1
      rw [a0, a1, a2, t1]
  obtain ⟨w, er⟩ : ∃ w, r = [0, 0, v1, w] := by
    match r, hlr with
    | [x0, x1, x2, x3], _ =>
      have a0 := r0 0 (by norm_num)
      have a1 := r0 1 (by norm_num)
      simp only [List.getElem?_cons_zero, List.getElem?_cons_succ, Option.some.injEq] at a0 a1 r1
      exact ⟨x3, by rw [a0, a1, r1]⟩
  subst et
  subst er
  have habs : ∀ v : ℝ, 1 / 1000 ≤ v → (1 / 10 ^ 8 : ℝ) < |v| := fun v hv => by rw [abs_of_nonneg (by linarith)]; norm_num at *; linarith
  have h0 : ¬ (1 / 10 ^ 8 : ℝ) < |0| := by rw [abs_zero]; norm_num
  have ft : firstNonZero [0, 0, 0, v2] = 3 := by
    unfold firstNonZero
    simp only [List.findIdx?_cons, h0, decide_false, Bool.false_eq_true, if_false, habs v2 hv2, decide_true, if_true]
    rfl
  have fr : firstNonZero [0, 0, v1, w] = 2 := by
    unfold firstNonZero
    simp only [List.findIdx?_cons, h0, decide_false, Bool.false_eq_true, if_false, habs v1 hv1, decide_true, if_true]
    rfl
  unfold fdtdPoint
  rw [if_neg (show ¬ emptyGrid.sf ≤ 0 by show ¬ 1 ≤ 0; norm_num)]
  have hchk : checkTimesteps (emptyRun fs sc) (sliceEntries emptyGrid 0) = .ok () := by
    unfold checkTimesteps
    rw [if_neg (by simp [emptyRun, emptyFdtd]), if_neg (by simp [sliceEntries, emptyGrid]), if_neg]
    rintro (h | h)
    · revert h; simp [sliceEntries, emptyGrid]
    · have := h (some 1) (by simp [sliceEntries, emptyGrid]) 1 rfl
      norm_num at this
  rw [hchk, ok_bind, C66_signals _ 10 (empty_setup fs sc) wl (layerEps emptyGrid 0) (by simp [layerEps, emptyGrid, emptyRun, emptyFdtd]) (by simp [layerEps, emptyGrid]), hsim, ok_bind, ok_bind]
  have hw : 30 ≤ (windowSize (emptyRun fs sc).minGp wl).toNat := by
    have : (30 : ℤ) ≤ windowSize (10 : ℝ) wl := by
      unfold windowSize
      have h30 : (30 : ℝ) ≤ 3 * 10 * (wl / (1 / 10 ^ 6)) := by
        rw [div_div_eq_mul_div, div_one]
        norm_num
        linarith
      rw [pyTrunc_of_nonneg (by linarith)]
      exact Int.le_floor.2 (by push_cast; exact h30)
    show 30 ≤ (windowSize (10 : ℝ) wl).toNat
    omega
  refine coefficients_empty _ _ _ (v2 ^ 2 / 2) ((max v1 w) ^ 2 / 2) (by simp) (by simp; omega) (by simp; omega) ?_ ?_ ?_ ?_ ?_ ?_
  · unfold checkAllZero meanSquare
    rw [if_neg]
    rintro ⟨-, hle⟩
    simp only [List.map_cons, List.map_nil, List.sum_cons, List.sum_nil, List.length_cons, List.length_nil] at hle
    norm_num at hle
    nlinarith
  · unfold checkAllZero meanSquare
    rw [if_neg]
    rintro ⟨-, hle⟩
    simp only [List.map_cons, List.map_nil, List.sum_cons, List.sum_nil, List.length_cons, List.length_nil] at hle
    norm_num at hle
    nlinarith [sq_nonneg w]
  · rw [ft]
    unfold peakPower
    rw [findPeaks_short _ (by simp)]
    rfl
  · rw [fr]
    unfold peakPower
    rw [findPeaks_short _ (by simp)]
    rfl
  · have : 0 < v2 := by linarith
    positivity
  · have : 0 < max v1 w := lt_of_lt_of_le (by linarith) (le_max_left v1 w)
    positivity

/-- C66, end to end: there is an accepted config for which the FDTD solver returns reflection 0 and transmission 1 for an empty structure, exactly. -/
theorem C66_accepted : validateConfig emptyConfig = .ok () ∧ ReadsAs emptyConfig emptyFdtd ∧ ∃ c', computeSpectrumFdtd emptyGrid emptyFdtd = .ok (([0], [1]), c') := by
  refine ⟨emptyConfig_accepted, emptyConfig_reads, ?_⟩
  obtain ⟨wls, fs, fc, hfp, hwl, -, -, -, hin, hfc, -⟩ := C03_frequency_points emptyFdtd.freq (by norm_num [emptyFdtd]) (by norm_num [emptyFdtd]) (Or.inl rfl)
  have hone : wls.length = 1 := hwl
  obtain ⟨wl, rfl⟩ := List.length_eq_one_iff.1 hone
  have hb := hin wl (by simp)
  have hexp : expandThick { emptyFdtd with freq := fc } = emptyRun (some fs) none := by
    rw [hfc]
    unfold expandThick
    rw [if_neg (by simp [emptyFdtd])]
    rfl
  refine ⟨emptyRun (some fs) (some 10), ?_⟩
  unfold computeSpectrumFdtd
  rw [hfp, ok_bind, if_neg (by simp [emptyGrid])]
  simp only [hexp]
  have hs : gridScaling (emptyRun (some fs) none).freq.wlMin (emptyRun (some fs) none).minGp = .ok 10 := scaling_default
  rw [hs, ok_bind]
  have hloop : fdtdLoop { emptyRun (some fs) none with scaling := some 10 } 10 emptyGrid [wl] 0 [] [] = .ok ([0], [1]) := by
    show (fdtdPoint (emptyRun (some fs) (some 10)) 10 emptyGrid 0 wl >>= fun tr => fdtdLoop _ _ _ [] 1 _ _) = _
    rw [empty_point _ _ wl hb.1 hb.2, ok_bind]
    rfl
  rw [hloop, ok_bind]
  rfl

/-- the hypotheses of `C67_fdtd` are met by it -/
example : ∃ c', 0 < emptyFdtd.freq.wlMin ∧ emptyFdtd.freq.wlMin ≤ emptyFdtd.freq.wlMax ∧ emptyFdtd.freq.distribution = "linear" ∧ computeSpectrumFdtd emptyGrid emptyFdtd = .ok (([0], [1]), c') :=
  ⟨C66_accepted.2.2.choose, by norm_num [emptyFdtd], by norm_num [emptyFdtd], rfl, C66_accepted.2.2.choose_spec⟩

/-- and those of `C66_solver_partial` -/
example : LineSetup (emptyRun none none) 10 ∧ emptyGrid.sl = (emptyRun none none).thick.length ∧ (∀ l < emptyGrid.sl, emptyGrid.val 0 0 l 0 = some 1) ∧
    fdtdPoint (emptyRun none none) 10 emptyGrid 0 (1 / 1000000) = .ok (1, 0) :=
  ⟨empty_setup _ _, rfl, fun _ _ => rfl, empty_point _ _ _ (by norm_num) (by norm_num)⟩

/-- and those of `C92_arrival`, for the transmission detector (two cells from the source) and the reflection detector (one cell) -/
example : LineSetup (emptyRun none none) 10 ∧ (emptyRun none none).pulse = "continuous" ∧ 10 * (UNIT_MAGNITUDE / 10) ≤ 2 / 1000000 ∧
    (∀ det D, (det, D) = (tDetectorX (emptyRun none none) 10, 2) ∨ (det, D) = (rDetectorX (emptyRun none none) 10, 1) → |det - sourceCell (emptyRun none none) 10| = (D : ℕ) ∧
      ((D + 2 : ℕ) : ℤ) ≤ det - pmlCells (emptyRun none none) 10 + 1 ∧ ((D + 2 : ℕ) : ℤ) ≤ xSize (emptyRun none none) 10 - pmlCells (emptyRun none none) 10 - det ∧ ((D + 2 : ℕ) : ℤ) ≤ (emptyRun none none).niter) := by
  obtain ⟨c1, c2, c3, c4, c5⟩ := empty_cells none none
  refine ⟨empty_setup _ _, rfl, by norm_num [UNIT_MAGNITUDE], ?_⟩
  rw [c1, c2, c3, c4, c5]
  rintro det D (h | h) <;> obtain ⟨rfl, rfl⟩ := Prod.mk.inj h <;> exact ⟨rfl, by norm_num, by norm_num, by show _ ≤ (4 : ℤ); norm_num⟩

end Nidn
