/-
Properties C01 - C04: unit conversions and frequency points.
-/
import Verif.Lemmas.Units

namespace Nidn

/-! ## C01 unit conversions -/

/-- C01: frequency and unit wavelength are reciprocal, so converting there and back is the identity. -/
theorem C01_freq_wl_roundtrip (f : ℝ) (hf : f ≠ 0) :
    ∃ w, freqToWl f = .ok w ∧ f * w = 1 ∧ freqToWl w = .ok f := by
  refine ⟨1.0 / f, by simp [freqToWl, pyDiv, hf], by field_simp; norm_num, ?_⟩
  have h : (1.0 : ℝ) / f ≠ 0 := by norm_num [hf]
  rw [freqToWl, pyDiv_ok h]; congr 1; norm_num

example : ∃ w, freqToWl 2 = .ok w ∧ (2 : ℝ) * w = 1 ∧ freqToWl w = .ok 2 :=
  C01_freq_wl_roundtrip 2 (by norm_num)

/-- C01: physical frequency and physical wavelength multiply to the speed of light, and convert back to each other. -/
theorem C01_phys_freq_wl_roundtrip (f : ℝ) (hf : f ≠ 0) :
    ∃ w, physFreqToPhysWl f = .ok w ∧ f * w = 299792458 ∧ physFreqToPhysWl w = .ok f := by
  have hc : SPEED_OF_LIGHT ≠ 0 := by unfold SPEED_OF_LIGHT; norm_num
  refine ⟨SPEED_OF_LIGHT / f, by simp [physFreqToPhysWl, pyDiv, hf], ?_, ?_⟩
  · field_simp; unfold SPEED_OF_LIGHT; norm_num
  · rw [physFreqToPhysWl, pyDiv_ok (div_ne_zero hc hf)]; congr 1; field_simp

example : ∃ w, physFreqToPhysWl 3e14 = .ok w ∧ (3e14 : ℝ) * w = 299792458 ∧ physFreqToPhysWl w = .ok 3e14 :=
  C01_phys_freq_wl_roundtrip 3e14 (by norm_num)

/-- C01: a zero frequency or wavelength is an error in both reciprocal conversions. -/
theorem C01_zero_is_error :
    freqToWl 0 = .error .zeroDivisionError ∧ physFreqToPhysWl 0 = .error .zeroDivisionError := by
  simp [freqToWl, physFreqToPhysWl, pyDiv]

/-- C01: metres and micrometres convert back and forth without change; one unit is 1e-6 m. -/
theorem C01_phys_wl_roundtrip (x : ℝ) :
    wlToPhysWl (physWlToWl x) = x ∧ physWlToWl (wlToPhysWl x) = x ∧ wlToPhysWl x = x * (1 / 1000000) := by
  have h := unit_pos.ne'
  refine ⟨by unfold wlToPhysWl physWlToWl; field_simp, by unfold wlToPhysWl physWlToWl; field_simp, ?_⟩
  unfold wlToPhysWl UNIT_MAGNITUDE; norm_num

/-! ## C02 target frequencies -/

/-- The properties of a sampled band that do not depend on the kind of spacing. -/
structure SamplesBand (lo hi : ℝ) (n : ℕ) (fs : List ℝ) : Prop where
  length : fs.length = n
  ascending : fs.Pairwise (· ≤ ·)
  inside : ∀ f ∈ fs, lo ≤ f ∧ f ≤ hi
  first : ∀ _ : 1 ≤ n, fs[0]? = some lo
  last : ∀ _ : 2 ≤ n, fs[n - 1]? = some hi

lemma band_edges {minWl maxWl : ℝ} (h0 : 0 < minWl) (h1 : minWl ≤ maxWl) :
    freqToWl (physWlToWl minWl) = .ok (1e-6 / minWl) ∧ freqToWl (physWlToWl maxWl) = .ok (1e-6 / maxWl) ∧
    0 < 1e-6 / maxWl ∧ (1e-6 : ℝ) / maxWl ≤ 1e-6 / minWl := by
  have hu := unit_pos
  have hm : 0 < maxWl := lt_of_lt_of_le h0 h1
  refine ⟨?_, ?_, by positivity, ?_⟩
  · rw [freqToWl, pyDiv_ok (by unfold physWlToWl; positivity)]
    unfold physWlToWl UNIT_MAGNITUDE; congr 1; field_simp; norm_num
  · rw [freqToWl, pyDiv_ok (by unfold physWlToWl; positivity)]
    unfold physWlToWl UNIT_MAGNITUDE; congr 1; field_simp; norm_num
  · gcongr

lemma linspace_samples {a b : ℝ} (hab : a ≤ b) (n : ℕ) : SamplesBand a b n (npLinspace a b n) where
  length := npLinspace_length a b n
  ascending := npLinspace_mono hab n
  inside := fun _ hf => npLinspace_mem hab hf
  first := fun h => by
    rw [List.getElem?_eq_getElem (by rw [npLinspace_length]; omega), npLinspace_first]
  last := fun h => by
    rw [List.getElem?_eq_getElem (by rw [npLinspace_length]; omega), npLinspace_last a b h]

/-- C02 (linear): `N_freq` ascending frequencies inside the band, both band edges attained, all gaps equal. -/
theorem C02_linear (minWl maxWl : ℝ) (n : ℕ) (h0 : 0 < minWl) (h1 : minWl ≤ maxWl) :
    ∃ fs, computeTargetFrequencies minWl maxWl n "linear" = .ok fs ∧
      SamplesBand (1e-6 / maxWl) (1e-6 / minWl) n fs ∧
      ∀ i (h : i + 2 < fs.length), fs[i + 2] - fs[i + 1] = fs[i + 1] - fs[i] := by
  obtain ⟨e1, e2, -, hle⟩ := band_edges h0 h1
  refine ⟨npLinspace (1e-6 / maxWl) (1e-6 / minWl) n, ?_, linspace_samples hle n, ?_⟩
  · simp only [computeTargetFrequencies, e1, e2, bind, Except.bind, pure, Except.pure, if_true]
    rw [List.Pairwise.insertionSort_eq (npLinspace_mono hle n)]
  · intro i h
    rw [npLinspace_step _ _ _ (i + 1) (by omega), npLinspace_step _ _ _ i (by omega)]

example : ∃ fs, computeTargetFrequencies 1e-6 2e-6 3 "linear" = .ok fs ∧
    SamplesBand (1e-6 / 2e-6) (1e-6 / 1e-6) 3 fs ∧
    ∀ i (h : i + 2 < fs.length), fs[i + 2] - fs[i + 1] = fs[i + 1] - fs[i] :=
  C02_linear 1e-6 2e-6 3 (by norm_num) (by norm_num)

lemma logspace_samples {a b : ℝ} (ha : 0 < a) (hab : a ≤ b) (n : ℕ) :
    SamplesBand a b n (npLogspace (Real.logb 10 a) (Real.logb 10 b) n) := by
  have hb : 0 < b := lt_of_lt_of_le ha hab
  have hl : Real.logb 10 a ≤ Real.logb 10 b := Real.logb_le_logb_of_le (by norm_num) ha hab
  have hs := linspace_samples hl n
  have ea : (10 : ℝ) ^ Real.logb 10 a = a := Real.rpow_logb (by norm_num) (by norm_num) ha
  have eb : (10 : ℝ) ^ Real.logb 10 b = b := Real.rpow_logb (by norm_num) (by norm_num) hb
  refine ⟨by simp [npLogspace, hs.length], ?_, ?_, ?_, ?_⟩
  · unfold npLogspace
    rw [List.pairwise_map]
    refine hs.ascending.imp ?_
    intro x y hxy
    exact Real.rpow_le_rpow_of_exponent_le (by norm_num) hxy
  · intro f hf
    unfold npLogspace at hf
    obtain ⟨x, hx, rfl⟩ := List.mem_map.1 hf
    have := hs.inside x hx
    constructor
    · calc a = (10 : ℝ) ^ Real.logb 10 a := ea.symm
        _ ≤ _ := Real.rpow_le_rpow_of_exponent_le (by norm_num) this.1
    · calc _ ≤ (10 : ℝ) ^ Real.logb 10 b := Real.rpow_le_rpow_of_exponent_le (by norm_num) this.2
        _ = b := eb
  · intro h; simp [npLogspace, hs.first h, ea]
  · intro h; simp [npLogspace, hs.last h, eb]

/-- C02 (log): `N_freq` ascending frequencies inside the band, both band edges attained, constant ratio. -/
theorem C02_log (minWl maxWl : ℝ) (n : ℕ) (h0 : 0 < minWl) (h1 : minWl ≤ maxWl) :
    ∃ fs, computeTargetFrequencies minWl maxWl n "log" = .ok fs ∧
      SamplesBand (1e-6 / maxWl) (1e-6 / minWl) n fs ∧
      ∀ i (h : i + 2 < fs.length), fs[i + 2] / fs[i + 1] = fs[i + 1] / fs[i] := by
  obtain ⟨e1, e2, hp, hle⟩ := band_edges h0 h1
  have hs := logspace_samples hp hle n
  refine ⟨_, ?_, hs, ?_⟩
  · simp only [computeTargetFrequencies, e1, e2, bind, Except.bind, pure, Except.pure, if_true,
      String.reduceEq, if_false, not_le.2 hp, not_le.2 (lt_of_lt_of_le hp hle), or_self]
    rw [List.Pairwise.insertionSort_eq hs.ascending]
  · intro i h
    simp only [npLogspace, List.getElem_map]
    rw [← Real.rpow_sub (by norm_num), ← Real.rpow_sub (by norm_num)]
    congr 1
    simp only [npLogspace, List.length_map] at h
    rw [npLinspace_step _ _ _ (i + 1) (by omega), npLinspace_step _ _ _ i (by omega)]

example : ∃ fs, computeTargetFrequencies 1e-6 2e-6 3 "log" = .ok fs ∧
    SamplesBand (1e-6 / 2e-6) (1e-6 / 1e-6) 3 fs ∧
    ∀ i (h : i + 2 < fs.length), fs[i + 2] / fs[i + 1] = fs[i + 1] / fs[i] :=
  C02_log 1e-6 2e-6 3 (by norm_num) (by norm_num)

/-- C02: every other distribution name is a ValueError. -/
theorem C02_unknown_distribution (minWl maxWl : ℝ) (n : ℕ) (d : String) (h0 : minWl ≠ 0) (h1 : maxWl ≠ 0)
    (hl : d ≠ "linear") (hg : d ≠ "log") :
    computeTargetFrequencies minWl maxWl n d = .error .valueError := by
  have hu := unit_pos.ne'
  simp only [computeTargetFrequencies, freqToWl, physWlToWl, pyDiv_ok (div_ne_zero h0 hu),
    pyDiv_ok (div_ne_zero h1 hu), bind, Except.bind, if_neg hl, if_neg hg]

example : computeTargetFrequencies 1e-6 2e-6 3 "quadratic" = .error .valueError :=
  C02_unknown_distribution _ _ _ _ (by norm_num) (by norm_num) (by decide) (by decide)

/-! ## C03 frequency points -/

lemma C02_any (minWl maxWl : ℝ) (n : ℕ) (d : String) (h0 : 0 < minWl) (h1 : minWl ≤ maxWl)
    (hd : d = "linear" ∨ d = "log") :
    ∃ fs, computeTargetFrequencies minWl maxWl n d = .ok fs ∧
      SamplesBand (1e-6 / maxWl) (1e-6 / minWl) n fs := by
  rcases hd with rfl | rfl
  · obtain ⟨fs, h, hs, -⟩ := C02_linear minWl maxWl n h0 h1; exact ⟨fs, h, hs⟩
  · obtain ⟨fs, h, hs, -⟩ := C02_log minWl maxWl n h0 h1; exact ⟨fs, h, hs⟩

/-- C03: `get_frequency_points` succeeds; wavelengths (in metres) and frequencies correspond entry by entry
(`wl * f = 1e-6`), wavelengths are descending and inside the user's range, there are `N_freq` of each, the frequencies are
stored in the config, every other entry is untouched, and a second call returns the same and changes nothing more. -/
theorem C03_frequency_points (c : FreqCfg) (h0 : 0 < c.wlMin) (h1 : c.wlMin ≤ c.wlMax)
    (hd : c.distribution = "linear" ∨ c.distribution = "log") :
    ∃ wls fs c', getFrequencyPoints c = .ok (wls, fs, c') ∧
      wls.length = c.nFreq ∧ fs.length = c.nFreq ∧
      (∀ i (h : i < wls.length) (h' : i < fs.length), wls[i] * fs[i] = 1e-6) ∧
      wls.Pairwise (· ≥ ·) ∧ (∀ w ∈ wls, c.wlMin ≤ w ∧ w ≤ c.wlMax) ∧
      c' = { c with targetFrequencies := some fs } ∧
      getFrequencyPoints c' = .ok (wls, fs, c') := by
  obtain ⟨fs, hfs, hs⟩ := C02_any c.wlMin c.wlMax c.nFreq c.distribution h0 h1 hd
  obtain ⟨-, -, hp, hle⟩ := band_edges h0 h1
  have hm : 0 < c.wlMax := lt_of_lt_of_le h0 h1
  have hpos : ∀ f ∈ fs, 0 < f := fun f hf => lt_of_lt_of_le hp (hs.inside f hf).1
  have hz : ¬ (0 : ℝ) ∈ fs := fun h => lt_irrefl _ (hpos 0 h)
  refine ⟨fs.map (fun f => wlToPhysWl (1.0 / f)), fs, { c with targetFrequencies := some fs }, ?_, ?_, hs.length,
    ?_, ?_, ?_, rfl, ?_⟩
  · simp [getFrequencyPoints, hfs, bind, Except.bind, hz, pure, Except.pure]
  · simp [hs.length]
  · intro i h h'
    have := hpos _ (List.getElem_mem h')
    simp only [List.getElem_map, wlToPhysWl, UNIT_MAGNITUDE]
    field_simp; norm_num
  · rw [List.pairwise_map]
    refine List.Pairwise.imp_of_mem ?_ hs.ascending
    intro x y hx hy hxy
    have hx := hpos x hx
    have := unit_pos
    unfold wlToPhysWl
    show (1.0 / y) * UNIT_MAGNITUDE ≤ (1.0 / x) * UNIT_MAGNITUDE
    gcongr
  · intro w hw
    obtain ⟨f, hf, rfl⟩ := List.mem_map.1 hw
    have hfp := hpos f hf
    have := hs.inside f hf
    rw [div_le_iff₀ hm, le_div_iff₀ h0] at this
    have e : wlToPhysWl (1.0 / f) = 1e-6 / f := by unfold wlToPhysWl UNIT_MAGNITUDE; field_simp; norm_num
    rw [e, le_div_iff₀ hfp, div_le_iff₀ hfp]
    constructor <;> linarith
  · simp [getFrequencyPoints, hfs, bind, Except.bind, hz, pure, Except.pure]

/-- A concrete config meeting the hypotheses of the C03/C04 theorems. -/
noncomputable def sampleFreqCfg : FreqCfg := ⟨1e-6, 2e-6, 2, "linear", none⟩

example : 0 < sampleFreqCfg.wlMin ∧ sampleFreqCfg.wlMin ≤ sampleFreqCfg.wlMax ∧
    sampleFreqCfg.distribution = "linear" := by norm_num [sampleFreqCfg]

/-! ## C04 order of the target spectra -/

/-- C04 is false of the code: the points at which the target spectra are compared are not listed
from low to high wavelength (nidn/utils/resources/default_config.toml says they are). -/
theorem C04_low_to_high_false :
    ¬ ∀ (c c' : FreqCfg) (wls fs : List ℝ), 0 < c.wlMin → c.wlMin < c.wlMax →
        getFrequencyPoints c = .ok (wls, fs, c') → wls.Pairwise (· ≤ ·) := by
  intro H
  have a0 : 0 < sampleFreqCfg.wlMin := by norm_num [sampleFreqCfg]
  have a1 : sampleFreqCfg.wlMin < sampleFreqCfg.wlMax := by norm_num [sampleFreqCfg]
  obtain ⟨fs, hfs, hs⟩ := C02_any sampleFreqCfg.wlMin sampleFreqCfg.wlMax sampleFreqCfg.nFreq
    sampleFreqCfg.distribution a0 a1.le (.inl rfl)
  obtain ⟨wls, fs', c', h, hl, hl', hprod, -, -, -, -⟩ := C03_frequency_points sampleFreqCfg a0 a1.le (.inl rfl)
  have hasc := H _ _ _ _ a0 a1 h
  have e : fs' = fs := by
    simp only [getFrequencyPoints, hfs, bind, Except.bind] at h
    split at h
    · cases h
    · simp only [pure, Except.pure, Except.ok.injEq, Prod.mk.injEq] at h; exact h.2.1.symm
  subst e
  have f0 := hs.first (by norm_num [sampleFreqCfg])
  have f1 := hs.last (by norm_num [sampleFreqCfg])
  have hn : sampleFreqCfg.nFreq = 2 := rfl
  rw [hn] at f1 hl hl'
  have g0 := hprod 0 (by omega) (by omega)
  have g1 := hprod 1 (by omega) (by omega)
  have hw := (List.pairwise_iff_getElem.1 hasc) 0 1 (by omega) (by omega) (by omega)
  have k0 : fs'[0]'(by omega) = 1e-6 / sampleFreqCfg.wlMax := by
    rw [List.getElem?_eq_getElem (by omega)] at f0; exact Option.some.inj f0
  have k1 : fs'[1]'(by omega) = 1e-6 / sampleFreqCfg.wlMin := by
    rw [List.getElem?_eq_getElem (by omega)] at f1; exact Option.some.inj f1
  rw [k0] at g0; rw [k1] at g1
  norm_num [sampleFreqCfg] at g0 g1
  linarith

/-- C04 (what holds instead, missing: the documented direction): for every accepted band with at least two points entry 0 is the
largest wavelength of the band, the last entry the smallest, i.e. target spectra must be given from high to low wavelength. -/
theorem C04_high_to_low_partial (c : FreqCfg) (h0 : 0 < c.wlMin) (h1 : c.wlMin < c.wlMax) (hn : 2 ≤ c.nFreq)
    (hd : c.distribution = "linear" ∨ c.distribution = "log") :
    ∃ wls fs c', getFrequencyPoints c = .ok (wls, fs, c') ∧
      wls[0]? = some c.wlMax ∧ wls[c.nFreq - 1]? = some c.wlMin ∧ wls.Pairwise (· ≥ ·) := by
  obtain ⟨fs, hfs, hs⟩ := C02_any c.wlMin c.wlMax c.nFreq c.distribution h0 h1.le hd
  obtain ⟨wls, fs', c', h, hl, hl', hprod, hdesc, -, -, -⟩ := C03_frequency_points c h0 h1.le hd
  have e : fs' = fs := by
    simp only [getFrequencyPoints, hfs, bind, Except.bind] at h
    split at h
    · cases h
    · simp only [pure, Except.pure, Except.ok.injEq, Prod.mk.injEq] at h; exact h.2.1.symm
  subst e
  have hm : 0 < c.wlMax := h0.trans h1
  have f0 := hs.first (by omega)
  have f1 := hs.last hn
  have g0 := hprod 0 (by omega) (by omega)
  have g1 := hprod (c.nFreq - 1) (by omega) (by omega)
  rw [List.getElem?_eq_getElem (by omega)] at f0 f1
  rw [Option.some.inj f0] at g0
  rw [Option.some.inj f1] at g1
  refine ⟨wls, fs', c', h, ?_, ?_, hdesc⟩
  · rw [List.getElem?_eq_getElem (by omega)]; congr 1; field_simp at g0; linarith
  · rw [List.getElem?_eq_getElem (by omega)]; congr 1; field_simp at g1; linarith

example : sampleFreqCfg.wlMin < sampleFreqCfg.wlMax ∧ 2 ≤ sampleFreqCfg.nFreq := by norm_num [sampleFreqCfg]

end Nidn
