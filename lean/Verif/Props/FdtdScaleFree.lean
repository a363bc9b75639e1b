/-
C164: only the ratios of the lengths to the wavelength matter to the FDTD spectra.
-/
import Verif.Model.FdtdIntegration
import Verif.Lemmas.Py
import Mathlib.Analysis.Real.Pi.Bounds

namespace Nidn

noncomputable section

/-! ### the scaled configuration -/

/-- frequencies and wavelengths of the scaled problem -/
def FreqCfg.scaled (k : ℝ) (c : FreqCfg) : FreqCfg :=
  { c with wlMin := c.wlMin * k, wlMax := c.wlMax * k, targetFrequencies := c.targetFrequencies.map fun l => l.map (· / k) }

/-- every length is multiplied by `k`; the numbers of grid points per length are divided by it -/
def FdtdCfg.scaled (k : ℝ) (c : FdtdCfg) : FdtdCfg :=
  { c with
    freq := c.freq.scaled k
    minGp := c.minGp / k
    pml := c.pml * k
    free := c.free * k
    thick := c.thick.map (· * k)
    source := c.source.map (· * k)
    scaling := c.scaling.map (· / k) }

/-! ### frequencies -/

lemma npLinspace_div (a b k : ℝ) (n : ℕ) : npLinspace (a / k) (b / k) n = (npLinspace a b n).map (· / k) := by
  simp only [npLinspace, List.map_map]
  refine List.map_congr_left fun i _ => ?_
  simp only [Function.comp]
  split
  · rfl
  · rw [← sub_div, div_right_comm, ← mul_div_assoc, ← add_div]

lemma npLinspace_sub (a b t : ℝ) (n : ℕ) : npLinspace (a - t) (b - t) n = (npLinspace a b n).map (· - t) := by
  simp only [npLinspace, List.map_map]
  refine List.map_congr_left fun i _ => ?_
  simp only [Function.comp]
  split
  · rfl
  · rw [sub_sub_sub_cancel_right]; ring

lemma npLogspace_div {a b k : ℝ} (ha : 0 < a) (hb : 0 < b) (hk : 0 < k) (n : ℕ) :
    npLogspace (Real.logb 10 (a / k)) (Real.logb 10 (b / k)) n = (npLogspace (Real.logb 10 a) (Real.logb 10 b) n).map (· / k) := by
  rw [Real.logb_div ha.ne' hk.ne', Real.logb_div hb.ne' hk.ne', npLogspace, npLinspace_sub]
  simp only [npLogspace, List.map_map]
  refine List.map_congr_left fun x _ => ?_
  simp only [Function.comp]
  rw [Real.rpow_sub (by norm_num), Real.rpow_logb (by norm_num) (by norm_num) hk]

lemma freqToWl_scaled {k : ℝ} (hk : 0 < k) (a : ℝ) : freqToWl (physWlToWl (a * k)) = (freqToWl (physWlToWl a)).map (· / k) := by
  unfold freqToWl physWlToWl pyDiv
  have : a * k / UNIT_MAGNITUDE = a / UNIT_MAGNITUDE * k := by ring
  rw [this]
  by_cases h : a / UNIT_MAGNITUDE = 0
  · rw [if_pos h, if_pos (by rw [h, zero_mul])]; rfl
  · rw [if_neg h, if_neg (mul_ne_zero h hk.ne')]
    simp only [Except.map]
    rw [div_mul_eq_div_div]

lemma targetFrequencies_scaled {k : ℝ} (hk : 0 < k) (a b : ℝ) (n : ℕ) (d : String) :
    computeTargetFrequencies (a * k) (b * k) n d = (computeTargetFrequencies a b n d).map fun l => l.map (· / k) := by
  have hsort : ∀ l : List ℝ, (l.map (· / k)).insertionSort (· ≤ ·) = (l.insertionSort (· ≤ ·)).map (· / k) := fun l =>
    (List.map_insertionSort (r := (· ≤ ·)) (s := (· ≤ ·)) (· / k) l fun x _ y _ => (div_le_div_iff_of_pos_right hk).symm).symm
  unfold computeTargetFrequencies
  rw [freqToWl_scaled hk, freqToWl_scaled hk]
  cases freqToWl (physWlToWl a) with
  | error e => rfl
  | ok x =>
    cases freqToWl (physWlToWl b) with
    | error e => rfl
    | ok y =>
      simp only [Except.map, ok_bind]
      by_cases h1 : d = "linear"
      · simp only [if_pos h1, npLinspace_div]
        simp only [pure_bind]
        rw [hsort]
        rfl
      · simp only [if_neg h1]
        by_cases h2 : d = "log"
        · simp only [if_pos h2]
          by_cases h3 : y ≤ 0 ∨ x ≤ 0
          · rw [if_pos h3, if_pos (h3.imp (fun h => div_nonpos_of_nonpos_of_nonneg h hk.le) fun h => div_nonpos_of_nonpos_of_nonneg h hk.le)]
            rfl
          · rw [if_neg h3, if_neg (fun h => h3 (h.imp (fun h => by
              by_contra h'; exact absurd h (not_le.2 (div_pos (not_le.1 h') hk))) fun h => by
              by_contra h'; exact absurd h (not_le.2 (div_pos (not_le.1 h') hk))))]
            rw [npLogspace_div (not_le.1 fun h => h3 (.inl h)) (not_le.1 fun h => h3 (.inr h)) hk]
            simp only [pure_bind]
            rw [hsort]
            rfl
        · simp only [if_neg h2]
          rfl

lemma getFrequencyPoints_scaled {k : ℝ} (hk : 0 < k) (c : FreqCfg) :
    getFrequencyPoints (c.scaled k) = (getFrequencyPoints c).map fun r => (r.1.map (· * k), r.2.1.map (· / k), r.2.2.scaled k) := by
  unfold getFrequencyPoints
  simp only [FreqCfg.scaled]
  rw [targetFrequencies_scaled hk]
  cases computeTargetFrequencies c.wlMin c.wlMax c.nFreq c.distribution with
  | error e => rfl
  | ok tf =>
    simp only [Except.map, ok_bind]
    have h0 : (0 : ℝ) ∈ tf.map (· / k) ↔ (0 : ℝ) ∈ tf := by
      rw [List.mem_map]
      constructor
      · rintro ⟨x, hx, h⟩
        rcases div_eq_zero_iff.1 h with rfl | h
        · exact hx
        · exact absurd h hk.ne'
      · exact fun h => ⟨0, h, zero_div _⟩
    by_cases h : (0 : ℝ) ∈ tf
    · rw [if_pos h, if_pos (h0.2 h)]
    · rw [if_neg h, if_neg (h0.not.2 h)]
      have : (tf.map (· / k)).map (fun f => wlToPhysWl (1.0 / f)) = (tf.map fun f => wlToPhysWl (1.0 / f)).map (· * k) := by
        simp only [List.map_map]
        refine List.map_congr_left fun f _ => ?_
        simp only [Function.comp, wlToPhysWl]
        rw [div_div_eq_mul_div, mul_div_right_comm, mul_right_comm]
      rw [this]
      rfl

/-! ### geometry -/

lemma gridScaling_scaled {k : ℝ} (hk : 0 < k) (w m : ℝ) : gridScaling (w * k) (m / k) = (gridScaling w m).map (· / k) := by
  unfold gridScaling pyDiv
  rw [show w * k * 0.1 = w * 0.1 * k by ring]
  by_cases h : w * 0.1 = 0
  · rw [if_pos h, if_pos (by rw [h, zero_mul])]; rfl
  · rw [if_neg h, if_neg (mul_ne_zero h hk.ne')]
    simp only [Except.map]
    rw [div_mul_eq_div_div, max_div_div_right hk.le]

variable {k : ℝ}

lemma sum_scaled (l : List ℝ) (k : ℝ) : (l.map (· * k)).sum = l.sum * k := by
  induction l with
  | nil => simp
  | cons a l ih => rw [List.map_cons, List.sum_cons, List.sum_cons, ih, add_mul]

lemma xSize_scaled (hk : 0 < k) (c : FdtdCfg) (s : ℝ) : xSize (c.scaled k) (s / k) = xSize c s := by
  unfold xSize FdtdCfg.scaled
  congr 1
  simp only [sum_scaled]
  field_simp

lemma pmlCells_scaled (hk : 0 < k) (c : FdtdCfg) (s : ℝ) : pmlCells (c.scaled k) (s / k) = pmlCells c s := by
  unfold pmlCells FdtdCfg.scaled
  congr 1
  simp only []
  field_simp

lemma tDetectorX_scaled (hk : 0 < k) (c : FdtdCfg) (s : ℝ) : tDetectorX (c.scaled k) (s / k) = tDetectorX c s := by
  unfold tDetectorX FdtdCfg.scaled
  congr 1
  simp only [sum_scaled]
  field_simp

lemma rDetectorX_scaled (hk : 0 < k) (c : FdtdCfg) (s : ℝ) : rDetectorX (c.scaled k) (s / k) = rDetectorX c s := by
  unfold rDetectorX FdtdCfg.scaled
  congr 1
  simp only []
  field_simp

lemma sourceXY_scaled (hk : 0 < k) (c : FdtdCfg) (s : ℝ) : sourceXY (c.scaled k) (s / k) = sourceXY c s := by
  have h : ∀ x : ℝ, x * k * (s / k) = x * s := fun x => by field_simp
  unfold sourceXY FdtdCfg.scaled
  simp only [List.getElem?_map]
  cases c.source[0]? <;> cases c.source[1]? <;> simp [h]

lemma layerLoop_scaled (hk : 0 < k) (s : ℝ) (thick : List ℝ) (r : ℕ) : ∀ (i : ℕ) (xs xe : ℝ),
    layerLoop (s / k) (thick.map (· * k)) r i (xs * k) (xe * k) = layerLoop s thick r i xs xe := by
  have h : ∀ x : ℝ, s / k * (x * k) = s * x := fun x => by field_simp
  induction r with
  | zero => intros; rfl
  | succ r ih =>
    intro i xs xe
    cases r with
    | zero => simp only [layerLoop, h]
    | succ r =>
      simp only [layerLoop, List.getElem?_map]
      cases thick[i]? with
      | none => rfl
      | some a =>
        cases thick[i + 1]? with
        | none => rfl
        | some b =>
          simp only [Option.map_some]
          rw [← add_mul, ← add_mul, ih, h, h]

lemma layerRanges_scaled (hk : 0 < k) (c : FdtdCfg) (s : ℝ) (n : ℕ) : layerRanges (c.scaled k) (s / k) n = layerRanges c s n := by
  unfold layerRanges
  have : (c.scaled k).thick = c.thick.map (· * k) := rfl
  rw [this, List.getElem?_map]
  cases c.thick[0]? with
  | none => rfl
  | some t =>
    simp only [Option.map_some]
    have h2 : (c.scaled k).pml + (c.scaled k).free = (c.pml + c.free) * k := by simp only [FdtdCfg.scaled]; ring
    rw [h2, ← add_mul, layerLoop_scaled hk]

/-! ### one simulation -/

/-- the numbers of the scaled grid -/
def GridNumbers.scaled (k : ℝ) (g : GridNumbers) : GridNumbers := { g with spacing := g.spacing * k, timeStep := g.timeStep * k }

lemma gridInit_scaled (x y z : ℤ) (sp : ℝ) : gridInit [.int x, .int y, .int z] (sp * k) none = (gridInit [.int x, .int y, .int z] sp none).map (GridNumbers.scaled k) := by
  unfold gridInit
  simp only [handleTuple, handleDistance, ok_bind]
  cases maxCourant (gridDims (x, y, z)) with
  | error e => rfl
  | ok mx =>
    simp only [ok_bind, chooseCourant]
    split
    · rfl
    · simp only [Except.map, GridNumbers.scaled]
      congr 2
      ring

lemma handleTime_scaled (hk : 0 < k) (ts x : ℝ) : handleTime (ts * k) (.flt (x * k)) = handleTime ts (.flt x) := by
  simp only [handleTime]
  rw [mul_div_mul_right _ _ hk.ne']

lemma simSpec_val (wl : ℝ) (p : String) : (simSpec (wl * k) p).period.val = (simSpec wl p).period.val * k := by
  simp only [simSpec, PyNum.val]; ring

lemma gpw_scaled (hk : 0 < k) (g : GridNumbers) (wl : ℝ) (p : String) : (simSpec (wl * k) p).gpw (g.scaled k) = (simSpec wl p).gpw g := by
  unfold SourceSpec.gpw SourceSpec.frequency
  rw [simSpec_val]
  simp only [GridNumbers.scaled]
  rw [div_div_eq_mul_div, div_div_eq_mul_div, ← mul_assoc, div_one, div_one, mul_div_mul_right _ _ hk.ne']

lemma time_scaled (hk : 0 < k) (g : GridNumbers) (wl : ℝ) (p : String) :
    handleTime (g.scaled k).timeStep (simSpec (wl * k) p).period = handleTime g.timeStep (simSpec wl p).period := by
  simp only [GridNumbers.scaled, simSpec]
  rw [mul_div_right_comm, handleTime_scaled hk]

lemma pointSignal_scaled (hk : 0 < k) (g : GridNumbers) (wl : ℝ) {p : String} (hp : p ≠ "hanning") :
    pointSignal (g.scaled k) (simSpec (wl * k) p) = pointSignal g (simSpec wl p) := by
  funext q
  have h0 : (simSpec (wl * k) p).period.val = 0 ↔ (simSpec wl p).period.val = 0 := by
    rw [simSpec_val, mul_eq_zero, or_iff_left hk.ne']
  have h1 : ¬ (simSpec wl p).signal = "hanning" := hp
  have h2 : ¬ (simSpec (wl * k) p).signal = "hanning" := hp
  unfold pointSignal
  simp only [h0, if_neg h1, if_neg h2, gpw_scaled hk, time_scaled hk]
  rfl

lemma lineSignal_scaled (hk : 0 < k) (g : GridNumbers) (wl : ℝ) {p : String} (hp : p ≠ "hanning") :
    lineSignal (g.scaled k) (simSpec (wl * k) p) = lineSignal g (simSpec wl p) := by
  funext q
  have h0 : (simSpec (wl * k) p).period.val = 0 ↔ (simSpec wl p).period.val = 0 := by
    rw [simSpec_val, mul_eq_zero, or_iff_left hk.ne']
  have h1 : ¬ (simSpec wl p).signal = "hanning" := hp
  have h2 : ¬ (simSpec (wl * k) p).signal = "hanning" := hp
  unfold lineSignal
  simp only [h0, if_neg h1, if_neg h2, gpw_scaled hk, time_scaled hk]
  rfl

lemma placeSource_scaled (hk : 0 < k) (g : GridNumbers) (n : Pos) (x y : ℤ) (wl : ℝ) {p : String} (hp : p ≠ "hanning") (t : String) :
    placeSource (g.scaled k) n x y (wl * k) p t = placeSource g n x y wl p t := by
  unfold placeSource
  rw [pointSignal_scaled hk g wl hp, lineSignal_scaled hk g wl hp]
  rfl

lemma addLayer_scaled (hk : 0 < k) (g : GridNumbers) (n : Pos) (wl : ℝ) (m : Materials ℝ) (r : ℤ × ℤ) (e : ℂ) :
    addLayer (g.scaled k) n (wl * k) m r e = addLayer g n wl m r e := by
  have h : ∀ (a b : ℝ), a * (e.im * (SPEED_OF_LIGHT / (wl * k)) * 2 * Real.pi * EPS_0) * (g.spacing * k) * b = a * (e.im * (SPEED_OF_LIGHT / wl) * 2 * Real.pi * EPS_0) * g.spacing * b := by
    intro a b
    have : SPEED_OF_LIGHT / (wl * k) * k = SPEED_OF_LIGHT / wl := by rw [div_mul_eq_mul_div, mul_div_mul_right _ _ hk.ne']
    calc _ = a * (e.im * (SPEED_OF_LIGHT / (wl * k) * k) * 2 * Real.pi * EPS_0) * g.spacing * b := by ring
      _ = _ := by rw [this]
  have hw : ∀ kk r, writeAbsorb n g.courant (g.spacing * k) ETA_0 m e.re (e.im * (SPEED_OF_LIGHT / (wl * k)) * 2 * Real.pi * EPS_0) kk r =
      writeAbsorb n g.courant g.spacing ETA_0 m e.re (e.im * (SPEED_OF_LIGHT / wl) * 2 * Real.pi * EPS_0) kk r := by
    intro kk r
    funext p c
    unfold writeAbsorb
    rw [h]
  unfold addLayer objectPlace
  simp only [GridNumbers.scaled, hw]

lemma addLayers_scaled (hk : 0 < k) (g : GridNumbers) (n : Pos) (wl : ℝ) (l : List ((ℤ × ℤ) × ℂ)) : ∀ m : Materials ℝ,
    addLayers (g.scaled k) n (wl * k) m l = addLayers g n wl m l := by
  induction l with
  | nil => intro m; rfl
  | cons x l ih =>
    intro m
    simp only [addLayers, addLayer_scaled hk, ih]

lemma addStack_scaled (hk : 0 < k) (c : FdtdCfg) (s : ℝ) (g : GridNumbers) (n : Pos) (wl : ℝ) (m : Materials ℝ) (e : Option (List ℂ)) :
    addStack (c.scaled k) (s / k) (g.scaled k) n (wl * k) m e = addStack c s g n wl m e := by
  cases e with
  | none => rfl
  | some e => simp only [addStack, layerRanges_scaled hk, addLayers_scaled hk]

/-- the scaled simulation: the same grid of cells, other units -/
def Simulation.scaled (k : ℝ) (s : Simulation) : Simulation := { s with numbers := s.numbers.scaled k }

lemma initFdtd_scaled (hk : 0 < k) (c : FdtdCfg) (hp : c.pulse ≠ "hanning") (s : ℝ) (e : Option (List ℂ)) (wl : ℝ) :
    initFdtd (c.scaled k) (s / k) e (wl * k) = (initFdtd c s e wl).map (Simulation.scaled k) := by
  unfold initFdtd
  rw [xSize_scaled hk, pmlCells_scaled hk, tDetectorX_scaled hk, rDetectorX_scaled hk, sourceXY_scaled hk, div_div_eq_mul_div, mul_div_right_comm, gridInit_scaled]
  cases gridInit [.int (xSize c s), .int 3, .int 1] (UNIT_MAGNITUDE / s) none with
  | error e => rfl
  | ok g =>
    simp only [Except.map, ok_bind]
    have hc : (g.scaled k).courant = g.courant := rfl
    have h1 : (c.scaled k).pulse = c.pulse := rfl
    have h2 : (c.scaled k).sourceType = c.sourceType := rfl
    simp only [hc, h1, h2, placeSource_scaled hk g _ _ _ wl hp, addStack_scaled hk]
    cases placeBoundaries g.courant (pmlCells c s) with
    | error e => rfl
    | ok bs =>
      simp only [ok_bind]
      cases placeDetector ![(xSize c s).toNat, 3, 1] (tDetectorX c s) with
      | error e => rfl
      | ok t =>
        simp only [ok_bind]
        cases placeDetector ![(xSize c s).toNat, 3, 1] (rDetectorX c s) with
        | error e => rfl
        | ok r =>
          simp only [ok_bind]
          cases sourceXY c s with
          | error e => rfl
          | ok xy =>
            simp only [ok_bind]
            cases placeSource g ![(xSize c s).toNat, 3, 1] xy.1 xy.2 wl c.pulse c.sourceType with
            | error e => rfl
            | ok src =>
              simp only [ok_bind]
              cases addStack c s g ![(xSize c s).toNat, 3, 1] wl ⟨fun _ _ => 1 / 1, fun _ _ => 0⟩ e with
              | error e => rfl
              | ok m => rfl

lemma simulate_scaled (hk : 0 < k) (c : FdtdCfg) (hp : c.pulse ≠ "hanning") (s : ℝ) (e : Option (List ℂ)) (wl : ℝ) :
    simulate (c.scaled k) (s / k) e (wl * k) = simulate c s e wl := by
  unfold simulate
  rw [initFdtd_scaled hk c hp]
  cases initFdtd c s e wl with
  | error e => rfl
  | ok sim => rfl

/-! ### the spectra -/

lemma windowSize_scaled (hk : 0 < k) (m wl : ℝ) : windowSize (m / k) (wl * k) = windowSize m wl := by
  unfold windowSize
  congr 1
  field_simp

lemma checkTimesteps_scaled (c : FdtdCfg) (l : List (Option ℂ)) : checkTimesteps (c.scaled k) l = checkTimesteps c l := by
  unfold checkTimesteps
  have : (c.scaled k).thick = [] ↔ c.thick = [] := List.map_eq_nil_iff
  simp only [this]

lemma fdtdPoint_scaled (hk : 0 < k) (c : FdtdCfg) (hp : c.pulse ≠ "hanning") (s : ℝ) (g : Grid4 ℂ) (i : ℕ) (wl : ℝ) :
    fdtdPoint (c.scaled k) (s / k) g i (wl * k) = fdtdPoint c s g i wl := by
  unfold fdtdPoint
  have : (c.scaled k).minGp = c.minGp / k := rfl
  simp only [checkTimesteps_scaled, simulate_scaled hk c hp, this, windowSize_scaled hk]

lemma fdtdLoop_scaled (hk : 0 < k) (c : FdtdCfg) (hp : c.pulse ≠ "hanning") (s : ℝ) (g : Grid4 ℂ) (wls : List ℝ) : ∀ (i : ℕ) (rs ts : List ℝ),
    fdtdLoop (c.scaled k) (s / k) g (wls.map (· * k)) i rs ts = fdtdLoop c s g wls i rs ts := by
  induction wls with
  | nil => intros; rfl
  | cons wl wls ih =>
    intro i rs ts
    simp only [List.map_cons, fdtdLoop, fdtdPoint_scaled hk c hp, ih]

lemma expandThick_scaled (c : FdtdCfg) : expandThick (c.scaled k) = (expandThick c).scaled k := by
  unfold expandThick
  have h1 : (c.scaled k).thick.length = c.thick.length := List.length_map ..
  have h2 : (c.scaled k).nLayers = c.nLayers := rfl
  rw [h1, h2]
  split
  · simp [FdtdCfg.scaled, List.map_flatten]
  · rfl

/-- C164: multiply every length in the configuration - thickness of the layers, of the free space and of the absorbing layers, position of the source, wavelength range - by a factor, and divide the smallest number of grid points per
length by it: the two spectra (or the error) are the same, and the configuration is left as the scaled one. -/
theorem C164_spectra (hk : 0 < k) (g : Grid4 ℂ) (c : FdtdCfg) (hp : c.pulse ≠ "hanning") :
    computeSpectrumFdtd g (c.scaled k) = (computeSpectrumFdtd g c).map fun r => (r.1, r.2.scaled k) := by
  unfold computeSpectrumFdtd
  have hf : (c.scaled k).freq = c.freq.scaled k := rfl
  rw [hf, getFrequencyPoints_scaled hk]
  cases getFrequencyPoints c.freq with
  | error e => rfl
  | ok fp =>
    simp only [Except.map, ok_bind]
    split
    · rfl
    · have h1 : ({ c.scaled k with freq := fp.2.2.scaled k } : FdtdCfg) = ({ c with freq := fp.2.2 } : FdtdCfg).scaled k := rfl
      rw [h1, expandThick_scaled]
      have hp1 : (expandThick { c with freq := fp.2.2 }).pulse = c.pulse := by unfold expandThick; split <;> rfl
      generalize expandThick { c with freq := fp.2.2 } = c1 at hp1
      have h2 : (c1.scaled k).freq.wlMin = c1.freq.wlMin * k := rfl
      have h3 : (c1.scaled k).minGp = c1.minGp / k := rfl
      rw [h2, h3, gridScaling_scaled hk]
      cases gridScaling c1.freq.wlMin c1.minGp with
      | error e => rfl
      | ok s =>
        simp only [Except.map, ok_bind]
        change (do
          let rt ← fdtdLoop (FdtdCfg.scaled k { c1 with scaling := some s }) (s / k) g (fp.1.map (· * k)) 0 [] []
          Except.ok (rt, FdtdCfg.scaled k { c1 with scaling := some s })) = _
        rw [fdtdLoop_scaled hk { c1 with scaling := some s } (by rw [show ({ c1 with scaling := some s } : FdtdCfg).pulse = c1.pulse from rfl, hp1]; exact hp)]
        cases fdtdLoop { c1 with scaling := some s } s g fp.1 0 [] [] with
        | error e => rfl
        | ok rt => rfl

/-- C164: the pulse `hanning` is different: its sampling interval is 1e-15 s whatever the grid, so that scaling the wavelength changes the signal in the first step that is not zero already. -/
theorem C164_hanning (hk : 1 < k) (g : GridNumbers) {wl : ℝ} (hw : 2e-7 ≤ wl) : lineSignal (g.scaled k) (simSpec (wl * k) "hanning") 1 ≠ lineSignal g (simSpec wl "hanning") 1 := by
  have hk0 : 0 < k := by linarith
  have hw0 : 0 < wl := lt_of_lt_of_le (by norm_num) hw
  have hpi := Real.pi_gt_three
  have hpulse : ∀ {w : ℝ}, 2e-7 ≤ w → ∀ g : GridNumbers, lineSignal g (simSpec w "hanning") 1 = .ok (hanningPulse 1 (SPEED_OF_LIGHT / w * 1e-15) 5) := by
    intro w hw g
    have hw0 : 0 < w := lt_of_lt_of_le (by norm_num) hw
    have hf : (simSpec w "hanning").frequency = SPEED_OF_LIGHT / w := by
      simp only [SourceSpec.frequency, simSpec, PyNum.val, one_div, inv_div]
    have hd : (simSpec w "hanning").dt = 1e-15 := rfl
    have hc : (simSpec w "hanning").cycle = 5 := rfl
    have hs : (1 : ℤ) < (simSpec w "hanning").hanningSteps := by
      unfold SourceSpec.hanningSteps
      rw [hf, hd, hc, pyTrunc, if_pos (by unfold SPEED_OF_LIGHT; positivity)]
      have : (2 : ℝ) ≤ 2 * Real.pi / (SPEED_OF_LIGHT / w * 1e-15 / 5) := by
        have hx : SPEED_OF_LIGHT / w * 1e-15 / 5 ≤ 1 := by
          rw [div_mul_eq_mul_div, div_div, div_le_one (by positivity)]
          unfold SPEED_OF_LIGHT
          nlinarith
        rw [le_div_iff₀ (by unfold SPEED_OF_LIGHT; positivity)]
        nlinarith
      exact lt_of_lt_of_le (by norm_num : (1 : ℤ) < 2) (Int.le_floor.2 (by exact_mod_cast this))
    unfold lineSignal
    rw [if_neg (show (simSpec w "hanning").period.val ≠ 0 by simp only [simSpec, PyNum.val]; unfold SPEED_OF_LIGHT; positivity), if_pos (show (simSpec w "hanning").signal = "hanning" from rfl), hd, hc, if_neg (by norm_num), if_pos (by exact_mod_cast hs), hf]
    simp only [hanningPulse, Nat.cast_one, one_mul]
  have hwk : 2e-7 ≤ wl * k := by nlinarith
  rw [hpulse hw, hpulse hwk]
  have hmono : ∀ {x y : ℝ}, 0 < x → x < y → y ≤ 3 / 2 → hanningPulse 1 x 5 < hanningPulse 1 y 5 := by
    intro x y hx hxy hy
    simp only [hanningPulse, one_mul]
    have h1 : Real.cos (y / 5) < Real.cos (x / 5) := Real.cos_lt_cos_of_nonneg_of_le_pi (by linarith) (by linarith) (by linarith)
    have h2 : Real.sin x < Real.sin y := Real.sin_lt_sin_of_lt_of_le_pi_div_two (by linarith) (by linarith) hxy
    have h3 : 0 < Real.sin x := Real.sin_pos_of_pos_of_lt_pi hx (by linarith)
    have h4 := Real.cos_le_one (x / 5)
    nlinarith
  intro h
  have h := Except.ok.inj h
  have hlt : SPEED_OF_LIGHT / (wl * k) * 1e-15 < SPEED_OF_LIGHT / wl * 1e-15 := by
    refine mul_lt_mul_of_pos_right (div_lt_div_of_pos_left (by unfold SPEED_OF_LIGHT; norm_num) hw0 ?_) (by norm_num)
    nlinarith
  refine absurd h (hmono (by unfold SPEED_OF_LIGHT; positivity) hlt ?_).ne
  rw [div_mul_eq_mul_div, div_le_iff₀ hw0]
  unfold SPEED_OF_LIGHT
  nlinarith

/-- Hypotheses of `C164_spectra`: the default of the package (one frequency, a line source, continuous), in nanometres instead of micrometres; both grids have the same 130 cells. -/
example (f : FreqCfg) : let c : FdtdCfg := ⟨f, 10, 1.5, 2, [1], 1, 2, [1.75, 0.25], "continuous", "line", 400, none⟩
    (0 : ℝ) < 1000 ∧ c.pulse ≠ "hanning" ∧ (c.scaled 1000).pml = 1500 ∧ (c.scaled 1000).thick = [1000] ∧ xSize c 16.25 = 130 ∧ xSize (c.scaled 1000) (16.25 / 1000) = 130 := by
  have h : ∀ x : ℝ, x = 130 → pyTrunc x = 130 := by
    rintro x rfl
    unfold pyTrunc
    rw [if_pos (by norm_num)]
    exact_mod_cast Int.floor_intCast (R := ℝ) 130
  refine ⟨by norm_num, (by decide : "continuous" ≠ "hanning"), ?_, ?_, h _ ?_, h _ ?_⟩ <;> norm_num [FdtdCfg.scaled]

end

end Nidn
