/-
Properties C59 and C60, end to end: what one entry of the FDTD spectra is computed from.
-/
import Verif.Props.FdtdPipeline
import Verif.Props.FdtdSpectrum
import Verif.Props.FdtdWitness

namespace Nidn

/-- mean of the z component of the electric field over the three cells of a detector line, after each of the first `n` steps -/
noncomputable def lineRecording (g : FGrid ℝ) (x : ℤ) (n : ℕ) : List ℝ :=
  (List.range n).map fun k => ((g.run (k + 1)).E ![x.toNat, 0, 0] 2 + (g.run (k + 1)).E ![x.toNat, 1, 0] 2 + (g.run (k + 1)).E ![x.toNat, 2, 0] 2) / 3

lemma run_recordings (c : FdtdCfg) (s wl : ℝ) (g : GridNumbers) (m : Materials ℝ) (prof : List ℝ) (k : ℕ) :
    ∃ t r, ((builtGrid c s wl g m prof).run k).detectors = [t, r] ∧ detectorSignal t.recE = lineRecording (builtGrid c s wl g m prof) (tDetectorX c s) k ∧
      detectorSignal r.recE = lineRecording (builtGrid c s wl g m prof) (rDetectorX c s) k := by
  have e : ∀ x : ℤ, detectorSignal (([] : List (List (Fin 3 → ℝ))) ++ (List.range k).map fun i => (crossCells x).map fun p => ((builtGrid c s wl g m prof).run (i + 1)).E p) =
      lineRecording (builtGrid c s wl g m prof) x k := by
    intro x
    rw [detectorSignal, lineRecording, List.nil_append, List.map_map]
    refine List.map_congr_left fun i _ => ?_
    rw [Function.comp_apply, averageStep_eq]
    simp [crossCells]
    ring
  rw [C56_samples]
  exact ⟨_, _, rfl, e _, e _⟩

lemma simulate_recordings (c : FdtdCfg) (s wl : ℝ) (g : GridNumbers) (m : Materials ℝ) (prof : List ℝ) (layers : Option (List ℂ)) (sig : ℕ → Except PyErr ℝ)
    (h : initFdtd c s layers wl = .ok ⟨g, builtGrid c s wl g m prof, sig⟩) (out : List ℝ × List ℝ) (ho : simulate c s layers wl = .ok out) :
    out = (lineRecording (builtGrid c s wl g m prof) (tDetectorX c s) c.niter.toNat, lineRecording (builtGrid c s wl g m prof) (rDetectorX c s) c.niter.toNat) := by
  unfold simulate at ho
  rw [h, ok_bind] at ho
  unfold runSimulation at ho
  obtain ⟨_, -, ho⟩ := bind_ok.1 ho
  obtain ⟨t, r, hd, ht, hr⟩ := run_recordings c s wl g m prof (runSteps g.timeStep (.int c.niter))
  simp only [hd, ht, hr] at ho
  cases ho
  rfl

/-- C59, end to end: an entry of the spectra is computed from the electric fields recorded at the transmission and the reflection line in two
runs that differ only in the material: vacuum in the first; in the second, in the cells of every layer `j`, permittivity and absorption of
entry `[0, 0]` of layer `j` of the slice, and vacuum elsewhere. -/
theorem C59_point_partial (c : FdtdCfg) (s : ℝ) (h : LineSetup c s) (wl : ℝ) (g : Grid4 ℂ) (i : ℕ) (hsl : g.sl = c.thick.length) (T R : ℝ)
    (hok : fdtdPoint c s g i wl = .ok (T, R)) :
    ∃ (gn : GridNumbers) (prof : List ℝ) (m : Materials ℝ) (l : List (ℤ × ℤ)), prof.sum = 1 ∧ (∀ v ∈ prof, 0 < v) ∧ layerRanges c s g.sl = .ok l ∧
      (∀ p : Pos, p 1 < 3 → p 2 < 1 →
        (∀ (j : ℕ) (r : ℤ × ℤ) (e : ℂ), l[j]? = some r → j < g.sl → g.val 0 0 j i = some e → inRange r (p 0) →
          m.invEps p 2 = 1 / e.re ∧ m.absorb p 2 = 1 / 2 * gn.courant * (1 / e.re) * layerCond wl e * gn.spacing * ETA_0) ∧
        ((∀ r ∈ l, ¬ inRange r (p 0)) → m.invEps p 2 = 1 ∧ m.absorb p 2 = 0)) ∧
      coefficients (windowSize c.minGp wl).toNat
        (lineRecording (builtGrid c s wl gn ⟨fun _ _ => 1, fun _ _ => 0⟩ prof) (tDetectorX c s) c.niter.toNat)
        (lineRecording (builtGrid c s wl gn m prof) (tDetectorX c s) c.niter.toNat)
        (lineRecording (builtGrid c s wl gn ⟨fun _ _ => 1, fun _ _ => 0⟩ prof) (rDetectorX c s) c.niter.toNat)
        (lineRecording (builtGrid c s wl gn m prof) (rDetectorX c s) c.niter.toNat) = .ok (T, R) := by
  have hlen : (layerEps g i).length = g.sl := by simp [layerEps]
  obtain ⟨gn, prof, hp1, hp2, hfree, hmat⟩ := C59_init_partial c s h wl
  obtain ⟨m, l, hl, hm, hp⟩ := hmat (layerEps g i) (hlen.trans hsl)
  rw [hlen] at hl
  refine ⟨gn, prof, m, l, hp1, hp2, hl, fun p h1 h2 => ⟨fun j r e hj hjl he hr => ?_, (hp p h1 h2).2⟩, ?_⟩
  · refine (hp p h1 h2).1 j r e hj ?_ hr
    have : j < (layerEps g i).length := by omega
    rw [List.getElem?_eq_getElem this]
    simp [layerEps, he]
  · unfold fdtdPoint at hok
    by_cases hi : g.sf ≤ i
    · rw [if_pos hi] at hok; cases hok
    rw [if_neg hi] at hok
    obtain ⟨u, -, hok⟩ := bind_ok.1 hok
    obtain ⟨fr, hfr, hok⟩ := bind_ok.1 hok
    obtain ⟨mt, hmt, hok⟩ := bind_ok.1 hok
    have e1 : (⟨fun _ _ => 1 / 1, fun _ _ => 0⟩ : Materials ℝ) = ⟨fun _ _ => 1, fun _ _ => 0⟩ := by simp
    rw [e1] at hfree
    rw [simulate_recordings c s wl gn _ prof none _ hfree fr hfr, simulate_recordings c s wl gn m prof _ _ hm mt hmt] at hok
    exact hok

/-- C60, end to end: the scaling a successful run leaves in the config, with which each entry of the spectra was computed, gives every
wavelength of the spectrum at least ten cells. -/
theorem C60_run (g : Grid4 ℂ) (c c' : FdtdCfg) (Rs Ts : List ℝ) (h0 : 0 < c.freq.wlMin) (h1 : c.freq.wlMin ≤ c.freq.wlMax) (hm : 0 < c.minGp)
    (hd : c.freq.distribution = "linear" ∨ c.freq.distribution = "log") (h : computeSpectrumFdtd g c = .ok ((Rs, Ts), c')) :
    ∃ s, c'.scaling = some s ∧ c.minGp ≤ s ∧ ∃ wls : List ℝ, wls.length = Rs.length ∧
      ∀ (i : ℕ) (w r t : ℝ), wls[i]? = some w → Rs[i]? = some r → Ts[i]? = some t → fdtdPoint c' s g i w = .ok (t, r) ∧ 10 ≤ w / (1e-6 / s) := by
  obtain ⟨wls, fs, fc, hfp, hwl, hfl, hprod, -, hw, hfc, -⟩ := C03_frequency_points c.freq h0 h1 hd
  obtain ⟨s', hs', h10, hmin, -⟩ := C60_smallest c.freq.wlMin c.minGp h0
  unfold computeSpectrumFdtd at h
  rw [hfp, ok_bind] at h
  by_cases hg : g.sx = 0 ∨ g.sy = 0 ∨ g.sf = 0
  · rw [if_pos hg] at h; cases h
  rw [if_neg hg] at h
  obtain ⟨s, hs, h⟩ := bind_ok.1 h
  rw [(expandThick_freq { c with freq := fc }).1, (expandThick_freq { c with freq := fc }).2] at hs
  have hs2 : gridScaling c.freq.wlMin c.minGp = .ok s := by rw [← hs, hfc]
  rw [hs'] at hs2
  cases hs2
  obtain ⟨rt, hrt, h⟩ := bind_ok.1 h
  obtain ⟨ps, rfl, hpl, hps⟩ := fdtdLoop_ok _ _ _ _ _ _ _ _ hrt
  cases h
  refine ⟨s', rfl, hmin, wls, by simp [hpl], fun i w r t hi hr ht => ⟨?_, ?_⟩⟩
  · rw [List.nil_append, List.getElem?_map] at hr ht
    cases hp : ps[i]? with
    | none => rw [hp] at hr; simp at hr
    | some p =>
      rw [hp, Option.map_some, Option.some_inj] at hr ht
      have := hps i w p hi hp
      rw [zero_add] at this
      rw [this, ← hr, ← ht]
  · have : w / (1e-6 / s') = s' * (w / 1e-6) := by field_simp
    rw [this]
    refine h10.trans (mul_le_mul_of_nonneg_left ?_ (hm.le.trans hmin))
    exact div_le_div_of_nonneg_right (hw w (List.mem_of_getElem? hi)).1 (by norm_num)

/-- the empty stack of `C66_accepted` meets the hypotheses of both -/
example : (LineSetup (emptyRun none none) 10 ∧ emptyGrid.sl = (emptyRun none none).thick.length ∧ fdtdPoint (emptyRun none none) 10 emptyGrid 0 (1 / 1000000) = .ok (1, 0)) ∧
    ∃ c', 0 < emptyFdtd.freq.wlMin ∧ emptyFdtd.freq.wlMin ≤ emptyFdtd.freq.wlMax ∧ 0 < emptyFdtd.minGp ∧ emptyFdtd.freq.distribution = "linear" ∧
      computeSpectrumFdtd emptyGrid emptyFdtd = .ok (([0], [1]), c') :=
  ⟨⟨empty_setup _ _, rfl, empty_point _ _ _ (by norm_num) (by norm_num)⟩, C66_accepted.2.2.choose, by norm_num [emptyFdtd], by norm_num [emptyFdtd], by norm_num [emptyFdtd],
    rfl, C66_accepted.2.2.choose_spec⟩

end Nidn
