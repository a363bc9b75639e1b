import Verif.Props.Tmm
import Verif.Props.TmmEnergy
import Verif.Props.TmmAccept
import Verif.Props.RcwaGrid

/-! The transfer-matrix module of the notebooks (`notebooks/tmm_core.py`) against the RCWA solver, as `FDTD_RCWA_TMM_Comparison.ipynb` sets them side by side. -/

namespace Nidn

open Complex

noncomputable section

lemma omega_parts (f : ℝ) : (2 * Real.pi * f * (1 + I / (2 * 1e5)) : ℂ) = ((2 * Real.pi * f : ℝ) : ℂ) * (1 + ((1 / (2 * 1e5) : ℝ) : ℂ) * I) := by push_cast; ring

/-- layers that do not amplify at the damped frequency lose nothing negative there -/
lemma damped_loss {pol : String} (hpol : pol = "s" ∨ pol = "p") {f : ℝ} (hf : 0 < f) {n ε : ℂ} (hn : n ^ 2 = ε) (hε : PassiveEps ε) (v : Fin 2 → ℂ) :
    0 ≤ tmmLoss (starRingEnd ℂ (tmmA pol n 0) * tmmB pol n 0) (2 * Real.pi * n * Complex.cos 0 / (1 / (f * (1 + I / (2 * 1e5))))) v := by
  obtain ⟨-, hε⟩ := hε
  have hπ := Real.pi_pos
  have hω := omega_parts f
  set ω : ℂ := 2 * Real.pi * f * (1 + I / (2 * 1e5)) with hωd
  have hk : (2 * Real.pi * n * Complex.cos 0 / (1 / (f * (1 + I / (2 * 1e5)))) : ℂ) = ω * n := by rw [Complex.cos_zero, one_div, div_inv_eq_mul, hωd]; ring
  rw [hk]
  have him : 0 ≤ ω.im := by
    rw [hω, Complex.im_ofReal_mul, Complex.add_im, Complex.one_im, Complex.im_ofReal_mul, Complex.I_im]
    positivity
  have h1 : 0 ≤ (ω * n ^ 2).im := by
    have : (ω * n ^ 2).im = 2 * Real.pi * f * (ε.im + ε.re / 2 / 1e5) := by
      rw [hω, hn, mul_assoc, Complex.im_ofReal_mul]
      simp only [Complex.mul_im, Complex.add_re, Complex.add_im, Complex.one_re, Complex.one_im, Complex.ofReal_re, Complex.ofReal_im, Complex.mul_re, Complex.I_re, Complex.I_im]
      ring
    rw [this]
    have : 0 ≤ ε.im + ε.re / 2 / 1e5 := by
      have : -ε.re / 2 / 1e5 = -(ε.re / 2 / 1e5) := by ring
      linarith
    positivity
  have h2 : 0 ≤ Complex.normSq n * ω.im := mul_nonneg (Complex.normSq_nonneg _) him
  have h3 : (ω * n ^ 2).im = (n * (ω * n)).im := by congr 1; ring
  have h4 : -(n * starRingEnd ℂ (ω * n)).im = Complex.normSq n * ω.im := by
    have : n * starRingEnd ℂ (ω * n) = (Complex.normSq n : ℂ) * starRingEnd ℂ ω := by rw [map_mul, ← Complex.mul_conj]; ring
    rw [this, Complex.im_ofReal_mul, Complex.conj_im]; ring
  have h5 : (starRingEnd ℂ n * (ω * n)).im = Complex.normSq n * ω.im := by
    have : starRingEnd ℂ n * (ω * n) = (Complex.normSq n : ℂ) * ω := by rw [← Complex.mul_conj]; ring
    rw [this, Complex.im_ofReal_mul]
  have h6 : -(starRingEnd ℂ n * starRingEnd ℂ (ω * n)).im = (ω * n ^ 2).im := by
    rw [← map_mul, Complex.conj_im, h3]; ring
  unfold tmmLoss tmmA tmmB
  rcases hpol with rfl | rfl
  · simp only [if_true, map_one, one_mul, Complex.cos_zero, mul_one]
    rw [sub_eq_add_neg, ← neg_mul, h4, ← h3]
    positivity
  · simp only [if_neg (show ¬("p" = "s") by decide), Complex.cos_zero, mul_one]
    rw [sub_eq_add_neg, ← neg_mul, h6, h5]
    positivity

/-- the film formulas are `coh_tmm` at normal incidence -/
lemma films_tmm {top bottom f : ℝ} (htop : 0 < top) (hpos : 0 < bottom) (hf0 : 0 < f) (nl : ℕ) (th : ℕ → ℝ) (hth : ∀ l < nl, 0 ≤ th l) (ε : ℕ → ℂ) (hε : ∀ l < nl, PassiveEps (ε l)) (asin : ℂ → ℂ)
    (hasin : ∀ z, Complex.sin (asin z) = z) (h00 : asin 0 = 0) (pol : String) (hpol : pol = "s" ∨ pol = "p") (n : ℕ → ℂ) (hn : ∀ l < nl, n l ^ 2 = ε l ∧ 0 < (n l).re)
    (hph : ∀ l < nl, |(2 * Real.pi * f * (1 + I / (2 * 1e5)) * n l * th l).im| ≤ 35) :
    ∃ s, cohTmm asin pol ((Real.sqrt top : ℂ) :: ((List.range nl).map n ++ [(Real.sqrt bottom : ℂ)])) (none :: ((List.range nl).map (fun l => some (th l)) ++ [none])) 0
        (1 / (f * (1 + I / (2 * 1e5)))) = .ok s ∧
      filmReflectance (2 * Real.pi * f * (1 + I / (2 * 1e5))) top bottom nl th n = Real.exp (-2 * Real.sqrt top * (2 * Real.pi * f / (2 * 1e5))) * s.R ∧
      filmTransmittance (2 * Real.pi * f * (1 + I / (2 * 1e5))) top bottom nl th n = Real.exp (-2 * Real.sqrt top * (2 * Real.pi * f / (2 * 1e5))) * s.T := by
  set mids : List (ℂ × ℝ × ℂ) := (List.range nl).map fun l => (n l, th l, 1) with hmids
  have e1 : ((Real.sqrt top : ℂ) :: ((List.range nl).map n ++ [(Real.sqrt bottom : ℂ)])) = stackIndices (Real.sqrt top) mids (Real.sqrt bottom) := by
    simp [stackIndices, hmids, Function.comp_def]
  have e2 : (none :: ((List.range nl).map (fun l => some (th l)) ++ [none])) = stackThicknesses mids := by
    simp [stackThicknesses, hmids, Function.comp_def]
  have e3 : (0 : ℂ) = ((0 : ℝ) : ℂ) := by simp
  rw [e1, e2, e3]
  have hdiv : ∀ x : ℂ, x / (1 / (f * (1 + I / (2 * 1e5)))) = x * (f * (1 + I / (2 * 1e5))) := fun x => by rw [one_div, div_inv_eq_mul]
  have hq : ∀ m : ℂ, normalIndex asin ((Real.sqrt top * Real.sin 0 : ℝ) : ℂ) m = m := fun m => by simp [normalIndex, h00]
  have real_travels : ∀ x : ℝ, 0 < x → Travels asin ((Real.sqrt top * Real.sin 0 : ℝ) : ℂ) (x : ℂ) := fun x hx =>
    ⟨by exact_mod_cast hx.ne', by simp, by rw [hq]; simpa using hx, by rw [hq]; simp⟩
  have hre : ∀ m : ℂ, 0 < m.re → m ≠ 0 := by rintro m h rfl; simp at h
  have hlam : (1 / (f * (1 + I / (2 * 1e5))) : ℂ) ≠ 0 := by
    have hω := omega_parts f
    refine one_div_ne_zero (mul_ne_zero (by exact_mod_cast hf0.ne') ?_)
    intro e
    have e' := congrArg Complex.re e
    rw [show (1 + I / (2 * 1e5) : ℂ) = 1 + ((1 / (2 * 1e5) : ℝ) : ℂ) * I by push_cast; ring] at e'
    simp at e'
  obtain ⟨s, hc⟩ := accepts_of asin hasin pol hpol (Real.sqrt top) 0 (1 / (f * (1 + I / (2 * 1e5)))) (Real.sqrt_pos.2 htop) (by simp) hlam mids (Real.sqrt bottom)
    (real_travels _ (Real.sqrt_pos.2 htop)) (real_travels _ (Real.sqrt_pos.2 hpos))
    (by
      intro m hm
      rw [hq]
      simp only [stackIndices, List.mem_cons, List.mem_append, List.not_mem_nil, or_false, List.mem_map] at hm
      rcases hm with rfl | ⟨_, hm, rfl⟩ | rfl
      · have := (real_travels _ (Real.sqrt_pos.2 htop)).ne
        exact ⟨this, by simpa using htop⟩
      · obtain ⟨l, hl, rfl⟩ := List.mem_map.1 hm
        exact ⟨hre _ (hn l (List.mem_range.1 hl)).2, (hn l (List.mem_range.1 hl)).2⟩
      · have := (real_travels _ (Real.sqrt_pos.2 hpos)).ne
        exact ⟨this, by simpa using hpos⟩)
    (by
      intro m hm
      obtain ⟨l, hl, rfl⟩ := List.mem_map.1 hm
      refine ⟨hth l (List.mem_range.1 hl), ?_⟩
      rw [hdiv, hq]
      refine le_trans (le_of_eq ?_) (le_trans (le_abs_self _) (hph l (List.mem_range.1 hl)))
      congr 1
      ring)
    (by
      intro m hm v
      obtain ⟨l, hl, rfl⟩ := List.mem_map.1 hm
      have : asin (((Real.sqrt top * Real.sin 0 : ℝ) : ℂ) / n l) = 0 := by simp [h00]
      rw [this]
      exact damped_loss hpol hf0 (hn l (List.mem_range.1 hl)).1 (hε l (List.mem_range.1 hl)) v)
  refine ⟨s, hc, ?_⟩
  have key := C140_films asin hasin pol (Real.sqrt top) 0 _ mids (Real.sqrt bottom) 1 s hc (by
    intro m hm
    obtain ⟨l, hl, rfl⟩ := List.mem_map.1 hm
    refine ⟨by simp, ?_⟩
    rw [hdiv]
    refine le_trans (le_of_eq ?_) (hph l (List.mem_range.1 hl))
    congr 2
    ring) (by simp) (by right; simp [hpos]; norm_num)
  have eimp : ∀ m : ℂ, filmImpedance pol m 1 = 1 / m := by
    intro m
    unfold filmImpedance
    split <;> simp
  have e0 : (if pol = "s" then 1 / (Real.sqrt top * Real.cos 0) else Real.cos 0 / Real.sqrt top) = 1 / Real.sqrt top := by
    split <;> simp
  have est : filmStack pol (1 / (f * (1 + I / (2 * 1e5)))) mids = (List.range nl).map fun l => (1 / n l, (2 * Real.pi * f * (1 + I / (2 * 1e5))) * n l * th l) := by
    rw [filmStack, hmids, List.map_map]
    refine List.map_congr_left fun l _ => ?_
    simp only [Function.comp, eimp, hdiv]
    congr 1
    ring
  rw [e0, est, eimp] at key
  have him : (2 * Real.pi * f * (1 + I / (2 * 1e5)) : ℂ).im = 2 * Real.pi * f / (2 * 1e5) := by
    have : (2 * Real.pi * f * (1 + I / (2 * 1e5)) : ℂ) = ((2 * Real.pi * f : ℝ) : ℂ) * (1 + ((1 / (2 * 1e5) : ℝ) : ℂ) * I) := by push_cast; ring
    rw [this, Complex.im_ofReal_mul, Complex.add_im, Complex.one_im, Complex.im_ofReal_mul, Complex.I_im]
    ring
  rw [key.1, key.2]
  unfold filmReflectance filmTransmittance
  rw [him]
  exact ⟨rfl, rfl⟩

/-- C141. For every accepted config with the RCWA solver and one cell per layer, and every grid of the announced shape whose permittivities do not amplify, the reflectance and transmittance that `compute_spectrum` returns at a
frequency are those that `coh_tmm` returns for the same layers at normal incidence, in either polarisation, when it is asked for the (slightly damped) frequency the solver works at; both carry the damping of the front layer, in
which the solver's wave starts. (`n` are the indices with positive real part; no layer may be opaque to `coh_tmm`.) Missing from the full property: grids with more than one cell per layer and the configs that C137 excludes. -/
theorem C141_agree_partial (fdtd : Cfg → Except PyErr (List ℝ × List ℝ)) (sort : ℕ → ℝ × ℝ → ℝ × ℝ → List (ℤ × ℤ)) (hs : Sorts sort)
    (patterned : (ℕ → ℕ → ℕ → Option ℂ) → ℝ → Except PyErr (ℝ × ℝ)) (c : Cfg) (h : validateConfig c = .ok ()) (nl nf : ℕ) (top bottom : ℝ) (hu : UniformRun c nl nf top bottom)
    (th : ℕ → ℝ) (ht : ThicknessesAre c nl th) (hth : ∀ l < nl, 0 ≤ th l) (g : Grid4 ℂ) (hx : g.sx = 1) (hy : g.sy = 1) (hl : g.sl = nl) (hf : g.sf = nf) (ε : ℕ → ℕ → ℂ)
    (hval : ∀ l < nl, ∀ i < nf, g.val 0 0 l i = some (ε l i)) (hε : ∀ l < nl, ∀ i < nf, PassiveEps (ε l i)) :
    ∃ fs Rs Ts, cfgFrequencyPoints c = .ok fs ∧ forwardSpectrum fdtd sort patterned c g = .ok (some (Rs, Ts)) ∧ fs.length = nf ∧ Rs.length = nf ∧ Ts.length = nf ∧
      (∃ v w rest a b, c.lookup "physical_wavelength_range" = some (.list (v :: w :: rest)) ∧ Denotes v a ∧ Denotes w b ∧ SamplesBand (1e-6 / (b : ℝ)) (1e-6 / (a : ℝ)) nf fs) ∧
      ∀ (i : ℕ) (f r t : ℝ), fs[i]? = some f → Rs[i]? = some r → Ts[i]? = some t →
        ∀ (asin : ℂ → ℂ), (∀ z, Complex.sin (asin z) = z) → asin 0 = 0 → ∀ (pol : String), pol = "s" ∨ pol = "p" → ∀ (n : ℕ → ℂ), (∀ l < nl, n l ^ 2 = ε l i ∧ 0 < (n l).re) →
          (∀ l < nl, |(2 * Real.pi * f * (1 + I / (2 * 1e5)) * n l * th l).im| ≤ 35) →
          ∃ s, cohTmm asin pol ((Real.sqrt top : ℂ) :: ((List.range nl).map n ++ [(Real.sqrt bottom : ℂ)])) (none :: ((List.range nl).map (fun l => some (th l)) ++ [none])) 0
            (1 / (f * (1 + I / (2 * 1e5)))) = .ok s ∧
          r = Real.exp (-2 * Real.sqrt top * (2 * Real.pi * f / (2 * 1e5))) * s.R ∧ t = Real.exp (-2 * Real.sqrt top * (2 * Real.pi * f / (2 * 1e5))) * s.T := by
  obtain ⟨fs, Rs, Ts, h1, h2, h3, h4, h5, hband, h6⟩ := C137_uniform_partial fdtd sort hs patterned c h nl nf top bottom hu th ht hth g hx hy hl hf ε hval hε
  refine ⟨fs, Rs, Ts, h1, h2, h3, h4, h5, hband, ?_⟩
  intro i f r t hfi hri hti asin hasin h00 pol hpol n hn hph
  obtain ⟨-, -, -, h7⟩ := h6 i f r t hfi hri hti
  obtain ⟨hr, ht'⟩ := h7 n fun l hl => (hn l hl).1
  rw [hr, ht']
  obtain ⟨v, w, rest, a, b, fs', -, -, -, -, hfs', -, hfpos⟩ := cfgFrequencyPoints_ok h hu.wavelengths hu.freqs
  obtain rfl : fs' = fs := by rw [h1] at hfs'; exact (Except.ok.inj hfs').symm
  have hin : i < nf := by rw [← h3]; exact (List.getElem?_eq_some_iff.1 hfi).1
  exact films_tmm hu.top.2 hu.bottom.2 (hfpos f (List.mem_of_getElem? hfi)) nl th hth (fun l => ε l i) (fun l hl => hε l hl i hin) asin hasin h00 pol hpol n hn hph

/-- C141, several cells per layer: the same holds if each layer has the same permittivity in all of its cells, as in `C156_painted`, whatever eigenvectors the library returns. -/
theorem C141_painted (eig : EigSolver) (heig : Eigensolver eig) (fdtd : Cfg → Except PyErr (List ℝ × List ℝ)) (sort : ℕ → ℝ × ℝ → ℝ × ℝ → List (ℤ × ℤ)) (hs : Sorts sort) (c : Cfg)
    (h : validateConfig c = .ok ()) (nx ny nl nf : ℕ) (top bottom : ℝ) (hu : GridRun c nx ny nl nf top bottom) (hx : 1 < nx) (hx3 : nx ≠ 3)
    (hr : ∀ Lk sel, OrdersOf sort c Lk sel → CellsResolve nx ny sel) (th : ℕ → ℝ) (ht : ThicknessesAre c nl th) (hth : ∀ l < nl, 0 ≤ th l) (g : Grid4 ℂ) (ε : ℕ → ℕ → ℂ)
    (hg : FullGrid g nx ny nl nf fun _ _ l i => ε l i) (hε : ∀ l < nl, ∀ i < nf, PassiveEps (ε l i)) (hp : ∀ l < nl, ∀ i < nf, PassesFilter (ε l i)) :
    ∃ fs Rs Ts, cfgFrequencyPoints c = .ok fs ∧ gridSpectrum eig fdtd sort c g = .ok (some (Rs, Ts)) ∧ fs.length = nf ∧ Rs.length = nf ∧ Ts.length = nf ∧
      ∀ (i : ℕ) (f r t : ℝ), fs[i]? = some f → Rs[i]? = some r → Ts[i]? = some t →
        ∀ (asin : ℂ → ℂ), (∀ z, Complex.sin (asin z) = z) → asin 0 = 0 → ∀ (pol : String), pol = "s" ∨ pol = "p" → ∀ (n : ℕ → ℂ), (∀ l < nl, n l ^ 2 = ε l i ∧ 0 < (n l).re) →
          (∀ l < nl, |(2 * Real.pi * f * (1 + I / (2 * 1e5)) * n l * th l).im| ≤ 35) →
          ∃ s, cohTmm asin pol ((Real.sqrt top : ℂ) :: ((List.range nl).map n ++ [(Real.sqrt bottom : ℂ)])) (none :: ((List.range nl).map (fun l => some (th l)) ++ [none])) 0
            (1 / (f * (1 + I / (2 * 1e5)))) = .ok s ∧
          r = Real.exp (-2 * Real.sqrt top * (2 * Real.pi * f / (2 * 1e5))) * s.R ∧ t = Real.exp (-2 * Real.sqrt top * (2 * Real.pi * f / (2 * 1e5))) * s.T := by
  obtain ⟨fs, Rs, Ts, h1, h2, h3, h4, h5, h6⟩ := C156_painted eig heig fdtd sort hs c h nx ny nl nf top bottom hu hx hx3 hr th ht hth g ε hg hε hp
  refine ⟨fs, Rs, Ts, h1, h2, h3, h4, h5, ?_⟩
  intro i f r t hfi hri hti asin hasin h00 pol hpol n hn hph
  obtain ⟨-, -, -, h7⟩ := h6 i f r t hfi hri hti
  obtain ⟨hr, ht'⟩ := h7 n fun l hl => (hn l hl).1
  rw [hr, ht']
  obtain ⟨v, w, rest, a, b, fs', -, -, -, -, hfs', -, hfpos⟩ := cfgFrequencyPoints_ok h hu.wavelengths hu.freqs
  obtain rfl : fs' = fs := by rw [h1] at hfs'; exact (Except.ok.inj hfs').symm
  have hin : i < nf := by rw [← h3]; exact (List.getElem?_eq_some_iff.1 hfi).1
  exact films_tmm hu.top.2 hu.bottom.2 (hfpos f (List.mem_of_getElem? hfi)) nl th hth (fun l => ε l i) (fun l hl => hε l hl i hin) asin hasin h00 pol hpol n hn hph

/-- the default config with ten times ten cells, all of index 2, meets the hypotheses: at wavelengths of at least a micrometer the reflectances are those of `coh_tmm` -/
example (eig : EigSolver) (heig : Eigensolver eig) (fdtd : Cfg → Except PyErr (List ℝ × List ℝ)) (sort : ℕ → ℝ × ℝ → ℝ × ℝ → List (ℤ × ℤ)) (hs : Sorts sort) :
    ∃ fs Rs Ts, cfgFrequencyPoints (defaultCells 10 10) = .ok fs ∧ gridSpectrum eig fdtd sort (defaultCells 10 10) ⟨10, 10, 8, 20, fun _ _ _ _ => some 4⟩ = .ok (some (Rs, Ts)) ∧
      ∀ (i : ℕ) (f r t : ℝ), fs[i]? = some f → Rs[i]? = some r → Ts[i]? = some t → |f| ≤ 1 →
        ∃ s, cohTmm someArcsin "s" ((Real.sqrt 1 : ℂ) :: ((List.range 8).map (fun _ => 2) ++ [(Real.sqrt 1 : ℂ)]))
          (none :: ((List.range 8).map (fun _ => some 1) ++ [none])) 0 (1 / (f * (1 + I / (2 * 1e5)))) = .ok s ∧ r = Real.exp (-2 * Real.sqrt 1 * (2 * Real.pi * f / (2 * 1e5))) * s.R := by
  obtain ⟨fs, Rs, Ts, h0, h1, -, -, -, h2⟩ := C141_painted eig heig fdtd sort hs (defaultCells 10 10) (by decide +kernel) 10 10 8 20 1 1 (defaultCells_run 10 10) (by norm_num) (by norm_num)
    (C156_resolved sort hs _ _ _ _ _ (defaultCells_lattice 10 10) default_proper (by norm_num) 11 (defaultCells_lookup 10 10 (by decide) (by decide)) (by norm_num) 10 10 (by norm_num) (by norm_num))
    (fun _ => 1) (defaultCells_thickness 10 10) (fun _ _ => zero_le_one) ⟨10, 10, 8, 20, fun _ _ _ _ => some 4⟩ (fun _ _ => 4) ⟨rfl, rfl, rfl, rfl, fun _ _ _ _ _ _ _ _ => rfl⟩
    (fun _ _ _ _ => ⟨by norm_num, by norm_num⟩) (fun _ _ _ _ => Or.inr (Or.inl (by norm_num)))
  refine ⟨fs, Rs, Ts, h0, h1, fun i f r t hf hr ht hle => ?_⟩
  obtain ⟨s, h3, h4, -⟩ := h2 i f r t hf hr ht someArcsin someArcsin_sin (by simp [someArcsin]) "s" (.inl rfl) (fun _ => 2) (fun _ _ => ⟨by norm_num, by norm_num⟩) (by
    intro l _
    have e : ((2 : ℂ) * (Real.pi : ℂ) * (f : ℂ) * (1 + I / (2 * 1e5)) * 2 * ((1 : ℝ) : ℂ) : ℂ) = ((4 * Real.pi * f : ℝ) : ℂ) + ((4 * Real.pi * f / (2 * 1e5) : ℝ) : ℂ) * I := by
      push_cast
      ring
    rw [e, Complex.add_im, Complex.ofReal_im, Complex.im_ofReal_mul, Complex.I_im]
    have hπ := Real.pi_pos
    have hπ4 := Real.pi_lt_four
    obtain ⟨ha, hb⟩ := abs_le.1 hle
    rw [abs_le]
    constructor <;> norm_num <;> nlinarith)
  exact ⟨s, h3, h4⟩

/-- the default config with eight layers of index 2 + 0.5 i meets the hypotheses: the solver's first reflectance is that of `coh_tmm` -/
example (fdtd : Cfg → Except PyErr (List ℝ × List ℝ)) (sort : ℕ → ℝ × ℝ → ℝ × ℝ → List (ℤ × ℤ)) (hs : Sorts sort) (patterned : (ℕ → ℕ → ℕ → Option ℂ) → ℝ → Except PyErr (ℝ × ℝ)) :
    ∃ (Rs Ts : List ℝ) (f r : ℝ) (s : TmmData), forwardSpectrum fdtd sort patterned defaultConfig ⟨1, 1, 8, 20, fun _ _ _ _ => some ((2 + I / 2) ^ 2)⟩ = .ok (some (Rs, Ts)) ∧ Rs[0]? = some r ∧
      cohTmm someArcsin "p" ((Real.sqrt 1 : ℂ) :: ((List.range 8).map (fun _ => 2 + I / 2) ++ [(Real.sqrt 1 : ℂ)])) (none :: ((List.range 8).map (fun _ => some 1) ++ [none])) 0
        (1 / (f * (1 + I / (2 * 1e5)))) = .ok s ∧ r = Real.exp (-2 * Real.sqrt 1 * (2 * Real.pi * f / (2 * 1e5))) * s.R := by
  have hI : ((2 + I / 2) ^ 2 : ℂ) = 15 / 4 + 2 * I := by linear_combination (1 / 4 : ℂ) * I_sq
  have hIr : (I / 2 : ℂ).re = 0 := by rw [show (I / 2 : ℂ) = ((1 / 2 : ℝ) : ℂ) * I by push_cast; ring, Complex.re_ofReal_mul]; simp
  obtain ⟨fs, Rs, Ts, -, h1, h0, h2, h3, ⟨v, w, rest, a, b, hv, ha, hb, hband⟩, h4⟩ := C141_agree_partial fdtd sort hs patterned defaultConfig default_config_accepted 8 20 1 1
    ⟨by rfl, ⟨_, rfl, by simpa using Denotes.int 1⟩, ⟨_, rfl, by simpa using Denotes.int 1⟩, ⟨_, rfl, by simpa using Denotes.int 8⟩, ⟨_, rfl, by simpa using Denotes.int 20⟩,
      ⟨_, _, _, _, _, rfl, Denotes.float _, Denotes.float _, by norm_num, by norm_num⟩,
      ⟨_, _, _, _, ⟨_, _, _, _, rfl, Denotes.float _, Denotes.float _, Denotes.float _, Denotes.float _⟩, by unfold ProperCell; norm_num [abs_of_pos]⟩, ⟨11, rfl, by norm_num⟩,
      ⟨⟨1, ⟨_, rfl, Denotes.float _⟩, by norm_num⟩, by norm_num⟩, ⟨⟨1, ⟨_, rfl, Denotes.float _⟩, by norm_num⟩, by norm_num⟩⟩
    (fun _ => 1) ⟨_, [1], rfl, .cons ⟨1, Denotes.float _, by norm_num⟩ .nil, fun _ _ => Or.inl rfl⟩ (fun _ _ => zero_le_one) ⟨1, 1, 8, 20, fun _ _ _ _ => some ((2 + I / 2) ^ 2)⟩ rfl rfl rfl rfl
    (fun _ _ => (2 + I / 2) ^ 2) (fun _ _ _ _ => rfl) (fun _ _ _ _ => by rw [hI]; exact ⟨fun h => by simpa using congrArg Complex.im h, by norm_num⟩)
  have hwl : some (Val.list [.float (1 / 1000000), .float (30 / 1000000)]) = some (.list (v :: w :: rest)) := hv ▸ rfl
  simp only [Option.some.injEq, Val.list.injEq, List.cons.injEq] at hwl
  obtain ⟨rfl, rfl, -⟩ := hwl
  cases ha
  cases hb
  have hf0 : fs[0]? = some fs[0] := List.getElem?_eq_getElem _
  have hr0 : Rs[0]? = some Rs[0] := List.getElem?_eq_getElem _
  have ht0 : Ts[0]? = some Ts[0] := List.getElem?_eq_getElem _
  have hle : (0 : ℝ) ≤ fs[0] ∧ fs[0] ≤ (1 : ℝ) := by
    obtain ⟨p, q⟩ := hband.inside _ (List.getElem_mem (by omega : 0 < fs.length))
    refine ⟨le_trans (by norm_num) p, le_trans q ?_⟩
    norm_num
  obtain ⟨s, hc, hr, -⟩ := h4 0 fs[0] Rs[0] Ts[0] hf0 hr0 ht0 someArcsin someArcsin_sin (by simp [someArcsin]) "p" (.inr rfl) (fun _ => 2 + I / 2) (fun _ _ => ⟨rfl, by rw [Complex.add_re, hIr]; norm_num⟩) (by
    intro l _
    have e : ((2 : ℂ) * (Real.pi : ℂ) * (fs[0] : ℂ) * (1 + I / (2 * 1e5)) * (2 + I / 2) * ((1 : ℝ) : ℂ) : ℂ) = ((2 * Real.pi * fs[0] : ℝ) : ℂ) * ((2 - 1 / (4 * 1e5) : ℝ) + ((1 / 2 + 1 / 1e5 : ℝ) : ℂ) * I) := by
      push_cast
      linear_combination (2 * Real.pi * fs[0] / (4 * 1e5) : ℂ) * I_sq
    rw [e, Complex.im_ofReal_mul, Complex.add_im, Complex.ofReal_im, Complex.im_ofReal_mul, Complex.I_im]
    have hπ := Real.pi_pos
    have hπ4 := Real.pi_lt_four
    rw [abs_of_nonneg (by have := hle.1; positivity)]
    have : (2 : ℝ) * Real.pi * fs[0] ≤ (8 : ℝ) * (1 : ℝ) := mul_le_mul (by linarith) hle.2 hle.1 (by norm_num)
    norm_num
    nlinarith)
  exact ⟨Rs, Ts, fs[0], Rs[0], s, h1, hr0, hc, hr⟩

/-- C142. Reflectance and transmittance of `coh_tmm` are not negative and add up to at most 1, for passive layers that are not opaque. -/
theorem C142_RT (asin : ℂ → ℂ) (hasin : ∀ z, Complex.sin (asin z) = z) (pol : String) (n : List ℂ) (d : List (Option ℝ)) (n0 θ lam : ℝ) (hl : 0 < lam) (c : TmmData)
    (h : cohTmm asin pol n d θ lam = .ok c) (h0 : n[0]? = some (n0 : ℂ)) (hn : ∀ z ∈ n, 0 ≤ z.re * z.im)
    (hx : ∀ (i : ℕ) x, d[i]? = some (some x) → 0 ≤ x ∧ (c.kz.getD i 0 * x).im ≤ 35) :
    0 ≤ c.R ∧ 0 ≤ c.T ∧ c.R + c.T ≤ 1 ∧ ((∀ z ∈ n, z.re * z.im = 0) → c.R + c.T = 1) := by
  obtain ⟨a, ha, hlen, hpos, hR, hT, hz⟩ := C142_shares asin hasin pol n d n0 θ lam hl c h h0 hn hx
  have hsum := C142_sum c a ha
  have two := (cohTmm_run hasin h).two
  obtain ⟨i0, e0⟩ := List.getElem?_eq_some_iff.1 hR
  obtain ⟨i1, e1⟩ := List.getElem?_eq_some_iff.1 hT
  -- a = R :: mid ++ [T]
  obtain ⟨mid, hmid⟩ : ∃ mid, a = c.R :: (mid ++ [c.T]) := by
    refine ⟨(a.drop 1).take (n.length - 2), List.ext_getElem? fun i => ?_⟩
    rcases Nat.lt_or_ge i 1 with hi | hi
    · rw [show i = 0 by omega, hR]; rfl
    · obtain ⟨j, rfl⟩ : ∃ j, i = j + 1 := ⟨i - 1, by omega⟩
      rw [List.getElem?_cons_succ]
      have hl' : ((a.drop 1).take (n.length - 2)).length = n.length - 2 := by simp; omega
      rcases Nat.lt_or_ge j (n.length - 2) with hj | hj
      · rw [List.getElem?_append_left (by omega), List.getElem?_take_of_lt hj, List.getElem?_drop, Nat.add_comm]
      · rw [List.getElem?_append_right (by omega), hl']
        rcases Nat.eq_or_lt_of_le hj with hj | hj
        · rw [← hj, Nat.sub_self, show n.length - 2 + 1 = n.length - 1 by omega, hT]; rfl
        · rw [List.getElem?_eq_none (by omega), List.getElem?_eq_none (by simp; omega)]
  have hs : c.R + (mid.sum + c.T) = 1 := by rw [← hsum, hmid]; simp
  have hm0 : 0 ≤ mid.sum := List.sum_nonneg fun x hx => hpos x (by rw [hmid]; simp [hx])
  refine ⟨hpos _ (by rw [hmid]; simp), hpos _ (by rw [hmid]; simp), by linarith, fun hall => ?_⟩
  have : mid.sum = 0 := by
    refine List.sum_eq_zero fun x hx => ?_
    obtain ⟨j, hj, rfl⟩ := List.getElem_of_mem hx
    have hml : mid.length + 2 = n.length := by rw [← hlen, hmid]; simp
    have := hz (j + 1) (by omega) (by omega) (by rw [getD_at (by omega)]; exact hall _ (List.getElem_mem _))
    rw [hmid, List.getElem?_cons_succ, List.getElem?_append_left hj, List.getElem?_eq_getElem hj, Option.some.injEq] at this
    exact this
  linarith

/-- Non-vacuity: the film of the comparison notebook meets the hypotheses of `C142_shares` and `C142_RT`. -/
example : ∃ c a, cohTmm someArcsin "s" [1, 2 + 0.5 * I, 1] [none, some 0.2, none] (0 : ℝ) (1 : ℝ) = .ok c ∧ absorpInEachLayer c = .ok a ∧ a.length = 3 ∧ c.R + c.T ≤ 1 := by
  obtain ⟨c, hc', hpass, hx⟩ := slab_facts
  obtain ⟨a, ha, hlen, -⟩ := C142_shares someArcsin someArcsin_sin "s" _ _ 1 0 1 one_pos c hc' (by simp) hpass hx
  exact ⟨c, a, hc', ha, hlen, (C142_RT someArcsin someArcsin_sin "s" _ _ 1 0 1 one_pos c hc' (by simp) hpass hx).2.2.1⟩

end

end Nidn
