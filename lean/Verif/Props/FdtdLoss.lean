/-
C87: the imaginary part of a layer's permittivity in the FDTD solver.
-/
import Mathlib.Analysis.Complex.Trigonometric
import Mathlib.Analysis.Real.Pi.Bounds
import Mathlib.Analysis.SpecialFunctions.Trigonometric.Bounds
import Mathlib.Tactic.LinearCombination
import Verif.Props.FdtdGrid
import Verif.Props.FdtdPipeline

namespace Nidn

/-- the relation between impedance, speed of light and permittivity of vacuum used by the code -/
lemma vacuum_constants : |EPS_0 * MU_0 * SPEED_OF_LIGHT ^ 2 - 1| ≤ 1 / 1000000 := by
  have h1 := Real.pi_gt_d6
  have h2 := Real.pi_lt_d6
  unfold EPS_0 MU_0 SPEED_OF_LIGHT
  rw [abs_le]
  constructor <;> nlinarith

/-- `x cot x` is close to one -/
lemma mul_cot_bounds (x : ℝ) (h0 : 0 < x) (h1 : x ≤ 1) : 1 - x ^ 2 / 2 ≤ x * Real.cos x / Real.sin x ∧ x * Real.cos x / Real.sin x ≤ 1 := by
  have hpi : x < Real.pi / 2 := by have := Real.pi_gt_three; linarith
  have hs : 0 < Real.sin x := Real.sin_pos_of_pos_of_lt_pi h0 (by linarith)
  have hc : 0 < Real.cos x := Real.cos_pos_of_mem_Ioo ⟨by linarith, hpi⟩
  constructor
  · rw [le_div_iff₀ hs]
    have h2 := Real.one_sub_sq_div_two_le_cos (x := x)
    have h3 := Real.sin_lt h0
    nlinarith [mul_le_mul_of_nonneg_left h2 h0.le]
  · rw [div_le_one hs]
    have h2 := Real.lt_tan h0 hpi
    rw [Real.tan_eq_sin_div_cos, lt_div_iff₀ hc] at h2
    exact h2.le

/-- the phase factor of one time step: an oscillation `exp(-i omega t)`, `2 x` its phase per step -/
noncomputable def stepPhase (x : ℝ) : ℂ := ⟨Real.cos (2 * x), -Real.sin (2 * x)⟩

/-- it is `exp(-2ix)` -/
example (x : ℝ) : stepPhase x = Complex.exp (((-(2 * x) : ℝ) : ℂ) * Complex.I) := by
  apply Complex.ext
  · rw [Complex.exp_ofReal_mul_I_re, Real.cos_neg]
    rfl
  · rw [Complex.exp_ofReal_mul_I_im, Real.sin_neg]
    rfl

lemma stepPhase_cot (x : ℝ) (hs : Real.sin x ≠ 0) : (stepPhase x - 1) * (⟨0, Real.cos x / Real.sin x⟩ : ℂ) = stepPhase x + 1 := by
  have h := Real.sin_sq_add_cos_sq x
  apply Complex.ext
  · simp only [stepPhase, Complex.mul_re, Complex.sub_re, Complex.sub_im, Complex.one_re, Complex.one_im, Complex.add_re, Real.cos_two_mul, Real.sin_two_mul]
    field_simp
    ring
  · simp only [stepPhase, Complex.mul_im, Complex.sub_re, Complex.sub_im, Complex.one_re, Complex.one_im, Complex.add_im, Real.cos_two_mul, Real.sin_two_mul]
    field_simp
    linear_combination (2 * Real.cos x) * h

/-- one step of the lossy update on oscillating fields -/
lemma lossy_phasor (C e f x : ℝ) (he : e ≠ 0) (hf : 1 + f ≠ 0) (hs : Real.sin x ≠ 0) (E0 K0 : ℂ)
    (h : (stepPhase x - 1) * (⟨e, e * f * (Real.cos x / Real.sin x)⟩ : ℂ) * E0 = C * K0) (k : ℕ) :
    (E0 * stepPhase x ^ k).re * ((1 - f) / (1 + f)) + C * (1 / e) * (K0 * stepPhase x ^ k).re / (1 + f) = (E0 * stepPhase x ^ (k + 1)).re := by
  have hsplit : (⟨e, e * f * (Real.cos x / Real.sin x)⟩ : ℂ) = (e : ℂ) + (e * f : ℝ) * (⟨0, Real.cos x / Real.sin x⟩ : ℂ) := by
    apply Complex.ext <;> simp
  rw [hsplit] at h
  have hcot := stepPhase_cot x hs
  have key : (C : ℂ) * K0 = e * (((1 + f : ℝ) : ℂ) * stepPhase x - ((1 - f : ℝ) : ℂ)) * E0 := by
    rw [← h]
    push_cast
    linear_combination (e * f : ℂ) * E0 * hcot
  have key2 : ((C : ℂ) * (K0 * stepPhase x ^ k)).re = ((e : ℂ) * ((1 + f : ℝ) * (E0 * stepPhase x ^ (k + 1)) - (1 - f : ℝ) * (E0 * stepPhase x ^ k))).re := by
    congr 1
    rw [pow_succ]
    linear_combination stepPhase x ^ k * key
  rw [Complex.re_ofReal_mul, Complex.re_ofReal_mul, Complex.sub_re, Complex.re_ofReal_mul, Complex.re_ofReal_mul] at key2
  generalize (E0 * stepPhase x ^ (k + 1)).re = a at key2 ⊢
  generalize (E0 * stepPhase x ^ k).re = b at key2 ⊢
  generalize (K0 * stepPhase x ^ k).re = d at key2 ⊢
  field_simp
  linear_combination key2

/-- C87: at every wavelength spanning at least ten cells, a layer of complex permittivity `e` (lossless or lossy, positive real part) acts on fields oscillating at that wavelength like a medium of complex permittivity
`e'` with exactly the same real part and an imaginary part within 3 % of the requested one: in all cells of the layer (outside the source plane) the simulated run continues every oscillation
that satisfies the discrete Ampère law `(z − 1)·e'·E = courant·curl H` with `z = exp(−i·2π·c/λ·Δt)`. -/
theorem C87_layer (c : FdtdCfg) (s : ℝ) (h : LineSetup c s) (wl : ℝ) (hres : 10 * (UNIT_MAGNITUDE / s) ≤ wl) (eps : List ℂ) (hlen : eps.length = c.thick.length) :
    ∃ sim l, initFdtd c s (some eps) wl = .ok sim ∧ layerRanges c s eps.length = .ok l ∧
      ∀ (i : ℕ) (r : ℤ × ℤ) (e : ℂ) (p : Pos), l[i]? = some r → eps[i]? = some e → inRange r (p 0) → 1 ≤ p 1 → p 1 < 3 → p 2 = 0 → (p 0 : ℤ) ≠ sourceCell c s → 0 < e.re → 0 ≤ e.im →
        ∃ e' : ℂ, e'.re = e.re ∧ |e'.im - e.im| ≤ 3 / 100 * e.im ∧
          ∀ (E0 K0 : ℂ), (stepPhase (Real.pi * (299792458 / wl) * sim.numbers.timeStep) - 1) * e' * E0 = sim.numbers.courant * K0 →
            ∀ k, (sim.grid.run k).E p 2 = (E0 * stepPhase (Real.pi * (299792458 / wl) * sim.numbers.timeStep) ^ k).re →
              curlH (sim.grid.run k).H p 2 = (K0 * stepPhase (Real.pi * (299792458 / wl) * sim.numbers.timeStep) ^ k).re →
              (sim.grid.run (k + 1)).E p 2 = (E0 * stepPhase (Real.pi * (299792458 / wl) * sim.numbers.timeStep) ^ (k + 1)).re := by
  obtain ⟨g, prof, hg, -, -, -, H⟩ := initFdtd_line c s h wl
  obtain ⟨l, m, hl, -, hm, hp⟩ := C59_material_partial c s h.geometry g wl eps hlen
  refine ⟨_, l, H (some eps) m hm, hl, fun i r e p hi he hr hy1 hy hz hsrc hre him => ?_⟩
  obtain ⟨hinv, habs⟩ := (hp p hy (by omega)).1 i r e hi he hr
  show ∃ e' : ℂ, e'.re = e.re ∧ |e'.im - e.im| ≤ 3 / 100 * e.im ∧ ∀ (E0 K0 : ℂ), (stepPhase (Real.pi * (299792458 / wl) * g.timeStep) - 1) * e' * E0 = g.courant * K0 →
    ∀ k, ((builtGrid c s wl g m prof).run k).E p 2 = (E0 * stepPhase (Real.pi * (299792458 / wl) * g.timeStep) ^ k).re →
      curlH ((builtGrid c s wl g m prof).run k).H p 2 = (K0 * stepPhase (Real.pi * (299792458 / wl) * g.timeStep) ^ k).re →
      ((builtGrid c s wl g m prof).run (k + 1)).E p 2 = (E0 * stepPhase (Real.pi * (299792458 / wl) * g.timeStep) ^ (k + 1)).re
  -- numbers
  have hlayer : pmlCells c s < r.1 ∧ r.1 ≤ r.2 ∧ r.2 < xSize c s - pmlCells c s := by
    obtain ⟨l', a, -, -, -, -, -, hin⟩ := C59_layers_partial c s h.geometry
    rw [← hlen, hl] at a
    cases a
    obtain ⟨a, b, -, d⟩ := hin r (List.mem_of_getElem? hi)
    exact ⟨a, b, d⟩
  have hP := h.pml
  obtain ⟨s', mm, cc, hs', hmm, hcc, hgeq⟩ := gridInit_inv hg
  have hss := h.geometry.scaling
  have hspace : 0 < UNIT_MAGNITUDE / s := div_pos (by unfold UNIT_MAGNITUDE; norm_num) hss
  have hwl : 0 < wl := by linarith
  have hgs : g.spacing = UNIT_MAGNITUDE / s := by rw [hgeq]
  have hshape : g.shape = (xSize c s, 3, 1) := by
    obtain ⟨g', e1, e2, -⟩ := gridInit_ok (xSize c s) (by omega) (UNIT_MAGNITUDE / s)
    rw [hg] at e1
    cases e1
    exact e2
  obtain ⟨-, hC, ht⟩ := C43_limit _ _ _ _ hg
  have hC0 : 0 < g.courant := by
    obtain ⟨-, hmpos, -⟩ := maxCourant_ok hmm
    rw [hgeq]
    cases hcc
    show 0 < 0.99 * mm
    positivity
  have hspread : spreadAxes g.shape = 2 := by
    rw [hshape]
    unfold spreadAxes
    have : (2 : ℤ) ≤ xSize c s := by omega
    simp [List.filter, this]
  rw [hspread] at hC
  have hC2 : g.courant ^ 2 ≤ 1 / 2 := by
    calc g.courant ^ 2 ≤ (1 / Real.sqrt ((2 : ℕ) : ℝ)) ^ 2 := pow_le_pow_left₀ hC0.le hC 2
      _ = 1 / 2 := by rw [div_pow, one_pow, Real.sq_sqrt (by norm_num)]; norm_num
  generalize hx : Real.pi * (299792458 / wl) * g.timeStep = x
  have hx' : x = Real.pi * g.courant * (UNIT_MAGNITUDE / s / wl) := by
    rw [← hx, ht]
    field_simp
  have hq : UNIT_MAGNITUDE / s / wl ≤ 1 / 10 := by
    rw [div_le_iff₀ hwl]
    linarith
  have hq0 : 0 < UNIT_MAGNITUDE / s / wl := div_pos hspace hwl
  have hx0 : 0 < x := by rw [hx']; have := Real.pi_pos; positivity
  have hxsq : x ^ 2 ≤ 5 / 100 := by
    have hpi : Real.pi ^ 2 ≤ 9.9 := by have := Real.pi_lt_d4; have := Real.pi_pos; nlinarith
    have hq2 : (UNIT_MAGNITUDE / s / wl) ^ 2 ≤ 1 / 100 := by
      calc _ ≤ (1 / 10 : ℝ) ^ 2 := pow_le_pow_left₀ hq0.le hq 2
        _ = 1 / 100 := by norm_num
    rw [hx', mul_pow, mul_pow]
    calc Real.pi ^ 2 * g.courant ^ 2 * (UNIT_MAGNITUDE / s / wl) ^ 2 ≤ 9.9 * (1 / 2) * (1 / 100) :=
          mul_le_mul (mul_le_mul hpi hC2 (sq_nonneg _) (by norm_num)) hq2 (sq_nonneg _) (by norm_num)
      _ ≤ 5 / 100 := by norm_num
  have hx1 : x ≤ 1 := by nlinarith
  have hsin : Real.sin x ≠ 0 := (Real.sin_pos_of_pos_of_lt_pi hx0 (by have := Real.pi_gt_three; linarith)).ne'
  -- absorption
  have hf : m.absorb p 2 = x * (EPS_0 * MU_0 * SPEED_OF_LIGHT ^ 2) * e.im / e.re := by
    rw [habs, hx', hgs]
    unfold layerCond ETA_0
    field_simp
  obtain ⟨hk1, hk2⟩ := abs_le.1 vacuum_constants
  have hf0 : 0 ≤ m.absorb p 2 := by
    rw [hf]
    have : 0 ≤ EPS_0 * MU_0 * SPEED_OF_LIGHT ^ 2 := by linarith
    positivity
  refine ⟨⟨e.re, e.re * m.absorb p 2 * (Real.cos x / Real.sin x)⟩, rfl, ?_, fun E0 K0 hrel k hE hK => ?_⟩
  · have e1 : e.re * m.absorb p 2 * (Real.cos x / Real.sin x) = EPS_0 * MU_0 * SPEED_OF_LIGHT ^ 2 * (x * Real.cos x / Real.sin x) * e.im := by
      rw [hf]
      field_simp
    show |e.re * m.absorb p 2 * (Real.cos x / Real.sin x) - e.im| ≤ _
    rw [e1]
    generalize EPS_0 * MU_0 * SPEED_OF_LIGHT ^ 2 = kap at hk1 hk2
    obtain ⟨b1, b2⟩ := mul_cot_bounds x hx0 hx1
    generalize x * Real.cos x / Real.sin x = y at b1 b2
    have hy1 : 0.975 ≤ y := by norm_num; linarith
    have e2 : kap * y * e.im - e.im = (kap * y - 1) * e.im := by ring
    rw [e2, abs_mul, abs_of_nonneg him]
    refine mul_le_mul_of_nonneg_right ?_ him
    rw [abs_le]
    constructor <;> nlinarith
  · have hstep : ((builtGrid c s wl g m prof).run (k + 1)).E p 2 = bulkE ((builtGrid c s wl g m prof).run k) p 2 := by
      show ((builtGrid c s wl g m prof).run k).newE p 2 = _
      have hN := xSize_toNat c s h.geometry
      rw [FGrid.newE, applySourcesE_untouched, applyBoundariesE_untouched]
      · intro b hb
        simp only [FGrid.phasedE, List.mem_map] at hb
        obtain ⟨b', hb', rfl⟩ := hb
        rw [FBoundary.touchesE_phiE, run_n]
        refine run_boundaries_all (fun b => ¬ b.touchesE (builtGrid c s wl g m prof).n p) (builtGrid c s wl g m prof) ?_ ?_ ?_ k b' hb'
        · intro b H hb; rwa [FBoundary.touchesE_phiE]
        · intro b H hb; rwa [FBoundary.touchesE_phiH]
        · have hb0 : (builtGrid c s wl g m prof).boundaries =
              [.pml (mkPml 0 false (pmlCells c s).toNat 1e-8 g.courant), .pml (mkPml 0 true (pmlCells c s).toNat 1e-8 g.courant), .periodic 1] := rfl
          rw [hb0]
          unfold inRange at hr
          simp only [List.forall_mem_cons, List.not_mem_nil, false_imp_iff, implies_true, and_true]
          refine ⟨?_, ?_, ?_⟩
          · intro hin
            have : p 0 < 0 + (pmlCells c s).toNat := hin.2
            omega
          · intro hin
            have : (xSize c s).toNat - (pmlCells c s).toNat ≤ p 0 := hin.1
            omega
          · intro hin
            have : p 1 = 0 := hin
            omega
      · intro b hb
        rw [run_sources] at hb
        have hb0 : (builtGrid c s wl g m prof).sources =
          [.soft fun q => lineUpdateE (crossCells (sourceCell c s)) prof (signalValue (lineSignal g (simSpec wl c.pulse)) q) (fun _ _ => 0)] := rfl
        rw [hb0, List.mem_singleton] at hb
        subst hb
        rintro ⟨t, c', hne⟩
        refine hne (lineUpdate_zero _ _ _ _ _ fun hmem => hsrc ?_)
        rw [crossCells_x hmem]
        have := h.sourceLow
        omega
    rw [hstep]
    unfold bulkE
    rw [run_absorb, run_courant, run_invEps, hE, hK]
    show _ * ((1 - m.absorb p 2) / (1 + m.absorb p 2)) + g.courant * m.invEps p 2 * _ / (1 + m.absorb p 2) = _
    rw [hinv]
    exact lossy_phasor g.courant e.re (m.absorb p 2) x hre.ne' (by linarith) hsin E0 K0 hrel k

/-- C87: a layer's absorption is zero exactly if its permittivity is real, and positive exactly if the imaginary part is positive. -/
theorem C87_passive (c : FdtdCfg) (s : ℝ) (h : LineSetup c s) (wl : ℝ) (hwl : 0 < wl) (eps : List ℂ) (hlen : eps.length = c.thick.length) :
    ∃ sim l, initFdtd c s (some eps) wl = .ok sim ∧ layerRanges c s eps.length = .ok l ∧
      ∀ (i : ℕ) (r : ℤ × ℤ) (e : ℂ) (p : Pos), l[i]? = some r → eps[i]? = some e → inRange r (p 0) → p 1 < 3 → p 2 = 0 → 0 < e.re →
        (sim.grid.absorb p 2 = 0 ↔ e.im = 0) ∧ (0 < sim.grid.absorb p 2 ↔ 0 < e.im) := by
  obtain ⟨g, prof, hg, -, -, -, H⟩ := initFdtd_line c s h wl
  obtain ⟨l, m, hl, -, hm, hp⟩ := C59_material_partial c s h.geometry g wl eps hlen
  refine ⟨_, l, H (some eps) m hm, hl, fun i r e p hi he hr hy hz hre => ?_⟩
  obtain ⟨-, habs⟩ := (hp p hy (by omega)).1 i r e hi he hr
  show (m.absorb p 2 = 0 ↔ e.im = 0) ∧ (0 < m.absorb p 2 ↔ 0 < e.im)
  obtain ⟨s', mm, cc, hs', hmm, hcc, hgeq⟩ := gridInit_inv hg
  have hC0 : 0 < g.courant := by
    obtain ⟨-, hmpos, -⟩ := maxCourant_ok hmm
    rw [hgeq]
    cases hcc
    show 0 < 0.99 * mm
    positivity
  have hgs : 0 < g.spacing := by
    rw [hgeq]
    exact div_pos (by unfold UNIT_MAGNITUDE; norm_num) h.geometry.scaling
  have hk : m.absorb p 2 = (1 / 2 * g.courant * (1 / e.re) * ((SPEED_OF_LIGHT / wl) * 2 * Real.pi * EPS_0) * g.spacing * ETA_0) * e.im := by
    rw [habs]
    unfold layerCond
    ring
  have hpos : 0 < 1 / 2 * g.courant * (1 / e.re) * ((SPEED_OF_LIGHT / wl) * 2 * Real.pi * EPS_0) * g.spacing * ETA_0 := by
    have := Real.pi_pos
    unfold ETA_0 MU_0 EPS_0 SPEED_OF_LIGHT
    positivity
  rw [hk]
  exact ⟨by rw [mul_eq_zero]; exact ⟨fun h => h.resolve_left hpos.ne', Or.inr⟩, mul_pos_iff_of_pos_left hpos⟩

/-- the default geometry with a lossy first layer at 2 µm -/
example : LineSetup (expandThick (fdtdDefaultWith (3 / 2) 2 [1])) 10 ∧ 10 * (UNIT_MAGNITUDE / 10) ≤ (2e-6 : ℝ) ∧
    ((⟨3, 0.5⟩ :: List.replicate 7 1 : List ℂ)).length = (expandThick (fdtdDefaultWith (3 / 2) 2 [1])).thick.length :=
  ⟨default_setup, by unfold UNIT_MAGNITUDE; norm_num, rfl⟩

end Nidn
