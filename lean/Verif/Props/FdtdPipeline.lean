/-
C53, C61, C66, C67: the FDTD solver as a whole.
-/
import Verif.Props.FdtdStack
import Verif.Props.FdtdSpeed
import Verif.Props.FdtdCoefficients
import Verif.Props.RcwaDriver

set_option linter.unusedSectionVars false

namespace Nidn

/-! ### C66 vacuum -/

lemma addLayers_vacuum (g : GridNumbers) (N : ℕ) (wl : ℝ) (m : Materials ℝ) (hm : ∀ p c, m.invEps p c = 1 ∧ m.absorb p c = 0) : ∀ L : List ((ℤ × ℤ) × ℂ),
    (∀ e ∈ L, 0 ≤ e.1.1 ∧ e.1.1 ≤ e.1.2 ∧ e.1.2 ≤ N) → (∀ e ∈ L, e.2 = 1) → addLayers g ![N, 3, 1] wl m L = .ok m := by
  intro L
  induction L with
  | nil => intro _ _; rfl
  | cons e L ih =>
    intro hb h1
    obtain ⟨r, eps⟩ := e
    obtain ⟨a, b, d⟩ := hb _ (List.mem_cons_self ..)
    have he : eps = 1 := h1 _ (List.mem_cons_self ..)
    have h := (C54_vacuum ![N, 3, 1] g.courant g.spacing ETA_0 m hm ![sl (some r.1) (some r.2), .slice fullSlice, .slice fullSlice] (layerKey N r a b d) rfl).1
    unfold addLayers
    have hl : addLayer g ![N, 3, 1] wl m r eps = .ok m := by
      unfold addLayer
      rw [he, Complex.one_re, Complex.one_im, show (0 : ℝ) * (SPEED_OF_LIGHT / wl) * 2 * Real.pi * EPS_0 = 0 by ring]
      exact h
    rw [hl]
    exact ih (fun e he => hb e (List.mem_cons_of_mem _ he)) fun e he => h1 e (List.mem_cons_of_mem _ he)

/-- C66, fields: a structure all of whose layers have permittivity one records exactly the signals of the free-space simulation, for every source and number of steps. -/
theorem C66_signals (c : FdtdCfg) (s : ℝ) (h : LineSetup c s) (wl : ℝ) (eps : List ℂ) (hlen : eps.length = c.thick.length) (h1 : ∀ e ∈ eps, e = 1) :
    simulate c s (some eps) wl = simulate c s none wl := by
  obtain ⟨g, prof, -, -, -, -, H⟩ := initFdtd_line c s h wl
  obtain ⟨l, hl, -, -, -, -, -, hin⟩ := C59_layers_partial c s h.geometry
  have hN := xSize_toNat c s h.geometry
  have hP := h.pml
  have hstack : addStack c s g ![(xSize c s).toNat, 3, 1] wl ⟨fun _ _ => 1 / 1, fun _ _ => 0⟩ (some eps) = .ok ⟨fun _ _ => 1 / 1, fun _ _ => 0⟩ := by
    show (layerRanges c s eps.length >>= fun ranges => addLayers g ![(xSize c s).toNat, 3, 1] wl ⟨fun _ _ => 1 / 1, fun _ _ => 0⟩ (ranges.zip eps)) = _
    rw [hlen, hl, ok_bind]
    refine addLayers_vacuum g _ wl _ (fun _ _ => ⟨by norm_num, rfl⟩) _ ?_ fun e he => h1 _ (List.of_mem_zip (by exact he)).2
    rintro ⟨r, e⟩ he
    obtain ⟨a, b, -, d⟩ := hin r (List.of_mem_zip he).1
    simp only
    omega
  unfold simulate
  rw [H (some eps) _ hstack, H none _ rfl]

/-- C66, solver: a vacuum slice of the permittivity tensor is reported to reflect nothing, and to transmit everything when transient removal keeps the same tail of the recorded signal for both runs. -/
theorem C66_solver_partial (c : FdtdCfg) (s : ℝ) (h : LineSetup c s) (wl : ℝ) (g : Grid4 ℂ) (i : ℕ) (hsl : g.sl = c.thick.length) (h1 : ∀ l < g.sl, g.val 0 0 l i = some 1)
    (T R : ℝ) (hok : fdtdPoint c s g i wl = .ok (T, R)) :
    R = 0 ∧ ∃ t r, simulate c s none wl = .ok (t, r) ∧
      (eliminateTransient (windowSize c.minGp wl).toNat true t = eliminateTransient (windowSize c.minGp wl).toNat false t → T = 1) := by
  have hlen : (layerEps g i).length = c.thick.length := by simp [layerEps, hsl]
  have hone : ∀ e ∈ layerEps g i, e = 1 := by
    intro e he
    obtain ⟨l, hl, rfl⟩ := List.mem_map.1 he
    rw [h1 l (List.mem_range.1 hl)]
    rfl
  unfold fdtdPoint at hok
  by_cases hi : g.sf ≤ i
  · rw [if_pos hi] at hok; cases hok
  rw [if_neg hi, C66_signals c s h wl _ hlen hone] at hok
  obtain ⟨u, -, hok⟩ := bind_ok.1 hok
  obtain ⟨fr, hfr, hok⟩ := bind_ok.1 hok
  obtain ⟨mt, hmt, hok⟩ := bind_ok.1 hok
  rw [hfr] at hmt
  cases hmt
  obtain ⟨hR, hT⟩ := C66_partial _ _ _ T R hok
  exact ⟨hR, fr.1, fr.2, hfr, hT⟩

/-! ### C53 too few steps -/

lemma lineUpdate_zero (cells : List Pos) (prof : List ℝ) (w : ℝ) (p : Pos) (c : Fin 3) (hp : p ∉ cells) : lineUpdateE cells prof w (fun _ _ => (0 : ℝ)) p c = 0 :=
  (C57_update cells prof w (fun _ _ => 0)).2.2 p c hp

/-- the planes something acts on in a built grid: the source line and both PMLs -/
def activePlane (c : FdtdCfg) (s : ℝ) (x : ℕ) : Prop :=
  (x : ℤ) = sourceCell c s ∨ (x : ℤ) < pmlCells c s ∨ xSize c s - pmlCells c s ≤ x

lemma builtGrid_extended (c : FdtdCfg) (s : ℝ) (h : LineSetup c s) (wl : ℝ) (g : GridNumbers) (m : Materials ℝ) (prof : List ℝ) :
    ∃ g0, Dark g0 ∧ Extended 0 (activePlane c s) g0 (builtGrid c s wl g m prof) := by
  refine ⟨{ builtGrid c s wl g m prof with boundaries := [.periodic 1], sources := [] }, ⟨fun _ _ => rfl, fun _ _ => rfl, rfl, ?_⟩, ⟨rfl, rfl, rfl, rfl, rfl, rfl, rfl, rfl, ?_, ?_, ?_⟩⟩
  · intro b hb
    exact ⟨1, by simpa using hb⟩
  · refine .extra _ (fun p hp => ⟨?_, fun h => h⟩) .nil
    rintro ⟨t, c', hne⟩
    refine hne (lineUpdate_zero _ _ _ _ _ fun hmem => hp (Or.inl ?_))
    have := h.sourceLow
    simp only [crossCells, List.mem_cons, List.not_mem_nil, or_false] at hmem
    rcases hmem with rfl | rfl | rfl <;> (show (((sourceCell c s).toNat : ℕ) : ℤ) = _; omega)
  · have hP := h.pml
    have hN := xSize_toNat c s h.geometry
    have hlt : pmlCells c s ≤ xSize c s := by
      obtain ⟨-, -, -, -, -, h0, h1, h2, -⟩ := C59_detectors_partial c s h.geometry
      obtain ⟨l, hl, hll, -, -, -, -, hin⟩ := C59_layers_partial c s h.geometry
      have hpos : 0 < l.length := by rw [hll]; exact List.length_pos_iff.2 h.geometry.layers
      have hi := hin _ (List.getElem_mem hpos)
      omega
    refine .extra _ ⟨_, rfl, fun p hp hin => hp (Or.inr (Or.inl ?_))⟩ (.extra _ ⟨_, rfl, fun p hp hin => hp (Or.inr (Or.inr ?_))⟩ (.keep _ .nil))
    · have : p 0 < 0 + (pmlCells c s).toNat := hin.2
      omega
    · have : (xSize c s).toNat - (pmlCells c s).toNat ≤ p 0 := hin.1
      omega
  · intro b hb
    simp only [List.mem_singleton] at hb
    subst hb
    intro h
    cases h

lemma crossCells_x {x : ℤ} {p : Pos} (h : p ∈ crossCells x) : p 0 = x.toNat := by
  simp only [crossCells, List.mem_cons, List.not_mem_nil, or_false] at h
  rcases h with rfl | rfl | rfl <;> rfl

lemma run_detectors (c : FdtdCfg) (s wl : ℝ) (g : GridNumbers) (m : Materials ℝ) (prof : List ℝ) (k : ℕ) :
    ∃ t r, ((builtGrid c s wl g m prof).run k).detectors = [t, r] ∧ t.cells = crossCells (tDetectorX c s) ∧ t.recE.length = k ∧ r.recE.length = k ∧
      t.recE = (List.range k).map (fun i => (crossCells (tDetectorX c s)).map fun p => ((builtGrid c s wl g m prof).run (i + 1)).E p) := by
  rw [C56_samples]
  exact ⟨_, _, rfl, rfl, by simp, by simp, by simp⟩

/-- A wavelength of at least one cell can be driven by all three pulse types. -/
lemma lineSignal_ok (x : ℤ) (s wl : ℝ) (hs : 0 < s) (hwl : UNIT_MAGNITUDE / s ≤ wl) (pulse : String) (gn : GridNumbers)
    (hg : gridInit [.int x, .int 3, .int 1] (UNIT_MAGNITUDE / s) none = .ok gn) (q : ℕ) : ∃ v, lineSignal gn (simSpec wl pulse) q = .ok v := by
  have hU : 0 < UNIT_MAGNITUDE / s := div_pos (by unfold UNIT_MAGNITUDE; norm_num) hs
  have hwl0 : 0 < wl := hU.trans_le hwl
  obtain ⟨h1, h2, h3⟩ := C43_limit _ _ _ _ hg
  obtain ⟨h4, -⟩ := C43_default _ _ _ hg
  have hc1 : gn.courant ≤ 1 := by
    refine h2.trans ?_
    rw [div_le_one (by positivity)]
    exact Real.one_le_sqrt.2 (by exact_mod_cast h1)
  have hdt : 0 < gn.timeStep := by rw [h3]; positivity
  have hc : (0 : ℝ) < SPEED_OF_LIGHT := by unfold SPEED_OF_LIGHT; norm_num
  have hT : 1 ≤ wl / SPEED_OF_LIGHT / gn.timeStep := by
    rw [h3, show (299792458 : ℝ) = SPEED_OF_LIGHT by unfold SPEED_OF_LIGHT; norm_num, le_div_iff₀ (by positivity), one_mul]
    refine div_le_div_of_nonneg_right (le_trans ?_ hwl) hc.le
    nlinarith
  have hh : handleTime gn.timeStep (simSpec wl pulse).period ≠ 0 := by
    show pyTrunc (wl / SPEED_OF_LIGHT / gn.timeStep + 1 / 2) ≠ 0
    rw [pyTrunc_of_nonneg (by linarith)]
    have : (1 : ℤ) ≤ ⌊wl / SPEED_OF_LIGHT / gn.timeStep + 1 / 2⌋ := Int.le_floor.2 (by push_cast; linarith)
    omega
  have hp : (simSpec wl pulse).period.val ≠ 0 := (div_pos hwl0 hc).ne'
  unfold lineSignal
  rw [if_neg hp]
  by_cases a : (simSpec wl pulse).signal = "hanning"
  · rw [if_pos a, if_neg (by norm_num [simSpec, SourceSpec.dt])]
    split_ifs <;> exact ⟨_, rfl⟩
  · rw [if_neg a]
    by_cases b : (simSpec wl pulse).signal = "ricker"
    · rw [if_pos b]
      split_ifs <;> exact ⟨_, rfl⟩
    · rw [if_neg b, if_neg hh]
      exact ⟨_, rfl⟩

/-- C53, solver: when the number of steps is at most the distance of the transmission detector from the source and from the PMLs, no spectrum is reported: the solver raises a ValueError
(for wavelengths of at least one cell, which `C60_spectrum` shows all of a spectrum to be). -/
theorem C53_solver_partial (c : FdtdCfg) (s : ℝ) (h : LineSetup c s) (wl : ℝ) (g : Grid4 ℂ) (i : ℕ) (hi : i < g.sf) (hsl : g.sl = c.thick.length)
    (hchk : checkTimesteps c (sliceEntries g i) = .ok ()) (hk : 1 ≤ c.niter)
    (hwl : UNIT_MAGNITUDE / s ≤ wl)
    (hfar : ∀ x : ℕ, activePlane c s x → tDetectorX c s + c.niter ≤ x ∨ x + c.niter ≤ tDetectorX c s) :
    fdtdPoint c s g i wl = .error .valueError := by
  obtain ⟨gn, prof, hgn, -, -, -, H⟩ := initFdtd_line c s h wl
  obtain ⟨l, m, -, -, hm, -⟩ := C59_material_partial c s h.geometry gn wl (layerEps g i) (by simp [layerEps, hsl])
  have hsteps : ∀ ts, runSteps ts (.int c.niter : PyNum ℝ) = c.niter.toNat := fun _ => rfl
  have hmap : ∃ vs, (List.range c.niter.toNat).mapM (lineSignal gn (simSpec wl c.pulse)) = Except.ok vs := by
    choose v hv using lineSignal_ok _ s wl h.geometry.scaling hwl c.pulse gn hgn
    exact ⟨_, mapM_all_ok _ v _ fun q _ => hv q⟩
  obtain ⟨vs, hvs⟩ := hmap
  have hsim : ∀ layers m', addStack c s gn ![(xSize c s).toNat, 3, 1] wl ⟨fun _ _ => 1 / 1, fun _ _ => 0⟩ layers = .ok m' →
      ∃ t r : FDetector ℝ, simulate c s layers wl = .ok (detectorSignal t.recE, detectorSignal r.recE) ∧ ((builtGrid c s wl gn m' prof).run c.niter.toNat).detectors = [t, r] ∧
        t.cells = crossCells (tDetectorX c s) ∧ t.recE.length = c.niter.toNat ∧ r.recE.length = c.niter.toNat ∧
        t.recE = (List.range c.niter.toNat).map (fun i => (crossCells (tDetectorX c s)).map fun p => ((builtGrid c s wl gn m' prof).run (i + 1)).E p) := by
    intro layers m' hm'
    obtain ⟨t, r, hd, ht, hl1, hl2, hrec⟩ := run_detectors c s wl gn m' prof c.niter.toNat
    refine ⟨t, r, ?_, hd, ht, hl1, hl2, hrec⟩
    unfold simulate
    rw [H layers m' hm', ok_bind]
    unfold runSimulation
    simp only [hsteps]
    rw [hvs, ok_bind, hd]
  obtain ⟨t0, r0, hs0, -, -, hl0, hlr0, hrec⟩ := hsim none _ rfl
  obtain ⟨t1, r1, hs1, -, -, -, hlr1, -⟩ := hsim _ m hm
  unfold fdtdPoint
  rw [if_neg (by omega), hchk, ok_bind, hs0, ok_bind, hs1, ok_bind]
  refine coefficients_zero _ _ _ _ _ ?_ ?_ (by simp [detectorSignal, hlr0, hlr1])
  · intro he
    have := congrArg List.length he
    simp only [detectorSignal, List.length_map, List.length_nil] at this
    omega
  · intro v hv
    obtain ⟨x, hx, rfl⟩ := List.mem_map.1 hv
    obtain ⟨gD, hD, hE⟩ := builtGrid_extended c s h wl gn ⟨fun _ _ => 1 / 1, fun _ _ => 0⟩ prof
    rw [hrec] at hx
    obtain ⟨k, hk', rfl⟩ := List.mem_map.1 hx
    rw [List.mem_range] at hk'
    have ht0 : 0 ≤ tDetectorX c s := by
      obtain ⟨l, hl, hin, -, -, h0, h1, -⟩ := C59_detectors_partial c s h.geometry
      obtain ⟨l', hl', hll, -⟩ := C59_layers_partial c s h.geometry
      rw [hl] at hl'
      cases hl'
      have hpos : 0 < l.length := by rw [hll]; exact List.length_pos_iff.2 h.geometry.layers
      have hr := hin _ (List.getElem_mem hpos)
      obtain ⟨l', hl', -, -, -, -, -, hin'⟩ := C59_layers_partial c s h.geometry
      rw [hl] at hl'
      cases hl'
      have hr' := hin' _ (List.getElem_mem hpos)
      have := h.geometry.gap
      omega
    rw [averageStep_eq]
    have hz : ∀ p ∈ crossCells (tDetectorX c s), ((builtGrid c s wl gn ⟨fun _ _ => 1 / 1, fun _ _ => 0⟩ prof).run (k + 1)).E p 2 = 0 := by
      intro p hp
      refine C53_dark gD _ hD hE (k + 1) p 2 fun x hx => ?_
      have := hfar x hx
      rw [crossCells_x hp]
      omega
    have : ((crossCells (tDetectorX c s)).map fun p => ((builtGrid c s wl gn ⟨fun _ _ => 1 / 1, fun _ _ => 0⟩ prof).run (k + 1)).E p).map (fun p => p 2) = [0, 0, 0] := by
      show [_, _, _] = _
      beta_reduce
      rw [hz ![(tDetectorX c s).toNat, 0, 0] (by simp [crossCells]), hz ![(tDetectorX c s).toNat, 1, 0] (by simp [crossCells]), hz ![(tDetectorX c s).toNat, 2, 0] (by simp [crossCells])]
    rw [this]
    simp

/-- the default config with detector distance `gap` and `n` steps -/
noncomputable def fdtdDefaultRun (gap n : ℤ) : FdtdCfg := { fdtdDefaultWith (3 / 2) gap (List.replicate 8 1) with niter := n }

lemma defaultRun_cells (gap n : ℤ) : pmlCells (fdtdDefaultRun gap n) 10 = 15 ∧ sourceCell (fdtdDefaultRun gap n) 10 = 15 ∧ xSize (fdtdDefaultRun gap n) 10 = 130 ∧
    tDetectorX (fdtdDefaultRun gap n) 10 = 105 + gap := by
  have t : ∀ z : ℤ, pyTrunc (z : ℝ) = z := fun z => by unfold pyTrunc; split_ifs <;> simp
  refine ⟨?_, ?_, ?_, ?_⟩
  · unfold pmlCells
    rw [show _ * (10 : ℝ) = ((15 : ℤ) : ℝ) by norm_num [fdtdDefaultWith, fdtdDefaultRun], t]
  · unfold sourceCell
    rw [show _ * (10 : ℝ) = ((15 : ℤ) : ℝ) by norm_num [fdtdDefaultWith, fdtdDefaultRun], t]
  · unfold xSize
    rw [show (10 : ℝ) * _ = ((130 : ℤ) : ℝ) by norm_num [fdtdDefaultWith, fdtdDefaultRun], t]
  · unfold tDetectorX
    rw [show _ * (10 : ℝ) + _ = ((105 + gap : ℤ) : ℝ) by norm_num [fdtdDefaultWith, fdtdDefaultRun], t]

lemma defaultRun_setup (gap n : ℤ) (hg : 0 < gap) (hg' : gap ≤ 10) : LineSetup (fdtdDefaultRun gap n) 10 := by
  obtain ⟨h1, h2, h3, -⟩ := defaultRun_cells gap n
  refine ⟨⟨by norm_num, by norm_num [fdtdDefaultWith, fdtdDefaultRun], by norm_num [fdtdDefaultWith, fdtdDefaultRun], hg, ?_, by simp [fdtdDefaultWith, fdtdDefaultRun], ?_⟩,
    by rw [h1]; norm_num, rfl, Or.inl rfl, by simp [fdtdDefaultWith, fdtdDefaultRun], by rw [h2]; norm_num, by rw [h2, h3]; norm_num⟩
  · show gap ≤ ⌊(10 : ℝ) * 1⌋
    norm_num [hg']
  · intro t ht
    rw [List.eq_of_mem_replicate ht]
    norm_num

/-- The default config with eight steps (instead of 200) meets the hypotheses of `C53_solver_partial` for a stack of permittivity two. -/
example : fdtdPoint (fdtdDefaultRun 2 8) 10 ⟨1, 1, 8, 1, fun _ _ _ _ => some 2⟩ 0 (1 / 1000000) = .error .valueError := by
  obtain ⟨h1, h2, h3, h4⟩ := defaultRun_cells 2 8
  refine C53_solver_partial _ 10 (defaultRun_setup 2 8 (by norm_num) (by norm_num)) _ _ 0 (by decide) (by simp [fdtdDefaultWith, fdtdDefaultRun]) ?_ (by simp [fdtdDefaultRun]) ?_ ?_
  · unfold checkTimesteps
    rw [if_neg (by simp [fdtdDefaultWith, fdtdDefaultRun]), if_neg (by decide), if_neg]
    rintro (h | h)
    · revert h; simp [sliceEntries]
    · have := h (some 2) (by simp [sliceEntries]) 2 rfl
      norm_num at this
  · unfold UNIT_MAGNITUDE; norm_num
  · intro x hx
    unfold activePlane at hx
    rw [h1, h2, h3] at hx
    rw [h4]
    show _ + 8 ≤ _ ∨ _ + 8 ≤ _
    omega

/-! ### C53 and the absorbing layers -/

lemma built_first (c : FdtdCfg) (s : ℝ) (wl : ℝ) (g : GridNumbers) (prof : List ℝ) (p : Pos) (k : Fin 3)
    (hlow : (pmlCells c s).toNat ≤ p 0) (h1 : (xSize c s).toNat - (pmlCells c s).toNat ≤ p 0) (h2 : p 0 < (xSize c s).toNat - (pmlCells c s).toNat + (pmlCells c s).toNat)
    (hs : p 0 ≠ (sourceCell c s).toNat) :
    ((builtGrid c s wl g ⟨fun _ _ => 1 / 1, fun _ _ => 0⟩ prof).run 1).E p k = g.courant * (1 / 10 ^ 16) := by
  have hlo : ∀ q : Pos, (pmlCells c s).toNat ≤ q 0 → ¬ ((mkPml 0 false (pmlCells c s).toNat 1e-8 g.courant).updatePhiE ![(xSize c s).toNat, 3, 1] (fun _ _ => 0)).inside ![(xSize c s).toNat, 3, 1] q := by
    intro q hq hin
    have : q 0 < 0 + (pmlCells c s).toNat := hin.2
    omega
  have hhi : ∀ q : Pos, q 0 = p 0 → ((mkPml 0 true (pmlCells c s).toNat 1e-8 g.courant).updatePhiE ![(xSize c s).toNat, 3, 1] (fun _ _ => 0)).inside ![(xSize c s).toNat, 3, 1] q := by
    intro q hq
    refine ⟨?_, ?_⟩
    · show (xSize c s).toNat - (pmlCells c s).toNat ≤ q 0
      omega
    · show q 0 < (xSize c s).toNat - (pmlCells c s).toNat + (pmlCells c s).toNat
      omega
  have hphi := phiE_dark ![(xSize c s).toNat, 3, 1] (mkPml 0 true (pmlCells c s).toNat 1e-8 g.courant) (fun _ _ _ => rfl) (fun _ _ => 0) (fun _ _ => rfl)
  have hbulk : ∀ q : Pos, bulkE (builtGrid c s wl g ⟨fun _ _ => 1 / 1, fun _ _ => 0⟩ prof) q k = 0 := by
    intro q
    have hz : ∀ a c, dDn (fun _ _ => (0 : ℝ)) a c q = 0 := fun a c => by simp [dDn]
    have hc : curlH (fun _ _ => (0 : ℝ)) q k = 0 := by fin_cases k <;> simp [curlH, hz]
    show (0 : ℝ) * _ + _ * _ * curlH (fun _ _ => (0 : ℝ)) q k / _ = 0
    rw [hc]; ring
  have key : ∀ q : Pos, q 0 = p 0 →
      (Pml.updateE ![(xSize c s).toNat, 3, 1] g.courant (fun _ _ => 1 / 1) ((mkPml 0 true (pmlCells c s).toNat 1e-8 g.courant).updatePhiE ![(xSize c s).toNat, 3, 1] (fun _ _ => 0))
        (Pml.updateE ![(xSize c s).toNat, 3, 1] g.courant (fun _ _ => 1 / 1) ((mkPml 0 false (pmlCells c s).toNat 1e-8 g.courant).updatePhiE ![(xSize c s).toNat, 3, 1] (fun _ _ => 0))
          (bulkE (builtGrid c s wl g ⟨fun _ _ => 1 / 1, fun _ _ => 0⟩ prof)))) q k = g.courant * (1 / 10 ^ 16) := by
    intro q hq
    unfold Pml.updateE
    rw [if_pos (hhi q hq), if_neg (hlo q (by omega)), hbulk, hphi]
    simp [pmlTiny]
  show (periodicE ![(xSize c s).toNat, 3, 1] 1 (Pml.updateE ![(xSize c s).toNat, 3, 1] g.courant (fun _ _ => 1 / 1) ((mkPml 0 true (pmlCells c s).toNat 1e-8 g.courant).updatePhiE ![(xSize c s).toNat, 3, 1] (fun _ _ => 0))
        (Pml.updateE ![(xSize c s).toNat, 3, 1] g.courant (fun _ _ => 1 / 1) ((mkPml 0 false (pmlCells c s).toNat 1e-8 g.courant).updatePhiE ![(xSize c s).toNat, 3, 1] (fun _ _ => 0))
          (bulkE (builtGrid c s wl g ⟨fun _ _ => 1 / 1, fun _ _ => 0⟩ prof))))) p k
    + lineUpdateE (crossCells (sourceCell c s)) prof (signalValue (lineSignal g (simSpec wl c.pulse)) 0) (fun _ _ => 0) p k = _
  rw [lineUpdate_zero _ _ _ _ _ fun hmem => hs (crossCells_x hmem), add_zero]
  unfold periodicE
  by_cases hp : p 1 = 0
  · rw [if_pos hp]
    exact key _ rfl
  · rw [if_neg hp]
    exact key _ rfl

/-- C53, "records exactly zero", is false next to an absorbing layer: the default config with a detector distance of ten cells is accepted; its transmission detector is 100 cells from the source and yet the first step
already records a nonzero value there (the absorbing layer adds 1e-16 in every step). -/
theorem C53_pml_false :
    ∃ c f, validateConfig c = .ok () ∧ ReadsAs c f ∧ gridScaling f.freq.wlMin f.minGp = .ok 10 ∧ (expandThick f).niter = 1 ∧ sourceCell (expandThick f) 10 = 15 ∧ tDetectorX (expandThick f) 10 = 115 ∧
      ∃ v r, simulate (expandThick f) 10 none (1 / 1000000) = .ok ([v], r) ∧ v ≠ 0 := by
  have he : expandThick { fdtdDefaultWith (3 / 2) 10 [1] with niter := 1 } = fdtdDefaultRun 10 1 := rfl
  obtain ⟨h1, h2, h3, h4⟩ := defaultRun_cells 10 1
  have hL := defaultRun_setup 10 1 (by norm_num) (by norm_num)
  refine ⟨(fdtdDefault.set "FDTD_gridpoints_from_material_to_detector" (.int 10)).set "FDTD_niter" (.int 1), { fdtdDefaultWith (3 / 2) 10 [1] with niter := 1 }, by decide +kernel, ?_, scaling_default, rfl,
    by rw [he, h2], by rw [he, h4]; rfl, ?_⟩
  · exact ⟨fdtdDefault_reads.wavelengths, fdtdDefault_reads.nFreq, rfl, fdtdDefault_reads.minGp, fdtdDefault_reads.pml, fdtdDefault_reads.free, fdtdDefault_reads.thick,
      fdtdDefault_reads.nLayers, ⟨_, rfl, Denotes.int 10⟩, fdtdDefault_reads.source, rfl, rfl, ⟨_, rfl, Denotes.int 1⟩⟩
  · rw [he]
    obtain ⟨gn, prof, hgn, -, -, -, H⟩ := initFdtd_line _ 10 hL (1 / 1000000)
    obtain ⟨v0, hv0⟩ := lineSignal_ok _ 10 (1 / 1000000) (by norm_num) (by unfold UNIT_MAGNITUDE; norm_num) (fdtdDefaultRun 10 1).pulse gn hgn 0
    obtain ⟨t, r, hd, -, -, -, hrec⟩ := run_detectors (fdtdDefaultRun 10 1) 10 (1 / 1000000) gn ⟨fun _ _ => 1 / 1, fun _ _ => 0⟩ prof 1
    have hE : ∀ p : Pos, p 0 = 115 → ((builtGrid (fdtdDefaultRun 10 1) 10 (1 / 1000000) gn ⟨fun _ _ => 1 / 1, fun _ _ => 0⟩ prof).run 1).E p 2 = gn.courant * (1 / 10 ^ 16) := by
      intro p hp
      refine built_first _ _ _ _ _ p 2 ?_ ?_ ?_ ?_
      all_goals
        rw [hp]
        try rw [h1]
        try rw [h3]
        try rw [h2]
        decide
    have hsig : detectorSignal t.recE = [gn.courant * (1 / 10 ^ 16)] := by
      rw [hrec]
      show [averageStep _] = _
      rw [averageStep_eq]
      show [((_ : ℝ) + (_ + (_ + 0))) / ((3 : ℕ) : ℝ)] = _
      beta_reduce
      rw [hE ![(tDetectorX (fdtdDefaultRun 10 1) 10).toNat, 0, 0] (by rw [h4]; rfl), hE ![(tDetectorX (fdtdDefaultRun 10 1) 10).toNat, 1, 0] (by rw [h4]; rfl),
        hE ![(tDetectorX (fdtdDefaultRun 10 1) 10).toNat, 2, 0] (by rw [h4]; rfl)]
      congr 1
      push_cast
      ring
    refine ⟨gn.courant * (1 / 10 ^ 16), detectorSignal r.recE, ?_, ?_⟩
    · unfold simulate
      rw [H none _ rfl, ok_bind]
      unfold runSimulation
      have hst : ∀ ts : ℝ, runSteps ts (.int (fdtdDefaultRun 10 1).niter : PyNum ℝ) = 1 := fun _ => rfl
      simp only [hst]
      have : (List.range 1).mapM (lineSignal gn (simSpec (1 / 1000000) (fdtdDefaultRun 10 1).pulse)) = .ok [v0] := by
        show (lineSignal gn _ 0 >>= fun v => _) = _
        rw [hv0]
        rfl
      rw [this, ok_bind, hd]
      show Except.ok (detectorSignal t.recE, _) = _
      rw [hsig]
    · have := (C43_default _ _ _ hgn).1
      positivity

end Nidn
