/-
C132: what the warning about too few time steps means.
-/
import Mathlib.Tactic.Linarith
import Mathlib.Tactic.FieldSimp
import Verif.Model.FdtdSteps
import Verif.Lemmas.Py
import Verif.Props.FdtdGrid
import Verif.Props.FdtdFront
import Verif.Props.FdtdPipeline

namespace Nidn

/-! ### Specification -/

/-- how far (in micrometres, as in vacuum) light travels until it has crossed the free space and three times all layers of the stack (thicknesses with real permittivities), and five more wavelengths have arrived -/
noncomputable def settledPath (free wl : ℝ) (stack : List (ℝ × ℝ)) : ℝ := free + 3 * (stack.map fun l => l.1 * Real.sqrt l.2).sum + 5 * (wl / 1e-6)

/-- how far light travels in the given number of time steps, in micrometres -/
noncomputable def lightWay (g : GridNumbers) (n : ℤ) : ℝ := n * g.timeStep * 299792458 / 1e-6

lemma summedThickness_eq (thick : List ℝ) (m : ℝ) : summedThickness thick m = (thick.map fun t => t * Real.sqrt m).sum := by
  have key : ∀ (l : List ℝ) (acc : ℝ), l.foldl (fun acc t => acc + t * Real.sqrt m) acc = acc + (l.map fun t => t * Real.sqrt m).sum := by
    intro l
    induction l with
    | nil => intro acc; simp
    | cons t l ih => intro acc; rw [List.foldl_cons, ih, List.map_cons, List.sum_cons]; ring
  unfold summedThickness
  rw [key]
  ring

lemma maxReal_ge (l : List (Option ℂ)) (z : ℂ) (h : some z ∈ l) : z.re ≤ maxReal l := by
  have key : ∀ (l : List (Option ℂ)) (m : ℝ), m ≤ l.foldl (fun m w => max m ((w.getD 0).re)) m ∧ ∀ w ∈ l, (w.getD 0).re ≤ l.foldl (fun m w => max m ((w.getD 0).re)) m := by
    intro l
    induction l with
    | nil => intro m; simp
    | cons w l ih =>
      intro m
      obtain ⟨h1, h2⟩ := ih (max m ((w.getD 0).re))
      refine ⟨le_trans (le_max_left _ _) h1, fun w' hw' => ?_⟩
      rcases List.mem_cons.1 hw' with rfl | hw'
      · exact le_trans (le_max_right _ _) h1
      · exact h2 w' hw'
  rcases l with _ | ⟨v, l⟩
  · cases h
  · rcases List.mem_cons.1 h with rfl | h
    · exact (key l _).1
    · exact (key l _).2 _ h

lemma maxReal_const (l : List (Option ℂ)) (z : ℂ) (hne : l ≠ []) (h : ∀ v ∈ l, v = some z) : maxReal l = z.re := by
  have key : ∀ (l : List (Option ℂ)), (∀ v ∈ l, v = some z) → l.foldl (fun m w => max m ((w.getD 0).re)) z.re = z.re := by
    intro l
    induction l with
    | nil => intro _; rfl
    | cons w l ih =>
      intro h
      rw [List.foldl_cons, h w (by simp)]
      simpa using ih fun v hv => h v (by simp [hv])
  rcases l with _ | ⟨v, l⟩
  · exact absurd rfl hne
  · show l.foldl _ _ = _
    rw [h v (by simp)]
    exact key l fun v hv => h v (by simp [hv])

/-- grids of the solver -/
lemma solver_courant (x : ℤ) (spacing : ℝ) (g : GridNumbers) (hg : gridInit [.int x, .int 3, .int 1] spacing none = .ok g) :
    0.99 / Real.sqrt 2 ≤ g.courant ∧ (1 < x → g.courant = 0.99 / Real.sqrt 2) := by
  obtain ⟨sh, m, cc, hs, hm, hc, rfl⟩ := gridInit_inv hg
  obtain ⟨hd, hpos, hm'⟩ := maxCourant_ok hm
  simp only [chooseCourant] at hc
  cases hc
  have hsh : sh = (x, 3, 1) := (Except.ok.inj hs).symm
  have hdim : gridDims sh = (if 1 < x then 1 else 0) + 1 := by
    rw [hsh]
    simp [gridDims]
  have h1 : (1 : ℝ) ≤ Real.sqrt (gridDims sh) := Real.one_le_sqrt.2 (by exact_mod_cast (by omega : 1 ≤ gridDims sh))
  constructor
  · show 0.99 / Real.sqrt 2 ≤ 0.99 * m
    rw [hm', mul_one_div]
    refine div_le_div_of_nonneg_left (by norm_num) (by linarith) (Real.sqrt_le_sqrt ?_)
    have : gridDims sh ≤ 2 := by rw [hdim]; split_ifs <;> omega
    exact_mod_cast this
  · intro hx
    show 0.99 * m = _
    rw [hm', hdim, if_pos hx]
    norm_num
    ring

lemma lightWay_eq (x : ℤ) (s : ℝ) (hs : 0 < s) (g : GridNumbers) (hg : gridInit [.int x, .int 3, .int 1] (UNIT_MAGNITUDE / s) none = .ok g) (n : ℤ) : lightWay g n = n * g.courant / s := by
  obtain ⟨-, -, ht⟩ := courant_bounds x _ g hg
  unfold lightWay
  rw [ht]
  have : SPEED_OF_LIGHT = 299792458 := by unfold SPEED_OF_LIGHT; norm_num
  have h2 : UNIT_MAGNITUDE = 1e-6 := rfl
  rw [this, h2]
  field_simp

lemma pyTrunc_lt (x : ℝ) : x < pyTrunc x + 1 := by
  unfold pyTrunc
  split_ifs with h
  · exact Int.lt_floor_add_one x
  · have := Int.le_ceil x
    linarith

/-- the numbers of the grid of a simulation -/
lemma sim_numbers {c : FdtdCfg} {s wl : ℝ} {layers : Option (List ℂ)} {sim : Simulation} (h : initFdtd c s layers wl = .ok sim) :
    gridInit [.int (xSize c s), .int 3, .int 1] (UNIT_MAGNITUDE / s) none = .ok sim.numbers := by
  obtain ⟨g, hg, h⟩ := bind_ok.1 h
  obtain ⟨_, -, h⟩ := bind_ok.1 h
  obtain ⟨_, -, h⟩ := bind_ok.1 h
  obtain ⟨_, -, h⟩ := bind_ok.1 h
  obtain ⟨_, -, h⟩ := bind_ok.1 h
  obtain ⟨_, -, h⟩ := bind_ok.1 h
  obtain ⟨_, -, h⟩ := bind_ok.1 h
  obtain rfl := Except.ok.inj h
  exact hg

/-- C132, when it fails: the recommendation is computed exactly when the layers have no thicknesses or no permittivity is NaN and some real part is not negative. -/
theorem C132_computed (c : FdtdCfg) (s wl : ℝ) (entries : List (Option ℂ)) :
    (∃ b, warnsSteps c s wl entries = .ok b) ↔ c.thick = [] ∨ (none ∉ entries ∧ ∃ z, some z ∈ entries ∧ 0 ≤ z.re) := by
  have h1 : (∃ b, warnsSteps c s wl entries = .ok b) ↔ checkTimesteps c entries = .ok () := by
    constructor
    · rintro ⟨b, hb⟩
      obtain ⟨n, hn, -⟩ := bind_ok.1 hb
      obtain ⟨⟨⟩, hn, -⟩ := bind_ok.1 hn
      exact hn
    · intro h
      exact ⟨_, bind_ok.2 ⟨_, bind_ok.2 ⟨_, h, rfl⟩, rfl⟩⟩
  rw [h1]
  unfold checkTimesteps
  split_ifs with a b d
  · exact ⟨fun _ => Or.inl a, fun _ => rfl⟩
  · refine ⟨fun h => (by cases h), ?_⟩
    rintro (h | ⟨-, z, hz, -⟩)
    · exact absurd h a
    · rw [b] at hz; cases hz
  · refine ⟨fun h => (by cases h), ?_⟩
    rintro (h | ⟨h1, z, hz, h2⟩)
    · exact absurd h a
    · rcases d with d | d
      · exact absurd d h1
      · exact absurd (d _ hz z rfl) (not_lt.2 h2)
  · refine ⟨fun _ => Or.inr ?_, fun _ => rfl⟩
    push Not at d
    obtain ⟨h1, v, hv, z, rfl, hz⟩ := d
    exact ⟨h1, z, hv, hz⟩

/-- C132, no warning: if the number of time steps is not criticised, then the run with one more step is long enough for 99 percent of the way: once through the free space, three times through all layers - whatever permittivities of the
grid they have - and five wavelengths more. The missing percent: `C132_short_false`. -/
theorem C132_long_partial (c : FdtdCfg) (s wl : ℝ) (hs : 0 < s) (entries : List (Option ℂ)) (h : warnsSteps c s wl entries = .ok false)
    (layers : Option (List ℂ)) (sim : Simulation) (hsim : initFdtd c s layers wl = .ok sim) (hpos : 0 ≤ c.niter)
    (stack : List (ℝ × ℝ)) (hstack : stack.map Prod.fst = c.thick) (ht : ∀ t ∈ c.thick, 0 ≤ t) (he : ∀ l ∈ stack, ∃ z, some z ∈ entries ∧ l.2 = z.re) :
    0.99 * settledPath c.free wl stack ≤ lightWay sim.numbers (c.niter + 1) := by
  have hg := sim_numbers hsim
  obtain ⟨n, hn, h⟩ := bind_ok.1 h
  obtain ⟨⟨⟩, -, hn⟩ := bind_ok.1 hn
  obtain rfl := Except.ok.inj hn
  have hle := of_decide_eq_false (Except.ok.inj h)
  rw [not_lt] at hle
  have h2pos : 0 < Real.sqrt 2 := Real.sqrt_pos.2 (by norm_num)
  set A := c.free + 3 * summedThickness c.thick (maxReal entries) + 5 * wl / UNIT_MAGNITUDE with hA
  have hsum : (stack.map fun l => l.1 * Real.sqrt l.2).sum ≤ summedThickness c.thick (maxReal entries) := by
    rw [summedThickness_eq, ← hstack, List.map_map]
    refine List.sum_le_sum fun l hl => ?_
    obtain ⟨z, hz, e⟩ := he l hl
    refine mul_le_mul_of_nonneg_left (Real.sqrt_le_sqrt (by rw [e]; exact maxReal_ge _ _ hz)) (ht _ ?_)
    rw [← hstack]
    exact List.mem_map_of_mem hl
  have hpath : settledPath c.free wl stack ≤ A := by
    have : (5 : ℝ) * wl / UNIT_MAGNITUDE = 5 * (wl / 1e-6) := by
      rw [show UNIT_MAGNITUDE = 1e-6 from rfl]; ring
    unfold settledPath
    rw [hA, this]
    linarith
  have htr := pyTrunc_lt (A * Real.sqrt 2 * s)
  have hn1 : A * Real.sqrt 2 * s ≤ (c.niter : ℝ) + 1 := by
    have : ((pyTrunc (A * Real.sqrt 2 * s) : ℤ) : ℝ) ≤ c.niter := by exact_mod_cast hle
    linarith
  rw [lightWay_eq _ s hs _ hg]
  obtain ⟨hc, -⟩ := solver_courant _ _ _ hg
  push_cast
  have hnn : (0 : ℝ) ≤ (c.niter : ℝ) + 1 := by
    have : (0 : ℝ) ≤ (c.niter : ℝ) := by exact_mod_cast hpos
    linarith
  rw [le_div_iff₀ hs]
  calc 0.99 * settledPath c.free wl stack * s ≤ 0.99 * A * s := by
        refine mul_le_mul_of_nonneg_right (mul_le_mul_of_nonneg_left hpath (by norm_num)) hs.le
    _ = A * Real.sqrt 2 * s * (0.99 / Real.sqrt 2) := by field_simp
    _ ≤ ((c.niter : ℝ) + 1) * (0.99 / Real.sqrt 2) := mul_le_mul_of_nonneg_right hn1 (by positivity)
    _ ≤ ((c.niter : ℝ) + 1) * sim.numbers.courant := mul_le_mul_of_nonneg_left hc hnn

/-- C132, warning: if the number of time steps is criticised, then the light cannot go the way once through the free space, three times through layers that all have the largest permittivity of the grid, and five wavelengths more. -/
theorem C132_warning (c : FdtdCfg) (s wl : ℝ) (hs : 0 < s) (entries : List (Option ℂ)) (h : warnsSteps c s wl entries = .ok true)
    (layers : Option (List ℂ)) (sim : Simulation) (hsim : initFdtd c s layers wl = .ok sim) (hx : 1 < xSize c s) (hfree : 0 ≤ c.free) (hwl : 0 ≤ wl) (ht : ∀ t ∈ c.thick, 0 ≤ t)
    (e : ℝ) (he : ∀ z, some z ∈ entries → z.re ≤ e) :
    lightWay sim.numbers c.niter < 0.99 * settledPath c.free wl (c.thick.map fun t => (t, e)) := by
  have hg := sim_numbers hsim
  have hcomp := (C132_computed c s wl entries).1 ⟨_, h⟩
  obtain ⟨n, hn, h⟩ := bind_ok.1 h
  obtain ⟨⟨⟩, -, hn⟩ := bind_ok.1 hn
  obtain rfl := Except.ok.inj hn
  have hlt := of_decide_eq_true (Except.ok.inj h)
  have h2pos : 0 < Real.sqrt 2 := Real.sqrt_pos.2 (by norm_num)
  set A := c.free + 3 * summedThickness c.thick (maxReal entries) + 5 * wl / UNIT_MAGNITUDE with hA
  have hmax : c.thick ≠ [] → maxReal entries ≤ e := by
    intro hth
    obtain ⟨h2, z0, hz0, -⟩ := hcomp.resolve_left hth
    have key : ∀ (l : List (Option ℂ)) (m : ℝ), m ≤ e → (∀ w ∈ l, (w.getD 0).re ≤ e) → l.foldl (fun m w => max m ((w.getD 0).re)) m ≤ e := by
      intro l
      induction l with
      | nil => intro m hm _; exact hm
      | cons w l ih =>
        intro m hm hw
        exact ih _ (max_le hm (hw w (by simp))) fun w' hw' => hw w' (by simp [hw'])
    have hall : ∀ w ∈ entries, (w.getD 0).re ≤ e := by
      intro w hw
      cases w with
      | none => exact absurd hw h2
      | some z => exact he z hw
    rcases entries with _ | ⟨v, l⟩
    · cases hz0
    · exact key l _ (hall v (by simp)) fun w hw => hall w (by simp [hw])
  have hsum : summedThickness c.thick (maxReal entries) ≤ ((c.thick.map fun t => (t, e)).map fun l => l.1 * Real.sqrt l.2).sum := by
    rw [summedThickness_eq, List.map_map]
    rcases eq_or_ne c.thick [] with h0 | h0
    · rw [h0]; simp
    · exact List.sum_le_sum fun t hmt => mul_le_mul_of_nonneg_left (Real.sqrt_le_sqrt (hmax h0)) (ht t hmt)
  have hU : (5 : ℝ) * wl / UNIT_MAGNITUDE = 5 * (wl / 1e-6) := by
    rw [show UNIT_MAGNITUDE = 1e-6 from rfl]; ring
  have hpath : A ≤ settledPath c.free wl (c.thick.map fun t => (t, e)) := by
    unfold settledPath
    rw [hA, hU]
    linarith
  have hA0 : 0 ≤ A := by
    have : 0 ≤ summedThickness c.thick (maxReal entries) := by
      rw [summedThickness_eq]
      refine List.sum_nonneg fun v hv => ?_
      obtain ⟨t, hmt, rfl⟩ := List.mem_map.1 hv
      exact mul_nonneg (ht t hmt) (Real.sqrt_nonneg _)
    rw [hA, hU]
    have : 0 ≤ wl / 1e-6 := div_nonneg hwl (by norm_num)
    linarith
  have hprod : 0 ≤ A * Real.sqrt 2 * s := by positivity
  have hfl : ((pyTrunc (A * Real.sqrt 2 * s) : ℤ) : ℝ) ≤ A * Real.sqrt 2 * s := by
    unfold pyTrunc
    rw [if_pos hprod]
    exact Int.floor_le _
  have hn1 : (c.niter : ℝ) < A * Real.sqrt 2 * s := by
    have : (c.niter : ℝ) < (pyTrunc (A * Real.sqrt 2 * s) : ℤ) := by exact_mod_cast hlt
    linarith
  rw [lightWay_eq _ s hs _ hg, (solver_courant _ _ _ hg).2 hx, div_lt_iff₀ hs]
  calc (c.niter : ℝ) * (0.99 / Real.sqrt 2) < A * Real.sqrt 2 * s * (0.99 / Real.sqrt 2) := mul_lt_mul_of_pos_right hn1 (by positivity)
    _ = 0.99 * A * s := by field_simp
    _ ≤ 0.99 * settledPath c.free wl (c.thick.map fun t => (t, e)) * s := mul_le_mul_of_nonneg_right (mul_le_mul_of_nonneg_left hpath (by norm_num)) hs.le

/-- C132 is false: with exactly the recommended number of time steps there is no warning, and a stack of one permittivity is always simulated at least one percent too short - the recommendation forgets the factor 0.99 of the
Courant number. -/
theorem C132_short_false (c : FdtdCfg) (s wl : ℝ) (hs : 0 < s) (z : ℂ) (entries : List (Option ℂ)) (hz : ∀ v ∈ entries, v = some z) (hne : entries ≠ []) (n : ℤ)
    (hn : recommendedSteps c s wl entries = .ok n) (hc : c.niter = n)
    (layers : Option (List ℂ)) (sim : Simulation) (hsim : initFdtd c s layers wl = .ok sim) (hx : 1 < xSize c s) (hfree : 0 ≤ c.free) (hwl : 0 < wl) (ht : ∀ t ∈ c.thick, 0 ≤ t) :
    warnsSteps c s wl entries = .ok false ∧ lightWay sim.numbers c.niter ≤ 0.99 * settledPath c.free wl (c.thick.map fun t => (t, z.re)) ∧
      lightWay sim.numbers c.niter < settledPath c.free wl (c.thick.map fun t => (t, z.re)) := by
  have hg := sim_numbers hsim
  have hw : warnsSteps c s wl entries = .ok false := bind_ok.2 ⟨n, hn, by rw [hc]; simp⟩
  obtain ⟨⟨⟩, -, hn⟩ := bind_ok.1 hn
  have hn := Except.ok.inj hn
  have h2pos : 0 < Real.sqrt 2 := Real.sqrt_pos.2 (by norm_num)
  have hU : (5 : ℝ) * wl / UNIT_MAGNITUDE = 5 * (wl / 1e-6) := by
    rw [show UNIT_MAGNITUDE = 1e-6 from rfl]; ring
  have hA : c.free + 3 * summedThickness c.thick (maxReal entries) + 5 * wl / UNIT_MAGNITUDE = settledPath c.free wl (c.thick.map fun t => (t, z.re)) := by
    unfold settledPath
    rw [summedThickness_eq, maxReal_const entries z hne hz, hU, List.map_map]
    rfl
  rw [hA] at hn
  set A := settledPath c.free wl (c.thick.map fun t => (t, z.re)) with hAdef
  have hApos : 0 < A := by
    have h1 : 0 ≤ ((c.thick.map fun t => (t, z.re)).map fun l : ℝ × ℝ => l.1 * Real.sqrt l.2).sum := by
      refine List.sum_nonneg fun v hv => ?_
      rw [List.map_map] at hv
      obtain ⟨t, hmt, rfl⟩ := List.mem_map.1 hv
      exact mul_nonneg (ht t hmt) (Real.sqrt_nonneg _)
    have h2 : 0 < wl / 1e-6 := div_pos hwl (by norm_num)
    rw [hAdef]
    unfold settledPath
    linarith
  have hprod : 0 ≤ A * Real.sqrt 2 * s := by positivity
  have hfl : (n : ℝ) ≤ A * Real.sqrt 2 * s := by
    rw [← hn]
    unfold pyTrunc
    rw [if_pos hprod]
    exact Int.floor_le _
  have hle : lightWay sim.numbers c.niter ≤ 0.99 * A := by
    rw [lightWay_eq _ s hs _ hg, (solver_courant _ _ _ hg).2 hx, div_le_iff₀ hs, hc]
    calc (n : ℝ) * (0.99 / Real.sqrt 2) ≤ A * Real.sqrt 2 * s * (0.99 / Real.sqrt 2) := mul_le_mul_of_nonneg_right hfl (by positivity)
      _ = 0.99 * A * s := by field_simp
  refine ⟨hw, hle, ?_⟩
  norm_num at hle ⊢
  linarith

/-! ### Examples -/

lemma default_recommended (n : ℤ) (e wl : ℝ) (he : 0 ≤ e) : recommendedSteps (fdtdDefaultRun 2 n) 10 wl [some (e : ℂ)] = .ok (pyTrunc ((1 + 24 * Real.sqrt e + 5 * wl / 1e-6) * Real.sqrt 2 * 10)) := by
  refine bind_ok.2 ⟨(), ?_, ?_⟩
  · unfold checkTimesteps
    rw [if_neg (by simp [fdtdDefaultRun, fdtdDefaultWith]), if_neg (by simp), if_neg (by simp [he])]
  · have hm : maxReal [some (e : ℂ)] = e := by simp [maxReal]
    have hth : summedThickness (fdtdDefaultRun 2 n).thick e = 8 * Real.sqrt e := by
      rw [summedThickness_eq]
      simp [fdtdDefaultRun, fdtdDefaultWith]
      ring
    rw [hm, hth, show UNIT_MAGNITUDE = 1e-6 from rfl, show (fdtdDefaultRun 2 n).free = 1 from rfl]
    congr 4
    ring

/-- Eight empty layers of 1 micrometre, scaling 10, wavelength 1 micrometre and 424 time steps meet the hypotheses: no warning, and the light goes less than the 30 micrometres. -/
example : ∃ sim, initFdtd (fdtdDefaultRun 2 424) 10 none 1e-6 = .ok sim ∧ warnsSteps (fdtdDefaultRun 2 424) 10 1e-6 [some 1] = .ok false ∧ lightWay sim.numbers 424 < 30 ∧
    settledPath 1 1e-6 (List.replicate 8 (1, 1)) = 30 ∧ 0.99 * 30 ≤ lightWay sim.numbers 425 := by
  have hsetup := defaultRun_setup 2 424 (by norm_num) (by norm_num)
  obtain ⟨g, prof, hg, -, -, -, hall⟩ := initFdtd_line _ 10 hsetup 1e-6
  have hsim := hall none _ rfl
  have hp : settledPath 1 1e-6 (List.replicate 8 (1, 1)) = 30 := by
    unfold settledPath
    norm_num [List.replicate]
  have hr : recommendedSteps (fdtdDefaultRun 2 424) 10 1e-6 [some 1] = .ok 424 := by
    have := default_recommended 424 1 1e-6 (by norm_num)
    rw [Complex.ofReal_one] at this
    rw [this]
    congr 1
    have hs : 0 ≤ ((1 : ℝ) + 24 * Real.sqrt 1 + 5 * 1e-6 / 1e-6) * Real.sqrt 2 * 10 := by positivity
    unfold pyTrunc
    rw [if_pos hs, Int.floor_eq_iff, Real.sqrt_one]
    have hlo : (1.414 : ℝ) ≤ Real.sqrt 2 := Real.le_sqrt_of_sq_le (by norm_num)
    have hhi : Real.sqrt 2 < 1.4143 := by
      rw [Real.sqrt_lt' (by norm_num)]
      norm_num
    norm_num at hlo hhi ⊢
    constructor <;> linarith
  have hth : (fdtdDefaultRun 2 424).thick = List.replicate 8 1 := rfl
  have h1 := C132_short_false (fdtdDefaultRun 2 424) 10 1e-6 (by norm_num) 1 [some 1] (by simp) (by simp) 424 hr rfl none _ hsim
    (by rw [(defaultRun_cells 2 424).2.2.1]; norm_num) (by norm_num [fdtdDefaultRun, fdtdDefaultWith]) (by norm_num) (by rw [hth]; intro t ht; rw [List.eq_of_mem_replicate ht]; norm_num)
  have h2 := C132_long_partial (fdtdDefaultRun 2 424) 10 1e-6 (by norm_num) [some 1] h1.1 none _ hsim (by norm_num [fdtdDefaultRun]) (List.replicate 8 (1, 1)) (by rw [hth]; rfl)
    (by rw [hth]; intro t ht; rw [List.eq_of_mem_replicate ht]; norm_num) (by intro l hl; rw [List.eq_of_mem_replicate hl]; exact ⟨1, by simp, by simp⟩)
  rw [show (fdtdDefaultRun 2 424).free = 1 from rfl, hp] at h2
  have e : (fdtdDefaultRun 2 424).thick.map (fun t => (t, (1 : ℂ).re)) = List.replicate 8 (1, 1) := by rw [hth]; simp
  rw [e, show (fdtdDefaultRun 2 424).free = 1 from rfl, hp] at h1
  exact ⟨_, hsim, h1.1, h1.2.2, hp, h2⟩

/-- The defaults (200 time steps) are criticised for every permittivity of at least one and every wavelength. -/
example (e wl : ℝ) (he : 1 ≤ e) (hwl : 0 ≤ wl) : warnsSteps (fdtdDefaultRun 2 200) 10 wl [some (e : ℂ)] = .ok true := by
  refine bind_ok.2 ⟨_, default_recommended 200 e wl (by linarith), ?_⟩
  congr 1
  rw [decide_eq_true_iff]
  show (200 : ℤ) < _
  have h1 : (1 : ℝ) ≤ Real.sqrt e := Real.one_le_sqrt.2 he
  have h2 : (1.414 : ℝ) ≤ Real.sqrt 2 := Real.le_sqrt_of_sq_le (by norm_num)
  have h3 : 0 ≤ 5 * wl / 1e-6 := by positivity
  have hbig : (250 : ℝ) * 1.414 ≤ (1 + 24 * Real.sqrt e + 5 * wl / 1e-6) * Real.sqrt 2 * 10 := by
    have : (25 : ℝ) ≤ 1 + 24 * Real.sqrt e + 5 * wl / 1e-6 := by linarith
    have := mul_le_mul this h2 (by norm_num) (by linarith)
    linarith
  unfold pyTrunc
  rw [if_pos (le_trans (by norm_num) hbig), Int.lt_iff_add_one_le, Int.le_floor]
  norm_num at hbig ⊢
  linarith

end Nidn
