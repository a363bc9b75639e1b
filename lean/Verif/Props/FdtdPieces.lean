/-
C161: running a grid in pieces, and running it longer.
-/
import Verif.Model.FdtdIntegration
import Verif.Props.FdtdRun
import Verif.Props.FdtdGrid
import Verif.Props.Materials
import Verif.Props.FdtdForward
import Verif.Lemmas.Py

namespace Nidn

/-- `Grid.run(total_time)`, nidn/fdtd/grid.py:251-266, on a grid with time step `dt`. The progress bar is left out. -/
def FGrid.runFor {K : Type} [Field K] [LinearOrder K] [FloorRing K] (dt : K) (g : FGrid K) (total : PyNum K) : FGrid K := g.run (runSteps dt total)

section
variable {K : Type} [Field K]

theorem FGrid.run_add (g : FGrid K) (m n : ℕ) : g.run (m + n) = (g.run m).run n := by
  induction n with
  | zero => rfl
  | succ n ih => rw [← Nat.add_assoc, FGrid.run, FGrid.run, ih]

theorem FGrid.run_time (g : FGrid K) (n : ℕ) : (g.run n).time = g.time + n := by
  induction n with
  | zero => rfl
  | succ n ih =>
    have h : (g.run (n + 1)).time = (g.run n).time + 1 := rfl
    rw [h, ih, Nat.add_assoc]

/-- Detector by detector, `g'` holds the recordings of `g` and possibly more, taken at the same cells. -/
def Extends (g g' : FGrid K) : Prop :=
  List.Forall₂ (fun d d' : FDetector K => d'.cells = d.cells ∧ d.recE <+: d'.recE ∧ d.recH <+: d'.recH) g.detectors g'.detectors

theorem extends_run (g : FGrid K) (n : ℕ) : Extends g (g.run n) := by
  rw [Extends, C56_samples, List.forall₂_map_right_iff, List.forall₂_same]
  exact fun d _ => ⟨rfl, List.prefix_append _ _, List.prefix_append _ _⟩

end

section
variable {K : Type} [Field K] [LinearOrder K] [IsStrictOrderedRing K] [FloorRing K]

omit [IsStrictOrderedRing K] in
/-- **C161 (whole steps).** Running a grid for `m` steps and then for `n` steps leaves it in the same state as running it for `m + n` steps: fields, boundaries, recordings and the time passed. -/
theorem C161_pieces (dt : K) (g : FGrid K) (m n : ℕ) : (g.runFor dt (.int m)).runFor dt (.int n) = g.runFor dt (.int (m + n : ℕ)) ∧
    (g.runFor dt (.int (m + n : ℕ))).time = g.time + m + n := by
  have h : ∀ k : ℕ, runSteps dt (.int k) = k := fun k => Int.toNat_natCast k
  unfold FGrid.runFor
  rw [h, h, h, FGrid.run_add]
  exact ⟨rfl, by rw [FGrid.run_time, FGrid.run_time]⟩

omit [IsStrictOrderedRing K] in
/-- **C161 (longer runs).** A longer run records what the shorter one records, and then more. -/
theorem C161_longer (dt : K) (g : FGrid K) (m n : ℕ) (h : m ≤ n) : Extends (g.runFor dt (.int m)) (g.runFor dt (.int n)) := by
  obtain ⟨k, rfl⟩ := Nat.exists_eq_add_of_le h
  rw [← (C161_pieces dt g m k).1]
  exact extends_run _ _

/-- **C161 (seconds), what holds.** Two runs of given durations are never longer than one run of the total duration and at most one step shorter; they are the same if one of the durations is a whole number of time steps.
Missing: equality, see `C161_seconds_false`. -/
theorem C161_seconds_partial (dt : K) (hdt : 0 < dt) (g : FGrid K) (x y : K) (hx : 0 ≤ x) (hy : 0 ≤ y) :
    (∃ k ≤ 1, g.runFor dt (.flt (x + y)) = ((g.runFor dt (.flt x)).runFor dt (.flt y)).run k) ∧
    ((∃ k : ℕ, x = k * dt ∨ y = k * dt) → g.runFor dt (.flt (x + y)) = (g.runFor dt (.flt x)).runFor dt (.flt y)) := by
  have a := (C44_run_partial dt hdt).2 x hx
  have b := (C44_run_partial dt hdt).2 y hy
  have c := (C44_run_partial dt hdt).2 (x + y) (add_nonneg hx hy)
  set p := runSteps dt (.flt x)
  set q := runSteps dt (.flt y)
  set r := runSteps dt (.flt (x + y))
  have h1 : p + q ≤ r := by
    by_contra hn
    have : (r : K) + 1 ≤ p + q := by exact_mod_cast (not_le.1 hn : r + 1 ≤ p + q)
    nlinarith [mul_le_mul_of_nonneg_right this hdt.le]
  have h2 : r ≤ p + q + 1 := by
    by_contra hn
    have : (p : K) + q + 2 ≤ r := by exact_mod_cast (not_le.1 hn : p + q + 1 + 1 ≤ r)
    nlinarith [mul_le_mul_of_nonneg_right this hdt.le]
  have key : ∀ k, r = p + q + k → g.runFor dt (.flt (x + y)) = ((g.runFor dt (.flt x)).runFor dt (.flt y)).run k := by
    intro k hk
    show g.run r = ((g.run p).run q).run k
    rw [hk, FGrid.run_add, FGrid.run_add]
  refine ⟨⟨r - (p + q), by omega, key _ (by omega)⟩, ?_⟩
  have whole : ∀ (s k : ℕ) (z : K), z = k * dt → (s : K) * dt ≤ z → z < (s + 1) * dt → s = k := by
    intro s k z hz h3 h4
    rw [hz] at h3 h4
    have h5 : (s : K) ≤ k := le_of_mul_le_mul_right h3 hdt
    have h6 : (k : K) < s + 1 := lt_of_mul_lt_mul_right h4 hdt.le
    have h5' : s ≤ k := by exact_mod_cast h5
    have h6' : k < s + 1 := by exact_mod_cast h6
    omega
  rintro ⟨k, hk⟩
  refine key 0 ?_
  by_contra hne
  have hr : r = p + q + 1 := by omega
  have hr' : (r : K) = p + q + 1 := by exact_mod_cast hr
  rw [hr'] at c
  rcases hk with hk | hk
  · have := whole p k x hk a.1 a.2
    rw [← this] at hk
    nlinarith [c.1, b.2]
  · have := whole q k y hk b.1 b.2
    rw [← this] at hk
    nlinarith [c.1, a.2]

/-- **C161 (seconds).** False in general: durations are cut to whole steps one by one, so two runs of half a time step do nothing where one run of the whole time step is a step. -/
theorem C161_seconds_false (g : FGrid ℚ) : (g.runFor 1 (.flt (1 / 2))).runFor 1 (.flt (1 / 2)) = g ∧ g.runFor 1 (.flt (1 / 2 + 1 / 2)) = g.step ∧ g.step ≠ g := by
  have h1 : runSteps (1 : ℚ) (.flt (1 / 2)) = 0 := by decide +kernel
  have h2 : runSteps (1 : ℚ) (.flt (1 / 2 + 1 / 2)) = 1 := by decide +kernel
  refine ⟨?_, ?_, fun h => ?_⟩
  · unfold FGrid.runFor
    rw [h1]
    rfl
  · unfold FGrid.runFor
    rw [h2]
    rfl
  · have h3 : g.step.time = g.time + 1 := rfl
    rw [h] at h3
    omega

end

theorem initFdtd_detectors {c : FdtdCfg} {s : ℝ} {layers : Option (List ℂ)} {wl : ℝ} {sim : Simulation} (h : initFdtd c s layers wl = .ok sim) :
    ∃ d₁ d₂, sim.grid.detectors = [d₁, d₂] ∧ d₁.recE = [] ∧ d₂.recE = [] := by
  have hp : ∀ {n : Pos} {x : ℤ} {d : FDetector ℝ}, placeDetector n x = .ok d → d.recE = [] := by
    intro n x d hd
    unfold placeDetector at hd
    simp only [bind_ok] at hd
    obtain ⟨_, _, _, _, hd⟩ := hd
    cases hd
    rfl
  unfold initFdtd at h
  simp only [bind_ok] at h
  obtain ⟨g, _, bs, _, t, ht, r, hr, xy, _, src, _, m, _, h⟩ := h
  cases h
  exact ⟨t, r, rfl, hp ht, hp hr⟩

theorem mapM_prefix {α : Type} {f : ℕ → Except PyErr α} {m n : ℕ} (hmn : m ≤ n) {vs : List α} (h : (List.range n).mapM f = .ok vs) : (List.range m).mapM f = .ok (vs.take m) := by
  obtain ⟨k, rfl⟩ := Nat.exists_eq_add_of_le hmn
  rw [List.range_add, List.mapM_append] at h
  simp only [bind_ok] at h
  obtain ⟨us, hu, ws, _, hvs⟩ := h
  cases hvs
  have hl : us.length = m := by rw [(mapM_ok f _ _ hu).1, List.length_range]
  rw [hu, ← hl, List.take_left]

/-- The detector signals of one simulation of the FDTD solver with `FDTD_niter` replaced. -/
noncomputable def signalsWith (c : FdtdCfg) (niter : ℤ) (s : ℝ) (layers : Option (List ℂ)) (wl : ℝ) : Except PyErr (List ℝ × List ℝ) := simulate { c with niter := niter } s layers wl

/-- **C161 (FDTD_niter).** Raising `FDTD_niter` only extends the signals of the two detectors: if the longer simulation runs, the shorter one does too, it records `FDTD_niter` samples per detector, and these are the first ones of the longer
signals. -/
theorem C161_niter (c : FdtdCfg) (m n : ℕ) (hmn : m ≤ n) (s : ℝ) (layers : Option (List ℂ)) (wl : ℝ) (t r : List ℝ) (h : signalsWith c n s layers wl = .ok (t, r)) :
    ∃ t' r', signalsWith c m s layers wl = .ok (t', r') ∧ t' <+: t ∧ r' <+: r ∧ t'.length = m ∧ r'.length = m := by
  unfold signalsWith simulate at h
  simp only [bind_ok] at h
  obtain ⟨sim, hs, h⟩ := h
  unfold runSimulation at h
  simp only [bind_ok] at h
  obtain ⟨vs, hv, h⟩ := h
  have hk : ∀ k : ℕ, runSteps sim.numbers.timeStep (.int k) = k := fun k => Int.toNat_natCast k
  rw [hk] at h hv
  obtain ⟨d₁, d₂, hd, e₁, e₂⟩ := initFdtd_detectors hs
  have hrun : ∀ k : ℕ, (sim.grid.run k).detectors = [⟨d₁.cells, (List.range k).map (fun i => d₁.cells.map fun p => (sim.grid.run (i + 1)).E p), d₁.recH ++ (List.range k).map (fun i => d₁.cells.map fun p => (sim.grid.run (i + 1)).H p)⟩,
      ⟨d₂.cells, (List.range k).map (fun i => d₂.cells.map fun p => (sim.grid.run (i + 1)).E p), d₂.recH ++ (List.range k).map (fun i => d₂.cells.map fun p => (sim.grid.run (i + 1)).H p)⟩] := by
    intro k
    rw [C56_samples, hd, List.map_cons, List.map_cons, List.map_nil, e₁, e₂, List.nil_append, List.nil_append]
  rw [hrun] at h
  cases h
  have hpre : ∀ f : ℕ → List (Fin 3 → ℝ), detectorSignal ((List.range m).map f) <+: detectorSignal ((List.range n).map f) := by
    intro f
    obtain ⟨k, rfl⟩ := Nat.exists_eq_add_of_le hmn
    unfold detectorSignal
    rw [List.range_add, List.map_append, List.map_append]
    exact List.prefix_append _ _
  refine ⟨_, _, ?_, hpre _, hpre _, ?_, ?_⟩
  · unfold signalsWith simulate
    rw [show initFdtd { c with niter := m } s layers wl = .ok sim from hs, ok_bind]
    unfold runSimulation
    rw [hk, mapM_prefix hmn hv, ok_bind, hrun]
  · unfold detectorSignal; rw [List.length_map, List.length_map, List.length_range]
  · unfold detectorSignal; rw [List.length_map, List.length_map, List.length_range]

/-- hypotheses of C161_niter are met: the default grid without layers runs for every number of steps -/
example (n : ℕ) : ∃ t r, signalsWith (fdtdDefaultRun 10 1) n 10 none (1 / 1000000) = .ok (t, r) := by
  have h := defaultRun_setup 10 n (by norm_num) le_rfl
  obtain ⟨gn, prof, hgn, -, -, -, H⟩ := initFdtd_line (fdtdDefaultRun 10 n) 10 h (1 / 1000000)
  obtain ⟨vs, hvs⟩ : ∃ vs, (List.range n).mapM (lineSignal gn (simSpec (1 / 1000000) (fdtdDefaultRun 10 n).pulse)) = Except.ok vs := by
    choose v hv using lineSignal_ok _ 10 (1 / 1000000) h.geometry.scaling (by unfold UNIT_MAGNITUDE; norm_num) (fdtdDefaultRun 10 n).pulse gn hgn
    exact ⟨_, mapM_all_ok _ v _ fun q _ => hv q⟩
  obtain ⟨t, r, hd, ht, hr⟩ := run_recordings (fdtdDefaultRun 10 n) 10 (1 / 1000000) gn ⟨fun _ _ => 1 / 1, fun _ _ => 0⟩ prof n
  refine ⟨_, _, show simulate (fdtdDefaultRun 10 n) 10 none (1 / 1000000) = .ok (detectorSignal t.recE, detectorSignal r.recE) from ?_⟩
  unfold simulate
  rw [H none _ rfl, ok_bind]
  unfold runSimulation
  have hst : ∀ ts : ℝ, runSteps ts (.int (fdtdDefaultRun 10 n).niter : PyNum ℝ) = n := fun _ => Int.toNat_natCast n
  simp only [hst]
  rw [hvs, ok_bind, hd]

end Nidn
