/-
C180 for the simulations that `init_fdtd` sets up.
-/
import Verif.Props.FdtdSettleRows
import Verif.Props.FdtdFilmsDriver
import Verif.Props.FdtdRows

namespace Nidn

open Finset Filter Topology

noncomputable section

/-! ### Specification -/

/-- the same grid without its sources -/
def darkGrid (g : FGrid ℝ) : FGrid ℝ := { g with sources := [] }

lemma dark_world (g : FGrid ℝ) : SameWorld g (darkGrid g) := ⟨rfl, rfl, rfl, rfl, rfl, rfl, rfl⟩

/-- `x` radians per step for a source with the period of the simulation -/
def sourceAngle (g : GridNumbers) (wl : ℝ) : ℝ := 2 * Real.pi / (handleTime g.timeStep (.flt (wl / SPEED_OF_LIGHT)) : ℝ)

/-! ### The grid that is built -/

section built

variable (c : FdtdCfg) (s wl : ℝ) (h : LineSetup c s) (g : GridNumbers) (m : Materials ℝ) (h1 : pmlCells c s ≤ sourceCell c s) (h2 : sourceCell c s + pmlCells c s < xSize c s)

include h h1 h2

lemma built_framed (prof : List ℝ) : Framed (builtGrid c s wl g m prof) (pmlCells c s).toNat (pmlCells c s).toNat 1e-8 [1] where
  layers := rfl
  room := by
    show (pmlCells c s).toNat + (pmlCells c s).toNat ≤ (xSize c s).toNat
    have := h.pml
    omega
  soft := by
    intro src hs
    refine ⟨builtDrive c s wl g prof, List.mem_singleton.1 hs, fun t p d hp => ?_⟩
    have hP := h.pml
    have hp' : p 0 < (pmlCells c s).toNat ∨ (xSize c s).toNat ≤ p 0 + (pmlCells c s).toNat := hp
    refine (C57_update _ _ _ _).2.2 _ _ fun hmem => ?_
    have := crossCells_x hmem
    omega

lemma dark_framed (prof : List ℝ) : Framed (darkGrid (builtGrid c s wl g m prof)) (pmlCells c s).toNat (pmlCells c s).toNat 1e-8 [1] where
  layers := rfl
  room := (built_framed c s wl h g m h1 h2 prof).room
  soft := fun _ hs => absurd hs List.not_mem_nil

omit h h1 h2

lemma built_added (a b : ℝ) (t x y : ℕ) (hy : y < 3) : addedBy (builtGrid c s wl g m [a, b, a]).sources t ![x, y, 0] 2 =
    if x = (sourceCell c s).toNat then ([a, b, a].getD y 0) * signalValue (lineSignal g (simSpec wl c.pulse)) t else 0 := by
  rw [← builtDrive_row c s wl g a b a t x y hy]
  exact add_zero _

lemma built_wrapped (a b : ℝ) : WrappedSources (builtGrid c s wl g m [a, b, a]) := by
  intro t x
  show addedBy (builtGrid c s wl g m [a, b, a]).sources t ![x, 0, 0] 2 = addedBy (builtGrid c s wl g m [a, b, a]).sources t ![x, 2, 0] 2
  rw [built_added _ _ _ _ _ _ _ _ _ _ (by norm_num), built_added _ _ _ _ _ _ _ _ _ _ (by norm_num)]
  rfl

lemma built_rowAdded (a b : ℝ) (t x : ℕ) : rowAdded (builtGrid c s wl g m [a, b, a]) t x = if x = (sourceCell c s).toNat then (a + b) * signalValue (lineSignal g (simSpec wl c.pulse)) t else 0 := by
  unfold rowAdded
  show ∑ y ∈ Icc 1 2, _ = _
  rw [show Icc 1 2 = ({1, 2} : Finset ℕ) from rfl, sum_pair (by norm_num), built_added _ _ _ _ _ _ _ _ _ _ (by norm_num), built_added _ _ _ _ _ _ _ _ _ _ (by norm_num)]
  split_ifs
  · show b * _ + a * _ = _
    ring
  · exact add_zero 0

lemma dark_rowAdded (w : FGrid ℝ) (t x : ℕ) : rowAdded (darkGrid w) t x = 0 := sum_eq_zero fun _ _ => rfl

lemma dark_wrapped (w : FGrid ℝ) : WrappedSources (darkGrid w) := fun _ _ => rfl

end built

/-- the medium of the grid that is built -/
lemma built_medium (c : FdtdCfg) (s wl : ℝ) (h : LineSetup c s) (hwl : 0 < wl) (eps : List ℂ) (hlen : eps.length = c.thick.length) (hre : ∀ e ∈ eps, 1 ≤ e.re) (him : ∀ e ∈ eps, 0 ≤ e.im) (g : GridNumbers) (m : Materials ℝ)
    (prof : List ℝ) (hg : gridInit [.int (xSize c s), .int 3, .int 1] (UNIT_MAGNITUDE / s) none = .ok g)
    (hm : addStack c s g ![(xSize c s).toNat, 3, 1] wl ⟨fun _ _ => 1 / 1, fun _ _ => 0⟩ (some eps) = .ok m) (h1 : pmlCells c s ≤ sourceCell c s) (h2 : sourceCell c s + pmlCells c s < xSize c s) :
    (0 < g.courant ∧ g.courant < 1) ∧ PlaneGrid (builtGrid c s wl g m prof) (pmlCells c s).toNat (pmlCells c s).toNat (fun x => m.invEps ![x, 0, 0] 2) (fun x => m.absorb ![x, 0, 0] 2) (fun _ => 1) ∧
      ∃ κ, 1 ≤ κ ∧ ∀ x, (1 / κ ≤ m.invEps ![x, 0, 0] 2 ∧ m.invEps ![x, 0, 0] 2 ≤ 1) ∧ 0 ≤ m.absorb ![x, 0, 0] 2 := by
  obtain ⟨l, m', hl, hll, hm', hp⟩ := C59_material_partial c s h.geometry g wl eps hlen
  rw [hm] at hm'
  cases hm'
  obtain ⟨l', hl', -, -, -, -, -, hin⟩ := C59_layers_partial c s h.geometry
  rw [← hlen, hl] at hl'
  cases hl'
  obtain ⟨hc0, hc1⟩ := C43_default _ _ _ hg
  have hP := h.pml
  have hspace : 0 ≤ g.spacing := by
    obtain ⟨g', hg', -, hsp⟩ := gridInit_ok (xSize c s) (by omega) (UNIT_MAGNITUDE / s)
    rw [hg] at hg'
    cases hg'
    rw [hsp]
    exact div_nonneg (by unfold UNIT_MAGNITUDE; norm_num) h.geometry.scaling.le
  have hcase : ∀ x : ℕ, (∃ e ∈ eps, ∀ y < 3, m.invEps ![x, y, 0] 2 = 1 / e.re ∧ m.absorb ![x, y, 0] 2 = 1 / 2 * g.courant * (1 / e.re) * layerCond wl e * g.spacing * ETA_0) ∨
      (∀ y < 3, m.invEps ![x, y, 0] 2 = 1 ∧ m.absorb ![x, y, 0] 2 = 0) := by
    intro x
    by_cases hx : ∃ r ∈ l, inRange r x
    · obtain ⟨r, hrl, hrx⟩ := hx
      obtain ⟨i, hi⟩ := List.getElem?_of_mem hrl
      obtain ⟨e, he⟩ : ∃ e, eps[i]? = some e := ⟨_, List.getElem?_eq_getElem (by rw [← hll]; exact (List.getElem?_eq_some_iff.1 hi).1)⟩
      exact .inl ⟨e, List.mem_of_getElem? he, fun y hy => (hp ![x, y, 0] hy Nat.one_pos).1 i r e hi he hrx⟩
    · exact .inr fun y hy => (hp ![x, y, 0] hy Nat.one_pos).2 (fun r hr hrx => hx ⟨r, hr, hrx⟩)
  have hrow : ∀ x y : ℕ, y < 3 → m.invEps ![x, y, 0] 2 = m.invEps ![x, 0, 0] 2 ∧ m.absorb ![x, y, 0] 2 = m.absorb ![x, 0, 0] 2 := by
    intro x y hy
    rcases hcase x with ⟨e, -, q⟩ | q
    · obtain ⟨a1, a2⟩ := q y hy
      obtain ⟨b1, b2⟩ := q 0 (by norm_num)
      exact ⟨a1.trans b1.symm, a2.trans b2.symm⟩
    · obtain ⟨a1, a2⟩ := q y hy
      obtain ⟨b1, b2⟩ := q 0 (by norm_num)
      exact ⟨a1.trans b1.symm, a2.trans b2.symm⟩
  refine ⟨⟨hc0, hc1.trans_le ?_⟩, ⟨?_, ?_, rfl, fun x y _ hy => (hrow x y hy).1, fun x y _ hy => (hrow x y hy).2, fun x y _ _ => by show (1 : ℝ) / 1 = 1; norm_num, ?_⟩, ?_⟩
  · rw [div_le_one_iff]
    by_cases hz : spreadAxes g.shape = 0
    · right; left
      rw [hz]
      norm_num
    · left
      have : (1 : ℝ) ≤ spreadAxes g.shape := by exact_mod_cast Nat.one_le_iff_ne_zero.2 hz
      exact ⟨Real.sqrt_pos.2 (by linarith), Real.one_le_sqrt.2 this⟩
  · exact (built_framed c s wl h g m h1 h2 prof).room
  · show 2 ≤ 3
    norm_num
  · intro x hx
    have hx' : x < (pmlCells c s).toNat ∨ (xSize c s).toNat ≤ x + (pmlCells c s).toNat := hx
    refine ((hp ![x, 0, 0] (show 0 < 3 by norm_num) Nat.one_pos).2 fun r hr hrx => ?_).2
    have hb := hin r hr
    have hrx' : r.1 ≤ (x : ℤ) ∧ (x : ℤ) < r.2 := hrx
    omega
  · refine ⟨1 + (eps.map Complex.re).sum, ?_, fun x => ?_⟩
    · have : 0 ≤ (eps.map Complex.re).sum := List.sum_nonneg (by
        intro y hy
        obtain ⟨e, he, rfl⟩ := List.mem_map.1 hy
        exact zero_le_one.trans (hre e he))
      linarith
    · rcases hcase x with ⟨e, he, q⟩ | q
      · obtain ⟨a1, a2⟩ := q 0 (by norm_num)
        have hr := hre e he
        have hi := him e he
        have hsum : e.re ≤ (eps.map Complex.re).sum := List.single_le_sum (by
          intro y hy
          obtain ⟨e, he, rfl⟩ := List.mem_map.1 hy
          exact zero_le_one.trans (hre e he)) _ (List.mem_map.2 ⟨e, he, rfl⟩)
        have hcond : 0 ≤ layerCond wl e := by
          have := Real.pi_pos
          unfold layerCond SPEED_OF_LIGHT EPS_0
          positivity
        have heta : 0 ≤ ETA_0 := by unfold ETA_0 MU_0 SPEED_OF_LIGHT; positivity
        rw [a1, a2]
        refine ⟨⟨one_div_le_one_div_of_le (by linarith) (by linarith), by rw [div_le_one (by linarith)]; exact hr⟩, by positivity⟩
      · obtain ⟨a1, a2⟩ := q 0 (by norm_num)
        rw [a1, a2]
        have : 0 ≤ (eps.map Complex.re).sum := List.sum_nonneg (by
          intro y hy
          obtain ⟨e, he, rfl⟩ := List.mem_map.1 hy
          exact zero_le_one.trans (hre e he))
        exact ⟨⟨by rw [div_le_one (by linarith)]; linarith, le_rfl⟩, le_rfl⟩

/-- the values of the continuous source -/
lemma continuous_signal (g : GridNumbers) (wl : ℝ) (hwl : 0 < wl) (k : ℕ) : signalValue (lineSignal g (simSpec wl "continuous")) k = Real.sin (sourceAngle g wl * k) := by
  have hp : (simSpec wl "continuous").period.val ≠ 0 := by
    show wl / SPEED_OF_LIGHT ≠ 0
    unfold SPEED_OF_LIGHT
    positivity
  unfold signalValue lineSignal sourceAngle
  rw [if_neg hp, if_neg (by show ¬ "continuous" = "hanning"; decide), if_neg (by show ¬ "continuous" = "ricker"; decide)]
  show (match (if handleTime g.timeStep (.flt (wl / SPEED_OF_LIGHT)) = 0 then _ else _ : Except PyErr ℝ) with | .ok v => v | .error _ => 0) = _
  split_ifs with hz
  · rw [hz]
    simp
  · show Real.sin (2 * Real.pi * k / (handleTime g.timeStep (.flt (wl / SPEED_OF_LIGHT)) : ℝ) + 0) = _
    congr 1
    ring

/-- pulses end -/
lemma pulse_signal (g : GridNumbers) (wl : ℝ) (pulse : String) (hp : pulse = "hanning" ∨ pulse = "ricker") : ∃ K : ℕ, ∀ k, K ≤ k → signalValue (lineSignal g (simSpec wl pulse)) k = 0 := by
  refine ⟨max (simSpec wl pulse).hanningSteps.toNat ⌈(simSpec wl pulse).gpw g * 6⌉₊, fun k hk => ?_⟩
  have k1 : ¬ (k : ℤ) < (simSpec wl pulse).hanningSteps := by
    have := (le_max_left _ _).trans hk
    omega
  have k2 : ¬ (k : ℝ) < (simSpec wl pulse).gpw g * 6 := by
    rw [not_lt]
    exact (Nat.le_ceil _).trans (by exact_mod_cast (le_max_right _ _).trans hk)
  unfold signalValue lineSignal
  by_cases hv : (simSpec wl pulse).period.val = 0
  · rw [if_pos hv]
  · rw [if_neg hv]
    rcases hp with rfl | rfl
    · rw [if_pos (show (simSpec wl "hanning").signal = "hanning" from rfl)]
      split_ifs <;> rfl
    · rw [if_neg (show ¬ (simSpec wl "ricker").signal = "hanning" by show ¬ "ricker" = "hanning"; decide), if_pos (show (simSpec wl "ricker").signal = "ricker" from rfl), if_neg k2]

/-- the grid that is built settles -/
lemma built_settles (c : FdtdCfg) (s wl : ℝ) (h : LineSetup c s) (hp : 2 ≤ pmlCells c s) (h1 : pmlCells c s ≤ sourceCell c s) (h2 : sourceCell c s + pmlCells c s < xSize c s) (hwl : 0 < wl) (eps : List ℂ)
    (hlen : eps.length = c.thick.length) (hre : ∀ e ∈ eps, 1 ≤ e.re) (him : ∀ e ∈ eps, 0 ≤ e.im) (g : GridNumbers) (m : Materials ℝ) (prof : List ℝ) (hprof : prof.length = 3 ∧ prof[0]? = prof[2]?)
    (hg : gridInit [.int (xSize c s), .int 3, .int 1] (UNIT_MAGNITUDE / s) none = .ok g)
    (hm : addStack c s g ![(xSize c s).toNat, 3, 1] wl ⟨fun _ _ => 1 / 1, fun _ _ => 0⟩ (some eps) = .ok m) :
    ∃ ρ : ℝ, 0 < ρ ∧ ρ < 1 ∧
      (c.pulse = "continuous" → ∃ (X Y P Q : ℕ → ℝ) (C : ℝ), ∀ (k x : ℕ), (x : ℤ) < xSize c s →
        |rowE ((builtGrid c s wl g m prof).run k) x - rowE ((darkGrid (builtGrid c s wl g m prof)).run k) x - (Real.cos (sourceAngle g wl * k) * X x + Real.sin (sourceAngle g wl * k) * Y x)| ≤ C * ρ ^ k ∧
        |rowH ((builtGrid c s wl g m prof).run k) x - rowH ((darkGrid (builtGrid c s wl g m prof)).run k) x - (Real.cos (sourceAngle g wl * k) * P x + Real.sin (sourceAngle g wl * k) * Q x)| ≤ C * ρ ^ k) ∧
      (c.pulse ≠ "continuous" → ∃ (K : ℕ) (C : ℝ), ∀ (k x : ℕ), K ≤ k → (x : ℤ) < xSize c s →
        |rowE ((builtGrid c s wl g m prof).run k) x - rowE ((darkGrid (builtGrid c s wl g m prof)).run k) x| ≤ C * ρ ^ k ∧
        |rowH ((builtGrid c s wl g m prof).run k) x - rowH ((darkGrid (builtGrid c s wl g m prof)).run k) x| ≤ C * ρ ^ k) := by
  obtain ⟨a, b, rfl⟩ := prof_three hprof.1 hprof.2
  obtain ⟨⟨hc0, hc1⟩, hS, κ, hκ, hmed⟩ := built_medium c s wl h hwl eps hlen hre him g m [a, b, a] hg hm h1 h2
  have hF := built_framed c s wl h g m h1 h2 [a, b, a]
  have hF' := dark_framed c s wl h g m h1 h2 [a, b, a]
  set G := builtGrid c s wl g m [a, b, a] with hG
  have hn : G.n 0 = (xSize c s).toNat := rfl
  obtain ⟨ρ, r0, r1, H⟩ := C180_rows G _ _ 1e-8 κ _ _ _ hS (by omega) (by norm_num) hc0 hc1 (by linarith) (fun x _ => (hmed x).1) (fun x _ => ⟨by rw [div_le_one (by linarith)]; exact hκ, le_rfl⟩) (fun x _ => (hmed x).2)
  have hsame : SameWorld G G := ⟨rfl, rfl, rfl, rfl, rfl, rfl, rfl⟩
  have hsrc : (sourceCell c s).toNat ≠ 0 := by omega
  refine ⟨ρ, r0, r1, fun hpulse => ?_, fun hpulse => ?_⟩
  · obtain ⟨X, Y, P, Q, hXY⟩ := H (sourceAngle g wl) (fun _ => 0) (fun x => if x = (sourceCell c s).toNat then a + b else 0) rfl (if_neg hsrc.symm)
    obtain ⟨C, hC⟩ := hXY G (darkGrid G) 0 hsame (dark_world G) hF hF' rfl rfl (built_wrapped c s wl g m a b) (dark_wrapped G) fun k _ x _ => by
      rw [built_rowAdded, dark_rowAdded, hpulse, continuous_signal g wl hwl]
      show (if _ then _ * Real.sin (_ * ((0 + k : ℕ) : ℝ)) else _) - _ = _
      rw [zero_add]
      split_ifs <;> ring
    exact ⟨X, Y, P, Q, C, fun k x hx => hC k (Nat.zero_le k) x (by rw [hn]; omega)⟩
  · obtain ⟨K, hK⟩ := pulse_signal g wl c.pulse (h.pulse.resolve_left hpulse)
    obtain ⟨X, Y, P, Q, hXY⟩ := H 0 (fun _ => 0) (fun _ => 0) rfl rfl
    obtain ⟨C, hC⟩ := hXY G (darkGrid G) K hsame (dark_world G) hF hF' rfl rfl (built_wrapped c s wl g m a b) (dark_wrapped G) fun k hk x _ => by
      rw [built_rowAdded, dark_rowAdded]
      show (if _ then _ * signalValue _ (0 + k) else _) - _ = _
      rw [zero_add, hK k hk]
      split_ifs <;> ring
    obtain ⟨C', hC'⟩ := hXY G G 0 hsame hsame hF hF rfl rfl (built_wrapped c s wl g m a b) (built_wrapped c s wl g m a b) fun k _ x _ => by ring
    refine ⟨K, C + C', fun k x hk hx => ?_⟩
    obtain ⟨b1, b2⟩ := hC k hk x (by rw [hn]; omega)
    obtain ⟨b1', b2'⟩ := hC' k (Nat.zero_le k) x (by rw [hn]; omega)
    rw [sub_self] at b1' b2'
    rw [add_mul]
    constructor
    · refine le_trans ?_ (add_le_add b1 b1')
      rw [abs_sub_comm 0]
      refine le_trans (le_of_eq ?_) (abs_add_le _ _)
      congr 1
      ring
    · refine le_trans ?_ (add_le_add b2 b2')
      rw [abs_sub_comm 0]
      refine le_trans (le_of_eq ?_) (abs_add_le _ _)
      congr 1
      ring

/-- C180 for the solver's own grid: the simulations that `init_fdtd` sets up settle. Compared with the same grid without its source, the fields summed across tend to an oscillation with the frequency of a continuous source, and
to zero after a pulse, like ρᵏ in both cases. For an absorbing layer of at least two cells, a source between the absorbing layers and layers with real parts of the permittivities of at least one and no gain. -/
theorem C180_driver (c : FdtdCfg) (s wl : ℝ) (h : LineSetup c s) (hp : 2 ≤ pmlCells c s) (h1 : pmlCells c s ≤ sourceCell c s) (h2 : sourceCell c s + pmlCells c s < xSize c s) (hwl : 0 < wl) (eps : List ℂ)
    (hlen : eps.length = c.thick.length) (hre : ∀ e ∈ eps, 1 ≤ e.re) (him : ∀ e ∈ eps, 0 ≤ e.im) :
    ∃ sim : Simulation, initFdtd c s (some eps) wl = .ok sim ∧ ∃ ρ : ℝ, 0 < ρ ∧ ρ < 1 ∧
      (c.pulse = "continuous" → ∃ (X Y P Q : ℕ → ℝ) (C : ℝ), ∀ (k x : ℕ), (x : ℤ) < xSize c s →
        |rowE (sim.grid.run k) x - rowE ((darkGrid sim.grid).run k) x - (Real.cos (sourceAngle sim.numbers wl * k) * X x + Real.sin (sourceAngle sim.numbers wl * k) * Y x)| ≤ C * ρ ^ k ∧
        |rowH (sim.grid.run k) x - rowH ((darkGrid sim.grid).run k) x - (Real.cos (sourceAngle sim.numbers wl * k) * P x + Real.sin (sourceAngle sim.numbers wl * k) * Q x)| ≤ C * ρ ^ k) ∧
      (c.pulse ≠ "continuous" → ∃ (K : ℕ) (C : ℝ), ∀ (k x : ℕ), K ≤ k → (x : ℤ) < xSize c s →
        |rowE (sim.grid.run k) x - rowE ((darkGrid sim.grid).run k) x| ≤ C * ρ ^ k ∧ |rowH (sim.grid.run k) x - rowH ((darkGrid sim.grid).run k) x| ≤ C * ρ ^ k) := by
  obtain ⟨g, prof, hg, hp3, ⟨-, hps⟩, -, H⟩ := initFdtd_line c s h wl
  obtain ⟨l, m, -, -, hm, -⟩ := C59_material_partial c s h.geometry g wl eps hlen
  exact ⟨_, H (some eps) m hm, built_settles c s wl h hp h1 h2 hwl eps hlen hre him g m prof ⟨hp3, hps⟩ hg hm⟩

/-! ### The films of the settled simulation -/

/-- the wave equation of the rows, two runs apart -/
lemma wave_apart {g g' : FGrid ℝ} {lo hi : ℕ} {ie f : ℕ → ℝ} {im : ℝ} (h : LineWindow g lo hi ie f im) (h' : LineWindow g' lo hi ie f im) (hc : g'.courant = g.courant) (hf : ∀ x, lo < x → x < hi → 1 + f x ≠ 0) (k : ℕ) (hk : 1 ≤ k) {x : ℕ}
    (h1 : lo < x) (h2 : x < hi) :
    (1 + f x) * (rowE (g.run (k + 2)) x - rowE (g'.run (k + 2)) x) - 2 * (rowE (g.run (k + 1)) x - rowE (g'.run (k + 1)) x) + (1 - f x) * (rowE (g.run k) x - rowE (g'.run k) x) =
      g.courant ^ 2 * ie x * im * ((rowE (g.run (k + 1)) (x + 1) - rowE (g'.run (k + 1)) (x + 1)) - 2 * (rowE (g.run (k + 1)) x - rowE (g'.run (k + 1)) x) + (rowE (g.run (k + 1)) (x - 1) - rowE (g'.run (k + 1)) (x - 1))) := by
  obtain ⟨k, rfl⟩ : ∃ m, k = m + 1 := ⟨k - 1, by omega⟩
  have e1 := row_wave (h.run (k + 1)) (h.run k).copied h1 h2 (hf x h1 h2)
  have e2 := row_wave (h'.run (k + 1)) (h'.run k).copied h1 h2 (hf x h1 h2)
  rw [run_courant] at e1 e2
  rw [hc] at e2
  show (1 + f x) * (rowE ((g.run (k + 1)).run 2) x - rowE ((g'.run (k + 1)).run 2) x) - 2 * (rowE ((g.run (k + 1)).run 1) x - rowE ((g'.run (k + 1)).run 1) x) + _ = g.courant ^ 2 * ie x * im *
    ((rowE ((g.run (k + 1)).run 1) (x + 1) - rowE ((g'.run (k + 1)).run 1) (x + 1)) - 2 * (rowE ((g.run (k + 1)).run 1) x - rowE ((g'.run (k + 1)).run 1) x) + (rowE ((g.run (k + 1)).run 1) (x - 1) - rowE ((g'.run (k + 1)).run 1) (x - 1)))
  linear_combination e1 - e2

/-- an oscillation with a whole number of steps per period that the rows of two runs tend to apart is a stationary wave -/
lemma settled_stationary {g g' : FGrid ℝ} {lo hi : ℕ} {ie f : ℕ → ℝ} {im : ℝ} (h : LineWindow g lo hi ie f im) (h' : LineWindow g' lo hi ie f im) (hc : g'.courant = g.courant) (T : ℕ) (hT : 3 ≤ T) (hs : g.courant ≠ 0) (him : im ≠ 0)
    (hie : ∀ x, lo < x → x < hi → ie x ≠ 0) (hf : ∀ x, lo < x → x < hi → 1 + f x ≠ 0) (κ : ℕ → ℂ)
    (hκ : ∀ x, lo < x → x < hi → Complex.sin (κ x / 2) ^ 2 = Real.sin (2 * Real.pi / T / 2) * (Real.sin (2 * Real.pi / T / 2) + Complex.I * f x * Real.cos (2 * Real.pi / T / 2)) / (g.courant ^ 2 * ie x * im)) (u : ℕ → ℂ)
    (ρ C : ℝ) (hρ : 0 < ρ) (hρ1 : ρ < 1)
    (hosc : ∀ k x : ℕ, lo ≤ x → x ≤ hi → |rowE (g.run k) x - rowE (g'.run k) x - (u x * Complex.exp (-(Complex.I * (2 * Real.pi / T : ℝ) * k))).re| ≤ C * ρ ^ k) : Stationary κ u lo hi := by
  have hT0 : (0 : ℝ) < T := by exact_mod_cast (by omega : 0 < T)
  have hT3 : (3 : ℝ) ≤ T := by exact_mod_cast hT
  set Ω := 2 * Real.pi / T with hΩ
  have hsin : Real.sin Ω ≠ 0 := by
    refine (Real.sin_pos_of_pos_of_lt_pi (by have := Real.pi_pos; positivity) ?_).ne'
    rw [hΩ, div_lt_iff₀ hT0]
    nlinarith [Real.pi_pos]
  have hlim : ∀ j x : ℕ, lo ≤ x → x ≤ hi → Tendsto (fun n => rowE (g.run ((n + 1) * T + j)) x - rowE (g'.run ((n + 1) * T + j)) x) atTop (𝓝 ((u x * Complex.exp (-(Complex.I * Ω * j))).re)) := by
    intro j x h1 h2
    have e : ∀ n : ℕ, Complex.exp (-(Complex.I * Ω * ((n + 1) * T + j : ℕ))) = Complex.exp (-(Complex.I * Ω * j)) := by
      intro n
      rw [Complex.exp_eq_exp_iff_exists_int]
      refine ⟨-(n + 1 : ℤ), ?_⟩
      rw [hΩ]
      have : (T : ℂ) ≠ 0 := by exact_mod_cast hT0.ne'
      push_cast
      field_simp
      ring
    have hz : Tendsto (fun n : ℕ => C * ρ ^ ((n + 1) * T + j)) atTop (𝓝 0) := by
      have h0 : Tendsto (fun n : ℕ => ρ ^ n) atTop (𝓝 0) := tendsto_pow_atTop_nhds_zero_of_lt_one hρ.le hρ1
      have h3 : Tendsto (fun n : ℕ => (n + 1) * T + j) atTop atTop := tendsto_atTop_mono (fun n => by show n ≤ (n + 1) * T + j; nlinarith) tendsto_id
      simpa using (h0.comp h3).const_mul C
    rw [tendsto_iff_norm_sub_tendsto_zero]
    refine squeeze_zero (fun _ => norm_nonneg _) (fun n => ?_) hz
    have := hosc ((n + 1) * T + j) x h1 h2
    rw [e] at this
    exact this
  intro x h1 h2
  have hw : ∀ j : ℕ, ((-4 * (Real.sin (Ω / 2) * (Real.sin (Ω / 2) + Complex.I * f x * Real.cos (Ω / 2))) * u x - ((g.courant ^ 2 * ie x * im : ℝ) : ℂ) * (u (x + 1) - 2 * u x + u (x - 1))) *
      Complex.exp (-(Complex.I * Ω * (j + 1 : ℕ)))).re = 0 := by
    intro j
    have hL := tendsto_nhds_unique
      ((((hlim (j + 2) x h1.le h2.le).const_mul (1 + f x)).sub ((hlim (j + 1) x h1.le h2.le).const_mul 2)).add ((hlim j x h1.le h2.le).const_mul (1 - f x)))
      (((((hlim (j + 1) (x + 1) (by omega) (by omega)).sub ((hlim (j + 1) x h1.le h2.le).const_mul 2)).add (hlim (j + 1) (x - 1) (by omega) (by omega))).const_mul (g.courant ^ 2 * ie x * im)).congr fun n =>
        (wave_apart h h' hc hf ((n + 1) * T + j) (by nlinarith) h1 h2).symm)
    have := wave_residual (c := g.courant ^ 2 * ie x * im) (fx := f x) u (fun _ => 0) (fun i y => (u y * Complex.exp (-(Complex.I * Ω * i))).re) (x := x) j (fun i hi y _ _ => (zero_add _).symm) hL
    rw [this]
    ring
  exact stationary_residual hs him (hie x h1 h2) (hκ x h1 h2) (two_phases hsin 1 (hw 0) (hw 1))

/-- two neighbouring amplitudes are those of two opposite waves -/
lemma waves_exist {k0 : ℝ} (hk : Real.sin k0 ≠ 0) (u : ℕ → ℂ) (x : ℕ) : ∃ A B : ℂ, ∀ y, y = x ∨ y = x + 1 → u y = A * Complex.exp (Complex.I * k0 * y) + B * Complex.exp (-(Complex.I * k0 * y)) := by
  set p := Complex.exp (Complex.I * k0) with hp
  set q := Complex.exp (-(Complex.I * k0)) with hq
  have hpq : p * q = 1 := by rw [hp, hq, ← Complex.exp_add, add_neg_cancel, Complex.exp_zero]
  have hd : p - q ≠ 0 := by
    intro h0
    have : (p - q).im = 2 * Real.sin k0 := by
      rw [hp, hq, show Complex.I * (k0 : ℂ) = (k0 : ℂ) * Complex.I by ring, show -((k0 : ℂ) * Complex.I) = ((-k0 : ℝ) : ℂ) * Complex.I by push_cast; ring, Complex.sub_im, Complex.exp_ofReal_mul_I_im, Complex.exp_ofReal_mul_I_im,
        Real.sin_neg]
      ring
    rw [h0, Complex.zero_im] at this
    exact hk (by linarith)
  have e1 : ∀ y : ℕ, Complex.exp (Complex.I * k0 * y) = p ^ y := fun y => by rw [hp, ← Complex.exp_nat_mul]; congr 1; ring
  have e2 : ∀ y : ℕ, Complex.exp (-(Complex.I * k0 * y)) = q ^ y := fun y => by rw [hq, ← Complex.exp_nat_mul]; congr 1; ring
  have hpx : p ^ x * q ^ x = 1 := by rw [← mul_pow, hpq, one_pow]
  refine ⟨(u (x + 1) - q * u x) / (p - q) * q ^ x, (p * u x - u (x + 1)) / (p - q) * p ^ x, fun y hy => ?_⟩
  rw [e1, e2]
  rcases hy with rfl | rfl
  · field_simp
    linear_combination -(u y * (p - q)) * hpx
  · rw [pow_succ, pow_succ]
    field_simp
    linear_combination -(u (x + 1) * (p - q)) * hpx

/-- C180, films: the simulation of a stack with a continuous source settles into a state whose reflectance and transmittance are those of the films that the grid makes of the configured layers. `init_fdtd` makes of the layers
films of `cells` cells each, within one cell of the configured thickness. Compared with the same grid without its source, the fields summed across tend to an oscillation with amplitudes `u`. In front of the stack and behind it the
amplitudes are those of two opposite waves; if none comes from behind, `|B/A|²` and `|C/A|²` are the reflectance and the transmittance of these films. -/
theorem C180_films (c : FdtdCfg) (s : ℝ) (h : LineSetup c s) (wl : ℝ) (hwl : 0 < wl) (hp : 2 ≤ pmlCells c s) (hs : pmlCells c s ≤ sourceCell c s) (hpulse : c.pulse = "continuous") (hgap : 2 ≤ c.gap) (hfree : c.gap < ⌊s * c.free⌋)
    (hfront : sourceCell c s + 3 ≤ ⌊s * (c.pml + c.free)⌋) (hend : sourceCell c s + pmlCells c s < xSize c s) (hthick : ∀ t ∈ c.thick, 1 ≤ s * t) (eps : List ℂ) (hlen : eps.length = c.thick.length) (hre : ∀ e ∈ eps, 1 ≤ e.re)
    (him : ∀ e ∈ eps, 0 ≤ e.im) :
    ∃ (sim : Simulation) (cells : List ℕ), initFdtd c s (some eps) wl = .ok sim ∧ cells.length = eps.length ∧
      (∀ (i : ℕ) (d : ℕ) (t : ℝ), cells[i]? = some d → c.thick[i]? = some t → |(d : ℝ) - s * t| < 1) ∧
      ∀ T : ℕ, handleTime sim.numbers.timeStep (.flt (wl / SPEED_OF_LIGHT)) = T → 3 ≤ T → ∃ (u : ℕ → ℂ) (ρ M : ℝ), 0 < ρ ∧ ρ < 1 ∧
        (∀ k x : ℕ, (x : ℤ) < xSize c s → |rowE (sim.grid.run k) x - rowE ((darkGrid sim.grid).run k) x - (u x * Complex.exp (-(Complex.I * (2 * Real.pi / T : ℝ) * k))).re| ≤ M * ρ ^ k) ∧
        ∀ ls : List GridLayer, ls.map GridLayer.cells = cells →
          (∀ (i : ℕ) (ly : GridLayer) (e : ℂ), ls[i]? = some ly → eps[i]? = some e → ly.index ^ 2 = e.re + Complex.I * (e.im * lossFactor sim.numbers.timeStep wl (2 * Real.pi / T) : ℝ) ∧
            Complex.sin (ly.advance / 2) = Real.sin (Real.pi / T) / sim.numbers.courant * ly.index ∧ WaveResolved ly.advance) →
          ∀ k0 : ℝ, Real.sin (k0 / 2) = Real.sin (Real.pi / T) / sim.numbers.courant → Real.cos (k0 / 2) ≠ 0 → ∃ A B C D : ℂ,
            (∀ x : ℕ, (x : ℤ) = ⌊s * (c.pml + c.free)⌋ - 1 ∨ (x : ℤ) = ⌊s * (c.pml + c.free)⌋ → u x = A * Complex.exp (Complex.I * k0 * x) + B * Complex.exp (-(Complex.I * k0 * x))) ∧
            (∀ x : ℕ, (x : ℤ) = ⌊s * (c.pml + c.free)⌋ + cells.sum - 1 ∨ (x : ℤ) = ⌊s * (c.pml + c.free)⌋ + cells.sum → u x = C * Complex.exp (Complex.I * k0 * x) + D * Complex.exp (-(Complex.I * k0 * x))) ∧
            (A ≠ 0 → D = 0 → Complex.normSq (B / A) = filmsR (Real.cos (k0 / 2)) (simulatedFilms ls) (Real.cos (k0 / 2)) ∧
              Complex.normSq (C / A) = filmsT (Real.cos (k0 / 2)) (simulatedFilms ls) (Real.cos (k0 / 2))) := by
  obtain ⟨g, prof, m, cells, ie, f, hg, hprof, hm, hi, hl, hth, hW, htd, hmed, H⟩ := driver_films c s h wl hwl hgap hfree hfront hthick eps hlen (fun e he => zero_lt_one.trans_le (hre e he)) him
  refine ⟨_, cells, hi, hl, hth, fun T hT hT3 => ?_⟩
  have hT' : handleTime g.timeStep (.flt (wl / SPEED_OF_LIGHT)) = T := hT
  obtain ⟨ρ, r0, r1, hset, -⟩ := built_settles c s wl h hp hs hend hwl eps hlen hre him g m prof hprof hg hm
  obtain ⟨X, Y, P, Q, M, hM⟩ := hset hpulse
  have hang : sourceAngle g wl = 2 * Real.pi / T := by
    unfold sourceAngle
    rw [hT']
    norm_num
  have hu : ∀ k x : ℕ, (x : ℤ) < xSize c s → |rowE ((builtGrid c s wl g m prof).run k) x - rowE ((darkGrid (builtGrid c s wl g m prof)).run k) x -
      ((⟨X x, Y x⟩ : ℂ) * Complex.exp (-(Complex.I * (2 * Real.pi / T : ℝ) * k))).re| ≤ M * ρ ^ k := by
    intro k x hx
    have := (hM k x hx).1
    rw [hang] at this
    refine le_trans (le_of_eq ?_) this
    congr 2
    rw [show -(Complex.I * ((2 * Real.pi / T : ℝ) : ℂ) * k) = ((-(2 * Real.pi / T * k) : ℝ) : ℂ) * Complex.I by push_cast; ring, Complex.mul_re, Complex.exp_ofReal_mul_I_re, Complex.exp_ofReal_mul_I_im, Real.cos_neg, Real.sin_neg]
    ring
  have hT0 : (0 : ℝ) < T := by exact_mod_cast (by omega : 0 < T)
  have hTr : (3 : ℝ) ≤ T := by exact_mod_cast hT3
  have hΩ0 : 0 < 2 * Real.pi / T := by have := Real.pi_pos; positivity
  have hΩ1 : 2 * Real.pi / T < Real.pi := by
    rw [div_lt_iff₀ hT0]
    nlinarith [Real.pi_pos]
  have hhalf : 2 * Real.pi / T / 2 = Real.pi / T := by ring
  have hco := (C43_default _ _ _ hg).1
  have hsl := h.sourceLow
  refine ⟨fun x => ⟨X x, Y x⟩, ρ, M, r0, r1, hu, fun ls hcells hls k0 hk0 hk1 => ?_⟩
  have hsin : 0 < Real.sin (Real.pi / T) := by
    rw [← hhalf]
    exact Real.sin_pos_of_pos_of_lt_pi (by linarith) (by linarith)
  have hk : Real.sin k0 ≠ 0 := by
    rw [show k0 = 2 * (k0 / 2) by ring, Real.sin_two_mul, hk0]
    exact mul_ne_zero (mul_ne_zero two_ne_zero (div_pos hsin hco).ne') hk1
  obtain ⟨A, B, hAB⟩ := waves_exist hk (fun x => ⟨X x, Y x⟩) (⌊s * (c.pml + c.free)⌋ - 1).toNat
  obtain ⟨C, D, hCD⟩ := waves_exist hk (fun x => ⟨X x, Y x⟩) (⌊s * (c.pml + c.free)⌋ + cells.sum - 1).toNat
  refine ⟨A, B, C, D, fun x hx => hAB x (by omega), fun x hx => hCD x (by omega), fun hA hD => ?_⟩
  refine H (2 * Real.pi / T) hΩ0 hΩ1 ls hcells (fun i ly e h1 h2 => by rw [hhalf]; exact hls i ly e h1 h2) k0 (by rw [hhalf]; exact hk0) hk1 (fun x => ⟨X x, Y x⟩) (fun a b ha hb κ hκ => ?_) A B C hA (fun x hx => hAB x (by omega))
    (fun x hx => by
      have := hCD x (by omega)
      rw [hD, zero_mul, add_zero] at this
      exact this)
  have hW' : LineWindow (darkGrid (builtGrid c s wl g m prof)) (⌊s * (c.pml + c.free)⌋ - 2).toNat (tDetectorX c s).toNat ie f 1 :=
    ⟨hW.wide, hW.flat, hW.inside, hW.bounds, fun _ hs => absurd hs List.not_mem_nil, hW.eps, hW.absorb, hW.mu⟩
  refine settled_stationary (hW.narrow ha hb) (hW'.narrow ha hb) rfl T hT3 hco.ne' one_ne_zero (fun x _ _ => (hmed x).1) (fun x _ _ => (hmed x).2) κ hκ _ ρ M r0 r1 fun k x h1 h2 => hu k x ?_
  have hin : (tDetectorX c s).toNat < (xSize c s).toNat := hW.inside
  omega

/-! ### Example -/

/-- the default config with eight layers, of permittivity 4 -/
example : ∃ sim : Simulation, initFdtd (expandThick (fdtdDefaultWith (3 / 2) 2 [1])) 10 (some (List.replicate 8 4)) 1e-6 = .ok sim ∧ ∃ (ρ : ℝ) (X Y P Q : ℕ → ℝ) (C : ℝ), 0 < ρ ∧ ρ < 1 ∧ ∀ k x : ℕ, x < 130 →
    |rowE (sim.grid.run k) x - rowE ((darkGrid sim.grid).run k) x - (Real.cos (sourceAngle sim.numbers 1e-6 * k) * X x + Real.sin (sourceAngle sim.numbers 1e-6 * k) * Y x)| ≤ C * ρ ^ k ∧
    |rowH (sim.grid.run k) x - rowH ((darkGrid sim.grid).run k) x - (Real.cos (sourceAngle sim.numbers 1e-6 * k) * P x + Real.sin (sourceAngle sim.numbers 1e-6 * k) * Q x)| ≤ C * ρ ^ k := by
  have e : expandThick (fdtdDefaultWith (3 / 2) 2 [1]) = fdtdDefaultWith (3 / 2) 2 (List.replicate 8 1) := rfl
  have t : ∀ z : ℤ, pyTrunc (z : ℝ) = z := fun z => by unfold pyTrunc; split_ifs <;> simp
  have h1 : pmlCells (expandThick (fdtdDefaultWith (3 / 2) 2 [1])) 10 = 15 := by
    rw [e]
    unfold pmlCells
    rw [show _ * (10 : ℝ) = ((15 : ℤ) : ℝ) by norm_num [fdtdDefaultWith], t]
  have h2 : sourceCell (expandThick (fdtdDefaultWith (3 / 2) 2 [1])) 10 = 15 := by
    rw [e]
    unfold sourceCell
    rw [show _ * (10 : ℝ) = ((15 : ℤ) : ℝ) by norm_num [fdtdDefaultWith], t]
  have h3 : xSize (expandThick (fdtdDefaultWith (3 / 2) 2 [1])) 10 = 130 := by
    rw [e]
    unfold xSize
    rw [show (10 : ℝ) * _ = ((130 : ℤ) : ℝ) by norm_num [fdtdDefaultWith, List.replicate], t]
  have h4 : ∀ z ∈ List.replicate 8 (4 : ℂ), z = 4 := fun z hz => List.eq_of_mem_replicate hz
  obtain ⟨sim, hi, ρ, r0, r1, H, -⟩ := C180_driver _ 10 1e-6 default_setup (by rw [h1]; norm_num) (by rw [h1, h2]) (by rw [h1, h2, h3]; norm_num) (by norm_num) (List.replicate 8 4) rfl (fun z hz => by rw [h4 z hz]; norm_num)
    (fun z hz => by rw [h4 z hz]; norm_num)
  obtain ⟨X, Y, P, Q, C, hC⟩ := H rfl
  refine ⟨sim, hi, ρ, X, Y, P, Q, C, r0, r1, fun k x hx => hC k x ?_⟩
  rw [h3]
  exact_mod_cast hx

end

end Nidn
