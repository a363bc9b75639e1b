/-
C43 (stability limit) and C44 (rounding) of the FDTD grid.
-/
import Verif.Model.FdtdGrid
import Verif.Lemmas.Py
import Mathlib.Tactic.Ring
import Mathlib.Tactic.FieldSimp
import Mathlib.Tactic.NormNum
import Mathlib.Tactic.Linarith
import Mathlib.Tactic.Positivity

namespace Nidn

/-! ### C43 -/

/-- number of axes with more than one cell, counted independently of the code -/
def spreadAxes (s : ℤ × ℤ × ℤ) : ℕ := ([s.1, s.2.1, s.2.2].filter fun m => 2 ≤ m).length

lemma gridDims_eq (s : ℤ × ℤ × ℤ) : gridDims s = spreadAxes s := by
  obtain ⟨x, y, z⟩ := s
  have hx : ∀ m : ℤ, (decide (2 ≤ m)) = decide (1 < m) := fun m => by rw [decide_eq_decide]; omega
  simp only [gridDims, spreadAxes, List.filter_cons, List.filter_nil, hx]
  by_cases h1 : 1 < x <;> by_cases h2 : 1 < y <;> by_cases h3 : 1 < z <;> simp [h1, h2, h3]

lemma maxCourant_ok {d : ℕ} {m : ℝ} (h : maxCourant d = .ok m) :
    d ≠ 0 ∧ 0 < m ∧ m = 1 / Real.sqrt d := by
  unfold maxCourant at h
  split_ifs at h with hd
  have hm : m = (d : ℝ) ^ (-(1 / 2 : ℝ)) := by
    cases h; rfl
  have hd' : (0 : ℝ) < d := by exact_mod_cast Nat.pos_of_ne_zero hd
  refine ⟨hd, ?_, ?_⟩
  · rw [hm]; exact Real.rpow_pos_of_pos hd' _
  · rw [hm, Real.rpow_neg hd'.le, Real.sqrt_eq_rpow, ← one_div]

lemma gridInit_inv {shape : List (PyNum ℝ)} {spacing : ℝ} {co : Option ℝ} {g : GridNumbers}
    (h : gridInit shape spacing co = .ok g) :
    ∃ s m c, handleTuple spacing shape = .ok s ∧ maxCourant (gridDims s) = .ok m ∧
      chooseCourant m co = .ok c ∧ g = ⟨s, spacing, gridDims s, c, c * spacing / SPEED_OF_LIGHT⟩ := by
  unfold gridInit at h
  rw [bind_ok] at h
  obtain ⟨s, hs, h⟩ := h
  rw [bind_ok] at h
  obtain ⟨m, hm, h⟩ := h
  rw [bind_ok] at h
  obtain ⟨c, hc, h⟩ := h
  split_ifs at h
  cases h
  exact ⟨s, m, c, hs, hm, hc, rfl⟩

/-- C43, upper bound: whatever was requested, the Courant number of a constructed grid is at most `1/sqrt D` (with `D` the
number of axes with at least two cells, which is not 0) and the time step is `courant * spacing / c`. -/
theorem C43_limit (shape : List (PyNum ℝ)) (spacing : ℝ) (co : Option ℝ) (g : GridNumbers)
    (h : gridInit shape spacing co = .ok g) :
    1 ≤ spreadAxes g.shape ∧ g.courant ≤ 1 / Real.sqrt (spreadAxes g.shape) ∧
      g.timeStep = g.courant * spacing / 299792458 := by
  obtain ⟨s, m, c, hs, hm, hc, rfl⟩ := gridInit_inv h
  obtain ⟨hd, hpos, hm'⟩ := maxCourant_ok hm
  simp only [gridDims_eq] at hd hm'
  refine ⟨by show 1 ≤ spreadAxes s; omega, ?_, ?_⟩
  · show c ≤ 1 / Real.sqrt (spreadAxes s)
    rw [← hm']
    cases co with
    | none =>
      simp only [chooseCourant] at hc
      cases hc
      nlinarith
    | some r =>
      simp only [chooseCourant] at hc
      split_ifs at hc with hr
      cases hc
      exact not_lt.mp hr
  · simp only [SPEED_OF_LIGHT]; norm_num

/-- C43, default: without a request the Courant number is positive and strictly below the limit, for every shape. -/
theorem C43_default (shape : List (PyNum ℝ)) (spacing : ℝ) (g : GridNumbers)
    (h : gridInit shape spacing none = .ok g) :
    0 < g.courant ∧ g.courant < 1 / Real.sqrt (spreadAxes g.shape) := by
  obtain ⟨s, m, c, hs, hm, hc, rfl⟩ := gridInit_inv h
  obtain ⟨hd, hpos, hm'⟩ := maxCourant_ok hm
  simp only [gridDims_eq] at hm'
  simp only [chooseCourant] at hc
  cases hc
  refine ⟨by positivity, ?_⟩
  show 0.99 * m < 1 / Real.sqrt (spreadAxes s)
  rw [← hm']; nlinarith

/-- C43, requests: for a shape with at least one extended axis a request above the limit is a ValueError, any other request is
taken over unchanged. -/
theorem C43_request (x y z : ℕ) (spacing r : ℝ)
    (hD : spreadAxes ((x : ℤ), (y : ℤ), (z : ℤ)) ≠ 0) :
    (1 / Real.sqrt (spreadAxes ((x : ℤ), (y : ℤ), (z : ℤ))) < r →
      gridInit [.int x, .int y, .int z] spacing (some r) = .error .valueError) ∧
    (r ≤ 1 / Real.sqrt (spreadAxes ((x : ℤ), (y : ℤ), (z : ℤ))) →
      ∃ g, gridInit [.int x, .int y, .int z] spacing (some r) = .ok g ∧ g.courant = r ∧
        g.shape = ((x : ℤ), (y : ℤ), (z : ℤ))) := by
  have hmx : maxCourant (gridDims ((x : ℤ), (y : ℤ), (z : ℤ)))
      = .ok (1 / Real.sqrt (spreadAxes ((x : ℤ), (y : ℤ), (z : ℤ)))) := by
    rw [gridDims_eq, maxCourant, if_neg hD, Real.rpow_neg (Nat.cast_nonneg _), Real.sqrt_eq_rpow, ← one_div]
  constructor
  · intro hr
    simp only [gridInit, handleTuple, handleDistance, ok_bind, hmx, chooseCourant, gt_iff_lt, if_pos hr, error_bind]
  · intro hr
    simp only [gridInit, handleTuple, handleDistance, ok_bind, hmx, chooseCourant, gt_iff_lt, if_neg (not_lt.mpr hr)]
    rw [if_neg (by omega)]
    exact ⟨_, rfl, rfl, rfl⟩

/-- C43 is false as stated: a negative (or zero) Courant number is accepted, so time would run backwards. -/
theorem C43_false : ∃ g, gridInit [.int 10, .int 10, .int 1] 1 (some (-1)) = .ok g ∧ g.courant < 0 ∧
    g.timeStep < 0 := by
  have hD : spreadAxes ((10 : ℕ), (10 : ℕ), (1 : ℕ)) ≠ 0 := by decide
  obtain ⟨g, hg, hc, -⟩ := (C43_request 10 10 1 1 (-1) hD).2 (by
    have : 0 ≤ 1 / Real.sqrt (spreadAxes (((10 : ℕ) : ℤ), ((10 : ℕ) : ℤ), ((1 : ℕ) : ℤ))) := by positivity
    linarith)
  refine ⟨g, hg, by rw [hc]; norm_num, ?_⟩
  rw [(C43_limit _ _ _ _ hg).2.2, hc]; norm_num

/-- C43, what holds of it: a default or positive request gives a positive Courant number within the limit and a positive time
step. Missing for the full property: non-positive requests are not rejected (see `C43_false`). -/
theorem C43_partial (shape : List (PyNum ℝ)) (spacing : ℝ) (co : Option ℝ) (g : GridNumbers)
    (h : gridInit shape spacing co = .ok g) (hsp : 0 < spacing) (hco : ∀ r, co = some r → 0 < r) :
    0 < g.courant ∧ g.courant ≤ 1 / Real.sqrt (spreadAxes g.shape) ∧ 0 < g.timeStep := by
  have hl := C43_limit _ _ _ _ h
  have hpos : 0 < g.courant := by
    cases co with
    | none => exact (C43_default _ _ _ h).1
    | some r =>
      obtain ⟨s, m, c, hs, hm, hc, rfl⟩ := gridInit_inv h
      simp only [chooseCourant] at hc
      split_ifs at hc
      cases hc
      exact hco _ rfl
  refine ⟨hpos, hl.2.1, ?_⟩
  rw [hl.2.2]; positivity

/-- a grid without any extended axis cannot be constructed -/
theorem C43_zero_dim (x y z : ℤ) (hx : x ≤ 1) (hy : y ≤ 1) (hz : z ≤ 1) (spacing : ℝ) (co : Option ℝ) :
    gridInit [.int x, .int y, .int z] spacing co = .error .zeroDivisionError := by
  have : gridDims (x, y, z) = 0 := by
    simp only [gridDims]; rw [if_neg (by omega), if_neg (by omega), if_neg (by omega)]
  simp only [gridInit, handleTuple, handleDistance, ok_bind, this, maxCourant, if_true, error_bind]

/-- a concrete constructed grid: 10 x 3 x 1 cells, default Courant number -/
example : ∃ g, gridInit [.int 10, .int 3, .int 1] 1 none = .ok g ∧ spreadAxes g.shape = 2 := by
  simp only [gridInit, handleTuple, handleDistance, ok_bind]
  rw [show gridDims ((10 : ℤ), (3 : ℤ), (1 : ℤ)) = 2 by decide]
  simp only [maxCourant, OfNat.ofNat_ne_zero, if_false, ok_bind, chooseCourant]
  rw [if_neg (by omega)]
  exact ⟨_, rfl, by decide⟩

/-! ### C44 -/

set_option linter.unusedSectionVars false

section
variable {K : Type} [Field K] [LinearOrder K] [IsStrictOrderedRing K] [FloorRing K]

lemma pyTrunc_nonneg {x : K} (hx : 0 ≤ x) : pyTrunc x = ⌊x⌋ := by rw [pyTrunc, if_pos hx]

lemma round_half {x s : K} (hx : 0 ≤ x) (hs : 0 < s) :
    0 ≤ pyTrunc (x / s + 1 / 2) ∧ |(pyTrunc (x / s + 1 / 2) : K) * s - x| ≤ s / 2 := by
  have h0 : 0 ≤ x / s + 1 / 2 := by positivity
  rw [pyTrunc_nonneg h0]
  refine ⟨Int.floor_nonneg.mpr h0, ?_⟩
  have h1 := Int.floor_le (x / s + 1 / 2)
  have h2 := Int.lt_floor_add_one (x / s + 1 / 2)
  have hxs : x = x / s * s := by field_simp
  rw [abs_le]
  constructor
  · have : (x / s - 1 / 2) * s ≤ (⌊x / s + 1 / 2⌋ : K) * s :=
      mul_le_mul_of_nonneg_right (by linarith) hs.le
    nlinarith
  · have : (⌊x / s + 1 / 2⌋ : K) * s ≤ (x / s + 1 / 2) * s :=
      mul_le_mul_of_nonneg_right h1 hs.le
    nlinarith

/-- C44, distances: integers are used as they are, a non-negative float becomes the number of cells whose length differs from it by
at most half a cell. -/
theorem C44_distance (spacing : K) (hs : 0 < spacing) :
    (∀ i : ℤ, handleDistance spacing (.int i) = i) ∧
    (∀ x : K, 0 ≤ x → 0 ≤ handleDistance spacing (.flt x) ∧
      |(handleDistance spacing (.flt x) : K) * spacing - x| ≤ spacing / 2) :=
  ⟨fun _ => rfl, fun _ hx => round_half hx hs⟩

/-- C44, times: the same for time values. -/
theorem C44_time (timeStep : K) (hs : 0 < timeStep) :
    (∀ i : ℤ, handleTime timeStep (.int i) = i) ∧
    (∀ x : K, 0 ≤ x → 0 ≤ handleTime timeStep (.flt x) ∧
      |(handleTime timeStep (.flt x) : K) * timeStep - x| ≤ timeStep / 2) :=
  ⟨fun _ => rfl, fun _ hx => round_half hx hs⟩

/-- a whole number of cells given as a float is that number of cells; and the chosen cell count is the best one. -/
theorem C44_nearest (spacing : K) (hs : 0 < spacing) (x : K) (hx : 0 ≤ x) (m : ℤ) :
    |(handleDistance spacing (.flt x) : K) * spacing - x| ≤ |(m : K) * spacing - x| ∧
    (x = m * spacing → handleDistance spacing (.flt x) = m) := by
  obtain ⟨-, hr⟩ := (C44_distance spacing hs).2 x hx
  set r := handleDistance spacing (.flt x) with hrdef
  have key : r ≠ m → spacing / 2 ≤ |(m : K) * spacing - x| := by
    intro hne
    have h1 : spacing ≤ |(m : K) * spacing - r * spacing| := by
      rw [← sub_mul, abs_mul, abs_of_pos hs]
      have : (1 : K) ≤ |(m : K) - r| := by
        have h : (1 : ℤ) ≤ |m - r| := Int.one_le_abs (by omega)
        calc (1 : K) = ((1 : ℤ) : K) := by simp
          _ ≤ ((|m - r| : ℤ) : K) := by exact_mod_cast h
          _ = |(m : K) - r| := by push_cast; rfl
      nlinarith
    have h2 : |(m : K) * spacing - r * spacing| ≤ |(m : K) * spacing - x| + |(r : K) * spacing - x| := by
      have := abs_sub_le ((m : K) * spacing) x (r * spacing)
      rwa [abs_sub_comm x] at this
    linarith
  constructor
  · by_cases h : r = m
    · rw [h]
    · exact hr.trans (key h)
  · intro hxm
    by_contra h
    have := key h
    rw [hxm, sub_self, abs_zero] at this
    linarith

/-- C44, consistency: shapes, single indices, index lists and slices all use that same rounding; `None` entries of slices and
integers are untouched. The i-th key of an index addresses the i-th axis, and axes without a key are taken whole. -/
theorem C44_keys (spacing : K) :
    (∀ x y z : PyNum K, handleTuple spacing [x, y, z] =
      .ok (handleDistance spacing x, handleDistance spacing y, handleDistance spacing z)) ∧
    (∀ x, handleSingleKey spacing (.num x) = .list [handleDistance spacing x]) ∧
    (∀ l, handleSingleKey spacing (.many l) = .list (l.map (handleDistance spacing))) ∧
    (∀ a b : PyNum K, handleSingleKey spacing (.slice ⟨some a, some b, none⟩) =
      .slice ⟨some (handleDistance spacing a), some (handleDistance spacing b), none⟩) ∧
    (∀ a b : ℤ, handleSingleKey spacing (.slice ⟨some (.int a), some (.int b), none⟩) = .slice ⟨some a, some b, none⟩) ∧
    (∀ a : PyNum K, handleSingleKey spacing (.slice ⟨none, some a, none⟩) =
      .slice ⟨none, some (handleDistance spacing a), none⟩) ∧
    (∀ k : List (GridKey K), 3 < k.length → setitemKeys spacing k = .error .keyError) ∧
    (∀ k : List (GridKey K), 0 < k.length → k.length ≤ 3 → ∃ a b c, setitemKeys spacing k = .ok (a, b, c) ∧
      ∀ i (hi : i < 3), [a, b, c][i] = ((k[i]?).map (handleSingleKey spacing)).getD (.slice ⟨none, none, none⟩)) ∧
    (∀ l : List (PyNum K), l.length ≠ 3 → handleTuple spacing l = .error .valueError) := by
  refine ⟨fun _ _ _ => rfl, fun _ => rfl, fun _ => rfl, fun _ _ => rfl, fun _ _ => rfl, fun _ => rfl, ?_, ?_, ?_⟩
  · intro k hk
    match k, hk with
    | a :: b :: c :: d :: l, _ => rfl
  · intro k h0 h3
    match k, h0, h3 with
    | [x], _, _ => exact ⟨_, _, _, rfl, fun i hi => by match i, hi with
                                                    | 0, _ => rfl
                                                    | 1, _ => rfl
                                                    | 2, _ => rfl⟩
    | [x, y], _, _ => exact ⟨_, _, _, rfl, fun i hi => by match i, hi with
                                                    | 0, _ => rfl
                                                    | 1, _ => rfl
                                                    | 2, _ => rfl⟩
    | [x, y, z], _, _ => exact ⟨_, _, _, rfl, fun i hi => by match i, hi with
                                                    | 0, _ => rfl
                                                    | 1, _ => rfl
                                                    | 2, _ => rfl⟩
  · intro l hl
    match l, hl with
    | [], _ => rfl
    | [_], _ => rfl
    | [_, _], _ => rfl
    | [_, _, _], h => exact absurd rfl h
    | _ :: _ :: _ :: _ :: _, _ => rfl

/-- C44 fails for run lengths: a run of 1.6 time steps is nearest to 2 steps (and a source period of that length is 2 steps),
yet `run` performs 1 step. -/
theorem C44_run_false : ∃ dt x : ℚ, 0 < dt ∧ 0 ≤ x ∧ runSteps dt (.flt x) = 1 ∧ handleTime dt (.flt x) = 2 ∧
    ¬ |(runSteps dt (.flt x) : ℚ) * dt - x| ≤ dt / 2 := by
  have h1 : runSteps (1 : ℚ) (.flt (8 / 5)) = 1 := by decide +kernel
  refine ⟨1, 8 / 5, by norm_num, by norm_num, h1, by decide +kernel, ?_⟩
  rw [h1]; norm_num [abs_le]

/-- C44, what holds of run lengths: integers are exact, and a float run is at most one step short, never too long.
Missing for the full property: rounding to the nearest step. -/
theorem C44_run_partial (dt : K) (hdt : 0 < dt) :
    (∀ k : ℕ, runSteps dt (.int k) = k) ∧
    (∀ x : K, 0 ≤ x → (runSteps dt (.flt x) : K) * dt ≤ x ∧ x < ((runSteps dt (.flt x) : K) + 1) * dt) := by
  refine ⟨fun k => by simp [runSteps], fun x hx => ?_⟩
  have h0 : 0 ≤ x / dt := by positivity
  have hcast : ((runSteps dt (.flt x) : ℕ) : K) = (⌊x / dt⌋ : K) := by
    simp only [runSteps, pyTrunc_nonneg h0]
    have h : ((⌊x / dt⌋.toNat : ℕ) : ℤ) = ⌊x / dt⌋ := Int.toNat_of_nonneg (Int.floor_nonneg.mpr h0)
    exact_mod_cast congrArg (fun i : ℤ => (i : K)) h
  rw [hcast]
  have h1 := Int.floor_le (x / dt)
  have h2 := Int.lt_floor_add_one (x / dt)
  have hxs : x = x / dt * dt := by field_simp
  constructor
  · calc (⌊x / dt⌋ : K) * dt ≤ x / dt * dt := mul_le_mul_of_nonneg_right h1 hdt.le
      _ = x := hxs.symm
  · calc x = x / dt * dt := hxs
      _ < _ := mul_lt_mul_of_pos_right h2 hdt

end

/-- 0.4 cells round to 0, 1.5 cells to 2, on a grid of spacing 1/2 -/
example : handleDistance (1 / 2 : ℚ) (.flt (1 / 5)) = 0 ∧ handleDistance (1 / 2 : ℚ) (.flt (3 / 4)) = 2 := by
  decide +kernel

end Nidn
