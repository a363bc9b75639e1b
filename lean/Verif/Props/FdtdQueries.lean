/-
C181: a grid tells its size and the time that has passed.
-/
import Verif.Model.FdtdQueries
import Verif.Props.FdtdGrid
import Verif.Props.FdtdPieces

namespace Nidn

/-- the length a user asks for with a number: a float is a length, an integer a number of cells -/
def requested (spacing : ℝ) : PyNum ℝ → ℝ
  | .int i => i * spacing
  | .flt x => x

lemma handleDistance_whole {spacing : ℝ} (hs : 0 < spacing) {i : ℤ} (hi : 0 ≤ i) : handleDistance spacing (.flt ((i : ℝ) * spacing)) = i :=
  (C44_nearest spacing hs ((i : ℝ) * spacing) (by positivity) i).2 rfl

lemma gridInit_shape {shape : List (PyNum ℝ)} {spacing : ℝ} {co : Option ℝ} {g : GridNumbers} (h : gridInit shape spacing co = .ok g) :
    0 ≤ g.shape.1 ∧ 0 ≤ g.shape.2.1 ∧ 0 ≤ g.shape.2.2 ∧ g.spacing = spacing ∧ handleTuple spacing shape = .ok g.shape := by
  unfold gridInit at h
  rw [bind_ok] at h
  obtain ⟨s, hs, h⟩ := h
  rw [bind_ok] at h
  obtain ⟨m, hm, h⟩ := h
  rw [bind_ok] at h
  obtain ⟨c, hc, h⟩ := h
  split_ifs at h with hn
  cases h
  push Not at hn
  exact ⟨hn.1, hn.2.1, hn.2.2, rfl, hs⟩

/-- **C181 (size).** The extents of a grid are its numbers of cells times the spacing, and each is the requested length up to half a cell, exactly the requested length if that is a whole number of cells. -/
theorem C181_size (r : Fin 3 → PyNum ℝ) (spacing : ℝ) (hs : 0 < spacing) (hr : ∀ a, 0 ≤ requested spacing (r a)) (co : Option ℝ) (g : GridNumbers)
    (h : gridInit [r 0, r 1, r 2] spacing co = .ok g) (a : Fin 3) :
    g.extent a = g.cells a * spacing ∧ |g.extent a - requested spacing (r a)| ≤ spacing / 2 ∧
    ∀ k : ℤ, requested spacing (r a) = k * spacing → g.extent a = requested spacing (r a) ∧ g.cells a = k := by
  obtain ⟨-, -, -, hsp, ht⟩ := gridInit_shape h
  have ht : (handleDistance spacing (r 0), handleDistance spacing (r 1), handleDistance spacing (r 2)) = g.shape := Except.ok.inj ht
  have hc : g.cells a = handleDistance spacing (r a) := by
    fin_cases a <;> simp [GridNumbers.cells, ← ht]
  have he : g.extent a = g.cells a * spacing := by
    fin_cases a <;> simp [GridNumbers.cells, GridNumbers.extent, hsp]
  have hn : |g.extent a - requested spacing (r a)| ≤ spacing / 2 := by
    rw [he, hc]
    have := hr a
    cases hra : r a with
    | int i => simp only [handleDistance, requested, sub_self, abs_zero]; positivity
    | flt x => rw [hra] at this; exact ((C44_distance spacing hs).2 x this).2
  refine ⟨he, hn, fun k hk => ?_⟩
  have hck : g.cells a = k := by
    rw [hc]
    have hra' := hr a
    cases hra : r a with
    | int i =>
      rw [hra] at hk
      simp only [requested] at hk
      have := mul_right_cancel₀ hs.ne' hk
      simp only [handleDistance]
      exact_mod_cast this
    | flt x =>
      rw [hra] at hk hra'
      exact (C44_nearest spacing hs x hra' k).2 hk
  exact ⟨by rw [he, hck, hk], hck⟩

/-- **C181 (copies).** A grid built from the shape of a grid, or from its extents, with the same spacing and Courant number is the same grid. -/
theorem C181_copies (r : List (PyNum ℝ)) (spacing : ℝ) (hs : 0 < spacing) (co : Option ℝ) (g : GridNumbers) (h : gridInit r spacing co = .ok g) :
    gridInit g.shapeTuple spacing co = .ok g ∧ gridInit [.flt (g.extent 0), .flt (g.extent 1), .flt (g.extent 2)] spacing co = .ok g := by
  obtain ⟨h0, h1, h2, hsp, ht⟩ := gridInit_shape h
  have key : ∀ r', handleTuple spacing r' = .ok g.shape → gridInit r' spacing co = .ok g := by
    intro r' hr'
    rw [← h]
    unfold gridInit
    rw [hr', ht]
  refine ⟨key _ rfl, key _ ?_⟩
  simp only [GridNumbers.extent, hsp, handleTuple, handleDistance_whole hs h0, handleDistance_whole hs h1, handleDistance_whole hs h2]

/-- **C181 (docstrings), refuted.** The docstrings promise the number of grid cells; a grid of 10 × 3 × 1 cells of half a metre reports 5, 1.5 and 0.5. -/
theorem C181_cells_false : ∃ g, gridInit [.int 10, .int 3, .int 1] (1 / 2) none = .ok g ∧ g.extent 0 = 5 ∧ g.extent 1 = 3 / 2 ∧ g.extent 2 = 1 / 2 ∧ ∀ a, g.extent a ≠ g.cells a := by
  refine ⟨⟨(10, 3, 1), 1 / 2, 2, _, _⟩, by simp [gridInit, handleTuple, handleDistance, gridDims, maxCourant, chooseCourant, bind, Except.bind]; exact ⟨rfl, rfl⟩, ?_, ?_, ?_, ?_⟩
  · norm_num [GridNumbers.extent]
  · norm_num [GridNumbers.extent]
  · norm_num [GridNumbers.extent]
  · intro a; fin_cases a <;> norm_num [GridNumbers.extent, GridNumbers.cells]

/-- **C181 (places), what holds.** A place of the grid more than half a cell away from its far end is in one of its cells.
Missing: the last half cell, see `C181_places_false`. -/
theorem C181_places_partial (r : List (PyNum ℝ)) (spacing : ℝ) (hs : 0 < spacing) (co : Option ℝ) (g : GridNumbers) (h : gridInit r spacing co = .ok g) (a : Fin 3)
    (x : ℝ) (hx : 0 ≤ x) (hg : x < g.extent a - spacing / 2) : 0 ≤ handleDistance spacing (.flt x) ∧ handleDistance spacing (.flt x) < g.cells a := by
  obtain ⟨-, -, -, hsp, -⟩ := gridInit_shape h
  have he : g.extent a = g.cells a * spacing := by
    fin_cases a <;> simp [GridNumbers.cells, GridNumbers.extent, hsp]
  obtain ⟨p, q⟩ := (C44_distance spacing hs).2 x hx
  refine ⟨p, ?_⟩
  have := (abs_le.mp q).2
  have : (handleDistance spacing (.flt x) : ℝ) * spacing < g.cells a * spacing := by rw [← he]; linarith
  exact_mod_cast lt_of_mul_lt_mul_right this hs.le

/-- **C181 (places), refuted.** On every grid, a place in the last half cell is inside the grid and is given an index that no cell has. -/
theorem C181_places_false (r : List (PyNum ℝ)) (spacing : ℝ) (hs : 0 < spacing) (co : Option ℝ) (g : GridNumbers) (h : gridInit r spacing co = .ok g) (a : Fin 3)
    (x : ℝ) (hx : 0 ≤ x) (hl : g.extent a - spacing / 2 < x) (hg : x < g.extent a) : handleDistance spacing (.flt x) = g.cells a := by
  obtain ⟨-, -, -, hsp, -⟩ := gridInit_shape h
  have he : g.extent a = g.cells a * spacing := by
    fin_cases a <;> simp [GridNumbers.cells, GridNumbers.extent, hsp]
  obtain ⟨p, q⟩ := (C44_distance spacing hs).2 x hx
  obtain ⟨q1, q2⟩ := abs_le.mp q
  have u : (handleDistance spacing (.flt x) : ℝ) * spacing < (g.cells a + 1 : ℤ) * spacing := by push_cast; rw [add_mul, ← he]; linarith
  have l : ((g.cells a - 1 : ℤ) : ℝ) * spacing < (handleDistance spacing (.flt x) : ℝ) * spacing := by push_cast; rw [sub_mul, ← he]; linarith
  have u' : handleDistance spacing (.flt x) < g.cells a + 1 := by exact_mod_cast lt_of_mul_lt_mul_right u hs.le
  have l' : g.cells a - 1 < handleDistance spacing (.flt x) := by exact_mod_cast lt_of_mul_lt_mul_right l hs.le
  omega

/-- what a user does with a grid between two looks at its clock -/
inductive GridUse (K : Type) where
  | run (total : PyNum K)
  | step
  | reset

/-- `Grid.run`, `Grid.step`, `Grid.reset`, nidn/fdtd/grid.py:251-274, 330-334 -/
def FGrid.use {K : Type} [Field K] [LinearOrder K] [FloorRing K] (dt : K) (g : FGrid K) : GridUse K → FGrid K
  | .run total => g.runFor dt total
  | .step => g.step
  | .reset => g.reset

section
variable {K : Type} [Field K] [LinearOrder K] [IsStrictOrderedRing K] [FloorRing K]

/-- **C181 (time).** The time passed is the number of steps times the time step. Stepping adds one time step, running for a number of steps adds that many, running for a duration adds at most the duration and less than one step less, and resetting sets the clock to zero. -/
theorem C181_time (dt : K) (hdt : 0 < dt) (g : FGrid K) :
    (g.use dt .step).timePassed dt = g.timePassed dt + dt ∧
    (∀ k : ℕ, (g.use dt (.run (.int k))).timePassed dt = g.timePassed dt + k * dt) ∧
    (∀ t : K, 0 ≤ t → (g.use dt (.run (.flt t))).timePassed dt ≤ g.timePassed dt + t ∧ g.timePassed dt + t < (g.use dt (.run (.flt t))).timePassed dt + dt) ∧
    (g.use dt .reset).timePassed dt = 0 ∧ handleTime dt (.flt (g.timePassed dt)) = g.time := by
  have hrun : ∀ p : PyNum K, (g.use dt (.run p)).timePassed dt = g.timePassed dt + (runSteps dt p : K) * dt := by
    intro p
    show ((g.run (runSteps dt p)).time : K) * dt = (g.time : K) * dt + _
    rw [FGrid.run_time]; push_cast; ring
  refine ⟨?_, fun k => ?_, fun t ht => ?_, ?_, ?_⟩
  · show ((g.time + 1 : ℕ) : K) * dt = (g.time : K) * dt + dt
    push_cast; ring
  · rw [hrun, (C44_run_partial dt hdt).1]
  · obtain ⟨a, b⟩ := (C44_run_partial dt hdt).2 t ht
    rw [hrun]
    constructor <;> linarith
  · show ((g.time * 0 : ℕ) : K) * dt = 0
    simp
  · have h : (0 : K) ≤ (g.time : K) * dt := by positivity
    exact (C44_nearest (K := K) dt hdt ((g.time : K) * dt) h g.time).2 (by push_cast; rfl)

/-- the uses since the last reset -/
def sinceReset : List (GridUse K) → List (GridUse K) → List (GridUse K)
  | acc, [] => acc
  | _, .reset :: l => sinceReset [] l
  | acc, u :: l => sinceReset (acc ++ [u]) l

/-- the steps a use performs -/
def GridUse.steps (dt : K) : GridUse K → ℕ
  | .run total => runSteps dt total
  | .step => 1
  | .reset => 0

omit [IsStrictOrderedRing K] in
lemma sinceReset_time (dt : K) (l acc : List (GridUse K)) (g : FGrid K) (h : g.time = (acc.map (GridUse.steps dt)).sum) :
    (l.foldl (FGrid.use dt) g).time = ((sinceReset acc l).map (GridUse.steps dt)).sum := by
  induction l generalizing acc g with
  | nil => exact h
  | cons u l ih =>
    cases u with
    | reset => exact ih [] _ (by show g.time * 0 = _; simp)
    | step =>
      refine ih (acc ++ [.step]) _ ?_
      show g.time + 1 = _
      rw [h]; simp [GridUse.steps]
    | run p =>
      refine ih (acc ++ [.run p]) _ ?_
      show (g.run (runSteps dt p)).time = _
      rw [FGrid.run_time, h]; simp [GridUse.steps]

omit [IsStrictOrderedRing K] in
/-- **C181 (history).** Whatever is done with a new grid, its clock shows the steps taken since the last reset, times the time step. -/
theorem C181_history (n : Pos) (co pe pm dt : K) (l : List (GridUse K)) :
    (l.foldl (FGrid.use dt) (FGrid.fresh n co pe pm)).timePassed dt = (((sinceReset [] l).map (GridUse.steps dt)).sum : ℕ) * dt := by
  unfold FGrid.timePassed
  rw [sinceReset_time dt l [] _ rfl]

end

/-- three steps, a reset, a run of 2.5 seconds with time step 1: the clock shows 2 -/
example : ([.run (.int 3), .reset, .run (.flt (5 / 2))].foldl (FGrid.use (1 : ℚ)) (FGrid.fresh (fun _ => 2) (1 / 2) 1 1)).timePassed 1 = 2 := by
  rw [C181_history]
  have : runSteps (1 : ℚ) (.flt (5 / 2)) = 2 := by decide +kernel
  simp [sinceReset, GridUse.steps, this]

/-- a grid of 1 m × 0.3 m × one cell with a spacing of 0.25 m has 4 × 1 × 1 cells, and the place 0.9 m along the first axis is given the index 4 -/
example : ∃ g, gridInit [.flt 1, .flt (3 / 10), .int 1] (1 / 4) none = .ok g ∧ g.extent 0 = 1 ∧ g.extent 1 = 1 / 4 ∧ g.cells 0 = 4 ∧ handleDistance (1 / 4 : ℝ) (.flt (9 / 10)) = g.cells 0 := by
  have e0 : handleDistance (1 / 4 : ℝ) (.flt 1) = 4 := by
    have := (C44_nearest (1 / 4 : ℝ) (by norm_num) 1 (by norm_num) 4).2 (by norm_num)
    exact this
  have e1 : handleDistance (1 / 4 : ℝ) (.flt (3 / 10)) = 1 := by
    have h : (0 : ℝ) ≤ 3 / 10 / (1 / 4) + 1 / 2 := by norm_num
    simp only [handleDistance, pyTrunc, h, if_true]
    rw [Int.floor_eq_iff]; norm_num
  have : ∃ c t, gridInit [.flt 1, .flt (3 / 10), .int 1] (1 / 4) none = .ok ⟨(4, 1, 1), 1 / 4, 1, c, t⟩ := by
    unfold gridInit
    simp only [handleTuple, e0, e1, gridDims, maxCourant, chooseCourant, bind, Except.bind]
    norm_num [handleDistance]
  obtain ⟨c, t, h⟩ := this
  exact ⟨_, h, by norm_num [GridNumbers.extent], by norm_num [GridNumbers.extent], rfl,
    C181_places_false _ (1 / 4) (by norm_num) none _ h 0 (9 / 10) (by norm_num) (by norm_num [GridNumbers.extent]) (by norm_num [GridNumbers.extent])⟩

end Nidn
