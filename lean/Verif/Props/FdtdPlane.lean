/-
C84, C85 (plane sources), C86 (soft point sources).
-/
import Mathlib.Tactic.Ring
import Mathlib.Tactic.Linarith
import Mathlib.Tactic.FinCases
import Verif.Model.FdtdPlane
import Verif.Lemmas.Py
import Verif.Props.FdtdObjects
import Verif.Props.FdtdSources

namespace Nidn

/-! ### C84 plane sources -/

/-- Keys for which placement of planes is documented: a single index inside the axis, or a slice with unit step, bounds missing or not negative, selecting at least one cell. The index −1 is excluded, see `C84_last_false`. -/
def PlaneKey (N : ℕ) : AxisKey → Prop
  | .list l => ∃ v : ℤ, l = [v] ∧ -(N : ℤ) ≤ v ∧ v < N ∧ v ≠ -1
  | .slice s => (s.step = none ∨ s.step = some 1) ∧ 0 ≤ s.start.getD 0 ∧ s.start.getD 0 < s.stop.getD N ∧ s.stop.getD N ≤ N

/-- the key selects exactly one plane of the axis -/
def thin (N : ℕ) (k : AxisKey) : Prop := ∃! i, keySelects N k i

lemma thin_of_range {N lo hi : ℕ} {k : AxisKey} (hk : ∀ i, keySelects N k i ↔ lo ≤ i ∧ i < hi) (hl : lo < hi) : thin N k ↔ hi = lo + 1 := by
  constructor
  · rintro ⟨i, -, hu⟩
    have h1 := hu lo ((hk lo).2 ⟨le_refl _, hl⟩)
    have h2 := hu (hi - 1) ((hk _).2 ⟨by omega, by omega⟩)
    omega
  · intro h
    refine ⟨lo, (hk lo).2 ⟨le_refl _, hl⟩, fun j hj => ?_⟩
    have := (hk j).1 hj
    omega

/-- everything the proofs need about one axis -/
lemma planeKey_axis (N : ℕ) (k : AxisKey) (h : PlaneKey N k) :
    ∃ b : ℤ × ℤ, planeBounds N k = .ok b ∧ 1 ≤ planeExtent b ∧ sliceFits N b = true ∧ (∀ i, inSlice N b i = true ↔ keySelects N k i) ∧ (planeExtent b = 1 ↔ thin N k) := by
  have key : ∃ b : ℤ × ℤ, planeBounds N k = .ok b ∧ clampIndex N b.1 < clampIndex N b.2 ∧ ((clampIndex N b.2 : ℤ) - clampIndex N b.1 = planeExtent b) ∧
      (∀ i, keySelects N k i ↔ clampIndex N b.1 ≤ i ∧ i < clampIndex N b.2) := by
    cases k with
    | list l =>
      obtain ⟨v, rfl, h1, h2, h3⟩ := h
      refine ⟨(v, v + 1), rfl, ?_, ?_, ?_⟩
      · show clampIndex N v < clampIndex N (v + 1)
        unfold clampIndex
        split_ifs <;> omega
      · show (clampIndex N (v + 1) : ℤ) - clampIndex N v = v + 1 - v
        unfold clampIndex
        split_ifs <;> omega
      · intro i
        show (∃ u ∈ [v], indexSelects N u i) ↔ clampIndex N v ≤ i ∧ i < clampIndex N (v + 1)
        unfold clampIndex
        constructor
        · rintro ⟨u, hu, h4, h5⟩
          rw [List.mem_singleton] at hu
          subst hu
          split_ifs <;> omega
        · intro hi
          refine ⟨v, List.mem_singleton_self v, ?_⟩
          unfold indexSelects
          split_ifs at hi <;> omega
    | slice s =>
      obtain ⟨start, stop, step⟩ := s
      obtain ⟨-, h1, h2, h3⟩ := h
      simp only at h1 h2 h3
      refine ⟨(start.getD 0, stop.getD N), ?_, ?_, ?_, ?_⟩
      · show Except.ok (if start.getD 0 < stop.getD N then _ else _) = _
        rw [if_pos h2]
      · show clampIndex N (start.getD 0) < clampIndex N (stop.getD N)
        unfold clampIndex
        split_ifs <;> omega
      · show (clampIndex N (stop.getD N) : ℤ) - clampIndex N (start.getD 0) = stop.getD N - start.getD 0
        unfold clampIndex
        split_ifs <;> omega
      · intro i
        show sliceBound N 0 start ≤ i ∧ (i : ℤ) < sliceBound N N stop ↔ clampIndex N (start.getD 0) ≤ i ∧ i < clampIndex N (stop.getD N)
        have e1 : sliceBound N 0 start = clampIndex N (start.getD 0) := by
          cases start with
          | none => simp [sliceBound, clampIndex]
          | some v =>
            simp only [Option.getD_some] at h1 h2 ⊢
            simp only [sliceBound]
            unfold clampIndex
            split_ifs <;> omega
        have e2 : sliceBound N N stop = clampIndex N (stop.getD N) := by
          cases stop with
          | none => simp [sliceBound, clampIndex]
          | some v =>
            simp only [Option.getD_some] at h2 h3 ⊢
            simp only [sliceBound]
            unfold clampIndex
            split_ifs <;> omega
        rw [e1, e2]
        omega
  obtain ⟨b, e, hlt, hx, hs⟩ := key
  refine ⟨b, e, by omega, ?_, ?_, ?_⟩
  · unfold sliceFits
    rw [decide_eq_true_eq]
    left
    omega
  · intro i
    unfold inSlice
    rw [decide_eq_true_eq, hs]
  · rw [thin_of_range hs hlt]
    omega

/-- the letters of the three axes -/
def axisLetter : Fin 3 → String
  | 0 => "x"
  | 1 => "y"
  | 2 => "z"

lemma polIndex_letter (e : Fin 3) : polIndex (axisLetter e) = .ok e := by fin_cases e <;> rfl

lemma axisLetter_eq (e : Fin 3) : (axisLetter e = "x" ↔ e = 0) ∧ (axisLetter e = "y" ↔ e = 1) ∧ (axisLetter e = "z" ↔ e = 2) := by
  fin_cases e <;> decide

/-- `planePlace` once the three ranges are known -/
lemma planePlace_eq (n : Pos) (e : Fin 3) (k : Fin 3 → AxisKey) (b : Fin 3 → ℤ × ℤ) (hb : ∀ a, planeBounds (n a) (k a) = .ok (b a)) (hx : ∀ a, 1 ≤ planeExtent (b a)) :
    planePlace n (axisLetter e) (k 0) (k 1) (k 2) =
      if flatCount (b 0) (b 1) (b 2) = 1 ∧ planeExtent (b e) ≠ 1 then .ok ⟨b 0, b 1, b 2, e, planeHpol (b 1) (b 2) e⟩ else .error .valueError := by
  unfold planePlace
  rw [hb 0, ok_bind, hb 1, ok_bind, hb 2, ok_bind, if_neg (by have := hx 0; have := hx 1; have := hx 2; omega)]
  by_cases h0 : flatCount (b 0) (b 1) (b 2) = 0
  · rw [if_pos h0, if_neg (by omega)]
  rw [if_neg h0]
  by_cases h1 : 1 < flatCount (b 0) (b 1) (b 2)
  · rw [if_pos h1, if_neg (by omega)]
  rw [if_neg h1, polIndex_letter, ok_bind]
  have hf : flatCount (b 0) (b 1) (b 2) = 1 := by omega
  obtain ⟨l0, l1, l2⟩ := axisLetter_eq e
  by_cases h2 : planeExtent (b e) = 1
  · rw [if_pos, if_neg (fun h => h.2 h2)]
    rw [l0, l1, l2]
    fin_cases e
    exacts [Or.inl ⟨h2, rfl⟩, Or.inr (Or.inl ⟨h2, rfl⟩), Or.inr (Or.inr ⟨h2, rfl⟩)]
  · rw [if_neg, if_pos ⟨hf, h2⟩]
    rw [l0, l1, l2]
    rintro (⟨h3, rfl⟩ | ⟨h3, rfl⟩ | ⟨h3, rfl⟩) <;> exact h2 h3

lemma flatCount_eq (bx by' bz : ℤ × ℤ) :
    flatCount bx by' bz = (if planeExtent bx = 1 then 1 else 0) + (if planeExtent by' = 1 then 1 else 0) + (if planeExtent bz = 1 then 1 else 0) := by
  unfold flatCount
  by_cases h0 : planeExtent bx = 1 <;> by_cases h1 : planeExtent by' = 1 <;> by_cases h2 : planeExtent bz = 1 <;> simp [List.filter, h0, h1, h2]

lemma flat_one (b : Fin 3 → ℤ × ℤ) : flatCount (b 0) (b 1) (b 2) = 1 ↔ ∃ a, ∀ c, planeExtent (b c) = 1 ↔ c = a := by
  rw [flatCount_eq]
  constructor
  · intro h
    by_cases h0 : planeExtent (b 0) = 1
    · rw [if_pos h0] at h
      refine ⟨0, fun c => ?_⟩
      have h1 : planeExtent (b 1) ≠ 1 := fun h1 => by rw [if_pos h1] at h; omega
      have h2 : planeExtent (b 2) ≠ 1 := fun h2 => by rw [if_pos h2] at h; omega
      fin_cases c <;> simp_all
    · rw [if_neg h0] at h
      by_cases h1 : planeExtent (b 1) = 1
      · rw [if_pos h1] at h
        refine ⟨1, fun c => ?_⟩
        have h2 : planeExtent (b 2) ≠ 1 := fun h2 => by rw [if_pos h2] at h; omega
        fin_cases c <;> simp_all
      · rw [if_neg h1] at h
        refine ⟨2, fun c => ?_⟩
        have h2 : planeExtent (b 2) = 1 := by
          by_contra h2
          rw [if_neg h2] at h
          omega
        fin_cases c <;> simp_all
  · rintro ⟨a, ha⟩
    rw [if_congr (ha 0) rfl rfl, if_congr (ha 1) rfl rfl, if_congr (ha 2) rfl rfl]
    fin_cases a <;> simp

lemma hpol_third (b : Fin 3 → ℤ × ℤ) (a e : Fin 3) (ha : ∀ c, planeExtent (b c) = 1 ↔ c = a) (he : e ≠ a) : planeHpol (b 1) (b 2) e ≠ e ∧ planeHpol (b 1) (b 2) e ≠ a := by
  have h1 := ha 1
  have h2 := ha 2
  unfold planeHpol
  fin_cases a <;> fin_cases e <;> simp_all

/-- the three ranges of documented keys -/
lemma planeKeys (n : Pos) (k : Fin 3 → AxisKey) (hk : ∀ b, PlaneKey (n b) (k b)) :
    ∃ b : Fin 3 → ℤ × ℤ, (∀ a, planeBounds (n a) (k a) = .ok (b a)) ∧ (∀ a, 1 ≤ planeExtent (b a)) ∧ (∀ a, sliceFits (n a) (b a) = true) ∧ (∀ a i, inSlice (n a) (b a) i = true ↔ keySelects (n a) (k a) i) ∧
      (∀ a, planeExtent (b a) = 1 ↔ thin (n a) (k a)) := by
  choose b h1 h2 h3 h4 h5 using fun a => planeKey_axis (n a) (k a) (hk a)
  exact ⟨b, h1, h2, h3, h4, h5⟩

/-- C84: a plane source placed at a location that is one cell thick along exactly one axis `a`, polarised along another axis `e`, acts on exactly the addressed cells, and drives E along `e` and H along the third axis
with `amplitude·sin(2πq/period + phase)` in step `q`.
Missing: negative slice bounds, and the index −1 (C84_last_false). -/
theorem C84_placed_partial (g : GridNumbers) (n : Pos) (s : SourceSpec) (k : Fin 3 → AxisKey) (a e : Fin 3) (hk : ∀ b, PlaneKey (n b) (k b)) (ht : ∀ b, thin (n b) (k b) ↔ b = a) (he : e ≠ a)
    (hp : handleTime g.timeStep s.period ≠ 0) :
    ∃ cells h value, placePlane g n s (axisLetter e) (k 0) (k 1) (k 2) = .ok (.plane cells e h value) ∧ (∀ p, cells p = true ↔ addressed n k p) ∧ h ≠ e ∧ h ≠ a ∧
      ∀ q : ℕ, value q = s.amplitude * Real.sin (2 * Real.pi * q / (handleTime g.timeStep s.period : ℝ) + s.phase) := by
  obtain ⟨b, h1, h2, h3, h4, h5⟩ := planeKeys n k hk
  have ha : ∀ c, planeExtent (b c) = 1 ↔ c = a := fun c => (h5 c).trans (ht c)
  have hpl := planePlace_eq n e k b h1 h2
  rw [if_pos ⟨(flat_one b).2 ⟨a, ha⟩, fun h => he ((ha e).1 h)⟩] at hpl
  have hsig : ∀ q : ℕ, planeSignal g s q = .ok (s.amplitude * 1 * Real.sin (2 * Real.pi * q / (handleTime g.timeStep s.period : ℝ) + s.phase)) := fun q => if_neg hp
  refine ⟨PlanePlace.cells n ⟨b 0, b 1, b 2, e, planeHpol (b 1) (b 2) e⟩, planeHpol (b 1) (b 2) e, fun q => match planeSignal g s q with | .ok v => v | .error _ => 0,
    ?_, ?_, (hpol_third b a e ha he).1, (hpol_third b a e ha he).2, ?_⟩
  · unfold placePlane
    rw [hpl, ok_bind, hsig 0, ok_bind]
    exact if_pos ⟨h3 0, h3 1, h3 2⟩
  · intro p
    unfold PlanePlace.cells
    rw [Bool.and_eq_true, Bool.and_eq_true, h4 0, h4 1, h4 2]
    constructor
    · rintro ⟨⟨x, y⟩, z⟩ c
      fin_cases c
      exacts [x, y, z]
    · exact fun h => ⟨⟨h 0, h 1⟩, h 2⟩
  · intro q
    show (match planeSignal g s q with | .ok v => v | .error _ => 0) = _
    rw [hsig q]
    ring

/-- C84: locations that are one cell thick along no axis or along several, and a polarisation along the normal of the plane, are refused with a ValueError. -/
theorem C84_refused (g : GridNumbers) (n : Pos) (s : SourceSpec) (k : Fin 3 → AxisKey) (e : Fin 3) (hk : ∀ b, PlaneKey (n b) (k b)) (h : (¬ ∃ a, ∀ b, thin (n b) (k b) ↔ b = a) ∨ thin (n e) (k e)) :
    placePlane g n s (axisLetter e) (k 0) (k 1) (k 2) = .error .valueError := by
  obtain ⟨b, h1, h2, h3, h4, h5⟩ := planeKeys n k hk
  have hpl := planePlace_eq n e k b h1 h2
  rw [if_neg] at hpl
  · unfold placePlane
    rw [hpl, error_bind]
  · rintro ⟨h6, h7⟩
    rcases h with h | h
    · obtain ⟨a, ha⟩ := (flat_one b).1 h6
      exact h ⟨a, fun c => (h5 c).symm.trans (ha c)⟩
    · exact h7 ((h5 e).2 h)

/-- the keys `[4, :, :]` on a 9 × 8 × 7 grid -/
example : (∀ b, PlaneKey ((![9, 8, 7] : Pos) b) ((![.list [4], .slice fullSlice, .slice fullSlice] : Fin 3 → AxisKey) b)) ∧
    (∀ b, thin ((![9, 8, 7] : Pos) b) ((![.list [4], .slice fullSlice, .slice fullSlice] : Fin 3 → AxisKey) b) ↔ b = 0) := by
  have hk : ∀ b, PlaneKey ((![9, 8, 7] : Pos) b) ((![.list [4], .slice fullSlice, .slice fullSlice] : Fin 3 → AxisKey) b) := by
    intro b
    fin_cases b
    · exact ⟨4, rfl, by decide, by decide, by decide⟩
    · exact ⟨Or.inl rfl, le_refl _, by decide, le_refl _⟩
    · exact ⟨Or.inl rfl, le_refl _, by decide, le_refl _⟩
  refine ⟨hk, fun b => ?_⟩
  obtain ⟨v, h1, -, -, -, h5⟩ := planeKey_axis _ _ (hk b)
  rw [← h5]
  fin_cases b <;> · cases h1; decide

/-- two keys of one axis that mean the same range to a plane source: the bounds of a slice in the other order (and any step), or equal bounds and the one index -/
def SamePlanes (k k' : AxisKey) : Prop :=
  k = k' ∨ (∃ (a b : ℤ) (st st' : Option ℤ), k = .slice ⟨some a, some b, st⟩ ∧ k' = .slice ⟨some b, some a, st'⟩) ∨ ∃ (a : ℤ) (st : Option ℤ), k = .slice ⟨some a, some a, st⟩ ∧ k' = .list [a]

/-- C84: the bounds of a slice may be given in either order, and equal bounds mean that one cell. -/
theorem C84_order (g : GridNumbers) (n : Pos) (s : SourceSpec) (pol : String) (k k' : Fin 3 → AxisKey) (h : ∀ b, SamePlanes (k b) (k' b)) :
    placePlane g n s pol (k 0) (k 1) (k 2) = placePlane g n s pol (k' 0) (k' 1) (k' 2) := by
  have key : ∀ b, planeBounds (n b) (k b) = planeBounds (n b) (k' b) := by
    intro b
    rcases h b with e | ⟨x, y, st, st', e, e'⟩ | ⟨x, st, e, e'⟩
    · rw [e]
    · rw [e, e']
      show Except.ok (if x < y then (x, y) else if y < x then (y, x) else (x, x + 1)) = Except.ok (if y < x then (y, x) else if x < y then (x, y) else (y, y + 1))
      rcases lt_trichotomy x y with h | h | h
      · rw [if_pos h, if_neg (by omega), if_pos h]
      · rw [h]
      · rw [if_neg (by omega), if_pos h, if_pos h]
    · rw [e, e']
      show Except.ok (if x < x then (x, x) else if x < x then (x, x) else (x, x + 1)) = Except.ok (x, x + 1)
      rw [if_neg (lt_irrefl x), if_neg (lt_irrefl x)]
  have hp : planePlace n pol (k 0) (k 1) (k 2) = planePlace n pol (k' 0) (k' 1) (k' 2) := by
    unfold planePlace
    rw [key 0, key 1, key 2]
  unfold placePlane
  rw [hp]

/-- `[4:4, 6:2, :]` on a 9 × 8 × 7 grid is the plane `[4, 2:6, :]`, and that is accepted for any source with a period of at least one step -/
example (g : GridNumbers) (s : SourceSpec) (hp : handleTime g.timeStep s.period ≠ 0) : ∃ cells h value,
    placePlane g ![9, 8, 7] s "y" (.slice ⟨some 4, some 4, none⟩) (.slice ⟨some 6, some 2, none⟩) (.slice fullSlice) = .ok (.plane cells 1 h value) := by
  set k : Fin 3 → AxisKey := ![.list [4], .slice ⟨some 2, some 6, none⟩, .slice fullSlice] with hk0
  have hk : ∀ b, PlaneKey ((![9, 8, 7] : Pos) b) (k b) := by
    intro b
    fin_cases b
    · exact ⟨4, rfl, by decide, by decide, by decide⟩
    · exact ⟨Or.inl rfl, by decide, by decide, by decide⟩
    · exact ⟨Or.inl rfl, le_refl _, by decide, le_refl _⟩
  have hthin : ∀ b, thin ((![9, 8, 7] : Pos) b) (k b) ↔ b = 0 := by
    intro b
    obtain ⟨v, h1, -, -, -, h5⟩ := planeKey_axis _ _ (hk b)
    rw [← h5]
    fin_cases b <;> · cases h1; decide
  obtain ⟨cells, h, value, e, -⟩ := C84_placed_partial g ![9, 8, 7] s k 0 1 hk hthin (by decide) hp
  refine ⟨cells, h, value, ?_⟩
  rw [← e]
  refine C84_order g ![9, 8, 7] s "y" ![.slice ⟨some 4, some 4, none⟩, .slice ⟨some 6, some 2, none⟩, .slice fullSlice] k fun b => ?_
  fin_cases b
  · exact Or.inr (Or.inr ⟨4, none, rfl, rfl⟩)
  · exact Or.inr (Or.inl ⟨6, 2, none, none, rfl, rfl⟩)
  · exact Or.inl rfl

section
variable {K : Type} [Field K]

/-- C84: a plane source that is the last source of a grid overwrites: after every step E along its polarisation and H along its second direction have, in its cells, the value of that step; what else the electric field
becomes in that step is as without the source. -/
theorem C84_sets (g : FGrid K) (ss : List (FSource K)) (cells : Pos → Bool) (e h : Fin 3) (value : ℕ → K) (hs : g.sources = ss ++ [.plane cells e h value]) (p : Pos) :
    (cells p = true → g.step.E p e = value g.time ∧ g.step.H p h = value g.time) ∧
    (∀ c, ¬ (cells p = true ∧ c = e) → g.step.E p c = ({ g with sources := ss } : FGrid K).step.E p c) := by
  have hE : g.step.E = (FSource.plane cells e h value).updateE g.time ({ g with sources := ss } : FGrid K).step.E := by
    show applySourcesE g.time g.sources _ = _
    rw [hs]
    unfold applySourcesE
    rw [List.foldl_append]
    rfl
  have hH : ∀ F, applySourcesH g.time g.sources F = (FSource.plane cells e h value).updateH g.time (applySourcesH g.time ss F) := by
    intro F
    rw [hs]
    unfold applySourcesH
    rw [List.foldl_append]
    rfl
  refine ⟨fun hp => ⟨?_, ?_⟩, fun c hc => ?_⟩
  · rw [hE]
    exact if_pos ⟨hp, rfl⟩
  · show applySourcesH g.time g.sources _ p h = _
    rw [hH]
    exact if_pos ⟨hp, rfl⟩
  · rw [hE]
    exact if_neg hc

end

/-- C84 is false for the last plane addressed by −1: the source is accepted, and acts on no cell at all. -/
theorem C84_last_false (g : GridNumbers) (n : Pos) (s : SourceSpec) (hn : 1 < n 1 ∧ 1 < n 2) (hp : handleTime g.timeStep s.period ≠ 0) :
    ∃ cells h value, placePlane g n s "z" (.list [-1]) (.slice fullSlice) (.slice fullSlice) = .ok (.plane cells 2 h value) ∧ ∀ p, cells p = false := by
  have hsig : planeSignal g s 0 = .ok (s.amplitude * 1 * Real.sin (2 * Real.pi * (0 : ℕ) / (handleTime g.timeStep s.period : ℝ) + s.phase)) := if_neg hp
  have hb : ∀ a, planeBounds (n a) ((![.list [-1], .slice fullSlice, .slice fullSlice] : Fin 3 → AxisKey) a) = .ok ((![((-1 : ℤ), (0 : ℤ)), (0, n 1), (0, n 2)] : Fin 3 → ℤ × ℤ) a) := by
    intro a
    fin_cases a
    · rfl
    · show Except.ok (if (0 : ℤ) < (n 1 : ℤ) then ((0 : ℤ), (n 1 : ℤ)) else _) = _
      rw [if_pos (by omega)]
      rfl
    · show Except.ok (if (0 : ℤ) < (n 2 : ℤ) then ((0 : ℤ), (n 2 : ℤ)) else _) = _
      rw [if_pos (by omega)]
      rfl
  have x0 : planeExtent ((-1 : ℤ), (0 : ℤ)) = 1 := rfl
  have x1 : planeExtent ((0 : ℤ), (n 1 : ℤ)) = n 1 := by unfold planeExtent; simp
  have x2 : planeExtent ((0 : ℤ), (n 2 : ℤ)) = n 2 := by unfold planeExtent; simp
  have hpl := planePlace_eq n 2 _ _ hb (by
    intro a
    fin_cases a
    · exact le_of_eq x0.symm
    · show 1 ≤ planeExtent ((0 : ℤ), (n 1 : ℤ))
      rw [x1]; omega
    · show 1 ≤ planeExtent ((0 : ℤ), (n 2 : ℤ))
      rw [x2]; omega)
  have hflat : flatCount ((-1 : ℤ), (0 : ℤ)) ((0 : ℤ), (n 1 : ℤ)) ((0 : ℤ), (n 2 : ℤ)) = 1 := by
    rw [flatCount_eq, if_pos x0, x1, x2, if_neg (by omega), if_neg (by omega)]
  rw [if_pos ⟨hflat, by show planeExtent ((0 : ℤ), (n 2 : ℤ)) ≠ 1; rw [x2]; omega⟩] at hpl
  refine ⟨PlanePlace.cells n ⟨(-1, 0), (0, n 1), (0, n 2), 2, planeHpol (0, n 1) (0, n 2) 2⟩, planeHpol (0, n 1) (0, n 2) 2, fun q => match planeSignal g s q with | .ok v => v | .error _ => 0, ?_, ?_⟩
  · unfold placePlane
    have hpl' : planePlace n "z" (.list [-1]) (.slice fullSlice) (.slice fullSlice) = _ := hpl
    rw [hpl', ok_bind, hsig, ok_bind]
    refine if_pos ⟨?_, ?_, ?_⟩
    · show sliceFits (n 0) ((-1 : ℤ), (0 : ℤ)) = true
      unfold sliceFits
      rw [decide_eq_true_eq]
      exact Or.inr rfl
    · show sliceFits (n 1) ((0 : ℤ), (n 1 : ℤ)) = true
      unfold sliceFits
      rw [decide_eq_true_eq, x1]
      left
      simp [clampIndex]
    · show sliceFits (n 2) ((0 : ℤ), (n 2 : ℤ)) = true
      unfold sliceFits
      rw [decide_eq_true_eq, x2]
      left
      simp [clampIndex]
  · intro p
    have : inSlice (n 0) ((-1 : ℤ), (0 : ℤ)) (p 0) = false := by
      unfold inSlice
      rw [decide_eq_false_iff_not]
      simp [clampIndex]
    show (inSlice (n 0) ((-1 : ℤ), (0 : ℤ)) (p 0) && _ && _) = false
    rw [this]
    rfl

/-- C84 is false of the polarisation check: the polarisation "xy" (or "", or "xyz") is accepted for a plane normal to x and drives the component of E along the normal. -/
theorem C84_polarization_false (n : Pos) (x : ℤ) (hn : 1 < n 1 ∧ 1 < n 2) (pol : String) (hpol : pol ∈ ["xy", "", "xyz"]) :
    ∃ l, planePlace n pol (.list [x]) (.slice fullSlice) (.slice fullSlice) = .ok l ∧ l.epol = 0 ∧ planeExtent l.bx = 1 := by
  have b1 : planeBounds (n 1) (.slice fullSlice) = .ok (0, n 1) := by
    show Except.ok (if (0 : ℤ) < (n 1 : ℤ) then ((0 : ℤ), (n 1 : ℤ)) else _) = _
    rw [if_pos (by omega)]
  have b2 : planeBounds (n 2) (.slice fullSlice) = .ok (0, n 2) := by
    show Except.ok (if (0 : ℤ) < (n 2 : ℤ) then ((0 : ℤ), (n 2 : ℤ)) else _) = _
    rw [if_pos (by omega)]
  have x0 : planeExtent (x, x + 1) = 1 := by unfold planeExtent; simp
  have x1 : planeExtent ((0 : ℤ), (n 1 : ℤ)) = n 1 := by unfold planeExtent; simp
  have x2 : planeExtent ((0 : ℤ), (n 2 : ℤ)) = n 2 := by unfold planeExtent; simp
  have hflat : flatCount (x, x + 1) ((0 : ℤ), (n 1 : ℤ)) ((0 : ℤ), (n 2 : ℤ)) = 1 := by
    rw [flatCount_eq, if_pos x0, x1, x2, if_neg (by omega), if_neg (by omega)]
  refine ⟨⟨(x, x + 1), (0, n 1), (0, n 2), 0, planeHpol (0, n 1) (0, n 2) 0⟩, ?_, rfl, x0⟩
  unfold planePlace
  rw [show planeBounds (n 0) (.list [x]) = .ok (x, x + 1) from rfl, ok_bind, b1, ok_bind, b2, ok_bind, hflat, x0, x1, x2, if_neg (by omega), if_neg (by omega), if_neg (by omega)]
  simp only [List.mem_cons, List.not_mem_nil, or_false] at hpol
  rcases hpol with rfl | rfl | rfl
  all_goals
    show (Except.ok (0 : Fin 3)) >>= _ = _
    rw [ok_bind, if_neg (by rintro (⟨-, h⟩ | ⟨-, h⟩ | ⟨-, h⟩) <;> exact absurd h (by decide))]

/-! ### C85 direction -/

/-- component `a` of E × H for E along axis `e` and H along axis `h`, both of strength one -/
def crossUnit (e h a : Fin 3) : ℤ :=
  if h = e + 1 ∧ a = e + 2 then 1 else if h = e + 2 ∧ a = e + 1 then -1 else 0

/-- C85 is false: on one and the same plane (one cell thick along `a`) the two possible polarisations impose energy flows in opposite directions along the normal. -/
theorem C85_direction_false (n : Pos) (k : Fin 3 → AxisKey) (a : Fin 3) (hk : ∀ b, PlaneKey (n b) (k b)) (ht : ∀ b, thin (n b) (k b) ↔ b = a) :
    ∃ l l', planePlace n (axisLetter (a + 1)) (k 0) (k 1) (k 2) = .ok l ∧ planePlace n (axisLetter (a + 2)) (k 0) (k 1) (k 2) = .ok l' ∧
      crossUnit l.epol l.hpol a = 1 ∧ crossUnit l'.epol l'.hpol a = -1 := by
  obtain ⟨b, h1, h2, h3, h4, h5⟩ := planeKeys n k hk
  have ha : ∀ c, planeExtent (b c) = 1 ↔ c = a := fun c => (h5 c).trans (ht c)
  have hne : ∀ d : Fin 3, d ≠ 0 → a + d ≠ a := by intro d hd; fin_cases a <;> fin_cases d <;> first | exact absurd rfl hd | decide
  have p1 := planePlace_eq n (a + 1) k b h1 h2
  rw [if_pos ⟨(flat_one b).2 ⟨a, ha⟩, fun h => hne 1 (by decide) ((ha _).1 h)⟩] at p1
  have p2 := planePlace_eq n (a + 2) k b h1 h2
  rw [if_pos ⟨(flat_one b).2 ⟨a, ha⟩, fun h => hne 2 (by decide) ((ha _).1 h)⟩] at p2
  obtain ⟨q1, q2⟩ := hpol_third b a (a + 1) ha (hne 1 (by decide))
  obtain ⟨r1, r2⟩ := hpol_third b a (a + 2) ha (hne 2 (by decide))
  refine ⟨_, _, p1, p2, ?_, ?_⟩
  · show crossUnit (a + 1) (planeHpol (b 1) (b 2) (a + 1)) a = 1
    generalize planeHpol (b 1) (b 2) (a + 1) = h at q1 q2
    clear p1 p2 ha ht hne r1 r2
    revert q1 q2
    revert h a
    decide
  · show crossUnit (a + 2) (planeHpol (b 1) (b 2) (a + 2)) a = -1
    generalize planeHpol (b 1) (b 2) (a + 2) = h at r1 r2
    clear p1 p2 ha ht hne q1 q2
    revert r1 r2
    revert h a
    decide

/-- C85, what holds: for each polarisation the imposed fields are perpendicular to each other and to the normal, so the flow is along the normal. Missing: the direction (C85_direction_false). -/
theorem C85_normal_partial (n : Pos) (k : Fin 3 → AxisKey) (a e : Fin 3) (hk : ∀ b, PlaneKey (n b) (k b)) (ht : ∀ b, thin (n b) (k b) ↔ b = a) (he : e ≠ a) :
    ∃ l, planePlace n (axisLetter e) (k 0) (k 1) (k 2) = .ok l ∧ l.epol = e ∧ crossUnit l.epol l.hpol a ≠ 0 ∧ ∀ c, c ≠ a → crossUnit l.epol l.hpol c = 0 := by
  obtain ⟨b, h1, h2, h3, h4, h5⟩ := planeKeys n k hk
  have ha : ∀ c, planeExtent (b c) = 1 ↔ c = a := fun c => (h5 c).trans (ht c)
  have p1 := planePlace_eq n e k b h1 h2
  rw [if_pos ⟨(flat_one b).2 ⟨a, ha⟩, fun h => he ((ha _).1 h)⟩] at p1
  obtain ⟨q1, q2⟩ := hpol_third b a e ha he
  refine ⟨_, p1, rfl, ?_, ?_⟩
  · show crossUnit e (planeHpol (b 1) (b 2) e) a ≠ 0
    generalize planeHpol (b 1) (b 2) e = h at q1 q2
    clear p1 ha ht
    revert he q1 q2
    revert h a e
    decide
  · show ∀ c, c ≠ a → crossUnit e (planeHpol (b 1) (b 2) e) c = 0
    generalize planeHpol (b 1) (b 2) e = h at q1 q2
    clear p1 ha ht
    revert he q1 q2
    revert h a e
    decide

/-! ### C86 soft sources -/

lemma torchIndex_selects {N : ℕ} {v : ℤ} {i : ℕ} (h : indexSelects N v i) : torchIndex N v = .ok i := by
  unfold indexSelects at h
  unfold torchIndex
  by_cases h0 : 0 ≤ v ∧ v < N
  · rw [if_pos h0]
    congr 1
    omega
  · rw [if_neg h0, if_pos (by omega)]
    congr 1
    omega

lemma placePoint_ok (n : Pos) (x y z : ℤ) (cell : Pos) (hx : indexSelects (n 0) x (cell 0)) (hy : indexSelects (n 1) y (cell 1)) (hz : indexSelects (n 2) z (cell 2)) :
    placePointSource n (.list [x]) (.list [y]) (.list [z]) = .ok cell := by
  show torchCell n (x, y, z) = _
  unfold torchCell
  rw [torchIndex_selects hx, ok_bind, torchIndex_selects hy, ok_bind, torchIndex_selects hz, ok_bind]
  congr 1
  funext a
  fin_cases a <;> rfl

/-- C86: an unnamed soft point source is placed on exactly the addressed cell; negative indices count from the end. -/
theorem C86_placed (n : Pos) (x y z : ℤ) (cell : Pos) (hx : indexSelects (n 0) x (cell 0)) (hy : indexSelects (n 1) y (cell 1)) (hz : indexSelects (n 2) z (cell 2)) :
    placeSoft n none (.list [x]) (.list [y]) (.list [z]) = .ok cell := by
  unfold placeSoft
  rw [placePoint_ok n x y z cell hx hy hz]

/-- the last cell of a 9 × 8 × 7 grid, and one addressed by two kinds of indices -/
example : placeSoft ![9, 8, 7] none (.list [-1]) (.list [3]) (.list [-7]) = .ok ![8, 3, 0] :=
  C86_placed _ _ _ _ _ (by unfold indexSelects; decide) (by unfold indexSelects; decide) (by unfold indexSelects; decide)

section
variable {K : Type} [Field K] [LinearOrder K]

/-- C86: in step `q` such a source changes E along z of its cell and nothing else; what it adds is, per cell width, the waveform's sample of that step (nothing once the waveform has ended), plus for positive impedance
impedance times the current of the previous step (none in the first step). -/
theorem C86_step (spacing : K) (waveform : List K) (impedance : K) (cell : Pos) (q : ℕ) (H E : VField K) :
    (∀ p c, ¬ (p = cell ∧ c = 2) → softStep spacing waveform impedance cell q H E p c = E p c) ∧
    (∀ v, waveform[q]? = some v → ¬ 0 < impedance → softStep spacing waveform impedance cell q H E cell 2 = E cell 2 + v / spacing) ∧
    (waveform.length ≤ q → ¬ 0 < impedance → softStep spacing waveform impedance cell q H E = E) ∧
    (∀ v, waveform[0]? = some v → softStep spacing waveform impedance cell 0 H E cell 2 = E cell 2 + v / spacing) ∧
    (∀ v, waveform[q]? = some v → 0 < impedance → 0 < q → softStep spacing waveform impedance cell q H E cell 2 = E cell 2 + (v + impedance * pointCurrent spacing H cell) / spacing) ∧
    (waveform.length ≤ q → 0 < impedance → 0 < q → softStep spacing waveform impedance cell q H E cell 2 = E cell 2 + impedance * pointCurrent spacing H cell / spacing) := by
  have hin : ∀ (r : ℕ) (v : K), waveform[r]? = some v → softInput waveform r = v := by
    intro r v hv
    obtain ⟨h1, h2⟩ := List.getElem?_eq_some_iff.1 hv
    unfold softInput
    rw [if_pos h1, List.getD_eq_getElem?_getD, hv]
    rfl
  have hout : waveform.length ≤ q → softInput waveform q = 0 := fun h => if_neg (by omega)
  have hcell : ∀ (r : ℕ), softStep spacing waveform impedance cell r H E cell 2 = E cell 2 + softOutput waveform impedance r (pointCurrent spacing H cell) / spacing :=
    fun r => if_pos ⟨rfl, rfl⟩
  refine ⟨fun p c h => if_neg h, fun v hv hz => ?_, fun hq hz => ?_, fun v hv => ?_, fun v hv hz hq => ?_, fun hq hz hq0 => ?_⟩
  · rw [hcell, softOutput, if_neg hz, hin q v hv]
  · funext p c
    unfold softStep addEz softOutput
    rw [if_neg hz, hout hq, zero_div, add_zero, ite_self]
  · rw [hcell, softOutput, hin 0 v hv]
    split_ifs <;> simp_all
  · rw [hcell, softOutput, if_pos hz, if_pos hq, hin q v hv]
  · rw [hcell, softOutput, if_pos hz, if_pos hq0, hout hq, zero_add]

end

/-- a soft source that has ended, on a lossless impedance -/
example : softStep (1 : ℚ) [3, 5] 0 ![1, 1, 1] 1 (fun _ _ => 0) (fun _ _ => 7) ![1, 1, 1] 2 = 12 ∧ softStep (1 : ℚ) [3, 5] 0 ![1, 1, 1] 2 (fun _ _ => 0) (fun _ _ => 7) ![1, 1, 1] 2 = 7 := by
  obtain ⟨-, h1, h2, -⟩ := C86_step (1 : ℚ) [3, 5] 0 ![1, 1, 1] 1 (fun _ _ => 0) (fun _ _ => 7)
  obtain ⟨-, -, h3, -⟩ := C86_step (1 : ℚ) [3, 5] 0 ![1, 1, 1] 2 (fun _ _ => 0) (fun _ _ => 7)
  exact ⟨by rw [h1 5 rfl (lt_irrefl _)]; norm_num, by rw [h3 (le_refl _) (lt_irrefl _)]⟩

/-- C86 is false of named sources: wherever an unnamed one can be placed, giving it a (fresh) name makes the placement fail with an UnboundLocalError. -/
theorem C86_named_false (n : Pos) (name : String) (kx ky kz : AxisKey) (cell : Pos) (h : placeSoft n none kx ky kz = .ok cell) : placeSoft n (some name) kx ky kz = .error .unboundLocalError := by
  unfold placeSoft at h ⊢
  cases hp : placePointSource n kx ky kz with
  | error e => rw [hp] at h; cases h
  | ok c => rfl

end Nidn
