/-
C58: placement of line sources and detectors by three lists of indices.
-/
import Verif.Props.FdtdCurrent

namespace Nidn

/-- the coordinates of some cells along one axis, as a python list -/
def coordinates (pts : List Pos) (c : Fin 3) : AxisKey := .list (pts.map fun p => (p c : ℤ))

/-- C58: three lists of indices that name the coordinates of some cells place a line source or detector on these cells, in the given order, repetitions included. -/
theorem C58_lists_cells (atLeast : ℕ) (n : Pos) (pts : List Pos) (h : ∀ p ∈ pts, ∀ c, p c < n c) :
    ∃ l, lineIndices atLeast n (coordinates pts 0) (coordinates pts 1) (coordinates pts 2) = .ok l ∧ lineCells n l = .ok pts := by
  refine ⟨⟨pts.map fun p => (p 0 : ℤ), pts.map fun p => (p 1 : ℤ), pts.map fun p => (p 2 : ℤ)⟩, ?_, ?_⟩
  · unfold lineIndices coordinates
    simp only [List.length_map, ne_eq, not_true_eq_false, or_self, if_false]
  · have e : IndexLists.triples ⟨pts.map fun p => (p 0 : ℤ), pts.map fun p => (p 1 : ℤ), pts.map fun p => (p 2 : ℤ)⟩ = pts.map fun p => ((p 0 : ℤ), (p 1 : ℤ), (p 2 : ℤ)) := by
      unfold IndexLists.triples
      clear h
      induction pts with
      | nil => rfl
      | cons p pts ih => simp only [List.map_cons, List.zip_cons_cons, ih]
    unfold lineCells
    rw [e, List.mapM_map]
    have := mapM_all_ok (fun p : Pos => torchCell n ((p 0 : ℤ), (p 1 : ℤ), (p 2 : ℤ))) id pts fun p hp => by
      unfold torchCell
      simp only [torchIndex_nat _ _ (h p hp 0), torchIndex_nat _ _ (h p hp 1), torchIndex_nat _ _ (h p hp 2), ok_bind]
      congr 1
      funext c
      fin_cases c <;> rfl
    rw [List.map_id] at this
    exact this

/-- C58: lists of different lengths are refused with an IndexError, by lines and by blocks, whichever list differs. -/
theorem C58_lists_lengths (atLeast : ℕ) (n : Pos) (xs ys zs : List ℤ) :
    ((¬ (xs.length = ys.length ∧ ys.length = zs.length)) ↔ lineIndices atLeast n (.list xs) (.list ys) (.list zs) = .error .indexError) ∧
    ((¬ (xs.length = ys.length ∧ ys.length = zs.length)) ↔ blockIndices n (.list xs) (.list ys) (.list zs) = .error .indexError) := by
  have key : (¬ (xs.length = ys.length ∧ ys.length = zs.length)) ↔ xs.length ≠ ys.length ∨ ys.length ≠ zs.length := by tauto
  constructor <;> rw [key]
  · unfold lineIndices
    by_cases h : xs.length ≠ ys.length ∨ ys.length ≠ zs.length
    · simp only [h, if_true]
    · simp only [h, if_false, reduceCtorEq]
  · unfold blockIndices
    by_cases h : xs.length ≠ ys.length ∨ ys.length ≠ zs.length
    · simp only [h, if_true]
    · simp only [h, if_false, reduceCtorEq]

/-- three cells out of order, one of them twice -/
example : ∃ l, lineIndices 2 ![5, 4, 2] (coordinates [![3, 0, 1], ![1, 2, 0], ![3, 0, 1]] 0) (coordinates [![3, 0, 1], ![1, 2, 0], ![3, 0, 1]] 1) (coordinates [![3, 0, 1], ![1, 2, 0], ![3, 0, 1]] 2) = .ok l ∧
    lineCells ![5, 4, 2] l = .ok [![3, 0, 1], ![1, 2, 0], ![3, 0, 1]] :=
  C58_lists_cells 2 ![5, 4, 2] _ (by simp [Fin.forall_fin_succ])

/-- the z list is too long -/
example : lineIndices 0 ![5, 4, 2] (.list [1, 2]) (.list [0, 1]) (.list [0, 1, 1]) = .error .indexError := (C58_lists_lengths 0 ![5, 4, 2] [1, 2] [0, 1] [0, 1, 1]).1.1 (by simp)

end Nidn
