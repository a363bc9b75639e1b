/-
C28: the layer builders paint exactly the described region.
-/
import Verif.Model.Materials
import Verif.Lemmas.Py
import Mathlib.Tactic.Ring
import Mathlib.Tactic.Linarith
import Mathlib.Tactic.FieldSimp
import Mathlib.Tactic.NormNum

namespace Nidn

variable {K V : Type} [Field K] [LinearOrder K] [IsStrictOrderedRing K]

/-- Specification: `x` is the coordinate of cell number `i` of `n` cells spread evenly over [0, 1] (a single cell sits at 0). -/
def CellCoord (n i : ℕ) (x : K) : Prop := (n = 1 ∧ x = 0) ∨ (2 ≤ n ∧ x * ((n : K) - 1) = i)

lemma tick_coord (n i : ℕ) (hi : i < n) : CellCoord n i (tick n i : K) := by
  rcases Nat.lt_or_ge n 2 with h | h
  · left; have : n = 1 := by omega
    exact ⟨this, by simp [tick, this]⟩
  · right
    have h1 : (n : K) - 1 ≠ 0 := by
      have : (2 : K) ≤ n := by exact_mod_cast h
      intro h; linarith
    refine ⟨h, ?_⟩
    rw [tick, if_neg (by omega), div_mul_cancel₀ _ h1]

lemma coord_unique (n i : ℕ) (x y : K) (hx : CellCoord n i x) (hy : CellCoord n i y) : x = y := by
  rcases hx with ⟨h1, rfl⟩ | ⟨h1, h2⟩ <;> rcases hy with ⟨h3, rfl⟩ | ⟨h3, h4⟩
  · rfl
  · omega
  · omega
  · have : (n : K) - 1 ≠ 0 := by
      have : (2 : K) ≤ n := by exact_mod_cast h1
      intro h; linarith
    exact mul_right_cancel₀ this (h2.trans h4.symm)

omit [Field K] [LinearOrder K] [IsStrictOrderedRing K] in
/-- C28: a uniform layer has the material's permittivity in every cell; an unknown name is a KeyError. -/
theorem C28_uniform (mat : String → Except PyErr V) (grid : String) :
    (∀ g, mat grid = .ok g → ∃ eps, buildUniform mat grid = .ok eps ∧ ∀ i j, eps i j = g) ∧
    (∀ e, mat grid = .error e → buildUniform mat grid = .error e) := by
  refine ⟨fun g h => ⟨fun _ _ => g, by rw [buildUniform, h]; rfl, fun _ _ => rfl⟩, fun e h => by rw [buildUniform, h]; rfl⟩

/-- C28: the square layer. Every cell holds the hole material if its coordinates lie strictly inside the square of margin `a`, the grid material
otherwise. -/
theorem C28_square (mat : String → Except PyErr V) (nx ny : ℕ) (grid square : String) (a : K) (g s : V)
    (hg : mat grid = .ok g) (hs : mat square = .ok s) :
    ∃ eps, buildSquared mat nx ny grid square a = .ok eps ∧
      ∀ i j x y, i < nx → j < ny → CellCoord nx i x → CellCoord ny j y →
        ((a < x ∧ x < 1 - a ∧ a < y ∧ y < 1 - a) → eps i j = s) ∧ (¬ (a < x ∧ x < 1 - a ∧ a < y ∧ y < 1 - a) → eps i j = g) := by
  refine ⟨_, by rw [buildSquared, hg, ok_bind, hs, ok_bind]; rfl, fun i j x y hi hj hx hy => ?_⟩
  obtain rfl := coord_unique nx i x _ hx (tick_coord nx i hi)
  obtain rfl := coord_unique ny j y _ hy (tick_coord ny j hj)
  refine ⟨fun h => if_pos ⟨⟨h.1, h.2.1⟩, h.2.2⟩, fun h => if_neg fun h' => h ⟨h'.1.1, h'.1.2, h'.2⟩⟩

/-- C28: the circle layer. Every cell holds the hole material if its distance to the centre is less than the radius. -/
theorem C28_circle (mat : String → Except PyErr V) (nx ny : ℕ) (grid circle : String) (r xc yc : K) (g c : V)
    (hg : mat grid = .ok g) (hc : mat circle = .ok c) :
    ∃ eps, buildCircle mat nx ny grid circle r xc yc = .ok eps ∧
      ∀ i j x y, i < nx → j < ny → CellCoord nx i x → CellCoord ny j y →
        ((x - xc) * (x - xc) + (y - yc) * (y - yc) < r * r → eps i j = c) ∧
        (r * r ≤ (x - xc) * (x - xc) + (y - yc) * (y - yc) → eps i j = g) := by
  refine ⟨_, by rw [buildCircle, hg, ok_bind, hc, ok_bind]; rfl, fun i j x y hi hj hx hy => ?_⟩
  obtain rfl := coord_unique nx i x _ hx (tick_coord nx i hi)
  obtain rfl := coord_unique ny j y _ hy (tick_coord ny j hj)
  simp only [sq]
  exact ⟨fun h => if_pos h, fun h => if_neg (not_lt.mpr h)⟩

lemma tick_mirror (n i : ℕ) (hi : i < n) : (tick n (n - 1 - i) : K) = if n = 1 then 0 else 1 - tick n i := by
  rcases Nat.lt_or_ge n 2 with h | h
  · rw [tick, if_pos (by omega), if_pos (by omega)]
  · have h1 : (n : K) - 1 ≠ 0 := by
      have : (2 : K) ≤ n := by exact_mod_cast h
      intro h; linarith
    rw [tick, tick, if_neg (by omega), if_neg (by omega), if_neg (by omega), Nat.cast_sub (by omega), Nat.cast_sub (by omega)]
    field_simp
    push_cast
    ring

/-- C28: a square layer is symmetric under mirroring each axis. -/
theorem C28_square_mirror (mat : String → Except PyErr V) (nx ny : ℕ) (grid square : String) (a : K) (eps : ℕ → ℕ → V)
    (h : buildSquared mat nx ny grid square a = .ok eps) (i j : ℕ) (hi : i < nx) (hj : j < ny) :
    eps (nx - 1 - i) j = eps i j ∧ eps i (ny - 1 - j) = eps i j := by
  simp only [buildSquared, bind_ok, pure, Except.pure, Except.ok.injEq] at h
  obtain ⟨g, -, s, -, rfl⟩ := h
  have hside : ∀ n k, k < n → (((tick n (n - 1 - k) : K) > a ∧ (tick n (n - 1 - k) : K) < 1 - a) ↔ ((tick n k : K) > a ∧ (tick n k : K) < 1 - a)) :=
    fun n k hk => by
      rw [tick_mirror n k hk]
      split_ifs with h1
      · rw [tick, if_pos h1]
      · constructor <;> rintro ⟨h2, h3⟩ <;> constructor <;> linarith
  simp only [hside nx i hi, hside ny j hj, and_self]

/-- C28: a circle layer with its default centre is symmetric under mirroring each axis, and the sign of the radius does not matter. -/
theorem C28_circle_mirror (mat : String → Except PyErr V) (nx ny : ℕ) (grid circle : String) (r : K) (eps : ℕ → ℕ → V)
    (h : buildCircle mat nx ny grid circle r (1 / 2) (1 / 2) = .ok eps) (i j : ℕ) (hi : i < nx) (hj : j < ny) :
    eps (nx - 1 - i) j = eps i j ∧ eps i (ny - 1 - j) = eps i j ∧ buildCircle mat nx ny grid circle (-r) (1 / 2) (1 / 2) = .ok eps := by
  have hside : ∀ n k, k < n → ((tick n (n - 1 - k) : K) - 1 / 2) ^ 2 = ((tick n k : K) - 1 / 2) ^ 2 := fun n k hk => by
    rw [tick_mirror n k hk]
    split_ifs with h1
    · rw [tick, if_pos h1]
    · ring
  refine ⟨?_, ?_, by rw [← h]; simp [buildCircle]⟩ <;>
  · simp only [buildCircle, bind_ok, pure, Except.pure, Except.ok.injEq] at h
    obtain ⟨g, -, s, -, rfl⟩ := h
    simp only [hside nx i hi, hside ny j hj]

/-- C28: degenerate parameters. A margin of one half or more leaves no hole, and a hole never reaches a grid that is one cell wide. -/
theorem C28_square_empty (mat : String → Except PyErr V) (nx ny : ℕ) (grid square : String) (a : K) (eps : ℕ → ℕ → V) (g : V)
    (hg : mat grid = .ok g) (h : buildSquared mat nx ny grid square a = .ok eps) (hempty : 1 / 2 ≤ a ∨ (0 ≤ a ∧ (nx = 1 ∨ ny = 1))) (i j : ℕ) :
    eps i j = g := by
  simp only [buildSquared, bind_ok, pure, Except.pure, Except.ok.injEq] at h
  obtain ⟨g', hg', s, -, rfl⟩ := h
  rw [hg] at hg'
  cases hg'
  refine if_neg ?_
  rintro ⟨⟨h1, h2⟩, h3, h4⟩
  rcases hempty with h | ⟨h, h5 | h5⟩
  · linarith
  · rw [tick, if_pos h5] at h1; linarith
  · rw [tick, if_pos h5] at h3; linarith

/-- A 4x4 layer with margin 0.33: the four inner cells hold the hole material; the same with a circle of radius 0.33. -/
example :
    let mat : String → Except PyErr ℕ := fun n => if n = "g" then .ok 0 else if n = "s" then .ok 1 else .error .keyError
    ((buildSquared (K := ℚ) mat 4 4 "g" "s" (33 / 100)).map fun e => (List.range 4).map fun i => (List.range 4).map (e i)) =
        .ok [[0, 0, 0, 0], [0, 1, 1, 0], [0, 1, 1, 0], [0, 0, 0, 0]] ∧
    ((buildCircle (K := ℚ) mat 4 4 "g" "s" (33 / 100) (1 / 2) (1 / 2)).map fun e => (List.range 4).map fun i => (List.range 4).map (e i)) =
        .ok [[0, 0, 0, 0], [0, 1, 1, 0], [0, 1, 1, 0], [0, 0, 0, 0]] := by
  decide +kernel

end Nidn
