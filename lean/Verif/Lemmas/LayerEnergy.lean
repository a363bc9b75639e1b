/-
An energy for a line of cells with convolutional absorbing layers: what the memories of a layer hold is counted as stored
energy, and no step increases the sum. Used for C139.
-/
import Mathlib.Tactic.FieldSimp
import Mathlib.Tactic.Ring
import Mathlib.Tactic.Linarith
import Mathlib.Tactic.Positivity
import Mathlib.Tactic.LinearCombination
import Mathlib.Algebra.BigOperators.Fin
import Mathlib.Algebra.Order.BigOperators.Group.Finset
import Mathlib.Algebra.BigOperators.Field
import Mathlib.Analysis.Real.Sqrt

open Finset

namespace Nidn

/-! ### One cell -/

/-- stored by an electric cell with memory current `J` -/
noncomputable def storeE (b γ E J : ℝ) : ℝ := γ / (2 * (1 - γ - b)) * (E - b / γ * J) ^ 2 + b / (4 * γ) * J ^ 2

/-- stored by a magnetic cell, with its share of the product `H J` -/
noncomputable def storeH (b γ H J : ℝ) : ℝ :=
  if γ = 0 then 0 else γ / (1 - γ - b) * H ^ 2 - 2 * b / (1 - γ - b) * (H * J) + b * (1 - γ + b) / (2 * γ * (1 - γ - b)) * J ^ 2

/-- damping rate and strength of a memory: none, or that of a layer -/
def MemoryOk (b γ : ℝ) : Prop := γ = 0 ∨ (0 < γ ∧ 0 ≤ b ∧ b < 1 - γ)

lemma storeE_nonneg {b γ : ℝ} (h : MemoryOk b γ) (E J : ℝ) : 0 ≤ storeE b γ E J := by
  unfold storeE
  rcases h with rfl | ⟨h1, h2, h3⟩
  · simp
  · have : 0 < 1 - γ - b := by linarith
    positivity

lemma storeH_nonneg {b γ : ℝ} (h : MemoryOk b γ) (H J : ℝ) : 0 ≤ storeH b γ H J := by
  unfold storeH
  split_ifs with h0
  · exact le_refl _
  rcases h with h | ⟨h1, h2, h3⟩
  · exact absurd h h0
  · have h4 : 0 < 1 - γ - b := by linarith
    have h5 : γ / (1 - γ - b) * H ^ 2 - 2 * b / (1 - γ - b) * (H * J) + b * (1 - γ + b) / (2 * γ * (1 - γ - b)) * J ^ 2
        = (γ * (H - b / γ * J) ^ 2 + b / (2 * γ) * (1 - γ - b) * J ^ 2) / (1 - γ - b) := by
      field_simp
      ring
    rw [h5]
    positivity

lemma storeE_fresh (b γ E : ℝ) : storeE b γ E 0 = γ / (1 - γ - b) * E ^ 2 / 2 := by
  unfold storeE
  rw [mul_comm (2 : ℝ), ← div_div]
  ring

lemma storeH_fresh (b γ H : ℝ) : storeH b γ H 0 = γ / (1 - γ - b) * H ^ 2 := by
  unfold storeH
  split_ifs with h
  · rw [h]
    ring
  · ring

lemma cellE_memory {b γ p D E ψ E' ψ' : ℝ} (hγ : γ ≠ 0) (hα : 1 - γ - b ≠ 0) (hp : p ≠ 0) (h2 : ψ' = b * ψ - γ * D) (h1 : E' = E + p * (D + ψ')) :
    (E' ^ 2 + 2 * storeE b γ E' (-p * ψ')) / p - (E ^ 2 + 2 * storeE b γ E (-p * ψ)) / p = (E' + E) * D - b / (2 * γ) * p * (ψ + ψ') ^ 2 := by
  subst h1 h2
  unfold storeE
  field_simp
  ring

lemma cellH_memory {b γ m F F' H χ H' χ' : ℝ} (hγ : γ ≠ 0) (hα : 1 - γ - b ≠ 0) (hm : m ≠ 0) (h2 : χ' = b * χ - γ * F') (h1 : H' = H + m * (F' + χ')) :
    ((H' ^ 2 + storeH b γ H' (-m * χ')) / m - F' * H') - ((H ^ 2 + storeH b γ H (-m * χ)) / m - F * H) = H * (F + F') - b / (2 * γ) * m * (χ + χ') ^ 2 := by
  subst h1 h2
  unfold storeH
  rw [if_neg hγ, if_neg hγ]
  field_simp
  ring

/-- an electric cell gains at most the work of the curl -/
lemma cellE_le {b γ p A D E ψ E' ψ' : ℝ} (hm : MemoryOk b γ) (hp : 0 < p) (hA : 0 ≤ A) (hAγ : γ ≠ 0 → A = 0) (hψ : γ = 0 → ψ = 0) (h2 : ψ' = b * ψ - γ * D)
    (h1 : (1 + A) * E' = (1 - A) * E + p * (D + ψ')) :
    (E' ^ 2 + 2 * storeE b γ E' (-p * ψ')) / p - (E ^ 2 + 2 * storeE b γ E (-p * ψ)) / p ≤ (E' + E) * D := by
  by_cases h0 : γ = 0
  · have hψ' : ψ' = 0 := by rw [h2, hψ h0, h0]; ring
    have hs : ∀ E J, storeE b γ E J = 0 := fun E J => by unfold storeE; rw [h0]; simp
    rw [hs, hs]
    rw [hψ', add_zero] at h1
    have e : (E' ^ 2 + 2 * 0) / p - (E ^ 2 + 2 * 0) / p = (E' + E) * D - A * (E' + E) ^ 2 / p := by
      have : D = ((1 + A) * E' - (1 - A) * E) / p := by rw [h1]; field_simp; ring
      rw [this]
      field_simp
      ring
    rw [e]
    have : 0 ≤ A * (E' + E) ^ 2 / p := by positivity
    linarith
  · rcases hm with hm | ⟨k1, k2, k3⟩
    · exact absurd hm h0
    · have h4 : (1 - γ - b) ≠ 0 := by
        have : 0 < 1 - γ - b := by linarith
        exact this.ne'
      rw [hAγ h0] at h1
      rw [cellE_memory h0 h4 hp.ne' h2 (by linarith)]
      have : 0 ≤ b / (2 * γ) * p * (ψ + ψ') ^ 2 := by positivity
      linarith

/-- a magnetic cell gains at most the work of the curl -/
lemma cellH_le {b γ m F F' H χ H' χ' : ℝ} (hm : MemoryOk b γ) (hp : 0 < m) (hχ : γ = 0 → χ = 0) (h2 : χ' = b * χ - γ * F') (h1 : H' = H + m * (F' + χ')) :
    ((H' ^ 2 + storeH b γ H' (-m * χ')) / m - F' * H') - ((H ^ 2 + storeH b γ H (-m * χ)) / m - F * H) ≤ H * (F + F') := by
  by_cases h0 : γ = 0
  · have hψ' : χ' = 0 := by rw [h2, hχ h0, h0]; ring
    have hs : ∀ E J, storeH b γ E J = 0 := fun E J => by unfold storeH; rw [if_pos h0]
    rw [hs, hs, h1, hψ']
    apply le_of_eq
    field_simp
    ring
  · rcases hm with hm | ⟨k1, k2, k3⟩
    · exact absurd hm h0
    · have h4 : (1 - γ - b) ≠ 0 := by
        have : 0 < 1 - γ - b := by linarith
        exact this.ne'
      rw [cellH_memory h0 h4 hp.ne' h2 h1]
      have : 0 ≤ b / (2 * γ) * m * (χ + χ') ^ 2 := by positivity
      linarith

/-! ### The line -/

/-- per cell: the electric and magnetic step factors, the absorption, and the damping and the strength of the memories -/
structure LinePars where
  p : ℕ → ℝ
  m : ℕ → ℝ
  A : ℕ → ℝ
  bE : ℕ → ℝ
  gE : ℕ → ℝ
  bH : ℕ → ℝ
  gH : ℕ → ℝ

/-- fields and memories of a line -/
structure LineState where
  E : ℕ → ℝ
  H : ℕ → ℝ
  ψ : ℕ → ℝ
  χ : ℕ → ℝ

/-- difference to the cell before -/
def lowD (H : ℕ → ℝ) (i : ℕ) : ℝ := if i = 0 then 0 else H i - H (i - 1)

/-- difference to the next cell -/
def upF (N : ℕ) (E : ℕ → ℝ) (i : ℕ) : ℝ := if N ≤ i + 1 then 0 else E (i + 1) - E i

/-- a time step of the line -/
def LinePars.Moves (L : LinePars) (N : ℕ) (s s' : LineState) : Prop := ∀ i < N,
  s'.ψ i = L.bE i * s.ψ i - L.gE i * lowD s.H i ∧ (1 + L.A i) * s'.E i = (1 - L.A i) * s.E i + L.p i * (lowD s.H i + s'.ψ i) ∧
  s'.χ i = L.bH i * s.χ i - L.gH i * upF N s'.E i ∧ s'.H i = s.H i + L.m i * (upF N s'.E i + s'.χ i)

/-- what is asked of the factors -/
def LinePars.Good (L : LinePars) (N : ℕ) : Prop := ∀ i < N,
  0 < L.p i ∧ 0 < L.m i ∧ 0 ≤ L.A i ∧ MemoryOk (L.bE i) (L.gE i) ∧ MemoryOk (L.bH i) (L.gH i) ∧ (L.gE i ≠ 0 → L.A i = 0)

/-- memories only where there is a layer, and the ends dark -/
def LinePars.Settled (L : LinePars) (N : ℕ) (s : LineState) : Prop :=
  (∀ i < N, (L.gE i = 0 → s.ψ i = 0) ∧ (L.gH i = 0 → s.χ i = 0)) ∧ s.E 0 = 0 ∧ s.H (N - 1) = 0 ∧ s.ψ 0 = 0 ∧ s.χ (N - 1) = 0

/-- the energy of the line -/
noncomputable def LinePars.energy (L : LinePars) (N : ℕ) (s : LineState) : ℝ :=
  ∑ i ∈ range N, ((s.E i ^ 2 + 2 * storeE (L.bE i) (L.gE i) (s.E i) (-L.p i * s.ψ i)) / L.p i +
    ((s.H i ^ 2 + storeH (L.bH i) (L.gH i) (s.H i) (-L.m i * s.χ i)) / L.m i - upF N s.E i * s.H i))

/-- summation by parts on the line -/
lemma line_parts (G H : ℕ → ℝ) (M : ℕ) : ∑ i ∈ range (M + 1), (G i * lowD H i + H i * upF (M + 1) G i) = G M * H M - H 0 * G 0 := by
  have h : ∀ n, n ≤ M → ∑ i ∈ range n, (G i * lowD H i + H i * upF (M + 1) G i) = if n = 0 then 0 else H (n - 1) * G n - H 0 * G 0 := by
    intro n
    induction n with
    | zero => intro _; simp
    | succ n ih =>
      intro hn
      rw [sum_range_succ, ih (by omega)]
      have : ¬ M + 1 ≤ n + 1 := by omega
      simp only [lowD, upF, if_neg this, Nat.succ_ne_zero, if_false, Nat.add_sub_cancel]
      split_ifs with h0
      · rw [h0]; ring
      · ring
  rw [sum_range_succ, h M (le_refl _)]
  simp only [lowD, upF, le_refl, if_true]
  split_ifs with h0
  · rw [h0]; ring
  · ring

/-- the end cells stay dark, and no memory appears outside the layers -/
lemma LinePars.Settled.move {L : LinePars} {N : ℕ} (hN : 0 < N) (hL : L.Good N) {s s' : LineState} (h : L.Settled N s) (hm : L.Moves N s s') : L.Settled N s' := by
  obtain ⟨h1, h2, h3, h4, h5⟩ := h
  have e0 := hm 0 hN
  have e1 := hm (N - 1) (by omega)
  have d0 : lowD s.H 0 = 0 := if_pos rfl
  have d1 : upF N s'.E (N - 1) = 0 := if_pos (by omega)
  have k4 : s'.ψ 0 = 0 := by rw [e0.1, h4, d0]; ring
  have k5 : s'.χ (N - 1) = 0 := by rw [e1.2.2.1, h5, d1]; ring
  refine ⟨fun i hi => ⟨fun hg => ?_, fun hg => ?_⟩, ?_, ?_, k4, k5⟩
  · rw [(hm i hi).1, (h1 i hi).1 hg, hg]; ring
  · rw [(hm i hi).2.2.1, (h1 i hi).2 hg, hg]; ring
  · have h := e0.2.1
    rw [h2, d0, k4] at h
    have hA := (hL 0 hN).2.2.1
    have : (1 + L.A 0) * s'.E 0 = 0 := by rw [h]; ring
    rcases mul_eq_zero.mp this with h | h
    · linarith
    · exact h
  · rw [e1.2.2.2, h3, d1, k5]; ring

/-- **no step increases the energy of the line** -/
lemma LinePars.energy_move {L : LinePars} {N : ℕ} (hN : 0 < N) (hL : L.Good N) {s s' : LineState} (h : L.Settled N s) (hm : L.Moves N s s') : L.energy N s' ≤ L.energy N s := by
  have h' := h.move hN hL hm
  have hc : L.energy N s' - L.energy N s ≤ ∑ i ∈ range N, ((fun i => s.E i + s'.E i) i * lowD s.H i + s.H i * upF N (fun i => s.E i + s'.E i) i) := by
    unfold LinePars.energy
    rw [← sum_sub_distrib]
    refine sum_le_sum fun i hi => ?_
    have hi := mem_range.mp hi
    obtain ⟨m1, m2, m3, m4⟩ := hm i hi
    obtain ⟨l1, l2, l3, l4, l5, l6⟩ := hL i hi
    have a := cellE_le l4 l1 l3 l6 (h.1 i hi).1 m1 m2
    have b := cellH_le (F := upF N s.E i) l5 l2 (h.1 i hi).2 m3 m4
    have c : upF N (fun i => s.E i + s'.E i) i = upF N s.E i + upF N s'.E i := by
      unfold upF
      split_ifs <;> ring
    rw [c]
    linarith
  obtain ⟨M, rfl⟩ : ∃ M, N = M + 1 := ⟨N - 1, by omega⟩
  rw [line_parts] at hc
  rw [h.2.1, h'.2.1] at hc
  have : s.H M = 0 := h.2.2.1
  rw [this] at hc
  linarith

/-- sum of the squares of the fields -/
def LineState.size (N : ℕ) (s : LineState) : ℝ := ∑ i ∈ range N, (s.E i ^ 2 + s.H i ^ 2)

/-- the mixed term is at most the sum of the squares -/
lemma line_mixed (E H : ℕ → ℝ) (N : ℕ) : |∑ i ∈ range N, upF N E i * H i| ≤ ∑ i ∈ range N, (E i ^ 2 + H i ^ 2) := by
  have h1 : ∀ i, |upF N E i * H i| ≤ (E i ^ 2 + H i ^ 2) / 2 + ((if i + 1 < N then E (i + 1) ^ 2 else 0) + H i ^ 2) / 2 := by
    intro i
    unfold upF
    by_cases h : N ≤ i + 1
    · rw [if_pos h, if_neg (by omega)]
      simp only [zero_mul, abs_zero]
      positivity
    · rw [if_neg h, if_pos (by omega), abs_le]
      constructor
      · nlinarith [sq_nonneg (E (i + 1) + H i), sq_nonneg (E i - H i)]
      · nlinarith [sq_nonneg (E (i + 1) - H i), sq_nonneg (E i + H i)]
  have h2 : ∑ i ∈ range N, (if i + 1 < N then E (i + 1) ^ 2 else 0) ≤ ∑ i ∈ range N, E i ^ 2 := by
    cases N with
    | zero => simp
    | succ M =>
      rw [sum_range_succ, sum_range_succ' (fun i => E i ^ 2), if_neg (by omega)]
      have : ∑ i ∈ range M, (if i + 1 < M + 1 then E (i + 1) ^ 2 else 0) = ∑ i ∈ range M, E (i + 1) ^ 2 := sum_congr rfl fun i hi => if_pos (by have := mem_range.mp hi; omega)
      rw [this]
      nlinarith [sq_nonneg (E 0)]
  calc |∑ i ∈ range N, upF N E i * H i| ≤ ∑ i ∈ range N, |upF N E i * H i| := abs_sum_le_sum_abs _ _
    _ ≤ ∑ i ∈ range N, ((E i ^ 2 + H i ^ 2) / 2 + ((if i + 1 < N then E (i + 1) ^ 2 else 0) + H i ^ 2) / 2) := sum_le_sum fun i _ => h1 i
    _ ≤ ∑ i ∈ range N, (E i ^ 2 + H i ^ 2) := by
      rw [sum_add_distrib, ← sum_div, ← sum_div, sum_add_distrib, sum_add_distrib]
      linarith

/-- the energy controls the fields -/
lemma LinePars.energy_ge {L : LinePars} {N : ℕ} (hL : L.Good N) {c : ℝ} (hc : ∀ i < N, L.p i ≤ c ∧ L.m i ≤ c) (s : LineState) : (1 / c - 1) * s.size N ≤ L.energy N s := by
  have h1 : (1 / c) * s.size N - ∑ i ∈ range N, upF N s.E i * s.H i ≤ L.energy N s := by
    unfold LinePars.energy LineState.size
    rw [mul_sum, ← sum_sub_distrib]
    refine sum_le_sum fun i hi => ?_
    have hi := mem_range.mp hi
    obtain ⟨l1, l2, -, l4, l5, -⟩ := hL i hi
    have a : (1 / c) * s.E i ^ 2 ≤ (s.E i ^ 2 + 2 * storeE (L.bE i) (L.gE i) (s.E i) (-L.p i * s.ψ i)) / L.p i := by
      have h0 := storeE_nonneg l4 (s.E i) (-L.p i * s.ψ i)
      rw [div_eq_inv_mul _ (L.p i), one_div]
      exact mul_le_mul (inv_anti₀ l1 (hc i hi).1) (by linarith) (by positivity) (by positivity)
    have b : (1 / c) * s.H i ^ 2 ≤ (s.H i ^ 2 + storeH (L.bH i) (L.gH i) (s.H i) (-L.m i * s.χ i)) / L.m i := by
      have h0 := storeH_nonneg l5 (s.H i) (-L.m i * s.χ i)
      rw [div_eq_inv_mul _ (L.m i), one_div]
      exact mul_le_mul (inv_anti₀ l2 (hc i hi).2) (by linarith) (by positivity) (by positivity)
    linarith
  have h2 := (abs_le.mp (line_mixed s.E s.H N)).2
  have h3 : s.size N = ∑ i ∈ range N, (s.E i ^ 2 + s.H i ^ 2) := rfl
  rw [← h3] at h2
  linarith

/-- the energy of a line with empty memories -/
lemma LinePars.energy_le {L : LinePars} {N : ℕ} (hL : L.Good N) {q R : ℝ} (hq : 0 < q) (hpq : ∀ i < N, q ≤ L.p i ∧ q ≤ L.m i) (hR : 0 ≤ R)
    (hs : ∀ i < N, L.gE i / (1 - L.gE i - L.bE i) ≤ R ∧ L.gH i / (1 - L.gH i - L.bH i) ≤ R) (s : LineState) (h0 : ∀ i < N, s.ψ i = 0 ∧ s.χ i = 0) :
    L.energy N s ≤ ((1 + R) / q + 1) * s.size N := by
  have h1 : L.energy N s ≤ ((1 + R) / q) * s.size N - ∑ i ∈ range N, upF N s.E i * s.H i := by
    unfold LinePars.energy LineState.size
    rw [mul_sum, ← sum_sub_distrib]
    refine sum_le_sum fun i hi => ?_
    have hi := mem_range.mp hi
    obtain ⟨l1, l2, -, l4, l5, -⟩ := hL i hi
    rw [(h0 i hi).1, (h0 i hi).2, mul_zero, mul_zero, storeE_fresh, storeH_fresh]
    have a : (s.E i ^ 2 + 2 * (L.gE i / (1 - L.gE i - L.bE i) * s.E i ^ 2 / 2)) / L.p i ≤ ((1 + R) / q) * s.E i ^ 2 := by
      rw [div_mul_eq_mul_div (1 + R)]
      refine div_le_div₀ (by positivity) ?_ hq (hpq i hi).1
      nlinarith [mul_le_mul_of_nonneg_right (hs i hi).1 (sq_nonneg (s.E i))]
    have b : (s.H i ^ 2 + L.gH i / (1 - L.gH i - L.bH i) * s.H i ^ 2) / L.m i ≤ ((1 + R) / q) * s.H i ^ 2 := by
      rw [div_mul_eq_mul_div (1 + R)]
      refine div_le_div₀ (by positivity) ?_ hq (hpq i hi).2
      nlinarith [mul_le_mul_of_nonneg_right (hs i hi).2 (sq_nonneg (s.H i))]
    linarith
  have h2 := (abs_le.mp (line_mixed s.E s.H N)).1
  have h3 : s.size N = ∑ i ∈ range N, (s.E i ^ 2 + s.H i ^ 2) := rfl
  rw [← h3] at h2
  linarith

/-- **the fields of a line with absorbing layers stay bounded** -/
lemma LinePars.bounded {L : LinePars} {N : ℕ} (hN : 0 < N) (hL : L.Good N) {q c R : ℝ} (hq : 0 < q) (hpq : ∀ i < N, (q ≤ L.p i ∧ q ≤ L.m i) ∧ L.p i ≤ c ∧ L.m i ≤ c) (hR : 0 ≤ R)
    (hs : ∀ i < N, L.gE i / (1 - L.gE i - L.bE i) ≤ R ∧ L.gH i / (1 - L.gH i - L.bH i) ≤ R) (s : ℕ → LineState) (h0 : ∀ i < N, (s 0).ψ i = 0 ∧ (s 0).χ i = 0)
    (hd : (s 0).E 0 = 0 ∧ (s 0).H (N - 1) = 0) (hm : ∀ k, L.Moves N (s k) (s (k + 1))) (k : ℕ) :
    (1 / c - 1) * (s k).size N ≤ ((1 + R) / q + 1) * (s 0).size N := by
  have hset : ∀ k, L.Settled N (s k) := by
    intro k
    induction k with
    | zero => exact ⟨fun i hi => ⟨fun _ => (h0 i hi).1, fun _ => (h0 i hi).2⟩, hd.1, hd.2, (h0 0 hN).1, (h0 (N - 1) (by omega)).2⟩
    | succ k ih => exact ih.move hN hL (hm k)
  have hle : ∀ k, L.energy N (s k) ≤ L.energy N (s 0) := by
    intro k
    induction k with
    | zero => exact le_refl _
    | succ k ih => exact (LinePars.energy_move hN hL (hset k) (hm k)).trans ih
  exact ((LinePars.energy_ge hL (fun i hi => (hpq i hi).2) (s k)).trans (hle k)).trans (LinePars.energy_le hL hq (fun i hi => (hpq i hi).1) hR hs (s 0) h0)

/-! ### Driven lines -/

/-- a time step as a function -/
noncomputable def LinePars.flow (L : LinePars) (N : ℕ) (s : LineState) : LineState :=
  let ψ' : ℕ → ℝ := fun i => L.bE i * s.ψ i - L.gE i * lowD s.H i
  let E' : ℕ → ℝ := fun i => ((1 - L.A i) * s.E i + L.p i * (lowD s.H i + ψ' i)) / (1 + L.A i)
  let χ' : ℕ → ℝ := fun i => L.bH i * s.χ i - L.gH i * upF N E' i
  ⟨E', fun i => s.H i + L.m i * (upF N E' i + χ' i), ψ', χ'⟩

lemma LinePars.flow_moves {L : LinePars} {N : ℕ} (hL : L.Good N) (s : LineState) : L.Moves N s (L.flow N s) := by
  intro i hi
  refine ⟨rfl, ?_, rfl, rfl⟩
  have := (hL i hi).2.2.1
  show (1 + L.A i) * (_ / (1 + L.A i)) = _
  have h : (1 + L.A i) ≠ 0 := by positivity
  rw [mul_div_cancel₀ _ h]
  rfl

/-- cell by cell the sum of two states -/
def LineState.Adds (N : ℕ) (s s₁ s₂ : LineState) : Prop := ∀ i < N, s.E i = s₁.E i + s₂.E i ∧ s.H i = s₁.H i + s₂.H i ∧ s.ψ i = s₁.ψ i + s₂.ψ i ∧ s.χ i = s₁.χ i + s₂.χ i

lemma storeE_add (b γ E₁ E₂ J₁ J₂ x : ℝ) (hx : x ≠ 0) :
    (1 + x) * storeE b γ E₁ J₁ + (1 + 1 / x) * storeE b γ E₂ J₂ - storeE b γ (E₁ + E₂) (J₁ + J₂) = 1 / x * storeE b γ (x * E₁ - E₂) (x * J₁ - J₂) := by
  unfold storeE
  generalize γ / (2 * (1 - γ - b)) = u
  generalize b / γ = v
  generalize b / (4 * γ) = w
  field_simp
  ring

lemma storeH_add (b γ E₁ E₂ J₁ J₂ x : ℝ) (hx : x ≠ 0) :
    (1 + x) * storeH b γ E₁ J₁ + (1 + 1 / x) * storeH b γ E₂ J₂ - storeH b γ (E₁ + E₂) (J₁ + J₂) = 1 / x * storeH b γ (x * E₁ - E₂) (x * J₁ - J₂) := by
  unfold storeH
  split_ifs
  · ring
  generalize γ / (1 - γ - b) = u
  generalize 2 * b / (1 - γ - b) = v
  generalize b * (1 - γ + b) / (2 * γ * (1 - γ - b)) = w
  field_simp
  ring

/-- the energy of a sum -/
lemma LinePars.energy_add {L : LinePars} {N : ℕ} (hL : L.Good N) (hc : ∀ i < N, L.p i ≤ 1 ∧ L.m i ≤ 1) {s s₁ s₂ : LineState} (h : s.Adds N s₁ s₂) {x : ℝ} (hx : 0 < x) :
    L.energy N s ≤ (1 + x) * L.energy N s₁ + (1 + 1 / x) * L.energy N s₂ := by
  let d : LineState := ⟨fun i => x * s₁.E i - s₂.E i, fun i => x * s₁.H i - s₂.H i, fun i => x * s₁.ψ i - s₂.ψ i, fun i => x * s₁.χ i - s₂.χ i⟩
  have hd : 0 ≤ L.energy N d := by
    have := LinePars.energy_ge hL hc d
    have h0 : (1 / (1 : ℝ) - 1) * d.size N = 0 := by norm_num
    linarith
  have e : (1 + x) * L.energy N s₁ + (1 + 1 / x) * L.energy N s₂ - L.energy N s = 1 / x * L.energy N d := by
    unfold LinePars.energy
    simp only [mul_sum]
    rw [← sum_add_distrib, ← sum_sub_distrib]
    refine sum_congr rfl fun i hi => ?_
    have hi := mem_range.mp hi
    obtain ⟨h1, h2, h3, h4⟩ := h i hi
    have hF : upF N s.E i = upF N s₁.E i + upF N s₂.E i := by
      unfold upF
      split_ifs with hN
      · ring
      · rw [(h (i + 1) (by omega)).1, h1]; ring
    have hF' : upF N d.E i = x * upF N s₁.E i - upF N s₂.E i := by
      unfold upF
      split_ifs with hN
      · ring
      · show (x * _ - _) - (x * _ - _) = _
        ring
    have a := storeE_add (L.bE i) (L.gE i) (s₁.E i) (s₂.E i) (-L.p i * s₁.ψ i) (-L.p i * s₂.ψ i) x hx.ne'
    have b := storeH_add (L.bH i) (L.gH i) (s₁.H i) (s₂.H i) (-L.m i * s₁.χ i) (-L.m i * s₂.χ i) x hx.ne'
    have a1 : -L.p i * s₁.ψ i + -L.p i * s₂.ψ i = -L.p i * s.ψ i := by rw [h3]; ring
    have b1 : -L.m i * s₁.χ i + -L.m i * s₂.χ i = -L.m i * s.χ i := by rw [h4]; ring
    have a2 : x * (-L.p i * s₁.ψ i) - -L.p i * s₂.ψ i = -L.p i * d.ψ i := by show _ = -L.p i * (x * _ - _); ring
    have b2 : x * (-L.m i * s₁.χ i) - -L.m i * s₂.χ i = -L.m i * d.χ i := by show _ = -L.m i * (x * _ - _); ring
    rw [a1, a2, ← h1] at a
    rw [b1, b2, ← h2] at b
    have a3 : x * s₁.E i - s₂.E i = d.E i := rfl
    have b3 : x * s₁.H i - s₂.H i = d.H i := rfl
    rw [a3] at a
    rw [b3] at b
    have c1 : (1 + x) * s₁.E i ^ 2 + (1 + 1 / x) * s₂.E i ^ 2 - s.E i ^ 2 = 1 / x * d.E i ^ 2 := by
      rw [← a3, h1]; field_simp; ring
    have c2 : (1 + x) * s₁.H i ^ 2 + (1 + 1 / x) * s₂.H i ^ 2 - s.H i ^ 2 = 1 / x * d.H i ^ 2 := by
      rw [← b3, h2]; field_simp; ring
    have c3 : (1 + x) * (upF N s₁.E i * s₁.H i) + (1 + 1 / x) * (upF N s₂.E i * s₂.H i) - upF N s.E i * s.H i = 1 / x * (upF N d.E i * d.H i) := by
      rw [hF, hF', ← b3, h2]; field_simp; ring
    linear_combination (1 / L.p i) * c1 + (2 / L.p i) * a + (1 / L.m i) * c2 + (1 / L.m i) * b - c3
  have : 0 ≤ 1 / x * L.energy N d := by positivity
  linarith

/-- a time step in which `f` is added to the electric field -/
def LinePars.Driven (L : LinePars) (N : ℕ) (f : ℕ → ℝ) (s s' : LineState) : Prop := ∀ i < N,
  s'.ψ i = L.bE i * s.ψ i - L.gE i * lowD s.H i ∧ (1 + L.A i) * s'.E i = (1 - L.A i) * s.E i + L.p i * (lowD s.H i + s'.ψ i) + (1 + L.A i) * f i ∧
  s'.χ i = L.bH i * s.χ i - L.gH i * upF N s'.E i ∧ s'.H i = s.H i + L.m i * (upF N s'.E i + s'.χ i)

/-- a driven step: what is added to the energy -/
lemma LinePars.energy_driven {L : LinePars} {N : ℕ} (hN : 0 < N) (hL : L.Good N) {q R : ℝ} (hq : 0 < q) (hpq : ∀ i < N, (q ≤ L.p i ∧ q ≤ L.m i) ∧ L.p i ≤ 1 ∧ L.m i ≤ 1) (hR : 0 ≤ R)
    (hs : ∀ i < N, L.gE i / (1 - L.gE i - L.bE i) ≤ R ∧ L.gH i / (1 - L.gH i - L.bH i) ≤ R) {f : ℕ → ℝ} (hf : f 0 = 0) {s s' : LineState} (h : L.Settled N s) (hd : L.Driven N f s s') :
    L.Settled N s' ∧ ∀ x, 0 < x → L.energy N s' ≤ (1 + x) * L.energy N s + (1 + 1 / x) * (((1 + R) / q + 1) * ∑ i ∈ range N, f i ^ 2) := by
  let L₀ : LinePars := { L with A := fun _ => 0 }
  have hL₀ : L₀.Good N := fun i hi => ⟨(hL i hi).1, (hL i hi).2.1, le_refl _, (hL i hi).2.2.2.1, (hL i hi).2.2.2.2.1, fun _ => rfl⟩
  let z : LineState := ⟨f, fun _ => 0, fun _ => 0, fun _ => 0⟩
  have hz : L₀.Settled N z := ⟨fun i _ => ⟨fun _ => rfl, fun _ => rfl⟩, hf, rfl, rfl, rfl⟩
  have hz' := hz.move hN hL₀ (L₀.flow_moves hL₀ z)
  have hs₁ := h.move hN hL (L.flow_moves hL s)
  have hD0 : ∀ i, lowD (fun _ => (0 : ℝ)) i = 0 := fun i => by unfold lowD; split_ifs <;> ring
  have ez : ∀ i, (L₀.flow N z).E i = f i := by
    intro i
    show ((1 - 0) * f i + L.p i * (lowD (fun _ => 0) i + (L.bE i * 0 - L.gE i * lowD (fun _ => 0) i))) / (1 + 0) = f i
    rw [hD0]
    ring
  have add : s'.Adds N (L.flow N s) (L₀.flow N z) := by
    have hE : ∀ i < N, s'.E i = (L.flow N s).E i + (L₀.flow N z).E i := by
      intro i hi
      obtain ⟨d1, d2, -, -⟩ := hd i hi
      obtain ⟨m1, m2, -, -⟩ := L.flow_moves hL s i hi
      rw [ez]
      have hA := (hL i hi).2.2.1
      have hA' : (1 + L.A i) ≠ 0 := by positivity
      refine mul_left_cancel₀ hA' ?_
      rw [mul_add, m2, d2, d1, m1]
    have hF : ∀ i < N, upF N s'.E i = upF N (L.flow N s).E i + upF N (L₀.flow N z).E i := by
      intro i hi
      unfold upF
      split_ifs with hN
      · ring
      · rw [hE _ (by omega), hE i hi]; ring
    intro i hi
    obtain ⟨d1, d2, d3, d4⟩ := hd i hi
    have hψ : s'.ψ i = (L.flow N s).ψ i + (L₀.flow N z).ψ i := by
      rw [d1]
      show _ = (L.bE i * s.ψ i - L.gE i * lowD s.H i) + (L.bE i * 0 - L.gE i * lowD (fun _ => 0) i)
      rw [hD0]
      ring
    have hχ : s'.χ i = (L.flow N s).χ i + (L₀.flow N z).χ i := by
      rw [d3, hF i hi]
      show _ = (L.bH i * s.χ i - L.gH i * upF N (L.flow N s).E i) + (L.bH i * 0 - L.gH i * upF N (L₀.flow N z).E i)
      ring
    refine ⟨hE i hi, ?_, hψ, hχ⟩
    rw [d4, hF i hi, hχ]
    show _ = (s.H i + L.m i * (upF N (L.flow N s).E i + (L.flow N s).χ i)) + (0 + L.m i * (upF N (L₀.flow N z).E i + (L₀.flow N z).χ i))
    ring
  constructor
  · refine ⟨fun i hi => ⟨fun hg => ?_, fun hg => ?_⟩, ?_, ?_, ?_, ?_⟩
    · rw [(add i hi).2.2.1, (hs₁.1 i hi).1 hg, (hz'.1 i hi).1 hg, add_zero]
    · rw [(add i hi).2.2.2, (hs₁.1 i hi).2 hg, (hz'.1 i hi).2 hg, add_zero]
    · rw [(add 0 hN).1, hs₁.2.1, hz'.2.1, add_zero]
    · rw [(add (N - 1) (by omega)).2.1, hs₁.2.2.1, hz'.2.2.1, add_zero]
    · rw [(add 0 hN).2.2.1, hs₁.2.2.2.1, hz'.2.2.2.1, add_zero]
    · rw [(add (N - 1) (by omega)).2.2.2, hs₁.2.2.2.2, hz'.2.2.2.2, add_zero]
  · intro x hx
    have h1 := LinePars.energy_add hL (fun i hi => (hpq i hi).2) add hx
    have h2 := LinePars.energy_move hN hL h (L.flow_moves hL s)
    have h3 : L.energy N (L₀.flow N z) ≤ L.energy N z := LinePars.energy_move hN hL₀ hz (L₀.flow_moves hL₀ z)
    have h4 := LinePars.energy_le hL hq (fun i hi => (hpq i hi).1) hR hs z fun i _ => ⟨rfl, rfl⟩
    have h5 : z.size N = ∑ i ∈ range N, f i ^ 2 := by
      unfold LineState.size
      refine sum_congr rfl fun i _ => ?_
      show f i ^ 2 + 0 ^ 2 = f i ^ 2
      ring
    rw [h5] at h4
    have h6 := mul_le_mul_of_nonneg_left h2 (by positivity : (0 : ℝ) ≤ 1 + x)
    have h7 := mul_le_mul_of_nonneg_left (h3.trans h4) (by positivity : (0 : ℝ) ≤ 1 + 1 / x)
    linarith

lemma root_step {w w' φ : ℝ} (hw : 0 ≤ w) (hφ : 0 ≤ φ) (h : ∀ x, 0 < x → w' ≤ (1 + x) * w + (1 + 1 / x) * φ) : √w' ≤ √w + √φ := by
  refine le_of_forall_pos_le_add fun ε hε => ?_
  have ha := Real.sqrt_nonneg w
  have hb := Real.sqrt_nonneg φ
  have ha2 := Real.sq_sqrt hw
  have hb2 := Real.sq_sqrt hφ
  generalize √w = a at *
  generalize √φ = b at *
  have hδ : 0 < ε / 2 := by positivity
  have h1 := h ((b + ε / 2) / (a + ε / 2)) (by positivity)
  have h2 : (1 + (b + ε / 2) / (a + ε / 2)) * w ≤ (1 + (b + ε / 2) / (a + ε / 2)) * (a + ε / 2) ^ 2 := mul_le_mul_of_nonneg_left (by nlinarith) (by positivity)
  have h3 : (1 + 1 / ((b + ε / 2) / (a + ε / 2))) * φ ≤ (1 + 1 / ((b + ε / 2) / (a + ε / 2))) * (b + ε / 2) ^ 2 := mul_le_mul_of_nonneg_left (by nlinarith) (by positivity)
  have h4 : (1 + (b + ε / 2) / (a + ε / 2)) * (a + ε / 2) ^ 2 + (1 + 1 / ((b + ε / 2) / (a + ε / 2))) * (b + ε / 2) ^ 2 = (a + b + ε) ^ 2 := by
    field_simp
    ring
  refine Real.sqrt_le_iff.2 ⟨by positivity, by linarith⟩

/-- what is fed in adds up at most -/
lemma root_growth {w φ : ℕ → ℝ} (hw : ∀ k, 0 ≤ w k) (hφ : ∀ k, 0 ≤ φ k) (h : ∀ k x, 0 < x → w (k + 1) ≤ (1 + x) * w k + (1 + 1 / x) * φ k) (k : ℕ) : √(w k) ≤ √(w 0) + ∑ j ∈ range k, √(φ j) := by
  induction k with
  | zero => simp
  | succ k ih =>
    rw [sum_range_succ]
    have := root_step (hw k) (hφ k) (h k)
    linarith

end Nidn
