/-
C62 (normalisation), C63 (transient removal), C64 (peaks), C68 (detector average), C69 (current detector) and the error of C53.
-/
import Mathlib.Algebra.Order.BigOperators.Group.List
import Mathlib.Data.List.Pairwise
import Mathlib.Data.List.GetD
import Mathlib.Data.Rat.Floor
import Mathlib.Tactic.Ring
import Mathlib.Tactic.FieldSimp
import Mathlib.Tactic.Linarith
import Mathlib.Tactic.NormNum
import Mathlib.Tactic.Positivity
import Verif.Model.FdtdCoefficients
import Verif.Lemmas.Py
import Verif.Props.FdtdSpeed

set_option linter.unusedSectionVars false

namespace Nidn

section
variable {K : Type} [Field K] [LinearOrder K] [IsStrictOrderedRing K]

/-! ### C62 -/

/-- C62, sums below 1.05: at most one, the pair is returned as it is; above one it is scaled to sum one with the ratio kept. -/
theorem C62_partial (t r : K) (h : t + r < 105 / 100) :
    (t + r ≤ 1 → normalizeCoefficients t r = (t, r)) ∧
    (1 < t + r → (normalizeCoefficients t r).1 + (normalizeCoefficients t r).2 = 1 ∧
      (normalizeCoefficients t r).1 * r = (normalizeCoefficients t r).2 * t ∧
      (0 ≤ t → 0 ≤ (normalizeCoefficients t r).1 ∧ (normalizeCoefficients t r).1 ≤ t) ∧ (0 ≤ r → 0 ≤ (normalizeCoefficients t r).2 ∧ (normalizeCoefficients t r).2 ≤ r)) := by
  constructor
  · intro h1
    unfold normalizeCoefficients
    rw [if_neg (fun h2 => absurd h2.1 (not_lt.2 h1)), if_neg (fun h2 => absurd h2.1 (not_lt.2 h1))]
  · intro h1
    have e : normalizeCoefficients t r = (t / (t + r), r / (t + r)) := by
      unfold normalizeCoefficients
      by_cases h2 : t + r < 101 / 100
      · rw [if_pos ⟨h1, h2⟩]
      · rw [if_neg (fun h3 => h2 h3.2), if_pos ⟨h1, h⟩]
    have h0 : (0 : K) < t + r := lt_trans zero_lt_one h1
    rw [e]
    refine ⟨?_, ?_, fun ht => ⟨div_nonneg ht h0.le, ?_⟩, fun hr => ⟨div_nonneg hr h0.le, ?_⟩⟩
    · show t / (t + r) + r / (t + r) = 1
      rw [← add_div, div_self (ne_of_gt h0)]
    · show t / (t + r) * r = r / (t + r) * t
      ring
    · exact div_le_self ht h1.le
    · exact div_le_self hr h1.le

example : (3 / 5 + 43 / 100 : ℚ) < 105 / 100 ∧ (1 : ℚ) < 3 / 5 + 43 / 100 := by norm_num

/-- C62 is false from 1.05 on: the pair is returned unchanged. -/
theorem C62_false (t r : K) (h : 105 / 100 ≤ t + r) : normalizeCoefficients t r = (t, r) ∧ 1 < (normalizeCoefficients t r).1 + (normalizeCoefficients t r).2 := by
  have e : normalizeCoefficients t r = (t, r) := by
    unfold normalizeCoefficients
    have h2 : ¬ t + r < 105 / 100 := not_lt.2 h
    have h3 : ¬ t + r < 101 / 100 := not_lt.2 (le_trans (by norm_num) h)
    rw [if_neg (fun h4 => h3 h4.2), if_neg (fun h4 => h2 h4.2)]
  refine ⟨e, ?_⟩
  rw [e]
  exact lt_of_lt_of_le (by norm_num) h

example : (105 / 100 : ℚ) ≤ 3 / 5 + 3 / 5 := by norm_num

/-! ### C64 -/

/-- C64: the peaks are listed in increasing order and are exactly the interior indices whose sample is larger than both neighbours. -/
theorem C64_peaks (s : List K) :
    (findPeaks s).Pairwise (· < ·) ∧
    ∀ i, i ∈ findPeaks s ↔ ∃ a b c, 1 ≤ i ∧ s[i - 1]? = some a ∧ s[i]? = some b ∧ s[i + 1]? = some c ∧ a < b ∧ c < b := by
  constructor
  · unfold findPeaks
    rw [List.pairwise_map]
    exact (List.Pairwise.filter _ List.pairwise_lt_range).imp fun h => by omega
  · intro i
    unfold findPeaks
    simp only [List.mem_map, List.mem_filter, List.mem_range, Bool.and_eq_true, decide_eq_true_eq, sub_pos]
    constructor
    · rintro ⟨j, ⟨h1, h2, h3⟩, rfl⟩
      refine ⟨s.getD j 0, s.getD (j + 1) 0, s.getD (j + 2) 0, by omega, ?_, ?_, ?_, h2, h3⟩
      · rw [List.getD_eq_getElem _ _ (by omega : j < s.length)]; simp
      · rw [List.getD_eq_getElem _ _ (by omega : j + 1 < s.length)]; simp
      · rw [List.getD_eq_getElem _ _ (by omega : j + 2 < s.length)]
        exact List.getElem?_eq_getElem (by omega : j + 1 + 1 < s.length)
    · rintro ⟨a, b, c, h1, ha, hb, hc, h2, h3⟩
      obtain ⟨j, rfl⟩ : ∃ j, i = j + 1 := ⟨i - 1, by omega⟩
      have hl : j + 1 + 1 < s.length := (List.getElem?_eq_some_iff.1 hc).1
      refine ⟨j, ⟨by omega, ?_, ?_⟩, rfl⟩
      · rw [List.getD_eq_getElem?_getD, List.getD_eq_getElem?_getD, hb]
        simp only [Nat.add_sub_cancel] at ha
        rw [ha]; exact h2
      · rw [List.getD_eq_getElem?_getD, List.getD_eq_getElem?_getD, hb, hc]; exact h3

/-- not vacuous: two peaks -/
example : findPeaks ([0, 2, 1, 1, 3, 0] : List ℚ) = [1, 4] := by decide +kernel

/-! ### C63 -/

lemma length_splitChunks (w : ℕ) (s : List K) : (splitChunks w s).length = (s.length + w - 1) / w := by simp [splitChunks]

lemma length_mergeLast (c : List (List K)) (h : 2 ≤ c.length) : (mergeLast c).length = c.length - 1 := by
  simp [mergeLast]; omega

lemma length_absDiffs (r : List K) : (absDiffs r).length = r.length - 1 := by simp [absDiffs]

lemma chunk_count (len w : ℕ) (hw : 1 ≤ w) (h : 2 * w ≤ len) :
    2 ≤ (len + w - 1) / w ∧ ((len + w - 1) / w - 1) * w < len ∧ ((len + w - 1) / w = 2 ↔ len = 2 * w) := by
  have h1 : 2 ≤ (len + w - 1) / w := by rw [Nat.le_div_iff_mul_le hw]; omega
  have h3 : (len + w - 1) / w * w ≤ len + w - 1 := Nat.div_mul_le_self _ _
  have h4 : len + w - 1 < ((len + w - 1) / w + 1) * w := by
    have := Nat.lt_div_mul_add (a := len + w - 1) hw
    rw [Nat.add_mul, Nat.one_mul]; exact this
  refine ⟨h1, ?_, ?_⟩
  · rw [Nat.sub_mul, Nat.one_mul]; omega
  · constructor
    · intro h5
      rw [h5] at h4 h3
      rcases Nat.lt_or_ge (2 * w) len with h6 | h6
      · omega
      · omega
    · intro h5
      have : (len + w - 1) / w < 3 := by rw [Nat.div_lt_iff_lt_mul hw]; omega
      omega

lemma le_listMax (l : List K) (v : K) (h : v ∈ l) : v ≤ listMax l := by
  have key : ∀ (r : List K) (a : K), a ≤ r.foldl max a ∧ ∀ v ∈ r, v ≤ r.foldl max a := by
    intro r
    induction r with
    | nil => intro a; exact ⟨le_refl _, fun v hv => by cases hv⟩
    | cons x r ih =>
      intro a
      obtain ⟨h1, h2⟩ := ih (max a x)
      refine ⟨le_trans (le_max_left a x) h1, fun v hv => ?_⟩
      rcases List.mem_cons.1 hv with rfl | hv
      · exact le_trans (le_max_right a _) h1
      · exact h2 v hv
  cases l with
  | nil => cases h
  | cons a r =>
    rcases List.mem_cons.1 h with rfl | h
    · exact (key r _).1
    · exact (key r a).2 v h

lemma listMax_mem' (l : List K) (h : l ≠ []) : listMax l ∈ l := by
  have key : ∀ (r : List K) (a : K), r.foldl max a ∈ a :: r := by
    intro r
    induction r with
    | nil => intro a; simp
    | cons x r ih =>
      intro a
      have := ih (max a x)
      rw [List.foldl_cons]
      rcases List.mem_cons.1 this with h | h
      · rw [h]
        rcases max_choice a x with h | h <;> rw [h] <;> simp
      · simp [h]
  cases l with
  | nil => exact absurd rfl h
  | cons a r => exact key r a

lemma scanDown_spec (p : ℕ → Bool) (k : ℕ) (h : ∃ j ≤ k, p j = false) :
    ∃ i ≤ k, scanDown p k = .ok i ∧ p i = false ∧ ∀ j, i < j → j ≤ k → p j = true := by
  induction k with
  | zero =>
    obtain ⟨j, hj, hp⟩ := h
    have : j = 0 := by omega
    subst this
    refine ⟨0, le_refl _, ?_, hp, fun j h1 h2 => by omega⟩
    unfold scanDown
    rw [hp]; rfl
  | succ k ih =>
    by_cases hk : p (k + 1) = true
    · obtain ⟨j, hj, hp⟩ := h
      have hj' : j ≤ k := by
        rcases Nat.lt_or_ge k j with h1 | h1
        · have : j = k + 1 := by omega
          subst this
          rw [hk] at hp; cases hp
        · exact h1
      obtain ⟨i, hi, h1, h2, h3⟩ := ih ⟨j, hj', hp⟩
      refine ⟨i, by omega, ?_, h2, fun j' h4 h5 => ?_⟩
      · show (if p (k + 1) = true then scanDown p k else _) = _
        rw [if_pos hk, h1]
      · rcases Nat.lt_or_ge k j' with h6 | h6
        · have : j' = k + 1 := by omega
          rw [this]; exact hk
        · exact h3 j' h4 h6
    · refine ⟨k + 1, le_refl _, ?_, by simpa using hk, fun j h1 h2 => by omega⟩
      show (if p (k + 1) = true then scanDown p k else _) = _
      rw [if_neg hk]

lemma relBelow_exists (c : List K) (hc : c ≠ []) (thr : K) (ht : thr < 1) : ∃ j ≤ c.length - 1, relBelow c thr j = false := by
  by_cases hm : listMax c = 0
  · exact ⟨0, by omega, by unfold relBelow; rw [if_pos hm]⟩
  · obtain ⟨j, hj, he⟩ := List.getElem_of_mem (listMax_mem' c hc)
    refine ⟨j, by omega, ?_⟩
    unfold relBelow
    rw [if_neg hm, List.getD_eq_getElem _ _ hj, he, div_self hm]
    simpa using ht.le

/-- the changes of range between consecutive windows (lines 317-340) -/
def changeOf (w : ℕ) (s : List K) : List K := absDiffs ((mergeLast (splitChunks w s)).map chunkRange)

lemma cutTransient_ok (w : ℕ) (hw : 1 ≤ w) (thr : K) (ht : thr < 1) (s : List K) (hs : 2 * w < s.length) :
    ∃ k, cutTransient w thr s = .ok (s.drop ((k + 1) * w)) ∧ w < (s.drop ((k + 1) * w)).length ∧ k + 1 ≤ (changeOf w s).length ∧
      relBelow (changeOf w s) thr k = false ∧ ∀ j, k < j → j < (changeOf w s).length → relBelow (changeOf w s) thr j = true := by
  obtain ⟨h1, h2, h3⟩ := chunk_count s.length w hw hs.le
  set m := (s.length + w - 1) / w with hm
  have hm3 : 3 ≤ m := by
    rcases Nat.lt_or_ge m 3 with h | h
    · have := h3.1 (by omega); omega
    · exact h
  have hl : (changeOf w s).length = m - 2 := by
    unfold changeOf
    rw [length_absDiffs, List.length_map, length_mergeLast _ (by rw [length_splitChunks]; omega), length_splitChunks]
    omega
  have hne : changeOf w s ≠ [] := by
    intro h
    rw [h] at hl
    simp at hl; omega
  obtain ⟨i, hi, e1, e2, e3⟩ := scanDown_spec (relBelow (changeOf w s) thr) ((changeOf w s).length - 1) (relBelow_exists _ hne thr ht)
  refine ⟨i, ?_, ?_, by omega, e2, fun j hj1 hj2 => e3 j hj1 (by omega)⟩
  · unfold cutTransient
    rw [if_neg (by omega)]
    show (if changeOf w s = [] then _ else (scanDown (relBelow (changeOf w s) thr) ((changeOf w s).length - 1)).map _) = _
    rw [if_neg hne, e1]
    rfl
  · rw [List.length_drop]
    have h5 : (i + 1) * w ≤ (m - 2) * w := Nat.mul_le_mul_right _ (by omega)
    have h6 : (m - 1) * w = (m - 2) * w + w := by
      have : m - 1 = (m - 2) + 1 := by omega
      rw [this, Nat.add_mul, Nat.one_mul]
    omega

/-- C63 for signals that, after the leading zeros, are longer than two windows: transient removal does not fail and returns a tail of the signal with more than one window.
Partial: for exactly two windows it is false (`C63_false`). -/
theorem C63_tail_partial (w : ℕ) (hw : 1 ≤ w) (free : Bool) (s : List K) (hs : 2 * w < (s.drop (firstNonZero s)).length) :
    ∃ j, eliminateTransient w free s = .ok (s.drop j) ∧ firstNonZero s + w ≤ j ∧ w < (s.drop j).length := by
  obtain ⟨k, h1, h2, h3⟩ := cutTransient_ok w hw (if free then 1 / 2 else 1 / 10) (by split_ifs <;> norm_num) (s.drop (firstNonZero s)) hs
  refine ⟨firstNonZero s + (k + 1) * w, ?_, ?_, ?_⟩
  · unfold eliminateTransient
    simp only
    rw [if_neg (by omega), h1, List.drop_drop]
  · have : 1 * w ≤ (k + 1) * w := Nat.mul_le_mul_right _ (by omega)
    omega
  · rw [← List.drop_drop]; exact h2

lemma firstNonZero_small (s : List K) : ∀ v ∈ s.take (firstNonZero s), |v| ≤ 1 / 10 ^ 8 := by
  intro v hv
  unfold firstNonZero at hv
  cases h : s.findIdx? fun v => decide (1 / 10 ^ 8 < |v|) with
  | none => rw [h] at hv; simp at hv
  | some i =>
    rw [h] at hv
    simp only [Option.getD_some] at hv
    obtain ⟨j, hj, rfl⟩ := List.getElem_of_mem hv
    rw [List.findIdx?_eq_some_iff_getElem] at h
    obtain ⟨hi, -, h2⟩ := h
    have hji : j < i := by
      rw [List.length_take] at hj; omega
    have := h2 j hji
    simp only [decide_eq_true_eq, not_lt] at this
    rw [List.getElem_take]
    exact this

/-- C63 for short signals: less than two windows after the leading zeros; only samples of at most 1e-8 at the beginning are removed, and it does not fail. -/
theorem C63_short (w : ℕ) (free : Bool) (s : List K) (hs : (s.drop (firstNonZero s)).length < 2 * w) :
    eliminateTransient w free s = .ok (s.drop (firstNonZero s)) ∧ ∀ v ∈ s.take (firstNonZero s), |v| ≤ 1 / 10 ^ 8 :=
  ⟨if_pos hs, firstNonZero_small s⟩

/-- C63 is false of signals with exactly two windows after the leading zeros: there is one chunk and no change to take the maximum of, and torch raises a RuntimeError. -/
theorem C63_false (w : ℕ) (hw : 1 ≤ w) (free : Bool) (s : List K) (hs : (s.drop (firstNonZero s)).length = 2 * w) :
    eliminateTransient w free s = .error .runtimeError := by
  obtain ⟨h1, h2, h3⟩ := chunk_count (s.drop (firstNonZero s)).length w hw hs.ge
  unfold eliminateTransient
  simp only
  rw [if_neg (by omega)]
  unfold cutTransient
  rw [if_neg (by omega)]
  have hl : (changeOf w (s.drop (firstNonZero s))).length = 0 := by
    unfold changeOf
    rw [length_absDiffs, List.length_map, length_mergeLast _ (by rw [length_splitChunks]; omega), length_splitChunks, h3.2 hs]
  exact if_pos (List.length_eq_zero_iff.1 hl)

/-- C63 is false of a signal of two windows that starts with zeros: less than a window may remain. -/
theorem C63_zeros_false : eliminateTransient 2 true ([0, 0, 0, 0, 0, 0, 1] : List ℚ) = .ok [1] := by decide +kernel

/-- not vacuous: a decaying start is cut off -/
example : 2 * 2 < (([9, 0, 1, 0, 1, 0, 1, 0] : List ℚ).drop (firstNonZero ([9, 0, 1, 0, 1, 0, 1, 0] : List ℚ))).length ∧
    eliminateTransient 2 false ([9, 0, 1, 0, 1, 0, 1, 0] : List ℚ) = .ok [1, 0, 1, 0, 1, 0] := by decide +kernel

/-! ### C68 -/

lemma foldl_average (n : K) (l : List (Fin 3 → K)) (a : K) : l.foldl (fun s p => s + p 2 / n) a = a + (l.map fun p => p 2).sum / n := by
  induction l generalizing a with
  | nil => simp
  | cons p l ih => rw [List.foldl_cons, ih, List.map_cons, List.sum_cons]; ring

/-- C68: the derived signal has one value per recorded step, the mean of the z component over the detector's cells. -/
theorem C68_mean (rec : List (List (Fin 3 → K))) :
    (detectorSignal rec).length = rec.length ∧
    ∀ (i : ℕ) (points : List (Fin 3 → K)), rec[i]? = some points → (detectorSignal rec)[i]? = some ((points.map fun p => p 2).sum / (points.length : K)) := by
  refine ⟨by simp [detectorSignal], fun i points h => ?_⟩
  unfold detectorSignal
  rw [List.getElem?_map, h]
  show some (averageStep points) = _
  unfold averageStep
  rw [foldl_average, zero_add]

lemma averageStep_eq (points : List (Fin 3 → K)) : averageStep points = (points.map fun p => p 2).sum / (points.length : K) := by
  unfold averageStep
  rw [foldl_average, zero_add]

/-- C68: linear in the field, and the common value for a uniform field -/
theorem C68_linear (cells : List Pos) (E F : VField K) (a b : K) :
    averageStep (cells.map fun p => fun c => a * E p c + b * F p c) = a * averageStep (cells.map fun p => E p) + b * averageStep (cells.map fun p => F p) := by
  rw [averageStep_eq, averageStep_eq, averageStep_eq]
  simp only [List.map_map, List.length_map]
  have : ∀ l : List Pos, (l.map ((fun p : Fin 3 → K => p 2) ∘ fun p => fun c => a * E p c + b * F p c)).sum
      = a * (l.map ((fun p : Fin 3 → K => p 2) ∘ fun p => E p)).sum + b * (l.map ((fun p : Fin 3 → K => p 2) ∘ fun p => F p)).sum := by
    intro l
    induction l with
    | nil => simp
    | cons p l ih => simp only [List.map_cons, List.sum_cons, ih, Function.comp]; ring
  rw [this]; ring

theorem C68_uniform (cells : List Pos) (hc : cells ≠ []) (E : VField K) (v : K) (h : ∀ p ∈ cells, E p 2 = v) :
    averageStep (cells.map fun p => E p) = v := by
  rw [averageStep_eq]
  simp only [List.map_map, List.length_map]
  have : cells.map ((fun p : Fin 3 → K => p 2) ∘ fun p => E p) = List.replicate cells.length v := by
    rw [List.eq_replicate_iff]
    refine ⟨by simp, fun x hx => ?_⟩
    obtain ⟨p, hp, rfl⟩ := List.mem_map.1 hx
    exact h p hp
  rw [this, List.sum_replicate, nsmul_eq_mul]
  have hn : (cells.length : K) ≠ 0 := by
    have : cells.length ≠ 0 := by rwa [ne_eq, List.length_eq_zero_iff]
    exact_mod_cast this
  field_simp

/-! ### C53: the error -/

lemma meanSquare_zero (s : List K) (h : ∀ v ∈ s, v = 0) : meanSquare s = 0 := by
  unfold meanSquare
  have : (s.map fun v => v ^ 2).sum = 0 := List.sum_eq_zero fun x hx => by
    obtain ⟨v, hv, rfl⟩ := List.mem_map.1 hx
    rw [h v hv]; simp
  rw [this, zero_div]

/-- an all-zero free-space signal makes the coefficient computation raise its ValueError -/
lemma coefficients_zero (w : ℕ) (t0 t1 r0 r1 : List K) (h0 : t0 ≠ []) (hz : ∀ v ∈ t0, v = 0) (hl : r1.length = r0.length) :
    coefficients w t0 t1 r0 r1 = .error .valueError := by
  unfold coefficients subSignals
  rw [if_pos hl, ok_bind]
  have : checkAllZero t0 = .error .valueError := by
    unfold checkAllZero
    rw [if_pos ⟨h0, by rw [meanSquare_zero t0 hz]; positivity⟩]
  rw [this, error_bind]

/-- C53, the error: a detector at least `k` planes away from all sources and absorbing layers yields, after `k ≥ 1` steps, a signal for which the coefficient computation raises a
ValueError, whatever the other signals are. -/
theorem C53_error (a : Fin 3) (A : ℕ → Prop) (g g' : FGrid K) (hg : Dark g) (h : Extended a A g g') (k : ℕ) (hk : 1 ≤ k) (d0 : FDetector K) (hd : d0 ∈ g'.detectors)
    (hfar : ∀ p ∈ d0.cells, ∀ s, A s → p a + k ≤ s ∨ s + k ≤ p a) (h0 : d0.recE = []) (w : ℕ) (t1 r0 r1 : List K) (hl : r1.length = r0.length) :
    ∃ d ∈ (g'.run k).detectors, d.cells = d0.cells ∧ coefficients w (detectorSignal d.recE) t1 r0 r1 = .error .valueError := by
  obtain ⟨d, hd1, hd2, hd3, hd4⟩ := C53_detector g g' hg h k d0 hd hfar h0
  refine ⟨d, hd1, hd2, coefficients_zero w _ t1 r0 r1 ?_ ?_ hl⟩
  · intro he
    have := congrArg List.length he
    simp [detectorSignal] at this
    rw [this] at hd3
    simp at hd3; omega
  · intro v hv
    obtain ⟨x, hx, rfl⟩ := List.mem_map.1 hv
    rw [averageStep_eq]
    have : (x.map fun p => p 2).sum = 0 := List.sum_eq_zero fun y hy => by
      obtain ⟨p, hp, rfl⟩ := List.mem_map.1 hy
      exact hd4 x hx p hp 2
    rw [this, zero_div]

end

/-! ### C69 -/

section
variable {K : Type} [Field K]

/-- specification: the current through the square of H values around cell `p` (Ampère's law, z direction) -/
def loopCurrent (spacing : K) (H : VField K) (p : Pos) : K :=
  (H p 1 - H (p.dn 0) 1) * spacing - (H p 0 - H (p.dn 1) 0) * spacing

/-- C69, what is true: the reported value is the average of the two loops plus half the y part of the upper one, which is counted twice; it vanishes for uniform fields. -/
theorem C69_partial (spacing : K) (H : VField K) (p : Pos) :
    pointCurrent spacing H p = (loopCurrent spacing H p + loopCurrent spacing H (p.dn 2)) / 2 + (H p 1 - H (p.dn 0) 1) * spacing / 2 ∧
    ((∀ q c, H q c = H p c) → pointCurrent spacing H p = 0) := by
  constructor
  · unfold pointCurrent loopCurrent
    ring
  · intro h
    unfold pointCurrent
    simp only
    rw [h (p.dn 1) 0, h (p.dn 0) 1, h ((p.dn 2).dn 1) 0, h (p.dn 2) 0, h (p.dn 2) 1, h ((p.dn 2).dn 0) 1]
    simp

/-- C69 is false: with H_y growing by one per cell in x (a uniform current density), the detector reports one and a half times the average of the two loops. -/
theorem C69_false : ∃ (H : VField ℚ) (p : Pos), (∀ i, 1 ≤ p i) ∧ (loopCurrent 1 H p + loopCurrent 1 H (p.dn 2)) / 2 = 1 ∧ pointCurrent 1 H p = 3 / 2 := by
  refine ⟨fun q c => if c = 1 then (q 0 : ℚ) else 0, ![1, 1, 1], by decide, ?_, ?_⟩ <;> decide +kernel

end

end Nidn
