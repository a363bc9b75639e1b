import Verif.Model.Units
import Mathlib.Tactic.Linarith
import Mathlib.Tactic.FieldSimp
import Mathlib.Tactic.Positivity
import Mathlib.Tactic.GCongr
import Mathlib.Tactic.NormNum
import Mathlib.Tactic.Ring

namespace Nidn

lemma unit_pos : (0 : ℝ) < UNIT_MAGNITUDE := by unfold UNIT_MAGNITUDE; norm_num

lemma pyDiv_ok {a b : ℝ} (h : b ≠ 0) : pyDiv a b = .ok (a / b) := by simp [pyDiv, h]

lemma npLinspace_length (a b : ℝ) (n : ℕ) : (npLinspace a b n).length = n := by simp [npLinspace]

lemma npLinspace_get (a b : ℝ) (n i : ℕ) (h : i < (npLinspace a b n).length) :
    (npLinspace a b n)[i] = if n ≤ 1 then a else a + i * ((b - a) / ((n : ℝ) - 1)) := by
  simp [npLinspace]

lemma npLinspace_step (a b : ℝ) (n i : ℕ) (h : i + 1 < (npLinspace a b n).length) :
    (npLinspace a b n)[i + 1] - (npLinspace a b n)[i] = (b - a) / ((n : ℝ) - 1) := by
  have hn : ¬ n ≤ 1 := by rw [npLinspace_length] at h; omega
  rw [npLinspace_get, npLinspace_get]; simp [hn]; ring

lemma npLinspace_mono {a b : ℝ} (hab : a ≤ b) (n : ℕ) : (npLinspace a b n).Pairwise (· ≤ ·) := by
  rw [List.pairwise_iff_getElem]
  intro i j hi hj hij
  rw [npLinspace_length] at hi hj
  have hn : ¬ n ≤ 1 := by omega
  rw [npLinspace_get, npLinspace_get]; simp only [hn, if_false]
  have h1 : (0 : ℝ) < (n : ℝ) - 1 := by
    have : (1 : ℝ) < n := by exact_mod_cast (by omega : 1 < n)
    linarith
  have h2 : 0 ≤ (b - a) / ((n : ℝ) - 1) := div_nonneg (by linarith) h1.le
  have h3 : (i : ℝ) ≤ j := by exact_mod_cast hij.le
  nlinarith

lemma npLinspace_mem {a b : ℝ} (hab : a ≤ b) {n : ℕ} {x : ℝ} (hx : x ∈ npLinspace a b n) :
    a ≤ x ∧ x ≤ b := by
  obtain ⟨i, hi, rfl⟩ := List.getElem_of_mem hx
  rw [npLinspace_get]
  rw [npLinspace_length] at hi
  split
  · exact ⟨le_refl _, hab⟩
  · rename_i hn
    have h1 : (0 : ℝ) < (n : ℝ) - 1 := by
      have : (1 : ℝ) < n := by exact_mod_cast (by omega : 1 < n)
      linarith
    have h2 : 0 ≤ (b - a) / ((n : ℝ) - 1) := div_nonneg (by linarith) h1.le
    have h3 : (i : ℝ) ≤ (n : ℝ) - 1 := by
      have : (i : ℝ) + 1 ≤ n := by exact_mod_cast hi
      linarith
    have h4 : ((n : ℝ) - 1) * ((b - a) / ((n : ℝ) - 1)) = b - a := by field_simp
    have h5 : (0 : ℝ) ≤ i := by positivity
    constructor
    · nlinarith
    · nlinarith

lemma npLinspace_first (a b : ℝ) {n : ℕ} (h : 0 < (npLinspace a b n).length) :
    (npLinspace a b n)[0] = a := by
  rw [npLinspace_get]; split <;> simp

lemma npLinspace_last (a b : ℝ) {n : ℕ} (hn : 2 ≤ n) (h : n - 1 < (npLinspace a b n).length) :
    (npLinspace a b n)[n - 1] = b := by
  rw [npLinspace_get]
  have h0 : ¬ n ≤ 1 := by omega
  have h1 : (n : ℝ) - 1 ≠ 0 := by
    have : (1 : ℝ) < n := by exact_mod_cast (by omega : 1 < n)
    linarith
  have h2 : ((n - 1 : ℕ) : ℝ) = (n : ℝ) - 1 := by
    rw [Nat.cast_sub (by omega)]; simp
  simp only [h0, if_false, h2]; field_simp; ring

end Nidn
