/-
Facts on the analytic signal: it is the signal plus an imaginary part, and it moves with the signal.
-/
import Verif.Model.FdtdArrival
import Mathlib.Algebra.Field.GeomSum

namespace Nidn

lemma dftPhase_add (N k : ℕ) (a b : ℤ) : dftPhase N k (a + b) = dftPhase N k a * dftPhase N k b := by
  unfold dftPhase
  rw [← Complex.exp_add]
  congr 1
  push_cast
  ring

lemma dftPhase_period {N : ℕ} (hN : N ≠ 0) (k : ℕ) : dftPhase N k N = 1 := by
  unfold dftPhase
  rw [← Complex.exp_nat_mul_two_pi_mul_I k]
  congr 1
  have : (N : ℂ) ≠ 0 := by exact_mod_cast hN
  field_simp
  push_cast
  ring

lemma dftPhase_pow (N k : ℕ) (m : ℤ) : dftPhase N k m = dftPhase N 1 m ^ k := by
  unfold dftPhase
  rw [← Complex.exp_nat_mul]
  congr 1
  push_cast
  ring

lemma dftPhase_one_pow {N : ℕ} (hN : N ≠ 0) (m : ℤ) : dftPhase N 1 m ^ N = 1 := by
  unfold dftPhase
  rw [← Complex.exp_nat_mul, Complex.exp_eq_one_iff]
  refine ⟨m, ?_⟩
  have : (N : ℂ) ≠ 0 := by exact_mod_cast hN
  field_simp
  push_cast
  ring

lemma dftPhase_norm (N k : ℕ) (m : ℤ) : dftPhase N k m * dftPhase N k (-m) = 1 := by
  rw [← dftPhase_add, add_neg_cancel]
  simp [dftPhase]

/-- the real part is even in the frequency -/
lemma dftPhase_reflect {N : ℕ} (hN : N ≠ 0) {k : ℕ} (hk : k ≤ N) (m : ℤ) : (dftPhase N (N - k) m).re = (dftPhase N k m).re := by
  have h1 : dftPhase N (N - k) m = dftPhase N k (-m) := by
    have h := dftPhase_one_pow hN m
    rw [dftPhase_pow]
    have hz : dftPhase N k m ≠ 0 := by simp [dftPhase, Complex.exp_ne_zero]
    have h2 : dftPhase N 1 m ^ (N - k) * dftPhase N k m = 1 := by
      rw [dftPhase_pow N k, ← pow_add, Nat.sub_add_cancel hk, h]
    have h3 := dftPhase_norm N k m
    apply mul_left_cancel₀ hz
    rw [h3, mul_comm, h2]
  rw [h1]
  have e : ∀ m : ℤ, dftPhase N k m = Complex.exp (((2 * Real.pi * k * m / N : ℝ) : ℂ) * Complex.I) := fun m => by
    unfold dftPhase
    congr 1
    push_cast
    ring
  rw [e, e, Complex.exp_ofReal_mul_I_re, Complex.exp_ofReal_mul_I_re, ← Real.cos_neg]
  congr 1
  push_cast
  ring

lemma hilbertWeight_reflect {N k : ℕ} (h0 : 0 < k) (hk : k < N) : hilbertWeight N k + hilbertWeight N (N - k) = 2 := by
  unfold hilbertWeight
  rw [if_neg (by omega), if_neg (by omega : ¬ N - k = 0)]
  rcases lt_trichotomy (2 * k) N with h | h | h
  · rw [if_pos h, if_neg (by omega), if_neg (by omega)]; norm_num
  · rw [if_neg (by omega), if_pos h, if_neg (by omega), if_pos (by omega)]; norm_num
  · rw [if_neg (by omega), if_neg (by omega), if_pos (by omega)]; norm_num

/-- dropping the negative frequencies and doubling the positive ones keeps the real part -/
lemma weighted_sum (n : ℕ) (c : ℕ → ℝ) (hc : ∀ k ≤ n + 1, c (n + 1 - k) = c k) :
    ∑ k ∈ Finset.range (n + 1), hilbertWeight (n + 1) k * c k = ∑ k ∈ Finset.range (n + 1), c k := by
  rw [Finset.sum_range_succ', Finset.sum_range_succ' c]
  have h0 : hilbertWeight (n + 1) 0 = 1 := by simp [hilbertWeight]
  rw [h0, one_mul]
  congr 1
  have h1 := Finset.sum_range_reflect (fun k => hilbertWeight (n + 1) (k + 1) * c (k + 1)) n
  have h2 : ∑ j ∈ Finset.range n, hilbertWeight (n + 1) (n - 1 - j + 1) * c (n - 1 - j + 1) = ∑ j ∈ Finset.range n, hilbertWeight (n + 1) (n + 1 - (j + 1)) * c (j + 1) := by
    refine Finset.sum_congr rfl fun j hj => ?_
    have hj := Finset.mem_range.1 hj
    have e : n - 1 - j + 1 = n + 1 - (j + 1) := by omega
    rw [e, hc _ (by omega)]
  rw [h2] at h1
  have h3 : ∑ j ∈ Finset.range n, hilbertWeight (n + 1) (n + 1 - (j + 1)) * c (j + 1) + ∑ j ∈ Finset.range n, hilbertWeight (n + 1) (j + 1) * c (j + 1) = 2 * ∑ j ∈ Finset.range n, c (j + 1) := by
    rw [← Finset.sum_add_distrib, Finset.mul_sum]
    refine Finset.sum_congr rfl fun j hj => ?_
    have hj := Finset.mem_range.1 hj
    rw [← add_mul, add_comm (hilbertWeight (n + 1) (n + 1 - (j + 1))), hilbertWeight_reflect (by omega) (by omega)]
  linarith

lemma phase_sum {N : ℕ} (hN : N ≠ 0) {m : ℤ} (h1 : m < N) (h2 : -N < m) : ∑ k ∈ Finset.range N, dftPhase N k m = if m = 0 then (N : ℂ) else 0 := by
  split_ifs with h0
  · subst h0
    simp [dftPhase]
  · have hz : dftPhase N 1 m ≠ 1 := by
      intro h
      unfold dftPhase at h
      obtain ⟨q, hq⟩ := Complex.exp_eq_one_iff.1 h
      have hNc : (N : ℂ) ≠ 0 := by exact_mod_cast hN
      have hp := Complex.two_pi_I_ne_zero
      have : (m : ℂ) = q * N := by
        rw [div_eq_iff hNc] at hq
        have : 2 * (Real.pi : ℂ) * Complex.I * m = 2 * Real.pi * Complex.I * (q * N) := by
          rw [Nat.cast_one, mul_one] at hq
          rw [hq]; ring
        exact mul_left_cancel₀ hp this
      have hm : m = q * N := by exact_mod_cast this
      have hNp : (0 : ℤ) < N := by exact_mod_cast Nat.pos_of_ne_zero hN
      rcases lt_trichotomy q 0 with hq | hq | hq
      · nlinarith
      · rw [hq, zero_mul] at hm; exact h0 hm
      · nlinarith
    have hs := geom_sum_mul (dftPhase N 1 m) N
    rw [dftPhase_one_pow hN, sub_self] at hs
    have := (mul_eq_zero.1 hs).resolve_right (sub_ne_zero.2 hz)
    rw [← this]
    exact Finset.sum_congr rfl fun k _ => dftPhase_pow N k m

/-- The real part of the analytic signal is the signal. -/
lemma analyticSignal_re {N : ℕ} (x : ℕ → ℝ) {t : ℕ} (ht : t < N) : (analyticSignal N x t).re = x t := by
  obtain ⟨n, rfl⟩ : ∃ n, N = n + 1 := ⟨N - 1, by omega⟩
  have hN : n + 1 ≠ 0 := by omega
  have e : analyticSignal (n + 1) x t = ∑ u ∈ Finset.range (n + 1), (x u : ℂ) * (((1 / ((n + 1 : ℕ) : ℝ) : ℝ) : ℂ) * ∑ k ∈ Finset.range (n + 1), (hilbertWeight (n + 1) k : ℂ) * dftPhase (n + 1) k (t - u)) := by
    unfold analyticSignal
    simp only [Finset.mul_sum, Finset.sum_mul]
    rw [Finset.sum_comm]
    refine Finset.sum_congr rfl fun u _ => Finset.sum_congr rfl fun k _ => ?_
    rw [sub_eq_add_neg, dftPhase_add]
    push_cast
    ring
  rw [e, Complex.re_sum]
  have hre : ∀ u ∈ Finset.range (n + 1), ((x u : ℂ) * (((1 / ((n + 1 : ℕ) : ℝ) : ℝ) : ℂ) * ∑ k ∈ Finset.range (n + 1), (hilbertWeight (n + 1) k : ℂ) * dftPhase (n + 1) k (t - u))).re = if u = t then x u else 0 := by
    intro u hu
    have hu := Finset.mem_range.1 hu
    rw [Complex.re_ofReal_mul, Complex.re_ofReal_mul, Complex.re_sum]
    have : ∑ k ∈ Finset.range (n + 1), ((hilbertWeight (n + 1) k : ℂ) * dftPhase (n + 1) k (t - u)).re = if u = t then ((n + 1 : ℕ) : ℝ) else 0 := by
      simp only [Complex.re_ofReal_mul]
      rw [weighted_sum n _ fun k hk => dftPhase_reflect hN hk _, ← Complex.re_sum, phase_sum hN (by omega) (by omega)]
      by_cases h : u = t
      · subst h
        simp
      · rw [if_neg (by omega), if_neg h]; simp
    rw [this]
    by_cases h : u = t
    · rw [if_pos h, if_pos h, one_div, inv_mul_cancel₀ (by positivity), mul_one]
    · rw [if_neg h, if_neg h, mul_zero, mul_zero]
  rw [Finset.sum_congr rfl hre, Finset.sum_ite_eq' , if_pos (Finset.mem_range.2 ht)]

/-- the spectrum of a delayed signal -/
lemma dft_delay {N s : ℕ} (hs : s ≤ N) (x y : ℕ → ℝ) (h0 : ∀ u < s, y u = 0) (h1 : ∀ u < N - s, y (u + s) = x u) (h2 : ∀ u < N, N - s ≤ u → x u = 0) (k : ℕ) :
    ∑ u ∈ Finset.range N, (y u : ℂ) * dftPhase N k (-u) = (∑ u ∈ Finset.range N, (x u : ℂ) * dftPhase N k (-u)) * dftPhase N k (-s) := by
  have a : ∀ f : ℕ → ℂ, ∑ u ∈ Finset.range N, f u = ∑ u ∈ Finset.range s, f u + ∑ u ∈ Finset.range (N - s), f (s + u) := fun f => by
    rw [← Finset.sum_range_add, Nat.add_sub_cancel' hs]
  have b : ∀ f : ℕ → ℂ, ∑ u ∈ Finset.range N, f u = ∑ u ∈ Finset.range (N - s), f u + ∑ u ∈ Finset.range s, f (N - s + u) := fun f => by
    rw [← Finset.sum_range_add, Nat.sub_add_cancel hs]
  rw [a, b, Finset.sum_eq_zero fun u hu => by rw [h0 u (Finset.mem_range.1 hu), Complex.ofReal_zero, zero_mul], zero_add,
    Finset.sum_eq_zero (s := Finset.range s) fun u hu => by
      have := Finset.mem_range.1 hu
      rw [h2 (N - s + u) (by omega) (by omega), Complex.ofReal_zero, zero_mul], add_zero, Finset.sum_mul]
  refine Finset.sum_congr rfl fun u hu => ?_
  rw [add_comm s u, h1 u (Finset.mem_range.1 hu), mul_assoc, ← dftPhase_add]
  congr 2
  push_cast
  ring

/-- A signal that is delayed by `s` steps and has died out `s` steps before the end has the delayed analytic signal. -/
lemma analyticSignal_delay {N s : ℕ} (hs : s ≤ N) (x y : ℕ → ℝ) (h0 : ∀ u < s, y u = 0) (h1 : ∀ u < N - s, y (u + s) = x u) (h2 : ∀ u < N, N - s ≤ u → x u = 0) (t : ℕ) :
    analyticSignal N y (t + s) = analyticSignal N x t := by
  unfold analyticSignal
  congr 1
  refine Finset.sum_congr rfl fun k _ => ?_
  rw [dft_delay hs x y h0 h1 h2, mul_assoc, mul_assoc, mul_assoc, ← dftPhase_add]
  congr 3
  push_cast
  ring

/-- The part of the delayed analytic signal before the delay is what was in the last steps. -/
lemma analyticSignal_wrap {N s : ℕ} (hs : s ≤ N) (x y : ℕ → ℝ) (h0 : ∀ u < s, y u = 0) (h1 : ∀ u < N - s, y (u + s) = x u) (h2 : ∀ u < N, N - s ≤ u → x u = 0) {t : ℕ} (ht : t < s) :
    analyticSignal N y t = analyticSignal N x (t + N - s) := by
  have hN : N ≠ 0 := by omega
  unfold analyticSignal
  congr 1
  refine Finset.sum_congr rfl fun k _ => ?_
  rw [dft_delay hs x y h0 h1 h2, mul_assoc, mul_assoc, mul_assoc]
  have e2 : ((t + N - s : ℕ) : ℤ) = -s + t + N := by omega
  rw [e2, dftPhase_add N k (-s + t), dftPhase_period hN, mul_one, dftPhase_add]

end Nidn
