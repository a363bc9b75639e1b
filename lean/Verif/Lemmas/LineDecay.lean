/-
A line of cells that begins with an absorbing layer forgets: undriven it decays exponentially, and driven by an oscillation it tends to an oscillation. Used for C180.
-/
import Verif.Lemmas.LayerEnergy
import Verif.Lemmas.Decay

open Finset

namespace Nidn

/-! ### What a step loses -/

lemma LinePars.energy_loss {L : LinePars} {N : ℕ} (hN : 0 < N) (hL : L.Good N) {s s' : LineState} (h : L.Settled N s) (hm : L.Moves N s s') :
    L.energy N s' + ∑ i ∈ range N, (L.bE i / (2 * L.gE i) * L.p i * (s.ψ i + s'.ψ i) ^ 2 + L.bH i / (2 * L.gH i) * L.m i * (s.χ i + s'.χ i) ^ 2) ≤ L.energy N s := by
  have h' := h.move hN hL hm
  have hc : L.energy N s' + ∑ i ∈ range N, (L.bE i / (2 * L.gE i) * L.p i * (s.ψ i + s'.ψ i) ^ 2 + L.bH i / (2 * L.gH i) * L.m i * (s.χ i + s'.χ i) ^ 2) - L.energy N s
      ≤ ∑ i ∈ range N, ((fun i => s.E i + s'.E i) i * lowD s.H i + s.H i * upF N (fun i => s.E i + s'.E i) i) := by
    unfold LinePars.energy
    rw [← sum_add_distrib, ← sum_sub_distrib]
    refine sum_le_sum fun i hi => ?_
    have hi := mem_range.mp hi
    obtain ⟨m1, m2, m3, m4⟩ := hm i hi
    obtain ⟨l1, l2, l3, l4, l5, l6⟩ := hL i hi
    have a : (s'.E i ^ 2 + 2 * storeE (L.bE i) (L.gE i) (s'.E i) (-L.p i * s'.ψ i)) / L.p i - (s.E i ^ 2 + 2 * storeE (L.bE i) (L.gE i) (s.E i) (-L.p i * s.ψ i)) / L.p i
        ≤ (s'.E i + s.E i) * lowD s.H i - L.bE i / (2 * L.gE i) * L.p i * (s.ψ i + s'.ψ i) ^ 2 := by
      by_cases h0 : L.gE i = 0
      · have := cellE_le l4 l1 l3 l6 (h.1 i hi).1 m1 m2
        have e : L.bE i / (2 * L.gE i) = 0 := by rw [h0]; simp
        rw [e]; linarith
      · have k : 0 < L.gE i ∧ 0 ≤ L.bE i ∧ L.bE i < 1 - L.gE i := l4.resolve_left h0
        have h4 : (1 - L.gE i - L.bE i) ≠ 0 := by
          have : 0 < 1 - L.gE i - L.bE i := by linarith [k.2.2]
          exact this.ne'
        rw [l6 h0] at m2
        rw [cellE_memory h0 h4 l1.ne' m1 (by linarith)]
    have b : ((s'.H i ^ 2 + storeH (L.bH i) (L.gH i) (s'.H i) (-L.m i * s'.χ i)) / L.m i - upF N s'.E i * s'.H i) - ((s.H i ^ 2 + storeH (L.bH i) (L.gH i) (s.H i) (-L.m i * s.χ i)) / L.m i - upF N s.E i * s.H i)
        ≤ s.H i * (upF N s.E i + upF N s'.E i) - L.bH i / (2 * L.gH i) * L.m i * (s.χ i + s'.χ i) ^ 2 := by
      by_cases h0 : L.gH i = 0
      · have := cellH_le (F := upF N s.E i) l5 l2 (h.1 i hi).2 m3 m4
        have e : L.bH i / (2 * L.gH i) = 0 := by rw [h0]; simp
        rw [e]; linarith
      · have k : 0 < L.gH i ∧ 0 ≤ L.bH i ∧ L.bH i < 1 - L.gH i := l5.resolve_left h0
        have h4 : (1 - L.gH i - L.bH i) ≠ 0 := by
          have : 0 < 1 - L.gH i - L.bH i := by linarith [k.2.2]
          exact this.ne'
        rw [cellH_memory h0 h4 l2.ne' m3 m4]
    have c : upF N (fun i => s.E i + s'.E i) i = upF N s.E i + upF N s'.E i := by
      unfold upF
      split_ifs <;> ring
    rw [c]
    linarith
  obtain ⟨M, rfl⟩ : ∃ M, N = M + 1 := ⟨N - 1, by omega⟩
  rw [line_parts] at hc
  rw [h.2.1, h'.2.1] at hc
  have : s.H M = 0 := h.2.2.1
  rw [this] at hc
  linarith

/-- all memories fade, none at once -/
def LinePars.Fading (L : LinePars) (N : ℕ) : Prop := ∀ i < N, (L.gE i ≠ 0 → 0 < L.bE i) ∧ (L.gH i ≠ 0 → 0 < L.bH i)

/-- a step that loses nothing turns the memories around -/
lemma LinePars.keeps {L : LinePars} {N : ℕ} (hN : 0 < N) (hL : L.Good N) (hF : L.Fading N) {s s' : LineState} (h : L.Settled N s) (hm : L.Moves N s s') (he : L.energy N s' = L.energy N s) :
    ∀ i < N, s.ψ i + s'.ψ i = 0 ∧ s.χ i + s'.χ i = 0 := by
  have h' := h.move hN hL hm
  have hl := L.energy_loss hN hL h hm
  have nn : ∀ i ∈ range N, 0 ≤ L.bE i / (2 * L.gE i) * L.p i * (s.ψ i + s'.ψ i) ^ 2 + L.bH i / (2 * L.gH i) * L.m i * (s.χ i + s'.χ i) ^ 2 := by
    intro i hi
    have hi := mem_range.mp hi
    obtain ⟨l1, l2, l3, l4, l5, l6⟩ := hL i hi
    have a : 0 ≤ L.bE i / (2 * L.gE i) := by
      rcases l4 with h | h
      · rw [h]; simp
      · exact div_nonneg h.2.1 (by linarith [h.1])
    have b : 0 ≤ L.bH i / (2 * L.gH i) := by
      rcases l5 with h | h
      · rw [h]; simp
      · exact div_nonneg h.2.1 (by linarith [h.1])
    positivity
  have hz : ∑ i ∈ range N, (L.bE i / (2 * L.gE i) * L.p i * (s.ψ i + s'.ψ i) ^ 2 + L.bH i / (2 * L.gH i) * L.m i * (s.χ i + s'.χ i) ^ 2) = 0 :=
    le_antisymm (by linarith) (sum_nonneg nn)
  intro i hi
  have z := (sum_eq_zero_iff_of_nonneg nn).1 hz i (mem_range.2 hi)
  obtain ⟨l1, l2, l3, l4, l5, l6⟩ := hL i hi
  have a0 : 0 ≤ L.bE i / (2 * L.gE i) * L.p i * (s.ψ i + s'.ψ i) ^ 2 := by
    rcases l4 with h | h
    · rw [h]; simp
    · have := div_nonneg h.2.1 (by linarith [h.1] : (0 : ℝ) ≤ 2 * L.gE i); positivity
  have b0 : 0 ≤ L.bH i / (2 * L.gH i) * L.m i * (s.χ i + s'.χ i) ^ 2 := by
    rcases l5 with h | h
    · rw [h]; simp
    · have := div_nonneg h.2.1 (by linarith [h.1] : (0 : ℝ) ≤ 2 * L.gH i); positivity
  constructor
  · by_cases h0 : L.gE i = 0
    · rw [(h.1 i hi).1 h0, (h'.1 i hi).1 h0, add_zero]
    · have k : 0 < L.gE i := (l4.resolve_left h0).1
      have kb := (hF i hi).1 h0
      have : L.bE i / (2 * L.gE i) * L.p i * (s.ψ i + s'.ψ i) ^ 2 = 0 := by linarith
      have q : 0 < L.bE i / (2 * L.gE i) * L.p i := by positivity
      exact pow_eq_zero_iff two_ne_zero |>.1 ((mul_eq_zero.1 this).resolve_left q.ne')
  · by_cases h0 : L.gH i = 0
    · rw [(h.1 i hi).2 h0, (h'.1 i hi).2 h0, add_zero]
    · have k : 0 < L.gH i := (l5.resolve_left h0).1
      have kb := (hF i hi).2 h0
      have : L.bH i / (2 * L.gH i) * L.m i * (s.χ i + s'.χ i) ^ 2 = 0 := by linarith
      have q : 0 < L.bH i / (2 * L.gH i) * L.m i := by positivity
      exact pow_eq_zero_iff two_ne_zero |>.1 ((mul_eq_zero.1 this).resolve_left q.ne')

lemma lowD_add (F G : ℕ → ℝ) (i : ℕ) : lowD (fun i => F i + G i) i = lowD F i + lowD G i := by
  unfold lowD; split_ifs <;> ring

lemma lowD_smul (r : ℝ) (F : ℕ → ℝ) (i : ℕ) : lowD (fun i => r * F i) i = r * lowD F i := by
  unfold lowD; split_ifs <;> ring

lemma upF_add (N : ℕ) (F G : ℕ → ℝ) (i : ℕ) : upF N (fun i => F i + G i) i = upF N F i + upF N G i := by
  unfold upF; split_ifs <;> ring

lemma upF_smul (N : ℕ) (r : ℝ) (F : ℕ → ℝ) (i : ℕ) : upF N (fun i => r * F i) i = r * upF N F i := by
  unfold upF; split_ifs <;> ring

/-- a state that a step turns into its negative is zero: the steps are too short for that -/
lemma LinePars.no_flip {L : LinePars} {N : ℕ} (hN : 0 < N) (hL : L.Good N) {c : ℝ} (hc0 : 0 < c) (hc1 : c < 1) (hc : ∀ i < N, L.p i ≤ c ∧ L.m i ≤ c) {s s' : LineState} (h : L.Settled N s) (hm : L.Moves N s s')
    (hf : ∀ i < N, s'.E i = -s.E i ∧ s'.H i = -s.H i ∧ s'.ψ i = -s.ψ i ∧ s'.χ i = -s.χ i) : ∀ i < N, s.E i = 0 ∧ s.H i = 0 ∧ s.ψ i = 0 ∧ s.χ i = 0 := by
  have hup : ∀ i < N, upF N s'.E i = -upF N s.E i := by
    intro i hi
    unfold upF
    split_ifs with h1
    · ring
    · rw [(hf i hi).1, (hf (i + 1) (by omega)).1]; ring
  have cellE : ∀ i < N, (1 + L.bE i) * s.ψ i = L.gE i * lowD s.H i ∧ s.E i * lowD s.H i ≤ -(2 / c) * s.E i ^ 2 := by
    intro i hi
    obtain ⟨m1, m2, -, -⟩ := hm i hi
    obtain ⟨f1, -, f3, -⟩ := hf i hi
    obtain ⟨l1, l2, l3, l4, l5, l6⟩ := hL i hi
    rw [f3] at m1 m2
    rw [f1] at m2
    have e1 : (1 + L.bE i) * s.ψ i = L.gE i * lowD s.H i := by linarith
    have e2 : -2 * s.E i = L.p i * (lowD s.H i - s.ψ i) := by linarith
    refine ⟨e1, ?_⟩
    have hpc : 1 / c ≤ 1 / L.p i := one_div_le_one_div_of_le l1 (hc i hi).1
    have goal : s.E i * lowD s.H i ≤ -(2 / L.p i) * s.E i ^ 2 := by
      by_cases h0 : L.gE i = 0
      · rw [(h.1 i hi).1 h0] at e2
        have : lowD s.H i = -2 * s.E i / L.p i := by field_simp; linarith
        rw [this]
        apply le_of_eq; field_simp
      · obtain ⟨k1, k2, k3⟩ := l4.resolve_left h0
        -- the memory takes a share of the difference
        have t0 : 0 < (1 + L.bE i - L.gE i) / (1 + L.bE i) := div_pos (by linarith) (by linarith)
        have t1 : (1 + L.bE i - L.gE i) / (1 + L.bE i) ≤ 1 := (div_le_one (by linarith)).2 (by linarith)
        have hb : (1 + L.bE i) ≠ 0 := by positivity
        have e3 : lowD s.H i - s.ψ i = (1 + L.bE i - L.gE i) / (1 + L.bE i) * lowD s.H i := by
          have : s.ψ i = L.gE i * lowD s.H i / (1 + L.bE i) := by rw [← e1]; field_simp
          rw [this]; field_simp
        rw [e3] at e2
        generalize (1 + L.bE i - L.gE i) / (1 + L.bE i) = t at *
        have e4 : s.E i = -(L.p i * t * lowD s.H i / 2) := by linarith
        have e5 : -(2 / L.p i) * s.E i ^ 2 = s.E i * lowD s.H i * t := by rw [e4]; field_simp
        rw [e5]
        have e6 : s.E i * lowD s.H i ≤ 0 := by
          rw [e4]
          have : 0 ≤ L.p i * t * (lowD s.H i) ^ 2 / 2 := by positivity
          linarith
        nlinarith
    refine goal.trans ?_
    have := mul_le_mul_of_nonneg_right hpc (sq_nonneg (s.E i))
    rw [show (2 : ℝ) / L.p i = 2 * (1 / L.p i) by ring, show (2 : ℝ) / c = 2 * (1 / c) by ring]
    nlinarith
  have cellH : ∀ i < N, (1 + L.bH i) * s.χ i = -(L.gH i * upF N s.E i) ∧ 2 / c * s.H i ^ 2 ≤ s.H i * upF N s.E i := by
    intro i hi
    obtain ⟨-, -, m3, m4⟩ := hm i hi
    obtain ⟨-, f2, -, f4⟩ := hf i hi
    obtain ⟨l1, l2, l3, l4, l5, l6⟩ := hL i hi
    rw [f4, hup i hi] at m3
    rw [f2, f4, hup i hi] at m4
    have e1 : (1 + L.bH i) * s.χ i = -(L.gH i * upF N s.E i) := by linarith
    have e2 : 2 * s.H i = L.m i * (upF N s.E i + s.χ i) := by linarith
    refine ⟨e1, ?_⟩
    have hpc : 1 / c ≤ 1 / L.m i := one_div_le_one_div_of_le l2 (hc i hi).2
    have goal : 2 / L.m i * s.H i ^ 2 ≤ s.H i * upF N s.E i := by
      by_cases h0 : L.gH i = 0
      · rw [(h.1 i hi).2 h0] at e2
        have : upF N s.E i = 2 * s.H i / L.m i := by field_simp; linarith
        rw [this]
        apply le_of_eq; field_simp
      · obtain ⟨k1, k2, k3⟩ := l5.resolve_left h0
        have t0 : 0 < (1 + L.bH i - L.gH i) / (1 + L.bH i) := div_pos (by linarith) (by linarith)
        have t1 : (1 + L.bH i - L.gH i) / (1 + L.bH i) ≤ 1 := (div_le_one (by linarith)).2 (by linarith)
        have hb : (1 + L.bH i) ≠ 0 := by positivity
        have e3 : upF N s.E i + s.χ i = (1 + L.bH i - L.gH i) / (1 + L.bH i) * upF N s.E i := by
          have : s.χ i = -(L.gH i * upF N s.E i) / (1 + L.bH i) := by rw [← e1]; field_simp
          rw [this]; field_simp; ring
        rw [e3] at e2
        generalize (1 + L.bH i - L.gH i) / (1 + L.bH i) = t at *
        have e4 : s.H i = L.m i * t * upF N s.E i / 2 := by linarith
        have e5 : 2 / L.m i * s.H i ^ 2 = s.H i * upF N s.E i * t := by rw [e4]; field_simp
        rw [e5]
        have e6 : 0 ≤ s.H i * upF N s.E i := by
          rw [e4]
          have : 0 ≤ L.m i * t * (upF N s.E i) ^ 2 / 2 := by positivity
          linarith
        nlinarith
    refine le_trans ?_ goal
    have := mul_le_mul_of_nonneg_right hpc (sq_nonneg (s.H i))
    rw [show (2 : ℝ) / L.m i = 2 * (1 / L.m i) by ring, show (2 : ℝ) / c = 2 * (1 / c) by ring]
    nlinarith
  have hsize : s.size N ≤ 0 := by
    have parts : ∑ i ∈ range N, (s.E i * lowD s.H i + s.H i * upF N s.E i) = 0 := by
      obtain ⟨M, rfl⟩ : ∃ M, N = M + 1 := ⟨N - 1, by omega⟩
      rw [line_parts, h.2.1, show s.H M = 0 from h.2.2.1]; ring
    have mixed := (abs_le.1 (line_mixed s.E s.H N)).2
    rw [sum_add_distrib] at parts
    have s1 : ∑ i ∈ range N, s.E i * lowD s.H i ≤ ∑ i ∈ range N, -(2 / c) * s.E i ^ 2 := sum_le_sum fun i hi => (cellE i (mem_range.1 hi)).2
    have s2 : ∑ i ∈ range N, 2 / c * s.H i ^ 2 ≤ ∑ i ∈ range N, s.H i * upF N s.E i := sum_le_sum fun i hi => (cellH i (mem_range.1 hi)).2
    rw [← mul_sum] at s1 s2
    have e : ∑ i ∈ range N, upF N s.E i * s.H i = ∑ i ∈ range N, s.H i * upF N s.E i := sum_congr rfl fun i _ => mul_comm _ _
    rw [e] at mixed
    have hs : s.size N = ∑ i ∈ range N, s.E i ^ 2 + ∑ i ∈ range N, s.H i ^ 2 := sum_add_distrib
    rw [sum_add_distrib, ← hs] at mixed
    have h1 : 1 / c * s.size N ≤ s.size N := by
      rw [show (1 : ℝ) / c * s.size N = (2 / c * ∑ i ∈ range N, s.E i ^ 2 + 2 / c * ∑ i ∈ range N, s.H i ^ 2) / 2 by rw [hs]; ring]
      linarith
    have h2 : 1 < 1 / c := by rw [lt_div_iff₀ hc0]; linarith
    by_contra hcon
    push Not at hcon
    nlinarith
  have hz : ∀ i < N, s.E i = 0 ∧ s.H i = 0 := by
    intro i hi
    have hn : ∀ i ∈ range N, 0 ≤ s.E i ^ 2 + s.H i ^ 2 := fun i _ => by positivity
    have := (sum_eq_zero_iff_of_nonneg hn).1 (le_antisymm hsize (sum_nonneg hn)) i (mem_range.2 hi)
    constructor <;> nlinarith [sq_nonneg (s.E i), sq_nonneg (s.H i)]
  intro i hi
  have hb : ∀ {b g : ℝ}, MemoryOk b g → (g = 0 ∨ 0 < 1 + b) := by
    intro b g h
    rcases h with h | h
    · exact .inl h
    · exact .inr (by linarith [h.2.1])
  refine ⟨(hz i hi).1, (hz i hi).2, ?_, ?_⟩
  · rcases hb (hL i hi).2.2.2.1 with h0 | h0
    · exact (h.1 i hi).1 h0
    · have e := (cellE i hi).1
      have : lowD s.H i = 0 := by
        unfold lowD
        split_ifs
        · rfl
        · rw [(hz i hi).2, (hz (i - 1) (by omega)).2, sub_zero]
      rw [this, mul_zero] at e
      exact (mul_eq_zero.1 e).resolve_left h0.ne'
  · rcases hb (hL i hi).2.2.2.2.1 with h0 | h0
    · exact (h.1 i hi).2 h0
    · have e := (cellH i hi).1
      have : upF N s.E i = 0 := by
        unfold upF
        split_ifs with h1
        · rfl
        · rw [(hz i hi).1, (hz (i + 1) (by omega)).1, sub_zero]
      rw [this, mul_zero, neg_zero] at e
      exact (mul_eq_zero.1 e).resolve_left h0.ne'

/-- no motion keeps its energy for ever, if the line begins with a magnetic memory -/
lemma LinePars.strict {L : LinePars} {N : ℕ} (hN : 2 ≤ N) (hL : L.Good N) (hF : L.Fading N) (hg : L.gH 0 ≠ 0) {c : ℝ} (hc0 : 0 < c) (hc1 : c < 1) (hc : ∀ i < N, L.p i ≤ c ∧ L.m i ≤ c)
    (s : ℕ → LineState) (h : ∀ k, L.Settled N (s k)) (hm : ∀ k, L.Moves N (s k) (s (k + 1))) (he : ∀ k, L.energy N (s (k + 1)) = L.energy N (s k)) :
    ∀ i < N, (s N).E i = 0 ∧ (s N).H i = 0 ∧ (s N).ψ i = 0 ∧ (s N).χ i = 0 := by
  have keep := fun k => L.keeps (by omega) hL hF (h k) (hm k) (he k)
  -- sums of two states
  set e : ℕ → ℕ → ℝ := fun k i => (s k).E i + (s (k + 1)).E i with he'
  set w : ℕ → ℕ → ℝ := fun k i => (s k).H i + (s (k + 1)).H i with hw
  have eqE : ∀ k, ∀ i < N, (1 + L.A i) * e (k + 1) i = (1 - L.A i) * e k i + L.p i * lowD (w k) i := by
    intro k i hi
    have a := (hm k i hi).2.1
    have b := (hm (k + 1) i hi).2.1
    have z := (keep (k + 1) i hi).1
    have : lowD (w k) i = lowD (s k).H i + lowD (s (k + 1)).H i := lowD_add _ _ i
    rw [this]
    show (1 + L.A i) * ((s (k + 1)).E i + (s (k + 1 + 1)).E i) = (1 - L.A i) * ((s k).E i + (s (k + 1)).E i) + _
    linear_combination a + b + L.p i * z
  have eqH : ∀ k, ∀ i < N, w (k + 1) i = w k i + L.m i * upF N (e (k + 1)) i := by
    intro k i hi
    have a := (hm k i hi).2.2.2
    have b := (hm (k + 1) i hi).2.2.2
    have z := (keep (k + 1) i hi).2
    have : upF N (e (k + 1)) i = upF N (s (k + 1)).E i + upF N (s (k + 1 + 1)).E i := upF_add _ _ _ i
    rw [this]
    show (s (k + 1)).H i + (s (k + 1 + 1)).H i = (s k).H i + (s (k + 1)).H i + _
    linear_combination a + b + L.m i * z
  have first : ∀ k, upF N (e (k + 1)) 0 = 0 := by
    intro k
    have a := (hm k 0 (by omega)).2.2.1
    have b := (hm (k + 1) 0 (by omega)).2.2.1
    have z := (keep k 0 (by omega)).2
    have z' := (keep (k + 1) 0 (by omega)).2
    have : upF N (e (k + 1)) 0 = upF N (s (k + 1)).E 0 + upF N (s (k + 1 + 1)).E 0 := upF_add _ _ _ 0
    rw [this]
    have : L.gH 0 * (upF N (s (k + 1)).E 0 + upF N (s (k + 1 + 1)).E 0) = 0 := by linear_combination a + b - z' + L.bH 0 * z
    exact (mul_eq_zero.1 this).resolve_left hg
  have spread : ∀ i < N, ∀ k, i + 1 ≤ k → e k i = 0 ∧ w (k + 1) i = w k i ∧ w k i = w k 0 := by
    intro i
    induction i with
    | zero =>
      intro hi k hk
      refine ⟨?_, ?_, rfl⟩
      · show (s k).E 0 + (s (k + 1)).E 0 = 0
        rw [(h k).2.1, (h (k + 1)).2.1, add_zero]
      · rw [eqH k 0 hi, first, mul_zero, add_zero]
    | succ i ih =>
      intro hi
      have ih := ih (by omega)
      have e0 : ∀ k, i + 2 ≤ k → e k (i + 1) = 0 := by
        intro k hk
        obtain ⟨j, rfl⟩ : ∃ j, k = j + 1 := ⟨k - 1, by omega⟩
        have a := eqH j i (by omega)
        rw [(ih j (by omega)).2.1] at a
        have : L.m i * upF N (e (j + 1)) i = 0 := by linarith
        have u := (mul_eq_zero.1 this).resolve_left (hL i (by omega)).2.1.ne'
        unfold upF at u
        rw [if_neg (by omega), (ih (j + 1) (by omega)).1, sub_zero] at u
        exact u
      have w0 : ∀ k, i + 2 ≤ k → w k (i + 1) = w k i := by
        intro k hk
        have a := eqE k (i + 1) hi
        rw [e0 k hk, e0 (k + 1) (by omega), mul_zero, mul_zero, zero_add] at a
        have u := (mul_eq_zero.1 a.symm).resolve_left (hL (i + 1) hi).1.ne'
        unfold lowD at u
        rw [if_neg (by omega), Nat.add_sub_cancel] at u
        linarith
      intro k hk
      refine ⟨e0 k (by omega), ?_, ?_⟩
      · rw [w0 k (by omega), w0 (k + 1) (by omega), (ih k (by omega)).2.1]
      · rw [w0 k (by omega), (ih k (by omega)).2.2]
  refine L.no_flip (by omega) hL hc0 hc1 hc (h N) (hm N) fun i hi => ?_
  have a := spread i hi N (by omega)
  have b := spread (N - 1) (by omega) N (by omega)
  have z : w N (N - 1) = 0 := by
    show (s N).H (N - 1) + (s (N + 1)).H (N - 1) = 0
    rw [(h N).2.2.1, (h (N + 1)).2.2.1, add_zero]
  have k := keep N i hi
  have a1 : (s N).E i + (s (N + 1)).E i = 0 := a.1
  have a2 : (s N).H i + (s (N + 1)).H i = 0 := by
    show w N i = 0
    rw [a.2.2, ← b.2.2, z]
  exact ⟨by linarith, by linarith, by linarith [k.1], by linarith [k.2]⟩

/-! ### The line as a linear map -/

/-- the fields and memories of the `N` cells of a line -/
abbrev LineVec (N : ℕ) := Fin N → Fin 4 → ℝ

/-- read as a state -/
def LineVec.state {N : ℕ} (v : LineVec N) : LineState where
  E i := if h : i < N then v ⟨i, h⟩ 0 else 0
  H i := if h : i < N then v ⟨i, h⟩ 1 else 0
  ψ i := if h : i < N then v ⟨i, h⟩ 2 else 0
  χ i := if h : i < N then v ⟨i, h⟩ 3 else 0

/-- the cells of a state -/
def LineState.vec (N : ℕ) (s : LineState) : LineVec N := fun i => ![s.E i, s.H i, s.ψ i, s.χ i]

/-- the same in every cell -/
def LineState.Same (N : ℕ) (s s' : LineState) : Prop := ∀ i < N, s.E i = s'.E i ∧ s.H i = s'.H i ∧ s.ψ i = s'.ψ i ∧ s.χ i = s'.χ i

lemma LineState.vec_state (N : ℕ) (s : LineState) : (s.vec N).state.Same N s := by
  intro i hi
  simp [LineVec.state, LineState.vec, hi]

lemma LineVec.state_vec {N : ℕ} (v : LineVec N) : v.state.vec N = v := by
  funext i j
  fin_cases j <;> simp [LineVec.state, LineState.vec]

lemma LineState.Same.vec {N : ℕ} {s s' : LineState} (h : s.Same N s') : s.vec N = s'.vec N := by
  funext i
  obtain ⟨h1, h2, h3, h4⟩ := h i i.2
  simp only [LineState.vec, h1, h2, h3, h4]

lemma upF_same {N : ℕ} {E E' : ℕ → ℝ} (h : ∀ i < N, E i = E' i) {i : ℕ} (hi : i < N) : upF N E i = upF N E' i := by
  unfold upF
  split_ifs with h1
  · rfl
  · rw [h i hi, h (i + 1) (by omega)]

lemma lowD_same {N : ℕ} {E E' : ℕ → ℝ} (h : ∀ i < N, E i = E' i) {i : ℕ} (hi : i < N) : lowD E i = lowD E' i := by
  unfold lowD
  split_ifs with h1
  · rfl
  · rw [h i hi, h (i - 1) (by omega)]

lemma LinePars.Moves.same {L : LinePars} {N : ℕ} {s s' t t' : LineState} (hm : L.Moves N s s') (h : s.Same N t) (h' : s'.Same N t') : L.Moves N t t' := by
  intro i hi
  obtain ⟨m1, m2, m3, m4⟩ := hm i hi
  obtain ⟨a1, a2, a3, a4⟩ := h i hi
  obtain ⟨b1, b2, b3, b4⟩ := h' i hi
  have d := lowD_same (fun i hi => (h i hi).2.1) hi
  have u := upF_same (fun i hi => (h' i hi).1) hi
  rw [a3, b3, d] at m1
  rw [b1, a1, d, b3] at m2
  rw [b4, a4, u] at m3
  rw [b2, a2, u, b4] at m4
  exact ⟨m1, m2, m3, m4⟩

lemma LinePars.energy_same {L : LinePars} {N : ℕ} {s t : LineState} (h : s.Same N t) : L.energy N s = L.energy N t := by
  unfold LinePars.energy
  refine sum_congr rfl fun i hi => ?_
  have hi := mem_range.1 hi
  obtain ⟨a1, a2, a3, a4⟩ := h i hi
  rw [a1, a2, a3, a4, upF_same (fun i hi => (h i hi).1) hi]

lemma LinePars.Settled.same {L : LinePars} {N : ℕ} (hN : 0 < N) {s t : LineState} (hs : L.Settled N s) (h : s.Same N t) : L.Settled N t := by
  obtain ⟨h1, h2, h3, h4, h5⟩ := hs
  have a := h 0 hN
  have b := h (N - 1) (by omega)
  refine ⟨fun i hi => ?_, a.1 ▸ h2, b.2.1 ▸ h3, a.2.2.1 ▸ h4, b.2.2.2 ▸ h5⟩
  obtain ⟨-, -, c3, c4⟩ := h i hi
  exact ⟨fun g => c3 ▸ (h1 i hi).1 g, fun g => c4 ▸ (h1 i hi).2 g⟩

/-- the step is determined in every cell -/
lemma LinePars.Moves.unique {L : LinePars} {N : ℕ} (hL : L.Good N) {s t t' : LineState} (h : L.Moves N s t) (h' : L.Moves N s t') : t.Same N t' := by
  have hψ : ∀ i < N, t.ψ i = t'.ψ i := fun i hi => by rw [(h i hi).1, (h' i hi).1]
  have hE : ∀ i < N, t.E i = t'.E i := by
    intro i hi
    have hA : (1 + L.A i) ≠ 0 := by have := (hL i hi).2.2.1; positivity
    refine mul_left_cancel₀ hA ?_
    rw [(h i hi).2.1, (h' i hi).2.1, hψ i hi]
  have hχ : ∀ i < N, t.χ i = t'.χ i := fun i hi => by rw [(h i hi).2.2.1, (h' i hi).2.2.1, upF_same hE hi]
  exact fun i hi => ⟨hE i hi, by rw [(h i hi).2.2.2, (h' i hi).2.2.2, upF_same hE hi, hχ i hi], hψ i hi, hχ i hi⟩

/-- linear combinations of motions are motions -/
lemma LinePars.Moves.combine {L : LinePars} {N : ℕ} {s s' t t' : LineState} (r q : ℝ) (hs : L.Moves N s s') (ht : L.Moves N t t') :
    L.Moves N ⟨fun i => r * s.E i + q * t.E i, fun i => r * s.H i + q * t.H i, fun i => r * s.ψ i + q * t.ψ i, fun i => r * s.χ i + q * t.χ i⟩
      ⟨fun i => r * s'.E i + q * t'.E i, fun i => r * s'.H i + q * t'.H i, fun i => r * s'.ψ i + q * t'.ψ i, fun i => r * s'.χ i + q * t'.χ i⟩ := by
  intro i hi
  obtain ⟨m1, m2, m3, m4⟩ := hs i hi
  obtain ⟨n1, n2, n3, n4⟩ := ht i hi
  have d : lowD (fun i => r * s.H i + q * t.H i) i = r * lowD s.H i + q * lowD t.H i := by rw [lowD_add, lowD_smul, lowD_smul]
  have u : upF N (fun i => r * s'.E i + q * t'.E i) i = r * upF N s'.E i + q * upF N t'.E i := by rw [upF_add, upF_smul, upF_smul]
  simp only [d, u]
  refine ⟨?_, ?_, ?_, ?_⟩
  · linear_combination r * m1 + q * n1
  · linear_combination r * m2 + q * n2
  · linear_combination r * m3 + q * n3
  · linear_combination r * m4 + q * n4

/-- the states of a line that are dark at the ends and have memories in the layers only -/
def LinePars.space (L : LinePars) (N : ℕ) : Submodule ℝ (LineVec N) where
  carrier := {v | L.Settled N v.state}
  zero_mem' := ⟨fun i hi => ⟨fun _ => by simp [LineVec.state], fun _ => by simp [LineVec.state]⟩, by simp [LineVec.state], by simp [LineVec.state], by simp [LineVec.state], by simp [LineVec.state]⟩
  add_mem' := by
    rintro v w ⟨a1, a2, a3, a4, a5⟩ ⟨b1, b2, b3, b4, b5⟩
    have e : ∀ i, (v + w).state.E i = v.state.E i + w.state.E i ∧ (v + w).state.H i = v.state.H i + w.state.H i ∧ (v + w).state.ψ i = v.state.ψ i + w.state.ψ i ∧ (v + w).state.χ i = v.state.χ i + w.state.χ i := by
      intro i
      simp only [LineVec.state]
      split_ifs <;> simp
    refine ⟨fun i hi => ⟨fun g => ?_, fun g => ?_⟩, ?_, ?_, ?_, ?_⟩
    · rw [(e i).2.2.1, (a1 i hi).1 g, (b1 i hi).1 g, add_zero]
    · rw [(e i).2.2.2, (a1 i hi).2 g, (b1 i hi).2 g, add_zero]
    · rw [(e 0).1, a2, b2, add_zero]
    · rw [(e _).2.1, a3, b3, add_zero]
    · rw [(e 0).2.2.1, a4, b4, add_zero]
    · rw [(e _).2.2.2, a5, b5, add_zero]
  smul_mem' := by
    rintro r v ⟨a1, a2, a3, a4, a5⟩
    have e : ∀ i, (r • v).state.E i = r * v.state.E i ∧ (r • v).state.H i = r * v.state.H i ∧ (r • v).state.ψ i = r * v.state.ψ i ∧ (r • v).state.χ i = r * v.state.χ i := by
      intro i
      simp only [LineVec.state]
      split_ifs <;> simp
    refine ⟨fun i hi => ⟨fun g => ?_, fun g => ?_⟩, ?_, ?_, ?_, ?_⟩
    · rw [(e i).2.2.1, (a1 i hi).1 g, mul_zero]
    · rw [(e i).2.2.2, (a1 i hi).2 g, mul_zero]
    · rw [(e 0).1, a2, mul_zero]
    · rw [(e _).2.1, a3, mul_zero]
    · rw [(e 0).2.2.1, a4, mul_zero]
    · rw [(e _).2.2.2, a5, mul_zero]

lemma LineVec.state_combine {N : ℕ} (r q : ℝ) (v w : LineVec N) (i : ℕ) :
    (r • v + q • w).state.E i = r * v.state.E i + q * w.state.E i ∧ (r • v + q • w).state.H i = r * v.state.H i + q * w.state.H i ∧
      (r • v + q • w).state.ψ i = r * v.state.ψ i + q * w.state.ψ i ∧ (r • v + q • w).state.χ i = r * v.state.χ i + q * w.state.χ i := by
  simp only [LineVec.state]
  split_ifs <;> simp

/-- a step on vectors -/
noncomputable def LinePars.next (L : LinePars) (N : ℕ) (v : LineVec N) : LineVec N := (L.flow N v.state).vec N

lemma LinePars.next_moves {L : LinePars} {N : ℕ} (hL : L.Good N) (v : LineVec N) : L.Moves N v.state (L.next N v).state :=
  (L.flow_moves hL v.state).same (fun _ _ => ⟨rfl, rfl, rfl, rfl⟩) (fun i hi => by have := LineState.vec_state N (L.flow N v.state) i hi; exact ⟨this.1.symm, this.2.1.symm, this.2.2.1.symm, this.2.2.2.symm⟩)

/-- a motion on vectors -/
lemma LinePars.next_of_moves {L : LinePars} {N : ℕ} (hL : L.Good N) {v w : LineVec N} (h : L.Moves N v.state w.state) : w = L.next N v := by
  have := (h.unique hL (L.next_moves hL v)).vec
  rwa [LineVec.state_vec, LineVec.state_vec] at this

lemma LinePars.next_combine {L : LinePars} {N : ℕ} (hL : L.Good N) (r q : ℝ) (v w : LineVec N) : L.next N (r • v + q • w) = r • L.next N v + q • L.next N w := by
  symm
  refine L.next_of_moves hL ?_
  refine ((L.next_moves hL v).combine r q (L.next_moves hL w)).same (fun i _ => ?_) (fun i _ => ?_)
  · obtain ⟨a, b, c, d⟩ := LineVec.state_combine r q v w i
    exact ⟨a.symm, b.symm, c.symm, d.symm⟩
  · obtain ⟨a, b, c, d⟩ := LineVec.state_combine r q (L.next N v) (L.next N w) i
    exact ⟨a.symm, b.symm, c.symm, d.symm⟩

/-- a step on the space -/
noncomputable def LinePars.stepMap (L : LinePars) (N : ℕ) (hN : 0 < N) (hL : L.Good N) : L.space N →ₗ[ℝ] L.space N where
  toFun v := ⟨L.next N v.1, LinePars.Settled.move hN hL v.2 (L.next_moves hL v.1)⟩
  map_add' v w := by
    apply Subtype.ext
    have := L.next_combine hL 1 1 v.1 w.1
    simpa using this
  map_smul' r v := by
    apply Subtype.ext
    have := L.next_combine hL r 0 v.1 v.1
    simpa using this

lemma LinePars.isEnergy {L : LinePars} {N : ℕ} (hL : L.Good N) (hF : L.Fading N) {c : ℝ} (hc0 : 0 < c) (hc1 : c < 1) (hc : ∀ i < N, L.p i ≤ c ∧ L.m i ≤ c) :
    IsEnergy fun v : L.space N => L.energy N v.1.state where
  cont := by
    have e : ∀ i, (Continuous fun v : L.space N => v.1.state.E i) ∧ (Continuous fun v : L.space N => v.1.state.H i) ∧ (Continuous fun v : L.space N => v.1.state.ψ i) ∧ Continuous fun v : L.space N => v.1.state.χ i := by
      intro i
      simp only [LineVec.state]
      split_ifs with hi
      · have : ∀ j : Fin 4, Continuous fun v : L.space N => v.1 ⟨i, hi⟩ j := fun j => (continuous_apply j).comp ((continuous_apply (⟨i, hi⟩ : Fin N)).comp continuous_subtype_val)
        exact ⟨this 0, this 1, this 2, this 3⟩
      · exact ⟨continuous_const, continuous_const, continuous_const, continuous_const⟩
    refine continuous_finsetSum _ fun i _ => ?_
    obtain ⟨c1, c2, c3, c4⟩ := e i
    have cu : Continuous fun v : L.space N => upF N v.1.state.E i := by
      unfold upF
      split_ifs
      · exact continuous_const
      · exact (e (i + 1)).1.sub c1
    have cs : Continuous fun v : L.space N => storeE (L.bE i) (L.gE i) (v.1.state.E i) (-L.p i * v.1.state.ψ i) := by
      unfold storeE
      exact (continuous_const.mul ((c1.sub (continuous_const.mul (continuous_const.mul c3))).pow 2)).add (continuous_const.mul ((continuous_const.mul c3).pow 2))
    have ch : Continuous fun v : L.space N => storeH (L.bH i) (L.gH i) (v.1.state.H i) (-L.m i * v.1.state.χ i) := by
      unfold storeH
      split_ifs
      · exact continuous_const
      · exact ((continuous_const.mul (c2.pow 2)).sub (continuous_const.mul (c2.mul (continuous_const.mul c4)))).add (continuous_const.mul ((continuous_const.mul c4).pow 2))
    exact (((c1.pow 2).add (continuous_const.mul cs)).div_const _).add ((((c2.pow 2).add ch).div_const _).sub (cu.mul c2))
  scale := by
    intro r v
    unfold LinePars.energy
    rw [mul_sum]
    refine sum_congr rfl fun i _ => ?_
    have e : ∀ i, (r • v.1).state.E i = r * v.1.state.E i ∧ (r • v.1).state.H i = r * v.1.state.H i ∧ (r • v.1).state.ψ i = r * v.1.state.ψ i ∧ (r • v.1).state.χ i = r * v.1.state.χ i := by
      intro i
      simp only [LineVec.state]
      split_ifs <;> simp
    have u : upF N (r • v.1).state.E i = r * upF N v.1.state.E i := by
      rw [← upF_smul]; congr 1; funext j; exact (e j).1
    have hv : (r • v).1 = r • v.1 := rfl
    obtain ⟨e1, e2, e3, e4⟩ := e i
    rw [hv, u, e1, e2, e3, e4]
    have s1 : storeE (L.bE i) (L.gE i) (r * v.1.state.E i) (-L.p i * (r * v.1.state.ψ i)) = r ^ 2 * storeE (L.bE i) (L.gE i) (v.1.state.E i) (-L.p i * v.1.state.ψ i) := by
      unfold storeE; ring
    have s2 : storeH (L.bH i) (L.gH i) (r * v.1.state.H i) (-L.m i * (r * v.1.state.χ i)) = r ^ 2 * storeH (L.bH i) (L.gH i) (v.1.state.H i) (-L.m i * v.1.state.χ i) := by
      unfold storeH; split_ifs <;> ring
    rw [s1, s2]
    ring
  pos := by
    intro v hv
    by_contra hcon
    push Not at hcon
    apply hv
    have hge := LinePars.energy_ge hL hc v.1.state
    have h1 : 0 < 1 / c - 1 := by
      have : 1 < 1 / c := by rw [lt_div_iff₀ hc0]; linarith
      linarith
    have hsize : v.1.state.size N ≤ 0 := by
      by_contra h2
      push Not at h2
      have := mul_pos h1 h2
      linarith
    have hz : ∀ i < N, v.1.state.E i = 0 ∧ v.1.state.H i = 0 := by
      intro i hi
      have hn : ∀ i ∈ range N, 0 ≤ v.1.state.E i ^ 2 + v.1.state.H i ^ 2 := fun i _ => by positivity
      have := (sum_eq_zero_iff_of_nonneg hn).1 (le_antisymm hsize (sum_nonneg hn)) i (mem_range.2 hi)
      constructor <;> nlinarith [sq_nonneg (v.1.state.E i), sq_nonneg (v.1.state.H i)]
    have hterm : ∀ i ∈ range N, 0 ≤ (v.1.state.E i ^ 2 + 2 * storeE (L.bE i) (L.gE i) (v.1.state.E i) (-L.p i * v.1.state.ψ i)) / L.p i +
        ((v.1.state.H i ^ 2 + storeH (L.bH i) (L.gH i) (v.1.state.H i) (-L.m i * v.1.state.χ i)) / L.m i - upF N v.1.state.E i * v.1.state.H i) := by
      intro i hi
      have hi := mem_range.1 hi
      obtain ⟨l1, l2, -, l4, l5, -⟩ := hL i hi
      rw [(hz i hi).2, mul_zero, sub_zero]
      have a := storeE_nonneg l4 (v.1.state.E i) (-L.p i * v.1.state.ψ i)
      have b := storeH_nonneg l5 0 (-L.m i * v.1.state.χ i)
      positivity
    have hmem : ∀ i < N, v.1.state.ψ i = 0 ∧ v.1.state.χ i = 0 := by
      intro i hi
      have z := (sum_eq_zero_iff_of_nonneg hterm).1 (le_antisymm hcon (sum_nonneg hterm)) i (mem_range.2 hi)
      obtain ⟨l1, l2, -, l4, l5, -⟩ := hL i hi
      rw [(hz i hi).1, (hz i hi).2, mul_zero, sub_zero] at z
      have a := storeE_nonneg l4 0 (-L.p i * v.1.state.ψ i)
      have b := storeH_nonneg l5 0 (-L.m i * v.1.state.χ i)
      have a' : 0 ≤ ((0 : ℝ) ^ 2 + 2 * storeE (L.bE i) (L.gE i) 0 (-L.p i * v.1.state.ψ i)) / L.p i := by positivity
      have b' : 0 ≤ ((0 : ℝ) ^ 2 + storeH (L.bH i) (L.gH i) 0 (-L.m i * v.1.state.χ i)) / L.m i := by positivity
      have za : ((0 : ℝ) ^ 2 + 2 * storeE (L.bE i) (L.gE i) 0 (-L.p i * v.1.state.ψ i)) / L.p i = 0 := by linarith
      have zb : ((0 : ℝ) ^ 2 + storeH (L.bH i) (L.gH i) 0 (-L.m i * v.1.state.χ i)) / L.m i = 0 := by linarith
      have za' : storeE (L.bE i) (L.gE i) 0 (-L.p i * v.1.state.ψ i) = 0 := by
        rcases div_eq_zero_iff.1 za with h | h
        · linarith
        · exact absurd h l1.ne'
      have zb' : storeH (L.bH i) (L.gH i) 0 (-L.m i * v.1.state.χ i) = 0 := by
        rcases div_eq_zero_iff.1 zb with h | h
        · linarith
        · exact absurd h l2.ne'
      constructor
      · by_cases h0 : L.gE i = 0
        · exact (v.2.1 i hi).1 h0
        · obtain ⟨k1, -, k3⟩ := l4.resolve_left h0
          have kb := (hF i hi).1 h0
          have k4 : 0 < 1 - L.gE i - L.bE i := by linarith
          unfold storeE at za'
          have q1 : 0 ≤ L.gE i / (2 * (1 - L.gE i - L.bE i)) * (0 - L.bE i / L.gE i * (-L.p i * v.1.state.ψ i)) ^ 2 := by positivity
          have q2 : 0 ≤ L.bE i / (4 * L.gE i) * (-L.p i * v.1.state.ψ i) ^ 2 := by positivity
          have q3 : L.bE i / (4 * L.gE i) * (-L.p i * v.1.state.ψ i) ^ 2 = 0 := by linarith
          have q4 : 0 < L.bE i / (4 * L.gE i) := by positivity
          have q5 := pow_eq_zero_iff two_ne_zero |>.1 ((mul_eq_zero.1 q3).resolve_left q4.ne')
          exact (mul_eq_zero.1 q5).resolve_left (by linarith [l1] : (-L.p i) < 0).ne
      · by_cases h0 : L.gH i = 0
        · exact (v.2.1 i hi).2 h0
        · obtain ⟨k1, -, k3⟩ := l5.resolve_left h0
          have kb := (hF i hi).2 h0
          have k4 : 0 < 1 - L.gH i - L.bH i := by linarith
          unfold storeH at zb'
          rw [if_neg h0] at zb'
          have q4 : 0 < L.bH i * (1 - L.gH i + L.bH i) / (2 * L.gH i * (1 - L.gH i - L.bH i)) := div_pos (mul_pos kb (by linarith)) (by positivity)
          have q3 : L.bH i * (1 - L.gH i + L.bH i) / (2 * L.gH i * (1 - L.gH i - L.bH i)) * (-L.m i * v.1.state.χ i) ^ 2 = 0 := by linarith
          have q5 := pow_eq_zero_iff two_ne_zero |>.1 ((mul_eq_zero.1 q3).resolve_left q4.ne')
          exact (mul_eq_zero.1 q5).resolve_left (by linarith [l2] : (-L.m i) < 0).ne
    apply Subtype.ext
    rw [← LineVec.state_vec v.1]
    funext i j
    have a := hz i i.2
    have b := hmem i i.2
    fin_cases j
    · exact a.1
    · exact a.2
    · exact b.1
    · exact b.2

/-- **undriven lines decay exponentially** -/
lemma LinePars.decays {L : LinePars} {N : ℕ} (hN : 2 ≤ N) (hL : L.Good N) (hF : L.Fading N) (hg : L.gH 0 ≠ 0) {c : ℝ} (hc0 : 0 < c) (hc1 : c < 1) (hc : ∀ i < N, L.p i ≤ c ∧ L.m i ≤ c) :
    ∃ C ρ : ℝ, 0 < C ∧ 0 < ρ ∧ ρ < 1 ∧ ∀ k v, ‖((L.stepMap N (by omega) hL) ^ k) v‖ ≤ C * ρ ^ k * ‖v‖ := by
  have hN0 : 0 < N := by omega
  refine (L.isEnergy hL hF hc0 hc1 hc).decays _ (fun v => LinePars.energy_move hN0 hL v.2 (L.next_moves hL v.1)) fun v hv => ?_
  set A := L.stepMap N hN0 hL
  have hA : ∀ k, (A ^ (k + 1)) v = A ((A ^ k) v) := fun k => by rw [pow_succ']; rfl
  have hz := L.strict hN hL hF hg hc0 hc1 hc (fun k => ((A ^ k) v).1.state) (fun k => ((A ^ k) v).2)
    (fun k => by rw [hA]; exact L.next_moves hL _) (fun k => by
      have a := hv (k + 1)
      have b := hv k
      exact a.trans b.symm)
  have h0 : ((A ^ N) v) = 0 := by
    apply Subtype.ext
    rw [← LineVec.state_vec ((A ^ N) v).1]
    funext i j
    obtain ⟨a1, a2, a3, a4⟩ := hz i i.2
    fin_cases j
    · exact a1
    · exact a2
    · exact a3
    · exact a4
  by_contra hne
  have pos := (L.isEnergy hL hF hc0 hc1 hc).pos v hne
  have := hv N
  rw [h0, (L.isEnergy hL hF hc0 hc1 hc).zero] at this
  linarith

/-! ### Driven lines -/

/-- what a drive makes of a dark line in one step -/
def LinePars.kick (L : LinePars) (N : ℕ) (f : ℕ → ℝ) : LineState where
  E := f
  ψ _ := 0
  χ i := -(L.gH i * upF N f i)
  H i := L.m i * (upF N f i - L.gH i * upF N f i)

lemma LinePars.kick_settled {L : LinePars} {N : ℕ} (hN : 0 < N) {f : ℕ → ℝ} (hf : f 0 = 0) : L.Settled N (L.kick N f) := by
  have e : upF N f (N - 1) = 0 := if_pos (by omega)
  refine ⟨fun i _ => ⟨fun _ => rfl, fun g => ?_⟩, hf, ?_, rfl, ?_⟩
  · show -(L.gH i * _) = 0
    rw [g]; ring
  · show L.m _ * (upF N f (N - 1) - _ * upF N f (N - 1)) = 0
    rw [e]; ring
  · show -(L.gH _ * upF N f (N - 1)) = 0
    rw [e]; ring

/-- a driven step is a step and the kick of the drive -/
lemma LinePars.Driven.split {L : LinePars} {N : ℕ} (hL : L.Good N) {f : ℕ → ℝ} {s s' : LineState} (hd : L.Driven N f s s') : s'.vec N = L.next N (s.vec N) + (L.kick N f).vec N := by
  have hm : L.Moves N s ⟨fun i => s'.E i - f i, fun i => s'.H i - (L.kick N f).H i, s'.ψ, fun i => s'.χ i - (L.kick N f).χ i⟩ := by
    intro i hi
    obtain ⟨d1, d2, d3, d4⟩ := hd i hi
    have u : upF N (fun i => s'.E i - f i) i = upF N s'.E i - upF N f i := by
      unfold upF; split_ifs <;> ring
    refine ⟨d1, ?_, ?_, ?_⟩
    · show (1 + L.A i) * (s'.E i - f i) = _
      linear_combination d2
    · show s'.χ i - -(L.gH i * upF N f i) = L.bH i * s.χ i - L.gH i * upF N (fun i => s'.E i - f i) i
      rw [u]
      linear_combination d3
    · show s'.H i - L.m i * (upF N f i - L.gH i * upF N f i) = s.H i + L.m i * (upF N (fun i => s'.E i - f i) i + (s'.χ i - -(L.gH i * upF N f i)))
      rw [u]
      linear_combination d4
  have hm' : L.Moves N (s.vec N).state (LineState.vec N ⟨fun i => s'.E i - f i, fun i => s'.H i - (L.kick N f).H i, s'.ψ, fun i => s'.χ i - (L.kick N f).χ i⟩).state :=
    hm.same (fun i hi => by have := LineState.vec_state N s i hi; exact ⟨this.1.symm, this.2.1.symm, this.2.2.1.symm, this.2.2.2.symm⟩)
      (fun i hi => by have := LineState.vec_state N ⟨fun i => s'.E i - f i, fun i => s'.H i - (L.kick N f).H i, s'.ψ, fun i => s'.χ i - (L.kick N f).χ i⟩ i hi; exact ⟨this.1.symm, this.2.1.symm, this.2.2.1.symm, this.2.2.2.symm⟩)
  rw [← L.next_of_moves hL hm']
  funext i j
  fin_cases j
  · show s'.E i = s'.E i - f i + f i
    ring
  · show s'.H i = s'.H i - (L.kick N f).H i + (L.kick N f).H i
    ring
  · show s'.ψ i = s'.ψ i + 0
    ring
  · show s'.χ i = s'.χ i - (L.kick N f).χ i + (L.kick N f).χ i
    ring

lemma LinePars.kick_vec (L : LinePars) (N : ℕ) (r q : ℝ) (u v : ℕ → ℝ) : (L.kick N fun i => r * u i + q * v i).vec N = r • (L.kick N u).vec N + q • (L.kick N v).vec N := by
  funext i j
  have e : upF N (fun i => r * u i + q * v i) i = r * upF N u i + q * upF N v i := by rw [upF_add, upF_smul, upF_smul]
  fin_cases j
  · rfl
  · show L.m i * (upF N (fun i => r * u i + q * v i) i - L.gH i * upF N (fun i => r * u i + q * v i) i) = r * (L.m i * (upF N u i - L.gH i * upF N u i)) + q * (L.m i * (upF N v i - L.gH i * upF N v i))
    rw [e]; ring
  · show (0 : ℝ) = r * 0 + q * 0
    ring
  · show -(L.gH i * upF N (fun i => r * u i + q * v i) i) = r * -(L.gH i * upF N u i) + q * -(L.gH i * upF N v i)
    rw [e]; ring

lemma LineVec.abs_le {N : ℕ} (S : Submodule ℝ (LineVec N)) (v : S) {i : ℕ} (hi : i < N) : |v.1.state.E i| ≤ ‖v‖ ∧ |v.1.state.H i| ≤ ‖v‖ := by
  have h : ∀ j, |v.1 ⟨i, hi⟩ j| ≤ ‖v‖ := fun j => ((Real.norm_eq_abs _).symm.le.trans (norm_le_pi_norm (v.1 ⟨i, hi⟩) j)).trans (norm_le_pi_norm v.1 ⟨i, hi⟩)
  simp only [LineVec.state, dif_pos hi]
  exact ⟨h 0, h 1⟩

/-- **a line driven by an oscillation settles into an oscillation**, exponentially fast and whatever it starts from, at a rate that does not depend on the drive -/
lemma LinePars.settles {L : LinePars} {N : ℕ} (hN : 2 ≤ N) (hL : L.Good N) (hF : L.Fading N) (hg : L.gH 0 ≠ 0) {c : ℝ} (hc0 : 0 < c) (hc1 : c < 1) (hc : ∀ i < N, L.p i ≤ c ∧ L.m i ≤ c) :
    ∃ ρ : ℝ, 0 < ρ ∧ ρ < 1 ∧ ∀ (ω : ℝ) (u v : ℕ → ℝ), u 0 = 0 → v 0 = 0 → ∃ X Y : LineState,
      (∀ k : ℕ, L.Driven N (fun i => Real.cos (ω * k) * u i + Real.sin (ω * k) * v i)
        ⟨fun i => Real.cos (ω * k) * X.E i + Real.sin (ω * k) * Y.E i, fun i => Real.cos (ω * k) * X.H i + Real.sin (ω * k) * Y.H i, fun i => Real.cos (ω * k) * X.ψ i + Real.sin (ω * k) * Y.ψ i, fun i => Real.cos (ω * k) * X.χ i + Real.sin (ω * k) * Y.χ i⟩
        ⟨fun i => Real.cos (ω * (k + 1 : ℕ)) * X.E i + Real.sin (ω * (k + 1 : ℕ)) * Y.E i, fun i => Real.cos (ω * (k + 1 : ℕ)) * X.H i + Real.sin (ω * (k + 1 : ℕ)) * Y.H i,
          fun i => Real.cos (ω * (k + 1 : ℕ)) * X.ψ i + Real.sin (ω * (k + 1 : ℕ)) * Y.ψ i, fun i => Real.cos (ω * (k + 1 : ℕ)) * X.χ i + Real.sin (ω * (k + 1 : ℕ)) * Y.χ i⟩) ∧
      ∀ (s : ℕ → LineState) (K : ℕ), L.Settled N (s K) → (∀ k : ℕ, K ≤ k → L.Driven N (fun i => Real.cos (ω * k) * u i + Real.sin (ω * k) * v i) (s k) (s (k + 1))) →
        ∃ C, ∀ k, K ≤ k → ∀ i < N, |(s k).E i - (Real.cos (ω * k) * X.E i + Real.sin (ω * k) * Y.E i)| ≤ C * ρ ^ k ∧ |(s k).H i - (Real.cos (ω * k) * X.H i + Real.sin (ω * k) * Y.H i)| ≤ C * ρ ^ k := by
  have hN0 : 0 < N := by omega
  obtain ⟨C, ρ, hC, hρ0, hρ1, hd⟩ := L.decays hN hL hF hg hc0 hc1 hc
  refine ⟨ρ, hρ0, hρ1, fun ω u v hu hv => ?_⟩
  set A := L.stepMap N hN0 hL with hAdef
  have memK : ∀ f : ℕ → ℝ, f 0 = 0 → (L.kick N f).vec N ∈ L.space N := fun f hf =>
    (L.kick_settled hN0 hf).same hN0 (fun i hi => by have := LineState.vec_state N (L.kick N f) i hi; exact ⟨this.1.symm, this.2.1.symm, this.2.2.1.symm, this.2.2.2.symm⟩)
  obtain ⟨x, y, hxy⟩ := decays_answer A hρ0 hρ1 hd ω ⟨_, memK u hu⟩ ⟨_, memK v hv⟩
  refine ⟨x.1.state, y.1.state, fun k => ?_, fun s K hs0 hs => ?_⟩
  · -- the oscillation moves as driven
    have e := congrArg Subtype.val (hxy k)
    have e : Real.cos (ω * (k + 1 : ℕ)) • x.1 + Real.sin (ω * (k + 1 : ℕ)) • y.1 = L.next N (Real.cos (ω * k) • x.1 + Real.sin (ω * k) • y.1) + (Real.cos (ω * k) • (L.kick N u).vec N + Real.sin (ω * k) • (L.kick N v).vec N) := e
    have hm := L.next_moves hL (Real.cos (ω * k) • x.1 + Real.sin (ω * k) • y.1)
    have e' : ∀ i (hi : i < N) (j : Fin 4), L.next N (Real.cos (ω * k) • x.1 + Real.sin (ω * k) • y.1) ⟨i, hi⟩ j
        = Real.cos (ω * (k + 1 : ℕ)) * x.1 ⟨i, hi⟩ j + Real.sin (ω * (k + 1 : ℕ)) * y.1 ⟨i, hi⟩ j - (L.kick N fun i => Real.cos (ω * k) * u i + Real.sin (ω * k) * v i).vec N ⟨i, hi⟩ j := by
      intro i hi j
      have := congrFun (congrFun e ⟨i, hi⟩) j
      rw [← L.kick_vec] at this
      simp only [Pi.add_apply, Pi.smul_apply, smul_eq_mul] at this
      linarith
    set f : ℕ → ℝ := fun i => Real.cos (ω * k) * u i + Real.sin (ω * k) * v i with hf
    have st : ∀ i < N, (L.next N (Real.cos (ω * k) • x.1 + Real.sin (ω * k) • y.1)).state.E i = Real.cos (ω * (k + 1 : ℕ)) * x.1.state.E i + Real.sin (ω * (k + 1 : ℕ)) * y.1.state.E i - f i ∧
        (L.next N (Real.cos (ω * k) • x.1 + Real.sin (ω * k) • y.1)).state.H i = Real.cos (ω * (k + 1 : ℕ)) * x.1.state.H i + Real.sin (ω * (k + 1 : ℕ)) * y.1.state.H i - (L.kick N f).H i ∧
        (L.next N (Real.cos (ω * k) • x.1 + Real.sin (ω * k) • y.1)).state.ψ i = Real.cos (ω * (k + 1 : ℕ)) * x.1.state.ψ i + Real.sin (ω * (k + 1 : ℕ)) * y.1.state.ψ i ∧
        (L.next N (Real.cos (ω * k) • x.1 + Real.sin (ω * k) • y.1)).state.χ i = Real.cos (ω * (k + 1 : ℕ)) * x.1.state.χ i + Real.sin (ω * (k + 1 : ℕ)) * y.1.state.χ i - (L.kick N f).χ i := by
      intro i hi
      simp only [LineVec.state, dif_pos hi]
      exact ⟨e' i hi 0, e' i hi 1, (e' i hi 2).trans (sub_zero _), e' i hi 3⟩
    generalize L.next N (Real.cos (ω * k) • x.1 + Real.sin (ω * k) • y.1) = w at hm st
    intro i hi
    obtain ⟨m1, m2, m3, m4⟩ := hm i hi
    obtain ⟨a1, a2, a3, a4⟩ := st i hi
    have d : lowD (Real.cos (ω * k) • x.1 + Real.sin (ω * k) • y.1).state.H i = lowD (fun i => Real.cos (ω * k) * x.1.state.H i + Real.sin (ω * k) * y.1.state.H i) i :=
      lowD_same (fun i _ => (LineVec.state_combine _ _ x.1 y.1 i).2.1) hi
    have uu : upF N w.state.E i = upF N (fun i => Real.cos (ω * (k + 1 : ℕ)) * x.1.state.E i + Real.sin (ω * (k + 1 : ℕ)) * y.1.state.E i) i - upF N f i := by
      rw [upF_same (fun i hi => (st i hi).1) hi]
      unfold upF; split_ifs <;> ring
    obtain ⟨b1, b2, b3, b4⟩ := LineVec.state_combine (Real.cos (ω * k)) (Real.sin (ω * k)) x.1 y.1 i
    rw [d, a3, b3] at m1
    rw [a1, b1, d, a3] at m2
    rw [a4, b4, uu] at m3
    rw [a2, b2, uu, a4] at m4
    refine ⟨m1, ?_, ?_, ?_⟩
    · simp only
      linear_combination m2
    · simp only
      have : (L.kick N f).χ i = -(L.gH i * upF N f i) := rfl
      rw [this] at m3
      linear_combination m3
    · simp only
      have h1 : (L.kick N f).χ i = -(L.gH i * upF N f i) := rfl
      have h2 : (L.kick N f).H i = L.m i * (upF N f i - L.gH i * upF N f i) := rfl
      rw [h1, h2] at m4
      linear_combination m4
  · have mem : ∀ k, (s (K + k)).vec N ∈ L.space N := by
      intro k
      induction k with
      | zero => exact hs0.same hN0 (fun i hi => by have := LineState.vec_state N (s K) i hi; exact ⟨this.1.symm, this.2.1.symm, this.2.2.1.symm, this.2.2.2.symm⟩)
      | succ k ih =>
        rw [← Nat.add_assoc, (hs (K + k) (Nat.le_add_right _ _)).split hL]
        exact (L.space N).add_mem (LinePars.Settled.move hN0 hL ih (L.next_moves hL _)) (memK _ (by rw [hu, hv]; ring))
    set z : ℕ → L.space N := fun k => ⟨(s (K + k)).vec N, mem k⟩ with hz
    have hstep : ∀ k, z (k + 1) = A (z k) + (Real.cos (ω * (K + k : ℕ)) • (⟨_, memK u hu⟩ : L.space N) + Real.sin (ω * (K + k : ℕ)) • (⟨_, memK v hv⟩ : L.space N)) := by
      intro k
      apply Subtype.ext
      show (s (K + k + 1)).vec N = L.next N ((s (K + k)).vec N) + (Real.cos (ω * (K + k : ℕ)) • (L.kick N u).vec N + Real.sin (ω * (K + k : ℕ)) • (L.kick N v).vec N)
      rw [(hs (K + k) (Nat.le_add_right _ _)).split hL, L.kick_vec]
    set o : ℕ → L.space N := fun k => Real.cos (ω * (K + k : ℕ)) • x + Real.sin (ω * (K + k : ℕ)) • y with ho
    have hdiff : ∀ k, z k - o k = (A ^ k) (z 0 - o 0) := by
      intro k
      induction k with
      | zero => rfl
      | succ k ih =>
        rw [pow_succ']
        show _ = A ((A ^ k) (z 0 - o 0))
        rw [← ih, hstep, show o (k + 1) = A (o k) + _ from hxy (K + k), map_sub]
        abel
    refine ⟨C * ‖z 0 - o 0‖ / ρ ^ K, fun k' hk' i hi => ?_⟩
    obtain ⟨k, rfl⟩ := Nat.exists_eq_add_of_le hk'
    have b := hd k (z 0 - o 0)
    rw [← hdiff] at b
    obtain ⟨c1, c2⟩ := LineVec.abs_le (L.space N) (z k - o k) hi
    have e1 : (z k - o k).1.state.E i = (s (K + k)).E i - (Real.cos (ω * (K + k : ℕ)) * x.1.state.E i + Real.sin (ω * (K + k : ℕ)) * y.1.state.E i) := by
      simp only [LineVec.state, dif_pos hi]
      rfl
    have e2 : (z k - o k).1.state.H i = (s (K + k)).H i - (Real.cos (ω * (K + k : ℕ)) * x.1.state.H i + Real.sin (ω * (K + k : ℕ)) * y.1.state.H i) := by
      simp only [LineVec.state, dif_pos hi]
      rfl
    rw [e1] at c1
    rw [e2] at c2
    have r : C * ρ ^ k * ‖z 0 - o 0‖ = C * ‖z 0 - o 0‖ / ρ ^ K * ρ ^ (K + k) := by
      rw [pow_add]
      field_simp
    rw [r] at b
    exact ⟨c1.trans b, c2.trans b⟩

/-- a driven line keeps what the fields of a line keep -/
lemma LinePars.Settled.driven {L : LinePars} {N : ℕ} (hN : 0 < N) (hL : L.Good N) {f : ℕ → ℝ} (hf : f 0 = 0) {s s' : LineState} (hs : L.Settled N s) (hd : L.Driven N f s s') : L.Settled N s' := by
  have same := fun s : LineState => show s.Same N (s.vec N).state from fun i hi => by have := LineState.vec_state N s i hi; exact ⟨this.1.symm, this.2.1.symm, this.2.2.1.symm, this.2.2.2.symm⟩
  have h1 : s'.vec N ∈ L.space N := by
    rw [hd.split hL]
    exact (L.space N).add_mem (LinePars.Settled.move hN hL (hs.same hN (same s)) (L.next_moves hL _)) ((L.kick_settled hN hf).same hN (same _))
  have h2 : L.Settled N (s'.vec N).state := h1
  exact h2.same hN fun i hi => LineState.vec_state N s' i hi

/-- **a line that is no longer driven becomes dark** -/
lemma LinePars.fades {L : LinePars} {N : ℕ} (hN : 2 ≤ N) (hL : L.Good N) (hF : L.Fading N) (hg : L.gH 0 ≠ 0) {c : ℝ} (hc0 : 0 < c) (hc1 : c < 1) (hc : ∀ i < N, L.p i ≤ c ∧ L.m i ≤ c) :
    ∃ C ρ : ℝ, 0 < C ∧ 0 < ρ ∧ ρ < 1 ∧ ∀ (s : ℕ → LineState), L.Settled N (s 0) → (∀ k : ℕ, L.Moves N (s k) (s (k + 1))) →
      ∀ b, (∀ i < N, |(s 0).E i| ≤ b ∧ |(s 0).H i| ≤ b ∧ |(s 0).ψ i| ≤ b ∧ |(s 0).χ i| ≤ b) → ∀ k, ∀ i < N, |(s k).E i| ≤ C * b * ρ ^ k ∧ |(s k).H i| ≤ C * b * ρ ^ k := by
  have hN0 : 0 < N := by omega
  obtain ⟨C, ρ, hC, hρ0, hρ1, hd⟩ := L.decays hN hL hF hg hc0 hc1 hc
  refine ⟨C, ρ, hC, hρ0, hρ1, fun s hs0 hs b hb k i hi => ?_⟩
  have same := fun k => show (s k).Same N ((s k).vec N).state from fun i hi => by have := LineState.vec_state N (s k) i hi; exact ⟨this.1.symm, this.2.1.symm, this.2.2.1.symm, this.2.2.2.symm⟩
  have mem : ∀ k, (s k).vec N ∈ L.space N := by
    intro k
    induction k with
    | zero => exact hs0.same hN0 (same 0)
    | succ k ih =>
      rw [L.next_of_moves hL ((hs k).same (same k) (same (k + 1)))]
      exact LinePars.Settled.move hN0 hL ih (L.next_moves hL _)
  have hz : ∀ k, (⟨(s k).vec N, mem k⟩ : L.space N) = (L.stepMap N hN0 hL ^ k) ⟨(s 0).vec N, mem 0⟩ := by
    intro k
    induction k with
    | zero => rfl
    | succ k ih =>
      rw [pow_succ']
      show _ = L.stepMap N hN0 hL ((L.stepMap N hN0 hL ^ k) _)
      rw [← ih]
      apply Subtype.ext
      exact L.next_of_moves hL ((hs k).same (same k) (same (k + 1)))
  have hb0 : 0 ≤ b := (abs_nonneg _).trans (hb 0 hN0).1
  have n0 : ‖(⟨(s 0).vec N, mem 0⟩ : L.space N)‖ ≤ b := by
    show ‖(s 0).vec N‖ ≤ b
    rw [pi_norm_le_iff_of_nonneg hb0]
    intro j
    rw [pi_norm_le_iff_of_nonneg hb0]
    intro l
    obtain ⟨h1, h2, h3, h4⟩ := hb j j.2
    fin_cases l
    · exact h1
    · exact h2
    · exact h3
    · exact h4
  have bd := hd k ⟨(s 0).vec N, mem 0⟩
  rw [← hz k] at bd
  have bd' := bd.trans (mul_le_mul_of_nonneg_left n0 (by positivity))
  obtain ⟨c1, c2⟩ := LineVec.abs_le (L.space N) ⟨(s k).vec N, mem k⟩ hi
  have e := same k i hi
  rw [show (⟨(s k).vec N, mem k⟩ : L.space N).1 = (s k).vec N from rfl, ← e.1] at c1
  rw [show (⟨(s k).vec N, mem k⟩ : L.space N).1 = (s k).vec N from rfl, ← e.2.1] at c2
  have r : C * ρ ^ k * b = C * b * ρ ^ k := by ring
  rw [r] at bd'
  exact ⟨c1.trans bd', c2.trans bd'⟩

end Nidn
