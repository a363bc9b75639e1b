/-
C29 - C33: the regression path from network output to permittivity grid.
-/
import Verif.Model.EpsGrid
import Mathlib.Tactic.Ring
import Mathlib.Tactic.Linarith
import Mathlib.Tactic.FieldSimp
import Mathlib.Tactic.NormNum
import Mathlib.Tactic.Positivity

namespace Nidn

set_option linter.unusedSectionVars false

variable {K : Type} [Field K] [LinearOrder K] [IsStrictOrderedRing K]

omit [Field K] [IsStrictOrderedRing K] in
lemma clip_mem (lo hi v : K) (h : lo ≤ hi) : lo ≤ clip lo hi v ∧ clip lo hi v ≤ hi :=
  ⟨le_min (le_max_right _ _) h, min_le_right _ _⟩

omit [Field K] [IsStrictOrderedRing K] in
lemma clip_id (lo hi v : K) (h1 : lo ≤ v) (h2 : v ≤ hi) : clip lo hi v = v := by
  rw [clip, max_eq_left h1, min_eq_left h2]

/-- Specification: the permittivity lies in the configured ranges. -/
def InRange (c : GridCfg K) (e : K × K) : Prop := (c.realMin ≤ e.1 ∧ e.1 ≤ c.realMax) ∧ (c.imagMin ≤ e.2 ∧ e.2 ≤ c.imagMax)

/-- C29: the voxel model respects the ranges, with or without noise, whatever the weights. -/
theorem C29_voxel (c : GridCfg K) (hr : c.realMin ≤ c.realMax) (hi : c.imagMin ≤ c.imagMax) (w noise : ℕ → ℕ → ℕ → ℕ → K × K) (i j k f : ℕ) :
    InRange c (voxelEps c w noise i j k f) := by
  rw [voxelEps, noiseStage]
  split_ifs
  · exact ⟨clip_mem _ _ _ hr, clip_mem _ _ _ hi⟩
  · exact ⟨clip_mem _ _ _ hr, clip_mem _ _ _ hi⟩

/-- C29: network models respect the ranges for every output and every noise sample, if noise is on or zero-avoidance off.
Missing: zero-avoidance without noise, see `C29_avoid_zero_range` and `C29_false`. -/
theorem C29_network_partial (c : GridCfg K) (hr : c.realMin ≤ c.realMax) (hi : c.imagMin ≤ c.imagMax)
    (hcfg : c.addNoise = true ∨ c.avoidZeroEps = false) (out : ℕ → ℕ → K) (noise : ℕ → ℕ → ℕ → ℕ → K × K)
    (eps : ℕ → ℕ → ℕ → ℕ → K × K) (h : regressionEps c out noise = .ok eps) (i j k f : ℕ) : InRange c (eps i j k f) := by
  rw [regressionEps] at h
  split_ifs at h
  cases h
  beta_reduce
  rw [noiseStage]
  split_ifs with hn
  · exact ⟨clip_mem _ _ _ hr, clip_mem _ _ _ hi⟩
  · have hz : c.avoidZeroEps = false := hcfg.resolve_left hn
    simp only [toEps, hz, Bool.false_eq_true, if_false]
    exact ⟨clip_mem _ _ _ hr, clip_mem _ _ _ hi⟩

/-- C29: the imaginary part respects its range in every configuration. -/
theorem C29_imag (c : GridCfg K) (hi : c.imagMin ≤ c.imagMax) (out : ℕ → ℕ → K) (noise : ℕ → ℕ → ℕ → ℕ → K × K)
    (eps : ℕ → ℕ → ℕ → ℕ → K × K) (h : regressionEps c out noise = .ok eps) (i j k f : ℕ) :
    c.imagMin ≤ (eps i j k f).2 ∧ (eps i j k f).2 ≤ c.imagMax := by
  rw [regressionEps] at h
  split_ifs at h
  cases h
  beta_reduce
  rw [noiseStage]
  split_ifs with hn
  · exact clip_mem _ _ _ hi
  · exact clip_mem _ _ _ hi

lemma avoidZero_cases (cutoff v : K) (_hc : 0 < cutoff) :
    (v = 0 ∧ avoidZero cutoff v = cutoff) ∨ (0 < v ∧ v < cutoff ∧ avoidZero cutoff v = cutoff) ∨
    (v < 0 ∧ -cutoff < v ∧ avoidZero cutoff v = -cutoff) ∨ ((cutoff ≤ v ∨ v ≤ -cutoff) ∧ avoidZero cutoff v = v) := by
  by_cases h0 : v = 0
  · left
    refine ⟨h0, ?_⟩
    simp [avoidZero, h0]
  · right
    by_cases h1 : cutoff ≤ v
    · right; right; exact ⟨.inl h1, by simp [avoidZero, h0, not_lt.mpr h1]⟩
    by_cases h2 : v ≤ -cutoff
    · right; right
      refine ⟨.inr h2, ?_⟩
      simp only [avoidZero, if_neg h0]
      exact if_neg fun h => absurd h.2 (not_lt.mpr h2)
    push Not at h1 h2
    rcases lt_or_gt_of_ne h0 with h3 | h3
    · right; left
      refine ⟨h3, h2, ?_⟩
      simp [avoidZero, h0, h1, h2, tsign, not_lt.mpr h3.le, h3]
    · left
      refine ⟨h3, h1, ?_⟩
      simp [avoidZero, h0, h1, h2, tsign, h3]

/-- C29 with zero-avoidance and without noise: the range of real parts is respected by all outputs exactly if its lower end is outside (-0.01, 0) and its
upper end is outside [0, 0.01). -/
theorem C29_avoid_zero_range (c : GridCfg K) (hr : c.realMin ≤ c.realMax) (hz : c.avoidZeroEps = true) :
    (∀ v w : K, c.realMin ≤ (toEps c v w).1 ∧ (toEps c v w).1 ≤ c.realMax) ↔
      (c.realMin ≤ -(1 / 100) ∨ 0 ≤ c.realMin) ∧ (1 / 100 ≤ c.realMax ∨ c.realMax < 0) := by
  have hc : (0 : K) < 1 / 100 := by norm_num
  simp only [toEps, hz, if_true]
  constructor
  · intro h
    rcases eq_or_lt_of_le hr with heq | hlt
    · -- one-point range: every output gives that point
      have h1 := h 0 0
      have e : realPart c 0 = c.realMin := by rw [realPart, zero_mul, zero_add, clip_id _ _ _ le_rfl hr]
      rw [e] at h1
      rcases avoidZero_cases (1 / 100) c.realMin hc with ⟨h2, h3⟩ | ⟨h2, h3, h4⟩ | ⟨h2, h3, h4⟩ | ⟨h2 | h2, h3⟩
      · rw [h3] at h1; linarith [h1.2]
      · rw [h4] at h1; linarith [h1.2]
      · rw [h4] at h1; linarith [h1.1]
      · exact ⟨.inr (by linarith), .inl (by linarith)⟩
      · exact ⟨.inl h2, .inr (by linarith)⟩
    · have hreach : ∀ t, c.realMin ≤ t → t ≤ c.realMax → ∃ v, realPart c v = t := fun t h1 h2 => by
        have hne : c.realMax - c.realMin ≠ 0 := by linarith
        refine ⟨(t - c.realMin) / (c.realMax - c.realMin), ?_⟩
        rw [realPart, div_mul_cancel₀ _ hne, sub_add_cancel, clip_id _ _ _ h1 h2]
      have key : ∀ t, c.realMin ≤ t → t ≤ c.realMax → c.realMin ≤ avoidZero (1 / 100) t ∧ avoidZero (1 / 100) t ≤ c.realMax := fun t h1 h2 => by
        obtain ⟨v, hv⟩ := hreach t h1 h2
        rw [← hv]; exact h v 0
      constructor
      · by_contra hcon
        push Not at hcon
        obtain ⟨h1, h2⟩ := hcon
        have := (key c.realMin le_rfl hr).1
        rcases avoidZero_cases (1 / 100) c.realMin hc with ⟨h3, h4⟩ | ⟨h3, h4, h5⟩ | ⟨h3, h4, h5⟩ | ⟨h3 | h3, h4⟩ <;> linarith
      · by_contra hcon
        push Not at hcon
        obtain ⟨h1, h2⟩ := hcon
        have := (key c.realMax hr le_rfl).2
        rcases avoidZero_cases (1 / 100) c.realMax hc with ⟨h3, h4⟩ | ⟨h3, h4, h5⟩ | ⟨h3, h4, h5⟩ | ⟨h3 | h3, h4⟩ <;> linarith
  · rintro ⟨h1, h2⟩ v w
    obtain ⟨h3, h4⟩ := clip_mem c.realMin c.realMax (v * (c.realMax - c.realMin) + c.realMin) hr
    rw [← realPart] at h3 h4
    rcases avoidZero_cases (1 / 100) (realPart c v) hc with ⟨h5, h6⟩ | ⟨h5, h6, h7⟩ | ⟨h5, h6, h7⟩ | ⟨h5, h6⟩
    · rw [h6]
      rcases h1 with h1 | h1 <;> rcases h2 with h2 | h2 <;> constructor <;> linarith
    · rw [h7]
      rcases h1 with h1 | h1 <;> rcases h2 with h2 | h2 <;> constructor <;> linarith
    · rw [h7]
      rcases h1 with h1 | h1 <;> rcases h2 with h2 | h2 <;> constructor <;> linarith
    · rw [h6]; exact ⟨h3, h4⟩

/-- A regression config with one cell, one layer and one frequency. -/
def cfg1 (realMin realMax imagMin imagMax : ℚ) (avoid noise : Bool) : GridCfg ℚ :=
  ⟨1, 1, 1, 1, 1, realMin, realMax, imagMin, imagMax, avoid, noise, 1 / 100⟩

/-- C29 is false: with real_min_eps = -0.005 (a valid config) zero-avoidance moves an in-range value below the lower bound. -/
theorem C29_false : ∃ (c : GridCfg ℚ) (out : ℕ → ℕ → ℚ) (eps : ℕ → ℕ → ℕ → ℕ → ℚ × ℚ), c.realMin ≤ c.realMax ∧ c.imagMin ≤ c.imagMax ∧
    regressionEps c out (fun _ _ _ _ => (0, 0)) = .ok eps ∧ ¬ InRange c (eps 0 0 0 0) ∧ (eps 0 0 0 0).1 = -1 / 100 := by
  refine ⟨cfg1 (-5 / 1000) 20 0 3 true false, fun _ _ => 0, _, by decide +kernel, by decide +kernel, rfl, ?_, by decide +kernel⟩
  unfold InRange
  decide +kernel

/-- The default-like range [-20, 20] satisfies the exact condition, [-0.005, 20] does not. -/
example : ((-20 : ℚ) ≤ -(1 / 100) ∨ 0 ≤ (-20 : ℚ)) ∧ (1 / 100 ≤ (20 : ℚ) ∨ (20 : ℚ) < 0) ∧ ¬ ((-5 / 1000 : ℚ) ≤ -(1 / 100) ∨ 0 ≤ (-5 / 1000 : ℚ)) := by
  norm_num

/-! ### C30 -/

/-- C30, real part: every value of the configured range is reached by some normalised output. -/
theorem C30_real (c : GridCfg K) (t : K) (h1 : c.realMin ≤ t) (h2 : t ≤ c.realMax) : ∃ v, 0 ≤ v ∧ v ≤ 1 ∧ realPart c v = t := by
  rcases eq_or_lt_of_le (h1.trans h2) with heq | hlt
  · exact ⟨0, le_rfl, zero_le_one, by rw [realPart, zero_mul, zero_add, clip_id _ _ _ le_rfl heq.le]; exact le_antisymm h1 (heq ▸ h2)⟩
  · have hpos : 0 < c.realMax - c.realMin := by linarith
    refine ⟨(t - c.realMin) / (c.realMax - c.realMin), div_nonneg (by linarith) hpos.le, (div_le_one hpos).mpr (by linarith), ?_⟩
    rw [realPart, div_mul_cancel₀ _ hpos.ne', sub_add_cancel, clip_id _ _ _ h1 h2]

/-- C30, imaginary part: every value of the configured range is reached exactly if imag_min_eps is 0 (or the range is a point). -/
theorem C30_imag_partial (c : GridCfg K) (hi : c.imagMin ≤ c.imagMax) :
    (∀ t, c.imagMin ≤ t → t ≤ c.imagMax → ∃ v, 0 ≤ v ∧ v ≤ 1 ∧ imagPart c v = t) ↔ c.imagMin = 0 ∨ c.imagMin = c.imagMax := by
  constructor
  · intro h
    by_contra hcon
    push Not at hcon
    obtain ⟨h0, h1⟩ := hcon
    have hlt : c.imagMin < c.imagMax := lt_of_le_of_ne hi h1
    rcases lt_or_gt_of_ne h0 with hneg | hpos
    · obtain ⟨v, hv0, hv1, hv⟩ := h c.imagMin le_rfl hi
      have hge : 0 ≤ v * (c.imagMax - c.imagMin) := mul_nonneg hv0 (by linarith)
      rw [imagPart, clip, max_eq_left (by linarith)] at hv
      rcases min_choice (v * (c.imagMax - c.imagMin)) c.imagMax with h2 | h2 <;> rw [h2] at hv <;> linarith
    · obtain ⟨v, hv0, hv1, hv⟩ := h c.imagMax hi le_rfl
      have hle : v * (c.imagMax - c.imagMin) ≤ c.imagMax - c.imagMin := mul_le_of_le_one_left (by linarith) hv1
      rw [imagPart, clip] at hv
      have h2 : max (v * (c.imagMax - c.imagMin)) c.imagMin < c.imagMax := max_lt (by linarith) hlt
      rw [min_eq_left h2.le] at hv
      linarith
  · rintro h t h1 h2
    rcases eq_or_lt_of_le hi with heq | hlt
    · exact ⟨0, le_rfl, zero_le_one, by
        rw [imagPart, zero_mul]
        obtain ⟨a, b⟩ := clip_mem c.imagMin c.imagMax 0 hi
        linarith⟩
    · have h0 : c.imagMin = 0 := h.resolve_right hlt.ne
      have hpos : 0 < c.imagMax - c.imagMin := by linarith
      refine ⟨t / (c.imagMax - c.imagMin), div_nonneg (by linarith) hpos.le, (div_le_one hpos).mpr (by linarith), ?_⟩
      rw [imagPart, div_mul_cancel₀ _ hpos.ne', clip_id _ _ _ h1 h2]

/-- C30 is false: with imaginary range [1, 3] no output in [0,1] yields an imaginary part above 2. -/
theorem C30_imag_false : ∃ c : GridCfg ℚ, c.imagMin ≤ c.imagMax ∧ ∃ t, c.imagMin ≤ t ∧ t ≤ c.imagMax ∧
    ∀ v, 0 ≤ v → v ≤ 1 → imagPart c v ≠ t := by
  refine ⟨cfg1 0 1 1 3 false false, by decide +kernel, 5 / 2, by decide +kernel, by decide +kernel, fun v h0 h1 hv => ?_⟩
  rw [imagPart, clip] at hv
  have e1 : (cfg1 0 1 1 3 false false).imagMax = 3 := rfl
  have e2 : (cfg1 0 1 1 3 false false).imagMin = 1 := rfl
  rw [e1, e2] at hv
  have h2 : max (v * (3 - 1)) (1 : ℚ) < 5 / 2 := max_lt (by linarith) (by norm_num)
  have h3 : max (v * (3 - 1)) (1 : ℚ) ≤ 3 := h2.le.trans (by norm_num)
  rw [min_eq_left h3] at hv
  linarith

/-- A range with imag_min_eps = 0 (the default). -/
example : ∀ t : ℚ, 0 ≤ t → t ≤ 3 → ∃ v, 0 ≤ v ∧ v ≤ 1 ∧ imagPart (cfg1 (-20) 20 0 3 true false) v = t :=
  (C30_imag_partial (cfg1 (-20) 20 0 3 true false) (by decide +kernel)).mpr (.inl rfl)

/-! ### C31 -/

omit [LinearOrder K] [IsStrictOrderedRing K] in
lemma reshape4_even (out : ℕ → ℕ → K) (n1 n2 n3 i j k l : ℕ) :
    reshape4 out 2 n1 n2 (2 * n3) i j k l = out (((i * n1 + j) * n2 + k) * n3 + l / 2) (l % 2) := by
  rw [reshape4]
  congr 1
  · have : ((i * n1 + j) * n2 + k) * (2 * n3) + l = l + 2 * (((i * n1 + j) * n2 + k) * n3) := by ring
    simp only [this]
    rw [Nat.add_mul_div_left _ _ (by norm_num)]
    ring
  · have : ((i * n1 + j) * n2 + k) * (2 * n3) + l = l + 2 * (((i * n1 + j) * n2 + k) * n3) := by ring
    simp only [this]
    rw [Nat.add_mul_mod_self_left]

omit [LinearOrder K] [IsStrictOrderedRing K] [Field K] in
lemma nnInput_row (n1 n2 n3 : ℕ) (x y z freq : ℕ → K) (i j k f : ℕ) (hj : j < n1) (hk : k < n2) (hf : f < n3) :
    nnInput n1 n2 n3 x y z freq (((i * n1 + j) * n2 + k) * n3 + f) = (x i, y j, z k, freq f) := by
  have h1 : (((i * n1 + j) * n2 + k) * n3 + f) / n3 = (i * n1 + j) * n2 + k := by
    rw [Nat.add_comm, Nat.add_mul_div_right _ _ (by omega), Nat.div_eq_of_lt hf, zero_add]
  have h2 : (((i * n1 + j) * n2 + k) * n3 + f) % n3 = f := by
    rw [Nat.add_comm, Nat.add_mul_mod_self_right, Nat.mod_eq_of_lt hf]
  have h3 : ((i * n1 + j) * n2 + k) / n2 = i * n1 + j := by
    rw [Nat.add_comm, Nat.add_mul_div_right _ _ (by omega), Nat.div_eq_of_lt hk, zero_add]
  have h4 : ((i * n1 + j) * n2 + k) % n2 = k := by
    rw [Nat.add_comm, Nat.add_mul_mod_self_right, Nat.mod_eq_of_lt hk]
  have h5 : (i * n1 + j) / n1 = i := by
    rw [Nat.add_comm, Nat.add_mul_div_right _ _ (by omega), Nat.div_eq_of_lt hj, zero_add]
  have h6 : (i * n1 + j) % n1 = j := by
    rw [Nat.add_comm, Nat.add_mul_mod_self_right, Nat.mod_eq_of_lt hj]
  simp only [nnInput, h1, h2, h3, h4, h5, h6]

/-- What the code really reads. For every grid size and cell the real part at frequency `f` is computed from channel `f % 2` at frequency `f / 2`, and the
imaginary part from channel `(F + f) % 2` at frequency `(F + f) / 2`; the spatial cell is the right one. -/
theorem C31_layout_partial (c : GridCfg K) (net : K × K × K × K → ℕ → K) (x y z freq : ℕ → K)
    (noise : ℕ → ℕ → ℕ → ℕ → K × K) (hs : 0 < c.oversampling) (eps : ℕ → ℕ → ℕ → ℕ → K × K)
    (h : regressionEps c (netOut net c.nyU c.nLayers c.nFreq x y z freq) noise = .ok eps)
    (i j k f : ℕ) (hj : j < c.ny) (hk : k < c.nLayers) (hf : f < c.nFreq) :
    eps i j k f = noiseStage c (noise i j k f).1 (noise i j k f).2 (toEps c
      (net (x (i / c.oversampling), y (j / c.oversampling), z k, freq (f / 2)) (f % 2))
      (net (x (i / c.oversampling), y (j / c.oversampling), z k, freq ((c.nFreq + f) / 2)) ((c.nFreq + f) % 2))) := by
  rw [regressionEps] at h
  split_ifs at h with hd
  cases h
  have hj' : j / c.oversampling < c.nyU := by
    rw [Nat.div_lt_iff_lt_mul hs, hd.2]; exact hj
  simp only [repeatXY, reshape4_even, netOut]
  rw [nnInput_row _ _ _ _ _ _ _ _ _ _ _ hj' hk (by omega), nnInput_row _ _ _ _ _ _ _ _ _ _ _ hj' hk (by omega)]

/-- C31 holds for a single frequency: the real part comes from the first, the imaginary part from the second channel of the answer at the cell. -/
theorem C31_single_frequency_partial (c : GridCfg K) (net : K × K × K × K → ℕ → K) (x y z freq : ℕ → K)
    (noise : ℕ → ℕ → ℕ → ℕ → K × K) (hs : 0 < c.oversampling) (h1 : c.nFreq = 1) (eps : ℕ → ℕ → ℕ → ℕ → K × K)
    (h : regressionEps c (netOut net c.nyU c.nLayers c.nFreq x y z freq) noise = .ok eps)
    (i j k : ℕ) (hj : j < c.ny) (hk : k < c.nLayers) :
    eps i j k 0 = noiseStage c (noise i j k 0).1 (noise i j k 0).2 (toEps c
      (net (x (i / c.oversampling), y (j / c.oversampling), z k, freq 0) 0)
      (net (x (i / c.oversampling), y (j / c.oversampling), z k, freq 0) 1)) := by
  rw [C31_layout_partial c net x y z freq noise hs eps h i j k 0 hj hk (by omega), h1]

omit [Field K] [LinearOrder K] [IsStrictOrderedRing K] in
/-- C31: with two or more frequencies the right channel at the right frequency is read only for the real part at the first and the imaginary part at
the last frequency. -/
theorem C31_wrong_everywhere_else_false (F f : ℕ) (hF : 2 ≤ F) :
    ((f / 2, f % 2) = (f, 0) ↔ f = 0) ∧ (((F + f) / 2, (F + f) % 2) = (f, 1) ↔ f = F - 1) := by
  simp only [Prod.mk.injEq]
  omega

/-- C31 is false: two networks that agree on the first channel (the real part) everywhere produce different real parts at the second of two frequencies,
so the real part there is not a function of the model's first channel. -/
theorem C31_false : ∃ (c : GridCfg ℚ) (net net' : ℚ × ℚ × ℚ × ℚ → ℕ → ℚ) (eps eps' : ℕ → ℕ → ℕ → ℕ → ℚ × ℚ),
    (∀ p, net p 0 = net' p 0) ∧
    regressionEps c (netOut net 1 1 2 (fun _ => 0) (fun _ => 0) (fun _ => 0) (fun f => f)) (fun _ _ _ _ => (0, 0)) = .ok eps ∧
    regressionEps c (netOut net' 1 1 2 (fun _ => 0) (fun _ => 0) (fun _ => 0) (fun f => f)) (fun _ _ _ _ => (0, 0)) = .ok eps' ∧
    (eps 0 0 0 1).1 = 0 ∧ (eps' 0 0 0 1).1 = 1 := by
  refine ⟨⟨1, 1, 1, 2, 1, 0, 1, 0, 1, false, false, 0⟩, fun _ _ => 0, fun _ ch => if ch = 0 then 0 else 1, _, _, fun _ => rfl, rfl, rfl,
    by decide +kernel, by decide +kernel⟩

/-- The first coordinate at which the layout theorem applies: a 2x2 grid oversampled from one coarse cell, two frequencies. -/
example : ∃ eps, regressionEps (⟨2, 2, 1, 2, 2, 0, 1, 0, 1, false, false, 0⟩ : GridCfg ℚ)
    (netOut (fun p ch => p.2.2.2 + ch) 1 1 2 (fun _ => 0) (fun _ => 0) (fun _ => 0) (fun f => f / 4)) (fun _ _ _ _ => (0, 0)) = .ok eps ∧
    eps 1 1 0 0 = (0, 1 / 4) ∧ eps 1 1 0 1 = (1, 1) := by
  exact ⟨_, rfl, by decide +kernel, by decide +kernel⟩

/-! ### C32 -/

/-- C32, `_avoid_zero_eps` itself: the real part ends up at least the cutoff away from zero, values outside the band and all imaginary parts are
unchanged, the sign is kept (zero counts as positive), and a second application changes nothing. -/
theorem C32_avoid_zero (cutoff : K) (hc : 0 < cutoff) (e : K × K) :
    cutoff ≤ |(avoidZeroEps cutoff e).1| ∧ (avoidZeroEps cutoff e).2 = e.2 ∧
    (cutoff ≤ |e.1| → avoidZeroEps cutoff e = e) ∧
    (0 ≤ e.1 → 0 < (avoidZeroEps cutoff e).1) ∧ (e.1 < 0 → (avoidZeroEps cutoff e).1 < 0) ∧
    |(avoidZeroEps cutoff e).1 - e.1| ≤ cutoff ∧
    avoidZeroEps cutoff (avoidZeroEps cutoff e) = avoidZeroEps cutoff e := by
  obtain ⟨v, w⟩ := e
  simp only [avoidZeroEps, Prod.mk.injEq, and_true, true_and]
  have idem : ∀ u : K, (cutoff ≤ u ∨ u ≤ -cutoff) → avoidZero cutoff u = u := fun u hu => by
    rcases avoidZero_cases cutoff u hc with ⟨h1, h2⟩ | ⟨h1, h2, h3⟩ | ⟨h1, h2, h3⟩ | ⟨h1, h2⟩
    · rcases hu with hu | hu <;> linarith
    · rcases hu with hu | hu <;> linarith
    · rcases hu with hu | hu <;> linarith
    · exact h2
  rcases avoidZero_cases cutoff v hc with ⟨h1, h2⟩ | ⟨h1, h2, h3⟩ | ⟨h1, h2, h3⟩ | ⟨h1, h2⟩
  · rw [h2]
    refine ⟨le_abs_self _, fun h => ?_, fun _ => hc, fun h => ?_, ?_, idem _ (.inl le_rfl)⟩
    · rw [h1, abs_zero] at h; linarith
    · linarith
    · rw [h1, sub_zero, abs_of_pos hc]
  · rw [h3]
    refine ⟨le_abs_self _, fun h => ?_, fun _ => hc, fun h => by linarith, ?_, idem _ (.inl le_rfl)⟩
    · rw [abs_of_pos h1] at h; linarith
    · rw [abs_of_nonneg (by linarith)]; linarith
  · rw [h3]
    refine ⟨by rw [abs_neg]; exact le_abs_self _, fun h => ?_, fun h => by linarith, fun _ => by linarith, ?_, idem _ (.inr le_rfl)⟩
    · rw [abs_of_neg h1] at h; linarith
    · rw [abs_le]; constructor <;> linarith
  · rw [h2]
    refine ⟨?_, fun _ => rfl, fun h => ?_, fun h => h, ?_, idem _ h1⟩
    · rcases h1 with h1 | h1
      · exact h1.trans (le_abs_self _)
      · have := neg_abs_le v; linarith
    · rcases h1 with h1 | h1 <;> linarith
    · rw [sub_self, abs_zero]; exact hc.le

/-- C32 for the returned grid, without noise: with avoid_zero_eps every real part of a network model's grid is at least 0.01 away from zero. -/
theorem C32_grid_partial (c : GridCfg K) (hz : c.avoidZeroEps = true) (hn : c.addNoise = false) (out : ℕ → ℕ → K) (noise : ℕ → ℕ → ℕ → ℕ → K × K)
    (eps : ℕ → ℕ → ℕ → ℕ → K × K) (h : regressionEps c out noise = .ok eps) (i j k f : ℕ) : 1 / 100 ≤ |(eps i j k f).1| := by
  rw [regressionEps] at h
  split_ifs at h
  cases h
  simp only [noiseStage, hn, Bool.false_eq_true, if_false, toEps, hz, if_true]
  exact (C32_avoid_zero (1 / 100) (by norm_num) (_, (0 : K))).1

/-- C32 is false for the returned grid: noise is added after zero-avoidance, and the voxel model skips zero-avoidance; both can return exactly zero although
avoid_zero_eps is set. -/
theorem C32_noise_false : ∃ (c : GridCfg ℚ), c.avoidZeroEps = true ∧
    (∃ out noise eps, regressionEps c out noise = .ok eps ∧ (eps 0 0 0 0).1 = 0) ∧
    (voxelEps c (fun _ _ _ _ => (0, 0)) (fun _ _ _ _ => (1 / 2, 1 / 2)) 0 0 0 0).1 = 0 := by
  refine ⟨cfg1 (-20) 20 0 3 true true, rfl, ⟨fun _ _ => 1 / 2, fun _ _ _ _ => (1 / 2 - 1 / 80, 1 / 2), _, rfl, by decide +kernel⟩, by decide +kernel⟩

example : avoidZeroEps (1 / 100 : ℚ) (-1 / 1000, 5) = (-1 / 100, 5) ∧ avoidZeroEps (1 / 100 : ℚ) (0, 5) = (1 / 100, 5) ∧
    avoidZeroEps (1 / 100 : ℚ) (3, 5) = (3, 5) := by decide +kernel

/-! ### C33 -/

/-- C33: the grid has the configured size exactly if the oversampling factor divides both Nx and Ny; otherwise a RuntimeError is raised. -/
theorem C33_size (c : GridCfg K) (out : ℕ → ℕ → K) (noise : ℕ → ℕ → ℕ → ℕ → K × K) :
    ((∃ eps, regressionEps c out noise = .ok eps) ↔ c.oversampling ∣ c.nx ∧ c.oversampling ∣ c.ny) ∧
    (¬ (c.oversampling ∣ c.nx ∧ c.oversampling ∣ c.ny) → regressionEps c out noise = .error .runtimeError) := by
  have hdiv : (c.nxU * c.oversampling = c.nx ∧ c.nyU * c.oversampling = c.ny) ↔ c.oversampling ∣ c.nx ∧ c.oversampling ∣ c.ny := by
    have key : ∀ n : ℕ, n / c.oversampling * c.oversampling = n ↔ c.oversampling ∣ n := fun n =>
      ⟨fun h => ⟨n / c.oversampling, by rw [Nat.mul_comm]; exact h.symm⟩, Nat.div_mul_cancel⟩
    rw [GridCfg.nxU, GridCfg.nyU, key, key]
  rw [regressionEps]
  split_ifs with h
  · exact ⟨⟨fun _ => hdiv.mp h, fun _ => ⟨_, rfl⟩⟩, fun hn => absurd (hdiv.mp h) hn⟩
  · exact ⟨⟨fun ⟨_, he⟩ => (by cases he), fun hn => absurd (hdiv.mpr hn) h⟩, fun _ => rfl⟩

/-- C33: cell `(s*a + p, s*b + q)` with `p, q < s` carries exactly the value that the un-oversampled coarse grid has at `(a, b)`, so the grid is constant on
aligned blocks (noise off). -/
theorem C33_blocks (c : GridCfg K) (hn : c.addNoise = false) (out : ℕ → ℕ → K) (noise : ℕ → ℕ → ℕ → ℕ → K × K)
    (eps coarse : ℕ → ℕ → ℕ → ℕ → K × K) (h : regressionEps c out noise = .ok eps)
    (hcoarse : regressionEps { c with nx := c.nxU, ny := c.nyU, oversampling := 1 } out noise = .ok coarse)
    (a b p q k f : ℕ) (hp : p < c.oversampling) (hq : q < c.oversampling) :
    eps (c.oversampling * a + p) (c.oversampling * b + q) k f = coarse a b k f := by
  rw [regressionEps] at h hcoarse
  split_ifs at h with h1
  split_ifs at hcoarse with h2
  cases h
  cases hcoarse
  have e1 : (c.oversampling * a + p) / c.oversampling = a := by
    rw [Nat.add_comm, Nat.add_mul_div_left _ _ (by omega), Nat.div_eq_of_lt hp, zero_add]
  have e2 : (c.oversampling * b + q) / c.oversampling = b := by
    rw [Nat.add_comm, Nat.add_mul_div_left _ _ (by omega), Nat.div_eq_of_lt hq, zero_add]
  simp only [noiseStage, hn, Bool.false_eq_true, if_false, repeatXY, e1, e2, toEps, GridCfg.nyU, Nat.div_one]
  rfl

/-- A 4x2 grid with oversampling 2. -/
example : ∃ eps, regressionEps (⟨4, 2, 1, 1, 2, 0, 9, 0, 9, false, false, 0⟩ : GridCfg ℚ) (fun r ch => (r + ch) / 9) (fun _ _ _ _ => (0, 0)) = .ok eps ∧
    (List.range 4).map (fun i => eps i 1 0 0) = [(0, 1), (0, 1), (1, 2), (1, 2)] := by
  exact ⟨_, rfl, by decide +kernel⟩

end Nidn
