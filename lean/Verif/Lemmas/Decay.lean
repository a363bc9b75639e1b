/-
Linear maps of finite-dimensional spaces that do not increase an energy: if no state keeps its energy for ever, every state decays exponentially, and a state driven by an oscillation tends to an oscillation. Used for C180.
-/
import Mathlib.Analysis.Normed.Module.FiniteDimension
import Mathlib.Analysis.SpecialFunctions.Trigonometric.Basic
import Mathlib.Analysis.SpecialFunctions.Pow.Real
import Mathlib.Topology.Algebra.Module.FiniteDimension

namespace Nidn

open Filter Topology

variable {V : Type} [NormedAddCommGroup V] [NormedSpace ℝ V] [FiniteDimensional ℝ V]

/-- an energy: continuous, quadratic, positive -/
structure IsEnergy (W : V → ℝ) : Prop where
  cont : Continuous W
  scale : ∀ (r : ℝ) v, W (r • v) = r ^ 2 * W v
  pos : ∀ v, v ≠ 0 → 0 < W v

lemma IsEnergy.zero {W : V → ℝ} (h : IsEnergy W) : W 0 = 0 := by
  have := h.scale 0 0
  simpa using this

lemma IsEnergy.nonneg {W : V → ℝ} (h : IsEnergy W) (v : V) : 0 ≤ W v := by
  by_cases hv : v = 0
  · rw [hv, h.zero]
  · exact (h.pos v hv).le

/-- a homogeneous inequality needs to be checked on the unit sphere only -/
lemma IsEnergy.sphere {W : V → ℝ} (h : IsEnergy W) {Q : V → ℝ} (hQ : ∀ (r : ℝ) v, Q (r • v) = r ^ 2 * Q v) (c : ℝ) (hs : ∀ v, ‖v‖ = 1 → Q v ≤ c * W v) (v : V) : Q v ≤ c * W v := by
  by_cases hv : v = 0
  · have := hQ 0 0
    rw [hv, h.zero]
    simp at this
    rw [this]; simp
  · have hn : ‖v‖ ≠ 0 := by simpa using hv
    have e : v = ‖v‖ • (‖v‖⁻¹ • v) := by rw [smul_smul, mul_inv_cancel₀ hn, one_smul]
    have h1 : ‖(‖v‖⁻¹ • v)‖ = 1 := by rw [norm_smul, norm_inv, norm_norm, inv_mul_cancel₀ hn]
    rw [e, hQ, h.scale]
    have := hs _ h1
    nlinarith [sq_nonneg ‖v‖, mul_le_mul_of_nonneg_left this (sq_nonneg ‖v‖)]

/-- the energy and the square of the norm control each other -/
lemma IsEnergy.norm {W : V → ℝ} (h : IsEnergy W) : ∃ a : ℝ, 0 < a ∧ ∀ v, ‖v‖ ^ 2 ≤ a * W v ∧ W v ≤ a * ‖v‖ ^ 2 := by
  by_cases hne : (Metric.sphere (0 : V) 1).Nonempty
  · have hc : IsCompact (Metric.sphere (0 : V) 1) := isCompact_sphere 0 1
    obtain ⟨x, hx, hmin⟩ := hc.exists_isMinOn hne h.cont.continuousOn
    obtain ⟨y, hy, hmax⟩ := hc.exists_isMaxOn hne h.cont.continuousOn
    have hx0 : 0 < W x := h.pos x (by rintro rfl; simp at hx)
    have hy0 : 0 ≤ W y := h.nonneg y
    refine ⟨(W x)⁻¹ + W y, by positivity, fun v => ⟨?_, ?_⟩⟩
    · refine h.sphere (Q := fun v => ‖v‖ ^ 2) (fun r v => by rw [norm_smul, mul_pow, Real.norm_eq_abs, sq_abs]) _ (fun v hv => ?_) v
      have h1 : W x ≤ W v := hmin (by simpa using hv)
      have h2 : 1 ≤ (W x)⁻¹ * W v := by rw [← inv_mul_cancel₀ hx0.ne']; exact mul_le_mul_of_nonneg_left h1 (by positivity)
      have h3 : 0 ≤ W y * W v := mul_nonneg hy0 (h.nonneg v)
      rw [hv]; nlinarith
    · by_cases hv : v = 0
      · rw [hv, h.zero]; simp
      have hn : ‖v‖ ≠ 0 := by simpa using hv
      have e : v = ‖v‖ • (‖v‖⁻¹ • v) := by rw [smul_smul, mul_inv_cancel₀ hn, one_smul]
      have h1 : ‖(‖v‖⁻¹ • v)‖ = 1 := by rw [norm_smul, norm_inv, norm_norm, inv_mul_cancel₀ hn]
      have h2 : W (‖v‖⁻¹ • v) ≤ W y := hmax (by simpa using h1)
      have h3 : W v = ‖v‖ ^ 2 * W (‖v‖⁻¹ • v) := by rw [← h.scale, ← e]
      rw [h3]
      have : 0 < (W x)⁻¹ := by positivity
      nlinarith [sq_nonneg ‖v‖, mul_le_mul_of_nonneg_left h2 (sq_nonneg ‖v‖), mul_nonneg this.le (sq_nonneg ‖v‖)]
  · refine ⟨1, one_pos, fun v => ?_⟩
    have hv : v = 0 := by
      by_contra hv
      have hn : ‖v‖ ≠ 0 := by simpa using hv
      exact hne ⟨‖v‖⁻¹ • v, by simp [norm_smul, inv_mul_cancel₀ hn]⟩
    rw [hv, h.zero]; simp

/-- if no state keeps its energy for ever, there is a number of steps after which every state has lost a share of it -/
lemma IsEnergy.loses {W : V → ℝ} (h : IsEnergy W) (A : V →ₗ[ℝ] V) (hA : ∀ v, W (A v) ≤ W v) (hs : ∀ v, (∀ k, W ((A ^ k) v) = W v) → v = 0) :
    ∃ M : ℕ, 0 < M ∧ ∃ ρ : ℝ, 0 ≤ ρ ∧ ρ < 1 ∧ ∀ v, W ((A ^ M) v) ≤ ρ * W v := by
  have hcA : ∀ k, Continuous fun v => W ((A ^ k) v) := fun k => h.cont.comp (LinearMap.continuous_of_finiteDimensional _)
  have mono : ∀ v j k, j ≤ k → W ((A ^ k) v) ≤ W ((A ^ j) v) := by
    intro v j k hjk
    obtain ⟨d, rfl⟩ := Nat.exists_eq_add_of_le hjk
    induction d with
    | zero => exact le_refl _
    | succ d ih =>
      have : (A ^ (j + (d + 1))) v = A ((A ^ (j + d)) v) := by rw [← add_assoc, pow_succ']; rfl
      rw [this]
      exact (hA _).trans (ih (by omega))
  have hc : IsCompact (Metric.sphere (0 : V) 1) := isCompact_sphere 0 1
  have cover : Metric.sphere (0 : V) 1 ⊆ ⋃ k : ℕ, {v | W ((A ^ k) v) < W v} := by
    intro v hv
    by_contra hcon
    simp only [Set.mem_iUnion, Set.mem_ofPred_eq, not_exists, not_lt] at hcon
    have : v = 0 := hs v fun k => le_antisymm (by simpa using mono v 0 k (Nat.zero_le k)) (hcon k)
    rw [this] at hv
    simp at hv
  obtain ⟨t, ht⟩ := hc.elim_finite_subcover (fun k : ℕ => {v | W ((A ^ k) v) < W v}) (fun k => isOpen_lt (hcA k) h.cont) cover
  set M := t.sup id + 1 with hM
  have strict : ∀ v, ‖v‖ = 1 → W ((A ^ M) v) < W v := by
    intro v hv
    have := ht (show v ∈ Metric.sphere (0 : V) 1 by simpa using hv)
    simp only [Set.mem_iUnion, Set.mem_ofPred_eq] at this
    obtain ⟨k, hk, hlt⟩ := this
    have hkM : k ≤ M := by have : id k ≤ t.sup id := Finset.le_sup hk
                           simp at this; omega
    exact (mono v k M hkM).trans_lt hlt
  by_cases hne : (Metric.sphere (0 : V) 1).Nonempty
  · have hq : ContinuousOn (fun v => W ((A ^ M) v) / W v) (Metric.sphere (0 : V) 1) :=
      (hcA M).continuousOn.div h.cont.continuousOn fun v hv => (h.pos v (by rintro rfl; simp at hv)).ne'
    obtain ⟨y, hy, hmax⟩ := hc.exists_isMaxOn hne hq
    have hy1 : ‖y‖ = 1 := by simpa using hy
    have hy0 : 0 < W y := h.pos y (by rintro rfl; simp at hy1)
    refine ⟨M, by omega, W ((A ^ M) y) / W y, div_nonneg (h.nonneg _) hy0.le, (div_lt_one hy0).2 (strict y hy1), ?_⟩
    refine fun v => h.sphere (Q := fun v => W ((A ^ M) v)) (fun r v => by rw [map_smul, h.scale]) _ (fun v hv => ?_) v
    have h1 : W ((A ^ M) v) / W v ≤ W ((A ^ M) y) / W y := hmax (show v ∈ Metric.sphere (0 : V) 1 by simpa using hv)
    rwa [div_le_iff₀ (h.pos v (by rintro rfl; simp at hv))] at h1
  · refine ⟨M, by omega, 0, le_refl _, one_pos, fun v => ?_⟩
    have hv : v = 0 := by
      by_contra hv
      have hn : ‖v‖ ≠ 0 := by simpa using hv
      exact hne ⟨‖v‖⁻¹ • v, by simp [norm_smul, inv_mul_cancel₀ hn]⟩
    rw [hv, map_zero, h.zero, mul_zero]

/-- exponential decay -/
lemma IsEnergy.decays {W : V → ℝ} (h : IsEnergy W) (A : V →ₗ[ℝ] V) (hA : ∀ v, W (A v) ≤ W v) (hs : ∀ v, (∀ k, W ((A ^ k) v) = W v) → v = 0) :
    ∃ C ρ : ℝ, 0 < C ∧ 0 < ρ ∧ ρ < 1 ∧ ∀ k v, ‖(A ^ k) v‖ ≤ C * ρ ^ k * ‖v‖ := by
  obtain ⟨M, hM, ρ, hρ0, hρ1, hl⟩ := h.loses A hA hs
  obtain ⟨a, ha, hn⟩ := h.norm
  -- a positive rate
  set q : ℝ := max ρ (1 / 2) with hq
  have hq0 : 0 < q := lt_of_lt_of_le (by norm_num) (le_max_right _ _)
  have hq1 : q < 1 := max_lt hρ1 (by norm_num)
  have hl' : ∀ v, W ((A ^ M) v) ≤ q * W v := fun v => (hl v).trans (mul_le_mul_of_nonneg_right (le_max_left _ _) (h.nonneg v))
  have hpow : ∀ j v, W ((A ^ (M * j)) v) ≤ q ^ j * W v := by
    intro j
    induction j with
    | zero => intro v; simp
    | succ j ih =>
      intro v
      have : (A ^ (M * (j + 1))) v = (A ^ M) ((A ^ (M * j)) v) := by rw [mul_add, mul_one, add_comm, pow_add]; rfl
      rw [this, pow_succ']
      have := ih v
      calc _ ≤ q * W ((A ^ (M * j)) v) := hl' _
        _ ≤ q * (q ^ j * W v) := mul_le_mul_of_nonneg_left this hq0.le
        _ = _ := by ring
  have mono : ∀ k v, W ((A ^ k) v) ≤ W v := by
    intro k
    induction k with
    | zero => intro v; simp
    | succ k ih => intro v; rw [pow_succ']; exact (hA _).trans (ih v)
  set r : ℝ := q ^ ((1 : ℝ) / (2 * M)) with hr
  have hM' : (0 : ℝ) < M := by exact_mod_cast hM
  have hr0 : 0 < r := Real.rpow_pos_of_pos hq0 _
  have hr1 : r < 1 := Real.rpow_lt_one hq0.le hq1 (by positivity)
  have hrM : r ^ (2 * M) = q := by
    rw [hr, ← Real.rpow_natCast, ← Real.rpow_mul hq0.le]
    push_cast
    rw [one_div, inv_mul_cancel₀ (by positivity), Real.rpow_one]
  refine ⟨a * (1 / r) ^ M, r, by positivity, hr0, hr1, fun k v => ?_⟩
  have hk := Nat.div_add_mod k M
  set j := k / M
  set i := k % M
  have hi : i < M := Nat.mod_lt _ hM
  have e : (A ^ k) v = (A ^ i) ((A ^ (M * j)) v) := by
    conv_lhs => rw [← hk, add_comm, pow_add]
    rfl
  have h1 : W ((A ^ k) v) ≤ q ^ j * W v := by rw [e]; exact (mono i _).trans (hpow j v)
  have h2 : ‖(A ^ k) v‖ ^ 2 ≤ a * (q ^ j * (a * ‖v‖ ^ 2)) :=
    ((hn _).1.trans (mul_le_mul_of_nonneg_left h1 ha.le)).trans (by gcongr; exact (hn v).2)
  have h3 : q ^ j ≤ ((1 / r) ^ M * r ^ k) ^ 2 := by
    rw [← hrM, ← pow_mul, mul_pow, ← pow_mul, ← pow_mul, one_div, inv_pow, inv_mul_eq_div, le_div_iff₀ (by positivity), ← pow_add]
    refine pow_le_pow_of_le_one hr0.le hr1.le ?_
    nlinarith
  refine abs_le_of_sq_le_sq' ?_ (by positivity) |>.2
  calc ‖(A ^ k) v‖ ^ 2 ≤ a * (q ^ j * (a * ‖v‖ ^ 2)) := h2
    _ = (a * ‖v‖) ^ 2 * q ^ j := by ring
    _ ≤ (a * ‖v‖) ^ 2 * ((1 / r) ^ M * r ^ k) ^ 2 := mul_le_mul_of_nonneg_left h3 (by positivity)
    _ = _ := by ring

/-- an oscillating drive has an oscillating answer -/
lemma decays_answer (A : V →ₗ[ℝ] V) {C ρ : ℝ} (hρ0 : 0 < ρ) (hρ1 : ρ < 1) (hd : ∀ k v, ‖(A ^ k) v‖ ≤ C * ρ ^ k * ‖v‖) (ω : ℝ) (u v : V) :
    ∃ x y : V, ∀ k : ℕ, Real.cos (ω * (k + 1 : ℕ)) • x + Real.sin (ω * (k + 1 : ℕ)) • y = A (Real.cos (ω * k) • x + Real.sin (ω * k) • y) + (Real.cos (ω * k) • u + Real.sin (ω * k) • v) := by
  -- the rotation back by one step, and then one step
  let B : V × V →ₗ[ℝ] V × V :=
    { toFun := fun z => (Real.cos ω • A z.1 - Real.sin ω • A z.2, Real.sin ω • A z.1 + Real.cos ω • A z.2)
      map_add' := fun z w => by ext <;> simp <;> module
      map_smul' := fun r z => by ext <;> simp <;> module }
  have hB : ∀ (k : ℕ) (z : V × V), (B ^ k) z = (Real.cos (ω * k) • (A ^ k) z.1 - Real.sin (ω * k) • (A ^ k) z.2, Real.sin (ω * k) • (A ^ k) z.1 + Real.cos (ω * k) • (A ^ k) z.2) := by
    intro k
    induction k with
    | zero => intro z; simp
    | succ k ih =>
      intro z
      have e1 : (B ^ (k + 1)) z = B ((B ^ k) z) := by rw [pow_succ']; rfl
      have e2 : ∀ w, (A ^ (k + 1)) w = A ((A ^ k) w) := fun w => by rw [pow_succ']; rfl
      have hc : Real.cos (ω * (k + 1 : ℕ)) = Real.cos (ω * k) * Real.cos ω - Real.sin (ω * k) * Real.sin ω := by push_cast; rw [mul_add, mul_one, Real.cos_add]
      have hs : Real.sin (ω * (k + 1 : ℕ)) = Real.sin (ω * k) * Real.cos ω + Real.cos (ω * k) * Real.sin ω := by push_cast; rw [mul_add, mul_one, Real.sin_add]
      rw [e1, ih, e2, e2, hc, hs]
      show (Real.cos ω • A (_ - _) - Real.sin ω • A (_ + _), Real.sin ω • A (_ - _) + Real.cos ω • A (_ + _)) = _
      simp only [map_sub, map_add, map_smul]
      ext <;> simp only <;> module
  have inj : Function.Injective (LinearMap.id - B : V × V →ₗ[ℝ] V × V) := by
    rw [← LinearMap.ker_eq_bot, LinearMap.ker_eq_bot']
    intro z hz
    have hz1 : B z = z := by
      have : z - B z = 0 := hz
      exact (sub_eq_zero.1 this).symm
    have hzk : ∀ k : ℕ, (B ^ k) z = z := by
      intro k
      induction k with
      | zero => rfl
      | succ k ih => rw [pow_succ]; show (B ^ k) (B z) = z; rw [hz1, ih]
    have lim : Tendsto (fun k : ℕ => C * ρ ^ k * ‖z.1‖ + C * ρ ^ k * ‖z.2‖) atTop (𝓝 0) := by
      have h := tendsto_pow_atTop_nhds_zero_of_lt_one hρ0.le hρ1
      have := ((h.const_mul C).mul_const ‖z.1‖).add ((h.const_mul C).mul_const ‖z.2‖)
      simpa using this
    have b1 : ∀ k : ℕ, ‖z.1‖ ≤ C * ρ ^ k * ‖z.1‖ + C * ρ ^ k * ‖z.2‖ := by
      intro k
      have e := congrArg Prod.fst (hzk k)
      rw [hB] at e
      simp only at e
      rw [← e]
      refine (norm_sub_le _ _).trans ?_
      rw [e]
      rw [norm_smul, norm_smul]
      refine add_le_add ((mul_le_of_le_one_left (norm_nonneg _) (by rw [Real.norm_eq_abs]; exact Real.abs_cos_le_one _)).trans (hd k _))
        ((mul_le_of_le_one_left (norm_nonneg _) (by rw [Real.norm_eq_abs]; exact Real.abs_sin_le_one _)).trans (hd k _))
    have b2 : ∀ k : ℕ, ‖z.2‖ ≤ C * ρ ^ k * ‖z.1‖ + C * ρ ^ k * ‖z.2‖ := by
      intro k
      have e := congrArg Prod.snd (hzk k)
      rw [hB] at e
      simp only at e
      rw [← e]
      refine (norm_add_le _ _).trans ?_
      rw [e]
      rw [norm_smul, norm_smul]
      refine add_le_add ((mul_le_of_le_one_left (norm_nonneg _) (by rw [Real.norm_eq_abs]; exact Real.abs_sin_le_one _)).trans (hd k _))
        ((mul_le_of_le_one_left (norm_nonneg _) (by rw [Real.norm_eq_abs]; exact Real.abs_cos_le_one _)).trans (hd k _))
    have z1 := ge_of_tendsto' lim b1
    have z2 := ge_of_tendsto' lim b2
    exact Prod.ext (norm_le_zero_iff.1 z1) (norm_le_zero_iff.1 z2)
  obtain ⟨z, hz⟩ := (LinearMap.injective_iff_surjective.1 inj) (Real.cos ω • u - Real.sin ω • v, Real.sin ω • u + Real.cos ω • v)
  have hz : z - B z = (Real.cos ω • u - Real.sin ω • v, Real.sin ω • u + Real.cos ω • v) := hz
  have h1 : z.1 = Real.cos ω • (A z.1 + u) - Real.sin ω • (A z.2 + v) := by
    have := congrArg Prod.fst hz
    have : z.1 - (Real.cos ω • A z.1 - Real.sin ω • A z.2) = Real.cos ω • u - Real.sin ω • v := this
    exact (sub_eq_iff_eq_add.1 this).trans (by module)
  have h2 : z.2 = Real.sin ω • (A z.1 + u) + Real.cos ω • (A z.2 + v) := by
    have := congrArg Prod.snd hz
    have : z.2 - (Real.sin ω • A z.1 + Real.cos ω • A z.2) = Real.sin ω • u + Real.cos ω • v := this
    exact (sub_eq_iff_eq_add.1 this).trans (by module)
  refine ⟨z.1, z.2, fun k => ?_⟩
  have hc : Real.cos (ω * (k + 1 : ℕ)) = Real.cos (ω * k) * Real.cos ω - Real.sin (ω * k) * Real.sin ω := by push_cast; rw [mul_add, mul_one, Real.cos_add]
  have hs : Real.sin (ω * (k + 1 : ℕ)) = Real.sin (ω * k) * Real.cos ω + Real.cos (ω * k) * Real.sin ω := by push_cast; rw [mul_add, mul_one, Real.sin_add]
  have hp := Real.sin_sq_add_cos_sq ω
  have key : ∀ X Y : V, (Real.cos (ω * k) * Real.cos ω - Real.sin (ω * k) * Real.sin ω) • (Real.cos ω • X - Real.sin ω • Y) + (Real.sin (ω * k) * Real.cos ω + Real.cos (ω * k) * Real.sin ω) • (Real.sin ω • X + Real.cos ω • Y)
      = Real.cos (ω * k) • X + Real.sin (ω * k) • Y := by
    intro X Y
    match_scalars
    · linear_combination Real.cos (ω * k) * hp
    · linear_combination Real.sin (ω * k) * hp
  have := key (A z.1 + u) (A z.2 + v)
  rw [← h1, ← h2] at this
  rw [hc, hs, this, map_add, map_smul, map_smul]
  module

end Nidn
