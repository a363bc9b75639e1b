/-
The reflectance of a pattern jumps where the permittivity filter switches a Fourier coefficient on.
-/
import Verif.Lemmas.Lossy
import Verif.Props.Invariance
import Verif.Props.SmoothPattern
import Mathlib.Topology.Order.Basic

namespace Nidn

open Matrix

noncomputable section

variable {m c e : ℂ}

/-- reflection of one wave by a film with the wave impedance `z` in a medium with the wave impedance `z0` -/
lemma film_reflect {z0 z f η α β x y τ : ℂ} (h0 : z0 ≠ 0) (hz : z + z0 ≠ 0) (hη : η = (z - z0) / (z + z0))
    (e1 : α + β = 2 * (x + f * y)) (e2 : z0 * (α - β) = 2 * (z * (x - f * y))) (e3 : 2 * (f * x + y) = τ) (e4 : 2 * (z * (f * x - y)) = z0 * τ) :
    β * (1 - f ^ 2 * η ^ 2) = -α * η * (1 - f ^ 2) := by
  have hη' : η * (z + z0) = z - z0 := by rw [hη]; field_simp
  have hy : y = f * x * η := by
    have : (z + z0) * y = (z + z0) * (f * x * η) := by
      linear_combination (-1 / 2) * e4 + (z0 / 2) * e3 - f * x * hη'
    exact mul_left_cancel₀ hz this
  have ha : z0 * α = x * (z + z0) * (1 - f ^ 2 * η ^ 2) := by
    subst hy; linear_combination (1 / 2) * e2 + (z0 / 2) * e1 + f ^ 2 * η * x * hη'
  have hb : z0 * β = x * (z + z0) * (f ^ 2 * η - η) := by
    subst hy; linear_combination (-1 / 2) * e2 + (z0 / 2) * e1 + x * hη'
  apply mul_left_cancel₀ h0
  linear_combination (1 - f ^ 2 * η ^ 2) * hb + η * (1 - f ^ 2) * ha

lemma reflect_small {z0 : ℝ} {z : ℂ} (h0 : 0 < z0) (hz : 0 < z.re) : ‖(z - z0) / (z + z0)‖ < 1 := by
  have hne : z + z0 ≠ 0 := fun h => by
    have := congrArg Complex.re h
    simp at this; linarith
  rw [norm_div, div_lt_one (norm_pos_iff.2 hne)]
  rw [← sq_lt_sq₀ (norm_nonneg _) (norm_nonneg _), ← Complex.normSq_eq_norm_sq, ← Complex.normSq_eq_norm_sq, Complex.normSq_apply, Complex.normSq_apply]
  simp only [Complex.sub_re, Complex.sub_im, Complex.add_re, Complex.add_im, Complex.ofReal_re, Complex.ofReal_im]
  nlinarith

lemma denom_ne {f η : ℂ} (hf : ‖f‖ ≤ 1) (hη : ‖η‖ < 1) : 1 - f ^ 2 * η ^ 2 ≠ 0 := by
  intro h
  have h1 : f ^ 2 * η ^ 2 = 1 := by linear_combination -h
  have h2 := congrArg norm h1
  rw [norm_mul, norm_pow, norm_pow, norm_one] at h2
  have h3 : ‖f‖ ^ 2 ≤ 1 := pow_le_one₀ (norm_nonneg _) hf
  have h4 : ‖η‖ ^ 2 < 1 := pow_lt_one₀ (norm_nonneg _) hη (by norm_num)
  nlinarith [sq_nonneg ‖η‖, sq_nonneg ‖f‖]

/-- the phase the wave `i` takes up in crossing the slab -/
def lossyF (m c e : ℂ) (i : Fin 2 ⊕ Fin 2) : ℂ := Complex.exp (Complex.I * (lossySlab m c e).q i * (Real.pi / 2 : ℝ))

lemma lossyF_norm (m c e : ℂ) (i : Fin 2 ⊕ Fin 2) : ‖lossyF m c e i‖ ≤ 1 := by
  rw [lossyF, Complex.norm_exp, Real.exp_le_one_iff]
  have : 0 ≤ ((lossySlab m c e).q i).im := branchQ_im _
  simp
  positivity

lemma lossy_through (m c e : ℂ) (a : Fin 2 ⊕ Fin 2 → ℂ) (i : Fin 2 ⊕ Fin 2) : (lossySlab m c e).through a i = lossyF m c e i * a i := rfl

lemma front_e (a b : Fin 2 ⊕ Fin 2 → ℂ) : litFront.eTan a b = Sum.elim (fun i => 169 / 5 * (a (.inl i) - b (.inl i))) fun i => 5 * (a (.inr i) - b (.inr i)) := by
  rw [LayerData.eTan, litFront_kp]
  show _ *ᵥ ((1 : Matrix (Fin 2 ⊕ Fin 2) (Fin 2 ⊕ Fin 2) ℂ) *ᵥ _) = _
  rw [Matrix.one_mulVec, lit_kp, Matrix.fromBlocks_mulVec]
  ext (i | i) <;> simp only [Sum.elim_inl, Sum.elim_inr, Function.comp_def, litFront_q] <;> fin_cases i <;>
    simp [Matrix.mulVec, dotProduct, Fin.sum_univ_two, litB, litC] <;> ring

lemma front_h (a b : Fin 2 ⊕ Fin 2 → ℂ) : litFront.hTan a b = a + b := by
  rw [LayerData.hTan]
  exact Matrix.one_mulVec _

/-- the symmetric and the antisymmetric part of amplitudes -/
def parts (a : Fin 2 ⊕ Fin 2 → ℂ) : Fin 2 ⊕ Fin 2 → ℂ := litPhi *ᵥ a

lemma parts_eq (a : Fin 2 ⊕ Fin 2 → ℂ) : parts a = Sum.elim ![a (.inl 0) + a (.inl 1), a (.inl 0) - a (.inl 1)] ![a (.inr 0) + a (.inr 1), a (.inr 0) - a (.inr 1)] := by
  rw [parts, litPhi, Matrix.fromBlocks_mulVec]
  ext (i | i) <;> fin_cases i <;> simp [litV, dotProduct, Fin.sum_univ_two] <;> ring

lemma parts_parts (a : Fin 2 ⊕ Fin 2 → ℂ) : parts (litPhi *ᵥ a) = (2 : ℂ) • a := by
  rw [← parts, parts_eq, parts_eq]
  ext (i | i) <;> fin_cases i <;> simp <;> ring

/-- the wave impedance of vacuum for the two polarisations -/
def z0 : Fin 2 ⊕ Fin 2 → ℝ := Sum.elim (fun _ => 169 / 5) fun _ => 5

lemma z0_pos (i : Fin 2 ⊕ Fin 2) : 0 < z0 i := by rcases i with i | i <;> norm_num [z0]

lemma parts_front_e (a b : Fin 2 ⊕ Fin 2 → ℂ) (i : Fin 2 ⊕ Fin 2) : parts (litFront.eTan a b) i = z0 i * (parts a i - parts b i) := by
  rw [front_e, parts_eq, parts_eq, parts_eq]
  rcases i with i | i <;> fin_cases i <;> simp [z0] <;> ring

/-- the ratio of the tangential fields of the wave `i` in the slab -/
def lossyZ (m c e : ℂ) (i : Fin 2 ⊕ Fin 2) : ℂ := lossyMu m c i / (lossySlab m c e).q i

/-- the reflection of the wave `i` at the surface of a thick slab -/
def lossyEta (m c e : ℂ) (i : Fin 2 ⊕ Fin 2) : ℂ := (lossyZ m c e i - z0 i) / (lossyZ m c e i + z0 i)

lemma lossyZ_pos (h : LossyCase m c e) (i : Fin 2 ⊕ Fin 2) : 0 < (lossyZ m c e i).re := by
  rw [lossyZ, lossySlab_q, lossyLam]
  exact impedance_pos (h.eps i).1 (h.eps i).2 (h.mu i).1 (h.mu i).2

lemma lossy_reflect (h : LossyCase m c e) {a0 b0 aN : Fin 2 ⊕ Fin 2 → ℂ} (hs : StackSol [litFront, lossySlab m c e, litFront] a0 b0 aN 0) (i : Fin 2 ⊕ Fin 2) :
    parts b0 i * (1 - lossyF m c e i ^ 2 * lossyEta m c e i ^ 2) = -parts a0 i * lossyEta m c e i * (1 - lossyF m c e i ^ 2) := by
  obtain ⟨a', b', ⟨h1, h2⟩, a'', b'', ⟨h3, h4⟩, rfl, h0⟩ := hs
  rw [← h0, litFront_through] at h3 h4
  rw [litFront_through] at h1 h2
  have hz : lossyZ m c e i + z0 i ≠ 0 := fun h' => by
    have := congrArg Complex.re h'
    simp only [Complex.add_re, Complex.ofReal_re, Complex.zero_re] at this
    linarith [lossyZ_pos h i, z0_pos i]
  have slabh : ∀ u v, (lossySlab m c e).hTan u v = litPhi *ᵥ (u + v) := fun u v => rfl
  have p2 : ∀ u, parts (litPhi *ᵥ u) i = 2 * u i := fun u => by rw [parts_parts]; rfl
  have padd : ∀ u v, parts (u + v) i = parts u i + parts v i := fun u v => by rw [parts, Matrix.mulVec_add]; rfl
  have pz : parts (0 : Fin 2 ⊕ Fin 2 → ℂ) i = 0 := by rw [parts, Matrix.mulVec_zero]; rfl
  refine film_reflect (Complex.ofReal_ne_zero.2 (z0_pos i).ne') hz rfl (x := a' i) (y := b' i) (τ := parts aN i) ?_ ?_ ?_ ?_
  · have := congrFun (congrArg parts h1) i
    rw [front_h, slabh, p2, padd, Pi.add_apply, lossy_through] at this
    exact this
  · have := congrFun (congrArg parts h2) i
    rw [parts_front_e, lossySlab_e h, p2, lossy_through] at this
    exact this
  · have := congrFun (congrArg parts h3) i
    rw [front_h, slabh, p2, padd, pz, add_zero, Pi.add_apply, lossy_through] at this
    exact this
  · have := congrFun (congrArg parts h4) i
    rw [parts_front_e, lossySlab_e h, p2, lossy_through, pz, sub_zero] at this
    exact this

/-- what the solver reports for the grating -/
lemma lossy_run (h : LossyCase m c e) : ∃ R T, rtForward 13 (rtNormalization 1 litTheta) [litFront, lossySlab m c e, litFront]
      (planewave litTheta 0 1 0 (0 : Fin 2)) 0 = .ok (R, T) ∧
    ∃ ρ : Fin 2 → ℂ, R = (Complex.normSq (ρ 0) + Complex.normSq (ρ 1)) / 2 ∧
      ∀ i, ρ i * (1 - lossyF m c e (.inl i) ^ 2 * lossyEta m c e (.inl i) ^ 2) = -lossyEta m c e (.inl i) * (1 - lossyF m c e (.inl i) ^ 2) := by
  obtain ⟨R, T, hRT⟩ := lossy_ok h (rtNormalization 1 litTheta) (planewave litTheta 0 1 0 (0 : Fin 2))
  refine ⟨R, T, hRT, ?_⟩
  have hq : ∀ M ∈ [litFront, lossySlab m c e, litFront], ∀ i, M.q i ≠ 0 := by
    intro M hM i
    simp only [List.mem_cons, List.not_mem_nil, or_false] at hM
    rcases hM with rfl | rfl | rfl
    exacts [litFront_regular.q i, h.q_ne i, litFront_regular.q i]
  have hr : RealOrder 13 ((1 : ℝ) : ℂ) litKx litKy 0 := by
    have := realOrder_oblique (ω := 13) (θ := litTheta) (ε0 := 1) (kx := litKx) (ky := litKy) (o := 0) (by norm_num) (by rw [lit_cos]; norm_num)
      (by norm_num) 0 (by rw [litKx_eq, lit_sin, Real.cos_zero, Real.sqrt_one]; norm_num) (by rw [litKy_eq, Real.sin_zero]; simp)
    rwa [Complex.ofReal_ofNat] at this
  obtain ⟨aN, b0, hsol, hR, -⟩ := rt_values (mids := [lossySlab m c e]) hr (planewave_inOrder litTheta 0 1 0 0) hq hRT
  have key := lossy_reflect h hsol
  rw [lit_wave] at key
  have pw : parts (litW (-5 / 13) 0) = Sum.elim (fun _ => -5 / 13) 0 := by
    rw [parts_eq]; ext (i | i) <;> fin_cases i <;> simp [litW]
  have hin : ∀ i, parts b0 (.inr i) = 0 := fun i => by
    have := key (.inr i)
    rw [pw, Sum.elim_inr, Pi.zero_apply, neg_zero, zero_mul, zero_mul] at this
    exact (mul_eq_zero.1 this).resolve_right (denom_ne (lossyF_norm _ _ _ _) (reflect_small (z0_pos _) (lossyZ_pos h _)))
  have hb : b0 = litW (b0 (.inl 0)) (b0 (.inl 1)) := by
    have h0 := hin 0
    have h1 := hin 1
    simp only [parts_eq, Sum.elim_inr, Matrix.cons_val_zero, Matrix.cons_val_one] at h0 h1
    ext (i | i) <;> fin_cases i
    · rfl
    · rfl
    · show b0 (.inr 0) = 0
      linear_combination (1 / 2) * h0 + (1 / 2) * h1
    · show b0 (.inr 1) = 0
      linear_combination (1 / 2) * h0 - (1 / 2) * h1
  have hn : rtNormalization 1 litTheta = 13 / 5 := by rw [rtNormalization, Real.sqrt_one, lit_cos]; norm_num
  refine ⟨fun i => -13 / 5 * parts b0 (.inl i), ?_, fun i => ?_⟩
  · change R = oneWay 13 litFront b0 * _ at hR
    rw [hb, lit_power, hn] at hR
    have ha : Complex.normSq (-13 / 5) = 169 / 25 := by
      rw [map_div₀, Complex.normSq_neg]; norm_num [Complex.normSq_ofNat]
    have par : ∀ u v : ℂ, Complex.normSq (u + v) + Complex.normSq (u - v) = 2 * (Complex.normSq u + Complex.normSq v) := fun u v => by
      rw [Complex.normSq_add, Complex.normSq_sub]; ring
    have e0 : parts b0 (.inl 0) = b0 (.inl 0) + b0 (.inl 1) := by rw [parts_eq]; rfl
    have e1 : parts b0 (.inl 1) = b0 (.inl 0) - b0 (.inl 1) := by rw [parts_eq]; rfl
    beta_reduce
    rw [map_mul, map_mul, ha, ← mul_add, e0, e1, par, hR]
    ring
  · have := key (.inl i)
    rw [pw, Sum.elim_inl] at this
    linear_combination (-13 / 5) * this

/-! ### the two sides of the threshold -/

/-- the mean permittivity of the design `t` -/
def jumpMean (t : ℝ) : ℂ := 1 + t * Complex.I

/-- the coefficient of the design `t` -/
def jumpCoeff (t : ℝ) : ℂ := -(24 / 169) + t * Complex.I

/-- the design `t`: one pixel with the permittivity 145/169 + 2it, one with the permittivity 193/169 -/
def jumpPattern (t : ℝ) : Fin 2 → Fin 1 → ℂ := fun i _ => if i = 0 then 145 / 169 + 2 * t * Complex.I else 193 / 169

lemma jump_eq (t : ℝ) : jumpPattern t = lossyPattern (jumpMean t) (jumpCoeff t) := by
  funext i j
  rw [jumpPattern, lossyPattern, jumpMean, jumpCoeff]
  split <;> ring

lemma jump_sub (t : ℝ) : jumpMean t - jumpCoeff t = ((193 / 169 : ℝ) : ℂ) := by rw [jumpMean, jumpCoeff]; push_cast; ring

lemma jump_add (t : ℝ) : jumpMean t + jumpCoeff t = ((145 / 169 : ℝ) : ℂ) + ((2 * t : ℝ) : ℂ) * Complex.I := by rw [jumpMean, jumpCoeff]; push_cast; ring

lemma jump_add_re (t : ℝ) : (jumpMean t + jumpCoeff t).re = 145 / 169 := by rw [jump_add]; simp

lemma jump_add_im (t : ℝ) : (jumpMean t + jumpCoeff t).im = 2 * t := by rw [jump_add]; simp

lemma jump_mean_filter (t : ℝ) : zeroSmall (jumpMean t) = jumpMean t := by
  rw [zeroSmall, if_neg]
  rintro ⟨h, -⟩
  simp [jumpMean] at h
  norm_num at h

lemma jump_mu {t : ℝ} (ht : 0 ≤ t) (i : Fin 2 ⊕ Fin 2) : 0 < (lossyMu (jumpMean t) (jumpCoeff t) i).re ∧ 0 ≤ (lossyMu (jumpMean t) (jumpCoeff t) i).im := by
  rcases i with i | i <;> fin_cases i
  · simp [lossyMu]
  · simp [lossyMu]
  · show 0 < (169 - 144 / (jumpMean t - jumpCoeff t)).re ∧ 0 ≤ (169 - 144 / (jumpMean t - jumpCoeff t)).im
    rw [jump_sub, show (169 : ℂ) - 144 / ((193 / 169 : ℝ) : ℂ) = ((169 - 144 / (193 / 169) : ℝ) : ℂ) by push_cast; ring, Complex.ofReal_re, Complex.ofReal_im]
    norm_num
  · show 0 < (169 - 144 / (jumpMean t + jumpCoeff t)).re ∧ 0 ≤ (169 - 144 / (jumpMean t + jumpCoeff t)).im
    have hn : Complex.normSq (jumpMean t + jumpCoeff t) = (145 / 169) ^ 2 + (2 * t) ^ 2 := by
      rw [Complex.normSq_apply, jump_add_re, jump_add_im]; ring
    have hp : (0 : ℝ) < (145 / 169) ^ 2 + (2 * t) ^ 2 := by positivity
    have e : (144 : ℂ) / (jumpMean t + jumpCoeff t) = ((144 : ℝ) : ℂ) * (jumpMean t + jumpCoeff t)⁻¹ := by push_cast; ring
    rw [e, Complex.sub_re, Complex.sub_im, Complex.re_ofReal_mul, Complex.im_ofReal_mul, Complex.inv_re, Complex.inv_im, jump_add_re, jump_add_im, hn]
    constructor
    · have : (145 / 169 : ℝ) / ((145 / 169) ^ 2 + (2 * t) ^ 2) ≤ 169 / 145 := by
        rw [div_le_div_iff₀ hp (by norm_num)]
        nlinarith [sq_nonneg t]
      norm_num at this ⊢
      linarith
    · have : 0 ≤ 2 * t / ((145 / 169) ^ 2 + (2 * t) ^ 2) := by positivity
      have e3 : -(2 * t) / ((145 / 169) ^ 2 + (2 * t) ^ 2) = -(2 * t / ((145 / 169) ^ 2 + (2 * t) ^ 2)) := by ring
      rw [e3]
      norm_num at this ⊢
      linarith

lemma jump_ne (t : ℝ) : jumpMean t - jumpCoeff t ≠ 0 ∧ jumpMean t + jumpCoeff t ≠ 0 := by
  constructor
  · rw [jump_sub]; exact Complex.ofReal_ne_zero.2 (by norm_num)
  · intro h
    have := jump_add_re t
    rw [h] at this
    norm_num at this

lemma jump_below {t : ℝ} (ht : 0 ≤ t) (h : t < 1e-14) : LossyCase (jumpMean t) (jumpCoeff t) 0 := by
  refine ⟨jump_mean_filter t, ?_, (jump_ne t).1, (jump_ne t).2, ?_, jump_mu ht, by rw [jump_add_im]; linarith, by rw [jump_sub, Complex.ofReal_im]⟩
  · rw [zeroSmall, if_pos]
    simp only [jumpCoeff, Complex.add_re, Complex.add_im, Complex.re_ofReal_mul, Complex.im_ofReal_mul, Complex.I_re, Complex.I_im]
    norm_num at h ⊢
    exact h
  · intro i
    rcases i with i | i <;> fin_cases i <;> simp [lossyEps, jumpMean, ht] <;> norm_num

lemma jump_above {t : ℝ} (ht : 1e-14 ≤ t) : LossyCase (jumpMean t) (jumpCoeff t) (jumpCoeff t) := by
  have ht0 : 0 ≤ t := le_trans (by norm_num) ht
  refine ⟨jump_mean_filter t, ?_, (jump_ne t).1, (jump_ne t).2, ?_, jump_mu ht0, by rw [jump_add_im]; linarith, by rw [jump_sub, Complex.ofReal_im]⟩
  · rw [zeroSmall, if_neg]
    rintro ⟨-, h⟩
    simp only [jumpCoeff, Complex.add_im, Complex.im_ofReal_mul, Complex.I_im] at h
    norm_num at h ht
    linarith
  · intro i
    rcases i with i | i <;> fin_cases i
    · show 0 < (jumpMean t + jumpCoeff t - 144 / 169).re ∧ 0 ≤ (jumpMean t + jumpCoeff t - 144 / 169).im
      rw [Complex.sub_re, Complex.sub_im, jump_add_re, jump_add_im]
      norm_num
      exact ht0
    · show 0 < (jumpMean t - jumpCoeff t - 144 / 169).re ∧ 0 ≤ (jumpMean t - jumpCoeff t - 144 / 169).im
      rw [Complex.sub_re, Complex.sub_im, jump_sub, Complex.ofReal_re, Complex.ofReal_im]
      norm_num
    · show 0 < (jumpMean t + jumpCoeff t).re ∧ 0 ≤ (jumpMean t + jumpCoeff t).im
      rw [jump_add_re, jump_add_im]
      norm_num
      exact ht0
    · show 0 < (jumpMean t - jumpCoeff t).re ∧ 0 ≤ (jumpMean t - jumpCoeff t).im
      rw [jump_sub, Complex.ofReal_re, Complex.ofReal_im]
      norm_num

lemma eta_form (m c e : ℂ) (i : Fin 2) (hq : (lossySlab m c e).q (.inl i) ≠ 0) :
    lossyEta m c e (.inl i) * (5 + (lossySlab m c e).q (.inl i)) = 5 - (lossySlab m c e).q (.inl i) ∨ 5 + (lossySlab m c e).q (.inl i) = 0 := by
  by_cases h5 : 5 + (lossySlab m c e).q (.inl i) = 0
  · exact .inr h5
  · left
    have hμ : lossyMu m c (.inl i) = 169 := by fin_cases i <;> rfl
    have hz : z0 (Sum.inl i : Fin 2 ⊕ Fin 2) = 169 / 5 := rfl
    rw [lossyEta, lossyZ, hμ, hz]
    set q := (lossySlab m c e).q (.inl i)
    have h5' : q + 5 ≠ 0 := by rwa [add_comm]
    have e1 : (169 : ℂ) / q - ((169 / 5 : ℝ) : ℂ) = 169 * (5 - q) / (5 * q) := by push_cast; field_simp
    have e2 : (169 : ℂ) / q + ((169 / 5 : ℝ) : ℂ) = 169 * (5 + q) / (5 * q) := by push_cast; field_simp
    rw [e1, e2]
    field_simp

/-- below the threshold the slab hardly reflects -/
lemma jump_dark {t : ℝ} (ht : 0 ≤ t) (h : t < 1e-14) : ∃ R T, rtForward 13 (rtNormalization 1 litTheta)
    [litFront, lossySlab (jumpMean t) (jumpCoeff t) 0, litFront] (planewave litTheta 0 1 0 (0 : Fin 2)) 0 = .ok (R, T) ∧ R < 1e-20 := by
  have hc := jump_below ht h
  obtain ⟨R, T, hRT, ρ, hR, hρ⟩ := lossy_run hc
  refine ⟨R, T, hRT, ?_⟩
  have key : ∀ i, Complex.normSq (ρ i) < 1e-20 := by
    intro i
    set q := (lossySlab (jumpMean t) (jumpCoeff t) 0).q (.inl i) with hq
    set η := lossyEta (jumpMean t) (jumpCoeff t) 0 (.inl i) with hη
    set f := lossyF (jumpMean t) (jumpCoeff t) 0 (.inl i) with hf
    have hlam : lossyLam (jumpMean t) (jumpCoeff t) 0 (.inl i) = 25 + ((169 * t : ℝ) : ℂ) * Complex.I := by
      fin_cases i <;> simp [lossyLam, lossyEps, lossyMu, jumpMean] <;> ring
    have hqs : q ^ 2 = 25 + ((169 * t : ℝ) : ℂ) * Complex.I := by rw [hq, lossySlab_q, branchQ_sq, csqrt_sq, hlam]
    have hqr : 0 ≤ q.re := by
      rw [hq, lossySlab_q]
      apply branchQ_csqrt_re
      rw [hlam]
      simp
      exact ht
    have hn : (5 : ℝ) ≤ ‖5 + q‖ := by
      refine le_trans ?_ (Complex.re_le_norm _)
      simp [hqr]
    have h5 : 5 + q ≠ 0 := norm_pos_iff.1 (by linarith)
    have he := (eta_form _ _ _ i (hc.q_ne _)).resolve_right h5
    rw [← hη, ← hq] at he
    have hη1 : ‖η‖ ≤ 1e-12 := by
      have e2 : η * (5 + q) ^ 2 = -(((169 * t : ℝ) : ℂ) * Complex.I) := by
        linear_combination (5 + q) * he - hqs
      have := congrArg norm e2
      rw [norm_mul, norm_pow, norm_neg, norm_mul, Complex.norm_I, mul_one, Complex.norm_real, Real.norm_eq_abs, abs_of_nonneg (by positivity)] at this
      have h25 : (25 : ℝ) ≤ ‖5 + q‖ ^ 2 := by nlinarith
      have h0 := norm_nonneg η
      norm_num at h ⊢
      nlinarith
    have hf1 : ‖f‖ ^ 2 ≤ 1 := pow_le_one₀ (norm_nonneg _) (lossyF_norm _ _ _ _)
    have hr := congrArg norm (hρ i)
    rw [← hη, ← hf, norm_mul, norm_mul, norm_neg] at hr
    have hd : (1 / 2 : ℝ) ≤ ‖1 - f ^ 2 * η ^ 2‖ := by
      have h1 := norm_sub_norm_le (1 : ℂ) (f ^ 2 * η ^ 2)
      rw [norm_one, norm_mul, norm_pow, norm_pow] at h1
      have h2 : ‖η‖ ^ 2 ≤ 1 / 2 := by
        have := norm_nonneg η
        norm_num at hη1 ⊢
        nlinarith
      have h3 : ‖f‖ ^ 2 * ‖η‖ ^ 2 ≤ 1 * (1 / 2) := mul_le_mul hf1 h2 (by positivity) (by norm_num)
      linarith
    have hu : ‖1 - f ^ 2‖ ≤ 2 := by
      refine (norm_sub_le _ _).trans ?_
      rw [norm_one, norm_pow]; linarith
    have h0 := norm_nonneg (ρ i)
    have hfin : ‖ρ i‖ ≤ 4e-12 := by
      have h1 : ‖ρ i‖ * (1 / 2) ≤ ‖ρ i‖ * ‖1 - f ^ 2 * η ^ 2‖ := mul_le_mul_of_nonneg_left hd h0
      have h2 : ‖η‖ * ‖1 - f ^ 2‖ ≤ 1e-12 * 2 := mul_le_mul hη1 hu (norm_nonneg _) (by norm_num)
      norm_num at h2 ⊢
      linarith
    rw [Complex.normSq_eq_norm_sq]
    have : ‖ρ i‖ ^ 2 ≤ (4e-12) ^ 2 := pow_le_pow_left₀ h0 hfin 2
    norm_num at this ⊢
    linarith
  have h0 := key 0
  have h1 := key 1
  rw [hR]
  linarith

/-- at the threshold it reflects more than a twentieth of the power -/
lemma jump_bright {t : ℝ} (h : 1e-14 ≤ t) : ∃ R T, rtForward 13 (rtNormalization 1 litTheta)
    [litFront, lossySlab (jumpMean t) (jumpCoeff t) (jumpCoeff t), litFront] (planewave litTheta 0 1 0 (0 : Fin 2)) 0 = .ok (R, T) ∧ 1 / 20 < R := by
  have hc := jump_above h
  obtain ⟨R, T, hRT, ρ, hR, hρ⟩ := lossy_run hc
  refine ⟨R, T, hRT, ?_⟩
  have hlam : lossyLam (jumpMean t) (jumpCoeff t) (jumpCoeff t) (.inl 1) = (7 : ℂ) ^ 2 := by
    show (jumpMean t - jumpCoeff t - 144 / 169) * 169 = _
    rw [jump_sub]
    push_cast
    norm_num
  have hq : (lossySlab (jumpMean t) (jumpCoeff t) (jumpCoeff t)).q (.inl 1) = 7 := by
    rw [lossySlab_q, hlam]
    exact branchQ_csqrt_of_sq 7 (by norm_num) (by norm_num)
  have hη := eta_form _ _ _ 1 (hc.q_ne _)
  rw [hq] at hη
  have hη := hη.resolve_right (by norm_num)
  have hη' : lossyEta (jumpMean t) (jumpCoeff t) (jumpCoeff t) (.inl 1) = -1 / 6 := by linear_combination (1 / 12) * hη
  have hf : lossyF (jumpMean t) (jumpCoeff t) (jumpCoeff t) (.inl 1) ^ 2 = -1 := by
    have h3 := odd_phase 3
    rw [lossyF, hq, ← h3]
    norm_num
  have h1 := hρ 1
  rw [hη', hf] at h1
  have h2 : ρ 1 = ((12 / 37 : ℝ) : ℂ) := by push_cast; linear_combination (36 / 37) * h1
  rw [hR, h2, Complex.normSq_ofReal]
  have := Complex.normSq_nonneg (ρ 0)
  norm_num
  linarith

/-- C122 fails where the permittivity filter switches a coefficient: take two pixels with the permittivities `145/169 + 2it` and `193/169`, and
nothing else in the structure depends on `t`. For every `t` from 0 up to the threshold the solver reports a reflectance below 1e-20, whatever
eigenvectors it is given; at the threshold `t = 1e-14` and above it reports more than 1/20. -/
theorem C122_jump (t : ℝ) (ht : 0 ≤ t) (L : LayerData (Fin 2 ⊕ Fin 2)) (hL : Built 13 litKx litKy litOrders (.patterned (jumpPattern t) (Real.pi / 2)) L) :
    ∃ R T, rtForward 13 (rtNormalization 1 litTheta) [litFront, L, litFront] (planewave litTheta 0 1 0 (0 : Fin 2)) 0 = .ok (R, T) ∧
      (t < 1e-14 → R < 1e-20) ∧ (1e-14 ≤ t → 1 / 20 < R) := by
  rw [jump_eq] at hL
  have any : ∀ e, LossyCase (jumpMean t) (jumpCoeff t) e → ∀ r, rtForward 13 (rtNormalization 1 litTheta)
      [litFront, lossySlab (jumpMean t) (jumpCoeff t) e, litFront] (planewave litTheta 0 1 0 (0 : Fin 2)) 0 = .ok r →
      rtForward 13 (rtNormalization 1 litTheta) [litFront, L, litFront] (planewave litTheta 0 1 0 (0 : Fin 2)) 0 = .ok r := by
    intro e he r h
    refine (C114_eigenvectors 13 litKx litKy litOrders [.patterned (lossyPattern (jumpMean t) (jumpCoeff t)) (Real.pi / 2)] [lossySlab _ _ e] [L]
      (.cons (lossy_built he) .nil) (.cons hL .nil) ((1 : ℝ) : ℂ) ((1 : ℝ) : ℂ) (by norm_num) (by norm_num) 0 0 ?_ _ _ _ r).2 h
    intro M hM
    simp only [List.mem_cons, List.not_mem_nil, or_false, List.cons_append, List.nil_append] at hM
    rcases hM with rfl | rfl | rfl
    exacts [litFront_regular, lossySlab_regular he, litFront_regular]
  rcases lt_or_ge t 1e-14 with h | h
  · obtain ⟨R, T, h1, h2⟩ := jump_dark ht h
    exact ⟨R, T, any _ (jump_below ht h) _ h1, fun _ => h2, fun h' => absurd h (not_lt.2 h')⟩
  · obtain ⟨R, T, h1, h2⟩ := jump_bright h
    exact ⟨R, T, any _ (jump_above h) _ h1, fun h' => absurd h' (not_lt.2 h), fun _ => h2⟩

/-- the layer the solver holds for the design `t` -/
lemma jump_built {t : ℝ} (ht : 0 ≤ t) : ∃ L, Built 13 litKx litKy litOrders (.patterned (jumpPattern t) (Real.pi / 2)) L := by
  rw [jump_eq]
  rcases lt_or_ge t 1e-14 with h | h
  · exact ⟨_, lossy_built (jump_below ht h)⟩
  · exact ⟨_, lossy_built (jump_above h)⟩

/-- C122 is false for patterned layers without the condition on the filter: pixels that depend smoothly on one design variable, and no
function that gives the reported reflectance is even continuous in it. -/
theorem C122_filter_false : ¬ ∃ R T : ℝ → ℝ, ContinuousAt R 1e-14 ∧ ∀ t, 0 ≤ t → ∀ L,
    Built 13 litKx litKy litOrders (.patterned (jumpPattern t) (Real.pi / 2)) L →
    rtForward 13 (rtNormalization 1 litTheta) [litFront, L, litFront] (planewave litTheta 0 1 0 (0 : Fin 2)) 0 = .ok (R t, T t) := by
  rintro ⟨R, T, hc, h⟩
  have val : ∀ t, 0 ≤ t → (t < 1e-14 → R t < 1e-20) ∧ (1e-14 ≤ t → 1 / 20 < R t) := by
    intro t ht
    obtain ⟨L, hL⟩ := jump_built ht
    obtain ⟨R', T', h1, h2⟩ := C122_jump t ht L hL
    rw [h t ht L hL] at h1
    injection h1 with h1
    rw [(Prod.mk.inj h1).1]
    exact h2
  have h1 : 1 / 20 < R 1e-14 := (val _ (by norm_num)).2 le_rfl
  have h2 : ∀ᶠ t in nhds (1e-14 : ℝ), 1 / 20 < R t := hc.eventually (lt_mem_nhds h1)
  obtain ⟨u, hu, hlt⟩ := exists_Ioc_subset_of_mem_nhds h2 ⟨0, by norm_num⟩
  set s := max u 0 with hs
  have hs1 : s < 1e-14 := max_lt hu (by norm_num)
  have hmem : (s + 1e-14) / 2 ∈ Set.Ioc u 1e-14 := ⟨by linarith [le_max_left u 0], by linarith⟩
  have h3 : 1 / 20 < R ((s + 1e-14) / 2) := hlt hmem
  have h4 := (val ((s + 1e-14) / 2) (by have := le_max_right u 0; norm_num; positivity)).1 (by linarith)
  norm_num at h3 h4
  linarith

/-! ### a structure that meets the conditions of `C122_damped` -/

lemma single_built {Nx Ny : ℕ} [NeZero Nx] [NeZero Ny] (ω : ℂ) (s : Fin Nx → Fin Ny → ℂ) (μ : ℂ) (hμ : 1 ≤ μ.re) (hs : fourierCoeff s 0 = μ) (d : ℝ) :
    Built ω 0 0 oneOrder (.patterned s d) (patternedLayer ω 0 0 (Matrix.of fun _ _ => μ)⁻¹ (fun _ => μ * ω ^ 2) 1 d) := by
  have hμ0 : μ ≠ 0 := by rintro rfl; norm_num at hμ
  have hr : Resolved Nx Ny oneOrder := by
    intro i j
    have h1 := NeZero.pos Nx
    have h2 := NeZero.pos Ny
    simp [oneOrder, h1, h2]
  have hk : kMat (0 : Fin 1 → ℂ) 0 = 0 := by
    ext (i | i) j <;> simp [kMat]
  have hj : jkMat (0 : Fin 1 → ℂ) 0 = 0 := by
    ext (i | i) j <;> simp [jkMat]
  obtain ⟨C, h1, h2⟩ := (C15_entries s oneOrder).1 hr
  have hC : C = Matrix.of fun _ _ => μ := by
    ext i j
    rw [h2, Subsingleton.elim i j, sub_self, hs]; rfl
  subst hC
  have hu : IsUnit (Matrix.of fun (_ _ : Fin 1) => μ).det := by simp [hμ0]
  have hf : (Matrix.of fun (_ _ : Fin 1) => μ).map zeroSmall = Matrix.of fun _ _ => μ := by
    ext i j
    show zeroSmall μ = μ
    rw [zeroSmall, if_neg]
    rintro ⟨h, -⟩
    norm_num at h
    linarith
  refine .patterned _ _ _ (fromBlocks (Matrix.of fun _ _ => μ) 0 0 (Matrix.of fun _ _ => μ)) ?_ _ _ ?_ (by simp)
  · simp only [epsilonFft]
    rw [h1, ok_bind, torchInverse, if_pos hu, ok_bind, fromBlocks_filter, hf]
    rfl
  · rw [IsEig, kpPatterned, hj, eigenMat, hk, Matrix.zero_mul, Matrix.zero_mul, sub_zero, sub_zero, Matrix.mul_one, Matrix.one_mul]
    ext (i | i) (j | j)
    · rw [Subsingleton.elim i j]; simp [mul_comm]
    · simp
    · simp
    · rw [Subsingleton.elim i j]; simp [mul_comm]

/-- one of the two pixels is the design variable -/
def pairPattern (x : ℝ) : Fin 2 → Fin 1 → ℂ := fun i _ => if i = 0 then ((2 + x : ℝ) : ℂ) else 3

lemma pair_mean (x : ℝ) : fourierCoeff (pairPattern x) 0 = ((5 + x : ℝ) : ℂ) / 2 := by
  rw [fourierCoeff, Fin.sum_univ_two]
  simp [pairPattern]
  ring

/-- smoothness in one of two pixels of a patterned layer, at a damped frequency -/
example (norm : ℝ) (a0 bN : Fin 1 ⊕ Fin 1 → ℂ) : ∃ R T : ℝ → ℝ, ContDiffAt ℝ 3 R 0 ∧ ContDiffAt ℝ 3 T 0 ∧ ∀ᶠ x in nhds (0 : ℝ), ∀ m,
    List.Forall₂ (Built (1 + Complex.I) 0 0 oneOrder) [.patterned (pairPattern x) 1] m →
      rtForward (1 + Complex.I) norm (uniformLayer (1 + Complex.I) 0 0 1 0 :: m ++ [uniformLayer (1 + Complex.I) 0 0 1 0]) a0 bN = .ok (R x, T x) := by
  have hmean : ∀ i j, fourierCoeff (pairPattern 0) (oneOrder i - oneOrder j) = ((5 / 2 : ℝ) : ℂ) := fun i j => by
    rw [Subsingleton.elim i j, sub_self, pair_mean]; push_cast; ring
  refine C122_damped (n := 1) 3 (0 : ℝ) (1 + Complex.I) (by simp) 0 0 (by simp) (by simp) oneOrder (fun _ => 1) (fun _ => 1) (fun _ => 0) (fun _ => 0)
    ⟨contDiffAt_const, contDiffAt_const, one_ne_zero, by simp, le_rfl⟩ ⟨contDiffAt_const, contDiffAt_const, one_ne_zero, by simp, le_rfl⟩
    [fun x => .patterned (pairPattern x) 1] ?_ ?_ [patternedLayer (1 + Complex.I) 0 0 (Matrix.of fun _ _ => ((5 / 2 : ℝ) : ℂ))⁻¹
      (fun _ => ((5 / 2 : ℝ) : ℂ) * (1 + Complex.I) ^ 2) 1 1] ?_ norm a0 bN
  · intro F hF
    rw [List.mem_singleton.1 hF]
    refine .patterned pairPattern (fun _ => 1) (fun a b => ?_) contDiffAt_const fun i j => ?_
    · by_cases h : a = 0
      · simp only [pairPattern, h, if_true]
        exact Complex.ofRealCLM.contDiff.contDiffAt.comp _ (contDiffAt_const.add contDiffAt_id)
      · simp only [pairPattern, h, if_false]
        exact contDiffAt_const
    · right; left
      rw [hmean, Complex.ofReal_re]; norm_num
  · intro F hF
    rw [List.mem_singleton.1 hF]
    refine ⟨fun a b => ?_, zero_le_one, fun i j => ?_⟩
    · by_cases h : a = 0
      · simp [pairPattern, h]
      · simp [pairPattern, h]
    · rw [hmean, zeroSmall, if_neg]
      rintro ⟨h, -⟩
      rw [Complex.ofReal_re] at h
      norm_num at h
  · exact .cons (single_built _ _ _ (by rw [Complex.ofReal_re]; norm_num) (by have := hmean 0 0; rwa [sub_self] at this) 1) .nil

end

end Nidn
