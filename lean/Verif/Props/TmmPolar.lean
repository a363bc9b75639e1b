/-
C155: unpolarised light and ellipsometry in the transfer-matrix module.
-/
import Verif.Props.TmmLayers
import Verif.Props.TmmEnergy
import Verif.Props.TmmAngles
import Verif.Props.TmmIncAccept
import Mathlib.Analysis.SpecialFunctions.Integrals.Basic
import Mathlib.Analysis.SpecialFunctions.Complex.Circle

namespace Nidn

noncomputable section

/-- Specification: the power that a component with amplitudes `s` and `p` for the two polarisations passes on, of a wave linearly polarised at the angle `α`. -/
def linearPower (s p : ℝ) (α : ℝ) : ℝ := s * Real.cos α ^ 2 + p * Real.sin α ^ 2

/-- the mean over all directions of polarisation -/
lemma linearPower_mean (s p : ℝ) : (∫ α in (0 : ℝ)..(2 * Real.pi), linearPower s p α) / (2 * Real.pi) = (s + p) / 2 := by
  have h1 : IntervalIntegrable (fun α => s * Real.cos α ^ 2) MeasureTheory.volume 0 (2 * Real.pi) := (by fun_prop : _root_.Continuous fun α => s * Real.cos α ^ 2).intervalIntegrable _ _
  have h2 : IntervalIntegrable (fun α => p * Real.sin α ^ 2) MeasureTheory.volume 0 (2 * Real.pi) := (by fun_prop : _root_.Continuous fun α => p * Real.sin α ^ 2).intervalIntegrable _ _
  simp only [linearPower]
  rw [intervalIntegral.integral_add h1 h2, intervalIntegral.integral_const_mul, intervalIntegral.integral_const_mul, integral_cos_sq, integral_sin_sq]
  have := Real.pi_pos
  simp
  field_simp

/-- C155. `unpolarized_RT` returns the reflectance and transmittance averaged over all directions of linear polarisation. -/
theorem C155_average (asin : ℂ → ℂ) (n : List ℂ) (d : List (Option ℝ)) (th0 lam : ℂ) (R T : ℝ) :
    unpolarizedRT asin n d th0 lam = .ok (R, T) ↔ ∃ s p, cohTmm asin "s" n d th0 lam = .ok s ∧ cohTmm asin "p" n d th0 lam = .ok p ∧
      R = (∫ α in (0 : ℝ)..(2 * Real.pi), linearPower s.R p.R α) / (2 * Real.pi) ∧ T = (∫ α in (0 : ℝ)..(2 * Real.pi), linearPower s.T p.T α) / (2 * Real.pi) := by
  simp only [linearPower_mean]
  unfold unpolarizedRT
  simp only [bind_ok, pure, Except.pure, Except.ok.injEq, Prod.mk.injEq]
  constructor
  · rintro ⟨s, hs, p, hp, rfl, rfl⟩
    exact ⟨s, p, hs, hp, rfl, rfl⟩
  · rintro ⟨s, p, hs, hp, rfl, rfl⟩
    exact ⟨s, hs, p, hp, rfl, rfl⟩

lemma list_two_le {l : List ℝ} (h : ∀ x ∈ l, 0 ≤ x) {k : ℕ} (hk : 0 < k) {a b : ℝ} (h0 : l[0]? = some a) (h1 : l[k]? = some b) : a + b ≤ l.sum := by
  cases l with
  | nil => simp at h0
  | cons c l =>
    obtain ⟨k, rfl⟩ := Nat.exists_eq_succ_of_ne_zero hk.ne'
    simp only [List.getElem?_cons_zero, Option.some.injEq, List.getElem?_cons_succ, Nat.succ_eq_add_one] at h0 h1
    rw [List.sum_cons, h0]
    have := List.single_le_sum (fun x hx => h x (by simp [hx])) b (List.mem_of_getElem? h1)
    linarith

/-- C155. In passive stacks the two are not negative and together at most 1. -/
theorem C155_energy (asin : ℂ → ℂ) (hasin : ∀ z, Complex.sin (asin z) = z) (n : List ℂ) (d : List (Option ℝ)) (n0 θ lam : ℝ) (hl : 0 < lam) (R T : ℝ) (h : unpolarizedRT asin n d θ lam = .ok (R, T))
    (h0 : n[0]? = some (n0 : ℂ)) (hn : ∀ z ∈ n, 0 ≤ z.re * z.im)
    (hx : ∀ (pol : String) (c : TmmData), cohTmm asin pol n d θ lam = .ok c → ∀ (i : ℕ) x, d[i]? = some (some x) → 0 ≤ x ∧ (c.kz.getD i 0 * x).im ≤ 35) : 0 ≤ R ∧ 0 ≤ T ∧ R + T ≤ 1 := by
  have key : ∀ pol c, cohTmm asin pol n d θ lam = .ok c → 0 ≤ c.R ∧ 0 ≤ c.T ∧ c.R + c.T ≤ 1 := by
    intro pol c hc
    obtain ⟨a, ha, -, hpos, e0, e1, -⟩ := C142_shares asin hasin pol n d n0 θ lam hl c hc h0 hn (hx pol c hc)
    have two := (cohTmm_run hasin hc).two
    refine ⟨hpos _ (List.mem_of_getElem? e0), hpos _ (List.mem_of_getElem? e1), ?_⟩
    rw [← C142_sum c a ha]
    exact list_two_le hpos (by omega) e0 e1
  unfold unpolarizedRT at h
  simp only [bind_ok, pure, Except.pure, Except.ok.injEq, Prod.mk.injEq] at h
  obtain ⟨s, hs, p, hp, rfl, rfl⟩ := h
  obtain ⟨a1, a2, a3⟩ := key _ _ hs
  obtain ⟨b1, b2, b3⟩ := key _ _ hp
  exact ⟨by linarith, by linarith, by linarith⟩

/-- C155. `ellips` returns angles in the ranges of ellipsometry from which the ratio of the reflected amplitudes can be read off: `rp = -rs tan ψ exp(i Δ)`. -/
theorem C155_ratio (asin : ℂ → ℂ) (n : List ℂ) (d : List (Option ℝ)) (th0 lam : ℂ) (ψ Δ : ℝ) (h : ellips asin n d th0 lam = .ok (ψ, Δ)) :
    0 ≤ ψ ∧ ψ < Real.pi / 2 ∧ -Real.pi < Δ ∧ Δ ≤ Real.pi ∧ ∃ s p, cohTmm asin "s" n d th0 lam = .ok s ∧ cohTmm asin "p" n d th0 lam = .ok p ∧ s.r ≠ 0 ∧
      p.r = -s.r * (Real.tan ψ * Complex.exp (Δ * Complex.I)) := by
  unfold ellips at h
  simp only [bind_ok, pure, Except.pure, Except.ok.injEq, Prod.mk.injEq, nanDiv_ok] at h
  obtain ⟨s, hs, p, hp, x, ⟨hr, rfl⟩, y, ⟨-, rfl⟩, rfl, rfl⟩ := h
  refine ⟨Real.arctan_nonneg.2 (norm_nonneg _), Real.arctan_lt_pi_div_two _, Complex.neg_pi_lt_arg _, Complex.arg_le_pi _, s, p, hs, hp, hr, ?_⟩
  rw [Real.tan_arctan]
  have e : ‖p.r / s.r‖ = ‖-p.r / s.r‖ := by rw [neg_div, norm_neg]
  rw [e, Complex.norm_mul_exp_arg_mul_I]
  field_simp

/-- `ellips` works exactly where both polarisations do and s light is reflected -/
theorem C155_answers (asin : ℂ → ℂ) (n : List ℂ) (d : List (Option ℝ)) (th0 lam : ℂ) (s p : TmmData) (hs : cohTmm asin "s" n d th0 lam = .ok s) (hp : cohTmm asin "p" n d th0 lam = .ok p) :
    (s.r ≠ 0 → ∃ e, ellips asin n d th0 lam = .ok e) ∧ (s.r = 0 → ellips asin n d th0 lam = .error .nan) := by
  unfold ellips
  rw [hs, ok_bind, hp, ok_bind]
  constructor
  · intro h
    exact ⟨_, by rw [show nanDiv p.r s.r = .ok (p.r / s.r) from nanDiv_ok.2 ⟨h, rfl⟩, ok_bind, show nanDiv (-p.r) s.r = .ok (-p.r / s.r) from nanDiv_ok.2 ⟨h, rfl⟩, ok_bind]; rfl⟩
  · intro h
    simp [nanDiv, h]
    rfl

/-- reflection at a single surface -/
lemma surface_r {asin : ℂ → ℂ} (hasin : ∀ z, Complex.sin (asin z) = z) {pol : String} {n0 nN th0 lam : ℂ} {c : TmmData} (h : cohTmm asin pol [n0, nN] [none, none] th0 lam = .ok c) :
    n0 ≠ 0 ∧ nN ≠ 0 ∧ Complex.cos th0 ≠ 0 ∧ nN * Complex.sin (c.th.getD 1 0) = n0 * Complex.sin th0 ∧ TowardsBack (nN * Complex.cos (c.th.getD 1 0)) ∧
    (tmmB pol n0 th0 + tmmA pol n0 th0 * codeRatio pol nN (Complex.cos (c.th.getD 1 0))) * c.r = tmmB pol n0 th0 - tmmA pol n0 th0 * codeRatio pol nN (Complex.cos (c.th.getD 1 0)) ∧
    tmmB pol n0 th0 + tmmA pol n0 th0 * codeRatio pol nN (Complex.cos (c.th.getD 1 0)) ≠ 0 := by
  have hI : stackIndices n0 [] nN = [n0, nN] := rfl
  have hT : stackThicknesses [] = [none, none] := rfl
  rw [← hI, ← hT] at h
  have hr := cohTmm_run hasin h
  obtain ⟨a1, a2⟩ := stack_amplitudes hr (fun m hm => by simp at hm) rfl
  simp only [codeFilms, List.map_nil, frontFields, List.length_nil, zero_add, one_mul] at a1 a2
  have h0 := (hr.snell_at 0 (by simp [stackIndices])).1
  have hc := hr.cos_ne 0 (by simp [stackIndices])
  rw [hr.cos_first] at hc
  obtain ⟨h1, h2⟩ := hr.snell_at 1 (by simp [stackIndices])
  have hf := hr.fwd_last
  simp only [stackIndices, List.map_nil, List.nil_append, List.getD_cons_zero, List.getD_cons_succ, List.length_cons, List.length_nil, zero_add, Nat.add_one_sub_one] at h0 h1 h2 hf
  have hA : tmmA pol n0 th0 ≠ 0 := by unfold tmmA; split; exacts [one_ne_zero, h0]
  have hB : tmmB pol n0 th0 ≠ 0 := by unfold tmmB; split; exacts [mul_ne_zero h0 hc, hc]
  set Y := codeRatio pol nN (Complex.cos (c.th.getD 1 0))
  have e : (tmmB pol n0 th0 + tmmA pol n0 th0 * Y) * c.r = tmmB pol n0 th0 - tmmA pol n0 th0 * Y := by linear_combination Y * a1 - a2
  refine ⟨h0, h1, hc, h2, hf, e, fun z => ?_⟩
  rw [z, zero_mul] at e
  exact mul_ne_zero two_ne_zero hB (by linear_combination z - e)

/-- C155. Brewster's angle: at a single surface between transparent media, light that comes in at the angle whose tangent is the ratio of the indices is reflected with s polarisation only, so `ψ = 0`. -/
theorem C155_brewster (asin : ℂ → ℂ) (hasin : ∀ z, Complex.sin (asin z) = z) (n0 n1 θ : ℝ) (lam : ℂ) (h0 : 0 < n0) (h1 : 0 < n1) (hθ : 0 < Real.cos θ) (hb : n0 * Real.sin θ = n1 * Real.cos θ)
    (p : TmmData) (hp : cohTmm asin "p" [n0, n1] [none, none] θ lam = .ok p) :
    p.r = 0 ∧ p.R = 0 ∧ ∀ ψ Δ, ellips asin [n0, n1] [none, none] θ lam = .ok (ψ, Δ) → ψ = 0 := by
  obtain ⟨-, -, -, hs, hf, e, ne⟩ := surface_r hasin hp
  have n0c : (n0 : ℂ) ≠ 0 := by exact_mod_cast h0.ne'
  have n1c : (n1 : ℂ) ≠ 0 := by exact_mod_cast h1.ne'
  have hbc : (n0 : ℂ) * Complex.sin θ = n1 * Complex.cos θ := by exact_mod_cast congrArg (fun r : ℝ => (r : ℂ)) hb
  have hsin : Complex.sin (p.th.getD 1 0) = Complex.cos θ := mul_left_cancel₀ n1c (hs.trans hbc)
  have hcos : Complex.cos (p.th.getD 1 0) = Complex.sin θ ∨ Complex.cos (p.th.getD 1 0) = -Complex.sin θ := by
    apply eq_or_eq_neg_of_sq_eq_sq
    have a := Complex.sin_sq_add_cos_sq (p.th.getD 1 0)
    have b := Complex.sin_sq_add_cos_sq (θ : ℂ)
    rw [hsin] at a
    linear_combination a - b
  have hsp : 0 < Real.sin θ := by
    have : 0 < n0 * Real.sin θ := by rw [hb]; positivity
    exact (mul_pos_iff_of_pos_left h0).1 this
  have hpos : Complex.cos (p.th.getD 1 0) = Complex.sin θ := by
    refine hcos.resolve_right fun z => ?_
    rw [z, ← Complex.ofReal_sin, ← Complex.ofReal_neg, ← Complex.ofReal_mul] at hf
    unfold TowardsBack at hf
    rw [Complex.ofReal_im, Complex.ofReal_re] at hf
    rcases hf with ⟨-, h⟩ | ⟨-, h⟩
    · exact lt_irrefl _ h
    · nlinarith [mul_pos h1 hsp]
  have hr0 : p.r = 0 := by
    have hz : tmmB "p" n0 θ - tmmA "p" n0 θ * codeRatio "p" n1 (Complex.cos (p.th.getD 1 0)) = 0 := by
      simp only [tmmA, tmmB, codeRatio, hpos]
      rw [if_neg (by decide), if_neg (by decide), if_neg (by decide)]
      field_simp
      linear_combination -hbc
    rw [hz] at e
    exact (mul_eq_zero.1 e).resolve_left ne
  refine ⟨hr0, by rw [(cohTmm_run hasin hp).R_def, hr0]; simp, fun ψ Δ h => ?_⟩
  unfold ellips at h
  simp only [bind_ok, pure, Except.pure, Except.ok.injEq, Prod.mk.injEq, nanDiv_ok] at h
  obtain ⟨s, -, p', hp', x, ⟨-, rfl⟩, y, -, rfl, -⟩ := h
  rw [hp, Except.ok.injEq] at hp'
  rw [← hp', hr0]
  simp

/-- C155. Beyond the critical angle of a surface between transparent media everything is reflected in both polarisations, so `ψ = π/4`: only the phases differ. -/
theorem C155_total (asin : ℂ → ℂ) (hasin : ∀ z, Complex.sin (asin z) = z) (n0 n1 θ : ℝ) (lam : ℂ) (h1 : 0 < n1) (ht : n1 < n0 * Real.sin θ) :
    (∀ pol c, cohTmm asin pol [n0, n1] [none, none] θ lam = .ok c → c.R = 1) ∧ ∀ ψ Δ, ellips asin [n0, n1] [none, none] θ lam = .ok (ψ, Δ) → ψ = Real.pi / 4 := by
  have key : ∀ pol c, cohTmm asin pol [n0, n1] [none, none] θ lam = .ok c → ‖c.r‖ = 1 := by
    intro pol c hc
    obtain ⟨n0c, n1c, -, hs, -, e, ne⟩ := surface_r hasin hc
    have hI : ∃ κ : ℝ, Complex.cos (c.th.getD 1 0) = κ * Complex.I := by
      have a := Complex.sin_sq_add_cos_sq (c.th.getD 1 0)
      set s : ℝ := n0 * Real.sin θ / n1 with hsd
      have hsv : Complex.sin (c.th.getD 1 0) = s := by
        apply mul_left_cancel₀ n1c
        rw [hs, hsd]
        push_cast
        field_simp
      have hs1 : 1 < s := by rw [hsd, lt_div_iff₀ h1]; linarith
      have hsq : Complex.cos (c.th.getD 1 0) ^ 2 = (((Real.sqrt (s ^ 2 - 1) : ℝ) : ℂ) * Complex.I) ^ 2 := by
        rw [mul_pow, Complex.I_sq, ← Complex.ofReal_pow, Real.sq_sqrt (by nlinarith)]
        rw [hsv] at a
        push_cast
        linear_combination a
      rcases eq_or_eq_neg_of_sq_eq_sq _ _ hsq with q | q
      · exact ⟨_, q⟩
      · exact ⟨-Real.sqrt (s ^ 2 - 1), by rw [q]; push_cast; ring⟩
    obtain ⟨κ, hκ⟩ := hI
    have hform : ∃ a b : ℝ, tmmB pol n0 θ = a ∧ tmmA pol n0 θ * codeRatio pol n1 (Complex.cos (c.th.getD 1 0)) = b * Complex.I := by
      unfold tmmA tmmB codeRatio
      rw [hκ]
      split
      · exact ⟨n0 * Real.cos θ, n1 * κ, by push_cast; ring, by push_cast; ring⟩
      · exact ⟨Real.cos θ, n0 * κ / n1, by push_cast; ring, by push_cast; ring⟩
    obtain ⟨a, b, ha, hb⟩ := hform
    rw [ha, hb] at e ne
    have hn : ‖(a : ℂ) + b * Complex.I‖ = ‖(a : ℂ) - b * Complex.I‖ := by
      rw [← Complex.norm_conj]
      congr 1
      simp [sub_eq_add_neg]
    have := congrArg norm e
    rw [norm_mul, ← hn] at this
    exact mul_left_cancel₀ (norm_ne_zero_iff.2 ne) (this.trans (mul_one _).symm)
  refine ⟨fun pol c hc => by rw [(cohTmm_run hasin hc).R_def, key pol c hc, one_pow], fun ψ Δ h => ?_⟩
  unfold ellips at h
  simp only [bind_ok, pure, Except.pure, Except.ok.injEq, Prod.mk.injEq, nanDiv_ok] at h
  obtain ⟨s, hs, p, hp, x, ⟨-, rfl⟩, y, -, rfl, -⟩ := h
  rw [norm_div, key _ _ hs, key _ _ hp, div_one, Real.arctan_one]

/-- C155. A single surface between transparent media is accepted in both polarisations, below the critical angle and (by more than the rounding allowance) beyond it. -/
theorem C155_surface (asin : ℂ → ℂ) (hasin : ∀ z, Complex.sin (asin z) = z) (pol : String) (hpol : pol = "s" ∨ pol = "p") (n0 n1 θ : ℝ) (lam : ℂ) (h0 : 0 < n0) (h1 : 0 < n1) (hθ : 0 < Real.cos θ) (hl : lam ≠ 0)
    (hs : |n0 * Real.sin θ| < n1 ∨ n1 ^ 2 + (100 * tmmEps) ^ 2 < (n0 * Real.sin θ) ^ 2) : ∃ c, cohTmm asin pol [n0, n1] [none, none] θ lam = .ok c := by
  have n0c : (n0 : ℂ) ≠ 0 := by exact_mod_cast h0.ne'
  have n1c : (n1 : ℂ) ≠ 0 := by exact_mod_cast h1.ne'
  have hsq := Real.sin_sq_add_cos_sq θ
  obtain ⟨a0, hsn0, hc0⟩ := (C151_real asin hasin n0 n0 θ h0).1 (by
    rw [abs_mul, abs_of_pos h0]
    have : |Real.sin θ| < 1 := by rw [abs_lt]; constructor <;> nlinarith
    nlinarith)
  have ha0 : Complex.cos a0 = Real.cos θ := by
    have : Real.sqrt (n0 ^ 2 - (n0 * Real.sin θ) ^ 2) = n0 * Real.cos θ := by
      rw [show n0 ^ 2 - (n0 * Real.sin θ) ^ 2 = (n0 * Real.cos θ) ^ 2 by linear_combination (-n0 ^ 2) * hsq]
      exact Real.sqrt_sq (by positivity)
    rw [this] at hc0
    apply mul_left_cancel₀ n0c
    rw [hc0]; push_cast; rfl
  obtain ⟨a1, hsn1, hre⟩ : ∃ a1, snell asin n0 n1 θ = .ok a1 ∧ 0 ≤ (Complex.cos a1).re := by
    have hre : ∀ z q : ℂ, (n1 : ℂ) * z = q → 0 ≤ q.re → 0 ≤ z.re := by
      intro z q hz hq
      rw [← hz, Complex.re_ofReal_mul] at hq
      exact nonneg_of_mul_nonneg_right hq h1
    rcases hs with hs | hs
    · obtain ⟨a1, h, hc⟩ := (C151_real asin hasin n0 n1 θ h1).1 hs
      exact ⟨a1, h, hre _ _ hc (by rw [Complex.ofReal_re]; exact Real.sqrt_nonneg _)⟩
    · obtain ⟨a1, h, hc⟩ := (C151_real asin hasin n0 n1 θ h1).2 hs
      exact ⟨a1, h, hre _ _ hc (by simp)⟩
  unfold snell at hsn0 hsn1
  rw [show nanDiv ((n0 : ℂ) * Complex.sin θ) n0 = .ok (n0 * Complex.sin θ / n0) from nanDiv_ok.2 ⟨n0c, rfl⟩, ok_bind] at hsn0
  rw [show nanDiv ((n0 : ℂ) * Complex.sin θ) n1 = .ok (n0 * Complex.sin θ / n1) from nanDiv_ok.2 ⟨n1c, rfl⟩, ok_bind] at hsn1
  have hth : listSnell asin [(n0 : ℂ), n1] θ = .ok [a0, a1] := by
    unfold listSnell
    simp only [bind_ok, pure, Except.pure, Except.ok.injEq]
    refine ⟨n0, rfl, [asin (n0 * Complex.sin θ / n0), asin (n0 * Complex.sin θ / n1)], ?_, _, rfl, a0, hsn0, n1, rfl, _, rfl, a1, hsn1, rfl⟩
    rw [List.mapM_cons, List.mapM_cons, List.mapM_nil]
    simp [nanDiv, n0c, n1c, bind, Except.bind, pure, Except.pure]
  -- the two denominators
  have hden : ∀ x y : ℝ, 0 < x → 0 < y → (x : ℂ) * Complex.cos a0 + y * Complex.cos a1 ≠ 0 := by
    intro x y hx hy z
    have := congrArg Complex.re z
    rw [ha0, Complex.add_re, Complex.re_ofReal_mul, Complex.re_ofReal_mul, Complex.ofReal_re, Complex.zero_re] at this
    nlinarith [mul_pos hx hθ, mul_nonneg hy.le hre]
  have hcne : Complex.cos a0 ≠ 0 := by rw [ha0]; exact_mod_cast hθ.ne'
  obtain ⟨t, r, ht, hr, htne⟩ : ∃ t r, interfaceT pol n0 n1 a0 a1 = .ok t ∧ interfaceR pol n0 n1 a0 a1 = .ok r ∧ t ≠ 0 := by
    unfold interfaceT interfaceR
    rcases hpol with rfl | rfl
    · rw [if_pos rfl, if_pos rfl]
      exact ⟨_, _, nanDiv_ok.2 ⟨hden _ _ h0 h1, rfl⟩, nanDiv_ok.2 ⟨hden _ _ h0 h1, rfl⟩, div_ne_zero (mul_ne_zero (mul_ne_zero two_ne_zero n0c) hcne) (hden _ _ h0 h1)⟩
    · rw [if_neg (by decide), if_pos rfl, if_neg (by decide), if_pos rfl]
      exact ⟨_, _, nanDiv_ok.2 ⟨hden _ _ h1 h0, rfl⟩, nanDiv_ok.2 ⟨hden _ _ h1 h0, rfl⟩, div_ne_zero (mul_ne_zero (mul_ne_zero two_ne_zero n0c) hcne) (hden _ _ h1 h0)⟩
  have hP0 : tmmP pol n0 θ ≠ 0 := by
    unfold tmmP
    rw [← Complex.ofReal_cos, Complex.conj_ofReal, ← Complex.ofReal_mul, Complex.ofReal_re, ite_self]
    positivity
  have hfw : isForwardAngle (n0 : ℂ) (θ : ℂ) = .ok true := by
    have ec : (n0 : ℂ) * Complex.cos θ = ((n0 * Real.cos θ : ℝ) : ℂ) := by push_cast; rfl
    refine forward_true (s := n0 * Real.sin θ) n0c (by simp) (by push_cast; rfl) ?_ ?_
    · rw [ec, Complex.ofReal_re]; positivity
    · rw [ec, Complex.ofReal_im]
  have him : |((n0 : ℂ) * Complex.sin θ).im| < 100 * tmmEps := by
    have : (n0 : ℂ) * Complex.sin θ = ((n0 * Real.sin θ : ℝ) : ℂ) := by push_cast; rfl
    rw [this, Complex.ofReal_im, abs_zero]
    have := tmmEps_pos
    linarith
  have hkz : ([(n0 : ℂ), n1].zip [a0, a1]).mapM (fun p => nanDiv (2 * Real.pi * p.1 * Complex.cos p.2) lam) = .ok [2 * Real.pi * n0 * Complex.cos a0 / lam, 2 * Real.pi * n1 * Complex.cos a1 / lam] := by
    simp [List.mapM_cons, nanDiv, hl, bind, Except.bind, pure, Except.pure]
  have hsm : ∀ kz, stackMatrices pol [(n0 : ℂ), n1] [a0, a1] kz [none, none] = .ok ([(t, r)], []) := by
    intro kz
    simp [stackMatrices, List.range_succ, ht, hr, bind, Except.bind, pure, Except.pure]
  obtain ⟨T, hT⟩ := tFromT_total hpol (t := 1 / ((t⁻¹ • make2x2 1 r r 1) * make2x2 1 0 0 1) 0 0) (nf := (n1 : ℂ)) (thf := a1) hP0
  have hpe : ∀ r, ∃ x, powerEnteringFromR pol r n0 θ = .ok x := by
    intro r
    unfold powerEnteringFromR
    rcases hpol with rfl | rfl
    · rw [if_pos rfl]
      exact ⟨_, nanDivR_ok.2 ⟨by simpa [tmmP] using hP0, rfl⟩⟩
    · rw [if_neg (by decide), if_pos rfl]
      exact ⟨_, nanDivR_ok.2 ⟨by simpa [tmmP] using hP0, rfl⟩⟩
  obtain ⟨pe, hpe⟩ := hpe (((t⁻¹ • make2x2 1 r r 1) * make2x2 1 0 0 1) 1 0 / ((t⁻¹ • make2x2 1 r r 1) * make2x2 1 0 0 1) 0 0)
  have hmt : ((t⁻¹ • make2x2 1 r r 1) * make2x2 1 0 0 1) 0 0 ≠ 0 := by
    simp [make2x2, Matrix.mul_apply, Fin.sum_univ_two, htne]
  unfold cohTmm
  rw [if_neg (by simp)]
  simp only [bind_ok, assertTrue_ok, exists_const]
  exact ⟨_, none, rfl, none, rfl, ⟨rfl, rfl⟩, n0, rfl, him, true, hfw, rfl, _, hth, _, hkz, _, hsm _, (t, r), rfl, t⁻¹, nanDiv_ok.2 ⟨htne, by simp⟩, _, nanDiv_ok.2 ⟨hmt, rfl⟩, _, nanDiv_ok.2 ⟨hmt, rfl⟩,
    _, rfl, _, rfl, T, hT, pe, hpe, rfl⟩

/-- Non-vacuity: light from air onto a medium of index √3 at 60 degrees, Brewster's angle -/
example : ∃ p, cohTmm someArcsin "p" [((1 : ℝ) : ℂ), (Real.sqrt 3 : ℝ)] [none, none] (Real.pi / 3 : ℝ) 1 = .ok p ∧ p.R = 0 := by
  have h3 : 0 < Real.sqrt 3 := by positivity
  have h3s := Real.sq_sqrt (show (0 : ℝ) ≤ 3 by norm_num)
  obtain ⟨p, hp⟩ := C155_surface someArcsin someArcsin_sin "p" (.inr rfl) 1 (Real.sqrt 3) (Real.pi / 3) 1 one_pos h3 (by rw [Real.cos_pi_div_three]; norm_num) one_ne_zero (.inl (by
    rw [Real.sin_pi_div_three, one_mul, abs_of_pos (by positivity)]; linarith))
  exact ⟨p, hp, (C155_brewster someArcsin someArcsin_sin 1 (Real.sqrt 3) (Real.pi / 3) 1 one_pos h3 (by rw [Real.cos_pi_div_three]; norm_num) (by rw [Real.sin_pi_div_three, Real.cos_pi_div_three]; ring) p hp).2.1⟩

/-- Non-vacuity: light from a medium of index 2 into air at 60 degrees is totally reflected -/
example : ∃ ψ Δ, ellips someArcsin [((2 : ℝ) : ℂ), (1 : ℝ)] [none, none] (Real.pi / 3 : ℝ) 1 = .ok (ψ, Δ) ∧ ψ = Real.pi / 4 := by
  have h3s := Real.sq_sqrt (show (0 : ℝ) ≤ 3 by norm_num)
  have h3 : 1 < Real.sqrt 3 := by rw [Real.lt_sqrt (by norm_num)]; norm_num
  have hA : ∀ pol, pol = "s" ∨ pol = "p" → ∃ c, cohTmm someArcsin pol [((2 : ℝ) : ℂ), (1 : ℝ)] [none, none] (Real.pi / 3 : ℝ) 1 = .ok c := fun pol hp =>
    C155_surface someArcsin someArcsin_sin pol hp 2 1 (Real.pi / 3) 1 two_pos one_pos (by rw [Real.cos_pi_div_three]; norm_num) one_ne_zero (.inr (by
      rw [Real.sin_pi_div_three, show (2 * (Real.sqrt 3 / 2)) ^ 2 = Real.sqrt 3 ^ 2 by ring, h3s, tmmEps]; norm_num))
  obtain ⟨s, hs⟩ := hA "s" (.inl rfl)
  obtain ⟨p, hp⟩ := hA "p" (.inr rfl)
  have ht := C155_total someArcsin someArcsin_sin 2 1 (Real.pi / 3) 1 one_pos (by rw [Real.sin_pi_div_three]; linarith)
  have hsr : s.r ≠ 0 := fun z => by
    have := ht.1 _ _ hs
    rw [(cohTmm_run someArcsin_sin hs).R_def, z] at this
    simp at this
  obtain ⟨⟨ψ, Δ⟩, he⟩ := (C155_answers _ _ _ _ _ s p hs hp).1 hsr
  exact ⟨ψ, Δ, he, ht.2 ψ Δ he⟩

/-- Non-vacuity: unpolarised light on a surface of glass -/
example : ∃ R T, unpolarizedRT someArcsin [((1 : ℝ) : ℂ), (3 / 2 : ℝ)] [none, none] (Real.pi / 3 : ℝ) (1 : ℝ) = .ok (R, T) ∧ 0 ≤ R ∧ 0 ≤ T ∧ R + T ≤ 1 := by
  have h3s := Real.sq_sqrt (show (0 : ℝ) ≤ 3 by norm_num)
  have hA : ∀ pol, pol = "s" ∨ pol = "p" → ∃ c, cohTmm someArcsin pol [((1 : ℝ) : ℂ), (3 / 2 : ℝ)] [none, none] (Real.pi / 3 : ℝ) (1 : ℝ) = .ok c := fun pol hp =>
    C155_surface someArcsin someArcsin_sin pol hp 1 (3 / 2) (Real.pi / 3) (1 : ℝ) one_pos (by norm_num) (by rw [Real.cos_pi_div_three]; norm_num) (by simp) (.inl (by
      rw [Real.sin_pi_div_three, one_mul, abs_of_pos (by positivity)]; nlinarith [Real.sqrt_nonneg 3]))
  obtain ⟨s, hs⟩ := hA "s" (.inl rfl)
  obtain ⟨p, hp⟩ := hA "p" (.inr rfl)
  have h : unpolarizedRT someArcsin [((1 : ℝ) : ℂ), (3 / 2 : ℝ)] [none, none] (Real.pi / 3 : ℝ) (1 : ℝ) = .ok ((s.R + p.R) / 2, (s.T + p.T) / 2) := by
    unfold unpolarizedRT
    rw [hs, ok_bind, hp]; rfl
  refine ⟨_, _, h, C155_energy someArcsin someArcsin_sin _ _ 1 (Real.pi / 3) 1 one_pos _ _ h rfl (by
    intro z hz
    simp only [List.mem_cons, List.not_mem_nil, or_false] at hz
    rcases hz with rfl | rfl <;> simp) (by
    intro pol c _ i x hx
    rcases i with _ | _ | i <;> simp at hx)⟩

end

end Nidn
