/-
C143, C144: the fields and the absorption inside the stack.
-/
import Verif.Props.TmmEnergy
import Verif.Props.TmmAccept
import Mathlib.MeasureTheory.Integral.IntervalIntegral.FundThmCalculus

namespace Nidn

noncomputable section

/-! ### what `position_resolved` returns -/

/-- absorbed power per length, before normalisation (tmm_core.py:478-483) -/
def absorNum (pol : String) (n th kz Ef Eb : ℂ) : ℝ :=
  if pol = "s" then (n * Complex.cos th * kz * (‖Ef + Eb‖ ^ 2 : ℝ)).im
  else (n * starRingEnd ℂ (Complex.cos th) * (kz * (‖Ef - Eb‖ ^ 2 : ℝ) - starRingEnd ℂ kz * (‖Ef + Eb‖ ^ 2 : ℝ))).im

/-- the answer at a point -/
def pointOf (pol : String) (n th kz : ℂ) (P : ℝ) (v : Fin 2 → ℂ) : PointData :=
  { poyn := tmmFlux pol n th v / P, absor := absorNum pol n th kz (v 0) (v 1) / P,
    Ex := if pol = "s" then 0 else (v 0 - v 1) * Complex.cos th, Ey := if pol = "s" then v 0 + v 1 else 0, Ez := if pol = "s" then 0 else (-v 0 - v 1) * Complex.sin th }

lemma pointData_of {pol : String} (hp : pol = "s" ∨ pol = "p") {n th kz n0 th0 : ℂ} (h0 : tmmP pol n0 th0 ≠ 0) (v : Fin 2 → ℂ) :
    pointData pol n th kz n0 th0 (v 0) (v 1) = .ok (pointOf pol n th kz (tmmP pol n0 th0) v) := by
  have hv : v = ![v 0, v 1] := by funext j; fin_cases j <;> rfl
  rcases hp with rfl | rfl
  · rw [pointData_s (by simpa [tmmP] using h0), ← hv]; simp [pointOf, absorNum]
  · rw [pointData_p (by simpa [tmmP] using h0), ← hv]; simp [pointOf, absorNum]

lemma position_of {pol : String} {n : List ℂ} {d : List (Option ℝ)} {th0 lam : ℂ} {c : TmmData} (h : TmmRun pol n d th0 lam c) {i : ℕ} (hi : 1 ≤ i) (hN : i < n.length) {z : ℝ} (hz : 0 ≤ z)
    (hd : ∀ x, d[i]? = some (some x) → z ≤ x) :
    positionResolved i z c = .ok (pointOf pol (n.getD i 0) (c.th.getD i 0) (c.kz.getD i 0) (tmmP pol (n.getD 0 0) th0) (atDepth (c.kz.getD i 0) z (c.vw.getD i 0))) := by
  obtain ⟨p, h1, h2, -⟩ := position_ok h hi hN hz hd
  rw [pointData_of h.pol_ok h.pow_ne] at h2
  rw [h1, h2]

lemma position_front {pol : String} {n : List ℂ} {d : List (Option ℝ)} {th0 lam : ℂ} {c : TmmData} (h : TmmRun pol n d th0 lam c) {z : ℝ} (hz : z ≤ 0) :
    positionResolved 0 z c = .ok (pointOf pol (n.getD 0 0) (c.th.getD 0 0) (c.kz.getD 0 0) (tmmP pol (n.getD 0 0) th0) (atDepth (c.kz.getD 0 0) z ![1, c.r])) := by
  obtain ⟨k1, k2, k3, k4, -⟩ := h.keeps
  have two := h.two
  have e2 : pyNth c.kz 0 = .ok (c.kz.getD 0 0) := pyNth_zero.2 (by rw [getD_at (by rw [h.len_kz]; omega), List.getElem?_eq_getElem])
  have e3 : pyNth c.th 0 = .ok (c.th.getD 0 0) := pyNth_zero.2 (by rw [getD_at (by rw [h.len_th]; omega), List.getElem?_eq_getElem])
  have e5 : pyNth n 0 = .ok (n.getD 0 0) := pyNth_zero.2 (by rw [getD_at (by omega), List.getElem?_eq_getElem])
  have e6 : pyNth d 0 = .ok none := pyNth_zero.2 h.d_first
  unfold positionResolved
  rw [if_neg (by omega)]
  simp only [pure_bind, e2, ok_bind, e3, k2, e5, k3, e6]
  refine bind_ok.2 ⟨(), assertTrue_ok.2 (.inr ⟨trivial, hz⟩), ?_⟩
  rw [k1, k4, ← pointData_of h.pol_ok h.pow_ne]
  simp only [atDepth, atBack, Matrix.cons_val_zero, Matrix.cons_val_one, mul_assoc, neg_mul]

lemma point_joined {pol : String} (hp : pol = "s" ∨ pol = "p") {n th n' th' k k' S : ℂ} (P : ℝ) {v v' : Fin 2 → ℂ} (h : TmmJoined pol n th n' th' v v')
    (hs : n * Complex.sin th = S) (hs' : n' * Complex.sin th' = S) :
    (pointOf pol n th k P v).Ex = (pointOf pol n' th' k' P v').Ex ∧ (pointOf pol n th k P v).Ey = (pointOf pol n' th' k' P v').Ey ∧
    n ^ 2 * (pointOf pol n th k P v).Ez = n' ^ 2 * (pointOf pol n' th' k' P v').Ez ∧ (pointOf pol n th k P v).poyn = (pointOf pol n' th' k' P v').poyn := by
  have hf := joined_flux h
  obtain ⟨h1, h2⟩ := h
  simp only [pointOf, hf]
  rcases hp with rfl | rfl
  · simp only [tmmA, if_true, one_mul] at h1
    simp only [if_true, h1, mul_zero, and_self]
  · simp only [tmmA, tmmB, if_neg (show ¬("p" = "s") by decide)] at h1 h2
    simp only [if_neg (show ¬("p" = "s") by decide)]
    refine ⟨by linear_combination h2, trivial, ?_, trivial⟩
    rw [← hs'] at hs
    linear_combination -(n * Complex.sin th) * h1 - (n' * (v' 0 + v' 1)) * hs

/-- C143. What `position_resolved` reports at the two sides of an interface fits together: the electric field along the interface, the electric
displacement across it and the power flow are the same; this holds for the first interface, described as `[0, 0]` or `[1, 0]`, and for every other one. -/
theorem C143_interfaces (asin : ℂ → ℂ) (hasin : ∀ z, Complex.sin (asin z) = z) (pol : String) (n : List ℂ) (d : List (Option ℝ)) (th0 lam : ℂ) (c : TmmData)
    (h : cohTmm asin pol n d th0 lam = .ok c) (hx : ∀ (i : ℕ) x, d[i]? = some (some x) → 0 ≤ x ∧ (c.kz.getD i 0 * x).im ≤ 35) (i : ℕ) (hi : i + 1 < n.length) :
    ∃ x p q, (if i = 0 then x = 0 else d[i]? = some (some x)) ∧ positionResolved i x c = .ok p ∧ positionResolved (i + 1) 0 c = .ok q ∧
      p.Ex = q.Ex ∧ p.Ey = q.Ey ∧ n.getD i 0 ^ 2 * p.Ez = n.getD (i + 1) 0 ^ 2 * q.Ez ∧ p.poyn = q.poyn := by
  have hr := cohTmm_run hasin h
  have hq := position_of hr (i := i + 1) (by omega) hi (z := 0) le_rfl fun x hxx => (hx _ x hxx).1
  rw [atDepth_zero] at hq
  push_cast at hq
  rcases Nat.eq_zero_or_pos i with rfl | h1
  · have hp := position_front hr (z := 0) le_rfl
    rw [atDepth_zero] at hp
    exact ⟨0, _, _, by simp, hp, hq, point_joined hr.pol_ok _ hr.join_first (hr.snell_at 0 (by omega)).2 (hr.snell_at 1 (by omega)).2⟩
  · obtain ⟨x, hdx, hj⟩ := hr.join i h1 hi
    obtain ⟨hx0, hx35⟩ := hx i x hdx
    have hcl : clampPhase (c.kz.getD i 0 * x) = c.kz.getD i 0 * x := by unfold clampPhase; rw [if_neg (not_lt.2 hx35)]
    rw [hcl] at hj
    have hp := position_of hr h1 (by omega) hx0 fun y hy => by rw [hdx] at hy; cases hy; exact le_rfl
    exact ⟨x, _, _, by rw [if_neg (by omega)]; exact hdx, hp, hq, point_joined hr.pol_ok _ hj (hr.snell_at i (by omega)).2 (hr.snell_at (i + 1) hi).2⟩

/-- Specification: a field that depends on the depth like a wave with the squared wave number `k2`. -/
def WaveOf (k2 : ℂ) (f f' : ℝ → ℂ) : Prop := ∀ z, HasDerivAt f (f' z) z ∧ HasDerivAt f' (-k2 * f z) z

lemma wave_sum (k a : ℂ) (v : Fin 2 → ℂ) : WaveOf (k ^ 2) (fun z => a * (atDepth k z v 0 + atDepth k z v 1)) (fun z => a * (Complex.I * k * (atDepth k z v 0 - atDepth k z v 1))) := fun z =>
  ⟨(atDepth_deriv k v z).1.const_mul a, ((((atDepth_deriv k v z).2.const_mul (Complex.I * k)).const_mul a)).congr_deriv (by linear_combination (a * k ^ 2 * (atDepth k z v 0 + atDepth k z v 1)) * Complex.I_sq)⟩

lemma wave_diff (k a : ℂ) (v : Fin 2 → ℂ) : WaveOf (k ^ 2) (fun z => a * (atDepth k z v 0 - atDepth k z v 1)) (fun z => a * (Complex.I * k * (atDepth k z v 0 + atDepth k z v 1))) := fun z =>
  ⟨(atDepth_deriv k v z).2.const_mul a, ((((atDepth_deriv k v z).1.const_mul (Complex.I * k)).const_mul a)).congr_deriv (by linear_combination (a * k ^ 2 * (atDepth k z v 0 - atDepth k z v 1)) * Complex.I_sq)⟩

lemma wave_zero (k2 : ℂ) : WaveOf k2 (fun _ => 0) (fun _ => 0) := fun z => ⟨hasDerivAt_const _ _, by simpa using hasDerivAt_const z (0 : ℂ)⟩

/-- C143. Inside every layer the reported electric field solves Maxwell's equations: every component obeys the wave equation with the squared index of
the layer and the horizontal wave number of the incoming light, and the field has no sources (`∂Ex/∂x + ∂Ez/∂z = 0`). -/
theorem C143_maxwell (asin : ℂ → ℂ) (hasin : ∀ z, Complex.sin (asin z) = z) (pol : String) (n : List ℂ) (d : List (Option ℝ)) (th0 lam : ℂ) (c : TmmData)
    (h : cohTmm asin pol n d th0 lam = .ok c) (i : ℕ) (hi : i < n.length) :
    ∃ ex ex' ey ey' ez ez' : ℝ → ℂ,
      (∀ z : ℝ, (if i = 0 then z ≤ 0 else 0 ≤ z ∧ ∀ x, d[i]? = some (some x) → z ≤ x) → ∃ p, positionResolved i z c = .ok p ∧ p.Ex = ex z ∧ p.Ey = ey z ∧ p.Ez = ez z) ∧
      WaveOf ((2 * Real.pi / lam) ^ 2 * (n.getD i 0 ^ 2 - (n.getD 0 0 * Complex.sin th0) ^ 2)) ex ex' ∧
      WaveOf ((2 * Real.pi / lam) ^ 2 * (n.getD i 0 ^ 2 - (n.getD 0 0 * Complex.sin th0) ^ 2)) ey ey' ∧
      WaveOf ((2 * Real.pi / lam) ^ 2 * (n.getD i 0 ^ 2 - (n.getD 0 0 * Complex.sin th0) ^ 2)) ez ez' ∧
      ∀ z, Complex.I * (2 * Real.pi / lam * (n.getD 0 0 * Complex.sin th0)) * ex z + ez' z = 0 := by
  have hr := cohTmm_run hasin h
  have hl := hr.lam_ne
  have hk := hr.kz_at i hi
  obtain ⟨-, hs⟩ := hr.snell_at i hi
  rw [← hs]
  obtain ⟨v, hv⟩ : ∃ v, ∀ z : ℝ, (if i = 0 then z ≤ 0 else 0 ≤ z ∧ ∀ x, d[i]? = some (some x) → z ≤ x) →
      positionResolved i z c = .ok (pointOf pol (n.getD i 0) (c.th.getD i 0) (c.kz.getD i 0) (tmmP pol (n.getD 0 0) th0) (atDepth (c.kz.getD i 0) z v)) := by
    rcases Nat.eq_zero_or_pos i with rfl | h1
    · exact ⟨![1, c.r], fun z hz => position_front hr (by simpa using hz)⟩
    · refine ⟨c.vw.getD i 0, fun z hz => ?_⟩
      rw [if_neg (by omega)] at hz
      exact position_of hr h1 hi hz.1 hz.2
  generalize n.getD i 0 = m at *
  generalize c.th.getD i 0 = th at *
  generalize c.kz.getD i 0 = k at *
  have hk2 : (2 * Real.pi / lam) ^ 2 * (m ^ 2 - (m * Complex.sin th) ^ 2) = k ^ 2 := by
    rw [hk]
    linear_combination -((2 * Real.pi / lam) ^ 2 * m ^ 2) * Complex.sin_sq_add_cos_sq th
  rw [hk2]
  rcases hr.pol_ok with rfl | rfl
  · refine ⟨_, _, _, _, _, _, fun z hz => ⟨_, hv z hz, ?_⟩, wave_zero _, wave_sum k 1 v, wave_zero _, fun z => by simp⟩
    simp [pointOf]
  · refine ⟨_, _, _, _, _, _, fun z hz => ⟨_, hv z hz, ?_⟩, wave_diff k (Complex.cos th) v, wave_zero _, wave_sum k (-Complex.sin th) v, fun z => ?_⟩
    · simp only [pointOf, if_neg (show ¬("p" = "s") by decide)]
      exact ⟨by ring, trivial, by ring⟩
    · rw [hk]; ring

lemma absor_loss {pol : String} (hp : pol = "s" ∨ pol = "p") {n th : ℂ} {lam : ℝ} (v : Fin 2 → ℂ) :
    absorNum pol n th (2 * Real.pi * n * Complex.cos th / lam) (v 0) (v 1) = tmmLoss (starRingEnd ℂ (tmmA pol n th) * tmmB pol n th) (2 * Real.pi * n * Complex.cos th / lam) v := by
  have hk : (2 * Real.pi * n * Complex.cos th / lam : ℂ) = ((2 * Real.pi / lam : ℝ) : ℂ) * (n * Complex.cos th) := by push_cast; ring
  rw [hk]
  unfold absorNum tmmLoss tmmA tmmB
  rcases hp with rfl | rfl
  · simp only [if_true, map_one, one_mul]
    have : (n * Complex.cos th * starRingEnd ℂ (((2 * Real.pi / lam : ℝ) : ℂ) * (n * Complex.cos th))).im = 0 := by
      rw [map_mul, Complex.conj_ofReal, mul_left_comm, Complex.mul_conj, Complex.im_ofReal_mul, Complex.ofReal_im, mul_zero]
    rw [this, Complex.im_mul_ofReal]; ring
  · simp only [if_neg (show ¬("p" = "s") by decide)]
    generalize ((2 * Real.pi / lam : ℝ) : ℂ) * (n * Complex.cos th) = k
    generalize ‖v 0 - v 1‖ ^ 2 = D
    generalize ‖v 0 + v 1‖ ^ 2 = S
    simp only [Complex.mul_im, Complex.mul_re, Complex.sub_re, Complex.sub_im, Complex.conj_re, Complex.conj_im, Complex.ofReal_re, Complex.ofReal_im]
    ring

/-- C143. At a real wavelength the reported absorption is exactly what the reported power flow loses: along every layer `d poyn / dz = - absor`. -/
theorem C143_losses (asin : ℂ → ℂ) (hasin : ∀ z, Complex.sin (asin z) = z) (pol : String) (n : List ℂ) (d : List (Option ℝ)) (th0 : ℂ) (lam : ℝ) (c : TmmData)
    (h : cohTmm asin pol n d th0 lam = .ok c) (i : ℕ) (h1 : 1 ≤ i) (hi : i < n.length) :
    ∃ poyn absor : ℝ → ℝ, (∀ z : ℝ, 0 ≤ z → (∀ x, d[i]? = some (some x) → z ≤ x) → ∃ p, positionResolved i z c = .ok p ∧ p.poyn = poyn z ∧ p.absor = absor z) ∧
      ∀ z, HasDerivAt poyn (-absor z) z := by
  have hr := cohTmm_run hasin h
  refine ⟨_, _, fun z hz hd => ⟨_, position_of hr h1 hi hz hd, rfl, rfl⟩, fun z => ?_⟩
  have := (flux_deriv pol (n.getD i 0) (c.th.getD i 0) (c.kz.getD i 0) (c.vw.getD i 0) z).div_const (tmmP pol (n.getD 0 0) th0)
  refine this.congr_deriv ?_
  rw [neg_div]
  congr 2
  simp only [hr.kz_at i hi]
  rw [absor_loss hr.pol_ok]

/-! ### absorption as a function of depth -/

lemma exp_split (k : ℂ) (z : ℝ) :
    Complex.exp (Complex.I * (k * z)) * starRingEnd ℂ (Complex.exp (Complex.I * (k * z))) = Complex.exp (-(2 * k.im : ℝ) * z) ∧
    Complex.exp (-Complex.I * (k * z)) * starRingEnd ℂ (Complex.exp (-Complex.I * (k * z))) = Complex.exp ((2 * k.im : ℝ) * z) ∧
    Complex.exp (Complex.I * (k * z)) * starRingEnd ℂ (Complex.exp (-Complex.I * (k * z))) = Complex.exp (Complex.I * (2 * k.re : ℝ) * z) := by
  have e1 : k - starRingEnd ℂ k = ((2 * k.im : ℝ) : ℂ) * Complex.I := Complex.sub_conj k
  have e2 : k + starRingEnd ℂ k = ((2 * k.re : ℝ) : ℂ) := Complex.add_conj k
  refine ⟨?_, ?_, ?_⟩ <;> rw [← Complex.exp_conj, ← Complex.exp_add] <;> congr 1 <;> simp only [map_mul, map_neg, Complex.conj_I, Complex.conj_ofReal]
  · linear_combination (Complex.I * z) * e1 + ((2 * k.im : ℝ) : ℂ) * z * Complex.I_sq
  · linear_combination (-Complex.I * z) * e1 - ((2 * k.im : ℝ) : ℂ) * z * Complex.I_sq
  · linear_combination (Complex.I * z) * e2

lemma run_eq (f : AbsorpFn) (k v w : ℂ) (T T3 : ℝ) (h1 : f.a1 = 2 * k.im) (h3 : f.a3 = 2 * k.re) (hA1 : f.A1 = T * ‖w‖ ^ 2) (hA2 : f.A2 = T * ‖v‖ ^ 2)
    (hA3 : f.A3 = T3 * (v * starRingEnd ℂ w)) (z : ℝ) :
    f.run z = ((T * (Complex.normSq (atDepth k z ![v, w] 0) + Complex.normSq (atDepth k z ![v, w] 1)) +
      T3 * (2 * (atDepth k z ![v, w] 0 * starRingEnd ℂ (atDepth k z ![v, w] 1)).re) : ℝ) : ℂ) := by
  obtain ⟨e1, e2, e3⟩ := exp_split k z
  have e4 : Complex.exp (-Complex.I * (2 * k.re : ℝ) * z) = starRingEnd ℂ (Complex.exp (Complex.I * (2 * k.re : ℝ) * z)) := by
    rw [← Complex.exp_conj]
    simp only [map_mul, Complex.conj_I, Complex.conj_ofReal]
  unfold AbsorpFn.run
  rw [h1, h3, e4, ← e1, ← e2, ← e3, hA1, hA2, hA3]
  simp only [atDepth, atBack, Matrix.cons_val_zero, Matrix.cons_val_one]
  generalize Complex.exp (Complex.I * (k * z)) = E1
  generalize Complex.exp (-Complex.I * (k * z)) = E2
  have hre : ∀ x : ℂ, (((2 * x.re : ℝ)) : ℂ) = x + starRingEnd ℂ x := fun x => (Complex.add_conj x).symm
  rw [Complex.ofReal_add, Complex.ofReal_mul T (_ + _), Complex.ofReal_mul T3, hre, Complex.ofReal_add, ← Complex.mul_conj, ← Complex.mul_conj]
  push_cast
  rw [← Complex.mul_conj', ← Complex.mul_conj']
  simp only [map_mul, Complex.conj_conj, Complex.conj_ofReal]
  ring

/-- C144. `absorp_analytic_fn.fill_in(...).run(z)` is the absorption that `position_resolved` reports at the depth `z`, for every layer behind the first. -/
theorem C144_run (asin : ℂ → ℂ) (hasin : ∀ z, Complex.sin (asin z) = z) (pol : String) (n : List ℂ) (d : List (Option ℝ)) (th0 lam : ℂ) (c : TmmData)
    (h : cohTmm asin pol n d th0 lam = .ok c) (i : ℕ) (h1 : 1 ≤ i) (hi : i < n.length) :
    ∃ f, AbsorpFn.fillIn c i = .ok f ∧ d[i]? = some f.d ∧ ∀ z : ℝ, 0 ≤ z → (∀ x, d[i]? = some (some x) → z ≤ x) → ∃ p, positionResolved i z c = .ok p ∧ f.run z = p.absor := by
  have hr := cohTmm_run hasin h
  obtain ⟨k1, k2, k3, k4, -⟩ := hr.keeps
  have two := hr.two
  have e1 : pyNth c.vw i = .ok (c.vw.getD i 0) := pyNth_nat.2 (by rw [getD_at (by rw [hr.len_vw]; exact hi), List.getElem?_eq_getElem])
  have e2 : pyNth c.kz i = .ok (c.kz.getD i 0) := pyNth_nat.2 (by rw [getD_at (by rw [hr.len_kz]; exact hi), List.getElem?_eq_getElem])
  have e3 : pyNth c.th i = .ok (c.th.getD i 0) := pyNth_nat.2 (by rw [getD_at (by rw [hr.len_th]; exact hi), List.getElem?_eq_getElem])
  have e4 : pyNth n i = .ok (n.getD i 0) := pyNth_nat.2 (by rw [getD_at hi, List.getElem?_eq_getElem])
  have e5 : pyNth n 0 = .ok (n.getD 0 0) := pyNth_zero.2 (by rw [getD_at (by omega), List.getElem?_eq_getElem])
  have hdi : i < d.length := by rw [hr.len_d]; exact hi
  have e6 : pyNth d i = .ok d[i] := pyNth_nat.2 (List.getElem?_eq_getElem hdi)
  have hP := hr.pow_ne
  have hpos := fun (z : ℝ) hz hd => position_of hr h1 hi (z := z) hz hd
  generalize c.vw.getD i 0 = v at *
  generalize c.kz.getD i 0 = k at *
  generalize c.th.getD i 0 = th at *
  generalize n.getD i 0 = m at *
  generalize n.getD 0 0 = n0 at *
  have hv : v = ![v 0, v 1] := by funext j; fin_cases j <;> rfl
  unfold AbsorpFn.fillIn
  simp only [k1, k2, k3, k4, e1, e2, e3, e4, e5, e6, ok_bind]
  rcases hr.pol_ok with rfl | rfl
  · have hP' : (n0 * Complex.cos th0).re ≠ 0 := by simpa [tmmP] using hP
    refine ⟨_, by rw [if_pos rfl, nanDivR_ok.2 ⟨hP', rfl⟩, ok_bind]; rfl, List.getElem?_eq_getElem hdi, fun z hz hd => ⟨_, hpos z hz hd, ?_⟩⟩
    rw [run_eq _ k (v 0) (v 1) _ ((m * Complex.cos th * k).im / (n0 * Complex.cos th0).re) rfl rfl rfl rfl (mul_assoc _ _ _) z, ← hv]
    simp only [pointOf, absorNum, if_true, Complex.im_mul_ofReal, tmmP]
    rw [← Complex.normSq_eq_norm_sq, Complex.normSq_add]
    congr 1
    ring
  · have hP' : (n0 * starRingEnd ℂ (Complex.cos th0)).re ≠ 0 := by simpa [tmmP] using hP
    refine ⟨_, by rw [if_neg (by decide), nanDivR_ok.2 ⟨hP', rfl⟩, ok_bind, nanDivR_ok.2 ⟨hP', rfl⟩, ok_bind]; rfl, List.getElem?_eq_getElem hdi, fun z hz hd => ⟨_, hpos z hz hd, ?_⟩⟩
    rw [run_eq _ k (v 0) (v 1) _ (-2 * k.re * (m * Complex.cos (starRingEnd ℂ th)).im / (n0 * starRingEnd ℂ (Complex.cos th0)).re) rfl rfl rfl rfl (mul_comm _ _) z, ← hv]
    simp only [pointOf, absorNum, if_neg (show ¬("p" = "s") by decide), tmmP]
    rw [← Complex.normSq_eq_norm_sq, ← Complex.normSq_eq_norm_sq, Complex.normSq_add, Complex.normSq_sub, cos_conj]
    generalize Complex.normSq (atDepth k z v 0) = a
    generalize Complex.normSq (atDepth k z v 1) = b
    generalize (atDepth k z v 0 * starRingEnd ℂ (atDepth k z v 1)).re = x
    congr 1
    simp only [Complex.mul_im, Complex.mul_re, Complex.sub_re, Complex.sub_im, Complex.conj_re, Complex.conj_im, Complex.ofReal_re, Complex.ofReal_im]
    field_simp
    ring

/-- C144. The share of `absorp_in_each_layer` is the integral of `run` over the layer. -/
theorem C144_integral (asin : ℂ → ℂ) (hasin : ∀ z, Complex.sin (asin z) = z) (pol : String) (n : List ℂ) (d : List (Option ℝ)) (th0 : ℂ) (lam : ℝ) (c : TmmData)
    (h : cohTmm asin pol n d th0 lam = .ok c) (hx : ∀ (i : ℕ) x, d[i]? = some (some x) → 0 ≤ x ∧ (c.kz.getD i 0 * x).im ≤ 35) (i : ℕ) (h1 : 1 ≤ i) (hi : i + 1 < n.length) :
    ∃ f a x, AbsorpFn.fillIn c i = .ok f ∧ absorpInEachLayer c = .ok a ∧ d[i]? = some (some x) ∧ a[i]? = some (∫ z in (0 : ℝ)..x, (f.run z).re) := by
  have hr := cohTmm_run hasin h
  obtain ⟨f, hf, -, hrun⟩ := C144_run asin hasin pol n d th0 lam c h i h1 (by omega)
  obtain ⟨p, hp, plen, p0, pi⟩ := entering_ok hr fun i x hxx => (hx i x hxx).1
  obtain ⟨x, hdx, hj⟩ := hr.join i h1 hi
  obtain ⟨hx0, hx35⟩ := hx i x hdx
  have hcl : clampPhase (c.kz.getD i 0 * x) = c.kz.getD i 0 * x := by unfold clampPhase; rw [if_neg (not_lt.2 hx35)]
  rw [hcl] at hj
  refine ⟨f, _, x, hf, by unfold absorpInEachLayer; rw [hp]; rfl, hdx, ?_⟩
  rw [List.getElem?_map, List.getElem?_range (by omega), Option.map_some, if_pos (by omega), pi i h1 (by omega), pi (i + 1) (by omega) hi, ← joined_flux hj]
  congr 1
  set P := tmmP pol (n.getD 0 0) th0
  set F : ℝ → ℝ := fun z => tmmFlux pol (n.getD i 0) (c.th.getD i 0) (atDepth (c.kz.getD i 0) z (c.vw.getD i 0)) / P with hF
  have hd : ∀ z ∈ Set.uIcc 0 x, HasDerivAt F (-(f.run z).re) z := by
    intro z hz
    rw [Set.uIcc_of_le hx0] at hz
    have hb : ∀ y, d[i]? = some (some y) → z ≤ y := fun y hy => by rw [hdx] at hy; cases hy; exact hz.2
    obtain ⟨q, hq, hq2⟩ := hrun z hz.1 hb
    rw [position_of hr h1 (by omega) hz.1 hb, Except.ok.injEq] at hq
    have := (flux_deriv pol (n.getD i 0) (c.th.getD i 0) (c.kz.getD i 0) (c.vw.getD i 0) z).div_const P
    refine this.congr_deriv ?_
    rw [hq2, ← hq, Complex.ofReal_re, neg_div]
    simp only [pointOf]
    congr 2
    simp only [hr.kz_at i (by omega)]
    rw [absor_loss hr.pol_ok]
  have hc : _root_.Continuous fun z : ℝ => (f.run z).re := by
    unfold AbsorpFn.run
    fun_prop
  have hint := intervalIntegral.integral_eq_sub_of_hasDerivAt hd (hc.neg.intervalIntegrable _ _)
  rw [intervalIntegral.integral_neg] at hint
  simp only [hF, atDepth_zero] at hint
  have e : atDepth (c.kz.getD i 0) x (c.vw.getD i 0) = atBack (c.kz.getD i 0 * x) (c.vw.getD i 0) := rfl
  rw [e] at hint
  linarith

/-- C144. `flip` describes the layer from behind, `scale` multiplies, `add` adds (and refuses functions with other exponents), and `copy` changes nothing. -/
theorem C144_operations (f b : AbsorpFn) (d x : ℝ) (hd : f.d = some d) :
    (∃ g, f.flip = .ok g ∧ g.d = f.d ∧ ∀ z : ℝ, g.run z = f.run (d - z)) ∧ (∀ z, (f.scale x).run z = x * f.run z) ∧
    (b.a1 = f.a1 → b.a3 = f.a3 → ∃ g, f.add b = .ok g ∧ ∀ z, g.run z = f.run z + b.run z) ∧
    (¬(b.a1 = f.a1 ∧ b.a3 = f.a3) → f.add b = .error .valueError) ∧ (∀ z, f.copy.run z = f.run z) := by
  refine ⟨⟨{ f with A1 := f.A2 * Real.exp (-f.a1 * d), A2 := f.A1 * Real.exp (f.a1 * d), A3 := starRingEnd ℂ (f.A3 * Complex.exp (Complex.I * f.a3 * d)) },
    by unfold AbsorpFn.flip; simp only [hd], rfl, fun z => ?_⟩, fun z => ?_, fun h1 h3 => ⟨_, by unfold AbsorpFn.add; rw [if_neg (by simp [h1, h3])], fun z => ?_⟩, fun h => ?_, fun z => rfl⟩
  · unfold AbsorpFn.run
    simp only [map_mul, Complex.conj_conj]
    rw [← Complex.exp_conj]
    simp only [map_mul, Complex.conj_I, Complex.conj_ofReal]
    have e1 : Complex.exp (f.a1 * ((d - z : ℝ) : ℂ)) = Complex.exp (f.a1 * d) * Complex.exp (-f.a1 * z) := by rw [← Complex.exp_add]; congr 1; push_cast; ring
    have e2 : Complex.exp (-f.a1 * ((d - z : ℝ) : ℂ)) = Complex.exp (-f.a1 * d) * Complex.exp (f.a1 * z) := by rw [← Complex.exp_add]; congr 1; push_cast; ring
    have e3 : Complex.exp (Complex.I * f.a3 * ((d - z : ℝ) : ℂ)) = Complex.exp (Complex.I * f.a3 * d) * Complex.exp (-Complex.I * f.a3 * z) := by rw [← Complex.exp_add]; congr 1; push_cast; ring
    have e4 : Complex.exp (-Complex.I * f.a3 * ((d - z : ℝ) : ℂ)) = Complex.exp (-Complex.I * f.a3 * d) * Complex.exp (Complex.I * f.a3 * z) := by rw [← Complex.exp_add]; congr 1; push_cast; ring
    rw [e1, e2, e3, e4]
    push_cast
    ring
  · unfold AbsorpFn.run AbsorpFn.scale
    simp only [map_mul, Complex.conj_ofReal]
    push_cast
    ring
  · unfold AbsorpFn.run
    simp only [h1, h3, map_add]
    push_cast
    ring
  · unfold AbsorpFn.add
    rw [if_pos]
    by_contra hh
    rw [not_or, not_not, not_not] at hh
    exact h hh

/-- Non-vacuity: the film of the comparison notebook. -/
example : ∃ c p q f, cohTmm someArcsin "s" [1, 2 + 0.5 * Complex.I, 1] [none, some 0.2, none] (0 : ℝ) (1 : ℝ) = .ok c ∧ positionResolved 1 0.2 c = .ok p ∧ positionResolved 2 0 c = .ok q ∧ p.Ey = q.Ey ∧
    AbsorpFn.fillIn c 1 = .ok f ∧ f.run 0.2 = p.absor := by
  obtain ⟨c, hc, -, hx⟩ := slab_facts
  obtain ⟨x, p, q, h1, h2, h3, -, h4, -⟩ := C143_interfaces someArcsin someArcsin_sin "s" _ _ _ _ c hc hx 1 (by simp)
  simp at h1
  subst h1
  obtain ⟨f, h5, -, h6⟩ := C144_run someArcsin someArcsin_sin "s" _ _ _ _ c hc 1 le_rfl (by simp)
  obtain ⟨p', h7, h8⟩ := h6 0.2 (by norm_num) (by simp)
  obtain rfl : p = p' := by rw [h2] at h7; exact Except.ok.inj h7
  exact ⟨c, p, q, f, hc, h2, h3, h4, h5, h8⟩

end

end Nidn
