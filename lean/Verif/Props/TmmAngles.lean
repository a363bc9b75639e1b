/-
C151: which of two supplementary angles `is_forward_angle` and `snell` take for the forward one.
-/
import Verif.Props.TmmAccept

namespace Nidn

noncomputable section

/-- a wave along the surface: no way to tell forwards from backwards -/
def Grazing (q : ℂ) : Prop := q.re = 0 ∧ |q.im| ≤ 100 * tmmEps

lemma forward_iff {n θ : ℂ} {b : Bool} : isForwardAngle n θ = .ok b ↔ 0 ≤ n.re * n.im ∧ b = forwardAnswer (n * Complex.cos θ) ∧
    (b = true → -(100 * tmmEps) < (n * Complex.cos θ).im ∧ -(100 * tmmEps) < (n * Complex.cos θ).re ∧ -(100 * tmmEps) < (n * starRingEnd ℂ (Complex.cos θ)).re) ∧
    (b = false → (n * Complex.cos θ).im < 100 * tmmEps ∧ (n * Complex.cos θ).re < 100 * tmmEps ∧ (n * starRingEnd ℂ (Complex.cos θ)).re < 100 * tmmEps) := by
  unfold isForwardAngle
  rw [cos_conj]
  simp only [bind_ok]
  cases hf : forwardAnswer (n * Complex.cos θ) with
  | true =>
    simp only [if_true, bind_ok, pure, Except.pure, Except.ok.injEq, assertTrue_ok]
    constructor
    · rintro ⟨_, h0, _, h1, _, h2, _, h3, rfl⟩
      exact ⟨h0, rfl, fun _ => ⟨h1, h2, h3⟩, fun h => by cases h⟩
    · rintro ⟨h0, rfl, h1, -⟩
      exact ⟨(), h0, (), (h1 rfl).1, (), (h1 rfl).2.1, (), (h1 rfl).2.2, rfl⟩
  | false =>
    simp only [Bool.false_eq_true, if_false, bind_ok, pure, Except.pure, Except.ok.injEq, assertTrue_ok]
    constructor
    · rintro ⟨_, h0, _, h1, _, h2, _, h3, rfl⟩
      exact ⟨h0, rfl, fun h => by simp at h, fun _ => ⟨h1, h2, h3⟩⟩
    · rintro ⟨h0, rfl, -, h1⟩
      exact ⟨(), h0, (), (h1 rfl).1, (), (h1 rfl).2.1, (), (h1 rfl).2.2, rfl⟩

lemma forwardAnswer_neg {q : ℂ} (hg : ¬Grazing q) : forwardAnswer (-q) = !forwardAnswer q := by
  have ht := tmmEps_pos
  unfold forwardAnswer
  simp only [Complex.neg_im, Complex.neg_re, abs_neg]
  split
  · rename_i hi
    have : q.im ≠ 0 := by intro e; rw [e, abs_zero] at hi; linarith
    rcases lt_or_gt_of_ne this with q | q
    · simp [q, not_lt.2 q.le]
    · simp [q, q.le]
  · rename_i hi
    have : q.re ≠ 0 := fun e => hg ⟨e, not_lt.1 hi⟩
    rcases lt_or_gt_of_ne this with q | q
    · simp [q, not_lt.2 q.le]
    · simp [q, q.le]

lemma forwardAnswer_grazing {q : ℂ} (hg : Grazing q) : forwardAnswer q = false := by
  unfold forwardAnswer
  rw [if_neg (not_lt.2 hg.2), hg.1]
  simp

/-- C151. `is_forward_angle` says of a wave and the one at the supplementary angle that one goes forwards and the other backwards; only of waves along the surface (`n cos θ` with no real part and
at most `100 EPSILON` of imaginary part) it says at neither angle that they go forwards. -/
theorem C151_opposite (n θ : ℂ) (b : Bool) (h : isForwardAngle n θ = .ok b) :
    (¬Grazing (n * Complex.cos θ) → isForwardAngle n (Real.pi - θ) = .ok (!b)) ∧ (Grazing (n * Complex.cos θ) → b = false ∧ isForwardAngle n (Real.pi - θ) ≠ .ok true) := by
  rw [forward_iff] at h
  obtain ⟨h0, hb, h1, h2⟩ := h
  have ht := tmmEps_pos
  have hq : n * Complex.cos (Real.pi - θ) = -(n * Complex.cos θ) := by rw [Complex.cos_pi_sub]; ring
  have hq' : n * starRingEnd ℂ (Complex.cos (Real.pi - θ)) = -(n * starRingEnd ℂ (Complex.cos θ)) := by rw [Complex.cos_pi_sub, map_neg]; ring
  constructor
  · intro hg
    rw [forward_iff, hq, hq', Complex.neg_re, Complex.neg_im, Complex.neg_re]
    refine ⟨h0, by rw [hb, forwardAnswer_neg hg], fun e => ?_, fun e => ?_⟩
    · obtain ⟨q1, q2, q3⟩ := h2 (by simpa using e)
      exact ⟨by linarith, by linarith, by linarith⟩
    · obtain ⟨q1, q2, q3⟩ := h1 (by simpa using e)
      exact ⟨by linarith, by linarith, by linarith⟩
  · intro hg
    refine ⟨by rw [hb, forwardAnswer_grazing hg], fun e => ?_⟩
    rw [forward_iff, hq, forwardAnswer_grazing ⟨by rw [Complex.neg_re, hg.1, neg_zero], by rw [Complex.neg_im, abs_neg]; exact hg.2⟩] at e
    exact absurd e.2.1 (by decide)

lemma conj_power {n th : ℂ} {s : ℝ} (hs : n * Complex.sin th = s) :
    Complex.normSq n * (n * starRingEnd ℂ (Complex.cos th)).re = (Complex.normSq (n * Complex.cos th) + s ^ 2) * (n * Complex.cos th).re := by
  have e1 : (n * Complex.cos th) ^ 2 + (s : ℂ) ^ 2 = n ^ 2 := by rw [← hs]; linear_combination n ^ 2 * Complex.sin_sq_add_cos_sq th
  have e2 : ((Complex.normSq n : ℂ)) * (n * starRingEnd ℂ (Complex.cos th)) = ((n * Complex.cos th) ^ 2 + (s : ℂ) ^ 2) * starRingEnd ℂ (n * Complex.cos th) := by
    rw [e1, ← Complex.mul_conj, map_mul]; ring
  have e3 := congrArg Complex.re e2
  rw [Complex.re_ofReal_mul] at e3
  rw [e3, ← Complex.ofReal_pow]
  generalize n * Complex.cos th = q
  simp only [Complex.mul_re, Complex.add_re, Complex.add_im, Complex.conj_re, Complex.conj_im, Complex.ofReal_re, Complex.ofReal_im, Complex.normSq_apply, sq, Complex.mul_im]
  ring

lemma same_quadrant {n th : ℂ} {s : ℝ} (hp : 0 ≤ n.re * n.im) (hs : n * Complex.sin th = s) : 0 ≤ (n * Complex.cos th).re * (n * Complex.cos th).im := by
  have e1 : (n * Complex.cos th) ^ 2 + (s : ℂ) ^ 2 = n ^ 2 := by rw [← hs]; linear_combination n ^ 2 * Complex.sin_sq_add_cos_sq th
  have e3 := congrArg Complex.im e1
  rw [← Complex.ofReal_pow] at e3
  generalize n * Complex.cos th = q at *
  simp only [Complex.add_im, Complex.ofReal_im, sq, Complex.mul_im] at e3
  nlinarith

/-- C151. In every passive medium `is_forward_angle` gives an answer for every wave whose component along the layers is real, that is for every wave that light from a transparent medium
excites (but for the single value `n cos θ = 100i EPSILON`); in media with gain it raises AssertionError. -/
theorem C151_answers (n θ : ℂ) (s : ℝ) (hn : n ≠ 0) (hs : n * Complex.sin θ = s) :
    (0 ≤ n.re * n.im → n * Complex.cos θ ≠ 100 * tmmEps * Complex.I → ∃ b, isForwardAngle n θ = .ok b) ∧ (n.re * n.im < 0 → isForwardAngle n θ = .error .assertionError) := by
  constructor
  · intro hp hx
    refine ⟨_, forward_iff.2 ⟨hp, rfl, ?_⟩⟩
    have h1 := conj_power hs
    have h2 := same_quadrant hp hs
    have h3 : 0 < Complex.normSq n := Complex.normSq_pos.2 hn
    have h4 := Complex.normSq_nonneg (n * Complex.cos θ)
    have ht := tmmEps_pos
    have hx' : (n * Complex.cos θ).re ≠ 0 ∨ (n * Complex.cos θ).im ≠ 100 * tmmEps := by
      by_contra hh
      rw [not_or, not_not, not_not] at hh
      refine hx (Complex.ext ?_ ?_)
      · rw [hh.1]; simp
      · rw [hh.2]; simp
    generalize n * Complex.cos θ = q at *
    generalize (n * starRingEnd ℂ (Complex.cos θ)).re = p at *
    have hp1 : 0 ≤ q.re → 0 ≤ p := by
      intro hq
      by_contra hh
      have : Complex.normSq n * p < 0 := mul_neg_of_pos_of_neg h3 (not_le.1 hh)
      have : 0 ≤ (Complex.normSq q + s ^ 2) * q.re := by positivity
      linarith
    have hp2 : q.re ≤ 0 → p ≤ 0 := by
      intro hq
      by_contra hh
      have : 0 < Complex.normSq n * p := mul_pos h3 (not_le.1 hh)
      have : (Complex.normSq q + s ^ 2) * q.re ≤ 0 := mul_nonpos_of_nonneg_of_nonpos (by positivity) hq
      linarith
    unfold forwardAnswer
    split
    · rename_i hi
      rw [decide_eq_true_eq, decide_eq_false_iff_not]
      constructor
      · intro h
        have : 0 ≤ q.re := by by_contra hh; nlinarith
        have := hp1 this
        exact ⟨by linarith, by linarith, by linarith⟩
      · intro h
        have h' : q.im < 0 := lt_of_le_of_ne (not_lt.1 h) fun e => by rw [e, abs_zero] at hi; linarith
        have : q.re ≤ 0 := by by_contra hh; nlinarith
        have := hp2 this
        exact ⟨by linarith, by linarith, by linarith⟩
    · rename_i hi
      rw [decide_eq_true_eq, decide_eq_false_iff_not]
      obtain ⟨i1, i2⟩ := abs_le.1 (not_lt.1 hi)
      constructor
      · intro h
        have : 0 ≤ q.im := by by_contra hh; nlinarith
        have := hp1 h.le
        exact ⟨by linarith, by linarith, by linarith⟩
      · intro h
        have := hp2 (not_lt.1 h)
        refine ⟨?_, by linarith, by linarith⟩
        rcases (not_lt.1 h).lt_or_eq with q1 | q1
        · have : q.im ≤ 0 := by by_contra hh; nlinarith
          linarith
        · rcases hx' with q2 | q2
          · exact absurd q1 q2
          · exact lt_of_le_of_ne i2 q2
  · intro hp
    unfold isForwardAngle assertTrue
    rw [if_neg (not_le.2 hp)]
    rfl

/-- C151. `snell` follows Snell's law into every passive medium and returns the forward angle; whichever arcsine it is built on, the wave (`n cos θ`) is the same. Only waves along the surface
are left undecided. -/
theorem C151_snell (asin : ℂ → ℂ) (hasin : ∀ z, Complex.sin (asin z) = z) (n1 n2 th1 : ℂ) (s : ℝ) (hs : n1 * Complex.sin th1 = s) (hn : n2 ≠ 0) (hp : 0 ≤ n2.re * n2.im)
    (hg : ∀ q : ℂ, q ^ 2 = n2 ^ 2 - s ^ 2 → ¬Grazing q) :
    ∃ th2, snell asin n1 n2 th1 = .ok th2 ∧ n2 * Complex.sin th2 = n1 * Complex.sin th1 ∧ isForwardAngle n2 th2 = .ok true ∧
      ∀ th : ℂ, n2 * Complex.sin th = n1 * Complex.sin th1 → isForwardAngle n2 th = .ok true → n2 * Complex.cos th = n2 * Complex.cos th2 := by
  have ht := tmmEps_pos
  have hsq : ∀ th : ℂ, n2 * Complex.sin th = s → (n2 * Complex.cos th) ^ 2 = n2 ^ 2 - s ^ 2 := by
    intro th h
    rw [← h]
    linear_combination n2 ^ 2 * Complex.sin_sq_add_cos_sq th
  have hz : n2 * Complex.sin (asin (n1 * Complex.sin th1 / n2)) = s := by rw [hasin, mul_div_cancel₀ _ hn, hs]
  have hng := hg _ (hsq _ hz)
  obtain ⟨b, hb⟩ := (C151_answers n2 _ s hn hz).1 hp fun e => hng (by
    rw [e]
    constructor
    · simp
    · simp [abs_of_pos ht])
  have key : ∃ th2, snell asin n1 n2 th1 = .ok th2 ∧ n2 * Complex.sin th2 = n1 * Complex.sin th1 ∧ isForwardAngle n2 th2 = .ok true := by
    unfold snell makeForward
    rw [nanDiv_ok.2 ⟨hn, rfl⟩, ok_bind, hb, ok_bind]
    cases b with
    | true => exact ⟨_, rfl, by rw [hz, hs], hb⟩
    | false => exact ⟨_, rfl, by rw [Complex.sin_pi_sub, hz, hs], (C151_opposite _ _ _ hb).1 hng⟩
  obtain ⟨th2, k1, k2, k3⟩ := key
  refine ⟨th2, k1, k2, k3, fun th q1 q2 => ?_⟩
  have f1 := isForward_answer q2
  have f2 := isForward_answer k3
  rw [hs] at q1 k2
  have e := hsq th q1
  rw [← hsq th2 k2] at e
  rcases sq_eq_sq_iff_eq_or_eq_neg.1 e with e | e
  · exact e
  · rw [e, forwardAnswer_neg (hg _ (hsq _ k2)), ← f2] at f1
    cases f1

/-- C151. Between transparent media: below the critical angle the refracted wave travels, beyond it the wave decays away from the surface. -/
theorem C151_real (asin : ℂ → ℂ) (hasin : ∀ z, Complex.sin (asin z) = z) (n1 n2 θ : ℝ) (h2 : 0 < n2) :
    (|n1 * Real.sin θ| < n2 → ∃ th2, snell asin n1 n2 θ = .ok th2 ∧ n2 * Complex.cos th2 = (Real.sqrt (n2 ^ 2 - (n1 * Real.sin θ) ^ 2) : ℝ)) ∧
    (n2 ^ 2 + (100 * tmmEps) ^ 2 < (n1 * Real.sin θ) ^ 2 → ∃ th2, snell asin n1 n2 θ = .ok th2 ∧ n2 * Complex.cos th2 = (Real.sqrt ((n1 * Real.sin θ) ^ 2 - n2 ^ 2) : ℝ) * Complex.I) := by
  have ht := tmmEps_pos
  have hs : (n1 : ℂ) * Complex.sin θ = ((n1 * Real.sin θ : ℝ) : ℂ) := by push_cast; rfl
  generalize n1 * Real.sin θ = s at *
  have hn : (n2 : ℂ) ≠ 0 := by exact_mod_cast h2.ne'
  have hp : 0 ≤ (n2 : ℂ).re * (n2 : ℂ).im := by simp
  constructor
  · intro hlt
    have h3 : 0 < n2 ^ 2 - s ^ 2 := by have := sq_lt_sq' (by linarith [neg_abs_le s]) (lt_of_le_of_lt (le_abs_self s) hlt); linarith
    obtain ⟨r, hr⟩ : ∃ r, Real.sqrt (n2 ^ 2 - s ^ 2) = r := ⟨_, rfl⟩
    have hr0 : 0 < r := by rw [← hr]; exact Real.sqrt_pos.2 h3
    have hr2 : ((r : ℂ)) ^ 2 = (n2 : ℂ) ^ 2 - (s : ℂ) ^ 2 := by
      have : r ^ 2 = n2 ^ 2 - s ^ 2 := by rw [← hr, Real.sq_sqrt h3.le]
      exact_mod_cast this
    have hq : ∀ q : ℂ, q ^ 2 = (n2 : ℂ) ^ 2 - (s : ℂ) ^ 2 → q = r ∨ q = -r := fun q e => sq_eq_sq_iff_eq_or_eq_neg.1 (e.trans hr2.symm)
    obtain ⟨th2, k1, k2, k3, -⟩ := C151_snell asin hasin n1 n2 θ s hs hn hp (by
      intro q e hg
      rcases hq q e with rfl | rfl
      · exact hr0.ne' (by simpa using hg.1)
      · exact hr0.ne' (by simpa using hg.1))
    refine ⟨th2, k1, ?_⟩
    rw [hr]
    rcases hq (n2 * Complex.cos th2) (by rw [← hs, ← k2]; linear_combination (n2 : ℂ) ^ 2 * Complex.sin_sq_add_cos_sq th2) with e | e
    · exact e
    · exfalso
      have := isForward_answer k3
      rw [e] at this
      unfold forwardAnswer at this
      simp [not_lt.2 hr0.le] at this
  · intro hlt
    have h3 : (100 * tmmEps) ^ 2 < s ^ 2 - n2 ^ 2 := by linarith
    have h4 : 0 ≤ s ^ 2 - n2 ^ 2 := le_trans (sq_nonneg _) h3.le
    obtain ⟨r, hr⟩ : ∃ r, Real.sqrt (s ^ 2 - n2 ^ 2) = r := ⟨_, rfl⟩
    have hr0 : 100 * tmmEps < r := by rw [← hr]; exact Real.lt_sqrt_of_sq_lt h3
    have hr2 : ((r : ℂ) * Complex.I) ^ 2 = (n2 : ℂ) ^ 2 - (s : ℂ) ^ 2 := by
      have : (r : ℂ) ^ 2 = (s : ℂ) ^ 2 - (n2 : ℂ) ^ 2 := by
        have : r ^ 2 = s ^ 2 - n2 ^ 2 := by rw [← hr, Real.sq_sqrt h4]
        exact_mod_cast this
      rw [mul_pow, this, Complex.I_sq]
      ring
    have hq : ∀ q : ℂ, q ^ 2 = (n2 : ℂ) ^ 2 - (s : ℂ) ^ 2 → q = r * Complex.I ∨ q = -(r * Complex.I) := fun q e => sq_eq_sq_iff_eq_or_eq_neg.1 (e.trans hr2.symm)
    have habs : |r| = r := abs_of_pos (by linarith)
    obtain ⟨th2, k1, k2, k3, -⟩ := C151_snell asin hasin n1 n2 θ s hs hn hp (by
      intro q e hg
      have := hg.2
      rcases hq q e with rfl | rfl
      · simp [habs] at this; linarith
      · simp [habs] at this; linarith)
    refine ⟨th2, k1, ?_⟩
    rw [hr]
    rcases hq (n2 * Complex.cos th2) (by rw [← hs, ← k2]; linear_combination (n2 : ℂ) ^ 2 * Complex.sin_sq_add_cos_sq th2) with e | e
    · exact e
    · exfalso
      have := isForward_answer k3
      rw [e] at this
      unfold forwardAnswer at this
      simp [habs, hr0] at this
      linarith

/-- Non-vacuity of `C151_snell`: from air into absorbing glass at 45 degrees. -/
example : ∃ th2, snell someArcsin 1 (1.5 + 0.1 * Complex.I) (Real.pi / 4 : ℝ) = .ok th2 ∧ isForwardAngle (1.5 + 0.1 * Complex.I) th2 = .ok true := by
  have hne : (1.5 + 0.1 * Complex.I : ℂ) ≠ 0 := by
    intro e
    have := congrArg Complex.re e
    norm_num at this
  obtain ⟨th2, k1, -, k3, -⟩ := C151_snell someArcsin someArcsin_sin 1 (1.5 + 0.1 * Complex.I) (Real.pi / 4 : ℝ) (Real.sin (Real.pi / 4)) (by rw [one_mul, Complex.ofReal_sin]) hne (by norm_num) (by
    intro q e hg
    have := congrArg Complex.im e
    rw [sq, Complex.mul_im, hg.1, ← Complex.ofReal_pow] at this
    simp only [sq] at this
    norm_num at this)
  exact ⟨th2, k1, k3⟩

/-- Non-vacuity of the second part of `C151_real`: total reflection in glass. -/
example : (1 : ℝ) ^ 2 + (100 * tmmEps) ^ 2 < (1.5 * Real.sin (Real.pi / 2)) ^ 2 := by
  rw [Real.sin_pi_div_two]
  norm_num [tmmEps]

end

end Nidn
