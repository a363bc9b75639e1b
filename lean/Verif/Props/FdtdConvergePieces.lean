/-
For C182 and C183: residuals of the FDTD steps in media of layers, where the materials jump.
-/
import Verif.Props.FdtdConverge
import Verif.Lemmas.FdtdConvergeMean

namespace Nidn

section local_residuals

variable {as : List (Fin 3)} {ℓ : Fin 3 → ℝ} {s : ℝ} {ie im sg : Place → Fin 3 → ℝ} {E H E' H' : ℝ → Place → Fin 3 → ℝ} {n : Pos}

set_option maxHeartbeats 1000000 in
/-- residual of the electric step in a cell whose neighbourhood lies in one smooth piece -/
lemma residual_E_at (hn : ∀ a, (a ∈ as ∧ 2 ≤ n a) ∨ (a ∉ as ∧ n a = 1)) (hℓ : ∀ a ∈ as, ((n a : ℝ) - 1) * s = ℓ a)
    (hH : ∀ t c, Repeats as ℓ fun x => H t x c) {M : Torus.Medium ℝ} (hM : SampledMedium (torusOf n as) M s ie im sg) (hs : 0 < s) (hc0 : 0 < M.courant) (hc1 : M.courant ≤ 1)
    {p : Pos} (hp : p ∈ box (torusOf n as).cells) (c : Fin 3) (hie : 0 < ie (placeE s p c) c ∧ ie (placeE s p c) c ≤ 1) {Sg : ℝ} (hsg : 0 ≤ sg (placeE s p c) c ∧ sg (placeE s p c) c ≤ Sg)
    (sE : ContDiff ℝ 3 fun z : ℝ × Place => E' z.1 z.2 c) (sH : ∀ c, ContDiff ℝ 3 fun z : ℝ × Place => H' z.1 z.2 c)
    (eqE : ∀ t, E t (placeE s p c) c = E' t (placeE s p c) c)
    (eqH : ∀ t a d y, |y - placeE s p c a| ≤ s / 2 → H t (Function.update (placeE s p c) a y) d = H' t (Function.update (placeE s p c) a y) d)
    (amp : ∀ t, deriv (fun τ => E' τ (placeE s p c) c) t = ie (placeE s p c) c * (curlAt (H' t) (placeE s p c) c - sg (placeE s p c) c * E' t (placeE s p c) c))
    (t j : ℕ) {M0 : ℝ} (hM0 : 0 ≤ M0)
    (b1 : ∀ a d y, |y - placeE s p c a| ≤ s / 2 →
      |along (dirX a) (along (dirX a) (along (dirX a) fun z : ℝ × Place => H' z.1 z.2 d)) ((j + 1 / 2) * (M.courant * s), Function.update (placeE s p c) a y)| ≤ M0)
    (b2 : ∀ y, |y - (j + 1 / 2) * (M.courant * s)| ≤ M.courant * s / 2 → |along dirT (along dirT (along dirT fun z : ℝ × Place => E' z.1 z.2 c)) (y, placeE s p c)| ≤ M0)
    (b3 : ∀ y, |y - (j + 1 / 2) * (M.courant * s)| ≤ M.courant * s / 2 → |along dirT (along dirT fun z : ℝ × Place => E' z.1 z.2 c) (y, placeE s p c)| ≤ M0) :
    |E ((j + 1) * (M.courant * s)) (placeE s p c) c
      - Torus.stepE (torusOf n as) M t (fun p c => E (j * (M.courant * s)) (placeE s p c) c) (fun p c => H ((j + 1 / 2) * (M.courant * s)) (placeH s p c) c) p c|
      ≤ M0 * (1 + Sg) * (M.courant * s) * s ^ 2 := by
  set δ := M.courant * s with hδ
  set x := placeE s p c with hx
  set τ := ((j : ℝ) + 1 / 2) * δ with hτ
  have hδ0 : 0 < δ := mul_pos hc0 hs
  have hδs : δ ≤ s := by rw [hδ]; nlinarith
  obtain ⟨n1, n2, n3, n4⟩ := fin3_ne c
  have up : ∀ a, |x a + s / 2 - x a| ≤ s / 2 := fun a => by rw [add_sub_cancel_left, abs_of_pos (by linarith)]
  have dn : ∀ a, |x a - s / 2 - x a| ≤ s / 2 := fun a => by rw [sub_sub_cancel_left, abs_neg, abs_of_pos (by linarith)]
  have hcurl : Torus.curlBwd (torusOf n as) (fun p c => H τ (placeH s p c) c) p c
      = H' τ (Function.update x (c + 1) (x (c + 1) + s / 2)) (c + 2) - H' τ (Function.update x (c + 1) (x (c + 1) - s / 2)) (c + 2)
      - (H' τ (Function.update x (c + 2) (x (c + 2) + s / 2)) (c + 1) - H' τ (Function.update x (c + 2) (x (c + 2) - s / 2)) (c + 1)) := by
    unfold Torus.curlBwd
    rw [bwd_sampled hn hℓ (hH τ) n1 n2 n3 hp, bwd_sampled hn hℓ (hH τ) n2 n1 n4 hp, ← hx,
      eqH τ _ _ _ (up _), eqH τ _ _ _ (dn _), eqH τ _ _ _ (up _), eqH τ _ _ _ (dn _)]
  have r3 := curl_step (Fx := fun z d => H' z.1 z.2 d) sH τ x c hs.le b1
  have e3 : curlAt (fun y d => (fun z : ℝ × Place => fun d => H' z.1 z.2 d) (τ, y) d) x c = curlAt (H' τ) x c := rfl
  rw [e3] at r3
  simp only at r3
  rw [← hcurl] at r3
  have r1 := difference_t sE τ x (by linarith : 0 ≤ δ / 2) b2
  have r2 := mean_t sE τ x (by linarith : 0 ≤ δ / 2) b3
  have t1 : τ + δ / 2 = ((j : ℝ) + 1) * δ := by rw [hτ]; ring
  have t2 : τ - δ / 2 = (j : ℝ) * δ := by rw [hτ]; ring
  rw [t1, t2] at r1 r2
  simp only at r1 r2
  rw [amp τ] at r1
  have hl : M.loss p c = δ / 2 * ie x c * sg x c := by rw [hM.loss p hp c]
  have hl0 : 0 ≤ M.loss p c := by rw [hl]; have := hie.1.le; have := hsg.1; positivity
  unfold Torus.stepE
  rw [hM.drive, add_zero, hM.eps p hp c, ← hx, eqE, show (fun p c => E ((j : ℝ) * δ) (placeE s p c) c) p c = E' ((j : ℝ) * δ) x c from eqE _]
  set K := Torus.curlBwd (torusOf n as) (fun p c => H τ (placeH s p c) c) p c with hK
  set Ep := E' (((j : ℝ) + 1) * δ) x c with hEp
  set Em := E' ((j : ℝ) * δ) x c with hEm
  set A := ie x c with hA
  set lo := M.loss p c with hlo
  have key : Ep - ((1 - lo) * Em + M.courant * A * K) / (1 + lo)
      = ((Ep - Em - 2 * (δ / 2) * (A * (curlAt (H' τ) x c - sg x c * E' τ x c))) + lo * (Ep + Em - 2 * E' τ x c) - M.courant * A * (K - s * curlAt (H' τ) x c)) / (1 + lo) := by
    rw [eq_div_iff (by linarith), sub_mul, div_mul_cancel₀ _ (by linarith), hl, hδ]
    ring
  rw [key, abs_div, abs_of_pos (by linarith : 0 < 1 + lo), div_le_iff₀ (by linarith)]
  have q1 : |Ep - Em - 2 * (δ / 2) * (A * (curlAt (H' τ) x c - sg x c * E' τ x c))| ≤ M0 / 24 * δ * s ^ 2 := by
    refine r1.trans ?_
    have : δ ^ 2 ≤ s ^ 2 := pow_le_pow_left₀ hδ0.le hδs 2
    calc M0 / 3 * (δ / 2) ^ 3 = M0 / 24 * δ * δ ^ 2 := by ring
      _ ≤ _ := mul_le_mul_of_nonneg_left this (by positivity)
  have q2 : |lo * (Ep + Em - 2 * E' τ x c)| ≤ M0 * Sg / 8 * δ * s ^ 2 := by
    rw [abs_mul, abs_of_nonneg hl0]
    have h1 : lo ≤ δ / 2 * Sg := by
      rw [hl]
      have : A * sg x c ≤ 1 * Sg := mul_le_mul hie.2 hsg.2 hsg.1 zero_le_one
      nlinarith
    have h2 : M0 * (δ / 2) ^ 2 ≤ M0 / 4 * s ^ 2 := by
      have : δ ^ 2 ≤ s ^ 2 := pow_le_pow_left₀ hδ0.le hδs 2
      nlinarith
    have hSg : 0 ≤ Sg := hsg.1.trans hsg.2
    calc _ ≤ (δ / 2 * Sg) * (M0 / 4 * s ^ 2) := mul_le_mul h1 (r2.trans h2) (abs_nonneg _) (by positivity)
      _ = _ := by ring
  have q3 : |M.courant * A * (K - s * curlAt (H' τ) x c)| ≤ M0 / 12 * δ * s ^ 2 := by
    rw [abs_mul, abs_of_nonneg (mul_nonneg hc0.le hie.1.le)]
    calc _ ≤ (M.courant * 1) * (M0 / 12 * s ^ 3) := mul_le_mul (mul_le_mul_of_nonneg_left hie.2 hc0.le) r3 (abs_nonneg _) (by linarith)
      _ = _ := by rw [hδ]; ring
  have hSg : 0 ≤ Sg := hsg.1.trans hsg.2
  have tot : M0 / 24 * δ * s ^ 2 + M0 * Sg / 8 * δ * s ^ 2 + M0 / 12 * δ * s ^ 2 ≤ M0 * (1 + Sg) * δ * s ^ 2 := by
    have : 0 ≤ M0 * δ * s ^ 2 := by positivity
    linarith [mul_nonneg this hSg, this]
  have big : 0 ≤ M0 * (1 + Sg) * δ * s ^ 2 * lo := by positivity
  calc _ ≤ |Ep - Em - 2 * (δ / 2) * (A * (curlAt (H' τ) x c - sg x c * E' τ x c))| + |lo * (Ep + Em - 2 * E' τ x c)| + |M.courant * A * (K - s * curlAt (H' τ) x c)| :=
        (abs_sub _ _).trans (add_le_add_left (abs_add_le _ _) _)
    _ ≤ M0 * (1 + Sg) * δ * s ^ 2 + M0 * (1 + Sg) * δ * s ^ 2 * lo := by linarith
    _ = _ := by ring

set_option maxHeartbeats 1000000 in
/-- residual of the magnetic step in a cell whose neighbourhood lies in one smooth piece -/
lemma residual_H_at (hn : ∀ a, (a ∈ as ∧ 2 ≤ n a) ∨ (a ∉ as ∧ n a = 1)) (hℓ : ∀ a ∈ as, ((n a : ℝ) - 1) * s = ℓ a)
    (hE : ∀ t c, Repeats as ℓ fun x => E t x c) {M : Torus.Medium ℝ} (hM : SampledMedium (torusOf n as) M s ie im sg) (hs : 0 < s) (hc0 : 0 < M.courant) (hc1 : M.courant ≤ 1)
    {p : Pos} (hp : p ∈ box (torusOf n as).cells) (c : Fin 3) (him : 0 < im (placeH s p c) c ∧ im (placeH s p c) c ≤ 1)
    (sH : ContDiff ℝ 3 fun z : ℝ × Place => H' z.1 z.2 c) (sE : ∀ c, ContDiff ℝ 3 fun z : ℝ × Place => E' z.1 z.2 c)
    (eqH : ∀ t, H t (placeH s p c) c = H' t (placeH s p c) c)
    (eqE : ∀ t a d y, |y - placeH s p c a| ≤ s / 2 → E t (Function.update (placeH s p c) a y) d = E' t (Function.update (placeH s p c) a y) d)
    (far : ∀ t, deriv (fun τ => H' τ (placeH s p c) c) t = -(im (placeH s p c) c * curlAt (E' t) (placeH s p c) c)) (j : ℕ) {M0 : ℝ} (hM0 : 0 ≤ M0)
    (b1 : ∀ a d y, |y - placeH s p c a| ≤ s / 2 →
      |along (dirX a) (along (dirX a) (along (dirX a) fun z : ℝ × Place => E' z.1 z.2 d)) ((j + 1) * (M.courant * s), Function.update (placeH s p c) a y)| ≤ M0)
    (b2 : ∀ y, |y - (j + 1) * (M.courant * s)| ≤ M.courant * s / 2 → |along dirT (along dirT (along dirT fun z : ℝ × Place => H' z.1 z.2 c)) (y, placeH s p c)| ≤ M0) :
    |H ((j + 1 + 1 / 2) * (M.courant * s)) (placeH s p c) c
      - Torus.stepH (torusOf n as) M (fun p c => E ((j + 1) * (M.courant * s)) (placeE s p c) c) (fun p c => H ((j + 1 / 2) * (M.courant * s)) (placeH s p c) c) p c|
      ≤ M0 * (M.courant * s) * s ^ 2 := by
  set δ := M.courant * s with hδ
  set x := placeH s p c with hx
  set τ := ((j : ℝ) + 1) * δ with hτ
  have hδ0 : 0 < δ := mul_pos hc0 hs
  have hδs : δ ≤ s := by rw [hδ]; nlinarith
  obtain ⟨n1, n2, n3, n4⟩ := fin3_ne c
  have up : ∀ a, |x a + s / 2 - x a| ≤ s / 2 := fun a => by rw [add_sub_cancel_left, abs_of_pos (by linarith)]
  have dn : ∀ a, |x a - s / 2 - x a| ≤ s / 2 := fun a => by rw [sub_sub_cancel_left, abs_neg, abs_of_pos (by linarith)]
  have hcurl : Torus.curlFwd (torusOf n as) (fun p c => E τ (placeE s p c) c) p c
      = E' τ (Function.update x (c + 1) (x (c + 1) + s / 2)) (c + 2) - E' τ (Function.update x (c + 1) (x (c + 1) - s / 2)) (c + 2)
      - (E' τ (Function.update x (c + 2) (x (c + 2) + s / 2)) (c + 1) - E' τ (Function.update x (c + 2) (x (c + 2) - s / 2)) (c + 1)) := by
    unfold Torus.curlFwd
    rw [fwd_sampled hn hℓ (hE τ) n1 n2 n3 hp, fwd_sampled hn hℓ (hE τ) n2 n1 n4 hp, ← hx,
      eqE τ _ _ _ (up _), eqE τ _ _ _ (dn _), eqE τ _ _ _ (up _), eqE τ _ _ _ (dn _)]
  have r3 := curl_step (Fx := fun z d => E' z.1 z.2 d) sE τ x c hs.le b1
  have e3 : curlAt (fun y d => (fun z : ℝ × Place => fun d => E' z.1 z.2 d) (τ, y) d) x c = curlAt (E' τ) x c := rfl
  rw [e3] at r3
  simp only at r3
  rw [← hcurl] at r3
  have r1 := difference_t sH τ x (by linarith : 0 ≤ δ / 2) b2
  have t1 : τ + δ / 2 = ((j : ℝ) + 1 + 1 / 2) * δ := by rw [hτ]; ring
  have t2 : τ - δ / 2 = ((j : ℝ) + 1 / 2) * δ := by rw [hτ]; ring
  rw [t1, t2] at r1
  simp only at r1
  rw [far τ] at r1
  unfold Torus.stepH
  rw [hM.mu p hp c, ← hx, eqH, show (fun p c => H (((j : ℝ) + 1 / 2) * δ) (placeH s p c) c) p c = H' (((j : ℝ) + 1 / 2) * δ) x c from eqH _]
  set K := Torus.curlFwd (torusOf n as) (fun p c => E τ (placeE s p c) c) p c with hK
  set Hp := H' (((j : ℝ) + 1 + 1 / 2) * δ) x c with hHp
  set Hm := H' (((j : ℝ) + 1 / 2) * δ) x c with hHm
  set A := im x c with hA
  have key : Hp - (Hm - M.courant * A * K)
      = (Hp - Hm - 2 * (δ / 2) * -(A * curlAt (E' τ) x c)) + M.courant * A * (K - s * curlAt (E' τ) x c) := by
    rw [hδ]; ring
  rw [key]
  have q1 : |Hp - Hm - 2 * (δ / 2) * -(A * curlAt (E' τ) x c)| ≤ M0 / 24 * δ * s ^ 2 := by
    refine r1.trans ?_
    have : δ ^ 2 ≤ s ^ 2 := pow_le_pow_left₀ hδ0.le hδs 2
    calc M0 / 3 * (δ / 2) ^ 3 = M0 / 24 * δ * δ ^ 2 := by ring
      _ ≤ _ := mul_le_mul_of_nonneg_left this (by positivity)
  have q3 : |M.courant * A * (K - s * curlAt (E' τ) x c)| ≤ M0 / 12 * δ * s ^ 2 := by
    rw [abs_mul, abs_of_nonneg (mul_nonneg hc0.le him.1.le)]
    calc _ ≤ (M.courant * 1) * (M0 / 12 * s ^ 3) := mul_le_mul (mul_le_mul_of_nonneg_left him.2 hc0.le) r3 (abs_nonneg _) (by linarith)
      _ = _ := by rw [hδ]; ring
  have : 0 ≤ M0 * δ * s ^ 2 := by positivity
  refine (abs_add_le _ _).trans ?_
  linarith

/-- residual of the magnetic step in any cell -/
lemma residual_H_near (hn : ∀ a, (a ∈ as ∧ 2 ≤ n a) ∨ (a ∉ as ∧ n a = 1)) (hℓ : ∀ a ∈ as, ((n a : ℝ) - 1) * s = ℓ a)
    (hE : ∀ t c, Repeats as ℓ fun x => E t x c) {M : Torus.Medium ℝ} (hM : SampledMedium (torusOf n as) M s ie im sg) (hc0 : 0 < M.courant)
    {p : Pos} (hp : p ∈ box (torusOf n as).cells) (c : Fin 3) (him : 0 < im (placeH s p c) c ∧ im (placeH s p c) c ≤ 1) (j : ℕ) {M0 : ℝ}
    (v3 : |H ((j + 1 + 1 / 2) * (M.courant * s)) (placeH s p c) c - H ((j + 1 / 2) * (M.courant * s)) (placeH s p c) c| ≤ M0 * (M.courant * s))
    (v4 : ∀ a d, a ≠ d → |E ((j + 1) * (M.courant * s)) (Function.update (placeH s p c) a (placeH s p c a + s / 2)) d
      - E ((j + 1) * (M.courant * s)) (Function.update (placeH s p c) a (placeH s p c a - s / 2)) d| ≤ M0 * s) :
    |H ((j + 1 + 1 / 2) * (M.courant * s)) (placeH s p c) c
      - Torus.stepH (torusOf n as) M (fun p c => E ((j + 1) * (M.courant * s)) (placeE s p c) c) (fun p c => H ((j + 1 / 2) * (M.courant * s)) (placeH s p c) c) p c|
      ≤ 3 * M0 * (M.courant * s) := by
  set δ := M.courant * s with hδ
  set x := placeH s p c with hx
  set τ := ((j : ℝ) + 1) * δ with hτ
  obtain ⟨n1, n2, n3, n4⟩ := fin3_ne c
  have hcurl : Torus.curlFwd (torusOf n as) (fun p c => E τ (placeE s p c) c) p c
      = E τ (Function.update x (c + 1) (x (c + 1) + s / 2)) (c + 2) - E τ (Function.update x (c + 1) (x (c + 1) - s / 2)) (c + 2)
      - (E τ (Function.update x (c + 2) (x (c + 2) + s / 2)) (c + 1) - E τ (Function.update x (c + 2) (x (c + 2) - s / 2)) (c + 1)) := by
    unfold Torus.curlFwd
    rw [fwd_sampled hn hℓ (hE τ) n1 n2 n3 hp, fwd_sampled hn hℓ (hE τ) n2 n1 n4 hp]
  have r3 : |Torus.curlFwd (torusOf n as) (fun p c => E τ (placeE s p c) c) p c| ≤ 2 * (M0 * s) := by
    rw [hcurl]
    refine (abs_sub _ _).trans ?_
    linarith [v4 _ _ n3, v4 _ _ n4]
  unfold Torus.stepH
  rw [hM.mu p hp c, ← hx]
  set K := Torus.curlFwd (torusOf n as) (fun p c => E τ (placeE s p c) c) p c with hK
  set Hp := H (((j : ℝ) + 1 + 1 / 2) * δ) x c with hHp
  set Hm := H (((j : ℝ) + 1 / 2) * δ) x c with hHm
  set A := im x c with hA
  have q3 : |M.courant * A * K| ≤ 2 * M0 * δ := by
    rw [abs_mul, abs_of_nonneg (mul_nonneg hc0.le him.1.le)]
    calc _ ≤ (M.courant * 1) * (2 * (M0 * s)) := mul_le_mul (mul_le_mul_of_nonneg_left him.2 hc0.le) r3 (abs_nonneg _) (by linarith)
      _ = _ := by rw [hδ]; ring
  rw [show Hp - (Hm - M.courant * A * K) = (Hp - Hm) + M.courant * A * K by ring]
  refine (abs_add_le _ _).trans ?_
  linarith

end local_residuals

section layers

lemma gradual {f f' : ℝ → ℝ} (h : ∀ y, HasDerivAt f (f' y) y) {a b M : ℝ} (hab : a ≤ b) (hM : ∀ y, a ≤ y → y ≤ b → |f' y| ≤ M) : |f b - f a| ≤ M * (b - a) :=
  norm_image_sub_le_of_norm_deriv_le_segment' (fun x _ => (h x).hasDerivWithinAt) (fun x hx => hM x hx.1 hx.2.le) b ⟨hab, le_rfl⟩

variable {edge : ℤ → ℝ}

/-- what changes gradually in every layer and fits together at the faces changes gradually -/
lemma across (hs : StrictMono edge) {f : ℝ → ℝ} {F : ℤ → ℝ → ℝ} (agree : ∀ i y, edge i ≤ y → y ≤ edge (i + 1) → f y = F i y) {lo hi M : ℝ}
    (lip : ∀ i y z, edge i ≤ y → y ≤ z → z ≤ edge (i + 1) → lo ≤ y → z ≤ hi → |F i z - F i y| ≤ M * (z - y)) (m : ℕ) (i : ℤ) {y z : ℝ} (h1 : edge i ≤ y) (h2 : y ≤ edge (i + 1))
    (h3 : edge (i + m) ≤ z) (h4 : z ≤ edge (i + m + 1)) (hyz : y ≤ z) (hlo : lo ≤ y) (hhi : z ≤ hi) : |f z - f y| ≤ M * (z - y) := by
  induction m generalizing z with
  | zero =>
    simp only [Nat.cast_zero, add_zero] at h3 h4
    rw [agree i y h1 h2, agree i z h3 h4]
    exact lip i y z h1 hyz h4 hlo hhi
  | succ m ih =>
    have e : i + ((m + 1 : ℕ) : ℤ) = i + m + 1 := by push_cast; ring
    rw [e] at h3 h4
    set w := edge (i + m + 1) with hw
    have hyw : y ≤ w := h2.trans (hs.monotone (by omega))
    have a1 := ih (z := w) (hs.monotone (by omega)) le_rfl hyw (h3.trans hhi)
    have a2 : |f z - f w| ≤ M * (z - w) := by
      rw [agree (i + m + 1) w le_rfl (h3.trans h4), agree (i + m + 1) z h3 h4]
      exact lip (i + m + 1) w z le_rfl h3 h4 (hlo.trans hyw) hhi
    rw [abs_le] at *
    constructor <;> linarith [a1.1, a1.2, a2.1, a2.2]

lemma layer_of (hs : StrictMono edge) (hb : ∀ r, ∃ i, edge i < r) (ha : ∀ r, ∃ i, r < edge i) (y : ℝ) : ∃ i, edge i ≤ y ∧ y < edge (i + 1) := by
  obtain ⟨b, hb⟩ := hb y
  obtain ⟨a, ha⟩ := ha y
  obtain ⟨i, h1, h2⟩ := Int.exists_greatest_of_bdd (P := fun i => edge i ≤ y) ⟨a, fun z hz => (hs.lt_iff_lt.mp (hz.trans_lt ha)).le⟩ ⟨b, hb.le⟩
  refine ⟨i, h1, ?_⟩
  by_contra h
  have := h2 (i + 1) (not_lt.mp h)
  omega

lemma partial_congr {f g : Place → ℝ} {a : Fin 3} {x : Place} {ε : ℝ} (hε : 0 < ε) (h : ∀ y, |y - x a| ≤ ε → f (Function.update x a y) = g (Function.update x a y)) : partialAt f a x = partialAt g a x := by
  unfold partialAt
  refine Filter.EventuallyEq.deriv_eq ?_
  filter_upwards [Metric.ball_mem_nhds (x a) hε] with y hy
  exact h y (by rw [Metric.mem_ball, Real.dist_eq] at hy; exact hy.le)

lemma curl_congr {F G : Place → Fin 3 → ℝ} {x : Place} {ε : ℝ} (hε : 0 < ε) (h : ∀ a d y, |y - x a| ≤ ε → F (Function.update x a y) d = G (Function.update x a y) d) (c : Fin 3) :
    curlAt F x c = curlAt G x c := by
  unfold curlAt
  rw [partial_congr (g := fun y => G y (c + 2)) hε fun y hy => h (c + 1) (c + 2) y hy, partial_congr (g := fun y => G y (c + 1)) hε fun y hy => h (c + 2) (c + 1) y hy]

lemma fieldSq_mixed {n : Pos} {F : VField ℝ} {A B : ℝ} {near : Pos → Prop} [DecidablePred near] (h1 : ∀ p ∈ box n, ∀ c, ¬ near p → |F p c| ≤ A) (h2 : ∀ p ∈ box n, ∀ c, |F p c| ≤ B) :
    fieldSq n F ≤ 3 * A ^ 2 * (box n).card + 3 * B ^ 2 * ((box n).filter near).card := by
  unfold fieldSq
  have e : ∀ p ∈ box n, ∑ c, F p c ^ 2 ≤ 3 * A ^ 2 + if near p then 3 * B ^ 2 else 0 := by
    intro p hp
    rw [Fin.sum_univ_three]
    by_cases hn : near p
    · rw [if_pos hn]
      have : ∀ c, F p c ^ 2 ≤ B ^ 2 := fun c => by rw [← sq_abs]; exact pow_le_pow_left₀ (abs_nonneg _) (h2 p hp c) 2
      nlinarith [this 0, this 1, this 2, sq_nonneg A]
    · rw [if_neg hn]
      have : ∀ c, F p c ^ 2 ≤ A ^ 2 := fun c => by rw [← sq_abs]; exact pow_le_pow_left₀ (abs_nonneg _) (h1 p hp c hn) 2
      linarith [this 0, this 1, this 2]
  refine (Finset.sum_le_sum e).trans (le_of_eq ?_)
  rw [Finset.sum_add_distrib, Finset.sum_const, nsmul_eq_mul, ← Finset.sum_filter, Finset.sum_const, nsmul_eq_mul]
  ring

lemma card_box (n : Pos) : (box n).card = n 0 * n 1 * n 2 := by
  rw [box, Fintype.card_piFinset, Fin.prod_univ_three]; simp

/-- the cells beside one plane -/
lemma card_beside {n : Pos} {s : ℝ} (hs : 0 < s) (y : ℝ) : ((box n).filter fun p => |s * (p 0 : ℝ) - y| ≤ s).card ≤ 3 * (n 1 * n 2) := by
  set m := ⌊y / s⌋₊ with hm
  have sub : ((box n).filter fun p => |s * (p 0 : ℝ) - y| ≤ s) ⊆ Fintype.piFinset fun a => if a = 0 then Finset.Icc (m - 1) (m + 1) else Finset.range (n a) := by
    intro p hp
    rw [Finset.mem_filter] at hp
    obtain ⟨hb, hy⟩ := hp
    rw [Fintype.mem_piFinset]
    intro a
    by_cases ha : a = 0
    · subst ha
      rw [if_pos rfl, Finset.mem_Icc]
      rw [abs_le] at hy
      have h1 : (p 0 : ℝ) ≤ y / s + 1 := by
        have : (p 0 : ℝ) - 1 ≤ y / s := by rw [le_div_iff₀ hs]; linarith [hy.2]
        linarith
      have h2 : y / s ≤ (p 0 : ℝ) + 1 := by rw [div_le_iff₀ hs]; linarith [hy.1]
      constructor
      · have : m ≤ p 0 + 1 := by
          rw [hm]; refine Nat.floor_le_of_le ?_; push_cast; exact h2
        omega
      · have h3 : y / s < m + 1 := Nat.lt_floor_add_one _
        have : (p 0 : ℝ) < m + 2 := by linarith
        have : p 0 < m + 2 := by exact_mod_cast this
        omega
    · rw [if_neg ha, Finset.mem_range]
      exact mem_box.mp hb a
  refine (Finset.card_le_card sub).trans ?_
  rw [Fintype.card_piFinset, Fin.prod_univ_three]
  have : (Finset.Icc (m - 1) (m + 1)).card ≤ 3 := by rw [Nat.card_Icc]; omega
  simp only [if_true, show (1 : Fin 3) ≠ 0 by decide, show (2 : Fin 3) ≠ 0 by decide, if_false, Finset.card_range]
  rw [mul_assoc]
  exact Nat.mul_le_mul_right _ this

end layers

section main

variable {as : List (Fin 3)} {ℓ : Fin 3 → ℝ} {s : ℝ} {ie im sg : Place → Fin 3 → ℝ} {E H : ℝ → Place → Fin 3 → ℝ} {edge : ℤ → ℝ}

/-- the smooth pieces of layered fields -/
structure Pieces (edge : ℤ → ℝ) (E : ℝ → Place → Fin 3 → ℝ) (P : ℤ → ℝ → Place → Fin 3 → ℝ) : Prop where
  smooth : ∀ i c, ContDiff ℝ 3 fun z : ℝ × Place => P i z.1 z.2 c
  eq : ∀ i t x c, edge i ≤ x 0 → (x 0 < edge (i + 1) ∨ (c ≠ 0 ∧ x 0 = edge (i + 1))) → E t x c = P i t x c

/-- bounds of the pieces that reach into the place of the simulation, for all derivatives that occur -/
structure Bounded (I : Finset ℤ) (K : Set (ℝ × Place)) (P : ℤ → ℝ → Place → Fin 3 → ℝ) (M : ℝ) : Prop where
  val : ∀ i ∈ I, ∀ c, ∀ z ∈ K, |P i z.1 z.2 c| ≤ M
  t1 : ∀ i ∈ I, ∀ c, ∀ z ∈ K, |along dirT (fun z : ℝ × Place => P i z.1 z.2 c) z| ≤ M
  t2 : ∀ i ∈ I, ∀ c, ∀ z ∈ K, |along dirT (along dirT fun z : ℝ × Place => P i z.1 z.2 c) z| ≤ M
  t3 : ∀ i ∈ I, ∀ c, ∀ z ∈ K, |along dirT (along dirT (along dirT fun z : ℝ × Place => P i z.1 z.2 c)) z| ≤ M
  x1 : ∀ i ∈ I, ∀ c a, ∀ z ∈ K, |along (dirX a) (fun z : ℝ × Place => P i z.1 z.2 c) z| ≤ M
  x3 : ∀ i ∈ I, ∀ c a, ∀ z ∈ K, |along (dirX a) (along (dirX a) (along (dirX a) fun z : ℝ × Place => P i z.1 z.2 c)) z| ≤ M

lemma Bounded.mono {I : Finset ℤ} {K : Set (ℝ × Place)} {P : ℤ → ℝ → Place → Fin 3 → ℝ} {M M' : ℝ} (h : Bounded I K P M) (hM : M ≤ M') : Bounded I K P M' :=
  ⟨fun i hi c z hz => (h.val i hi c z hz).trans hM, fun i hi c z hz => (h.t1 i hi c z hz).trans hM, fun i hi c z hz => (h.t2 i hi c z hz).trans hM,
    fun i hi c z hz => (h.t3 i hi c z hz).trans hM, fun i hi c a z hz => (h.x1 i hi c a z hz).trans hM, fun i hi c a z hz => (h.x3 i hi c a z hz).trans hM⟩

lemma bounded_pieces (I : Finset ℤ) {K : Set (ℝ × Place)} (cK : IsCompact K) {P : ℤ → ℝ → Place → Fin 3 → ℝ} (hP : ∀ i c, ContDiff ℝ 3 fun z : ℝ × Place => P i z.1 z.2 c) :
    ∃ M, 0 ≤ M ∧ Bounded I K P M := by
  obtain ⟨M1, p1, m1⟩ := common_bound cK (fun (i : I × Fin 3) => fun z : ℝ × Place => P i.1 z.1 z.2 i.2) fun i => (hP _ _).continuous
  obtain ⟨M2, p2, m2⟩ := common_bound cK (fun (i : I × Fin 3) => along dirT fun z : ℝ × Place => P i.1 z.1 z.2 i.2) fun i => (along_one (hP _ _) _).continuous
  obtain ⟨M3, p3, m3⟩ := common_bound cK (fun (i : I × Fin 3) => along dirT (along dirT fun z : ℝ × Place => P i.1 z.1 z.2 i.2)) fun i => (along_two (hP _ _) _).continuous
  obtain ⟨M4, p4, m4⟩ := common_bound cK (fun (i : I × Fin 3) => along dirT (along dirT (along dirT fun z : ℝ × Place => P i.1 z.1 z.2 i.2))) fun i => along_three (hP _ _) _
  obtain ⟨M5, p5, m5⟩ := common_bound cK (fun (i : (I × Fin 3) × Fin 3) => along (dirX i.2) fun z : ℝ × Place => P i.1.1 z.1 z.2 i.1.2) fun i => (along_one (hP _ _) _).continuous
  obtain ⟨M6, p6, m6⟩ := common_bound cK (fun (i : (I × Fin 3) × Fin 3) => along (dirX i.2) (along (dirX i.2) (along (dirX i.2) fun z : ℝ × Place => P i.1.1 z.1 z.2 i.1.2))) fun i => along_three (hP _ _) _
  exact ⟨M1 + M2 + M3 + M4 + M5 + M6, by positivity,
    ⟨fun i hi c z hz => (m1 (⟨i, hi⟩, c) z hz).trans (by linarith), fun i hi c z hz => (m2 (⟨i, hi⟩, c) z hz).trans (by linarith), fun i hi c z hz => (m3 (⟨i, hi⟩, c) z hz).trans (by linarith),
      fun i hi c z hz => (m4 (⟨i, hi⟩, c) z hz).trans (by linarith), fun i hi c a z hz => (m5 ((⟨i, hi⟩, c), a) z hz).trans (by linarith), fun i hi c a z hz => (m6 ((⟨i, hi⟩, c), a) z hz).trans (by linarith)⟩⟩

variable {P : ℤ → ℝ → Place → Fin 3 → ℝ}

lemma Pieces.value {F : ℝ → Place → Fin 3 → ℝ} (hP : Pieces edge F P) {i : ℤ} {x : Place} (h1 : edge i ≤ x 0) (h2 : x 0 < edge (i + 1)) (t : ℝ) (c : Fin 3) : F t x c = P i t x c :=
  hP.eq i t x c h1 (Or.inl h2)

/-- the box in space and time -/
def region (T Λ : ℝ) : Set (ℝ × Place) := Set.Icc 0 (T + Λ) ×ˢ Set.pi Set.univ fun _ => Set.Icc (-(2 * Λ)) (2 * Λ)

lemma region_compact (T Λ : ℝ) : IsCompact (region T Λ) := isCompact_Icc.prod (isCompact_univ_pi fun _ => isCompact_Icc)

lemma mem_region {T Λ t : ℝ} {x : Place} (h1 : 0 ≤ t) (h2 : t ≤ T + Λ) (h3 : ∀ b, -(2 * Λ) ≤ x b ∧ x b ≤ 2 * Λ) : (t, x) ∈ region T Λ := ⟨⟨h1, h2⟩, fun b _ => h3 b⟩

/-- the fields change gradually in time -/
lemma gradual_t {F : ℝ → Place → Fin 3 → ℝ} (hP : Pieces edge F P) {I : Finset ℤ} {T Λ M : ℝ} (hB : Bounded I (region T Λ) P M) {i : ℤ} (hi : i ∈ I) {x : Place} (h1 : edge i ≤ x 0) (h2 : x 0 < edge (i + 1))
    (hx : ∀ b, -(2 * Λ) ≤ x b ∧ x b ≤ 2 * Λ) (c : Fin 3) {t t' : ℝ} (ht0 : 0 ≤ t) (htt : t ≤ t') (ht1 : t' ≤ T + Λ) : |F t' x c - F t x c| ≤ M * (t' - t) := by
  rw [hP.value h1 h2, hP.value h1 h2]
  exact gradual (f := fun τ => P i τ x c) (hasDeriv_t ((hP.smooth i c).of_le (by norm_num)) x) htt fun y a b => hB.t1 i hi c _ (mem_region (ht0.trans a) (b.trans ht1) hx)

/-- and in space, along the faces for all components, across them for the tangential ones -/
lemma gradual_x {F : ℝ → Place → Fin 3 → ℝ} (hs : StrictMono edge) (hb : ∀ r, ∃ i, edge i < r) (ha : ∀ r, ∃ i, r < edge i) (hP : Pieces edge F P) {I : Finset ℤ} {T Λ M : ℝ}
    (hI : ∀ i y, -(2 * Λ) ≤ y → y ≤ 2 * Λ → edge i ≤ y → y < edge (i + 1) → i ∈ I)
    (hI' : ∀ i y z, -(2 * Λ) ≤ y → z ≤ 2 * Λ → edge i ≤ y → y ≤ z → z ≤ edge (i + 1) → y < z → i ∈ I)
    (hB : Bounded I (region T Λ) P M) {x : Place} {a d : Fin 3} (had : a ≠ d) {t : ℝ} (ht0 : 0 ≤ t) (ht1 : t ≤ T + Λ) {r : ℝ} (hr : 0 < r)
    (hx : ∀ y, |y - x a| ≤ r → ∀ b, -(2 * Λ) ≤ Function.update x a y b ∧ Function.update x a y b ≤ 2 * Λ) :
    |F t (Function.update x a (x a + r)) d - F t (Function.update x a (x a - r)) d| ≤ M * (2 * r) := by
  have rng : ∀ y, x a - r ≤ y → y ≤ x a + r → ∀ b, -(2 * Λ) ≤ Function.update x a y b ∧ Function.update x a y b ≤ 2 * Λ := fun y h1 h2 => hx y (by rw [abs_le]; constructor <;> linarith)
  by_cases h0 : a = 0
  · subst h0
    have agree : ∀ i y, edge i ≤ y → y ≤ edge (i + 1) → (fun y => F t (Function.update x 0 y) d) y = (fun i y => P i t (Function.update x 0 y) d) i y := by
      intro i y h1 h2
      refine hP.eq i t _ d (by simpa using h1) ?_
      rcases h2.lt_or_eq with h | h
      · left; simpa using h
      · right; exact ⟨had.symm, by simpa using h⟩
    have lip : ∀ i y z, edge i ≤ y → y ≤ z → z ≤ edge (i + 1) → x 0 - r ≤ y → z ≤ x 0 + r → |(fun i y => P i t (Function.update x 0 y) d) i z - (fun i y => P i t (Function.update x 0 y) d) i y| ≤ M * (z - y) := by
      intro i y z h1 h2 h3 h4 h5
      rcases h2.lt_or_eq with h | h
      · have q1 := (rng y h4 (h2.trans h5) 0).1
        have q2 := (rng z (h4.trans h2) h5 0).2
        rw [Function.update_self] at q1 q2
        have hi := hI' i y z q1 q2 h1 h2 h3 h
        exact gradual (f := fun y => P i t (Function.update x 0 y) d) (hasDeriv_x ((hP.smooth i d).of_le (by norm_num)) t x 0) h2 fun w a b =>
          hB.x1 i hi d 0 _ (mem_region ht0 ht1 (rng w (h4.trans a) (b.trans h5)))
      · subst h; simp
    obtain ⟨i, i1, i2⟩ := layer_of hs hb ha (x 0 - r)
    obtain ⟨k, k1, k2⟩ := layer_of hs hb ha (x 0 + r)
    have hik : i ≤ k := by
      by_contra h
      have := hs.monotone (show k + 1 ≤ i by omega)
      linarith
    obtain ⟨m, rfl⟩ : ∃ m : ℕ, k = i + m := ⟨(k - i).toNat, by omega⟩
    have := across hs agree lip m i i1 i2.le k1 k2.le (by linarith) le_rfl le_rfl
    calc _ ≤ M * (x 0 + r - (x 0 - r)) := this
      _ = _ := by ring
  · obtain ⟨i, i1, i2⟩ := layer_of hs hb ha (x 0)
    have x0 := rng (x a) (by linarith) (by linarith) 0
    rw [Function.update_eq_self] at x0
    have hi := hI i (x 0) x0.1 x0.2 i1 i2
    have e : ∀ y, F t (Function.update x a y) d = P i t (Function.update x a y) d := by
      intro y
      refine hP.value ?_ ?_ t d <;> rw [Function.update_of_ne (Ne.symm h0)] <;> assumption
    rw [e, e]
    have := gradual (f := fun y => P i t (Function.update x a y) d) (hasDeriv_x ((hP.smooth i d).of_le (by norm_num)) t x a) (show x a - r ≤ x a + r by linarith) fun w a b =>
      hB.x1 i hi d _ _ (mem_region ht0 ht1 (rng w a b))
    calc _ ≤ M * (x a + r - (x a - r)) := this
      _ = _ := by ring

lemma step_times (j : ℕ) {δ T Λ : ℝ} (hδ0 : 0 < δ) (hδΛ : δ ≤ Λ) (hjk : ((j : ℝ) + 1) * δ ≤ T) :
    (0 ≤ (j : ℝ) * δ ∧ 0 ≤ ((j : ℝ) + 1 / 2) * δ ∧ 0 ≤ ((j : ℝ) + 1) * δ ∧ 0 ≤ ((j : ℝ) + 1 + 1 / 2) * δ)
    ∧ ((j : ℝ) * δ ≤ T + Λ ∧ ((j : ℝ) + 1 / 2) * δ ≤ T + Λ ∧ ((j : ℝ) + 1) * δ ≤ T + Λ ∧ ((j : ℝ) + 1 + 1 / 2) * δ ≤ T + Λ)
    ∧ (j : ℝ) * δ ≤ ((j : ℝ) + 1) * δ ∧ ((j : ℝ) + 1 / 2) * δ ≤ ((j : ℝ) + 1 + 1 / 2) * δ := by
  have hj0 : (0:ℝ) ≤ j := Nat.cast_nonneg _
  have := mul_nonneg hj0 hδ0.le
  refine ⟨⟨by linarith, by linarith, by linarith, by linarith⟩, ⟨by linarith, by linarith, by linarith, by linarith⟩, by linarith, by linarith⟩

lemma times_E (j : ℕ) {δ T Λ : ℝ} (hδ0 : 0 < δ) (hδΛ : δ ≤ Λ) (hjk : ((j : ℝ) + 1) * δ ≤ T) (y : ℝ) (hy : |y - ((j : ℝ) + 1 / 2) * δ| ≤ δ / 2) : 0 ≤ y ∧ y ≤ T + Λ := by
  have hj0 : (0:ℝ) ≤ j := Nat.cast_nonneg _
  have := mul_nonneg hj0 hδ0.le
  rw [abs_le] at hy
  constructor <;> linarith [hy.1, hy.2]

lemma times_H (j : ℕ) {δ T Λ : ℝ} (hδ0 : 0 < δ) (hδΛ : δ ≤ Λ) (hjk : ((j : ℝ) + 1) * δ ≤ T) (y : ℝ) (hy : |y - ((j : ℝ) + 1) * δ| ≤ δ / 2) : 0 ≤ y ∧ y ≤ T + Λ := by
  have hj0 : (0:ℝ) ≤ j := Nat.cast_nonneg _
  have := mul_nonneg hj0 hδ0.le
  rw [abs_le] at hy
  constructor <;> linarith [hy.1, hy.2]

lemma courant_small {c d θ : ℝ} (hd : 1 ≤ d) (hθ : 0 < θ) (h : c ^ 2 * d ≤ 1 - θ) (hc : 0 < c) : θ ≤ 1 ∧ c ≤ 1 := by
  constructor <;> nlinarith [sq_nonneg c]

end main

end Nidn
