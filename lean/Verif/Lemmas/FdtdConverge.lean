/-
Tools for the convergence of the FDTD steps: central differences of smooth functions, and how errors made in single steps on the torus add up.
-/
import Verif.Props.FdtdTorusEnergy
import Mathlib.Analysis.Calculus.MeanValue
import Mathlib.Analysis.Calculus.ContDiff.Basic
import Mathlib.Analysis.Calculus.ContDiff.Operations
import Mathlib.Algebra.Order.Chebyshev
import Mathlib.Analysis.Calculus.Deriv.Pow

namespace Nidn

section taylor

/-- a function that vanishes at zero and whose derivative is bounded by that of `B` -/
lemma bound_from_deriv {f f' B B' : ℝ → ℝ} {η : ℝ} (hf : ∀ y, HasDerivAt f (f' y) y) (hB : ∀ y, HasDerivAt B (B' y) y) (h0 : f 0 = 0) (hB0 : B 0 = 0)
    (h : ∀ y, 0 ≤ y → y ≤ η → |f' y| ≤ B' y) {y : ℝ} (hy0 : 0 ≤ y) (hy : y ≤ η) : |f y| ≤ B y := by
  refine image_norm_le_of_norm_deriv_right_le_deriv_boundary (f := f) (f' := f') (B := B) (B' := B') (a := 0) (b := η) (E := ℝ)
    (fun x _ => (hf x).continuousAt.continuousWithinAt) (fun x _ => (hf x).hasDerivWithinAt) (by rw [h0, hB0]; simp) hB
    (fun x hx => h x hx.1 hx.2.le) ⟨hy0, hy⟩

/-- central differences of a function with bounded third derivative -/
lemma central_difference {f f1 f2 f3 : ℝ → ℝ} (h1 : ∀ y, HasDerivAt f (f1 y) y) (h2 : ∀ y, HasDerivAt f1 (f2 y) y) (h3 : ∀ y, HasDerivAt f2 (f3 y) y)
    {a η M : ℝ} (hη : 0 ≤ η) (hM : ∀ y, |y - a| ≤ η → |f3 y| ≤ M) : |f (a + η) - f (a - η) - 2 * η * f1 a| ≤ M / 3 * η ^ 3 := by
  have dp : ∀ {g g' : ℝ → ℝ}, (∀ y, HasDerivAt g (g' y) y) → ∀ y, HasDerivAt (fun y => g (a + y)) (g' (a + y)) y := by
    intro g g' hg y
    have := (hg (a + y)).comp y ((hasDerivAt_id y).const_add a)
    simpa [Function.comp_def] using this
  have dm : ∀ {g g' : ℝ → ℝ}, (∀ y, HasDerivAt g (g' y) y) → ∀ y, HasDerivAt (fun y => g (a - y)) (-g' (a - y)) y := by
    intro g g' hg y
    have := (hg (a - y)).comp y ((hasDerivAt_id y).const_sub a)
    simpa [Function.comp_def] using this
  have s2 : ∀ y, 0 ≤ y → y ≤ η → |f2 (a + y) - f2 (a - y)| ≤ 2 * M * y := by
    intro y hy0 hy
    refine bound_from_deriv (η := η) (f := fun y => f2 (a + y) - f2 (a - y)) (f' := fun y => f3 (a + y) - -f3 (a - y)) (B := fun y => 2 * M * y) (B' := fun _ => 2 * M)
      (fun y => (dp h3 y).sub (dm h3 y)) (fun y => by simpa using (hasDerivAt_id y).const_mul (2 * M)) (by simp) (by simp) (fun y hy0 hy => ?_) hy0 hy
    have e1 := hM (a + y) (by rw [add_sub_cancel_left, abs_of_nonneg hy0]; exact hy)
    have e2 := hM (a - y) (by rw [sub_sub_cancel_left, abs_neg, abs_of_nonneg hy0]; exact hy)
    rw [abs_le] at *
    constructor <;> linarith [e1.1, e1.2, e2.1, e2.2]
  have s1 : ∀ y, 0 ≤ y → y ≤ η → |f1 (a + y) + f1 (a - y) - 2 * f1 a| ≤ M * y ^ 2 := by
    intro y hy0 hy
    refine bound_from_deriv (η := η) (f := fun y => f1 (a + y) + f1 (a - y) - 2 * f1 a) (f' := fun y => f2 (a + y) + -f2 (a - y)) (B := fun y => M * y ^ 2) (B' := fun y => 2 * M * y)
      (fun y => ((dp h2 y).add (dm h2 y)).sub_const _) (fun y => ((hasDerivAt_pow 2 y).const_mul M).congr_deriv (by norm_num; try ring)) (by simp; ring) (by simp) (fun y hy0 hy => ?_) hy0 hy
    rw [← sub_eq_add_neg]; exact s2 y hy0 hy
  refine bound_from_deriv (η := η) (f := fun y => f (a + y) - f (a - y) - 2 * y * f1 a) (f' := fun y => f1 (a + y) - -f1 (a - y) - 2 * f1 a) (B := fun y => M / 3 * y ^ 3)
    (B' := fun y => M * y ^ 2) (fun y => ?_) (fun y => ((hasDerivAt_pow 3 y).const_mul (M / 3)).congr_deriv (by norm_num; try ring)) (by simp) (by simp) (fun y hy0 hy => ?_) hη le_rfl
  · refine ((dp h1 y).sub (dm h1 y)).sub ?_
    have := ((hasDerivAt_id y).const_mul 2).mul_const (f1 a)
    simpa using this
  · rw [sub_neg_eq_add]; exact s1 y hy0 hy

/-- the mean of the two neighbours of a function with bounded second derivative -/
lemma central_mean {f f1 f2 : ℝ → ℝ} (h1 : ∀ y, HasDerivAt f (f1 y) y) (h2 : ∀ y, HasDerivAt f1 (f2 y) y) {a η M : ℝ} (hη : 0 ≤ η)
    (hM : ∀ y, |y - a| ≤ η → |f2 y| ≤ M) : |f (a + η) + f (a - η) - 2 * f a| ≤ M * η ^ 2 := by
  have dp : ∀ {g g' : ℝ → ℝ}, (∀ y, HasDerivAt g (g' y) y) → ∀ y, HasDerivAt (fun y => g (a + y)) (g' (a + y)) y := by
    intro g g' hg y
    have := (hg (a + y)).comp y ((hasDerivAt_id y).const_add a)
    simpa [Function.comp_def] using this
  have dm : ∀ {g g' : ℝ → ℝ}, (∀ y, HasDerivAt g (g' y) y) → ∀ y, HasDerivAt (fun y => g (a - y)) (-g' (a - y)) y := by
    intro g g' hg y
    have := (hg (a - y)).comp y ((hasDerivAt_id y).const_sub a)
    simpa [Function.comp_def] using this
  have s2 : ∀ y, 0 ≤ y → y ≤ η → |f1 (a + y) - f1 (a - y)| ≤ 2 * M * y := by
    intro y hy0 hy
    refine bound_from_deriv (η := η) (f := fun y => f1 (a + y) - f1 (a - y)) (f' := fun y => f2 (a + y) - -f2 (a - y)) (B := fun y => 2 * M * y) (B' := fun _ => 2 * M)
      (fun y => (dp h2 y).sub (dm h2 y)) (fun y => by simpa using (hasDerivAt_id y).const_mul (2 * M)) (by simp) (by simp) (fun y hy0 hy => ?_) hy0 hy
    have e1 := hM (a + y) (by rw [add_sub_cancel_left, abs_of_nonneg hy0]; exact hy)
    have e2 := hM (a - y) (by rw [sub_sub_cancel_left, abs_neg, abs_of_nonneg hy0]; exact hy)
    rw [abs_le] at *
    constructor <;> linarith [e1.1, e1.2, e2.1, e2.2]
  refine bound_from_deriv (η := η) (f := fun y => f (a + y) + f (a - y) - 2 * f a) (f' := fun y => f1 (a + y) + -f1 (a - y)) (B := fun y => M * y ^ 2) (B' := fun y => 2 * M * y)
    (fun y => ((dp h1 y).add (dm h1 y)).sub_const _) (fun y => ((hasDerivAt_pow 2 y).const_mul M).congr_deriv (by norm_num; try ring)) (by simp; ring) (by simp) (fun y hy0 hy => ?_) hη le_rfl
  rw [← sub_eq_add_neg]; exact s2 y hy0 hy

end taylor

section directional

variable {V : Type} [NormedAddCommGroup V] [NormedSpace ℝ V]

/-- derivative of `F` in direction `v` -/
noncomputable def along (v : V) (F : V → ℝ) : V → ℝ := fun z => fderiv ℝ F z v

lemma along_contDiff {F : V → ℝ} {n m : ℕ} (hF : ContDiff ℝ n F) (hmn : m + 1 ≤ n) (v : V) : ContDiff ℝ m (along v F) := by
  have : ContDiff ℝ m (fderiv ℝ F) := hF.fderiv_right (by exact_mod_cast hmn)
  exact this.clm_apply contDiff_const

lemma along_hasDerivAt {F : V → ℝ} (hF : ContDiff ℝ 1 F) (z v : V) (y : ℝ) : HasDerivAt (fun y : ℝ => F (z + y • v)) (along v F (z + y • v)) y := by
  have h1 : HasFDerivAt F (fderiv ℝ F (z + y • v)) (z + y • v) := (hF.differentiable (by norm_num)).differentiableAt.hasFDerivAt
  have h2 : HasDerivAt (fun y : ℝ => z + y • v) v y := by
    simpa using ((hasDerivAt_id y).smul_const v).const_add z
  exact h1.comp_hasDerivAt y h2

end directional

namespace Torus

lemma bwd_add (L : Lattice) (F G : VField ℝ) (a c : Fin 3) (p : Pos) : bwd L (F + G) a c p = bwd L F a c p + bwd L G a c p := by
  unfold bwd; split_ifs
  · simp only [Pi.add_apply]; ring
  · simp

lemma fwd_add' (L : Lattice) (F G : VField ℝ) (a c : Fin 3) (p : Pos) : fwd L (F + G) a c p = fwd L F a c p + fwd L G a c p := by
  unfold fwd; split_ifs
  · simp only [Pi.add_apply]; ring
  · simp

/-- the electric half of a step without drive -/
noncomputable def freeE (L : Lattice) (M : Medium ℝ) (e h : VField ℝ) : VField ℝ := fun p c =>
  ((1 - M.loss p c) * e p c + M.courant * M.invEps p c * curlBwd L h p c) / (1 + M.loss p c)

lemma freeE_add (L : Lattice) (M : Medium ℝ) (e e' h h' : VField ℝ) : freeE L M (e + e') (h + h') = freeE L M e h + freeE L M e' h' := by
  funext p c
  simp only [freeE, curlBwd, bwd_add, Pi.add_apply]
  ring

lemma stepH_add (L : Lattice) (M : Medium ℝ) (e e' h h' : VField ℝ) : stepH L M (e + e') (h + h') = stepH L M e h + stepH L M e' h' := by
  funext p c
  simp only [stepH, curlFwd, fwd_add', Pi.add_apply]
  ring

/-- one step without drive, as an additive map -/
noncomputable def stepMap (L : Lattice) (M : Medium ℝ) : (VField ℝ × VField ℝ) →+ (VField ℝ × VField ℝ) :=
  AddMonoidHom.mk' (fun x => (freeE L M x.1 x.2, stepH L M (freeE L M x.1 x.2) x.2)) fun x y => by
    refine Prod.ext ?_ ?_
    · exact freeE_add L M _ _ _ _
    · show stepH L M (freeE L M (x.1 + y.1) (x.2 + y.2)) (x.2 + y.2) = _
      rw [freeE_add, stepH_add]; rfl

lemma stepMap_fst (L : Lattice) (M : Medium ℝ) (x : VField ℝ × VField ℝ) : (stepMap L M x).1 = freeE L M x.1 x.2 := rfl

lemma stepMap_snd (L : Lattice) (M : Medium ℝ) (x : VField ℝ × VField ℝ) : (stepMap L M x).2 = stepH L M (freeE L M x.1 x.2) x.2 := rfl

lemma stepE_free (L : Lattice) (M : Medium ℝ) {t : ℕ} (hd : ∀ p c, M.drive t p c = 0) (e h : VField ℝ) : stepE L M t e h = freeE L M e h := by
  funext p c; simp [stepE, freeE, hd]

lemma run_eq_iterate (L : Lattice) (M : Medium ℝ) (hd : ∀ t p c, M.drive t p c = 0) (t0 : ℕ) (e h : VField ℝ) (k : ℕ) :
    run L M t0 e h k = (stepMap L M)^[k] (e, h) := by
  induction k with
  | zero => rfl
  | succ k ih =>
    rw [Function.iterate_succ_apply', ← ih]
    refine Prod.ext ?_ ?_
    · rw [stepMap_fst, ← stepE_free L M (t := t0 + k) (hd _)]; rfl
    · rw [stepMap_snd, ← stepE_free L M (t := t0 + k) (hd _)]; rfl

/-- the difference between a sequence that satisfies the step up to residuals and the exact steps -/
lemma duhamel {A : Type} [AddCommGroup A] (S : A →+ A) (x ρ : ℕ → A) (hx : ∀ j, x (j + 1) = S (x j) + ρ j) (k : ℕ) :
    x k - S^[k] (x 0) = ∑ j ∈ Finset.range k, S^[k - 1 - j] (ρ j) := by
  induction k with
  | zero => simp
  | succ k ih =>
    rw [hx, Function.iterate_succ_apply', Finset.sum_range_succ]
    have e : ∑ j ∈ Finset.range k, S^[k + 1 - 1 - j] (ρ j) = S (∑ j ∈ Finset.range k, S^[k - 1 - j] (ρ j)) := by
      rw [map_sum]
      refine Finset.sum_congr rfl fun j hj => ?_
      have := Finset.mem_range.mp hj
      rw [show k + 1 - 1 - j = (k - 1 - j).succ by omega, Function.iterate_succ_apply']
    rw [e, ← ih, map_sub]
    simp
    abel

lemma fieldSq_sum (n : Pos) (k : ℕ) (v : ℕ → VField ℝ) : fieldSq n (∑ j ∈ Finset.range k, v j) ≤ k * ∑ j ∈ Finset.range k, fieldSq n (v j) := by
  unfold fieldSq
  have : ∀ p c, (∑ j ∈ Finset.range k, v j) p c ^ 2 ≤ k * ∑ j ∈ Finset.range k, v j p c ^ 2 := by
    intro p c
    have := sq_sum_le_card_mul_sum_sq (s := Finset.range k) (f := fun j => v j p c)
    rw [Finset.card_range] at this
    rw [Finset.sum_apply, Finset.sum_apply]
    exact this
  calc _ ≤ ∑ p ∈ box n, ∑ c, k * ∑ j ∈ Finset.range k, v j p c ^ 2 := Finset.sum_le_sum fun p _ => Finset.sum_le_sum fun c _ => this p c
    _ = _ := by
      simp only [← Finset.mul_sum]
      congr 1
      rw [Finset.sum_comm]
      rw [Finset.sum_congr rfl fun p _ => Finset.sum_comm]
      rw [Finset.sum_comm]
      rw [Finset.sum_congr rfl fun j _ => Finset.sum_comm]

lemma abs_fwd_le {L : Lattice} (hL : L.Closed) {F : VField ℝ} {B : ℝ} (hB : 0 ≤ B) (hF : ∀ p ∈ box L.cells, ∀ c, |F p c| ≤ B) (a c : Fin 3) {p : Pos} (hp : p ∈ box L.cells) :
    |fwd L F a c p| ≤ 2 * B := by
  rcases hL a with ⟨ha, -⟩ | ha
  · rw [fwd_wraps ha]
    have h1 := hF _ (next_mem hp ha) c
    have h2 := hF _ hp c
    rw [abs_le] at *
    constructor <;> linarith [h1.1, h1.2, h2.1, h2.2]
  · rw [fwd_flat ha]; simp; linarith

lemma abs_bwd_le {L : Lattice} (hL : L.Closed) {F : VField ℝ} {B : ℝ} (hB : 0 ≤ B) (hF : ∀ p ∈ box L.cells, ∀ c, |F p c| ≤ B) (a c : Fin 3) {p : Pos} (hp : p ∈ box L.cells) :
    |bwd L F a c p| ≤ 2 * B := by
  rcases hL a with ⟨ha, -⟩ | ha
  · rw [bwd_wraps ha]
    have h1 := hF _ (prev_mem hp ha) c
    have h2 := hF _ hp c
    rw [abs_le] at *
    constructor <;> linarith [h1.1, h1.2, h2.1, h2.2]
  · rw [bwd_flat ha _ _ hp]; simp; linarith

lemma abs_curlFwd_le {L : Lattice} (hL : L.Closed) {F : VField ℝ} {B : ℝ} (hB : 0 ≤ B) (hF : ∀ p ∈ box L.cells, ∀ c, |F p c| ≤ B) (c : Fin 3) {p : Pos} (hp : p ∈ box L.cells) :
    |curlFwd L F p c| ≤ 4 * B := by
  have h1 := abs_fwd_le hL hB hF (c + 1) (c + 2) hp
  have h2 := abs_fwd_le hL hB hF (c + 2) (c + 1) hp
  unfold curlFwd
  rw [abs_le] at *
  constructor <;> linarith [h1.1, h1.2, h2.1, h2.2]

lemma abs_curlBwd_le {L : Lattice} (hL : L.Closed) {F : VField ℝ} {B : ℝ} (hB : 0 ≤ B) (hF : ∀ p ∈ box L.cells, ∀ c, |F p c| ≤ B) (c : Fin 3) {p : Pos} (hp : p ∈ box L.cells) :
    |curlBwd L F p c| ≤ 4 * B := by
  have h1 := abs_bwd_le hL hB hF (c + 1) (c + 2) hp
  have h2 := abs_bwd_le hL hB hF (c + 2) (c + 1) hp
  unfold curlBwd
  rw [abs_le] at *
  constructor <;> linarith [h1.1, h1.2, h2.1, h2.2]

/-- a medium at least as dense as vacuum and at most `κ` times as dense, without gain -/
structure Decent (L : Lattice) (M : Medium ℝ) (κ : ℝ) : Prop where
  eps : ∀ p ∈ box L.cells, ∀ c, 0 < M.invEps p c ∧ M.invEps p c ≤ 1 ∧ 1 / M.invEps p c ≤ κ
  mu : ∀ p ∈ box L.cells, ∀ c, 0 < M.invMu p c ∧ M.invMu p c ≤ 1 ∧ 1 / M.invMu p c ≤ κ
  loss : ∀ p ∈ box L.cells, ∀ c, 0 ≤ M.loss p c

lemma abs_scaled {x y B : ℝ} (hx0 : 0 ≤ x) (hx1 : x ≤ 1) (hy : |y| ≤ B) : |x * y| ≤ B := by
  rw [abs_mul, abs_of_nonneg hx0]
  have := abs_nonneg y
  nlinarith

lemma abs_stepE_le {L : Lattice} (hL : L.Closed) {M : Medium ℝ} {κ : ℝ} (hM : Decent L M κ) (hc0 : 0 ≤ M.courant) (hc1 : M.courant ≤ 1) {e h : VField ℝ} {B B' : ℝ}
    (hB : ∀ p ∈ box L.cells, ∀ c, |e p c| ≤ B) (hB' : 0 ≤ B') (hh : ∀ p ∈ box L.cells, ∀ c, |h p c| ≤ B') {p : Pos} (hp : p ∈ box L.cells) (c : Fin 3) :
    |(stepMap L M (e, h)).1 p c| ≤ B + 4 * B' := by
  have hl := hM.loss p hp c
  have h1 := hB p hp c
  have h2 := abs_curlBwd_le hL hB' hh c hp
  obtain ⟨he0, he1, -⟩ := hM.eps p hp c
  have h3 : |M.courant * M.invEps p c * curlBwd L h p c| ≤ 4 * B' := abs_scaled (by positivity) (by nlinarith) h2
  show |((1 - M.loss p c) * e p c + M.courant * M.invEps p c * curlBwd L h p c) / (1 + M.loss p c)| ≤ _
  rw [abs_div, abs_of_pos (show 0 < 1 + M.loss p c by linarith), div_le_iff₀ (by linarith)]
  have h4 : |(1 - M.loss p c) * e p c| ≤ (1 + M.loss p c) * B := by
    rw [abs_mul]
    have : |1 - M.loss p c| ≤ 1 + M.loss p c := by rw [abs_le]; constructor <;> linarith
    exact mul_le_mul this h1 (abs_nonneg _) (by linarith)
  calc _ ≤ |(1 - M.loss p c) * e p c| + |M.courant * M.invEps p c * curlBwd L h p c| := abs_add_le _ _
    _ ≤ (1 + M.loss p c) * B + 4 * B' := add_le_add h4 h3
    _ ≤ _ := by nlinarith

lemma abs_stepH_le {L : Lattice} (hL : L.Closed) {M : Medium ℝ} {κ : ℝ} (hM : Decent L M κ) (hc0 : 0 ≤ M.courant) (hc1 : M.courant ≤ 1) {e h : VField ℝ} {B B' : ℝ}
    (hB0 : 0 ≤ B) (hB : ∀ p ∈ box L.cells, ∀ c, |e p c| ≤ B) (hh : ∀ p ∈ box L.cells, ∀ c, |h p c| ≤ B') {p : Pos} (hp : p ∈ box L.cells) (c : Fin 3) :
    |stepH L M e h p c| ≤ B' + 4 * B := by
  have h1 := hh p hp c
  have h2 := abs_curlFwd_le hL hB0 hB c hp
  obtain ⟨he0, he1, -⟩ := hM.mu p hp c
  have h3 : |M.courant * M.invMu p c * curlFwd L e p c| ≤ 4 * B := abs_scaled (by positivity) (by nlinarith) h2
  unfold stepH
  calc _ ≤ |h p c| + |M.courant * M.invMu p c * curlFwd L e p c| := abs_sub _ _
    _ ≤ _ := add_le_add h1 h3

lemma fieldSq_le {n : Pos} {F : VField ℝ} {B : ℝ} (hF : ∀ p ∈ box n, ∀ c, |F p c| ≤ B) : fieldSq n F ≤ 3 * B ^ 2 * (box n).card := by
  unfold fieldSq
  calc _ ≤ ∑ p ∈ box n, 3 * B ^ 2 := by
        refine Finset.sum_le_sum fun p hp => ?_
        have : ∀ c, F p c ^ 2 ≤ B ^ 2 := fun c => by
          have := hF p hp c
          rw [← sq_abs]; exact pow_le_pow_left₀ (abs_nonneg _) this 2
        rw [Fin.sum_univ_three]; linarith [this 0, this 1, this 2]
    _ = _ := by rw [Finset.sum_const, nsmul_eq_mul]; ring

/-- without drive the fields stay bounded by their initial values, uniformly in the number of cells and steps -/
lemma stable {L : Lattice} (hL : L.Closed) {M : Medium ℝ} {κ θ : ℝ} (hM : Decent L M κ) (hκ : 1 ≤ κ) (hc0 : 0 ≤ M.courant) (hc1 : M.courant ≤ 1) (hθ : 0 < θ) (hθ1 : θ ≤ 1)
    (hc : M.courant ^ 2 * L.dim ≤ 1 - θ) {x : VField ℝ × VField ℝ} {B : ℝ} (hB : 0 ≤ B) (h1 : ∀ p ∈ box L.cells, ∀ c, |x.1 p c| ≤ B) (h2 : ∀ p ∈ box L.cells, ∀ c, |x.2 p c| ≤ 5 * B) (m : ℕ) :
    fieldSq L.cells ((stepMap L M)^[m] x).1 + fieldSq L.cells ((stepMap L M)^[m] x).2 ≤ 9000 * κ / θ * B ^ 2 * (box L.cells).card := by
  have hcard : (0:ℝ) ≤ (box L.cells).card := Nat.cast_nonneg _
  have hκθ : 1 ≤ κ / θ := by rw [le_div_iff₀ hθ]; linarith
  cases m with
  | zero =>
    have a1 := fieldSq_le h1
    have a2 := fieldSq_le h2
    simp only [Function.iterate_zero, id]
    have : 0 ≤ B ^ 2 * (box L.cells).card := by positivity
    rw [show 9000 * κ / θ * B ^ 2 * ((box L.cells).card : ℝ) = 9000 * (κ / θ) * (B ^ 2 * (box L.cells).card) by ring]
    nlinarith
  | succ m =>
    set y : ℕ → VField ℝ × VField ℝ := fun m => (stepMap L M)^[m] x with hy
    have hstep : ∀ m, y (m + 1) = stepMap L M (y m) := fun m => by rw [hy]; exact Function.iterate_succ_apply' _ _ _
    have hE : ∀ m, (y (m + 1)).1 = stepE L ⟨M.courant, M.invEps, M.invMu, M.loss, fun _ _ _ => 0⟩ 0 (y m).1 (y m).2 := by
      intro m; rw [hstep, stepMap_fst, stepE_free _ _ (fun _ _ => rfl)]; rfl
    have hH : ∀ m, (y (m + 1)).2 = stepH L ⟨M.courant, M.invEps, M.invMu, M.loss, fun _ _ _ => 0⟩ (y (m + 1)).1 (y m).2 := by
      intro m; rw [hstep, stepMap_snd]; rfl
    set M0 : Medium ℝ := ⟨M.courant, M.invEps, M.invMu, M.loss, fun _ _ _ => 0⟩ with hM0
    have mono : ∀ m, energy L M0 (y (m + 1)).1 (y m).2 (y (m + 1)).2 ≤ energy L M0 (y 1).1 (y 0).2 (y 1).2 := by
      intro m
      induction m with
      | zero => exact le_rfl
      | succ m ih =>
        refine le_trans ?_ ih
        rw [energy_step hL M0 (fun _ _ _ => rfl) (fun p hp c => (hM.eps p hp c).1.ne') (fun p hp c => (hM.mu p hp c).1.ne')
          (fun p hp c => by have := hM.loss p hp c; show 1 + M.loss p c ≠ 0; linarith) 0 (y (m + 1)).1 (y (m + 2)).1 (y m).2 (y (m + 1)).2 (y (m + 2)).2 (hE _) (hH _) (hH _)]
        have : 0 ≤ ohmicLoss L.cells M0.invEps M0.loss (y (m + 1)).1 (y (m + 2)).1 := by
          refine Finset.sum_nonneg fun p hp => Finset.sum_nonneg fun c _ => ?_
          have i1 : 0 < M0.invEps p c := (hM.eps p hp c).1
          have i2 : 0 ≤ M0.loss p c := hM.loss p hp c
          positivity
        linarith
    have ctl := energy_controls L.cells M0.invEps M0.invMu (y (m + 1)).1 (y m).2 (y (m + 1)).2 M.courant L.dim (curlFwd L (y (m + 1)).1)
      (fun p _ c => by rw [hH]; rfl) (curl_bound hL _) (by linarith) (Nat.cast_nonneg _) (fun p hp c => ⟨(hM.eps p hp c).1, (hM.eps p hp c).2.1⟩)
      (fun p hp c => ⟨(hM.mu p hp c).1, (hM.mu p hp c).2.1⟩)
    have b1 : ∀ p ∈ box L.cells, ∀ c, |(y 1).1 p c| ≤ 21 * B := by
      intro p hp c
      have := abs_stepE_le hL hM hc0 hc1 h1 (by linarith : 0 ≤ 5 * B) h2 hp c
      show |(stepMap L M x).1 p c| ≤ _
      linarith
    have b2 : ∀ p ∈ box L.cells, ∀ c, |(y 1).2 p c| ≤ 89 * B := by
      intro p hp c
      have := abs_stepH_le hL hM hc0 hc1 (by linarith : 0 ≤ 21 * B) b1 h2 hp c
      calc |(y 1).2 p c| = |stepH L M (y 1).1 x.2 p c| := rfl
        _ ≤ _ := by linarith
    have en : energy L M0 (y 1).1 (y 0).2 (y 1).2 ≤ 3 * (886 * κ * B ^ 2) * (box L.cells).card := by
      unfold energy leapEnergy
      calc _ ≤ ∑ p ∈ box L.cells, 3 * (886 * κ * B ^ 2) := by
            refine Finset.sum_le_sum fun p hp => ?_
            have : ∀ c, (y 1).1 p c ^ 2 / M0.invEps p c + (y 0).2 p c * (y 1).2 p c / M0.invMu p c ≤ 886 * κ * B ^ 2 := by
              intro c
              obtain ⟨i1, -, i2⟩ := hM.eps p hp c
              obtain ⟨j1, -, j2⟩ := hM.mu p hp c
              have k1 : (y 1).1 p c ^ 2 ≤ 441 * B ^ 2 := by
                rw [← sq_abs]
                have := pow_le_pow_left₀ (abs_nonneg _) (b1 p hp c) 2
                linarith [this]
              have k2 : (y 0).2 p c * (y 1).2 p c ≤ 445 * B ^ 2 := by
                refine (le_abs_self _).trans ?_
                rw [abs_mul]
                have := mul_le_mul (h2 p hp c) (b2 p hp c) (abs_nonneg _) (by linarith)
                calc _ ≤ 5 * B * (89 * B) := this
                  _ = _ := by ring
              have l1 : (y 1).1 p c ^ 2 / M0.invEps p c ≤ 441 * B ^ 2 * κ := by
                rw [div_eq_mul_one_div]
                exact mul_le_mul k1 i2 (by have : 0 < M0.invEps p c := i1; positivity) (by positivity)
              have l2 : (y 0).2 p c * (y 1).2 p c / M0.invMu p c ≤ 445 * B ^ 2 * κ := by
                rw [div_eq_mul_one_div]
                calc _ ≤ 445 * B ^ 2 * (1 / M0.invMu p c) := mul_le_mul_of_nonneg_right k2 (by have : 0 < M0.invMu p c := j1; positivity)
                  _ ≤ _ := mul_le_mul_of_nonneg_left j2 (by positivity)
              linarith
            rw [Fin.sum_univ_three]; linarith [this 0, this 1, this 2]
        _ = _ := by rw [Finset.sum_const, nsmul_eq_mul]; ring
    set s := (1 - M.courant ^ 2 * (L.dim : ℝ)) with hs
    have hsθ : θ ≤ s := by rw [hs]; linarith
    have c1 : θ * (fieldSq L.cells (y (m + 1)).1 + fieldSq L.cells (y (m + 1)).2) ≤ 3 * energy L M0 (y 1).1 (y 0).2 (y 1).2 := by
      have e1 := ctl.1.trans (mono m)
      have e2 := ctl.2.trans (mul_le_mul_of_nonneg_left (mono m) (by norm_num : (0:ℝ) ≤ 2))
      have f1 := fieldSq_nonneg L.cells (y (m + 1)).1
      have f2 := fieldSq_nonneg L.cells (y (m + 1)).2
      nlinarith
    show fieldSq L.cells (y (m + 1)).1 + fieldSq L.cells (y (m + 1)).2 ≤ _
    rw [show 9000 * κ / θ * B ^ 2 * ((box L.cells).card : ℝ) = (9000 * κ * B ^ 2 * (box L.cells).card) / θ by ring, le_div_iff₀ hθ]
    have : 0 ≤ κ * B ^ 2 * (box L.cells).card := by positivity
    nlinarith

/-- Errors add up at most linearly: a sequence of fields that satisfies the steps up to residuals of at most `B` in every cell stays close to the steps themselves. -/
lemma accumulate {L : Lattice} (hL : L.Closed) {M : Medium ℝ} {κ θ : ℝ} (hM : Decent L M κ) (hκ : 1 ≤ κ) (hc0 : 0 ≤ M.courant) (hc1 : M.courant ≤ 1) (hθ : 0 < θ) (hθ1 : θ ≤ 1)
    (hc : M.courant ^ 2 * L.dim ≤ 1 - θ) (hd : ∀ t p c, M.drive t p c = 0) (e h : ℕ → VField ℝ) {B : ℝ} (hB : 0 ≤ B) (t0 k : ℕ)
    (hE : ∀ j < k, ∀ p ∈ box L.cells, ∀ c, |e (j + 1) p c - stepE L M (t0 + j) (e j) (h j) p c| ≤ B)
    (hH : ∀ j < k, ∀ p ∈ box L.cells, ∀ c, |h (j + 1) p c - stepH L M (e (j + 1)) (h j) p c| ≤ B) :
    fieldSq L.cells (e k - (run L M t0 (e 0) (h 0) k).1) + fieldSq L.cells (h k - (run L M t0 (e 0) (h 0) k).2) ≤ 9000 * κ / θ * (k * B) ^ 2 * (box L.cells).card := by
  set x : ℕ → VField ℝ × VField ℝ := fun j => (e j, h j) with hx
  set ρ : ℕ → VField ℝ × VField ℝ := fun j => x (j + 1) - stepMap L M (x j) with hρ
  have hdu := duhamel (stepMap L M) x ρ (fun j => by rw [hρ]; simp) k
  rw [run_eq_iterate L M hd]
  have h1 : e k - ((stepMap L M)^[k] (e 0, h 0)).1 = ∑ j ∈ Finset.range k, ((stepMap L M)^[k - 1 - j] (ρ j)).1 := by
    have := congrArg Prod.fst hdu
    rw [Prod.fst_sum] at this
    exact this
  have h2 : h k - ((stepMap L M)^[k] (e 0, h 0)).2 = ∑ j ∈ Finset.range k, ((stepMap L M)^[k - 1 - j] (ρ j)).2 := by
    have := congrArg Prod.snd hdu
    rw [Prod.snd_sum] at this
    exact this
  rw [h1, h2]
  have hst : ∀ j ∈ Finset.range k, fieldSq L.cells ((stepMap L M)^[k - 1 - j] (ρ j)).1 + fieldSq L.cells ((stepMap L M)^[k - 1 - j] (ρ j)).2
      ≤ 9000 * κ / θ * B ^ 2 * (box L.cells).card := by
    intro j hj
    have hjk := Finset.mem_range.mp hj
    have r1 : ∀ p ∈ box L.cells, ∀ c, |(ρ j).1 p c| ≤ B := by
      intro p hp c
      have := hE j hjk p hp c
      rw [stepE_free L M (hd _)] at this
      exact this
    refine stable hL hM hκ hc0 hc1 hθ hθ1 hc hB r1 ?_ _
    intro p hp c
    have a1 := hH j hjk p hp c
    have a2 := abs_stepH_le (h := fun _ _ => 0) (B' := 0) hL hM hc0 hc1 hB r1 (fun p _ c => by simp) hp c
    have e3 : (ρ j).2 p c = (h (j + 1) p c - stepH L M (e (j + 1)) (h j) p c) + stepH L M (ρ j).1 (fun _ _ => 0) p c := by
      show h (j + 1) p c - stepH L M (stepMap L M (x j)).1 (h j) p c = _
      have e4 : (ρ j).1 = e (j + 1) - (stepMap L M (x j)).1 := rfl
      rw [e4]
      have e5 := stepH_add L M (e (j + 1) - (stepMap L M (x j)).1) (stepMap L M (x j)).1 0 (h j)
      rw [sub_add_cancel, zero_add] at e5
      have e6 := congrFun (congrFun e5 p) c
      rw [Pi.add_apply, Pi.add_apply] at e6
      have e7 : (fun _ _ => 0 : VField ℝ) = 0 := rfl
      rw [e7, e6]; ring
    rw [e3]
    exact (abs_add_le _ _).trans (by linarith)
  have s1 := fieldSq_sum L.cells k fun j => ((stepMap L M)^[k - 1 - j] (ρ j)).1
  have s2 := fieldSq_sum L.cells k fun j => ((stepMap L M)^[k - 1 - j] (ρ j)).2
  have s3 := Finset.sum_le_sum hst
  rw [Finset.sum_add_distrib, Finset.sum_const, Finset.card_range, nsmul_eq_mul] at s3
  have hk : (0:ℝ) ≤ k := Nat.cast_nonneg _
  calc _ ≤ k * (∑ j ∈ Finset.range k, fieldSq L.cells ((stepMap L M)^[k - 1 - j] (ρ j)).1 + ∑ j ∈ Finset.range k, fieldSq L.cells ((stepMap L M)^[k - 1 - j] (ρ j)).2) := by
        rw [mul_add]; exact add_le_add s1 s2
    _ ≤ k * (k * (9000 * κ / θ * B ^ 2 * (box L.cells).card)) := mul_le_mul_of_nonneg_left s3 hk
    _ = _ := by ring

end Torus

end Nidn
