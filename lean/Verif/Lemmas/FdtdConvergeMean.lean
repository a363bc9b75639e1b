/-
Errors of the FDTD steps measured in the mean square: stability and accumulation of residuals that are large in a few cells.
-/
import Verif.Lemmas.FdtdConverge

namespace Nidn

namespace Torus

lemma fieldSq_curlBwd {L : Lattice} (hL : L.Closed) (F : VField ℝ) : fieldSq L.cells (curlBwd L F) ≤ 16 * fieldSq L.cells F := by
  have hb : ∀ a c, ∑ p ∈ box L.cells, bwd L F a c p ^ 2 ≤ 4 * ∑ p ∈ box L.cells, F p c ^ 2 := by
    intro a c
    refine (sum_bwd_sq hL F a c).trans (mul_le_mul_of_nonneg_right (by split_ifs <;> norm_num) (Finset.sum_nonneg fun _ _ => sq_nonneg _))
  have e : fieldSq L.cells (curlBwd L F) ≤ ∑ p ∈ box L.cells, (2 * (bwd L F 1 2 p ^ 2 + bwd L F 2 1 p ^ 2) + 2 * (bwd L F 2 0 p ^ 2 + bwd L F 0 2 p ^ 2) + 2 * (bwd L F 0 1 p ^ 2 + bwd L F 1 0 p ^ 2)) := by
    unfold fieldSq
    refine Finset.sum_le_sum fun p _ => ?_
    rw [Fin.sum_univ_three]
    have d : ∀ x y : ℝ, (x - y) ^ 2 ≤ 2 * (x ^ 2 + y ^ 2) := fun x y => by nlinarith [sq_nonneg (x + y)]
    exact add_le_add (add_le_add (d _ _) (d _ _)) (d _ _)
  refine e.trans ?_
  rw [fieldSq_eq (n := L.cells) (F := F), Fin.sum_univ_three]
  simp only [Finset.sum_add_distrib, ← Finset.mul_sum]
  linarith [hb 1 2, hb 2 1, hb 2 0, hb 0 2, hb 0 1, hb 1 0]

lemma fieldSq_curlFwd {L : Lattice} (hL : L.Closed) (F : VField ℝ) : fieldSq L.cells (curlFwd L F) ≤ 16 * fieldSq L.cells F := by
  refine (curl_bound hL F).trans (mul_le_mul_of_nonneg_right ?_ (fieldSq_nonneg _ _))
  have : L.dim ≤ 3 := by
    unfold Lattice.dim
    exact (Finset.card_filter_le _ _).trans (by simp)
  have : (L.dim : ℝ) ≤ 3 := by exact_mod_cast this
  linarith

lemma fieldSq_two {n : Pos} {F G K : VField ℝ} (h : ∀ p ∈ box n, ∀ c, |F p c| ≤ |G p c| + |K p c|) : fieldSq n F ≤ 2 * fieldSq n G + 2 * fieldSq n K := by
  unfold fieldSq
  rw [Finset.mul_sum, Finset.mul_sum, ← Finset.sum_add_distrib]
  refine Finset.sum_le_sum fun p hp => ?_
  rw [Finset.mul_sum, Finset.mul_sum, ← Finset.sum_add_distrib]
  refine Finset.sum_le_sum fun c _ => ?_
  have := pow_le_pow_left₀ (abs_nonneg _) (h p hp c) 2
  rw [sq_abs] at this
  nlinarith [sq_nonneg (|G p c| - |K p c|), sq_abs (G p c), sq_abs (K p c)]

lemma fieldSq_stepE {L : Lattice} (hL : L.Closed) {M : Medium ℝ} {κ : ℝ} (hM : Decent L M κ) (hc0 : 0 ≤ M.courant) (hc1 : M.courant ≤ 1) (x : VField ℝ × VField ℝ) :
    fieldSq L.cells (stepMap L M x).1 ≤ 2 * fieldSq L.cells x.1 + 32 * fieldSq L.cells x.2 := by
  have h1 : fieldSq L.cells (stepMap L M x).1 ≤ 2 * fieldSq L.cells x.1 + 2 * fieldSq L.cells (curlBwd L x.2) := by
    refine fieldSq_two fun p hp c => ?_
    have hl := hM.loss p hp c
    obtain ⟨he0, he1, -⟩ := hM.eps p hp c
    have h3 : |M.courant * M.invEps p c * curlBwd L x.2 p c| ≤ |curlBwd L x.2 p c| := abs_scaled (by positivity) (by nlinarith) le_rfl
    show |((1 - M.loss p c) * x.1 p c + M.courant * M.invEps p c * curlBwd L x.2 p c) / (1 + M.loss p c)| ≤ _
    rw [abs_div, abs_of_pos (show 0 < 1 + M.loss p c by linarith), div_le_iff₀ (by linarith)]
    have h4 : |(1 - M.loss p c) * x.1 p c| ≤ (1 + M.loss p c) * |x.1 p c| := by
      rw [abs_mul]
      have : |1 - M.loss p c| ≤ 1 + M.loss p c := by rw [abs_le]; constructor <;> linarith
      exact mul_le_mul_of_nonneg_right this (abs_nonneg _)
    have h5 := mul_nonneg hl (abs_nonneg (curlBwd L x.2 p c))
    calc _ ≤ |(1 - M.loss p c) * x.1 p c| + |M.courant * M.invEps p c * curlBwd L x.2 p c| := abs_add_le _ _
      _ ≤ (1 + M.loss p c) * |x.1 p c| + |curlBwd L x.2 p c| := add_le_add h4 h3
      _ ≤ _ := by linarith
  linarith [fieldSq_curlBwd hL x.2]

lemma fieldSq_stepH {L : Lattice} (hL : L.Closed) {M : Medium ℝ} {κ : ℝ} (hM : Decent L M κ) (hc0 : 0 ≤ M.courant) (hc1 : M.courant ≤ 1) (e h : VField ℝ) :
    fieldSq L.cells (stepH L M e h) ≤ 2 * fieldSq L.cells h + 32 * fieldSq L.cells e := by
  have h1 : fieldSq L.cells (stepH L M e h) ≤ 2 * fieldSq L.cells h + 2 * fieldSq L.cells (curlFwd L e) := by
    refine fieldSq_two fun p hp c => ?_
    obtain ⟨he0, he1, -⟩ := hM.mu p hp c
    have h3 : |M.courant * M.invMu p c * curlFwd L e p c| ≤ |curlFwd L e p c| := abs_scaled (by positivity) (by nlinarith) le_rfl
    unfold stepH
    exact (abs_sub _ _).trans (add_le_add le_rfl h3)
  linarith [fieldSq_curlFwd hL e]

/-- without drive the mean square of the fields stays bounded by its initial value, uniformly in the number of cells and steps -/
lemma stable_mean {L : Lattice} (hL : L.Closed) {M : Medium ℝ} {κ θ : ℝ} (hM : Decent L M κ) (hκ : 1 ≤ κ) (hc0 : 0 ≤ M.courant) (hc1 : M.courant ≤ 1) (hθ : 0 < θ) (hθ1 : θ ≤ 1)
    (hc : M.courant ^ 2 * L.dim ≤ 1 - θ) {x : VField ℝ × VField ℝ} {b : ℝ} (hb : 0 ≤ b) (h1 : fieldSq L.cells x.1 ≤ b) (h2 : fieldSq L.cells x.2 ≤ 66 * b) (m : ℕ) :
    fieldSq L.cells ((stepMap L M)^[m] x).1 + fieldSq L.cells ((stepMap L M)^[m] x).2 ≤ 210000 * κ / θ * b := by
  have hκθ : 1 ≤ κ / θ := by rw [le_div_iff₀ hθ]; linarith
  cases m with
  | zero =>
    simp only [Function.iterate_zero, id]
    rw [show 210000 * κ / θ * b = 210000 * (κ / θ) * b by ring]
    nlinarith
  | succ m =>
    set y : ℕ → VField ℝ × VField ℝ := fun m => (stepMap L M)^[m] x with hy
    have hstep : ∀ m, y (m + 1) = stepMap L M (y m) := fun m => by rw [hy]; exact Function.iterate_succ_apply' _ _ _
    have hE : ∀ m, (y (m + 1)).1 = stepE L ⟨M.courant, M.invEps, M.invMu, M.loss, fun _ _ _ => 0⟩ 0 (y m).1 (y m).2 := by
      intro m; rw [hstep, stepMap_fst, stepE_free _ _ (fun _ _ => rfl)]; rfl
    have hH : ∀ m, (y (m + 1)).2 = stepH L ⟨M.courant, M.invEps, M.invMu, M.loss, fun _ _ _ => 0⟩ (y (m + 1)).1 (y m).2 := by
      intro m; rw [hstep, stepMap_snd]; rfl
    set M0 : Medium ℝ := ⟨M.courant, M.invEps, M.invMu, M.loss, fun _ _ _ => 0⟩ with hM0
    have mono : ∀ m, energy L M0 (y (m + 1)).1 (y m).2 (y (m + 1)).2 ≤ energy L M0 (y 1).1 (y 0).2 (y 1).2 := by
      intro m
      induction m with
      | zero => exact le_rfl
      | succ m ih =>
        refine le_trans ?_ ih
        rw [energy_step hL M0 (fun _ _ _ => rfl) (fun p hp c => (hM.eps p hp c).1.ne') (fun p hp c => (hM.mu p hp c).1.ne')
          (fun p hp c => by have := hM.loss p hp c; show 1 + M.loss p c ≠ 0; linarith) 0 (y (m + 1)).1 (y (m + 2)).1 (y m).2 (y (m + 1)).2 (y (m + 2)).2 (hE _) (hH _) (hH _)]
        have : 0 ≤ ohmicLoss L.cells M0.invEps M0.loss (y (m + 1)).1 (y (m + 2)).1 := by
          refine Finset.sum_nonneg fun p hp => Finset.sum_nonneg fun c _ => ?_
          have i1 : 0 < M0.invEps p c := (hM.eps p hp c).1
          have i2 : 0 ≤ M0.loss p c := hM.loss p hp c
          positivity
        linarith
    have ctl := energy_controls L.cells M0.invEps M0.invMu (y (m + 1)).1 (y m).2 (y (m + 1)).2 M.courant L.dim (curlFwd L (y (m + 1)).1)
      (fun p _ c => by rw [hH]; rfl) (curl_bound hL _) (by linarith) (Nat.cast_nonneg _) (fun p hp c => ⟨(hM.eps p hp c).1, (hM.eps p hp c).2.1⟩)
      (fun p hp c => ⟨(hM.mu p hp c).1, (hM.mu p hp c).2.1⟩)
    have b1 : fieldSq L.cells (y 1).1 ≤ 2114 * b := by
      have : fieldSq L.cells (y 1).1 ≤ 2 * fieldSq L.cells x.1 + 32 * fieldSq L.cells x.2 := fieldSq_stepE hL hM hc0 hc1 x
      linarith
    have b2 : fieldSq L.cells (y 1).2 ≤ 67780 * b := by
      have : fieldSq L.cells (y 1).2 ≤ 2 * fieldSq L.cells x.2 + 32 * fieldSq L.cells (y 1).1 := fieldSq_stepH hL hM hc0 hc1 (y 1).1 x.2
      linarith
    have en : energy L M0 (y 1).1 (y 0).2 (y 1).2 ≤ κ * (fieldSq L.cells (y 1).1 + (fieldSq L.cells x.2 + fieldSq L.cells (y 1).2)) := by
      unfold energy leapEnergy fieldSq
      rw [← Finset.sum_add_distrib, ← Finset.sum_add_distrib, Finset.mul_sum]
      refine Finset.sum_le_sum fun p hp => ?_
      rw [← Finset.sum_add_distrib, ← Finset.sum_add_distrib, Finset.mul_sum]
      refine Finset.sum_le_sum fun c _ => ?_
      obtain ⟨i1, -, i2⟩ := hM.eps p hp c
      obtain ⟨j1, -, j2⟩ := hM.mu p hp c
      have l1 : (y 1).1 p c ^ 2 / M0.invEps p c ≤ κ * (y 1).1 p c ^ 2 := by
        rw [div_eq_mul_one_div, mul_comm]
        exact mul_le_mul_of_nonneg_right i2 (sq_nonneg _)
      have l2 : (y 0).2 p c * (y 1).2 p c / M0.invMu p c ≤ κ * (x.2 p c ^ 2 + (y 1).2 p c ^ 2) := by
        have q : (y 0).2 p c * (y 1).2 p c ≤ x.2 p c ^ 2 + (y 1).2 p c ^ 2 := by
          show x.2 p c * (y 1).2 p c ≤ _
          nlinarith [sq_nonneg (x.2 p c - (y 1).2 p c), sq_nonneg (x.2 p c), sq_nonneg ((y 1).2 p c)]
        rw [div_eq_mul_one_div, mul_comm]
        have p0 : 0 < 1 / M0.invMu p c := by have : 0 < M0.invMu p c := j1; positivity
        calc _ ≤ 1 / M0.invMu p c * (x.2 p c ^ 2 + (y 1).2 p c ^ 2) := mul_le_mul_of_nonneg_left q p0.le
          _ ≤ _ := mul_le_mul_of_nonneg_right j2 (by positivity)
      rw [mul_add]
      exact add_le_add l1 l2
    have en2 : energy L M0 (y 1).1 (y 0).2 (y 1).2 ≤ κ * (70000 * b) := by
      exact en.trans (mul_le_mul_of_nonneg_left (by linarith) (by linarith))
    have c1 : θ * (fieldSq L.cells (y (m + 1)).1 + fieldSq L.cells (y (m + 1)).2) ≤ 3 * energy L M0 (y 1).1 (y 0).2 (y 1).2 := by
      have e1 := ctl.1.trans (mono m)
      have e2 := ctl.2.trans (mul_le_mul_of_nonneg_left (mono m) (by norm_num : (0:ℝ) ≤ 2))
      have f1 := fieldSq_nonneg L.cells (y (m + 1)).1
      have f2 := fieldSq_nonneg L.cells (y (m + 1)).2
      nlinarith
    show fieldSq L.cells (y (m + 1)).1 + fieldSq L.cells (y (m + 1)).2 ≤ _
    rw [show 210000 * κ / θ * b = (210000 * κ * b) / θ by ring, le_div_iff₀ hθ]
    have : 0 ≤ κ * b := by positivity
    nlinarith

/-- A sequence of fields that satisfies the steps up to residuals whose squares add up to at most `b` stays close to the steps themselves. -/
lemma accumulate_mean {L : Lattice} (hL : L.Closed) {M : Medium ℝ} {κ θ : ℝ} (hM : Decent L M κ) (hκ : 1 ≤ κ) (hc0 : 0 ≤ M.courant) (hc1 : M.courant ≤ 1) (hθ : 0 < θ) (hθ1 : θ ≤ 1)
    (hc : M.courant ^ 2 * L.dim ≤ 1 - θ) (hd : ∀ t p c, M.drive t p c = 0) (e h : ℕ → VField ℝ) {b : ℝ} (hb : 0 ≤ b) (t0 k : ℕ)
    (hE : ∀ j < k, fieldSq L.cells (e (j + 1) - stepE L M (t0 + j) (e j) (h j)) ≤ b)
    (hH : ∀ j < k, fieldSq L.cells (h (j + 1) - stepH L M (e (j + 1)) (h j)) ≤ b) :
    fieldSq L.cells (e k - (run L M t0 (e 0) (h 0) k).1) + fieldSq L.cells (h k - (run L M t0 (e 0) (h 0) k).2) ≤ 210000 * κ / θ * ((k : ℝ) ^ 2 * b) := by
  set x : ℕ → VField ℝ × VField ℝ := fun j => (e j, h j) with hx
  set ρ : ℕ → VField ℝ × VField ℝ := fun j => x (j + 1) - stepMap L M (x j) with hρ
  have hdu := duhamel (stepMap L M) x ρ (fun j => by rw [hρ]; simp) k
  rw [run_eq_iterate L M hd]
  have h1 : e k - ((stepMap L M)^[k] (e 0, h 0)).1 = ∑ j ∈ Finset.range k, ((stepMap L M)^[k - 1 - j] (ρ j)).1 := by
    have := congrArg Prod.fst hdu
    rw [Prod.fst_sum] at this
    exact this
  have h2 : h k - ((stepMap L M)^[k] (e 0, h 0)).2 = ∑ j ∈ Finset.range k, ((stepMap L M)^[k - 1 - j] (ρ j)).2 := by
    have := congrArg Prod.snd hdu
    rw [Prod.snd_sum] at this
    exact this
  rw [h1, h2]
  have hst : ∀ j ∈ Finset.range k, fieldSq L.cells ((stepMap L M)^[k - 1 - j] (ρ j)).1 + fieldSq L.cells ((stepMap L M)^[k - 1 - j] (ρ j)).2 ≤ 210000 * κ / θ * b := by
    intro j hj
    have hjk := Finset.mem_range.mp hj
    have r1 : fieldSq L.cells (ρ j).1 ≤ b := by
      have := hE j hjk
      rw [stepE_free L M (hd _)] at this
      exact this
    refine stable_mean hL hM hκ hc0 hc1 hθ hθ1 hc hb r1 ?_ _
    have a1 := hH j hjk
    have a2 := fieldSq_stepH hL hM hc0 hc1 (ρ j).1 0
    have z : fieldSq L.cells (0 : VField ℝ) = 0 := by unfold fieldSq; simp
    rw [z] at a2
    have a3 : fieldSq L.cells (ρ j).2 ≤ 2 * fieldSq L.cells (h (j + 1) - stepH L M (e (j + 1)) (h j)) + 2 * fieldSq L.cells (stepH L M (ρ j).1 0) := by
      refine fieldSq_two fun p hp c => ?_
      have e3 : (ρ j).2 p c = (h (j + 1) - stepH L M (e (j + 1)) (h j)) p c + stepH L M (ρ j).1 0 p c := by
        show h (j + 1) p c - stepH L M (stepMap L M (x j)).1 (h j) p c = (h (j + 1) p c - stepH L M (e (j + 1)) (h j) p c) + _
        have e4 : (ρ j).1 = e (j + 1) - (stepMap L M (x j)).1 := rfl
        rw [e4]
        have e5 := stepH_add L M (e (j + 1) - (stepMap L M (x j)).1) (stepMap L M (x j)).1 0 (h j)
        rw [sub_add_cancel, zero_add] at e5
        have e6 := congrFun (congrFun e5 p) c
        rw [Pi.add_apply, Pi.add_apply] at e6
        rw [e6]; ring
      rw [e3]
      exact abs_add_le _ _
    linarith
  have s1 := fieldSq_sum L.cells k fun j => ((stepMap L M)^[k - 1 - j] (ρ j)).1
  have s2 := fieldSq_sum L.cells k fun j => ((stepMap L M)^[k - 1 - j] (ρ j)).2
  have s3 := Finset.sum_le_sum hst
  rw [Finset.sum_add_distrib, Finset.sum_const, Finset.card_range, nsmul_eq_mul] at s3
  have hk : (0:ℝ) ≤ k := Nat.cast_nonneg _
  calc _ ≤ k * (∑ j ∈ Finset.range k, fieldSq L.cells ((stepMap L M)^[k - 1 - j] (ρ j)).1 + ∑ j ∈ Finset.range k, fieldSq L.cells ((stepMap L M)^[k - 1 - j] (ρ j)).2) := by
        rw [mul_add]; exact add_le_add s1 s2
    _ ≤ k * (k * (210000 * κ / θ * b)) := mul_le_mul_of_nonneg_left s3 hk
    _ = _ := by ring

end Torus

end Nidn
