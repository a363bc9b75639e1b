/-
Matrices that are triangular with respect to a rank function: products, inverses, and when the scattering recursion through one layer with triangular modes succeeds.
-/
import Verif.Props.Fresnel

set_option linter.unusedSectionVars false

namespace Nidn

open Matrix

variable {ι : Type} [Fintype ι] [DecidableEq ι]

/-- entries only on the diagonal and from smaller to larger rank -/
def Tri (r : ι → ℕ) (M : Matrix ι ι ℂ) : Prop := ∀ i j, i ≠ j → ¬ r i < r j → M i j = 0

lemma tri_add {r : ι → ℕ} {M N : Matrix ι ι ℂ} (hM : Tri r M) (hN : Tri r N) : Tri r (M + N) :=
  fun i j h h' => by rw [Matrix.add_apply, hM i j h h', hN i j h h', add_zero]

lemma tri_sub {r : ι → ℕ} {M N : Matrix ι ι ℂ} (hM : Tri r M) (hN : Tri r N) : Tri r (M - N) :=
  fun i j h h' => by rw [Matrix.sub_apply, hM i j h h', hN i j h h', sub_zero]

lemma tri_smul {r : ι → ℕ} {M : Matrix ι ι ℂ} (c : ℂ) (hM : Tri r M) : Tri r (c • M) :=
  fun i j h h' => by rw [Matrix.smul_apply, hM i j h h', smul_zero]

lemma tri_diagonal (r : ι → ℕ) (d : ι → ℂ) : Tri r (diagonal d) := fun _ _ h _ => diagonal_apply_ne _ h

lemma tri_mul {r : ι → ℕ} {M N : Matrix ι ι ℂ} (hM : Tri r M) (hN : Tri r N) : Tri r (M * N) := by
  intro i j h h'
  rw [mul_apply]
  refine Finset.sum_eq_zero fun k _ => ?_
  by_cases h1 : i ≠ k ∧ ¬ r i < r k
  · rw [hM i k h1.1 h1.2, zero_mul]
  by_cases h2 : k ≠ j ∧ ¬ r k < r j
  · rw [hN k j h2.1 h2.2, mul_zero]
  exfalso
  rw [not_and_or, not_not, not_not] at h1 h2
  rcases h1 with rfl | h1 <;> rcases h2 with rfl | h2
  · exact h rfl
  · exact h' h2
  · exact h' h1
  · exact h' (h1.trans h2)

lemma tri_mul_diag {r : ι → ℕ} {M N : Matrix ι ι ℂ} (hM : Tri r M) (hN : Tri r N) (i : ι) : (M * N) i i = M i i * N i i := by
  rw [mul_apply]
  refine Finset.sum_eq_single i (fun k _ hk => ?_) (fun h => absurd (Finset.mem_univ i) h)
  by_cases h1 : r i < r k
  · rw [hN k i hk (by omega), mul_zero]
  · rw [hM i k hk.symm h1, zero_mul]

lemma tri_unit {r : ι → ℕ} {M : Matrix ι ι ℂ} (hM : Tri r M) (hd : ∀ i, M i i ≠ 0) : IsUnit M.det := by
  apply det_unit_of_inj
  intro v hv
  by_contra hne
  have hex : (Finset.univ.filter fun i => v i ≠ 0).Nonempty := by
    by_contra h
    rw [Finset.not_nonempty_iff_eq_empty, Finset.filter_eq_empty_iff] at h
    exact hne (funext fun i => by simpa using h (Finset.mem_univ i))
  obtain ⟨i, hi, hmax⟩ := Finset.exists_max_image _ r hex
  have hvi : v i ≠ 0 := (Finset.mem_filter.1 hi).2
  have h0 := congrFun hv i
  rw [mulVec, dotProduct, Finset.sum_eq_single i] at h0
  · exact (mul_ne_zero (hd i) hvi) h0
  · intro k _ hk
    by_cases hvk : v k = 0
    · rw [hvk, mul_zero]
    · rw [hM i k hk.symm (by have := hmax k (Finset.mem_filter.2 ⟨Finset.mem_univ k, hvk⟩); omega), zero_mul]
  · exact fun h => absurd (Finset.mem_univ i) h

lemma tri_inv {r : ι → ℕ} {M : Matrix ι ι ℂ} (hM : Tri r M) (hd : ∀ i, M i i ≠ 0) : Tri r M⁻¹ := by
  have hu := tri_unit hM hd
  intro i0 j h0 h0'
  by_contra hne
  have hex : (Finset.univ.filter fun i => M⁻¹ i j ≠ 0 ∧ i ≠ j ∧ ¬ r i < r j).Nonempty :=
    ⟨i0, Finset.mem_filter.2 ⟨Finset.mem_univ _, hne, h0, h0'⟩⟩
  obtain ⟨i, hi, hmax⟩ := Finset.exists_max_image _ r hex
  obtain ⟨h1, h2, h3⟩ := (Finset.mem_filter.1 hi).2
  have hm : (M * M⁻¹) i j = 0 := by rw [mul_nonsing_inv M hu, one_apply_ne h2]
  rw [mul_apply, Finset.sum_eq_single i] at hm
  · exact mul_ne_zero (hd i) h1 hm
  · intro k _ hk
    by_cases hk0 : M⁻¹ k j = 0
    · rw [hk0, mul_zero]
    by_cases hr : r i < r k
    · exfalso
      by_cases hkj : k = j
      · rw [hkj] at hr; exact h3 hr
      by_cases hkj' : r k < r j
      · exact h3 (hr.trans hkj')
      · have := hmax k (Finset.mem_filter.2 ⟨Finset.mem_univ k, hk0, hkj, hkj'⟩)
        omega
    · rw [hM i k hk.symm hr, zero_mul]
  · exact fun h => absurd (Finset.mem_univ i) h

lemma tri_inv_diag {r : ι → ℕ} {M : Matrix ι ι ℂ} (hM : Tri r M) (hd : ∀ i, M i i ≠ 0) (i : ι) : M⁻¹ i i = 1 / M i i := by
  have h := tri_mul_diag hM (tri_inv hM hd) i
  rw [mul_nonsing_inv M (tri_unit hM hd), one_apply_eq] at h
  rw [eq_div_iff (hd i), mul_comm, ← h]

/-- triangular with ones (or zeros) on the diagonal -/
def TriD (r : ι → ℕ) (d : ℂ) (M : Matrix ι ι ℂ) : Prop := Tri r M ∧ ∀ i, M i i = d

/-- A layer between two layers with plane modes, all with the same wave numbers and `kp`: the solver succeeds if the modes in between are triangular. -/
lemma slab_ok {r : ι → ℕ} {L0 L1 L2 : LayerData ι} (hphi0 : L0.phi = 1) (hphi2 : L2.phi = 1) (hq1 : L1.q = L0.q) (hq2 : L2.q = L0.q)
    (hk1 : L1.kp = L0.kp) (hk2 : L2.kp = L0.kp) (hkp : IsUnit L0.kp.det) (hq : ∀ m, L0.q m ≠ 0) (ht : TriD r 1 L1.phi) (a0 bN : ι → ℂ) :
    ∃ x, solveExterior [L0, L1, L2] a0 bN = .ok x := by
  have hne : ∀ i, L1.phi i i ≠ 0 := fun i => by rw [ht.2]; exact one_ne_zero
  have hqinv : ∀ i, L0.q i * (1 / L0.q i) = 1 := fun i => by rw [mul_one_div, div_self (hq i)]
  -- conjugation by the wave numbers keeps the diagonal
  have hconj : ∀ {M : Matrix ι ι ℂ} {d : ℂ}, TriD r d M → TriD r d (diagonal L0.q * M * diagonal fun m => 1 / L0.q m) := by
    intro M d hM
    refine ⟨tri_mul (tri_mul (tri_diagonal _ _) hM.1) (tri_diagonal _ _), fun i => ?_⟩
    rw [tri_mul_diag (tri_mul (tri_diagonal _ _) hM.1) (tri_diagonal _ _), tri_mul_diag (tri_diagonal _ _) hM.1, diagonal_apply_eq, diagonal_apply_eq,
      hM.2, mul_right_comm, hqinv, one_mul]
  have hinv : TriD r 1 L1.phi⁻¹ := ⟨tri_inv ht.1 hne, fun i => by rw [tri_inv_diag ht.1 hne, ht.2, div_one]⟩
  have hsum : ∀ {M N : Matrix ι ι ℂ}, TriD r 1 M → TriD r 1 N → TriD r 1 ((1 / 2 : ℂ) • (M + N)) := by
    intro M N hM hN
    refine ⟨tri_smul _ (tri_add hM.1 hN.1), fun i => ?_⟩
    rw [Matrix.smul_apply, Matrix.add_apply, hM.2, hN.2]; norm_num
  have hdiff : ∀ {M N : Matrix ι ι ℂ}, TriD r 1 M → TriD r 1 N → TriD r 0 ((1 / 2 : ℂ) • (M - N)) := by
    intro M N hM hN
    refine ⟨tri_smul _ (tri_sub hM.1 hN.1), fun i => ?_⟩
    rw [Matrix.smul_apply, Matrix.sub_apply, hM.2, hN.2]; norm_num
  -- the first interface
  have hP0 : (diagonal L0.q * (L0.kp * L0.phi)⁻¹) * ((L1.kp * L1.phi) * diagonal fun m => 1 / L1.q m)
      = diagonal L0.q * L1.phi * diagonal fun m => 1 / L0.q m := by
    rw [hphi0, Matrix.mul_one, hk1, hq1]
    calc diagonal L0.q * L0.kp⁻¹ * (L0.kp * L1.phi * diagonal fun m => 1 / L0.q m)
        = diagonal L0.q * (L0.kp⁻¹ * L0.kp) * L1.phi * diagonal fun m => 1 / L0.q m := by simp only [Matrix.mul_assoc]
      _ = _ := by rw [nonsing_inv_mul _ hkp, Matrix.mul_one]
  have hP1 : (diagonal L1.q * (L1.kp * L1.phi)⁻¹) * ((L2.kp * L2.phi) * diagonal fun m => 1 / L2.q m)
      = diagonal L0.q * L1.phi⁻¹ * diagonal fun m => 1 / L0.q m := by
    rw [hphi2, Matrix.mul_one, hk1, hk2, hq1, hq2, Matrix.mul_inv_rev]
    calc diagonal L0.q * (L1.phi⁻¹ * L0.kp⁻¹) * (L0.kp * diagonal fun m => 1 / L0.q m)
        = diagonal L0.q * L1.phi⁻¹ * (L0.kp⁻¹ * L0.kp) * diagonal fun m => 1 / L0.q m := by simp only [Matrix.mul_assoc]
      _ = _ := by rw [nonsing_inv_mul _ hkp, Matrix.mul_one]
  have hkphi0 : IsUnit (L0.kp * L0.phi).det := by rw [hphi0, Matrix.mul_one]; exact hkp
  have hkphi1 : IsUnit (L1.kp * L1.phi).det := by rw [det_mul, hk1]; exact hkp.mul (tri_unit ht.1 hne)
  have hone : ∀ {M : Matrix ι ι ℂ}, TriD r 1 M → IsUnit M.det := fun hM => tri_unit hM.1 fun i => by rw [hM.2]; exact one_ne_zero
  have hq1' : ∀ m, L1.q m ≠ 0 := fun m => by rw [hq1]; exact hq m
  have hq2' : ∀ m, L2.q m ≠ 0 := fun m => by rw [hq2]; exact hq m
  -- first step
  have hT11 := hsum ht (hconj ht)
  have hT12 := hdiff ht (hconj ht)
  have h1 : ∃ S, smStep L0 L1 SMat.id = .ok S ∧ TriD r 0 S.s12 := by
    have e1 : torchInverse L0.phi = .ok 1 := by rw [hphi0, torchInverse, if_pos (by simp), inv_one]
    have e2 : torchInverse (L0.kp * L0.phi) = .ok (L0.kp * L0.phi)⁻¹ := by rw [torchInverse, if_pos hkphi0]
    have e3 : torchInverse ((1 / 2 : ℂ) • (1 * L1.phi + diagonal L0.q * L1.phi * diagonal fun m => 1 / L0.q m) -
        (diagonal L0.phase * (SMat.id : SMat ι).s12) * ((1 / 2 : ℂ) • (1 * L1.phi - diagonal L0.q * L1.phi * diagonal fun m => 1 / L0.q m)))
        = .ok ((1 / 2 : ℂ) • (L1.phi + diagonal L0.q * L1.phi * diagonal fun m => 1 / L0.q m))⁻¹ := by
      simp only [SMat.id, Matrix.mul_zero, Matrix.zero_mul, sub_zero, Matrix.one_mul]
      rw [torchInverse, if_pos (hone hT11)]
    refine ⟨_, by rw [smStep, e1, ok_bind, e2, ok_bind, recipVec_ok hq1', ok_bind]; simp only; rw [hP0, e3, ok_bind]; rfl, ?_⟩
    simp only [SMat.id, Matrix.zero_mul, Matrix.mul_zero, zero_sub, Matrix.one_mul]
    have hI : TriD r 1 ((1 / 2 : ℂ) • (L1.phi + diagonal L0.q * L1.phi * diagonal fun m => 1 / L0.q m))⁻¹ := by
      have hn : ∀ i, ((1 / 2 : ℂ) • (L1.phi + diagonal L0.q * L1.phi * diagonal fun m => 1 / L0.q m)) i i ≠ 0 :=
        fun i => by rw [hT11.2]; exact one_ne_zero
      exact ⟨tri_inv hT11.1 hn, fun i => by rw [tri_inv_diag hT11.1 hn, hT11.2, div_one]⟩
    have hneg : TriD r 0 (-((1 / 2 : ℂ) • (L1.phi - diagonal L0.q * L1.phi * diagonal fun m => 1 / L0.q m))) :=
      ⟨fun i j h h' => by rw [Matrix.neg_apply, hT12.1 i j h h', neg_zero], fun i => by rw [Matrix.neg_apply, hT12.2, neg_zero]⟩
    refine ⟨tri_mul (tri_mul hI.1 hneg.1) (tri_diagonal _ _), fun i => ?_⟩
    rw [tri_mul_diag (tri_mul hI.1 hneg.1) (tri_diagonal _ _), tri_mul_diag hI.1 hneg.1, hneg.2, mul_zero, zero_mul]
  obtain ⟨S, hS, h12⟩ := h1
  have hT11' := hsum hinv (hconj hinv)
  have hT12' := hdiff hinv (hconj hinv)
  have h2 : ∃ S', smStep L1 L2 S = .ok S' := by
    have e1 : torchInverse L1.phi = .ok L1.phi⁻¹ := by rw [torchInverse, if_pos (hone ht)]
    have e2 : torchInverse (L1.kp * L1.phi) = .ok (L1.kp * L1.phi)⁻¹ := by rw [torchInverse, if_pos hkphi1]
    have h3 : TriD r 1 ((1 / 2 : ℂ) • (L1.phi⁻¹ + diagonal L0.q * L1.phi⁻¹ * diagonal fun m => 1 / L0.q m) -
        (diagonal L1.phase * S.s12) * ((1 / 2 : ℂ) • (L1.phi⁻¹ - diagonal L0.q * L1.phi⁻¹ * diagonal fun m => 1 / L0.q m))) := by
      refine ⟨tri_sub hT11'.1 (tri_mul (tri_mul (tri_diagonal _ _) h12.1) hT12'.1), fun i => ?_⟩
      rw [Matrix.sub_apply, hT11'.2, tri_mul_diag (tri_mul (tri_diagonal _ _) h12.1) hT12'.1, hT12'.2, mul_zero, sub_zero]
    refine ⟨_, by
      rw [smStep, e1, ok_bind, e2, ok_bind, recipVec_ok hq2', ok_bind]; simp only
      rw [hP1, hphi2, Matrix.mul_one, torchInverse, if_pos (hone h3), ok_bind]; rfl⟩
  obtain ⟨S', hS'⟩ := h2
  have hget : getSMatrix [L0, L1, L2] 0 2 = .ok S' := by
    simp only [getSMatrix]
    rw [if_neg (by decide), if_neg (by decide)]
    simp only [List.range', List.foldlM, Nat.sub_zero, smIter, List.getElem?_cons_zero, List.getElem?_cons_succ, zero_add]
    rw [hS, ok_bind, hS', ok_bind]; rfl
  exact ⟨_, by rw [solveExterior, show [L0, L1, L2].length - 1 = 2 from rfl, hget, ok_bind]; rfl⟩

end Nidn
