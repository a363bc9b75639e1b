/-
C49: the absorbing layer profile.
-/
import Verif.Lemmas.FdtdField
import Mathlib.Analysis.SpecialFunctions.Exp
import Mathlib.Tactic.Linarith
import Mathlib.Tactic.NormNum
import Mathlib.Tactic.FieldSimp
import Mathlib.Tactic.Positivity

namespace Nidn

lemma pmlSigma_pos (t : ℕ) {v : ℝ} (hv : 0 < v) : 0 < pmlSigma t v := by
  unfold pmlSigma; positivity

lemma pmlSigma_lt (t : ℕ) {v w : ℝ} (hv : 0 ≤ v) (h : v < w) : pmlSigma t v < pmlSigma t w := by
  unfold pmlSigma
  have : v ^ 3 < w ^ 3 := pow_lt_pow_left₀ h hv (by norm_num)
  have h4 : 0 < ((t : ℝ) + 1) ^ 4 := by positivity
  rw [div_lt_div_iff_of_pos_right h4]
  linarith

/-- depth of plane `i` of a layer of thickness `t`, counted from the inner edge -/
def depthE (high : Bool) (t i : ℕ) : ℕ := if high then i else t - 1 - i

/-- depth of the magnetic plane `i` (there are `t - 1` magnetic planes between the `t` electric ones) -/
def depthH (high : Bool) (t i : ℕ) : ℕ := if high then i else t - 2 - i

/-- C49, electric profile: at depth `d` (cells from the inner edge) both sides have the same conductivity `40 (d + 1/2)^3 / (t+1)^4`; it is positive and
strictly increases with depth. -/
theorem C49_electric (high : Bool) (t i : ℕ) (hi : i < t) :
    sigmaEProfile high t i = 40 * ((depthE high t i : ℝ) + 1 / 2) ^ 3 / ((t : ℝ) + 1) ^ 4 ∧ 0 < sigmaEProfile high t i ∧
    ∀ j < t, depthE high t i < depthE high t j → sigmaEProfile high t i < sigmaEProfile high t j := by
  have form : ∀ j < t, sigmaEProfile high t j = pmlSigma t ((depthE high t j : ℝ) + 1 / 2) := by
    intro j hj
    cases high with
    | true => simp only [sigmaEProfile, depthE, if_true]; congr 1; norm_num; ring
    | false =>
      have : ((t - 1 - j : ℕ) : ℝ) = t - 1 - j := by
        rw [Nat.cast_sub (by omega), Nat.cast_sub (by omega)]; simp
      simp only [sigmaEProfile, depthE, Bool.false_eq_true, if_false, this]
      congr 1; norm_num; ring
  have p0 : ∀ j, (0 : ℝ) < (depthE high t j : ℝ) + 1 / 2 := fun j => by positivity
  refine ⟨form i hi, by rw [form i hi]; exact pmlSigma_pos t (p0 i), fun j hj h => ?_⟩
  rw [form i hi, form j hj]
  refine pmlSigma_lt t (p0 i).le ?_
  have : (depthE high t i : ℝ) < depthE high t j := by exact_mod_cast h
  linarith

/-- C49, magnetic profile: on the `t - 1` planes between the electric ones both sides have the same conductivity `40 (d + 1)^3 / (t+1)^4`, positive and strictly increasing with
depth; the one plane left over (last index) has conductivity zero. -/
theorem C49_magnetic (high : Bool) (t i : ℕ) (hi : i + 1 < t) :
    sigmaHProfile high t i = 40 * ((depthH high t i : ℝ) + 1) ^ 3 / ((t : ℝ) + 1) ^ 4 ∧ 0 < sigmaHProfile high t i ∧
    (∀ j, j + 1 < t → depthH high t i < depthH high t j → sigmaHProfile high t i < sigmaHProfile high t j) ∧
    sigmaHProfile high t (t - 1) = 0 := by
  have form : ∀ j, j + 1 < t → sigmaHProfile high t j = pmlSigma t ((depthH high t j : ℝ) + 1) := by
    intro j hj
    cases high with
    | true => simp only [sigmaHProfile, depthH, if_true, if_pos hj]; congr 1; ring
    | false =>
      have : ((t - 2 - j : ℕ) : ℝ) = t - 2 - j := by
        rw [Nat.cast_sub (by omega), Nat.cast_sub (by omega)]; simp
      simp only [sigmaHProfile, depthH, Bool.false_eq_true, if_false, this, if_pos hj]
      congr 1; ring
  have p0 : ∀ j, (0 : ℝ) < (depthH high t j : ℝ) + 1 := fun j => by positivity
  refine ⟨form i hi, by rw [form i hi]; exact pmlSigma_pos t (p0 i), fun j hj h => ?_, if_neg (by omega)⟩
  rw [form i hi, form j hj]
  refine pmlSigma_lt t (p0 i).le ?_
  have : (depthH high t i : ℝ) < depthH high t j := by exact_mod_cast h
  linarith

/-- C49, mirror symmetry: plane `m` of the low side and its mirror image on the high side have equal conductivities. -/
theorem C49_mirror (t m : ℕ) :
    (m < t → sigmaEProfile false t m = sigmaEProfile true t (t - 1 - m)) ∧
    (m + 1 < t → sigmaHProfile false t m = sigmaHProfile true t (t - 2 - m)) := by
  refine ⟨fun hm => ?_, fun hm => ?_⟩
  · rw [(C49_electric false t m hm).1, (C49_electric true t (t - 1 - m) (by omega)).1]; rfl
  · rw [(C49_magnetic false t m hm).1, (C49_magnetic true t (t - 2 - m) (by omega)).1]; rfl

/-- C49, recursion coefficients: for every stability parameter and Courant number above zero and every conductivity `sigma >= 0`, `0 < b < 1` and `-1 < c <= 0`, `c = 0` exactly where the conductivity is zero, and the
gain `|c| / (1 - b)` of the memory is below one. -/
theorem C49_coefficients (a courant s : ℝ) (ha : 0 < a) (hc : 0 < courant) (hs : 0 ≤ s) :
    0 < pmlB a courant s ∧ pmlB a courant s < 1 ∧ -1 < pmlC a courant s ∧ pmlC a courant s ≤ 0 ∧
    (pmlC a courant s = 0 ↔ s = 0) ∧ -pmlC a courant s < 1 - pmlB a courant s := by
  have hb0 : 0 < pmlB a courant s := Real.exp_pos _
  have hb1 : pmlB a courant s < 1 := by
    unfold pmlB
    rw [Real.exp_lt_one_iff]
    have : 0 < (s / 1 + a) * courant := by rw [div_one]; positivity
    linarith
  have hsa : 0 < s + a := by linarith
  have hC : pmlC a courant s = -((1 - pmlB a courant s) * (s / (s + a))) := by
    unfold pmlC; rw [mul_one, one_pow, mul_one]; ring
  have r0 : 0 ≤ s / (s + a) := by positivity
  have r1 : s / (s + a) < 1 := by rw [div_lt_one hsa]; linarith
  have d0 : 0 < 1 - pmlB a courant s := by linarith
  have hlt : (1 - pmlB a courant s) * (s / (s + a)) < 1 - pmlB a courant s := by nlinarith
  have hnn : 0 ≤ (1 - pmlB a courant s) * (s / (s + a)) := mul_nonneg d0.le r0
  refine ⟨hb0, hb1, by rw [hC]; linarith, by rw [hC]; linarith, ?_, by rw [hC]; linarith⟩
  rw [hC, neg_eq_zero, mul_eq_zero, div_eq_zero_iff]
  constructor
  · rintro (h | h | h)
    · linarith
    · exact h
    · linarith
  · intro h; exact Or.inr (Or.inl h)

lemma sigmaEProfile_nonneg (high : Bool) (t i : ℕ) (hi : i < t) : 0 ≤ sigmaEProfile high t i := (C49_electric high t i hi).2.1.le

lemma sigmaHProfile_nonneg (high : Bool) (t i : ℕ) : 0 ≤ sigmaHProfile high t i := by
  by_cases h : i + 1 < t
  · exact (C49_magnetic high t i h).2.1.le
  · rw [sigmaHProfile, if_neg h]

/-- C49, a placed layer: every electric and magnetic coefficient of every PML of any side, thickness and parameters is in the stated ranges. -/
theorem C49_layer (axis : Fin 3) (high : Bool) (t : ℕ) (a courant : ℝ) (ha : 0 < a) (hc : 0 < courant) (q : Pos) (hq : q axis < t) (c : Fin 3) :
    (0 < (mkPml axis high t a courant).bE q c ∧ (mkPml axis high t a courant).bE q c < 1 ∧
      -1 < (mkPml axis high t a courant).cE q c ∧ (mkPml axis high t a courant).cE q c ≤ 0 ∧
      ((mkPml axis high t a courant).cE q c < 0 ↔ c = axis)) ∧
    (0 < (mkPml axis high t a courant).bH q c ∧ (mkPml axis high t a courant).bH q c < 1 ∧
      -1 < (mkPml axis high t a courant).cH q c ∧ (mkPml axis high t a courant).cH q c ≤ 0 ∧
      ((mkPml axis high t a courant).cH q c < 0 ↔ c = axis ∧ q axis + 1 < t)) := by
  have hE : 0 ≤ sigmaField axis (sigmaEProfile high t) q c := by
    unfold sigmaField; split_ifs
    · exact sigmaEProfile_nonneg high t _ hq
    · exact le_refl _
  have hH : 0 ≤ sigmaField axis (sigmaHProfile high t) q c := by
    unfold sigmaField; split_ifs
    · exact sigmaHProfile_nonneg high t _
    · exact le_refl _
  obtain ⟨e1, e2, e3, e4, e5, -⟩ := C49_coefficients a courant _ ha hc hE
  obtain ⟨h1, h2, h3, h4, h5, -⟩ := C49_coefficients a courant _ ha hc hH
  refine ⟨⟨e1, e2, e3, e4, ?_⟩, ⟨h1, h2, h3, h4, ?_⟩⟩
  · show pmlC a courant _ < 0 ↔ _
    rw [lt_iff_le_and_ne, Ne, e5, and_iff_right e4]
    simp only [sigmaField]
    by_cases hca : c = axis
    · simp [hca, (C49_electric high t _ hq).2.1.ne']
    · simp [hca]
  · show pmlC a courant _ < 0 ↔ _
    rw [lt_iff_le_and_ne, Ne, h5, and_iff_right h4]
    simp only [sigmaField]
    by_cases hca : c = axis
    · by_cases hl : q axis + 1 < t
      · simp [hca, hl, (C49_magnetic high t _ hl).2.1.ne']
      · simp [hca, hl, sigmaHProfile]
    · simp [hca]

/-- the memory recursion of an absorbing layer driven by the differences `u 0, u 1, …` -/
def memoryRun (b c : ℝ) (u : ℕ → ℝ) : ℕ → ℝ
  | 0 => 0
  | k + 1 => memoryRun b c u k * b + u k * c

/-- C49, the memory never amplifies: differences bounded by `M` keep the memory within `M` for ever. -/
theorem C49_memory (a courant s M : ℝ) (ha : 0 < a) (hc : 0 < courant) (hs : 0 ≤ s) (u : ℕ → ℝ) (hu : ∀ k, |u k| ≤ M) (k : ℕ) :
    |memoryRun (pmlB a courant s) (pmlC a courant s) u k| ≤ M := by
  obtain ⟨b0, b1, -, c0, -, gain⟩ := C49_coefficients a courant s ha hc hs
  have hM : 0 ≤ M := (abs_nonneg _).trans (hu 0)
  induction k with
  | zero => simpa [memoryRun] using hM
  | succ k ih =>
    simp only [memoryRun]
    refine (abs_add_le _ _).trans ?_
    rw [abs_mul, abs_mul, abs_of_pos b0, abs_of_nonpos c0]
    have h1 := mul_le_mul_of_nonneg_right ih b0.le
    have h2 := mul_le_mul_of_nonneg_right (hu k) (show 0 ≤ -pmlC a courant s by linarith)
    nlinarith

/-- C49: the memories of a placed layer are this recursion: iterating the code's update of `psi_E` from a fresh layer. -/
theorem C49_memory_run (n : Pos) (P : Pml ℝ) (h0 : P.psiE = fun _ _ _ => 0) (Hs : ℕ → VField ℝ) (m d f : Fin 3) (hf : psiPartner m d = some f)
    (q : Pos) (k : ℕ) :
    ((List.range k).foldl (fun P i => Pml.updatePhiE n (Hs i) P) P).psiE m q d
      = memoryRun (P.bE q d) (P.cE q d) (fun i => dDn (P.view n (Hs i)) d f q) k := by
  have key : ∀ k, ((List.range k).foldl (fun P i => Pml.updatePhiE n (Hs i) P) P).psiE m q d
      = memoryRun (P.bE q d) (P.cE q d) (fun i => dDn (P.view n (Hs i)) d f q) k ∧
      ((List.range k).foldl (fun P i => Pml.updatePhiE n (Hs i) P) P).bE = P.bE ∧
      ((List.range k).foldl (fun P i => Pml.updatePhiE n (Hs i) P) P).cE = P.cE ∧
      ((List.range k).foldl (fun P i => Pml.updatePhiE n (Hs i) P) P).view n = P.view n := by
    intro k
    induction k with
    | zero => exact ⟨by rw [List.range_zero, List.foldl_nil, h0]; rfl, rfl, rfl, rfl⟩
    | succ k ih =>
      rw [List.range_succ, List.foldl_append]
      obtain ⟨i1, i2, i3, i4⟩ := ih
      refine ⟨?_, i2, i3, i4⟩
      show psiENew n (Hs k) _ m q d = _
      unfold psiENew
      rw [hf]
      dsimp only
      rw [i1, i2, i3, i4]
      rfl
  exact (key k).1

/-- a ten-cell layer with the code's default parameters in a one-dimensional grid; its outermost electric plane has conductivity 40·9.5³/11⁴ ≈ 2.34 -/
example : (mkPml 0 false 10 (1 / 10 ^ 8) 0.99).cE (fun _ => 0) 0 < 0 ∧ sigmaEProfile false 10 0 = 40 * (9 + 1 / 2) ^ 3 / (10 + 1) ^ 4 := by
  refine ⟨((C49_layer 0 false 10 (1 / 10 ^ 8) 0.99 (by norm_num) (by norm_num) _ (by decide) 0).1.2.2.2.2).mpr rfl, ?_⟩
  rw [(C49_electric false 10 0 (by norm_num)).1]
  norm_num [depthE]

end Nidn
