/-
C34 (classification mixtures), C35 (sampling coordinates) and the classification half of C33.
-/
import Verif.Model.EpsGrid
import Mathlib.Tactic.Ring
import Mathlib.Tactic.Linarith
import Mathlib.Tactic.FieldSimp
import Mathlib.Tactic.NormNum
import Mathlib.Tactic.Positivity
import Mathlib.Algebra.BigOperators.Group.Finset.Basic
import Mathlib.Algebra.Order.BigOperators.Group.Finset
import Mathlib.Algebra.BigOperators.Field
import Mathlib.Data.Complex.BigOperators

namespace Nidn

set_option linter.unusedSectionVars false

/-- Specification: positive weights that sum to one. -/
def IsDistribution (n : ℕ) (w : ℕ → ℝ) : Prop := (∀ m, 0 < w m) ∧ ∑ m ∈ Finset.range n, w m = 1

lemma list_sum_range {M : Type} [AddCommMonoid M] (n : ℕ) (f : ℕ → M) : ((List.range n).map f).sum = ∑ m ∈ Finset.range n, f m := rfl

lemma softmax_sum (n : ℕ) (hn : 0 < n) (s : ℕ → ℝ) : 0 < ∑ m ∈ Finset.range n, Real.exp (16 * s m) :=
  Finset.sum_pos (fun _ _ => Real.exp_pos _) (Finset.nonempty_range_iff.mpr hn.ne')

lemma materialId_eq (n : ℕ) (hn : 0 < n) (s : ℕ → ℝ) (m : ℕ) :
    materialId n s m = Real.exp (16 * s m) / ∑ m ∈ Finset.range n, Real.exp (16 * s m) := by
  have h := softmax_sum n hn s
  simp only [materialId, list_sum_range]
  rw [← Finset.sum_div, div_self h.ne', div_one]

/-- C34: the material weights of a cell are positive and sum to one; there is one weight per material for all frequencies together. -/
theorem C34_distribution (c : GridCfg ℝ) (nMat : ℕ) (hn : 0 < nMat) (mat : EpsMatrix ℂ) (out : ℕ → ℕ → ℝ) (noise : ℕ → ℕ → ℕ → ℕ → ℝ) (i j k : ℕ) :
    IsDistribution nMat (classificationCell c nMat mat out noise i j k).2 := by
  have h := softmax_sum nMat hn (classScore c nMat out noise i j k)
  refine ⟨fun m => ?_, ?_⟩
  · simp only [classificationCell]
    rw [materialId_eq nMat hn]
    exact div_pos (Real.exp_pos _) h
  · simp only [classificationCell]
    rw [Finset.sum_congr rfl fun m _ => materialId_eq nMat hn _ m, ← Finset.sum_div, div_self h.ne']

/-- C34: materials are ranked exactly as their mean scores rank them. -/
theorem C34_ranking (c : GridCfg ℝ) (nMat : ℕ) (hn : 0 < nMat) (mat : EpsMatrix ℂ) (out : ℕ → ℕ → ℝ) (noise : ℕ → ℕ → ℕ → ℕ → ℝ) (i j k a b : ℕ) :
    (classificationCell c nMat mat out noise i j k).2 a < (classificationCell c nMat mat out noise i j k).2 b ↔
      classScore c nMat out noise i j k a < classScore c nMat out noise i j k b := by
  simp only [classificationCell]
  rw [materialId_eq nMat hn, materialId_eq nMat hn, div_lt_div_iff_of_pos_right (softmax_sum nMat hn _), Real.exp_lt_exp]
  constructor <;> intro h <;> linarith

/-- C34: adding a constant to all scores of a cell does not change the weights. -/
theorem C34_shift (nMat : ℕ) (hn : 0 < nMat) (s : ℕ → ℝ) (t : ℝ) (m : ℕ) : materialId nMat (fun m => s m + t) m = materialId nMat s m := by
  rw [materialId_eq nMat hn, materialId_eq nMat hn]
  have e : ∀ m, Real.exp (16 * (s m + t)) = Real.exp (16 * t) * Real.exp (16 * s m) := fun m => by rw [← Real.exp_add]; ring_nf
  simp only [e]
  rw [← Finset.mul_sum, mul_div_mul_left _ _ (Real.exp_pos _).ne']

/-- C34: sharpness. If material `a` beats every other material by a margin `d` in score, its weight is at least `1 / (1 + (n-1) exp(-16 d))`. -/
theorem C34_sharpness (nMat : ℕ) (s : ℕ → ℝ) (a : ℕ) (ha : a < nMat) (d : ℝ) (hd : ∀ m < nMat, m ≠ a → s m + d ≤ s a) :
    1 / (1 + ((nMat : ℝ) - 1) * Real.exp (-(16 * d))) ≤ materialId nMat s a := by
  have hn : 0 < nMat := by omega
  rw [materialId_eq nMat hn]
  have hS := softmax_sum nMat hn s
  have hle : ∑ m ∈ Finset.range nMat, Real.exp (16 * s m) ≤ Real.exp (16 * s a) * (1 + ((nMat : ℝ) - 1) * Real.exp (-(16 * d))) := by
    rw [← Finset.add_sum_erase _ _ (Finset.mem_range.mpr ha), mul_add, mul_one]
    gcongr
    have h1 : ∀ m ∈ (Finset.range nMat).erase a, Real.exp (16 * s m) ≤ Real.exp (16 * s a) * Real.exp (-(16 * d)) := fun m hm => by
      rw [← Real.exp_add]
      have := hd m (Finset.mem_range.mp (Finset.mem_of_mem_erase hm)) (Finset.ne_of_mem_erase hm)
      exact Real.exp_le_exp.mpr (by linarith)
    calc _ ≤ ∑ _m ∈ (Finset.range nMat).erase a, Real.exp (16 * s a) * Real.exp (-(16 * d)) := Finset.sum_le_sum h1
      _ = _ := by
        rw [Finset.sum_const, Finset.card_erase_of_mem (Finset.mem_range.mpr ha), Finset.card_range, nsmul_eq_mul, Nat.cast_sub (by omega)]
        push_cast; ring
  have hpos : (0 : ℝ) < 1 + ((nMat : ℝ) - 1) * Real.exp (-(16 * d)) := by
    have : (1 : ℝ) ≤ nMat := by exact_mod_cast hn
    have := Real.exp_pos (-(16 * d))
    nlinarith
  rw [div_le_div_iff₀ hpos hS]
  linarith

/-- C34: with two or more materials and two or more frequencies the epsilon matrix keeps both axes, and (without zero-avoidance) the permittivity at frequency
`f` is the mixture of the materials' permittivities at `f`; real and imaginary parts stay within every interval that contains those of all materials.
Missing: collections with a single frequency, see `C34_single_frequency_false`. -/
theorem C34_mixture_partial (c : GridCfg ℝ) (rows : List (List ℂ)) (F : ℕ) (hF : 2 ≤ F) (hM : 2 ≤ rows.length) (hrows : ∀ r ∈ rows, r.length = F)
    (mat : EpsMatrix ℂ) (hmat : stackSqueeze rows = .ok mat) (hz : c.avoidZeroEps = false)
    (out : ℕ → ℕ → ℝ) (noise : ℕ → ℕ → ℕ → ℕ → ℝ) (i j k : ℕ) :
    let r := classificationCell c rows.length mat out noise i j k
    r.1.length = F ∧ ∀ f < F, ∃ e, r.1[f]? = some e ∧
      e = ∑ m ∈ Finset.range rows.length, (r.2 m : ℂ) * (rows.getD m []).getD f 0 ∧
      (∀ lo hi, (∀ m < rows.length, lo ≤ ((rows.getD m []).getD f 0).re ∧ ((rows.getD m []).getD f 0).re ≤ hi) → lo ≤ e.re ∧ e.re ≤ hi) ∧
      (∀ lo hi, (∀ m < rows.length, lo ≤ ((rows.getD m []).getD f 0).im ∧ ((rows.getD m []).getD f 0).im ≤ hi) → lo ≤ e.im ∧ e.im ≤ hi) := by
  have hm : mat = .mat rows := by
    rcases rows with _ | ⟨r0, _ | ⟨r1, rs⟩⟩
    · simp at hM
    · simp at hM
    · have h0 : r0.length = F := hrows r0 (by simp)
      rcases r0 with _ | ⟨a, _ | ⟨b, r0⟩⟩
      · simp at h0; omega
      · simp at h0; omega
      · simpa [stackSqueeze] using hmat.symm
  subst hm
  have hw := C34_distribution c rows.length (by omega) (.mat rows) out noise i j k
  intro r
  have hr : r.1 = mixEps rows.length r.2 (.mat rows) := by simp [r, classificationCell, hz]
  have hhead : (rows.headD []).length = F := by
    rcases rows with _ | ⟨r0, rs⟩
    · simp at hM
    · exact hrows r0 (by simp)
  refine ⟨by rw [hr, mixEps, List.length_map, List.length_range, hhead], fun f hf => ?_⟩
  have hget : r.1[f]? = some (∑ m ∈ Finset.range rows.length, (r.2 m : ℂ) * (rows.getD m []).getD f 0) := by
    rw [hr, mixEps, List.getElem?_map, List.getElem?_range (by rw [hhead]; exact hf)]
    rfl
  have conv : ∀ (g : ℕ → ℝ) (lo hi : ℝ), (∀ m < rows.length, lo ≤ g m ∧ g m ≤ hi) →
      lo ≤ ∑ m ∈ Finset.range rows.length, r.2 m * g m ∧ ∑ m ∈ Finset.range rows.length, r.2 m * g m ≤ hi := fun g lo hi hg => by
    have h1 : ∑ m ∈ Finset.range rows.length, r.2 m * lo = lo := by rw [← Finset.sum_mul, hw.2, one_mul]
    have h2 : ∑ m ∈ Finset.range rows.length, r.2 m * hi = hi := by rw [← Finset.sum_mul, hw.2, one_mul]
    constructor
    · rw [← h1]
      exact Finset.sum_le_sum fun m hm => mul_le_mul_of_nonneg_left (hg m (Finset.mem_range.mp hm)).1 (hw.1 m).le
    · conv_rhs => rw [← h2]
      exact Finset.sum_le_sum fun m hm => mul_le_mul_of_nonneg_left (hg m (Finset.mem_range.mp hm)).2 (hw.1 m).le
  refine ⟨_, hget, rfl, fun lo hi h => ?_, fun lo hi h => ?_⟩
  · rw [Complex.re_sum]
    simpa using conv _ lo hi h
  · rw [Complex.im_sum]
    simpa using conv _ lo hi h

/-- C34 is false for a single target frequency: `squeeze()` drops the frequency axis of the epsilon matrix, so the "permittivity" returned for a cell is the
list of *all* materials' permittivities, whatever the network says, and its last axis has as many entries as there are materials instead of one. -/
theorem C34_single_frequency_false (c : GridCfg ℝ) (vs : List ℂ) (hM : 2 ≤ vs.length) (hz : c.avoidZeroEps = false) :
    ∃ mat, stackSqueeze (vs.map fun v => [v]) = .ok mat ∧
      ∀ (out : ℕ → ℕ → ℝ) (noise : ℕ → ℕ → ℕ → ℕ → ℝ) (i j k : ℕ), (classificationCell c vs.length mat out noise i j k).1 = vs := by
  refine ⟨.vec vs, ?_, fun out noise i j k => ?_⟩
  · rcases vs with _ | ⟨a, _ | ⟨b, rs⟩⟩
    · simp at hM
    · simp at hM
    · have h1 : ∀ l : List ℂ, (l.map fun v => [v]).flatten = l := fun l => by induction l <;> simp_all
      have h2 : ((a :: b :: rs).map fun v => [v]).all (fun r => r.length = 1) = true := by simp
      have h3 : stackSqueeze ((a :: b :: rs).map fun v => [v]) = .ok (if ((a :: b :: rs).map fun v => [v]).all (fun r => r.length = 1) then
          .vec ((a :: b :: rs).map fun v => [v]).flatten else .mat ((a :: b :: rs).map fun v => [v])) := rfl
      rw [h3, h2, h1, if_pos rfl]
  · have hw := C34_distribution c vs.length (by omega) (.vec vs) out noise i j k
    have hs : ((List.range vs.length).map fun m => (((classificationCell c vs.length (.vec vs) out noise i j k).2 m : ℝ) : ℂ)).sum = 1 := by
      rw [list_sum_range, ← Complex.ofReal_sum, hw.2, Complex.ofReal_one]
    have : (classificationCell c vs.length (.vec vs) out noise i j k).1 =
        mixEps vs.length (classificationCell c vs.length (.vec vs) out noise i j k).2 (.vec vs) := by simp [classificationCell, hz]
    rw [this, mixEps]
    refine (List.map_congr_left fun v _ => ?_).trans (List.map_id vs)
    rw [list_sum_range, ← Finset.sum_mul, ← list_sum_range, hs, one_mul, id]

/-- Two materials, two frequencies, a network that prefers the second material: hypotheses of the mixture theorem and of the sharpness bound. -/
example : stackSqueeze [[(1 : ℂ), 2], [3, 4]] = .ok (.mat [[1, 2], [3, 4]]) ∧ (∀ r ∈ [[(1 : ℂ), 2], [3, 4]], r.length = 2) ∧
    (∀ m < 2, m ≠ 1 → (fun m : ℕ => (m : ℝ)) m + 1 ≤ (fun m : ℕ => (m : ℝ)) 1) := by
  refine ⟨by simp [stackSqueeze], by simp, fun m hm h => ?_⟩
  obtain rfl : m = 0 := by omega
  norm_num

/-- C33, classification: without noise the material weights are constant on aligned blocks of `eps_oversampling` cells. -/
theorem C33_classification (c : GridCfg ℝ) (hn : c.addNoise = false) (nMat : ℕ) (mat : EpsMatrix ℂ) (out : ℕ → ℕ → ℝ) (noise : ℕ → ℕ → ℕ → ℕ → ℝ)
    (a b p q p' q' k : ℕ) (hp : p < c.oversampling) (hq : q < c.oversampling) (hp' : p' < c.oversampling) (hq' : q' < c.oversampling) :
    classificationCell c nMat mat out noise (c.oversampling * a + p) (c.oversampling * b + q) k =
      classificationCell c nMat mat out noise (c.oversampling * a + p') (c.oversampling * b + q') k := by
  have e : ∀ a p, p < c.oversampling → (c.oversampling * a + p) / c.oversampling = a := fun a p hp => by
    rw [Nat.add_comm, Nat.add_mul_div_left _ _ (by omega), Nat.div_eq_of_lt hp, zero_add]
  have : ∀ m, classScore c nMat out noise (c.oversampling * a + p) (c.oversampling * b + q) k m =
      classScore c nMat out noise (c.oversampling * a + p') (c.oversampling * b + q') k m := fun m => by
    simp only [classScore, e a p hp, e b q hq, e a p' hp', e b q' hq', hn, Bool.false_eq_true, if_false]
  simp only [classificationCell, funext this]

/-! ### C35 -/

section Coords
variable {K : Type} [Field K] [LinearOrder K] [IsStrictOrderedRing K]

/-- C35: evenly spaced ticks. At least two points start at the lower and end at the upper end, consecutive ticks have equal positive distance. -/
theorem C35_ticks (n : ℕ) (hn : 2 ≤ n) :
    linspaceAt (-1 : K) 1 n 0 = -1 ∧ linspaceAt (-1 : K) 1 n (n - 1) = 1 ∧
    (∀ i, linspaceAt (-1 : K) 1 n (i + 1) - linspaceAt (-1 : K) 1 n i = 2 / ((n : K) - 1)) ∧
    (∀ i j, i < j → linspaceAt (-1 : K) 1 n i < linspaceAt (-1 : K) 1 n j) := by
  have h1 : (0 : K) < (n : K) - 1 := by
    have : (2 : K) ≤ n := by exact_mod_cast hn
    linarith
  have hne : n ≠ 1 := by omega
  simp only [linspaceAt, if_neg hne]
  refine ⟨by simp, ?_, fun i => ?_, fun i j hij => ?_⟩
  · rw [Nat.cast_sub (by omega), Nat.cast_one]
    field_simp
    ring
  · push_cast
    field_simp
    ring
  · have : (i : K) < j := by exact_mod_cast hij
    have := div_lt_div_of_pos_right (show (1 - -1 : K) * i < (1 - -1) * j by linarith) h1
    linarith

lemma foldl_max_ge (l : List K) (v : K) : v ≤ l.foldl max v ∧ ∀ w ∈ l, w ≤ l.foldl max v := by
  induction l generalizing v with
  | nil => simp
  | cons a rest ih =>
      obtain ⟨h1, h2⟩ := ih (max v a)
      refine ⟨(le_max_left _ _).trans h1, fun w hw => ?_⟩
      rcases List.mem_cons.mp hw with rfl | hw
      · exact (le_max_right _ _).trans h1
      · exact h2 w hw

lemma foldl_max_mem (l : List K) (v : K) : l.foldl max v = v ∨ l.foldl max v ∈ l := by
  induction l generalizing v with
  | nil => simp
  | cons a rest ih =>
      rcases ih (max v a) with h | h
      · rcases max_choice v a with h1 | h1
        · left; rw [List.foldl_cons, h, h1]
        · right; rw [List.foldl_cons, h, h1]; simp
      · right; rw [List.foldl_cons]; exact List.mem_cons_of_mem _ h

lemma listMax_eq (l : List K) (m : K) (hm : m ∈ l) (hmax : ∀ w ∈ l, w ≤ m) : listMax l = m := by
  rcases l with _ | ⟨v, rest⟩
  · simp at hm
  · rw [listMax]
    obtain ⟨h1, h2⟩ := foldl_max_ge rest v
    apply le_antisymm
    · rcases foldl_max_mem rest v with h | h
      · rw [h]; exact hmax v (by simp)
      · exact hmax _ (by simp [h])
    · rcases List.mem_cons.mp hm with rfl | h
      · exact h1
      · exact h2 m h

lemma sum_map_div' (l : List K) (t : K) : (l.map (· / t)).sum = l.sum / t := by
  induction l with
  | nil => simp
  | cons a rest ih => simp [ih, add_div]

lemma sum_take_mono (l : List K) (hpos : ∀ t ∈ l, 0 < t) (i j : ℕ) (h : i ≤ j) : (l.take i).sum ≤ (l.take j).sum := by
  induction l generalizing i j with
  | nil => simp
  | cons a rest ih =>
      rcases i with _ | i
      · rw [List.take_zero, List.sum_nil]
        exact List.sum_nonneg fun t ht => (hpos t (List.mem_of_mem_take ht)).le
      · rcases j with _ | j
        · omega
        · simp only [List.take_succ_cons, List.sum_cons]
          have := ih (fun t ht => hpos t (by simp [ht])) i j (by omega)
          linarith

/-- C35 with per-layer thicknesses (two or more, all positive): one z position per layer, the first at -1, the last at 1, and the step into layer `i+1` is
proportional to the thickness of that layer (the proportionality factor makes all steps add up to 2); so positions increase strictly. -/
theorem C35_z_weighted (nLayers : ℕ) (t0 : K) (ts : List K) (hne : ts ≠ []) (hpos : ∀ t ∈ t0 :: ts, 0 < t) :
    (zCoords nLayers (t0 :: ts)).length = ts.length + 1 ∧
    (zCoords nLayers (t0 :: ts))[0]? = some (-1 : K) ∧ (zCoords nLayers (t0 :: ts))[ts.length]? = some (1 : K) ∧
    ∀ (i : ℕ) (hi : i < ts.length), ∃ a b : K, (zCoords nLayers (t0 :: ts))[i]? = some a ∧ (zCoords nLayers (t0 :: ts))[i + 1]? = some b ∧
      b - a = 2 / ts.sum * ts[i] ∧ a < b := by
  have ht0 : 0 < t0 := hpos t0 (by simp)
  have htpos : ∀ t ∈ ts, 0 < t := fun t ht => hpos t (by simp [ht])
  have hsum : 0 < ts.sum := by
    obtain ⟨a, rest, rfl⟩ := List.exists_cons_of_ne_nil hne
    rw [List.sum_cons]
    have h1 := htpos a (by simp)
    have h2 : 0 ≤ rest.sum := List.sum_nonneg fun t ht => (htpos t (by simp [ht])).le
    linarith
  have hlen : (t0 :: ts).length ≠ 1 := by
    simpa using hne
  have hS : 0 < t0 + ts.sum := by linarith
  -- the shifted cumulative sums
  set w : ℕ → K := fun i => (ts.take i).sum / (t0 + ts.sum) with hw
  have hz : zCoords nLayers (t0 :: ts) = (List.range (ts.length + 1)).map fun i => (w i / w ts.length - 1 / 2) * 2 := by
    rw [zCoords, if_neg hlen]
    have e1 : ((List.range (t0 :: ts).length).map fun i => cumsumAt ((t0 :: ts).map (· / (t0 :: ts).sum)) i).map
        (fun v => v - ((t0 :: ts).headD 0) / (t0 :: ts).sum) = (List.range (ts.length + 1)).map w := by
      rw [List.map_map, List.length_cons]
      refine List.map_congr_left fun i _ => ?_
      simp only [Function.comp, cumsumAt, ← List.map_take, sum_map_div', List.take_succ_cons, List.sum_cons, List.headD_cons, hw]
      rw [add_div]; ring
    simp only [e1]
    have e2 : listMax ((List.range (ts.length + 1)).map w) = w ts.length := by
      refine listMax_eq _ _ (List.mem_map.mpr ⟨ts.length, by simp, rfl⟩) fun v hv => ?_
      obtain ⟨i, hi, rfl⟩ := List.mem_map.mp hv
      have hi' : i ≤ ts.length := by have := List.mem_range.mp hi; omega
      exact div_le_div_of_nonneg_right (sum_take_mono ts htpos i ts.length hi') hS.le
    rw [e2, List.map_map, List.map_map]
    rfl
  have hwn : w ts.length = ts.sum / (t0 + ts.sum) := by simp [hw]
  have hratio : ∀ i, w i / w ts.length = (ts.take i).sum / ts.sum := fun i => by
    rw [hwn, hw]; field_simp
  have hget : ∀ i, i ≤ ts.length → (zCoords nLayers (t0 :: ts))[i]? = some (((ts.take i).sum / ts.sum - 1 / 2) * 2) := fun i hi => by
    rw [hz, List.getElem?_map, List.getElem?_range (by omega), Option.map_some, hratio]
  refine ⟨by rw [hz]; simp, ?_, ?_, fun i hi => ⟨_, _, hget i hi.le, hget (i + 1) hi, ?_, ?_⟩⟩
  · rw [hget 0 (by omega)]; simp
  · rw [hget ts.length le_rfl, List.take_length, div_self hsum.ne']; norm_num
  · rw [List.take_add_one, List.getElem?_eq_getElem hi, Option.toList_some, List.sum_append, List.sum_singleton]
    field_simp
    ring
  · rw [List.take_add_one, List.getElem?_eq_getElem hi, Option.toList_some, List.sum_append, List.sum_singleton]
    have h1 : 0 < ts[i] := htpos _ (List.getElem_mem hi)
    have h2 : 0 < ts[i] / ts.sum := div_pos h1 hsum
    rw [add_div]; linarith

/-- C35 with one common thickness: there is one z position per layer, and for at least two layers the positions run from -1 to 1 in equal steps, whatever the thickness. A single layer is at -1. -/
theorem C35_z_uniform (n : ℕ) (t : K) :
    (zCoords n [t]).length = n ∧ zCoords 1 [t] = [-1] ∧
      (2 ≤ n → (zCoords n [t])[0]? = some (-1 : K) ∧ (zCoords n [t])[n - 1]? = some (1 : K) ∧
        ∀ (i : ℕ) (a b : K), (zCoords n [t])[i]? = some a → (zCoords n [t])[i + 1]? = some b → b - a = 2 / ((n : K) - 1)) := by
  have e : ∀ m, zCoords m [t] = (List.range m).map fun i => linspaceAt (-1) 1 m i := fun m => by rw [zCoords, if_pos (by simp)]
  have g : ∀ i, i < n → (zCoords n [t])[i]? = some (linspaceAt (-1) 1 n i) := fun i hi => by
    rw [e, List.getElem?_map, List.getElem?_range hi]
    rfl
  refine ⟨by rw [e]; simp, by rw [e]; simp [linspaceAt], fun hn => ?_⟩
  obtain ⟨h1, h2, h3, -⟩ := C35_ticks (K := K) n hn
  refine ⟨by rw [g 0 (by omega), h1], by rw [g (n - 1) (by omega), h2], fun i a b ha hb => ?_⟩
  have hi : i + 1 < n := by
    have := (List.getElem?_eq_some_iff.1 hb).1
    rwa [e, List.length_map, List.length_range] at this
  rw [g i (by omega)] at ha
  rw [g (i + 1) hi] at hb
  rw [← Option.some.inj ha, ← Option.some.inj hb]
  exact h3 i

end Coords

/-- Thicknesses 1, 1, 3: positions -1, -1/2, 1. -/
example : zCoords 3 [(1 : ℚ), 1, 3] = [-1, -1 / 2, 1] := by decide +kernel

end Nidn
