/-
C31, C32, C34: the values of the permittivity grid written out from the network's answers, for regression and classification runs.
-/
import Verif.Props.EpsGrid
import Verif.Props.Classification

namespace Nidn

section
variable {K : Type} [Field K] [LinearOrder K] [IsStrictOrderedRing K]

/-- C31 with the values written out (one frequency, no noise): the real part of a cell is the first channel of the network's answer at that cell stretched to the real range, pushed away from zero if that
is asked for, and the imaginary part the second channel stretched to the width of the imaginary range. Missing: further frequencies (C31_false). -/
theorem C31_values_partial (c : GridCfg K) (net : K × K × K × K → ℕ → K) (x y z freq : ℕ → K) (noise : ℕ → ℕ → ℕ → ℕ → K × K) (hs : 0 < c.oversampling) (h1 : c.nFreq = 1) (hn : c.addNoise = false)
    (eps : ℕ → ℕ → ℕ → ℕ → K × K) (h : regressionEps c (netOut net c.nyU c.nLayers c.nFreq x y z freq) noise = .ok eps) (i j k : ℕ) (hj : j < c.ny) (hk : k < c.nLayers) :
    (c.avoidZeroEps = false → (eps i j k 0).1 =
      min (max (net (x (i / c.oversampling), y (j / c.oversampling), z k, freq 0) 0 * (c.realMax - c.realMin) + c.realMin) c.realMin) c.realMax) ∧
    (∀ v, v = min (max (net (x (i / c.oversampling), y (j / c.oversampling), z k, freq 0) 0 * (c.realMax - c.realMin) + c.realMin) c.realMin) c.realMax →
      1 / 100 ≤ |v| → (eps i j k 0).1 = v) ∧
    (eps i j k 0).2 = min (max (net (x (i / c.oversampling), y (j / c.oversampling), z k, freq 0) 1 * (c.imagMax - c.imagMin)) c.imagMin) c.imagMax := by
  rw [C31_single_frequency_partial c net x y z freq noise hs h1 eps h i j k hj hk]
  simp only [noiseStage, hn, Bool.false_eq_true, if_false, toEps]
  refine ⟨fun hz => by rw [hz]; rfl, fun v hv habs => ?_, rfl⟩
  have e : realPart c (net (x (i / c.oversampling), y (j / c.oversampling), z k, freq 0) 0) = v := hv.symm
  rw [e]
  split_ifs
  · exact congrArg Prod.fst ((C32_avoid_zero (1 / 100) (by norm_num) (v, (0 : K))).2.2.1 habs)
  · rfl

end

lemma reshape5_row (out : ℕ → ℕ → ℝ) (n1 n2 n3 M i j k f m : ℕ) (hm : m < M) : reshape5 out M n1 n2 n3 M i j k f m = out (((i * n1 + j) * n2 + k) * n3 + f) m := by
  simp only [reshape5]
  rw [Nat.add_comm _ m, Nat.add_mul_div_right _ _ (by omega), Nat.div_eq_of_lt hm, zero_add, Nat.add_mul_mod_self_right, Nat.mod_eq_of_lt hm]

/-- C34, the weights written out: the weights of a cell are the softmax, with factor 16, of the network's answers at that cell averaged over the frequencies (plus scaled noise if asked for). -/
theorem C34_weights (c : GridCfg ℝ) (hs : 0 < c.oversampling) (nMat : ℕ) (mat : EpsMatrix ℂ) (net : ℝ × ℝ × ℝ × ℝ → ℕ → ℝ) (x y z freq : ℕ → ℝ) (noise : ℕ → ℕ → ℕ → ℕ → ℝ)
    (hsize : c.nyU * c.oversampling = c.ny) (i j k : ℕ) (hj : j < c.ny) (hk : k < c.nLayers) (s : ℕ → ℝ)
    (hsc : ∀ m < nMat, s m = (∑ f ∈ Finset.range c.nFreq, net (x (i / c.oversampling), y (j / c.oversampling), z k, freq f) m) / c.nFreq + if c.addNoise then c.noiseScale * noise i j k m else 0)
    (m : ℕ) (hm : m < nMat) :
    (classificationCell c nMat mat (netOut net c.nyU c.nLayers c.nFreq x y z freq) noise i j k).2 m = Real.exp (16 * s m) / ∑ a ∈ Finset.range nMat, Real.exp (16 * s a) := by
  have hj' : j / c.oversampling < c.nyU := by
    rw [Nat.div_lt_iff_lt_mul hs, hsize]; exact hj
  have key : ∀ a < nMat, classScore c nMat (netOut net c.nyU c.nLayers c.nFreq x y z freq) noise i j k a = s a := by
    intro a ha
    rw [hsc a ha, classScore, list_sum_range]
    congr 1
    · congr 1
      refine Finset.sum_congr rfl fun f hf => ?_
      rw [reshape5_row _ _ _ _ _ _ _ _ _ _ ha, netOut, nnInput_row _ _ _ _ _ _ _ _ _ _ _ hj' hk (Finset.mem_range.1 hf)]
    · split_ifs
      · ring
      · rfl
  simp only [classificationCell]
  rw [materialId_eq nMat (by omega), key m hm, Finset.sum_congr rfl fun a ha => by rw [key a (Finset.mem_range.1 ha)]]

/-- C32 for classification runs: with avoid_zero_eps the grid is the grid without it except that real parts within 0.01 of zero are moved to the nearer of 0.01 and -0.01 (zero to 0.01); imaginary parts and
material weights are untouched. -/
theorem C32_classification (c : GridCfg ℝ) (nMat : ℕ) (mat : EpsMatrix ℂ) (out : ℕ → ℕ → ℝ) (noise : ℕ → ℕ → ℕ → ℕ → ℝ) (i j k : ℕ) :
    let on := classificationCell { c with avoidZeroEps := true } nMat mat out noise i j k
    let off := classificationCell { c with avoidZeroEps := false } nMat mat out noise i j k
    on.2 = off.2 ∧ on.1.length = off.1.length ∧ ∀ (f : ℕ) (e e0 : ℂ), on.1[f]? = some e → off.1[f]? = some e0 →
      e.im = e0.im ∧ 1 / 100 ≤ |e.re| ∧ (1 / 100 ≤ |e0.re| → e = e0) ∧ (0 ≤ e0.re → 0 < e.re) ∧ (e0.re < 0 → e.re < 0) ∧ |e.re - e0.re| ≤ 1 / 100 := by
  intro on off
  have hoff : off.1 = mixEps nMat off.2 mat := rfl
  have hon : on.1 = (mixEps nMat off.2 mat).map avoidZeroC := rfl
  refine ⟨rfl, by rw [hon, hoff, List.length_map], fun f e e0 he he0 => ?_⟩
  rw [hon, List.getElem?_map, ← hoff, he0] at he
  obtain rfl : avoidZeroC e0 = e := Option.some.inj he
  obtain ⟨h1, -, h3, h4, h5, h6, -⟩ := C32_avoid_zero (1 / 100 : ℝ) (by norm_num) (e0.re, (0 : ℝ))
  exact ⟨rfl, h1, fun h => Complex.ext (congrArg Prod.fst (h3 h)) rfl, h4, h5, h6⟩

/-- Two materials, one coarse cell oversampled to 2x2, two frequencies: the network prefers the first material by a total of two, so the weight of the first one is that of a mean score of one against zero. -/
example : (classificationCell (⟨2, 2, 1, 2, 2, 0, 1, 0, 1, false, false, 0⟩ : GridCfg ℝ) 2 (.mat [[1, 2], [3, 4]])
    (netOut (fun p m => if m = 0 then 2 * p.2.2.2 else 0) 1 1 2 (fun _ => 0) (fun _ => 0) (fun _ => 0) (fun f => f)) (fun _ _ _ _ => 0) 1 1 0).2 0 = Real.exp 16 / (Real.exp 16 + 1) := by
  have := C34_weights (⟨2, 2, 1, 2, 2, 0, 1, 0, 1, false, false, 0⟩ : GridCfg ℝ) (by norm_num) 2 (.mat [[1, 2], [3, 4]]) (fun p m => if m = 0 then 2 * p.2.2.2 else 0) (fun _ => 0) (fun _ => 0) (fun _ => 0)
    (fun f => f) (fun _ _ _ _ => 0) (by decide) 1 1 0 (by norm_num) (by norm_num) (fun m => if m = 0 then 1 else 0) (fun m hm => by
      rcases m with _ | m
      · norm_num [Finset.sum_range_succ]
      · norm_num) 0 (by norm_num)
  refine this.trans ?_
  norm_num [Finset.sum_range_succ]

end Nidn
