/-
C42 (networks are well-formed for every depth), C74 (input dimension), C75 (voxel initialisation).
-/
import Verif.Model.Nets
import Verif.Model.Config
import Verif.Model.EpsGrid
import Verif.Lemmas.Py
import Mathlib.Tactic.Linarith
import Mathlib.Tactic.NormNum
import Mathlib.Tactic.Positivity
import Mathlib.Algebra.Order.Ring.Rat

namespace Nidn

/-- The open unit interval. -/
def InUnit (v : ℝ) : Prop := 0 < v ∧ v < 1

lemma sigmoid_unit (x : ℝ) : InUnit (sigmoid x) := by
  have h := Real.exp_pos (-x)
  refine ⟨by unfold sigmoid; positivity, ?_⟩
  rw [sigmoid, div_lt_one (by positivity)]
  linarith

lemma act_ok (l : ActLayer) (x : List ℝ) (h : x.length = l.linear.inF) :
    ∃ y, l.forward x = .ok y ∧ y.length = l.linear.outF ∧ ∀ v ∈ y, ∃ u, v = l.activation u := by
  refine ⟨_, by rw [ActLayer.forward, Linear.forward, if_pos h, ok_bind], by simp, ?_⟩
  intro v hv
  obtain ⟨u, -, rfl⟩ := List.mem_map.mp hv
  exact ⟨u, rfl⟩

lemma act_err (l : ActLayer) (x : List ℝ) (h : x.length ≠ l.linear.inF) : l.forward x = .error .runtimeError := by
  rw [ActLayer.forward, Linear.forward, if_neg h, error_bind]

lemma nerfLoop_append (skip : List ℕ) (idn : List ℝ) (a b : List ActLayer) (idx : ℕ) (out : List ℝ) :
    nerfLoop skip idn idx (a ++ b) out = (nerfLoop skip idn idx a out >>= fun o => nerfLoop skip idn (idx + a.length) b o) := by
  induction a generalizing idx out with
  | nil => simp [nerfLoop, ok_bind]
  | cons l a ih =>
    simp only [List.cons_append, nerfLoop]
    rcases l.forward out with e | y
    · rfl
    · simp only [ok_bind]
      rw [ih]
      congr 1
      funext o
      congr 1
      simp; omega

/-- The hidden part of the nerf for a single skip position `s ≥ 1`: after `k` hidden layers the row has the layer width, plus the input when `k = s`. -/
lemma nerf_hidden (s inF n : ℕ) (hs : 0 < s) (w : NetWeights) (idn : List ℝ) (hid : idn.length = inF) (out : List ℝ) (hout : out.length = n) (k : ℕ) :
    ∃ o, nerfLoop [s] idn 1 ((List.range k).map (fun i : ℕ =>
        if i ∈ [s] then ⟨⟨n + inF, n, w.weight (i + 1), w.bias (i + 1)⟩, relu⟩ else ⟨⟨n, n, w.weight (i + 1), w.bias (i + 1)⟩, relu⟩)) out = .ok o ∧
      o.length = if k = s then n + inF else n := by
  induction k with
  | zero => exact ⟨out, rfl, by rw [if_neg (by omega), hout]⟩
  | succ k ih =>
    obtain ⟨o, h1, h2⟩ := ih
    rw [List.range_succ, List.map_append, nerfLoop_append, h1, ok_bind]
    simp only [List.map_cons, List.map_nil, List.length_map, List.length_range, nerfLoop]
    have hact : ∃ y, (if k ∈ [s] then (⟨⟨n + inF, n, w.weight (k + 1), w.bias (k + 1)⟩, relu⟩ : ActLayer) else
        ⟨⟨n, n, w.weight (k + 1), w.bias (k + 1)⟩, relu⟩).forward o = .ok y ∧ y.length = n := by
      by_cases hk : k = s
      · rw [if_pos (by simp [hk])]
        rw [if_pos hk] at h2
        obtain ⟨y, e1, e2, -⟩ := act_ok ⟨⟨n + inF, n, w.weight (k + 1), w.bias (k + 1)⟩, relu⟩ o h2
        exact ⟨y, e1, e2⟩
      · rw [if_neg (by simp [hk])]
        rw [if_neg hk] at h2
        obtain ⟨y, e1, e2, -⟩ := act_ok ⟨⟨n, n, w.weight (k + 1), w.bias (k + 1)⟩, relu⟩ o h2
        exact ⟨y, e1, e2⟩
    obtain ⟨y, e1, e2⟩ := hact
    rw [e1, ok_bind]
    refine ⟨_, rfl, ?_⟩
    by_cases hk : k + 1 = s
    · rw [if_pos (by simp; omega), if_pos hk, List.length_append, e2, hid]
    · rw [if_neg (by simp; omega), if_neg hk, e2]

lemma nerf_eval (inF outF n hidden : ℕ) (w : NetWeights) (x : List ℝ) (hx : x.length = inF) :
    ∃ o, o.length = (if hidden = 4 then n + inF else n) ∧
      nerfEval inF outF n hidden w x = nerfLoop [4] x (hidden + 1) [⟨⟨n, outF, w.weight (hidden + 1), w.bias (hidden + 1)⟩, sigmoid⟩] o := by
  obtain ⟨out, h1, h2, -⟩ := act_ok ⟨⟨inF, n, w.weight 0, w.bias 0⟩, relu⟩ x hx
  obtain ⟨o, h3, h4⟩ := nerf_hidden 4 inF n (by omega) w x hx out h2 hidden
  refine ⟨o, h4, ?_⟩
  rw [nerfEval, nerfNet]
  simp only [List.cons_append, List.nil_append, nerfForward]
  rw [h1, ok_bind, nerfLoop_append, h3, ok_bind]
  simp [Nat.add_comm]

/-- C42 (nerf), the part that holds (missing: depths 3 and 4): for every width and output size, every weights and every input row of the encoding dimension,
a nerf with at most 2 or at least 5 hidden layers returns exactly `outF` numbers, all strictly between 0 and 1. -/
theorem C42_nerf_partial (inF outF n hidden : ℕ) (h3 : hidden ≠ 3) (h4 : hidden ≠ 4) (w : NetWeights) (x : List ℝ) (hx : x.length = inF) :
    ∃ y, nerfEval inF outF n hidden w x = .ok y ∧ y.length = outF ∧ ∀ v ∈ y, InUnit v := by
  obtain ⟨o, ho, he⟩ := nerf_eval inF outF n hidden w x hx
  rw [if_neg h4] at ho
  obtain ⟨y, h1, h2, hy⟩ := act_ok ⟨⟨n, outF, w.weight (hidden + 1), w.bias (hidden + 1)⟩, sigmoid⟩ o ho
  refine ⟨y, ?_, h2, ?_⟩
  · rw [he]
    simp only [nerfLoop]
    rw [h1, ok_bind, if_neg (by simp; omega)]
  · intro v hv
    obtain ⟨u, rfl⟩ := hy v hv
    exact sigmoid_unit u

/-- C42 is false (nerf with 4 hidden layers): every evaluation is a shape error, for every width, output size, weights and (non-empty) input. -/
theorem C42_nerf_depth4_false (inF outF n : ℕ) (hin : 0 < inF) (w : NetWeights) (x : List ℝ) (hx : x.length = inF) :
    nerfEval inF outF n 4 w x = .error .runtimeError := by
  obtain ⟨o, ho, he⟩ := nerf_eval inF outF n 4 w x hx
  rw [if_pos rfl] at ho
  rw [he]
  simp only [nerfLoop]
  rw [act_err _ _ (by simp only [ho]; omega), error_bind]

/-- C42 is false (nerf with 3 hidden layers): the input row is appended to the output, so the result has `outF + inF` entries instead of `outF`, and its last
entries are the raw coordinates, which need not be between 0 and 1. -/
theorem C42_nerf_depth3_false (inF outF n : ℕ) (w : NetWeights) (x : List ℝ) (hx : x.length = inF) :
    ∃ y, nerfEval inF outF n 3 w x = .ok (y ++ x) ∧ y.length = outF := by
  obtain ⟨o, ho, he⟩ := nerf_eval inF outF n 3 w x hx
  rw [if_neg (by omega)] at ho
  obtain ⟨y, h1, h2, hy⟩ := act_ok ⟨⟨n, outF, w.weight (3 + 1), w.bias (3 + 1)⟩, sigmoid⟩ o ho
  refine ⟨y, ?_, h2⟩
  rw [he]
  simp only [nerfLoop]
  rw [h1, ok_bind, if_pos (by simp)]

lemma seqForward_append (a b : List ActLayer) (x : List ℝ) : seqForward (a ++ b) x = (seqForward a x >>= seqForward b) := by
  induction a generalizing x with
  | nil => simp [seqForward, ok_bind]
  | cons l a ih =>
    simp only [List.cons_append, seqForward]
    rcases l.forward x with e | y
    · rfl
    · simp only [ok_bind]
      exact ih y

lemma siren_hidden (n k : ℕ) (om : ℝ) (w : NetWeights) (x : List ℝ) (hx : x.length = n) :
    ∃ o, seqForward ((List.range k).map (fun i : ℕ => ⟨⟨n, n, w.weight (i + 1), w.bias (i + 1)⟩, fun v => Real.sin (om * v)⟩)) x = .ok o ∧ o.length = n := by
  induction k with
  | zero => exact ⟨x, rfl, hx⟩
  | succ k ih =>
    obtain ⟨o, h1, h2⟩ := ih
    obtain ⟨y, e1, e2, -⟩ := act_ok ⟨⟨n, n, w.weight (k + 1), w.bias (k + 1)⟩, fun v => Real.sin (om * v)⟩ o h2
    refine ⟨y, ?_, e2⟩
    rw [List.range_succ, List.map_append, seqForward_append, h1, ok_bind]
    simp only [List.map_cons, List.map_nil, seqForward]
    rw [e1, ok_bind]

/-- C42 (siren): for every depth, width, output size, frequency factor, weights and input row of the encoding dimension the result has `outF` entries, all strictly
between 0 and 1. -/
theorem C42_siren (inF outF n hidden : ℕ) (om : ℝ) (w : NetWeights) (x : List ℝ) (hx : x.length = inF) :
    ∃ y, sirenEval inF outF n hidden om w x = .ok y ∧ y.length = outF ∧ ∀ v ∈ y, InUnit v := by
  obtain ⟨o1, a1, a2, -⟩ := act_ok ⟨⟨inF, n, w.weight 0, w.bias 0⟩, fun v => Real.sin (om * v)⟩ x hx
  obtain ⟨o2, b1, b2⟩ := siren_hidden n hidden om w o1 a2
  obtain ⟨y, c1, c2, c3⟩ := act_ok ⟨⟨n, outF, w.weight (hidden + 1), w.bias (hidden + 1)⟩, sigmoid⟩ o2 b2
  refine ⟨y, ?_, c2, ?_⟩
  · rw [sirenEval, sirenNet]
    simp only [List.cons_append, List.nil_append, seqForward]
    rw [a1, ok_bind, seqForward_append, b1, ok_bind]
    simp only [seqForward]
    rw [c1, ok_bind]
  · intro v hv
    obtain ⟨u, rfl⟩ := c3 v hv
    exact sigmoid_unit u

/-- C42: a model type other than the three known ones is NotImplementedError. -/
theorem C42_unknown (c : Cfg) (s : String) (h : c.get "model_type" = .ok (.str s)) (h1 : s ≠ "nerf") (h2 : s ≠ "siren") (h3 : s ≠ "voxel") :
    initNetworkKind c = .error .notImplementedError := by
  rw [initNetworkKind, h, ok_bind]
  simp [Val.eqStr, h1, h2, h3]

/-- rows, weights and depths satisfying the hypotheses -/
example : ([-1, 0, 1/2, 1] : List ℝ).length = 4 ∧ (9 : ℕ) ≠ 3 ∧ (9 : ℕ) ≠ 4 := by simp

/-! ### C74: the input dimension -/

/-- The rows handed to the network have four entries (model_to_eps_grid.py: x, y, z, frequency). C74 is false: any other `encoding_dim` passes validation but
makes every evaluation of nerf and siren a shape error. -/
theorem C74_false (encodingDim outF n hidden : ℕ) (h : encodingDim ≠ 4) (om : ℝ) (w : NetWeights) (x y z f : ℝ) :
    nerfEval encodingDim outF n hidden w [x, y, z, f] = .error .runtimeError ∧ sirenEval encodingDim outF n hidden om w [x, y, z, f] = .error .runtimeError := by
  have hl : ([x, y, z, f] : List ℝ).length ≠ encodingDim := by simpa using Ne.symm h
  constructor
  · rw [nerfEval, nerfNet]
    simp only [List.cons_append, List.nil_append, nerfForward]
    rw [act_err _ _ hl, error_bind]
  · rw [sirenEval, sirenNet]
    simp only [List.cons_append, List.nil_append, seqForward]
    rw [act_err _ _ hl, error_bind]

/-- C74, the part that holds: with `encoding_dim = 4` both networks evaluate on every coordinate row (nerf: at depths other than 3 and 4). -/
theorem C74_partial (outF n hidden : ℕ) (h3 : hidden ≠ 3) (h4 : hidden ≠ 4) (om : ℝ) (w : NetWeights) (x y z f : ℝ) :
    (∃ o, nerfEval 4 outF n hidden w [x, y, z, f] = .ok o ∧ o.length = outF) ∧ ∃ o, sirenEval 4 outF n hidden om w [x, y, z, f] = .ok o ∧ o.length = outF := by
  obtain ⟨o, a, b, -⟩ := C42_nerf_partial 4 outF n hidden h3 h4 w [x, y, z, f] rfl
  obtain ⟨o', a', b', -⟩ := C42_siren 4 outF n hidden om w [x, y, z, f] rfl
  exact ⟨⟨o, a, b⟩, ⟨o', a', b'⟩⟩

example : (3 : ℕ) ≠ 4 := by decide

/-! ### C75: voxel initialisation -/

section
variable {K : Type} [Field K] [LinearOrder K] [IsStrictOrderedRing K]

/-- C75: a freshly initialised voxel model lies inside the configured ranges, for all draws in [0, 1), so the clipping of the grid conversion changes nothing. -/
theorem C75_range (rl rh il ih : K) (hr : rl ≤ rh) (hi : il ≤ ih) (u v : ℕ → ℕ → ℕ → ℕ → K) (hu : ∀ i j k f, 0 ≤ u i j k f ∧ u i j k f < 1)
    (hv : ∀ i j k f, 0 ≤ v i j k f ∧ v i j k f < 1) :
    ∃ g, voxelInit true rl rh il ih u v = .ok g ∧ ∀ i j k f, rl ≤ (g i j k f).1 ∧ (g i j k f).1 ≤ rh ∧ il ≤ (g i j k f).2 ∧ (g i j k f).2 ≤ ih ∧
      clip rl rh (g i j k f).1 = (g i j k f).1 ∧ clip il ih (g i j k f).2 = (g i j k f).2 := by
  refine ⟨_, rfl, fun i j k f => ?_⟩
  obtain ⟨u0, u1⟩ := hu i j k f
  obtain ⟨v0, v1⟩ := hv i j k f
  have a1 : rl ≤ u i j k f * (rh - rl) + rl := by nlinarith [mul_nonneg u0 (sub_nonneg.mpr hr)]
  have a2 : u i j k f * (rh - rl) + rl ≤ rh := by nlinarith [mul_nonneg (sub_nonneg.mpr u1.le) (sub_nonneg.mpr hr)]
  have b1 : il ≤ v i j k f * (ih - il) + il := by nlinarith [mul_nonneg v0 (sub_nonneg.mpr hi)]
  have b2 : v i j k f * (ih - il) + il ≤ ih := by nlinarith [mul_nonneg (sub_nonneg.mpr v1.le) (sub_nonneg.mpr hi)]
  refine ⟨a1, a2, b1, b2, ?_, ?_⟩
  · simp only [clip]; rw [max_eq_left a1, min_eq_left a2]
  · simp only [clip]; rw [max_eq_left b1, min_eq_left b2]

/-- C75: the permittivity grid made from a freshly initialised voxel model (without noise) is the model itself: no entry is clipped, at any cell and frequency. A voxel model exists for regression runs only. -/
theorem C75_grid (c : GridCfg K) (hn : c.addNoise = false) (hr : c.realMin ≤ c.realMax) (hi : c.imagMin ≤ c.imagMax) (reg : Bool) (u v : ℕ → ℕ → ℕ → ℕ → K)
    (hu : ∀ i j k f, 0 ≤ u i j k f ∧ u i j k f < 1) (hv : ∀ i j k f, 0 ≤ v i j k f ∧ v i j k f < 1) (noise : ℕ → ℕ → ℕ → ℕ → K × K) :
    (∀ g, voxelInit reg c.realMin c.realMax c.imagMin c.imagMax u v = .ok g → reg = true ∧ voxelEps c g noise = g) ∧
      (reg = false → voxelInit reg c.realMin c.realMax c.imagMin c.imagMax u v = .error .assertionError) := by
  refine ⟨fun g hg => ?_, fun h => by rw [h]; rfl⟩
  cases reg with
  | false => cases hg
  | true =>
    refine ⟨rfl, ?_⟩
    obtain ⟨g', hg', H⟩ := C75_range c.realMin c.realMax c.imagMin c.imagMax hr hi u v hu hv
    obtain rfl : g' = g := Except.ok.inj (hg'.symm.trans hg)
    funext i j k f
    obtain ⟨-, -, -, -, h1, h2⟩ := H i j k f
    simp only [voxelEps, noiseStage, hn, Bool.false_eq_true, if_false, h1, h2]

/-- C75: every value of the range is attainable, up to its upper end: the initialisation covers the whole configured range. -/
theorem C75_onto (rl rh il ih : K) (a b : K) (ha : rl ≤ a) (ha' : a < rh) (hb : il ≤ b) (hb' : b < ih) :
    ∃ s t : K, (0 ≤ s ∧ s < 1) ∧ (0 ≤ t ∧ t < 1) ∧
      ∃ g, voxelInit true rl rh il ih (fun _ _ _ _ => s) (fun _ _ _ _ => t) = .ok g ∧ g 0 0 0 0 = (a, b) := by
  have hr : 0 < rh - rl := by linarith
  have hi : 0 < ih - il := by linarith
  refine ⟨(a - rl) / (rh - rl), (b - il) / (ih - il), ⟨div_nonneg (by linarith) hr.le, by rw [div_lt_one hr]; linarith⟩,
    ⟨div_nonneg (by linarith) hi.le, by rw [div_lt_one hi]; linarith⟩, _, rfl, ?_⟩
  simp only
  rw [div_mul_cancel₀ _ hr.ne', div_mul_cancel₀ _ hi.ne']
  simp

example : (-100 : ℚ) ≤ 100 ∧ (0 : ℚ) ≤ 3 := by norm_num

end

end Nidn
