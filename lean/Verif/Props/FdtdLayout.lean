/-
C59, C60: where the FDTD solver puts layers and detectors, and the resolution of its grid.
-/
import Mathlib.Tactic.Ring
import Mathlib.Tactic.Linarith
import Mathlib.Tactic.NormNum
import Mathlib.Tactic.FieldSimp
import Mathlib.Algebra.Order.BigOperators.Group.List
import Verif.Spec.FdtdConfig
import Verif.Props.FdtdObjects
import Verif.Props.Config
import Verif.Props.Units

set_option linter.unusedSectionVars false

namespace Nidn

/-! ### C60 the scaling -/

/-- C60: for every positive wavelength range and every minimum the scaling (cells per micrometre) gives at least ten cells per shortest wavelength and at least the minimum, and every value that does is at least as large. -/
theorem C60_smallest (wl0 minGp : ℝ) (h : 0 < wl0) :
    ∃ s, gridScaling wl0 minGp = .ok s ∧ 10 ≤ s * (wl0 / 1e-6) ∧ minGp ≤ s ∧ ∀ s', 10 ≤ s' * (wl0 / 1e-6) → minGp ≤ s' → s ≤ s' := by
  have h0 : wl0 * 0.1 ≠ 0 := by positivity
  refine ⟨max (UNIT_MAGNITUDE / (wl0 * 0.1)) minGp, ?_, ?_, le_max_right _ _, ?_⟩
  · unfold gridScaling pyDiv
    rw [if_neg h0]
    rfl
  · have e : UNIT_MAGNITUDE / (wl0 * 0.1) * (wl0 / 1e-6) = 10 := by
      unfold UNIT_MAGNITUDE
      field_simp
      norm_num
    rw [← e]
    exact mul_le_mul_of_nonneg_right (le_max_left _ _) (by positivity)
  · intro s' h1 h2
    refine max_le ?_ h2
    unfold UNIT_MAGNITUDE
    rw [div_le_iff₀ (by positivity)]
    have : s' * (wl0 / 1e-6) = s' * (wl0 * 0.1) * 1e7 := by norm_num; ring
    rw [this] at h1
    norm_num at h1 ⊢
    linarith

example : gridScaling 1e-6 10 = .ok 10 := by
  unfold gridScaling pyDiv UNIT_MAGNITUDE
  rw [if_neg (by norm_num)]
  norm_num [Except.map]

/-- C60: so every wavelength of the computed spectrum spans at least ten cells. -/
theorem C60_spectrum (c : FreqCfg) (minGp : ℝ) (h0 : 0 < c.wlMin) (h1 : c.wlMin ≤ c.wlMax) (hm : 0 < minGp) (hd : c.distribution = "linear" ∨ c.distribution = "log") :
    ∃ wls fs c' s, getFrequencyPoints c = .ok (wls, fs, c') ∧ gridScaling c'.wlMin minGp = .ok s ∧ ∀ w ∈ wls, 10 ≤ w / (1e-6 / s) := by
  obtain ⟨wls, fs, c', h, -, -, -, -, hw, rfl, -⟩ := C03_frequency_points c h0 h1 hd
  obtain ⟨s, hs, h10, hmin, -⟩ := C60_smallest c.wlMin minGp h0
  refine ⟨wls, fs, _, s, h, hs, fun w hw' => ?_⟩
  have : w / (1e-6 / s) = s * (w / 1e-6) := by field_simp
  rw [this]
  refine h10.trans (mul_le_mul_of_nonneg_left ?_ (hm.le.trans hmin))
  exact div_le_div_of_nonneg_right (hw w hw').1 (by norm_num)

example : ∃ c : FreqCfg, 0 < c.wlMin ∧ c.wlMin ≤ c.wlMax ∧ c.nFreq = 12 ∧ c.distribution = "log" :=
  ⟨⟨3e-7, 1e-6, 12, "log", none⟩, by norm_num, by norm_num, rfl, rfl⟩

/-! ### C59 the stack -/

lemma pyTrunc_of_nonneg {x : ℝ} (h : 0 ≤ x) : pyTrunc x = ⌊x⌋ := if_pos h

lemma layerLoop_eq (s b : ℝ) (thick : List ℝ) : ∀ (r i : ℕ), i + r ≤ thick.length →
    layerLoop s thick r i (b + (thick.take i).sum) (b + (thick.take (i + 1)).sum) =
      .ok ((List.range r).map fun j => (pyTrunc (s * (b + (thick.take (i + j)).sum)), pyTrunc (s * (b + (thick.take (i + j + 1)).sum)))) := by
  intro r
  induction r with
  | zero => intro i _; rfl
  | succ r ih =>
    intro i hi
    cases r with
    | zero => rfl
    | succ r =>
      have h1 : i < thick.length := by omega
      have h2 : i + 1 < thick.length := by omega
      have e1 : b + (thick.take i).sum + thick[i] = b + (thick.take (i + 1)).sum := by
        rw [List.sum_take_succ _ _ h1]; ring
      have e2 : b + (thick.take (i + 1)).sum + thick[i + 1] = b + (thick.take (i + 1 + 1)).sum := by
        rw [List.sum_take_succ _ _ h2]; ring
      unfold layerLoop
      rw [List.getElem?_eq_getElem h1, List.getElem?_eq_getElem h2]
      simp only [e1, e2]
      rw [ih (i + 1) (by omega), List.range_succ_eq_map (n := r + 1), List.map_cons, List.map_map]
      simp only [Except.map, Nat.add_zero, Except.ok.injEq, List.cons.injEq, true_and]
      refine List.map_congr_left fun j _ => ?_
      simp only [Function.comp, Nat.succ_eq_add_one]
      rw [show i + 1 + j = i + (j + 1) by omega]

lemma layerRanges_eq (c : FdtdCfg) (s : ℝ) (r : ℕ) (hne : c.thick ≠ []) (hr : r ≤ c.thick.length) :
    layerRanges c s r = .ok ((List.range r).map fun j =>
      (pyTrunc (s * (c.pml + c.free + (c.thick.take j).sum)), pyTrunc (s * (c.pml + c.free + (c.thick.take (j + 1)).sum)))) := by
  have hl : 0 < c.thick.length := List.length_pos_iff.2 hne
  have := layerLoop_eq s (c.pml + c.free) c.thick r 0 (by omega)
  unfold layerRanges
  rw [List.getElem?_eq_getElem hl]
  simp only [List.take_zero, List.sum_nil, add_zero, zero_add] at this ⊢
  have e : (c.thick.take 1).sum = c.thick[0] := by
    rw [show (1 : ℕ) = 0 + 1 from rfl, List.sum_take_succ _ _ hl]; simp
  rw [e] at this
  exact this

/-- geometric part of an accepted config: scaling, PML and free space positive, the distance of the detectors positive and at most the free space (in cells), layers positive -/
structure GoodGeometry (c : FdtdCfg) (s : ℝ) : Prop where
  scaling : 0 < s
  pml : 0 < c.pml
  free : 0 < c.free
  gap : 0 < c.gap
  room : c.gap ≤ ⌊s * c.free⌋
  layers : c.thick ≠ []
  thick : ∀ t ∈ c.thick, 0 < t

lemma take_sum_mono (l : List ℝ) (h : ∀ t ∈ l, 0 < t) {i j : ℕ} (hij : i ≤ j) : (l.take i).sum ≤ (l.take j).sum := by
  have : l.take j = l.take i ++ (l.drop i).take (j - i) := by
    rw [← List.take_add]; congr 1; omega
  rw [this, List.sum_append]
  have : 0 ≤ ((l.drop i).take (j - i)).sum :=
    List.sum_nonneg fun x hx => (h x (List.mem_of_mem_drop (List.mem_of_mem_take hx))).le
  linarith

lemma take_sum_nonneg (l : List ℝ) (h : ∀ t ∈ l, 0 < t) (i : ℕ) : 0 ≤ (l.take i).sum :=
  List.sum_nonneg fun x hx => (h x (List.mem_of_mem_take hx)).le

lemma take_sum_le (l : List ℝ) (h : ∀ t ∈ l, 0 < t) (i : ℕ) : (l.take i).sum ≤ l.sum := by
  rcases le_total i l.length with hi | hi
  · have := take_sum_mono l h hi
    rwa [List.take_length] at this
  · rw [List.take_of_length_le hi]

/-- C59: in every well-formed geometry the layers are put into consecutive cell ranges in order, the first starting right after PML and front free space, each within one cell of its nominal
thickness, all outside both PMLs. -/
theorem C59_layers_partial (c : FdtdCfg) (s : ℝ) (g : GoodGeometry c s) :
    ∃ l : List (ℤ × ℤ), layerRanges c s c.thick.length = .ok l ∧ l.length = c.thick.length ∧
      (∀ r, l[0]? = some r → r.1 = ⌊s * (c.pml + c.free)⌋) ∧
      (∀ (i : ℕ) (r r' : ℤ × ℤ), l[i]? = some r → l[i + 1]? = some r' → r.2 = r'.1) ∧
      (∀ (i : ℕ) (r : ℤ × ℤ) (t : ℝ), l[i]? = some r → c.thick[i]? = some t → |((r.2 - r.1 : ℤ) : ℝ) - s * t| < 1) ∧
      (∀ (i j : ℕ) (r r' : ℤ × ℤ), i < j → l[i]? = some r → l[j]? = some r' → r.2 ≤ r'.1) ∧
      (∀ r ∈ l, pmlCells c s < r.1 ∧ r.1 ≤ r.2 ∧ r.2 ≤ tDetectorX c s - c.gap ∧ r.2 < xSize c s - pmlCells c s) := by
  have hs := g.scaling
  have hp := g.pml
  have hf := g.free
  have hT := fun i => take_sum_nonneg c.thick g.thick i
  have tr : ∀ i, pyTrunc (s * (c.pml + c.free + (c.thick.take i).sum)) = ⌊s * (c.pml + c.free + (c.thick.take i).sum)⌋ := fun i =>
    pyTrunc_of_nonneg (by have := hT i; positivity)
  have mono : ∀ {i j : ℕ}, i ≤ j → ⌊s * (c.pml + c.free + (c.thick.take i).sum)⌋ ≤ ⌊s * (c.pml + c.free + (c.thick.take j).sum)⌋ := fun {i j} h =>
    Int.floor_le_floor (mul_le_mul_of_nonneg_left (by have := take_sum_mono c.thick g.thick h; linarith) hs.le)
  have get : ∀ {i : ℕ} {r : ℤ × ℤ}, ((List.range c.thick.length).map fun j =>
      (pyTrunc (s * (c.pml + c.free + (c.thick.take j).sum)), pyTrunc (s * (c.pml + c.free + (c.thick.take (j + 1)).sum))))[i]? = some r →
      i < c.thick.length ∧ r = (⌊s * (c.pml + c.free + (c.thick.take i).sum)⌋, ⌊s * (c.pml + c.free + (c.thick.take (i + 1)).sum)⌋) := by
    intro i r h
    rw [List.getElem?_map, Option.map_eq_some_iff] at h
    obtain ⟨j, hj, rfl⟩ := h
    obtain ⟨h1, h2⟩ := List.getElem?_eq_some_iff.1 hj
    rw [List.getElem_range] at h2
    subst h2
    rw [List.length_range] at h1
    exact ⟨h1, by rw [tr, tr]⟩
  have hP : pmlCells c s = ⌊c.pml * s⌋ := pyTrunc_of_nonneg (by positivity)
  have hfree : 1 ≤ ⌊s * c.free⌋ := le_trans g.gap g.room
  have hsum : ∀ a b : ℝ, ⌊a⌋ + ⌊b⌋ ≤ ⌊a + b⌋ := fun a b => Int.le_floor_add a b
  refine ⟨_, layerRanges_eq c s _ g.layers le_rfl, by simp, ?_, ?_, ?_, ?_, ?_⟩
  · intro r h
    obtain ⟨-, rfl⟩ := get h
    simp
  · intro i r r' h h'
    obtain ⟨-, rfl⟩ := get h
    obtain ⟨-, rfl⟩ := get h'
    rfl
  · intro i r t h ht
    obtain ⟨hi, rfl⟩ := get h
    obtain ⟨hi', rfl⟩ := List.getElem?_eq_some_iff.1 ht
    rw [List.sum_take_succ _ _ hi]
    have a1 := Int.floor_le (s * (c.pml + c.free + (c.thick.take i).sum))
    have a2 := Int.lt_floor_add_one (s * (c.pml + c.free + (c.thick.take i).sum))
    have b1 := Int.floor_le (s * (c.pml + c.free + ((c.thick.take i).sum + c.thick[i])))
    have b2 := Int.lt_floor_add_one (s * (c.pml + c.free + ((c.thick.take i).sum + c.thick[i])))
    rw [abs_lt]
    push_cast
    constructor <;> nlinarith
  · intro i j r r' hij h h'
    obtain ⟨-, rfl⟩ := get h
    obtain ⟨-, rfl⟩ := get h'
    exact mono hij
  · intro r hr
    obtain ⟨i, h⟩ := List.mem_iff_getElem?.1 hr
    obtain ⟨-, rfl⟩ := get h
    have hTs := take_sum_le c.thick g.thick
    have h0 : 0 ≤ c.thick.sum := (hT 0).trans (hTs 0)
    have hx : xSize c s = ⌊s * (c.pml * 2 + c.free * 2 + c.thick.sum)⌋ := pyTrunc_of_nonneg (by positivity)
    have ht : tDetectorX c s = ⌊s * (c.pml + c.free + c.thick.sum)⌋ + c.gap := by
      have hg : (0 : ℝ) < c.gap := by exact_mod_cast g.gap
      unfold tDetectorX
      rw [pyTrunc_of_nonneg (by positivity), Int.floor_add_intCast, mul_comm]
    have hle : ⌊s * (c.pml + c.free + (c.thick.take (i + 1)).sum)⌋ ≤ ⌊s * (c.pml + c.free + c.thick.sum)⌋ :=
      Int.floor_le_floor (mul_le_mul_of_nonneg_left (by have := hTs (i + 1); linarith) hs.le)
    refine ⟨?_, mono (Nat.le_succ i), by rw [ht]; simpa using hle, ?_⟩
    · have h1 := hsum (c.pml * s) (s * c.free)
      have h2 : ⌊c.pml * s + s * c.free⌋ ≤ ⌊s * (c.pml + c.free + (c.thick.take i).sum)⌋ :=
        Int.floor_le_floor (by have := mul_nonneg hs.le (hT i); linarith)
      rw [hP]
      show _ < ⌊_⌋
      omega
    · have h1 := hsum (s * (c.pml + c.free + c.thick.sum)) (c.pml * s + s * c.free)
      have h2 := hsum (c.pml * s) (s * c.free)
      have e : s * (c.pml + c.free + c.thick.sum) + (c.pml * s + s * c.free) = s * (c.pml * 2 + c.free * 2 + c.thick.sum) := by ring
      rw [e] at h1
      rw [hP, hx]
      show ⌊_⌋ < _
      omega

/-- C59: the reflection detector lies `gap` cells before the first layer and not inside the front PML, the transmission detector `gap` cells behind the last one; it lies before the rear PML if
`gap` is smaller than the free space, and inside the grid as soon as the PML has a cell. -/
theorem C59_detectors_partial (c : FdtdCfg) (s : ℝ) (g : GoodGeometry c s) :
    ∃ l : List (ℤ × ℤ), layerRanges c s c.thick.length = .ok l ∧
      (∀ r ∈ l, rDetectorX c s + c.gap ≤ r.1 ∧ r.2 + c.gap ≤ tDetectorX c s) ∧
      (∀ r, l[0]? = some r → rDetectorX c s + c.gap = r.1) ∧ (∀ r, l[c.thick.length - 1]? = some r → tDetectorX c s = r.2 + c.gap) ∧
      0 ≤ pmlCells c s ∧ pmlCells c s ≤ rDetectorX c s ∧ tDetectorX c s ≤ xSize c s - pmlCells c s ∧
      (c.gap < ⌊s * c.free⌋ → tDetectorX c s < xSize c s - pmlCells c s) ∧
      (1 ≤ pmlCells c s → tDetectorX c s < xSize c s) := by
  have hs := g.scaling
  have hp := g.pml
  have hf := g.free
  have hg : (0 : ℝ) < c.gap := by exact_mod_cast g.gap
  have h0 : 0 ≤ c.thick.sum := List.sum_nonneg fun x hx => (g.thick x hx).le
  have hsum : ∀ a b : ℝ, ⌊a⌋ + ⌊b⌋ ≤ ⌊a + b⌋ := fun a b => Int.le_floor_add a b
  obtain ⟨l, hl, hlen, hfirst, hcons, -, hord, hin⟩ := C59_layers_partial c s g
  have hP : pmlCells c s = ⌊c.pml * s⌋ := pyTrunc_of_nonneg (by positivity)
  have hx : xSize c s = ⌊s * (c.pml * 2 + c.free * 2 + c.thick.sum)⌋ := pyTrunc_of_nonneg (by positivity)
  have ht : tDetectorX c s = ⌊s * (c.pml + c.free + c.thick.sum)⌋ + c.gap := by
    unfold tDetectorX
    rw [pyTrunc_of_nonneg (by positivity), Int.floor_add_intCast, mul_comm]
  have hgf : (c.gap : ℝ) ≤ s * c.free := (by exact_mod_cast g.room : (c.gap : ℝ) ≤ ⌊s * c.free⌋).trans (Int.floor_le _)
  have hr : rDetectorX c s = ⌊s * (c.pml + c.free)⌋ - c.gap := by
    unfold rDetectorX
    have : 0 ≤ (c.pml + c.free) * s - c.gap := by nlinarith [mul_pos hp hs]
    rw [pyTrunc_of_nonneg this, Int.floor_sub_intCast, mul_comm]
  have hP0 : 0 ≤ pmlCells c s := by rw [hP]; exact Int.floor_nonneg.2 (by positivity)
  have h1 := hsum (c.pml * s) (s * c.free)
  have h2 := hsum (s * (c.pml + c.free + c.thick.sum)) (c.pml * s + s * c.free)
  rw [show s * (c.pml + c.free + c.thick.sum) + (c.pml * s + s * c.free) = s * (c.pml * 2 + c.free * 2 + c.thick.sum) by ring] at h2
  have h3 : ⌊c.pml * s + s * c.free⌋ = ⌊s * (c.pml + c.free)⌋ := by congr 1; ring
  have hroom := g.room
  have hlast : ∀ r, l[c.thick.length - 1]? = some r → r.2 = ⌊s * (c.pml + c.free + c.thick.sum)⌋ := by
    intro r h
    have e := layerRanges_eq c s _ g.layers le_rfl
    rw [hl] at e
    injection e with e
    rw [e, List.getElem?_map, Option.map_eq_some_iff] at h
    obtain ⟨j, hj, rfl⟩ := h
    obtain ⟨h1, h2⟩ := List.getElem?_eq_some_iff.1 hj
    rw [List.getElem_range] at h2
    subst h2
    have hpos : 0 < c.thick.length := List.length_pos_iff.2 g.layers
    show pyTrunc _ = _
    rw [Nat.sub_add_cancel hpos, List.take_length, pyTrunc_of_nonneg (by positivity)]
  refine ⟨l, hl, ?_, ?_, ?_, hP0, by omega, by omega, fun h => by omega, fun h => by omega⟩
  · intro r hr'
    obtain ⟨i, hi⟩ := List.mem_iff_getElem?.1 hr'
    obtain ⟨-, h5, h6, -⟩ := hin r hr'
    refine ⟨?_, by omega⟩
    have hl0 : 0 < l.length := by rw [hlen]; exact List.length_pos_iff.2 g.layers
    have h00 : l[0]? = some l[0] := List.getElem?_eq_getElem hl0
    have hf0 := hfirst _ h00
    have hin0 := hin l[0] (List.getElem_mem hl0)
    rcases Nat.eq_zero_or_pos i with rfl | hpos
    · rw [hfirst r hi]; omega
    · have := hord 0 i _ r hpos h00 hi
      omega
  · intro r h
    rw [hfirst r h]; omega
  · intro r h
    rw [hlast r h, ht]

lemma setTo_unique {c : Cfg} {k : String} {x y : ℚ} (h : SetTo c k x) (h' : SetTo c k y) : x = y := by
  obtain ⟨v, hv, dv⟩ := h
  obtain ⟨w, hw, dw⟩ := h'
  rw [hv] at hw
  cases hw
  exact denotes_unique dv dw

/-- What validation guarantees about the geometry (C59): for every accepted config there is a positive scaling, PML, free space and detector distance are positive, and the distance is at most the free space in cells. -/
theorem C59_accepted (c : Cfg) (f : FdtdCfg) (h : validateConfig c = .ok ()) (hf : ReadsAs c f) :
    ∃ s, gridScaling f.freq.wlMin f.minGp = .ok s ∧ 0 < s ∧ 0 < f.pml ∧ 0 < f.free ∧ 0 < f.gap ∧ f.gap ≤ ⌊s * f.free⌋ ∧ (f.thick.length = f.nLayers ∨ f.thick.length = 1) := by
  have hr := C07_ranges c h
  have pos : ∀ k ∈ documentedPositive, ∀ x : ℚ, SetTo c k x → 0 < x := by
    intro k hk x hx
    obtain ⟨y, hy, hy'⟩ := hr.positive k hk
    rwa [setTo_unique hx hy]
  obtain ⟨g, hg, eg⟩ := hf.minGp
  obtain ⟨p, hp, ep⟩ := hf.pml
  obtain ⟨d, hd, ed⟩ := hf.free
  have hg0 := pos _ (by decide) g hg
  have hp0 := pos _ (by decide) p hp
  have hd0 := pos _ (by decide) d hd
  have hgap0 := pos _ (by decide) f.gap hf.gap
  -- the check of validate_config
  have hv := (validate_ok.1 h).2.2.1
  simp only [checkValueRanges, bind_ok, require_ok, get_ok] at hv
  obtain ⟨_, _, _, rfl, _, _, _, rfl, _, _, _, rfl, sc, hsc, vf, hvf, free, hfree, vg, hvg, gp, hgp, _, hroom, _⟩ := hv
  simp only [decide_eq_true_eq, not_lt] at hroom
  simp only [cfgScaling, bind_ok, get_ok] at hsc
  obtain ⟨wl, hwl, v0, hv0, w0, hw0, q, hq, vm, hvm, gm, hgm, hsc⟩ := hsc
  obtain ⟨l, hl, rest, hden⟩ := hf.wavelengths
  rw [hl] at hwl
  cases hwl
  cases hden with
  | @cons a _ l' _ hab _ =>
  obtain ⟨qa, hqa, eqa⟩ := hab
  simp only [Val.index, List.getElem?_cons_zero, Except.ok.injEq] at hv0
  subst hv0
  have ew : w0 = qa := denotes_unique (num_ok.1 hw0) hqa
  subst ew
  have egm : gm = g := setTo_unique ⟨vm, hvm, num_ok.1 hgm⟩ hg
  have efr : free = d := setTo_unique ⟨vf, hvf, num_ok.1 hfree⟩ hd
  have egp : gp = f.gap := setTo_unique ⟨vg, hvg, num_ok.1 hgp⟩ hf.gap
  subst egm efr egp
  unfold pyDiv at hq
  by_cases hz : w0 * FDTD_GRID_SCALE = 0
  · rw [if_pos hz] at hq; cases hq
  rw [if_neg hz] at hq
  injection hq with hq
  simp only [pure, Except.pure, Except.ok.injEq] at hsc
  have hscale : gridScaling f.freq.wlMin f.minGp = .ok (sc : ℝ) := by
    unfold gridScaling pyDiv
    rw [eqa, eg]
    have hz' : (w0 : ℝ) * 0.1 ≠ 0 := by
      intro h0
      apply hz
      have : ((w0 * FDTD_GRID_SCALE : ℚ) : ℝ) = 0 := by
        unfold FDTD_GRID_SCALE; push_cast; rw [← h0]; norm_num
      exact_mod_cast this
    rw [if_neg hz']
    show Except.ok (max (UNIT_MAGNITUDE / ((w0 : ℝ) * 0.1)) (gm : ℝ)) = _
    rw [← hsc, ← hq]
    unfold UNIT_MAGNITUDE FDTD_GRID_SCALE
    push_cast
    norm_num
  have hs0 : 0 < sc := by rw [← hsc]; exact lt_of_lt_of_le hg0 (le_max_right _ _)
  refine ⟨sc, hscale, by exact_mod_cast hs0, by rw [ep]; exact_mod_cast hp0, by rw [ed]; exact_mod_cast hd0, by exact_mod_cast hgap0, ?_, ?_⟩
  · have hnn : ¬ sc * free < 0 := not_lt.2 (mul_nonneg hs0.le hd0.le)
    have : pyInt (sc * free) = ⌊sc * free⌋ := if_neg hnn
    rw [this] at hroom
    have hroom' : f.gap ≤ ⌊sc * free⌋ := by exact_mod_cast hroom
    rw [ed]
    have e : ⌊((sc : ℝ) * (free : ℝ))⌋ = ⌊sc * free⌋ := by
      rw [← Rat.cast_mul, Rat.floor_cast]
    rw [e]; exact hroom'
  · obtain ⟨l1, n, hl1, hn, hor⟩ := hr.thickness
    obtain ⟨l2, hl2, hden⟩ := hf.thick
    rw [hl1] at hl2
    cases hl2
    have en : (n : ℚ) = f.nLayers := setTo_unique hn hf.nLayers
    have elen := List.Forall₂.length_eq hden
    rcases hor with hor | hor
    · left
      have : n = f.nLayers := by exact_mod_cast en
      omega
    · right; omega

/-! ### witnesses -/

/-- the shipped default config with the FDTD solver -/
def fdtdDefault : Cfg := defaultConfig.set "solver" (.str "FDTD")

/-- what the solver reads from the default config, with other PML thickness, detector distance and layers -/
noncomputable def fdtdDefaultWith (pml : ℝ) (gap : ℤ) (thick : List ℝ) : FdtdCfg :=
  ⟨⟨1 / 1000000, 30 / 1000000, 20, "linear", none⟩, 10, pml, 1, thick, 8, gap, [3 / 2, 1], "continuous", "line", 200, none⟩

lemma scaling_default : gridScaling (1 / 1000000) 10 = .ok 10 := by
  unfold gridScaling pyDiv UNIT_MAGNITUDE
  rw [if_neg (by norm_num)]
  norm_num [Except.map]

lemma denotes_float (q : ℚ) : ∃ q' : ℚ, Denotes (.float q) q' ∧ (q : ℝ) = q' := ⟨q, .float q, rfl⟩

/-- the default config is read as expected -/
lemma fdtdDefault_reads : ReadsAs fdtdDefault (fdtdDefaultWith (3 / 2) 2 [1]) where
  wavelengths := ⟨_, rfl, [], .cons ⟨_, .float _, by norm_num [fdtdDefaultWith]⟩ (.cons ⟨_, .float _, by norm_num [fdtdDefaultWith]⟩ .nil)⟩
  nFreq := ⟨_, rfl, Denotes.int 20⟩
  distribution := rfl
  minGp := ⟨_, ⟨_, rfl, .int 10⟩, by norm_num [fdtdDefaultWith]⟩
  pml := ⟨_, ⟨_, rfl, .float _⟩, by norm_num [fdtdDefaultWith]⟩
  free := ⟨_, ⟨_, rfl, .float _⟩, by norm_num [fdtdDefaultWith]⟩
  thick := ⟨_, rfl, .cons ⟨_, .float _, by norm_num⟩ .nil⟩
  nLayers := ⟨_, rfl, Denotes.int 8⟩
  gap := ⟨_, rfl, Denotes.int 2⟩
  source := ⟨_, rfl, .cons ⟨_, .float _, by norm_num⟩ (.cons ⟨_, .float _, by norm_num⟩ .nil)⟩
  pulse := rfl
  sourceType := rfl
  niter := ⟨_, rfl, Denotes.int 200⟩

/-- The geometry of the default config is well formed, so `C59_layers_partial` and `C59_detectors_partial` apply. -/
lemma default_geometry : GoodGeometry (expandThick (fdtdDefaultWith (3 / 2) 2 [1])) 10 := by
  have e : expandThick (fdtdDefaultWith (3 / 2) 2 [1]) = fdtdDefaultWith (3 / 2) 2 (List.replicate 8 1) := rfl
  rw [e]
  refine ⟨by norm_num, by norm_num [fdtdDefaultWith], by norm_num [fdtdDefaultWith], by norm_num [fdtdDefaultWith], ?_, by simp [fdtdDefaultWith], ?_⟩
  · norm_num [fdtdDefaultWith]
  · intro t ht
    rw [List.eq_of_mem_replicate ht]
    norm_num

example : ∃ s, gridScaling (1 / 1000000) 10 = .ok s ∧ 0 < s ∧ (0 : ℝ) < 3 / 2 := ⟨10, scaling_default, by norm_num, by norm_num⟩

example : validateConfig fdtdDefault = .ok () ∧ ReadsAs fdtdDefault (fdtdDefaultWith (3 / 2) 2 [1]) := ⟨default_config_fdtd_accepted, fdtdDefault_reads⟩

/-- C59 is false of the rear PML: the default config with a detector distance of ten cells is accepted, and its transmission detector (cell 115 of 130) is in the first cell of the 15-cell rear PML. -/
theorem C59_detector_false :
    ∃ c f, validateConfig c = .ok () ∧ ReadsAs c f ∧ gridScaling f.freq.wlMin f.minGp = .ok 10 ∧
      xSize (expandThick f) 10 = 130 ∧ pmlCells (expandThick f) 10 = 15 ∧ tDetectorX (expandThick f) 10 = 115 := by
  refine ⟨fdtdDefault.set "FDTD_gridpoints_from_material_to_detector" (.int 10), fdtdDefaultWith (3 / 2) 10 [1], by decide +kernel, ?_, scaling_default, ?_, ?_, ?_⟩
  · exact ⟨fdtdDefault_reads.wavelengths, fdtdDefault_reads.nFreq, rfl, fdtdDefault_reads.minGp, fdtdDefault_reads.pml, fdtdDefault_reads.free, fdtdDefault_reads.thick,
      fdtdDefault_reads.nLayers, ⟨_, rfl, Denotes.int 10⟩, fdtdDefault_reads.source, rfl, rfl, fdtdDefault_reads.niter⟩
  all_goals
    have e : expandThick (fdtdDefaultWith (3 / 2) 10 [1]) = fdtdDefaultWith (3 / 2) 10 (List.replicate 8 1) := rfl
    rw [e]
  · unfold xSize
    rw [show (10 : ℝ) * _ = ((130 : ℤ) : ℝ) by norm_num [fdtdDefaultWith]]
    unfold pyTrunc; norm_num
  · unfold pmlCells
    rw [show _ * (10 : ℝ) = ((15 : ℤ) : ℝ) by norm_num [fdtdDefaultWith]]
    unfold pyTrunc; norm_num
  · unfold tDetectorX
    rw [show _ * (10 : ℝ) + _ = ((115 : ℤ) : ℝ) by norm_num [fdtdDefaultWith]]
    unfold pyTrunc; norm_num

/-- C59 is false of thin PMLs: a PML thinner than a cell is accepted and the run then fails with an IndexError. -/
theorem C59_pml_false :
    ∃ c f, validateConfig c = .ok () ∧ ReadsAs c f ∧ gridScaling f.freq.wlMin f.minGp = .ok 10 ∧ pmlCells f 10 = 0 ∧
      ∀ courant, placeBoundaries courant (pmlCells f 10) = .error .indexError := by
  have h0 : pmlCells (fdtdDefaultWith (1 / 20) 2 [1]) 10 = 0 := by
    unfold pmlCells
    rw [show _ * (10 : ℝ) = 1 / 2 by norm_num [fdtdDefaultWith]]
    unfold pyTrunc
    rw [if_pos (by norm_num), Int.floor_eq_iff]
    norm_num
  refine ⟨fdtdDefault.set "FDTD_pml_thickness" (.float (1 / 20)), fdtdDefaultWith (1 / 20) 2 [1], by decide +kernel, ?_, scaling_default, h0, ?_⟩
  · exact ⟨fdtdDefault_reads.wavelengths, fdtdDefault_reads.nFreq, rfl, fdtdDefault_reads.minGp, ⟨_, ⟨_, rfl, .float _⟩, by norm_num [fdtdDefaultWith]⟩, fdtdDefault_reads.free,
      fdtdDefault_reads.thick, fdtdDefault_reads.nLayers, fdtdDefault_reads.gap, fdtdDefault_reads.source, rfl, rfl, fdtdDefault_reads.niter⟩
  · intro courant
    rw [h0]
    have : (placeAll (.fresh gridAttrs) (boundaryProgram 0)).2 = .error .indexError := by decide +kernel
    unfold placeBoundaries
    rw [this]
    rfl

/-- C59 is false of the accepted thicknesses: two layers of thickness 2 and −1 are accepted, the second is given the cells from 45 to 35. -/
theorem C59_thickness_false :
    ∃ c f l, validateConfig c = .ok () ∧ c.lookup "PER_LAYER_THICKNESS" = some (.list [.float 2, .float (-1)]) ∧ f.thick = [2, -1] ∧
      gridScaling f.freq.wlMin f.minGp = .ok 10 ∧ layerRanges f 10 2 = .ok l ∧ l = [(25, 45), (45, 35)] := by
  refine ⟨(fdtdDefault.set "PER_LAYER_THICKNESS" (.list [.float 2, .float (-1)])).set "N_layers" (.int 2), fdtdDefaultWith (3 / 2) 2 [2, -1], _, by decide +kernel, rfl, rfl,
    scaling_default, layerRanges_eq _ 10 2 (by simp [fdtdDefaultWith]) (by simp [fdtdDefaultWith]), ?_⟩
  have t : ∀ z : ℤ, pyTrunc (z : ℝ) = z := fun z => by unfold pyTrunc; split_ifs <;> simp
  have e : List.range 2 = [0, 1] := rfl
  rw [e]
  simp only [List.map_cons, List.map_nil]
  rw [show (10 : ℝ) * ((fdtdDefaultWith (3 / 2) 2 [2, -1]).pml + (fdtdDefaultWith (3 / 2) 2 [2, -1]).free + ((fdtdDefaultWith (3 / 2) 2 [2, -1]).thick.take 0).sum) = ((25 : ℤ) : ℝ) by norm_num [fdtdDefaultWith],
    show (10 : ℝ) * ((fdtdDefaultWith (3 / 2) 2 [2, -1]).pml + (fdtdDefaultWith (3 / 2) 2 [2, -1]).free + ((fdtdDefaultWith (3 / 2) 2 [2, -1]).thick.take (0 + 1)).sum) = ((45 : ℤ) : ℝ) by norm_num [fdtdDefaultWith],
    show (10 : ℝ) * ((fdtdDefaultWith (3 / 2) 2 [2, -1]).pml + (fdtdDefaultWith (3 / 2) 2 [2, -1]).free + ((fdtdDefaultWith (3 / 2) 2 [2, -1]).thick.take (1 + 1)).sum) = ((35 : ℤ) : ℝ) by norm_num [fdtdDefaultWith]]
  simp only [t]

end Nidn
