/-
C184: when FDTD validation warns about the thickness of a layer, and what thickness it names.
-/
import Verif.Model.GridScale
import Verif.Props.FdtdLayout

namespace Nidn

/-! ### the loop with numbers -/

lemma pyInt_cast (q : ℚ) : pyInt (q : ℝ) = pyInt q := by
  unfold pyInt
  rw [Rat.floor_cast, Rat.ceil_cast]
  by_cases h : q < 0
  · rw [if_pos h, if_pos (by exact_mod_cast h)]
  · rw [if_neg h, if_neg (by exact_mod_cast h)]

lemma mem_scaleWarnings {K : Type*} [Field K] [LinearOrder K] [FloorRing K] (s b : K) (l : List K) :
    ∀ (i n : ℕ) (d : K), (n, d) ∈ scaleWarnings s b i l ↔ ∃ k t, l[k]? = some t ∧ n = i + k + 1 ∧
      d = ((pyInt (s * (b + t)) - pyInt (s * b) : ℤ) : K) / s ∧ t ≠ d := by
  induction l with
  | nil => intro i n d; simp [scaleWarnings]
  | cons t ts ih =>
    intro i n d
    have split : (∃ k u, (t :: ts)[k]? = some u ∧ n = i + k + 1 ∧ d = ((pyInt (s * (b + u)) - pyInt (s * b) : ℤ) : K) / s ∧ u ≠ d) ↔
        (n = i + 1 ∧ d = ((pyInt (s * (b + t)) - pyInt (s * b) : ℤ) : K) / s ∧ t ≠ d) ∨
        ∃ k u, ts[k]? = some u ∧ n = i + 1 + k + 1 ∧ d = ((pyInt (s * (b + u)) - pyInt (s * b) : ℤ) : K) / s ∧ u ≠ d := by
      constructor
      · rintro ⟨k, u, hk, hn, hd⟩
        cases k with
        | zero => simp only [List.getElem?_cons_zero, Option.some.injEq] at hk; subst hk; exact .inl ⟨hn, hd⟩
        | succ k => rw [List.getElem?_cons_succ] at hk; exact .inr ⟨k, u, hk, by omega, hd⟩
      · rintro (⟨hn, hd⟩ | ⟨k, u, hk, hn, hd⟩)
        · exact ⟨0, t, rfl, hn, hd⟩
        · exact ⟨k + 1, u, by rw [List.getElem?_cons_succ]; exact hk, by omega, hd⟩
    rw [split]
    simp only [scaleWarnings]
    split_ifs with h
    · rw [List.mem_cons, ih, Prod.mk.injEq]
      refine or_congr ⟨fun ⟨a, e⟩ => ⟨a, e, e ▸ h⟩, fun ⟨a, e, _⟩ => ⟨a, e⟩⟩ Iff.rfl
    · rw [ih]
      refine ⟨.inr, fun h' => h'.resolve_left ?_⟩
      rintro ⟨-, e, h''⟩
      exact h'' (e ▸ not_not.1 h)

lemma scaleWarnings_cast (s b : ℚ) (l : List ℚ) : ∀ i, (scaleWarnings s b i l).map (fun w => (w.1, (w.2 : ℝ))) = scaleWarnings (s : ℝ) (b : ℝ) i (l.map fun q : ℚ => (q : ℝ)) := by
  induction l with
  | nil => intro i; rfl
  | cons t ts ih =>
    intro i
    have e : (((pyInt ((s : ℝ) * ((b : ℝ) + (t : ℝ))) - pyInt ((s : ℝ) * (b : ℝ)) : ℤ) : ℝ) / (s : ℝ)) = (((((pyInt (s * (b + t)) - pyInt (s * b) : ℤ) : ℚ) / s : ℚ)) : ℝ) := by
      rw [← Rat.cast_add, ← Rat.cast_mul, ← Rat.cast_mul, pyInt_cast, pyInt_cast]; push_cast; rfl
    simp only [scaleWarnings, List.map_cons]
    rw [e]
    by_cases h : t = (((pyInt (s * (b + t)) - pyInt (s * b) : ℤ) : ℚ)) / s
    · rw [if_neg (not_not.2 h), if_neg (not_not.2 (by exact_mod_cast h)), ih]
    · rw [if_pos h, if_pos (fun h' => h (by exact_mod_cast h')), List.map_cons, ih]

lemma gridScaleLoop_eq {s : ℚ} (hs : s ≠ 0) (pml free : ℚ) {vs : List Val} {qs : List ℚ} (h : List.Forall₂ Denotes vs qs) :
    ∀ i, gridScaleLoop s pml free i vs = .ok (scaleWarnings s (pml + free) i qs) := by
  induction h with
  | nil => intro i; rfl
  | cons hv _ ih =>
    intro i
    simp only [gridScaleLoop, num_ok.2 hv, pyDiv, if_neg hs, ih, scaleWarnings, bind, Except.bind, pure, Except.pure]

lemma gridScaleLoop_unit (s pml free : ℚ) (vs : List Val) : ∀ i, (gridScaleLoop s pml free i vs).map (fun _ => ()) =
    forEach vs (fun t => do
      let t ← t.num
      let size := pyInt (s * (pml + free + t)) - pyInt (s * (pml + free))
      let _ ← pyDiv (size : ℚ) s
      Pure.pure ()) := by
  induction vs with
  | nil => intro i; rfl
  | cons v vs ih =>
    intro i
    simp only [gridScaleLoop, forEach, bind, Except.bind, pure, Except.pure]
    cases hv : v.num with
    | error e => rfl
    | ok t =>
      simp only [pyDiv]
      split_ifs with h0
      · rfl
      · have := ih (i + 1)
        simp only [bind, Except.bind, pure, Except.pure, pyDiv, if_neg h0] at this
        simp only [← this]
        cases gridScaleLoop s pml free (i + 1) vs <;> rfl

/-! ### the warnings -/

/-- The warnings belong to `validateConfig`: it does what `gridScaleLog` does and forgets the warnings. -/
theorem C184_model (c : Cfg) : (gridScaleLog c).map (fun _ => ()) = checkGridScale c := by
  unfold gridScaleLog checkGridScale
  simp only [bind, Except.bind]
  cases cfgScaling c with
  | error e => rfl
  | ok s =>
  cases c.get "FDTD_pml_thickness" with
  | error e => rfl
  | ok vp =>
  simp only
  cases vp.num with
  | error e => rfl
  | ok p =>
  cases c.get "FDTD_free_space_distance" with
  | error e => rfl
  | ok vf =>
  simp only
  cases vf.num with
  | error e => rfl
  | ok f =>
  cases c.get "PER_LAYER_THICKNESS" with
  | error e => rfl
  | ok vt =>
  cases vt with
  | list l => exact gridScaleLoop_unit s p f l 0
  | _ => rfl

lemma cfgScaling_reads {c : Cfg} {f : FdtdCfg} (hf : ReadsAs c f) {s : ℝ} (hs : gridScaling f.freq.wlMin f.minGp = .ok s) : ∃ q : ℚ, cfgScaling c = .ok q ∧ s = q := by
  obtain ⟨l, hl, rest, hden⟩ := hf.wavelengths
  obtain ⟨g, ⟨vg, hvg, dg⟩, eg⟩ := hf.minGp
  cases hden with
  | @cons a _ l' _ hab _ =>
  obtain ⟨w, hw, ew⟩ := hab
  unfold gridScaling pyDiv at hs
  rw [ew, eg] at hs
  by_cases hz : (w : ℝ) * 0.1 = 0
  · rw [if_pos hz] at hs; cases hs
  rw [if_neg hz] at hs
  have hs' : max (UNIT_MAGNITUDE / ((w : ℝ) * 0.1)) (g : ℝ) = s := by
    have : Except.ok (max (UNIT_MAGNITUDE / ((w : ℝ) * 0.1)) (g : ℝ)) = (Except.ok s : Except PyErr ℝ) := hs
    injection this
  have hz' : ¬ w * FDTD_GRID_SCALE = 0 := by
    intro h0
    apply hz
    have : ((w * FDTD_GRID_SCALE : ℚ) : ℝ) = 0 := by rw [h0]; norm_num
    unfold FDTD_GRID_SCALE at this
    push_cast at this
    rw [← this]; norm_num
  refine ⟨max ((1 / 1000000 : ℚ) / (w * FDTD_GRID_SCALE)) g, ?_, ?_⟩
  · simp only [cfgScaling, Cfg.get, hl, hvg, Val.index, List.getElem?_cons_zero, num_ok.2 hw, num_ok.2 dg, pyDiv, if_neg hz', bind, Except.bind, pure, Except.pure]
  · rw [← hs']
    unfold UNIT_MAGNITUDE FDTD_GRID_SCALE
    push_cast
    norm_num

lemma forall₂_rat {vs : List Val} {ts : List ℝ} (h : DenotesList vs ts) : ∃ qs : List ℚ, List.Forall₂ Denotes vs qs ∧ qs.map (fun q : ℚ => (q : ℝ)) = ts := by
  induction h with
  | nil => exact ⟨[], .nil, rfl⟩
  | cons h _ ih =>
    obtain ⟨q, hq, e⟩ := h
    obtain ⟨qs, hqs, es⟩ := ih
    exact ⟨q :: qs, .cons hq hqs, by rw [List.map_cons, es, e]⟩

/-- the warnings about a config, in the numbers the solver reads from it -/
lemma gridScaleLog_reads {c : Cfg} {f : FdtdCfg} (hf : ReadsAs c f) {s : ℝ} (hs : gridScaling f.freq.wlMin f.minGp = .ok s) (h0 : s ≠ 0) :
    ∃ w, gridScaleLog c = .ok w ∧ w.map (fun x => (x.1, (x.2 : ℝ))) = scaleWarnings s (f.pml + f.free) 0 f.thick := by
  obtain ⟨q, hq, rfl⟩ := cfgScaling_reads hf hs
  obtain ⟨p, ⟨vp, hvp, dp⟩, ep⟩ := hf.pml
  obtain ⟨d, ⟨vd, hvd, dd⟩, ed⟩ := hf.free
  obtain ⟨l, hl, hden⟩ := hf.thick
  obtain ⟨qs, hqs, es⟩ := forall₂_rat hden
  have hq0 : q ≠ 0 := by exact_mod_cast h0
  refine ⟨scaleWarnings q (p + d) 0 qs, ?_, ?_⟩
  · simp only [gridScaleLog, hq, Cfg.get, hvp, hvd, hl, num_ok.2 dp, num_ok.2 dd, bind, Except.bind]
    exact gridScaleLoop_eq hq0 p d hqs 0
  · rw [scaleWarnings_cast, es, ep, ed]; push_cast; rfl

/-- a difference of cut positions is the length itself iff the length is a whole number of cells -/
lemma cut_exact {s b t : ℝ} (hs : 0 < s) : ((⌊s * (b + t)⌋ - ⌊s * b⌋ : ℤ) : ℝ) / s = t ↔ ∃ z : ℤ, s * t = z := by
  constructor
  · intro h
    exact ⟨_, by rw [← h]; field_simp⟩
  · rintro ⟨z, hz⟩
    rw [mul_add, hz, Int.floor_add_intCast, add_sub_cancel_left, ← hz]
    field_simp

lemma cut_near {s b t : ℝ} : |((⌊s * (b + t)⌋ - ⌊s * b⌋ : ℤ) : ℝ) - s * t| < 1 := by
  have h1 := Int.floor_le (s * (b + t))
  have h2 := Int.lt_floor_add_one (s * (b + t))
  have h3 := Int.floor_le (s * b)
  have h4 := Int.lt_floor_add_one (s * b)
  rw [abs_lt]
  push_cast
  constructor <;> nlinarith

/-- the cells of layer `i` and the warning about it, as cuts at the start of the layer and at the start of the first layer -/
lemma warned_iff {c : Cfg} {f : FdtdCfg} {s : ℝ} (hf : ReadsAs c f) (hs : gridScaling f.freq.wlMin f.minGp = .ok s) (g : GoodGeometry f s) :
    ∃ w, gridScaleLog c = .ok w ∧ ∀ i d, (i, d) ∈ w ↔ ∃ k t, f.thick[k]? = some t ∧ i = k + 1 ∧
      (d : ℝ) = ((⌊s * (f.pml + f.free + t)⌋ - ⌊s * (f.pml + f.free)⌋ : ℤ) : ℝ) / s ∧ ¬ ∃ z : ℤ, s * t = z := by
  obtain ⟨w, hw, e⟩ := gridScaleLog_reads hf hs g.scaling.ne'
  refine ⟨w, hw, fun i d => ?_⟩
  have h1 : (i, d) ∈ w ↔ (i, (d : ℝ)) ∈ w.map (fun x => (x.1, (x.2 : ℝ))) := by
    rw [List.mem_map]
    constructor
    · exact fun h => ⟨_, h, rfl⟩
    · rintro ⟨⟨j, d'⟩, h, e⟩
      simp only [Prod.mk.injEq, Rat.cast_inj] at e
      obtain ⟨rfl, rfl⟩ := e
      exact h
  rw [h1, e, mem_scaleWarnings]
  have hb : 0 < f.pml + f.free := add_pos g.pml g.free
  have cut : ∀ x : ℝ, 0 ≤ x → pyInt (s * x) = ⌊s * x⌋ := fun x hx => if_neg (not_lt.2 (mul_nonneg g.scaling.le hx))
  refine exists_congr fun k => exists_congr fun t => and_congr_right fun hk => ?_
  have ht : 0 < t := g.thick t (List.mem_of_getElem? hk)
  rw [cut _ (add_pos hb ht).le, cut _ hb.le, zero_add]
  refine and_congr_right fun _ => ⟨fun ⟨a, b⟩ => ⟨a, fun h => b ?_⟩, fun ⟨a, b⟩ => ⟨a, fun h => b ?_⟩⟩
  · rw [a]; exact ((cut_exact g.scaling).2 h).symm
  · rw [a] at h; exact (cut_exact g.scaling).1 h.symm

lemma range_cut {f : FdtdCfg} {s : ℝ} (g : GoodGeometry f s) {l : List (ℤ × ℤ)} (hl : layerRanges f s f.thick.length = .ok l) {i : ℕ} {r : ℤ × ℤ} {t : ℝ}
    (hr : l[i]? = some r) (ht : f.thick[i]? = some t) :
    r.2 - r.1 = ⌊s * (f.pml + f.free + (f.thick.take i).sum + t)⌋ - ⌊s * (f.pml + f.free + (f.thick.take i).sum)⌋ := by
  rw [layerRanges_eq f s _ g.layers le_rfl] at hl
  injection hl with hl
  subst hl
  rw [List.getElem?_map, Option.map_eq_some_iff] at hr
  obtain ⟨j, hj, rfl⟩ := hr
  obtain ⟨h1, h2⟩ := List.getElem?_eq_some_iff.1 hj
  rw [List.getElem_range] at h2
  subst h2
  have hp := g.pml
  have hd := g.free
  have hs := g.scaling
  have n1 := take_sum_nonneg f.thick g.thick i
  have n2 := take_sum_nonneg f.thick g.thick (i + 1)
  obtain ⟨h3, h4⟩ := List.getElem?_eq_some_iff.1 ht
  simp only
  rw [pyTrunc_of_nonneg (by positivity), pyTrunc_of_nonneg (by positivity), List.sum_take_succ _ _ h3, h4, ← add_assoc]

/-- C184: validation warns about a layer exactly if the thickness the simulation gives it is not the specified one. -/
theorem C184_warned (c : Cfg) (f : FdtdCfg) (s : ℝ) (hf : ReadsAs c f) (hs : gridScaling f.freq.wlMin f.minGp = .ok s) (g : GoodGeometry f s) :
    ∃ w l, gridScaleLog c = .ok w ∧ layerRanges f s f.thick.length = .ok l ∧ l.length = f.thick.length ∧
      ∀ (i : ℕ) (r : ℤ × ℤ) (t : ℝ), l[i]? = some r → f.thick[i]? = some t → ((∃ d, (i + 1, d) ∈ w) ↔ ((r.2 - r.1 : ℤ) : ℝ) / s ≠ t) := by
  obtain ⟨w, hw, h⟩ := warned_iff hf hs g
  obtain ⟨l, hl, hlen, -⟩ := C59_layers_partial f s g
  refine ⟨w, l, hw, hl, hlen, fun i r t hr ht => ?_⟩
  rw [range_cut g hl hr ht, Ne, cut_exact g.scaling]
  constructor
  · rintro ⟨d, hd⟩
    obtain ⟨k, u, hk, e, -, hz⟩ := (h _ _).1 hd
    obtain rfl : i = k := by omega
    rw [ht] at hk
    cases hk
    exact hz
  · intro hz
    -- the value is the cast of a rational
    obtain ⟨q, -, eq⟩ := cfgScaling_reads hf hs
    refine ⟨((⌊s * (f.pml + f.free + t)⌋ - ⌊s * (f.pml + f.free)⌋ : ℤ) : ℚ) / q, (h _ _).2 ⟨i, t, ht, rfl, ?_, hz⟩⟩
    rw [Rat.cast_div, ← eq, Rat.cast_intCast]

/-- C184: the thickness a warning names is the simulated one for the first layer, and within one cell of it for the others. -/
theorem C184_value_partial (c : Cfg) (f : FdtdCfg) (s : ℝ) (hf : ReadsAs c f) (hs : gridScaling f.freq.wlMin f.minGp = .ok s) (g : GoodGeometry f s) :
    ∃ w l, gridScaleLog c = .ok w ∧ layerRanges f s f.thick.length = .ok l ∧
      ∀ (i : ℕ) (r : ℤ × ℤ) (d : ℚ), l[i]? = some r → (i + 1, d) ∈ w →
        (i = 0 → (d : ℝ) = ((r.2 - r.1 : ℤ) : ℝ) / s) ∧ |(d : ℝ) - ((r.2 - r.1 : ℤ) : ℝ) / s| ≤ 1 / s := by
  obtain ⟨w, hw, h⟩ := warned_iff hf hs g
  obtain ⟨l, hl, -⟩ := C59_layers_partial f s g
  refine ⟨w, l, hw, hl, fun i r d hr hd => ?_⟩
  obtain ⟨k, t, ht, e, hv, -⟩ := (h _ _).1 hd
  obtain rfl : i = k := by omega
  have hc := range_cut g hl hr ht
  rw [hv, hc]
  refine ⟨?_, ?_⟩
  · rintro rfl
    simp
  · have h1 : |((⌊s * (f.pml + f.free + t)⌋ - ⌊s * (f.pml + f.free)⌋ : ℤ) : ℝ) - s * t| < 1 := cut_near
    have h2 : |((⌊s * (f.pml + f.free + (f.thick.take i).sum + t)⌋ - ⌊s * (f.pml + f.free + (f.thick.take i).sum)⌋ : ℤ) : ℝ) - s * t| < 1 := cut_near
    generalize ⌊s * (f.pml + f.free + t)⌋ - ⌊s * (f.pml + f.free)⌋ = a at h1 ⊢
    generalize ⌊s * (f.pml + f.free + (f.thick.take i).sum + t)⌋ - ⌊s * (f.pml + f.free + (f.thick.take i).sum)⌋ = b at h2 ⊢
    rw [abs_lt] at h1 h2
    have h3 : ((a - b : ℤ) : ℝ) < 2 := by push_cast; linarith
    have h4 : (-2 : ℝ) < ((a - b : ℤ) : ℝ) := by push_cast; linarith
    have h5 : a - b < 2 := by exact_mod_cast h3
    have h6 : -2 < a - b := by exact_mod_cast h4
    have h7 : |a - b| ≤ 1 := by rw [abs_le]; omega
    rw [← sub_div, abs_div, abs_of_pos g.scaling]
    refine div_le_div_of_nonneg_right ?_ g.scaling.le
    exact_mod_cast h7

lemma expandThick_mem (f : FdtdCfg) (hn : f.nLayers ≠ 0) (t : ℝ) : t ∈ (expandThick f).thick ↔ t ∈ f.thick := by
  unfold expandThick
  split_ifs with h
  · simp only [List.mem_flatten, List.mem_replicate]
    exact ⟨fun ⟨l, ⟨_, e⟩, m⟩ => e ▸ m, fun m => ⟨_, ⟨hn, rfl⟩, m⟩⟩
  · rfl

/-- C184: validation is silent exactly if every layer is simulated with the specified thickness; one thickness given for all layers is included. -/
theorem C184_silent (c : Cfg) (f : FdtdCfg) (s : ℝ) (hf : ReadsAs c f) (hs : gridScaling f.freq.wlMin f.minGp = .ok s) (hn : 0 < f.nLayers) (g : GoodGeometry (expandThick f) s) :
    ∃ w l, gridScaleLog c = .ok w ∧ layerRanges (expandThick f) s (expandThick f).thick.length = .ok l ∧
      (w = [] ↔ ∀ (i : ℕ) (r : ℤ × ℤ) (t : ℝ), l[i]? = some r → (expandThick f).thick[i]? = some t → ((r.2 - r.1 : ℤ) : ℝ) / s = t) := by
  have hm := expandThick_mem f (by omega)
  have ep : (expandThick f).pml = f.pml ∧ (expandThick f).free = f.free ∧ (expandThick f).gap = f.gap := by unfold expandThick; split_ifs <;> exact ⟨rfl, rfl, rfl⟩
  have g' : GoodGeometry f s := by
    refine ⟨g.scaling, ep.1 ▸ g.pml, ep.2.1 ▸ g.free, ep.2.2 ▸ g.gap, ?_, ?_, fun t ht => g.thick t ((hm t).2 ht)⟩
    · have := g.room; rwa [ep.2.1, ep.2.2] at this
    · obtain ⟨t, ht⟩ := List.exists_mem_of_ne_nil _ g.layers
      exact List.ne_nil_of_mem ((hm t).1 ht)
  obtain ⟨w, hw, h⟩ := warned_iff hf hs g'
  obtain ⟨l, hl, hlen, -⟩ := C59_layers_partial _ s g
  refine ⟨w, l, hw, hl, ?_⟩
  constructor
  · rintro rfl i r t hr ht
    rw [range_cut g hl hr ht, cut_exact g.scaling]
    by_contra hz
    obtain ⟨k, hk⟩ := List.mem_iff_getElem?.1 ((hm t).1 (List.mem_of_getElem? ht))
    obtain ⟨q, -, eq⟩ := cfgScaling_reads hf hs
    have := (h (k + 1) (((⌊s * (f.pml + f.free + t)⌋ - ⌊s * (f.pml + f.free)⌋ : ℤ) : ℚ) / q)).2 ⟨k, t, hk, rfl, by rw [Rat.cast_div, ← eq, Rat.cast_intCast], hz⟩
    simp at this
  · intro hall
    rw [List.eq_nil_iff_forall_not_mem]
    rintro ⟨i, d⟩ hd
    obtain ⟨k, t, hk, -, -, hz⟩ := (h i d).1 hd
    obtain ⟨j, hj⟩ := List.mem_iff_getElem?.1 ((hm t).2 (List.mem_of_getElem? hk))
    have hjl : j < l.length := by rw [hlen]; exact (List.getElem?_eq_some_iff.1 hj).1
    have := hall j _ t (List.getElem?_eq_getElem hjl) hj
    rw [range_cut g hl (List.getElem?_eq_getElem hjl) hj, cut_exact g.scaling] at this
    exact hz this

/-! ### witnesses -/

/-- two layers of one and a half cells -/
def thinCfg : Cfg := (fdtdDefault.set "PER_LAYER_THICKNESS" (.list [.float (3 / 20), .float (3 / 20)])).set "N_layers" (.int 2)

/-- what the solver reads from it -/
noncomputable def thinFdtd : FdtdCfg := { fdtdDefaultWith (3 / 2) 2 [3 / 20, 3 / 20] with nLayers := 2 }

lemma thin_reads : ReadsAs thinCfg thinFdtd :=
  ⟨fdtdDefault_reads.wavelengths, fdtdDefault_reads.nFreq, rfl, fdtdDefault_reads.minGp, fdtdDefault_reads.pml, fdtdDefault_reads.free,
    ⟨_, rfl, .cons ⟨_, .float _, by norm_num⟩ (.cons ⟨_, .float _, by norm_num⟩ .nil)⟩, ⟨_, rfl, Denotes.int 2⟩, fdtdDefault_reads.gap, fdtdDefault_reads.source, rfl, rfl, fdtdDefault_reads.niter⟩

lemma thin_geometry : GoodGeometry thinFdtd 10 := by
  refine ⟨by norm_num, by norm_num [thinFdtd, fdtdDefaultWith], by norm_num [thinFdtd, fdtdDefaultWith], by norm_num [thinFdtd, fdtdDefaultWith], ?_, by simp [thinFdtd, fdtdDefaultWith], ?_⟩
  · norm_num [thinFdtd, fdtdDefaultWith]
  · intro t ht
    simp only [thinFdtd, fdtdDefaultWith, List.mem_cons, List.not_mem_nil, or_false, or_self] at ht
    rw [ht]; norm_num

/-- `C184_warned` and `C184_value_partial` apply to an accepted config with two warnings, `C184_silent` to the default config -/
example : validateConfig thinCfg = .ok () ∧ ReadsAs thinCfg thinFdtd ∧ gridScaling thinFdtd.freq.wlMin thinFdtd.minGp = .ok 10 ∧ GoodGeometry thinFdtd 10 ∧
    gridScaleLog thinCfg = .ok [(1, 1 / 10), (2, 1 / 10)] :=
  ⟨by decide +kernel, thin_reads, scaling_default, thin_geometry, by decide +kernel⟩

example : ReadsAs fdtdDefault (fdtdDefaultWith (3 / 2) 2 [1]) ∧ gridScaling (1 / 1000000) 10 = .ok 10 ∧ GoodGeometry (expandThick (fdtdDefaultWith (3 / 2) 2 [1])) 10 ∧ gridScaleLog fdtdDefault = .ok [] :=
  ⟨fdtdDefault_reads, scaling_default, default_geometry, by decide +kernel⟩

lemma trunc_int (z : ℤ) : pyTrunc (z : ℝ) = z := by unfold pyTrunc; split_ifs <;> simp

/-- C184 is false of the named thickness: of two layers of 0.15 µm and a cell of 0.1 µm, both are said to be set to 0.1 µm, but the second one gets the cells 26 and 27, which are 0.2 µm. -/
theorem C184_value_false :
    ∃ c f, validateConfig c = .ok () ∧ ReadsAs c f ∧ gridScaling f.freq.wlMin f.minGp = .ok 10 ∧
      gridScaleLog c = .ok [(1, 1 / 10), (2, 1 / 10)] ∧ layerRanges f 10 2 = .ok [(25, 26), (26, 28)] := by
  refine ⟨thinCfg, thinFdtd, by decide +kernel, thin_reads, scaling_default, by decide +kernel, ?_⟩
  rw [layerRanges_eq _ 10 2 (by simp [thinFdtd, fdtdDefaultWith]) (by simp [thinFdtd, fdtdDefaultWith])]
  have e : List.range 2 = [0, 1] := rfl
  rw [e]
  simp only [List.map_cons, List.map_nil]
  have h26 : pyTrunc ((53 / 2 : ℝ)) = 26 := by rw [pyTrunc_of_nonneg (by norm_num), Int.floor_eq_iff]; norm_num
  rw [show (10 : ℝ) * (thinFdtd.pml + thinFdtd.free + (thinFdtd.thick.take 0).sum) = ((25 : ℤ) : ℝ) by norm_num [thinFdtd, fdtdDefaultWith],
    show (10 : ℝ) * (thinFdtd.pml + thinFdtd.free + (thinFdtd.thick.take (0 + 1)).sum) = 53 / 2 by norm_num [thinFdtd, fdtdDefaultWith],
    show (10 : ℝ) * (thinFdtd.pml + thinFdtd.free + (thinFdtd.thick.take (1 + 1)).sum) = ((28 : ℤ) : ℝ) by norm_num [thinFdtd, fdtdDefaultWith], h26, trunc_int, trunc_int]

/-- C184 is false of layers that share one thickness: of eight layers of 0.15 µm only the first is warned about, though the second is simulated with 0.2 µm. -/
theorem C184_repeated_false :
    ∃ c f l, validateConfig c = .ok () ∧ ReadsAs c f ∧ gridScaling f.freq.wlMin f.minGp = .ok 10 ∧ (expandThick f).thick = List.replicate 8 (3 / 20) ∧
      gridScaleLog c = .ok [(1, 1 / 10)] ∧ layerRanges (expandThick f) 10 8 = .ok l ∧ l[1]? = some (26, 28) := by
  have e : expandThick (fdtdDefaultWith (3 / 2) 2 [3 / 20]) = fdtdDefaultWith (3 / 2) 2 (List.replicate 8 (3 / 20)) := rfl
  refine ⟨fdtdDefault.set "PER_LAYER_THICKNESS" (.list [.float (3 / 20)]), fdtdDefaultWith (3 / 2) 2 [3 / 20], _, by decide +kernel,
    ⟨fdtdDefault_reads.wavelengths, fdtdDefault_reads.nFreq, rfl, fdtdDefault_reads.minGp, fdtdDefault_reads.pml, fdtdDefault_reads.free, ⟨_, rfl, .cons ⟨_, .float _, by norm_num⟩ .nil⟩,
      fdtdDefault_reads.nLayers, fdtdDefault_reads.gap, fdtdDefault_reads.source, rfl, rfl, fdtdDefault_reads.niter⟩, scaling_default, rfl, by decide +kernel,
    layerRanges_eq _ 10 8 (by rw [e]; simp [fdtdDefaultWith]) (by rw [e]; simp [fdtdDefaultWith]), ?_⟩
  rw [e, List.getElem?_map]
  have h26 : pyTrunc ((53 / 2 : ℝ)) = 26 := by rw [pyTrunc_of_nonneg (by norm_num), Int.floor_eq_iff]; norm_num
  have h1 : (List.range 8)[1]? = some 1 := rfl
  rw [h1, Option.map_some]
  rw [show (10 : ℝ) * ((fdtdDefaultWith (3 / 2) 2 (List.replicate 8 (3 / 20))).pml + (fdtdDefaultWith (3 / 2) 2 (List.replicate 8 (3 / 20))).free +
      ((fdtdDefaultWith (3 / 2) 2 (List.replicate 8 (3 / 20))).thick.take 1).sum) = 53 / 2 by norm_num [fdtdDefaultWith, List.replicate],
    show (10 : ℝ) * ((fdtdDefaultWith (3 / 2) 2 (List.replicate 8 (3 / 20))).pml + (fdtdDefaultWith (3 / 2) 2 (List.replicate 8 (3 / 20))).free +
      ((fdtdDefaultWith (3 / 2) 2 (List.replicate 8 (3 / 20))).thick.take (1 + 1)).sum) = ((28 : ℤ) : ℝ) by norm_num [fdtdDefaultWith, List.replicate], h26, trunc_int]

end Nidn
