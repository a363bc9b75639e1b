/-
Properties C05 - C10: config validation.
-/
import Verif.Lemmas.Config
import Verif.Spec.Config
import Mathlib.Tactic.Linarith
import Mathlib.Tactic.IntervalCases
import Mathlib.Tactic.Tauto
import Mathlib.Tactic.NormNum

namespace Nidn

/-! ## Inversion lemmas -/

lemma num_ok {v : Val} {x : ℚ} : v.num = .ok x ↔ Denotes v x := by
  constructor
  · intro h
    rcases v with z | q | (_ | _) | s | l | _ <;>
      simp only [Val.num, Except.ok.injEq, reduceCtorEq, if_true, Bool.false_eq_true, if_false] at h <;>
      subst h <;> constructor
  · intro h; cases h <;> rfl

lemma num_err {v : Val} {e : PyErr} (h : v.num = .error e) : e = .typeError := by
  cases v <;> simp_all [Val.num]

lemma validate_ok {c : Cfg} : validateConfig c = .ok () ↔
    checkForKeys c = .ok () ∧ checkEntryTypes c = .ok () ∧ checkValueRanges c = .ok () ∧
    ∃ s, c.lookup "solver" = some s ∧ (s.eqStr "FDTD" = true → checkGridScale c = .ok ()) := by
  unfold validateConfig
  simp only [bind_ok, get_ok]
  constructor
  · rintro ⟨_, h1, _, h2, _, h3, s, h4, h5⟩
    refine ⟨h1, h2, h3, s, h4, fun hs => ?_⟩
    simpa [hs] using h5
  · rintro ⟨h1, h2, h3, s, h4, h5⟩
    refine ⟨(), h1, (), h2, (), h3, s, h4, ?_⟩
    by_cases hs : s.eqStr "FDTD" = true
    · simp [hs, h5 hs]
    · simp [hs, pure, Except.pure]

/-! ## C05 keys -/

/-- C05: an accepted config contains every key of the default config file, and every key it contains is one of those or one of the
ten runtime keys. -/
theorem C05_keys (c : Cfg) (h : validateConfig c = .ok ()) :
    (∀ k ∈ defaultConfig.keys, ∃ v, c.lookup k = some v) ∧
    ∀ k ∈ c.keys, k ∈ defaultConfig.keys ∨
      k ∈ ["target_frequencies", "FDTD_grid", "model", "out_features", "results", "best_model_state_dict",
        "material_collection", "N_materials", "thicknesses", "FDTD_grid_scaling"] := by
  have hd : ∀ k ∈ defaultConfig.keys, k ∈ requiredKeys := by decide +kernel
  have hd' : ∀ k ∈ requiredKeys, k ∈ defaultConfig.keys := by decide +kernel
  have h := (validate_ok.1 h).1
  simp only [checkForKeys, bind_ok, forEach_ok, require_ok] at h
  obtain ⟨_, h1, h2⟩ := h
  constructor
  · intro k hk; exact keys_contains_iff.1 (h1 k (hd k hk))
  · intro k hk
    have := h2 k hk
    simp only [Bool.or_eq_true, List.contains_iff_mem] at this
    rcases this with h | h
    · exact .inl (hd' k h)
    · exact .inr h

/-- C05: a missing key or an unknown key is reported as KeyError, whatever the other entries are. -/
theorem C05_bad_keys_rejected (c : Cfg)
    (h : (∃ k ∈ defaultConfig.keys, c.lookup k = none) ∨ ∃ k ∈ c.keys, k ∉ defaultConfig.keys ∧ k ∉ optionalKeys) :
    validateConfig c = .error .keyError := by
  have hd : ∀ k ∈ defaultConfig.keys, k ∈ requiredKeys := by decide +kernel
  have hd' : ∀ k ∈ requiredKeys, k ∈ defaultConfig.keys := by decide +kernel
  have key : checkForKeys c = .error .keyError := by
    cases hc : checkForKeys c with
    | ok u =>
      simp only [checkForKeys, bind_ok, forEach_ok, require_ok] at hc
      obtain ⟨_, h1, h2⟩ := hc
      rcases h with ⟨k, hk, hn⟩ | ⟨k, hk, hn1, hn2⟩
      · obtain ⟨v, hv⟩ := keys_contains_iff.1 (h1 k (hd k hk)); simp [hn] at hv
      · have := h2 k hk
        simp only [Bool.or_eq_true, List.contains_iff_mem] at this
        rcases this with h | h
        · exact absurd (hd' k h) hn1
        · exact absurd h hn2
    | error e =>
      simp only [checkForKeys, bind_err] at hc
      rcases hc with hc | ⟨_, _, hc⟩
      · obtain ⟨k, _, hk⟩ := forEach_err hc; rw [(require_err.1 hk).2]
      · obtain ⟨k, _, hk⟩ := forEach_err hc; rw [(require_err.1 hk).2]
  simp [validateConfig, key, bind, Except.bind]

/-- The default config is accepted, so the hypotheses of the theorems of this file are satisfiable. -/
theorem default_config_accepted : validateConfig defaultConfig = .ok () := by decide +kernel

/-- So is the default config with the FDTD solver. -/
theorem default_config_fdtd_accepted :
    validateConfig (defaultConfig.set "solver" (.str "FDTD")) = .ok () := by decide +kernel

example : validateConfig (defaultConfig.set "unknown_key" (.int 1)) = .error .keyError :=
  C05_bad_keys_rejected _ (.inr ⟨"unknown_key", by decide +kernel⟩)

example : validateConfig (defaultConfig.tail) = .error .keyError :=
  C05_bad_keys_rejected _ (.inl ⟨"name", by decide +kernel, by rfl⟩)

/-! ## C06 types -/

lemma checkType_ok {c : Cfg} {p : Val → Bool} {k : String} {u : Unit} :
    checkType c p k = .ok u ↔ ∃ v, c.lookup k = some v ∧ p v = true := by
  simp [checkType, bind_ok, get_ok, require_ok]

lemma types_ok {c : Cfg} (h : validateConfig c = .ok ()) :
    (∀ k ∈ integerKeys, ∃ v, c.lookup k = some v ∧ v.isInt) ∧
    (∀ k ∈ floatKeys, ∃ v, c.lookup k = some v ∧ v.isFloat) ∧
    (∀ k ∈ booleanKeys, ∃ v, c.lookup k = some v ∧ v.isBool) ∧
    (∀ k ∈ stringKeys, ∃ v, c.lookup k = some v ∧ v.isStr) ∧
    (∀ k ∈ listKeys, ∃ v, c.lookup k = some v ∧ v.isList) := by
  have h := (validate_ok.1 h).2.1
  simp only [checkEntryTypes, bind_ok, forEach_ok, checkType_ok] at h
  obtain ⟨_, h1, _, h2, _, h3, _, h4, h5⟩ := h
  exact ⟨h1, h2, h3, h4, h5⟩

/-- C06 (missing: booleans pass as integers; `hidden_layers` and `absorption_loss` are never looked at; `iterations` and `learning_rate`
may be any number): in an accepted config the listed integer settings are ints or bools, and float, boolean, string and list settings
have exactly their type; `learning_rate` and `iterations` are numbers. -/
theorem C06_types_partial (c : Cfg) (h : validateConfig c = .ok ()) :
    (∀ k ∈ ["Nx", "Ny", "N_layers", "N_freq", "encoding_dim", "n_neurons", "eps_oversampling", "seed", "TRCWA_NG", "FDTD_niter",
        "FDTD_gridpoints_from_material_to_detector", "FDTD_min_gridpoints_per_unit_magnitude"],
      (∃ z, c.lookup k = some (.int z)) ∨ ∃ b, c.lookup k = some (.bool b)) ∧
    (∀ k ∈ ["L", "real_min_eps", "real_max_eps", "imag_min_eps", "imag_max_eps", "siren_omega", "noise_scale", "reg_loss_weight",
        "TRCWA_TOP_LAYER_EPS", "TRCWA_BOTTOM_LAYER_EPS", "FDTD_free_space_distance", "FDTD_pml_thickness"],
      ∃ x, c.lookup k = some (.float x)) ∧
    (∀ k ∈ ["use_regularization_loss", "add_noise", "use_gpu", "avoid_zero_eps"], ∃ b, c.lookup k = some (.bool b)) ∧
    (∀ k ∈ ["model_type", "type", "name", "freq_distribution", "solver", "FDTD_source_type", "FDTD_pulse_type"],
      ∃ s, c.lookup k = some (.str s)) ∧
    (∀ k ∈ ["PER_LAYER_THICKNESS", "TRCWA_L_grid", "FDTD_source_position", "target_reflectance_spectrum",
        "target_transmittance_spectrum", "physical_wavelength_range"], ∃ l, c.lookup k = some (.list l)) ∧
    (∀ k ∈ ["learning_rate", "iterations"], ∃ x, SetTo c k x) := by
  obtain ⟨h1, h2, h3, h4, h5⟩ := types_ok h
  refine ⟨?_, ?_, ?_, ?_, ?_, ?_⟩
  · intro k hk; obtain ⟨v, hv, hp⟩ := h1 k hk; cases v <;> simp_all [Val.isInt]
  · intro k hk; obtain ⟨v, hv, hp⟩ := h2 k hk; cases v <;> simp_all [Val.isFloat]
  · intro k hk; obtain ⟨v, hv, hp⟩ := h3 k hk; cases v <;> simp_all [Val.isBool]
  · intro k hk; obtain ⟨v, hv, hp⟩ := h4 k hk; cases v <;> simp_all [Val.isStr]
  · intro k hk; obtain ⟨v, hv, hp⟩ := h5 k hk; cases v <;> simp_all [Val.isList]
  · intro k hk
    have h := (validate_ok.1 h).2.2.1
    simp only [checkValueRanges, bind_ok, forEach_ok] at h
    obtain ⟨_, _, _, _, _, _, _, _, _, _, _, _, _, _, _, _, _, _, _, _, _, _, _, _, _, hpos, _⟩ := h
    have hk' : k ∈ positiveValueKeys := by
      simp only [List.mem_cons, List.not_mem_nil, or_false] at hk
      rcases hk with rfl | rfl <;> decide
    have := hpos k hk'
    simp only [checkPositive, bind_ok, get_ok, num_ok] at this
    obtain ⟨v, hv, x, hx, _⟩ := this
    exact ⟨x, v, hv, hx⟩

/-- C06 is false of the code: a boolean is accepted for an integer setting, and a string is accepted for `hidden_layers`
(which is used as a number of layers later). -/
theorem C06_well_typed_false :
    (∃ c, validateConfig c = .ok () ∧ c.lookup "seed" = some (.bool true)) ∧
    (∃ c s, validateConfig c = .ok () ∧ c.lookup "hidden_layers" = some (.str s)) := by
  refine ⟨⟨defaultConfig.set "seed" (.bool true), by decide +kernel, by rfl⟩,
    ⟨defaultConfig.set "hidden_layers" (.str "nine"), "nine", by decide +kernel, by rfl⟩⟩

/-! ## C07 ranges -/

lemma eqStr_iff {v : Val} {s : String} : v.eqStr s = true ↔ v = .str s := by
  cases v <;> simp [Val.eqStr]

lemma isInt_denotes {v : Val} (h : v.isInt) : ∃ z : ℤ, Denotes v z := by
  cases v with
  | int z => exact ⟨z, .int z⟩
  | bool b => exact ⟨if b then 1 else 0, by cases b <;> simp <;> constructor⟩
  | _ => simp [Val.isInt] at h

lemma denotes_unique {v : Val} {x y : ℚ} (h : Denotes v x) (h' : Denotes v y) : x = y := by
  cases h <;> cases h' <;> rfl

lemma multipleOf_ok {c : Cfg} {a b : String} (h : multipleOf c a b = .ok true) :
    ∃ x y : ℤ, SetTo c a x ∧ SetTo c b y ∧ y ∣ x := by
  simp only [multipleOf, bind_ok, get_ok] at h
  obtain ⟨v, hv, w, hw, h⟩ := h
  cases v <;> cases w <;>
    simp only [pure, Except.pure, Except.ok.injEq, decide_eq_true_eq, reduceCtorEq] at h
  · rename_i x y
    exact ⟨x, y, ⟨_, hv, .int x⟩, ⟨_, hw, .int y⟩, Int.dvd_of_emod_eq_zero h⟩
  · rename_i x y
    exact ⟨x, if y then 1 else 0, ⟨_, hv, .int x⟩, ⟨_, hw, by cases y <;> simp <;> constructor⟩,
      Int.dvd_of_emod_eq_zero h⟩
  · rename_i x y
    exact ⟨if x then 1 else 0, y, ⟨_, hv, by cases x <;> simp <;> constructor⟩, ⟨_, hw, .int y⟩,
      Int.dvd_of_emod_eq_zero h⟩
  · rename_i x y
    exact ⟨if x then 1 else 0, if y then 1 else 0, ⟨_, hv, by cases x <;> simp <;> constructor⟩,
      ⟨_, hw, by cases y <;> simp <;> constructor⟩, Int.dvd_of_emod_eq_zero h⟩

lemma leKeys_ok {c : Cfg} {a b : String} (h : leKeys c a b = .ok true) :
    ∃ x y, SetTo c a x ∧ SetTo c b y ∧ x ≤ y := by
  simp only [leKeys, bind_ok, get_ok, num_ok, pure, Except.pure, Except.ok.injEq, decide_eq_true_eq] at h
  obtain ⟨v, hv, x, hx, w, hw, y, hy, h⟩ := h
  exact ⟨x, y, ⟨v, hv, hx⟩, ⟨w, hw, hy⟩, h⟩

/-- C07: every accepted config has its scalar ranges in order. -/
theorem C07_ranges (c : Cfg) (h : validateConfig c = .ok ()) : RangesOk c := by
  obtain ⟨hi, -, -, -, hl⟩ := types_ok h
  have h := (validate_ok.1 h).2.2.1
  simp only [checkValueRanges, bind_ok, forEach_ok, require_ok, get_ok] at h
  obtain ⟨_, h1, _, rfl, _, h2, _, rfl, _, h3, _, rfl, sc, hsc, vf, hvf, free, hfree, vg, hvg, g, hg, _, h4, _, hpos,
    _, h5, _, rfl, _, h6, _, rfl, ty, hty, _, htyo, _, _, _, _, _, _, _, _, _, _, _, _, _, _, _, _, _, _, _, _, _, h9, _, rfl,
    fd, hfd, _, hfdo, vsp, hvsp, sp, hsp, _, hspo, st, hst, _, hsto, pt, hpt, hpto⟩ := h
  have pos : ∀ k ∈ positiveValueKeys, ∃ x, SetTo c k x ∧ 0 < x := by
    intro k hk
    have := hpos k hk
    simp only [checkPositive, bind_ok, get_ok, num_ok, require_ok, decide_eq_true_eq] at this
    obtain ⟨v, hv, x, hx, hx'⟩ := this
    exact ⟨x, ⟨v, hv, hx⟩, hx'⟩
  refine ⟨leKeys_ok h1, leKeys_ok h2, ?_, pos, ?_, ?_, ?_, ?_, ?_, ?_, ?_⟩
  · -- wavelengths
    obtain ⟨vl, hvl, hvl'⟩ := hl "physical_wavelength_range" (by decide)
    cases vl <;> simp only [Val.isList, Bool.false_eq_true] at hvl'
    rename_i l
    simp only [wlOrdered, bind_ok, get_ok] at h3
    obtain ⟨w, hw, x, hx, y, hy, hxy⟩ := h3
    rw [hvl] at hw; cases hw
    simp only [cfgScaling, bind_ok, get_ok] at hsc
    obtain ⟨w, hw, x', hx', a, ha, _⟩ := hsc
    rw [hvl] at hw; cases hw
    rw [hx] at hx'; cases hx'
    rw [num_ok] at ha
    match l, hx, hy with
    | [], hx, _ => simp [Val.index] at hx
    | [_], _, hy => simp [Val.index] at hy
    | p :: q :: rest, hx, hy =>
      simp only [Val.index, List.getElem?_cons_zero, List.getElem?_cons_succ, Except.ok.injEq] at hx hy
      subst hx hy
      have : ∃ b, q.num = .ok b ∧ a < b := by
        cases ha <;> cases q <;>
          simp only [Val.lt, Val.num, bind, Except.bind, pure, Except.pure, Except.ok.injEq, decide_eq_true_eq,
            reduceCtorEq] at hxy ⊢ <;> exact ⟨_, rfl, hxy⟩
      obtain ⟨b, hb, hab⟩ := this
      exact ⟨p, q, rest, a, b, hvl, ha, num_ok.1 hb, hab⟩
  · obtain ⟨x, s, hx, hs, d1⟩ := multipleOf_ok h5
    obtain ⟨y, s', hy, hs', d2⟩ := multipleOf_ok h6
    obtain ⟨v, hv, dv⟩ := hs
    obtain ⟨v', hv', dv'⟩ := hs'
    rw [hv] at hv'; cases hv'
    have e : s = s' := by exact_mod_cast denotes_unique dv dv'
    subst e
    obtain ⟨t, ⟨w, hw, dw⟩, ht⟩ := pos "eps_oversampling" (by decide)
    rw [hv] at hw; cases hw
    have e := denotes_unique dv dw
    refine ⟨x, y, s, hx, hy, ⟨v, hv, dv⟩, ?_, d1, d2⟩
    rw [← e] at ht; exact_mod_cast ht
  · obtain ⟨vl, hvl, hvl'⟩ := hl "PER_LAYER_THICKNESS" (by decide)
    cases vl <;> simp only [Val.isList, Bool.false_eq_true] at hvl'
    rename_i l
    obtain ⟨vn, hvn, hvn'⟩ := hi "N_layers" (by decide)
    obtain ⟨n, hn⟩ := isInt_denotes hvn'
    simp only [thicknessLenOk, bind_ok, get_ok, pure, Except.pure, Except.ok.injEq, Bool.or_eq_true,
      decide_eq_true_eq] at h9
    obtain ⟨w, hw, m, hm, u, hu, x, hx, h9⟩ := h9
    rw [hvl] at hw; cases hw
    rw [hvn] at hu; cases hu
    simp only [Val.len, Except.ok.injEq] at hm; subst hm
    have e := denotes_unique hn (num_ok.1 hx)
    refine ⟨l, n, hvl, ⟨vn, hvn, hn⟩, ?_⟩
    rw [← e] at h9
    rcases h9 with h9 | h9
    · left; exact_mod_cast h9
    · right; exact h9
  · simp only [Bool.or_eq_true, eqStr_iff] at htyo
    rcases htyo with rfl | rfl
    · exact ⟨_, by simp, hty⟩
    · exact ⟨_, by simp, hty⟩
  · simp only [Bool.or_eq_true, eqStr_iff] at hfdo
    rcases hfdo with rfl | rfl
    · exact ⟨_, by simp, hfd⟩
    · exact ⟨_, by simp, hfd⟩
  · simp only [Bool.or_eq_true, eqStr_iff] at hsto
    rcases hsto with rfl | rfl
    · exact ⟨_, by simp, hst⟩
    · exact ⟨_, by simp, hst⟩
  · simp only [Bool.or_eq_true, eqStr_iff] at hpto
    rcases hpto with (rfl | rfl) | rfl
    · exact ⟨_, by simp, hpt⟩
    · exact ⟨_, by simp, hpt⟩
    · exact ⟨_, by simp, hpt⟩
  · obtain ⟨vl, hvl, hvl'⟩ := hl "FDTD_source_position" (by decide)
    cases vl <;> simp only [Val.isList, Bool.false_eq_true] at hvl'
    rename_i l
    rw [hvl] at hvsp; cases hvsp
    simp only [Val.len, Except.ok.injEq] at hsp; subst hsp
    simp only [Bool.or_eq_true, decide_eq_true_eq] at hspo
    exact ⟨l, hvl, hspo⟩

example : RangesOk defaultConfig := C07_ranges _ default_config_accepted

/-! ## C08 list entries -/

/-- C08 is false of the code: configs with a negative layer thickness, a negative target reflectance, a negative lattice entry and a
negative source position are all accepted (`all(xs) > 0.0` compares a truth value with 0). -/
theorem C08_list_entries_false :
    (∃ c, validateConfig c = .ok () ∧ c.lookup "PER_LAYER_THICKNESS" = some (.list [.float (-1)])) ∧
    (∃ c, validateConfig c = .ok () ∧ c.lookup "target_reflectance_spectrum" = some (.list [.float (-1)])) ∧
    (∃ c, validateConfig c = .ok () ∧ c.lookup "target_transmittance_spectrum" = some (.list [.float (-1)])) ∧
    (∃ c, validateConfig c = .ok () ∧ c.lookup "TRCWA_L_grid" =
      some (.list [.list [.float 1, .float (-5)], .list [.float (-5), .float 1]])) ∧
    (∃ c, validateConfig c = .ok () ∧ c.lookup "FDTD_source_position" = some (.list [.float (-1), .float 1])) :=
  ⟨⟨defaultConfig.set "PER_LAYER_THICKNESS" (.list [.float (-1)]), by decide +kernel, by rfl⟩,
   ⟨defaultConfig.set "target_reflectance_spectrum" (.list [.float (-1)]), by decide +kernel, by rfl⟩,
   ⟨defaultConfig.set "target_transmittance_spectrum" (.list [.float (-1)]), by decide +kernel, by rfl⟩,
   ⟨defaultConfig.set "TRCWA_L_grid" (.list [.list [.float 1, .float (-5)], .list [.float (-5), .float 1]]),
     by decide +kernel, by rfl⟩,
   ⟨defaultConfig.set "FDTD_source_position" (.list [.float (-1), .float 1]), by decide +kernel, by rfl⟩⟩

lemma truthy_nonzero {v : Val} {x : ℚ} (h : v.truthy = true) (hx : Denotes v x) : x ≠ 0 := by
  cases hx <;> simp_all [Val.truthy]

/-- C08 (missing: negative entries are accepted, and for the target spectra and the nested lattice nothing is checked): in an accepted
config no thickness and no source coordinate is zero, and the two lattice rows are ordered as documented whenever they are numeric. -/
theorem C08_no_zero_entries_partial (c : Cfg) (h : validateConfig c = .ok ()) :
    (∀ k ∈ ["PER_LAYER_THICKNESS", "FDTD_source_position"], ∃ l, c.lookup k = some (.list l) ∧
      ∀ v ∈ l, ∀ x, Denotes v x → x ≠ 0) ∧
    (∀ a b d e : Val, ∀ x y z w : ℚ, ∀ r1 r2 r3, c.lookup "TRCWA_L_grid" = some (.list (.list (a :: b :: r1) :: .list (d :: e :: r2) :: r3)) →
      Denotes a x → Denotes b y → Denotes d z → Denotes e w → y < x ∧ z < w) := by
  obtain ⟨-, -, -, -, hl⟩ := types_ok h
  have h := (validate_ok.1 h).2.2.1
  simp only [checkValueRanges, bind_ok, forEach_ok, require_ok, get_ok] at h
  obtain ⟨_, h1, _, rfl, _, h2, _, rfl, _, h3, _, rfl, sc, hsc, vf, hvf, free, hfree, vg, hvg, g, hg, _, h4, _, hpos,
    _, h5, _, rfl, _, h6, _, rfl, ty, hty, _, htyo, g10, hg10, g11, hg11, _, hlt1, _, rfl, g01, hg01, g00, hg00, _, hlt0, _, rfl,
    _, hall, _⟩ := h
  constructor
  · intro k hk
    have hk' : k ∈ ["TRCWA_L_grid", "PER_LAYER_THICKNESS", "FDTD_grid", "FDTD_source_position"] := by
      simp only [List.mem_cons, List.not_mem_nil, or_false] at hk ⊢; tauto
    have hkl : k ∈ listKeys := by
      simp only [List.mem_cons, List.not_mem_nil, or_false] at hk
      rcases hk with rfl | rfl <;> decide
    obtain ⟨vl, hvl, hvl'⟩ := hl k hkl
    cases vl <;> simp only [Val.isList, Bool.false_eq_true] at hvl'
    rename_i l
    refine ⟨l, hvl, ?_⟩
    have := hall k hk'
    rw [checkAllPositive, if_pos (keys_contains_iff.2 ⟨_, hvl⟩)] at this
    simp only [bind_ok, get_ok, require_ok, decide_eq_true_eq] at this
    obtain ⟨v, hv, b, hb, hb'⟩ := this
    rw [hvl] at hv; cases hv
    simp only [Val.all, Except.ok.injEq] at hb
    have hbt : b = true := by by_contra hc; simp [hc] at hb'
    rw [hbt, List.all_eq_true] at hb
    intro v hv x hx
    exact truthy_nonzero (hb v hv) hx
  · intro a b d e x y z w r1 r2 r3 hg hx hy hz hw
    simp only [lGrid, bind_ok, get_ok, hg, Option.some.injEq, exists_eq_left', Val.index,
      List.getElem?_cons_zero, List.getElem?_cons_succ, Except.ok.injEq] at hg10 hg11 hg01 hg00
    subst hg10 hg11 hg01 hg00
    constructor
    · cases hx <;> cases hy <;> set_option linter.unnecessarySimpa false in simpa [Val.lt, Val.num, bind, Except.bind, pure, Except.pure] using hlt0
    · cases hz <;> cases hw <;> set_option linter.unnecessarySimpa false in simpa [Val.lt, Val.num, bind, Except.bind, pure, Except.pure] using hlt1

/-! ## C09 solver and model names -/

/-- C09 is false of the code: a config with an unknown solver is accepted and the spectrum is silently `None`; one with an unknown
model type is accepted and the network construction then raises NotImplementedError. -/
theorem C09_known_names_false :
    (∃ c, validateConfig c = .ok () ∧ ∀ (α : Type) (fdtd trcwa : Cfg → Except PyErr α), computeSpectrum fdtd trcwa c = .ok none) ∧
    (∃ c, validateConfig c = .ok () ∧ initNetworkKind c = .error .notImplementedError) := by
  refine ⟨⟨defaultConfig.set "solver" (.str "trcwa"), by decide +kernel, ?_⟩,
    ⟨defaultConfig.set "model_type" (.str "mlp"), by decide +kernel, by decide +kernel⟩⟩
  intro α fdtd trcwa
  have h : validateConfig (defaultConfig.set "solver" (.str "trcwa")) = .ok () := by decide +kernel
  have hs : Cfg.get (defaultConfig.set "solver" (.str "trcwa")) "solver" = .ok (.str "trcwa") := by rfl
  simp [computeSpectrum, h, hs, bind, Except.bind, Val.eqStr, pure, Except.pure]

/-- C09 (missing: validation does not force the name to be known): for an accepted config `compute_spectrum` runs exactly the solver that is
named, with its result or its error, and returns `None` precisely when the name is neither of the two. -/
theorem C09_dispatch_partial {α : Type} (fdtd trcwa : Cfg → Except PyErr α) (c : Cfg) (h : validateConfig c = .ok ()) :
    ∃ s, c.lookup "solver" = some (.str s) ∧
      (s = "FDTD" → computeSpectrum fdtd trcwa c = (fdtd c).map some) ∧
      (s = "TRCWA" → computeSpectrum fdtd trcwa c = (trcwa c).map some) ∧
      (s ≠ "FDTD" → s ≠ "TRCWA" → computeSpectrum fdtd trcwa c = .ok none) := by
  obtain ⟨-, -, -, hs, -⟩ := types_ok h
  obtain ⟨v, hv, hv'⟩ := hs "solver" (by decide)
  cases v <;> simp only [Val.isStr, Bool.false_eq_true] at hv'
  rename_i s
  have hg : c.get "solver" = .ok (.str s) := get_ok.2 hv
  refine ⟨s, hv, ?_, ?_, ?_⟩
  · rintro rfl
    simp [computeSpectrum, h, hg, bind, Except.bind, Val.eqStr, Functor.map]
  · rintro rfl
    simp [computeSpectrum, h, hg, bind, Except.bind, Val.eqStr, Functor.map]
  · intro h1 h2
    simp [computeSpectrum, h, hg, bind, Except.bind, Val.eqStr, h1, h2, pure, Except.pure]

end Nidn
