/-
C88: validation accepts every config that is in order. C89: no solver sees an invalid config, and the named network is built.
-/
import Verif.Props.Config
import Mathlib.Tactic.Ring

namespace Nidn

/-! ### C88 -/

/-- the value is a number that is not zero -/
def NonZero (v : Val) : Prop := ∃ x, Denotes v x ∧ x ≠ 0

/-- specification of a config in order: all keys of the default config and no unknown ones, documented types and ranges, the reflection detector inside the free space, an ordered lattice, no zero thickness or source coordinate -/
structure ConfigInOrder (c : Cfg) : Prop where
  present : ∀ k ∈ defaultConfig.keys, ∃ v, c.lookup k = some v
  known : ∀ k ∈ c.keys, k ∈ defaultConfig.keys ∨
    k ∈ ["target_frequencies", "model", "out_features", "results", "best_model_state_dict", "material_collection", "N_materials", "thicknesses", "FDTD_grid_scaling"]
  ints : ∀ k ∈ ["Nx", "Ny", "N_layers", "N_freq", "encoding_dim", "n_neurons", "eps_oversampling", "seed", "TRCWA_NG", "FDTD_niter", "FDTD_gridpoints_from_material_to_detector",
    "FDTD_min_gridpoints_per_unit_magnitude"], ∃ z, c.lookup k = some (.int z)
  floats : ∀ k ∈ ["L", "real_min_eps", "real_max_eps", "imag_min_eps", "imag_max_eps", "siren_omega", "noise_scale", "reg_loss_weight", "TRCWA_TOP_LAYER_EPS", "TRCWA_BOTTOM_LAYER_EPS",
    "FDTD_free_space_distance", "FDTD_pml_thickness"], ∃ x, c.lookup k = some (.float x)
  bools : ∀ k ∈ ["use_regularization_loss", "add_noise", "use_gpu", "avoid_zero_eps"], ∃ b, c.lookup k = some (.bool b)
  strings : ∀ k ∈ ["model_type", "type", "name", "freq_distribution", "solver", "FDTD_source_type", "FDTD_pulse_type"], ∃ s, c.lookup k = some (.str s)
  targets : ∀ k ∈ ["target_reflectance_spectrum", "target_transmittance_spectrum"], ∃ l, c.lookup k = some (.list l)
  ranges : RangesOk c
  thicknesses : ∃ l, c.lookup "PER_LAYER_THICKNESS" = some (.list l) ∧ ∀ v ∈ l, NonZero v
  position : ∃ l, c.lookup "FDTD_source_position" = some (.list l) ∧ ∀ v ∈ l, NonZero v
  lattice : ∃ a b d e x y z w r1 r2, c.lookup "TRCWA_L_grid" = some (.list [.list (a :: b :: r1), .list (d :: e :: r2)]) ∧ Denotes a x ∧ Denotes b y ∧ Denotes d z ∧ Denotes e w ∧ y < x ∧ z < w
  detector : ∃ v rest wl gp free gap, c.lookup "physical_wavelength_range" = some (.list (v :: rest)) ∧ Denotes v wl ∧ 0 < wl ∧ SetTo c "FDTD_min_gridpoints_per_unit_magnitude" gp ∧
    SetTo c "FDTD_free_space_distance" free ∧ SetTo c "FDTD_gridpoints_from_material_to_detector" (gap : ℤ) ∧ (gap : ℚ) ≤ max (1 / 100000 / wl) gp * free

lemma require_true {e : PyErr} : require true e = .ok () := rfl

lemma nonZero_truthy {v : Val} (h : NonZero v) : v.truthy = true := by
  obtain ⟨x, hx, h0⟩ := h
  cases hx <;> simp_all [Val.truthy]

lemma lt_denotes {a b : Val} {x y : ℚ} (ha : Denotes a x) (hb : Denotes b y) (h : x < y) : Val.lt a b = .ok true := by
  have : Val.lt a b = .ok (decide (x < y)) := by cases ha <;> cases hb <;> rfl
  rw [this, decide_eq_true h]

lemma leKeys_of {c : Cfg} {a b : String} {x y : ℚ} (ha : SetTo c a x) (hb : SetTo c b y) (h : x ≤ y) : leKeys c a b = .ok true := by
  obtain ⟨v, hv, dv⟩ := ha
  obtain ⟨w, hw, dw⟩ := hb
  unfold leKeys
  rw [get_ok.2 hv, ok_bind, num_ok.2 dv, ok_bind, get_ok.2 hw, ok_bind, num_ok.2 dw, ok_bind, decide_eq_true h]
  rfl

lemma allPositive_of {c : Cfg} {k : String} {l : List Val} (h : c.lookup k = some (.list l)) (hl : ∀ v ∈ l, v.truthy = true) : checkAllPositive c k = .ok () := by
  unfold checkAllPositive
  rw [if_pos (keys_contains_iff.2 ⟨_, h⟩), get_ok.2 h, ok_bind]
  have : (Val.list l).all = .ok true := by
    show Except.ok _ = _
    rw [List.all_eq_true.2 hl]
  rw [this, ok_bind]
  exact require_ok.2 (by decide)

/-- C88: every config that is in order is accepted. -/
theorem C88_accepts (c : Cfg) (h : ConfigInOrder c) : validateConfig c = .ok () := by
  have hd : ∀ k ∈ defaultConfig.keys, k ∈ requiredKeys := by decide +kernel
  have hd' : ∀ k ∈ requiredKeys, k ∈ defaultConfig.keys := by decide +kernel
  obtain ⟨lt, hlt, hnt⟩ := h.thicknesses
  obtain ⟨lp, hlp, hnp⟩ := h.position
  obtain ⟨a, b, d, e, x, y, z, w, r1, r2, hlg, ha, hb, hdd, he, hxy, hzw⟩ := h.lattice
  obtain ⟨v, rest, wl, gp, free, gap, hwl, dv, hwl0, hgp, hfree, hgap, hdet⟩ := h.detector
  have r := h.ranges
  have hpos : ∀ k ∈ positiveValueKeys, checkPositive c k = .ok () := by
    intro k hk
    obtain ⟨t, ⟨u, hu, du⟩, ht⟩ := r.positive k hk
    unfold checkPositive
    rw [get_ok.2 hu, ok_bind, num_ok.2 du, ok_bind]
    exact require_ok.2 (decide_eq_true ht)
  have hsc : cfgScaling c = .ok (max (1 / 100000 / wl) gp) := by
    obtain ⟨u, hu, du⟩ := hgp
    unfold cfgScaling
    rw [get_ok.2 hwl, ok_bind]
    show ((Except.ok v : Except PyErr Val) >>= _) = _
    rw [ok_bind, num_ok.2 dv, ok_bind]
    have hne : wl * FDTD_GRID_SCALE ≠ 0 := by unfold FDTD_GRID_SCALE; positivity
    unfold pyDiv
    rw [if_neg hne, ok_bind, get_ok.2 hu, ok_bind, num_ok.2 du, ok_bind]
    have : (1 / 1000000 : ℚ) / (wl * FDTD_GRID_SCALE) = 1 / 100000 / wl := by
      unfold FDTD_GRID_SCALE
      field_simp
      norm_num
    rw [this]
    rfl
  obtain ⟨tfree, hfree0', hfree1⟩ := r.positive "FDTD_free_space_distance" (by decide)
  have hfree0 : 0 < free := by
    obtain ⟨u, hu, du⟩ := hfree
    obtain ⟨u', hu', du'⟩ := hfree0'
    rw [hu] at hu'
    cases hu'
    rw [denotes_unique du du']
    exact hfree1
  rw [validate_ok]
  refine ⟨?_, ?_, ?_, ?_⟩
  · unfold checkForKeys
    rw [bind_ok]
    refine ⟨(), forEach_ok.2 fun k hk => require_ok.2 (keys_contains_iff.2 (h.present k (hd' k hk))), forEach_ok.2 fun k hk => require_ok.2 ?_⟩
    rw [Bool.or_eq_true, List.contains_iff_mem, List.contains_iff_mem]
    rcases h.known k hk with h1 | h1
    · exact Or.inl (hd k h1)
    · refine Or.inr ?_
      have hopt : ∀ k ∈ ["target_frequencies", "model", "out_features", "results", "best_model_state_dict", "material_collection", "N_materials", "thicknesses", "FDTD_grid_scaling"], k ∈ optionalKeys := by
        decide +kernel
      exact hopt k h1
  · unfold checkEntryTypes
    simp only [bind_ok, forEach_ok, checkType_ok]
    refine ⟨(), fun k hk => ?_, (), fun k hk => ?_, (), fun k hk => ?_, (), fun k hk => ?_, fun k hk => ?_⟩
    · obtain ⟨z, hz⟩ := h.ints k hk
      exact ⟨_, hz, rfl⟩
    · obtain ⟨z, hz⟩ := h.floats k hk
      exact ⟨_, hz, rfl⟩
    · obtain ⟨z, hz⟩ := h.bools k hk
      exact ⟨_, hz, rfl⟩
    · obtain ⟨z, hz⟩ := h.strings k hk
      exact ⟨_, hz, rfl⟩
    · simp only [listKeys, List.mem_cons, List.not_mem_nil, or_false] at hk
      rcases hk with rfl | rfl | rfl | rfl | rfl | rfl
      · exact ⟨_, hlt, rfl⟩
      · exact ⟨_, hlg, rfl⟩
      · exact ⟨_, hlp, rfl⟩
      · obtain ⟨l, hl⟩ := h.targets "target_reflectance_spectrum" (by decide)
        exact ⟨_, hl, rfl⟩
      · obtain ⟨l, hl⟩ := h.targets "target_transmittance_spectrum" (by decide)
        exact ⟨_, hl, rfl⟩
      · exact ⟨_, hwl, rfl⟩
  · obtain ⟨a1, b1, ra, rb, rab⟩ := r.real
    obtain ⟨a2, b2, ia, ib, iab⟩ := r.imag
    obtain ⟨v1, w1, rest1, x1, y1, wl1, wl2, wl3, wl4⟩ := r.wavelengths
    obtain ⟨u1, hu1, du1⟩ := hfree
    obtain ⟨u2, hu2, du2⟩ := hgap
    have mult : ∀ k ∈ ["Nx", "Ny"], multipleOf c k "eps_oversampling" = .ok true := by
      intro k hk
      obtain ⟨nx, ny, s, hx, hy, hs, -, dx, dy⟩ := r.oversampling
      obtain ⟨s', hs'⟩ := h.ints "eps_oversampling" (by decide)
      have es : s' = s := by
        obtain ⟨q, hq, dq⟩ := hs
        rw [hs'] at hq
        cases hq
        have := denotes_unique dq (.int s')
        exact_mod_cast this.symm
      have key : ∀ n : ℤ, SetTo c k n → s ∣ n → multipleOf c k "eps_oversampling" = .ok true := by
        intro n hn hdv
        obtain ⟨n', hn'⟩ := h.ints k (by simp only [List.mem_cons, List.not_mem_nil, or_false] at hk ⊢; tauto)
        have en : n' = n := by
          obtain ⟨q, hq, dq⟩ := hn
          rw [hn'] at hq
          cases hq
          have := denotes_unique dq (.int n')
          exact_mod_cast this.symm
        unfold multipleOf
        rw [get_ok.2 hn', ok_bind, get_ok.2 hs', ok_bind]
        show (Except.ok (decide (n' % s' = 0)) : Except PyErr Bool) = _
        rw [decide_eq_true (by rw [en, es]; exact Int.emod_eq_zero_of_dvd hdv)]
      simp only [List.mem_cons, List.not_mem_nil, or_false] at hk
      rcases hk with rfl | rfl
      · exact key nx hx dx
      · exact key ny hy dy
    have hthick : thicknessLenOk c = .ok true := by
      obtain ⟨l, n, hl, ⟨u, hu, du⟩, hn⟩ := r.thickness
      unfold thicknessLenOk
      rw [get_ok.2 hl, ok_bind]
      show ((Except.ok l.length : Except PyErr ℕ) >>= _) = _
      rw [ok_bind, get_ok.2 hu, ok_bind, num_ok.2 du, ok_bind]
      show (Except.ok _ : Except PyErr Bool) = _
      congr 1
      rw [Bool.or_eq_true, decide_eq_true_eq, decide_eq_true_eq]
      rcases hn with hn | hn
      · left
        exact_mod_cast hn
      · exact Or.inr hn
    have g0 : ∀ i j (row : List Val) (u : Val), ([Val.list (a :: b :: r1), Val.list (d :: e :: r2)])[i]? = some (Val.list row) → row[j]? = some u → lGrid c i j = .ok u := by
      intro i j row u h1 h2
      unfold lGrid
      rw [get_ok.2 hlg, ok_bind]
      simp only [Val.index, h1, h2, ok_bind]
    obtain ⟨s1, m1, e1⟩ := r.type
    obtain ⟨s2, m2, e2⟩ := r.distribution
    obtain ⟨s3, m3, e3⟩ := r.source
    obtain ⟨s4, m4, e4⟩ := r.pulse
    obtain ⟨l5, e5, m5⟩ := r.sourcePosition
    unfold checkValueRanges
    rw [leKeys_of ra rb rab, ok_bind, require_true, ok_bind, leKeys_of ia ib iab, ok_bind, require_true, ok_bind]
    have hwo : wlOrdered c = .ok true := by
      unfold wlOrdered
      rw [get_ok.2 wl1, ok_bind]
      exact lt_denotes wl2 wl3 wl4
    rw [hwo, ok_bind, require_true, ok_bind, hsc, ok_bind, get_ok.2 hu1, ok_bind, num_ok.2 du1, ok_bind, get_ok.2 hu2, ok_bind, num_ok.2 du2, ok_bind]
    have hgapok : decide (¬ ((pyInt (max (1 / 100000 / wl) gp * free) : ℚ) < (gap : ℤ))) = true := by
      rw [decide_eq_true_eq, not_lt]
      have hnn : 0 ≤ max (1 / 100000 / wl) gp * free := mul_nonneg (le_max_of_le_left (by positivity)) hfree0.le
      unfold pyInt
      rw [if_neg (not_lt.2 hnn)]
      exact_mod_cast Int.le_floor.2 hdet
    rw [hgapok, require_true, ok_bind, (forEach_ok (u := ())).2 hpos, ok_bind, mult "Nx" (by decide), ok_bind, require_true, ok_bind, mult "Ny" (by decide), ok_bind, require_true, ok_bind,
      get_ok.2 e1, ok_bind]
    have t1 : ((Val.str s1).eqStr "classification" || (Val.str s1).eqStr "regression") = true := by
      simp only [List.mem_cons, List.not_mem_nil, or_false] at m1
      rcases m1 with rfl | rfl <;> decide
    rw [t1, require_true, ok_bind, g0 1 0 _ d rfl rfl, ok_bind, g0 1 1 _ e rfl rfl, ok_bind, lt_denotes hdd he hzw, ok_bind, require_true, ok_bind,
      g0 0 1 _ b rfl rfl, ok_bind, g0 0 0 _ a rfl rfl, ok_bind, lt_denotes hb ha hxy, ok_bind, require_true, ok_bind]
    have hall : forEach ["TRCWA_L_grid", "PER_LAYER_THICKNESS", "FDTD_grid", "FDTD_source_position"] (checkAllPositive c) = .ok () := by
      refine forEach_ok.2 fun k hk => ?_
      simp only [List.mem_cons, List.not_mem_nil, or_false] at hk
      rcases hk with rfl | rfl | rfl | rfl
      · refine allPositive_of hlg ?_
        simp [Val.truthy]
      · exact allPositive_of hlt fun v hv => nonZero_truthy (hnt v hv)
      · unfold checkAllPositive
        rw [if_neg]
        rw [List.contains_iff_mem]
        intro hk
        have hn : "FDTD_grid" ∉ defaultConfig.keys := by decide +kernel
        rcases h.known _ hk with h1 | h1
        · exact hn h1
        · revert h1
          decide
      · exact allPositive_of hlp fun v hv => nonZero_truthy (hnp v hv)
    have hnon : forEach ["target_transmittance_spectrum", "target_reflectance_spectrum"] (checkAllNonneg c) = .ok () := by
      refine forEach_ok.2 fun k hk => ?_
      obtain ⟨l, hl⟩ := h.targets k (by simp only [List.mem_cons, List.not_mem_nil, or_false] at hk ⊢; tauto)
      unfold checkAllNonneg
      rw [get_ok.2 hl, ok_bind]
      show ((Except.ok (l.all Val.truthy) : Except PyErr Bool) >>= _) = _
      rw [ok_bind]
      refine require_ok.2 ?_
      rw [decide_eq_true_eq]
      split_ifs <;> norm_num
    rw [hall, ok_bind, hnon, ok_bind, hthick, ok_bind, require_true, ok_bind, get_ok.2 e2, ok_bind]
    have t2 : ((Val.str s2).eqStr "linear" || (Val.str s2).eqStr "log") = true := by
      simp only [List.mem_cons, List.not_mem_nil, or_false] at m2
      rcases m2 with rfl | rfl <;> decide
    rw [t2, require_true, ok_bind, get_ok.2 e5, ok_bind]
    show ((Except.ok l5.length : Except PyErr ℕ) >>= _) = _
    have t5 : (decide (l5.length = 2) || decide (l5.length = 3)) = true := by
      rw [Bool.or_eq_true, decide_eq_true_eq, decide_eq_true_eq]
      exact m5
    rw [ok_bind, t5, require_true, ok_bind, get_ok.2 e3, ok_bind]
    have t3 : ((Val.str s3).eqStr "point" || (Val.str s3).eqStr "line") = true := by
      simp only [List.mem_cons, List.not_mem_nil, or_false] at m3
      rcases m3 with rfl | rfl <;> decide
    rw [t3, require_true, ok_bind, get_ok.2 e4, ok_bind]
    have t4 : ((Val.str s4).eqStr "ricker" || (Val.str s4).eqStr "hanning" || (Val.str s4).eqStr "continuous") = true := by
      simp only [List.mem_cons, List.not_mem_nil, or_false] at m4
      rcases m4 with rfl | rfl | rfl <;> decide
    exact require_ok.2 t4
  · obtain ⟨s, hs⟩ := h.strings "solver" (by decide)
    refine ⟨_, hs, fun _ => ?_⟩
    obtain ⟨t1, ⟨u1, hu1, du1⟩, -⟩ := r.positive "FDTD_pml_thickness" (by decide)
    obtain ⟨u2, hu2, du2⟩ := hfree
    unfold checkGridScale
    rw [hsc, ok_bind, get_ok.2 hu1, ok_bind, num_ok.2 du1, ok_bind, get_ok.2 hu2, ok_bind, num_ok.2 du2, ok_bind, get_ok.2 hlt, ok_bind]
    refine forEach_ok.2 fun t ht => ?_
    obtain ⟨q, dq, -⟩ := hnt t ht
    rw [num_ok.2 dq, ok_bind]
    have hne : max (1 / 100000 / wl) gp ≠ 0 := (lt_max_of_lt_left (by positivity)).ne'
    unfold pyDiv
    simp only [if_neg hne, ok_bind]
    rfl

/-- the default config is in order -/
example : ConfigInOrder defaultConfig where
  present := by
    intro k hk
    exact keys_contains_iff.1 (List.contains_iff_mem.2 hk)
  known := fun k hk => Or.inl hk
  ints := by
    intro k hk
    simp only [List.mem_cons, List.not_mem_nil, or_false] at hk
    rcases hk with rfl | rfl | rfl | rfl | rfl | rfl | rfl | rfl | rfl | rfl | rfl | rfl <;> exact ⟨_, rfl⟩
  floats := by
    intro k hk
    simp only [List.mem_cons, List.not_mem_nil, or_false] at hk
    rcases hk with rfl | rfl | rfl | rfl | rfl | rfl | rfl | rfl | rfl | rfl | rfl | rfl <;> exact ⟨_, rfl⟩
  bools := by
    intro k hk
    simp only [List.mem_cons, List.not_mem_nil, or_false] at hk
    rcases hk with rfl | rfl | rfl | rfl <;> exact ⟨_, rfl⟩
  strings := by
    intro k hk
    simp only [List.mem_cons, List.not_mem_nil, or_false] at hk
    rcases hk with rfl | rfl | rfl | rfl | rfl | rfl | rfl <;> exact ⟨_, rfl⟩
  targets := by
    intro k hk
    simp only [List.mem_cons, List.not_mem_nil, or_false] at hk
    rcases hk with rfl | rfl <;> exact ⟨_, rfl⟩
  ranges := C07_ranges _ default_config_accepted
  thicknesses := ⟨_, rfl, fun v hv => by
    rw [List.mem_singleton] at hv
    subst hv
    exact ⟨1, .float 1, one_ne_zero⟩⟩
  position := ⟨_, rfl, fun v hv => by
    simp only [List.mem_cons, List.not_mem_nil, or_false] at hv
    rcases hv with rfl | rfl
    · exact ⟨3 / 2, .float _, by norm_num⟩
    · exact ⟨1, .float _, by norm_num⟩⟩
  lattice := ⟨_, _, _, _, 1 / 10, 0, 0, 1 / 10, _, _, rfl, .float _, .float _, .float _, .float _, by norm_num, by norm_num⟩
  detector := ⟨_, _, 1 / 1000000, 10, 1, 2, rfl, .float _, by norm_num, ⟨_, rfl, .int 10⟩, ⟨_, rfl, .float 1⟩, ⟨_, rfl, .int 2⟩, by norm_num⟩

/-! ### C89 -/

/-- C89: `compute_spectrum` of a config that validation rejects fails with validation's error whatever the solvers would do, i.e. without calling them. -/
theorem C89_rejected {α : Type} (fdtd trcwa : Cfg → Except PyErr α) (c : Cfg) (e : PyErr) (h : validateConfig c = .error e) : computeSpectrum fdtd trcwa c = .error e := by
  show (validateConfig c >>= _) = _
  rw [h, error_bind]

/-- a config without a name -/
example : computeSpectrum (fun _ => Except.ok 1) (fun _ => .ok 2) defaultConfig.tail = .error .keyError :=
  C89_rejected _ _ _ _ (C05_bad_keys_rejected _ (.inl ⟨"name", by decide +kernel, by rfl⟩))

/-- C89: for an accepted config the network that is built is the one that is named, and any other name is a NotImplementedError. -/
theorem C89_network (c : Cfg) (h : validateConfig c = .ok ()) :
    ∃ s, c.lookup "model_type" = some (.str s) ∧ (s = "nerf" → initNetworkKind c = .ok .nerf) ∧ (s = "siren" → initNetworkKind c = .ok .siren) ∧ (s = "voxel" → initNetworkKind c = .ok .voxel) ∧
      (s ∉ ["nerf", "siren", "voxel"] → initNetworkKind c = .error .notImplementedError) := by
  obtain ⟨-, -, -, hs, -⟩ := types_ok h
  obtain ⟨v, hv, hv'⟩ := hs "model_type" (by decide)
  cases v <;> simp only [Val.isStr, Bool.false_eq_true] at hv'
  rename_i s
  have hg : c.get "model_type" = .ok (.str s) := get_ok.2 hv
  refine ⟨s, hv, ?_, ?_, ?_, ?_⟩
  · rintro rfl
    unfold initNetworkKind
    rw [hg, ok_bind]
    rfl
  · rintro rfl
    unfold initNetworkKind
    rw [hg, ok_bind]
    rfl
  · rintro rfl
    unfold initNetworkKind
    rw [hg, ok_bind]
    rfl
  · intro hn
    simp only [List.mem_cons, List.not_mem_nil, or_false, not_or] at hn
    unfold initNetworkKind
    rw [hg, ok_bind, if_neg (by rw [eqStr_iff]; simpa using hn.1), if_neg (by rw [eqStr_iff]; simpa using hn.2.1), if_neg (by rw [eqStr_iff]; simpa using hn.2.2)]

end Nidn
