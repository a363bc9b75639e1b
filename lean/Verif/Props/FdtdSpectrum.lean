/-
C61, C67, C78: the spectra and the config after `compute_spectrum`.
-/
import Verif.Props.ConfigEffects
import Verif.Props.FdtdPipeline

namespace Nidn

/-! ### C61 the config afterwards -/

lemma accepted_scaling {c : Cfg} (h : validateConfig c = .ok ()) : ∃ s, cfgScaling c = .ok s := by
  have h := (validate_ok.1 h).2.2.1
  unfold checkValueRanges at h
  obtain ⟨_, -, h⟩ := bind_ok.1 h
  obtain ⟨_, -, h⟩ := bind_ok.1 h
  obtain ⟨_, -, h⟩ := bind_ok.1 h
  obtain ⟨_, -, h⟩ := bind_ok.1 h
  obtain ⟨_, -, h⟩ := bind_ok.1 h
  obtain ⟨_, -, h⟩ := bind_ok.1 h
  obtain ⟨s, hs, -⟩ := bind_ok.1 h
  exact ⟨s, hs⟩

lemma replicate_flatten_singleton {α : Type} (t : α) (n : ℕ) : (List.replicate n [t]).flatten = List.replicate n t := by
  induction n with
  | zero => rfl
  | succ n ih => rw [List.replicate_succ, List.flatten_cons, ih]; rfl

/-- what the run does to the thickness list of an accepted config -/
lemma expandThick_ok {c : Cfg} (hc : ∃ l : List Val, ∃ n : ℤ, c.lookup "PER_LAYER_THICKNESS" = some (.list l) ∧ (∃ v, c.lookup "N_layers" = some v ∧ v.isInt ∧ Denotes v n) ∧ 0 < n) :
    ∃ c', cfgExpandThick c = .ok c' ∧ (∀ k, k ≠ "PER_LAYER_THICKNESS" → c'.lookup k = c.lookup k) ∧
      ∃ l n l', c.lookup "PER_LAYER_THICKNESS" = some (.list l) ∧ (∃ v, c.lookup "N_layers" = some v ∧ Denotes v ((n : ℤ) : ℚ)) ∧ c'.lookup "PER_LAYER_THICKNESS" = some (.list l') ∧
        ((¬ (l.length = 1 ∧ 1 < n) ∧ l' = l) ∨ ∃ t, l = [t] ∧ 1 < n ∧ l' = List.replicate n.toNat t) := by
  obtain ⟨l, n, hl, ⟨v, hv, hint, hn⟩, hpos⟩ := hc
  unfold cfgExpandThick
  rw [get_ok.2 hl, ok_bind]
  show ∃ c', ((Except.ok l.length : Except PyErr ℕ) >>= fun m => if m = 1 then _ else _) = .ok c' ∧ _
  rw [ok_bind]
  by_cases h1 : l.length = 1
  · rw [if_pos h1, get_ok.2 hv, ok_bind, num_ok.2 hn, ok_bind]
    by_cases h2 : 1 < n
    · have h2' : (1 : ℚ) < (n : ℚ) := by exact_mod_cast h2
      obtain ⟨t, rfl⟩ := List.length_eq_one_iff.1 h1
      rw [if_pos h2']
      have hlt : (Val.list [t]).listTimes v = .ok (.list (List.replicate n.toNat t)) := by
        cases hn' : v with
        | int z =>
          rw [hn'] at hn
          have : (n : ℚ) = z := denotes_unique hn (Denotes.int z)
          have : n = z := by exact_mod_cast this
          subst this
          show Except.ok (Val.list (List.replicate n.toNat [t]).flatten) = _
          rw [replicate_flatten_singleton]
        | bool b =>
          rw [hn'] at hn
          exfalso
          have hb : ∀ b, ∀ q, Denotes (.bool b) q → q ≤ 1 := by
            intro b q hq
            cases hq <;> norm_num
          linarith [hb _ _ hn]
        | float x => rw [hn'] at hint; cases hint
        | str x => rw [hn'] at hint; cases hint
        | list x => rw [hn'] at hint; cases hint
        | other => rw [hn'] at hint; cases hint
      rw [hlt, ok_bind]
      refine ⟨_, rfl, fun k hk => by rw [lookup_set, if_neg hk], [t], n, List.replicate n.toNat t, hl, ⟨v, hv, hn⟩, by rw [lookup_set, if_pos rfl], Or.inr ⟨t, rfl, h2, rfl⟩⟩
    · have h2' : ¬ (1 : ℚ) < (n : ℚ) := by exact_mod_cast h2
      rw [if_neg h2']
      exact ⟨c, rfl, fun _ _ => rfl, l, n, l, hl, ⟨v, hv, hn⟩, hl, Or.inl ⟨fun h => h2 h.2, rfl⟩⟩
  · rw [if_neg h1]
    exact ⟨c, rfl, fun _ _ => rfl, l, n, l, hl, ⟨v, hv, hn⟩, hl, Or.inl ⟨fun h => h1 h.1, rfl⟩⟩

lemma accepted_thick {c : Cfg} (h : validateConfig c = .ok ()) :
    ∃ l : List Val, ∃ n : ℤ, c.lookup "PER_LAYER_THICKNESS" = some (.list l) ∧ (∃ v, c.lookup "N_layers" = some v ∧ v.isInt ∧ Denotes v n) ∧ 0 < n := by
  obtain ⟨l, n, hl, ⟨v, hv, hn⟩, -⟩ := (C07_ranges c h).thickness
  obtain ⟨w, hw, hint⟩ := (types_ok h).1 "N_layers" (by decide)
  rw [hv] at hw
  cases hw
  obtain ⟨x, ⟨w, hw, hx⟩, h0⟩ := (C07_ranges c h).positive "N_layers" (by decide)
  rw [hv] at hw
  cases hw
  rw [denotes_unique hx hn] at h0
  exact ⟨l, n, hl, ⟨v, hv, hint, hn⟩, by exact_mod_cast h0⟩

lemma afterFdtd_spec {c : Cfg} (h : validateConfig c = .ok ()) :
    ∃ c' s, cfgAfterFdtd c = .ok c' ∧ cfgScaling c = .ok s ∧ (∀ k, Untouched k → c'.lookup k = c.lookup k) ∧
      c'.lookup "target_frequencies" = some .other ∧ c'.lookup "FDTD_grid_scaling" = some (.float s) ∧
      ∃ l n l', c.lookup "PER_LAYER_THICKNESS" = some (.list l) ∧ (∃ v, c.lookup "N_layers" = some v ∧ Denotes v ((n : ℤ) : ℚ)) ∧ c'.lookup "PER_LAYER_THICKNESS" = some (.list l') ∧
        ((¬ (l.length = 1 ∧ 1 < n) ∧ l' = l) ∨ ∃ t, l = [t] ∧ 1 < n ∧ l' = List.replicate n.toNat t) := by
  obtain ⟨l, n, hl, ⟨v, hv, hn⟩, hpos⟩ := accepted_thick h
  obtain ⟨s, hs⟩ := accepted_scaling h
  obtain ⟨c2, h2, hsame, l1, n1, l', e1, ⟨v1, ev, en⟩, e3, e4⟩ := expandThick_ok (c := c.set "target_frequencies" .other)
    ⟨l, n, by rw [lookup_set, if_neg (by decide), hl], ⟨v, by rw [lookup_set, if_neg (by decide), hv], hn⟩, hpos⟩
  have hlk : ∀ k, Untouched k → c2.lookup k = c.lookup k := by
    intro k hk
    rw [hsame k hk.2.2, lookup_set, if_neg hk.1]
  have hsc : cfgScaling c2 = .ok s := by
    rw [← hs]
    unfold cfgScaling Cfg.get
    rw [hlk "physical_wavelength_range" (by decide), hlk "FDTD_min_gridpoints_per_unit_magnitude" (by decide)]
  refine ⟨c2.set "FDTD_grid_scaling" (.float s), s, ?_, hs, ?_, ?_, by rw [lookup_set, if_pos rfl], l1, n1, l', ?_, ⟨v1, ?_, en⟩, ?_, e4⟩
  · unfold cfgAfterFdtd
    simp only [h2, ok_bind, hsc]
  · intro k hk
    rw [lookup_set, if_neg hk.2.1, hlk k hk]
  · rw [lookup_set, if_neg (by decide), hsame _ (by decide), lookup_set, if_pos rfl]
  · rw [← e1, lookup_set, if_neg (by decide)]
  · rw [← ev, lookup_set, if_neg (by decide)]
  · rw [lookup_set, if_neg (by decide), e3]

/-- C61: for every accepted config and both solvers, the config after `compute_spectrum` differs from the one before at most in the runtime entries `target_frequencies` and `FDTD_grid_scaling` and in
a thickness list of length one, which is repeated for every layer; it is accepted again, and a second computation leaves every entry as it is.
Missing for the full property: the thickness list is a user entry (C61_thickness_false). -/
theorem C61_config_partial (c : Cfg) (h : validateConfig c = .ok ()) :
    ∃ c', cfgAfterSpectrum c = .ok c' ∧ SameMeaning c c' ∧ validateConfig c' = .ok () ∧ ∃ c'', cfgAfterSpectrum c' = .ok c'' ∧ ∀ k, c''.lookup k = c'.lookup k := by
  obtain ⟨-, -, -, v, hv, -⟩ := validate_ok.1 h
  by_cases hf : v.eqStr "FDTD" = true
  · obtain ⟨c', s, h1, hs, hk, ht, hg, l, n, l', hl, ⟨w, hw, hn⟩, hl', hll⟩ := afterFdtd_spec h
    have hmean : SameMeaning c c' := by
      refine ⟨fun k a b d => hk k ⟨a, b, d⟩, l, l', n, hl, hl', ⟨w, hw, hn⟩, ?_⟩
      rcases hll with ⟨-, e⟩ | ⟨t, e, hn1, e'⟩
      · exact Or.inl e
      · refine Or.inr ⟨t, e, ?_, fun x hx => ?_⟩
        · rw [e', List.length_replicate]
          have : ((n.toNat : ℤ) : ℚ) = n := by rw [Int.toNat_of_nonneg (by omega)]
          exact_mod_cast this
        · rw [e'] at hx
          exact List.eq_of_mem_replicate hx
    have hval := sameMeaning_valid h hmean
    obtain ⟨c'', s', h1', hs', hk', ht', hg', m, n', m', hm, ⟨w', hw', hn'⟩, hm', hmm⟩ := afterFdtd_spec hval
    have hsolver : c'.lookup "solver" = some v := by rw [hk _ (by decide), hv]
    refine ⟨c', ?_, hmean, hval, c'', ?_, fun k => ?_⟩
    · unfold cfgAfterSpectrum
      rw [h, ok_bind, get_ok.2 hv, ok_bind, if_pos hf, h1]
    · unfold cfgAfterSpectrum
      rw [hval, ok_bind, get_ok.2 hsolver, ok_bind, if_pos hf, h1']
    · by_cases a : k = "target_frequencies"
      · rw [a, ht, ht']
      by_cases b : k = "FDTD_grid_scaling"
      · have : cfgScaling c' = cfgScaling c := by
          unfold cfgScaling Cfg.get
          rw [hk "physical_wavelength_range" (by decide), hk "FDTD_min_gridpoints_per_unit_magnitude" (by decide)]
        rw [this, hs] at hs'
        cases hs'
        rw [b, hg, hg']
      by_cases d : k = "PER_LAYER_THICKNESS"
      · rw [hl'] at hm
        cases hm
        rw [hk "N_layers" (by decide), hw] at hw'
        cases hw'
        have hnn : n = n' := by exact_mod_cast denotes_unique hn hn'
        subst hnn
        rw [d, hl', hm']
        rcases hmm with ⟨-, e⟩ | ⟨t, e, hn1, e'⟩
        · rw [e]
        · exfalso
          rcases hll with ⟨h1, e2⟩ | ⟨t2, e2, -, e3⟩
          · exact h1 ⟨by rw [← e2, e]; rfl, hn1⟩
          · rw [e3] at e
            have := congrArg List.length e
            rw [List.length_replicate] at this
            simp at this
            omega
      · exact hk' k ⟨a, b, d⟩
  · have e : cfgAfterSpectrum c = .ok c := by
      unfold cfgAfterSpectrum
      rw [h, ok_bind, get_ok.2 hv, ok_bind, if_neg hf]
    refine ⟨c, e, ?_, h, c, e, fun _ => rfl⟩
    obtain ⟨l, n, hl, ⟨w, hw, -, hn⟩, -⟩ := accepted_thick h
    exact ⟨fun _ _ _ _ => rfl, l, l, n, hl, hl, ⟨w, hw, hn⟩, Or.inl rfl⟩

/-- C61 is false of the thickness list: the default config for the FDTD solver has one thickness, afterwards it has eight; changing the number of layers was possible before and is rejected afterwards. -/
theorem C61_thickness_false :
    ∃ c c', validateConfig c = .ok () ∧ cfgAfterSpectrum c = .ok c' ∧
      c.lookup "PER_LAYER_THICKNESS" = some (.list [.float 1]) ∧ c'.lookup "PER_LAYER_THICKNESS" = some (.list (List.replicate 8 (.float 1))) ∧
      validateConfig (c.set "N_layers" (.int 4)) = .ok () ∧ validateConfig (c'.set "N_layers" (.int 4)) = .error .runtimeError := by
  obtain ⟨c', s, h1, -, -, -, -, l, n, l', hl, ⟨v, hv, hn⟩, hl', hll⟩ := afterFdtd_spec default_config_fdtd_accepted
  have hc' : cfgAfterSpectrum fdtdDefault = .ok c' := by
    unfold cfgAfterSpectrum
    rw [show validateConfig fdtdDefault = .ok () from default_config_fdtd_accepted, ok_bind]
    exact h1
  refine ⟨fdtdDefault, c', default_config_fdtd_accepted, hc', rfl, ?_, by decide +kernel, ?_⟩
  · have e1 : some (Val.list [.float 1]) = some (.list l) := hl
    have e2 : some (Val.int 8) = some v := hv
    cases e1
    cases e2
    have e3 : (n : ℚ) = ((8 : ℤ) : ℚ) := denotes_unique hn (Denotes.int 8)
    have e3 : n = 8 := by exact_mod_cast e3
    subst e3
    rcases hll with ⟨h, -⟩ | ⟨t, e, -, rfl⟩
    · exact absurd ⟨rfl, by norm_num⟩ h
    · cases e
      exact hl'
  · have : (cfgAfterSpectrum fdtdDefault >>= fun c => validateConfig (c.set "N_layers" (.int 4))) = .error .runtimeError := by decide +kernel
    rw [hc'] at this
    exact this

/-! ### C61 the second run -/

lemma getFrequencyPoints_again (c : FreqCfg) (wls fs : List ℝ) (c' : FreqCfg) (h : getFrequencyPoints c = .ok (wls, fs, c')) :
    c' = { c with targetFrequencies := some fs } ∧ getFrequencyPoints c' = .ok (wls, fs, c') := by
  unfold getFrequencyPoints at h
  obtain ⟨tf, htf, h⟩ := bind_ok.1 h
  by_cases h0 : (0 : ℝ) ∈ tf
  · rw [if_pos h0] at h; cases h
  rw [if_neg h0] at h
  simp only [pure, Except.pure, Except.ok.injEq, Prod.mk.injEq] at h
  obtain ⟨rfl, rfl, rfl⟩ := h
  refine ⟨rfl, ?_⟩
  unfold getFrequencyPoints
  simp only [htf, ok_bind, if_neg h0]
  rfl

lemma expandThick_again (c : FdtdCfg) : expandThick (expandThick c) = expandThick c := by
  unfold expandThick
  by_cases h : c.thick.length = 1 ∧ 1 < c.nLayers
  · obtain ⟨t, ht⟩ := List.length_eq_one_iff.1 h.1
    rw [if_pos h]
    refine if_neg fun h2 => ?_
    have h2 := h2.1
    simp only [ht, replicate_flatten_singleton, List.length_replicate] at h2
    omega
  · rw [if_neg h, if_neg h]

lemma expandThick_freq (c : FdtdCfg) : (expandThick c).freq = c.freq ∧ (expandThick c).minGp = c.minGp := by
  unfold expandThick
  split_ifs <;> exact ⟨rfl, rfl⟩

lemma expandThick_scaling (c : FdtdCfg) (s : ℝ) : expandThick { expandThick c with scaling := some s } = { expandThick c with scaling := some s } := by
  have hth := congrArg FdtdCfg.thick (expandThick_again c)
  generalize expandThick c = d at hth
  unfold expandThick at hth ⊢
  by_cases hd : d.thick.length = 1 ∧ 1 < d.nLayers
  · rw [if_pos hd] at hth
    refine (if_pos hd).trans ?_
    have hth : (List.replicate d.nLayers d.thick).flatten = d.thick := hth
    show ({ d with thick := (List.replicate d.nLayers d.thick).flatten, scaling := some s } : FdtdCfg) = { d with scaling := some s }
    rw [hth]
  · exact if_neg hd

/-- C61: for every positive wavelength range, whatever the outcome of the first run is (spectra or an error), a second run with the config it left behind has the same outcome and leaves the same config. -/
theorem C61_again (g : Grid4 ℂ) (c : FdtdCfg) (h0 : 0 < c.freq.wlMin) (h1 : c.freq.wlMin ≤ c.freq.wlMax) (hd : c.freq.distribution = "linear" ∨ c.freq.distribution = "log") :
    ∃ c', fdtdCfgAfter c = .ok c' ∧ (∀ rt d, computeSpectrumFdtd g c = .ok (rt, d) → d = c') ∧ computeSpectrumFdtd g c' = computeSpectrumFdtd g c ∧ fdtdCfgAfter c' = .ok c' := by
  obtain ⟨wls, fs, fc, hfp, -, -, -, -, -, hfc, hagain⟩ := C03_frequency_points c.freq h0 h1 hd
  obtain ⟨s, hs, -⟩ := C60_smallest c.freq.wlMin c.minGp h0
  have hfr : ({ expandThick { c with freq := fc } with scaling := some s } : FdtdCfg).freq = fc := (expandThick_freq _).1
  have hwl : fc.wlMin = c.freq.wlMin := by rw [hfc]
  have hgp : ({ expandThick { c with freq := fc } with scaling := some s } : FdtdCfg).minGp = c.minGp := (expandThick_freq _).2
  have hset : ({ ({ expandThick { c with freq := fc } with scaling := some s } : FdtdCfg) with freq := fc } : FdtdCfg) = { expandThick { c with freq := fc } with scaling := some s } := by
    have := (expandThick_freq { c with freq := fc }).1
    generalize expandThick { c with freq := fc } = d at this
    have this : d.freq = fc := this
    rw [← this]
  have hs1 : gridScaling (expandThick { c with freq := fc }).freq.wlMin (expandThick { c with freq := fc }).minGp = .ok s := by
    rw [(expandThick_freq _).1, (expandThick_freq _).2]
    show gridScaling fc.wlMin c.minGp = _
    rw [hwl, hs]
  have key : computeSpectrumFdtd g c = (if g.sx = 0 ∨ g.sy = 0 ∨ g.sf = 0 then .error .indexError else
      fdtdLoop { expandThick { c with freq := fc } with scaling := some s } s g wls 0 [] [] >>= fun rt => .ok (rt, { expandThick { c with freq := fc } with scaling := some s })) := by
    unfold computeSpectrumFdtd
    rw [hfp, ok_bind]
    by_cases hg : g.sx = 0 ∨ g.sy = 0 ∨ g.sf = 0
    · rw [if_pos hg, if_pos hg]
    · rw [if_neg hg, if_neg hg]
      show (gridScaling _ _ >>= _) = _
      rw [hs1, ok_bind]
  refine ⟨{ expandThick { c with freq := fc } with scaling := some s }, ?_, ?_, ?_, ?_⟩
  · unfold fdtdCfgAfter
    rw [hfp, ok_bind, hs, ok_bind]
  · intro rt d h
    rw [key] at h
    by_cases hg : g.sx = 0 ∨ g.sy = 0 ∨ g.sf = 0
    · rw [if_pos hg] at h; cases h
    · rw [if_neg hg] at h
      obtain ⟨_, -, h⟩ := bind_ok.1 h
      cases h
      rfl
  · rw [key]
    unfold computeSpectrumFdtd
    rw [hfr, hagain, ok_bind]
    by_cases hg : g.sx = 0 ∨ g.sy = 0 ∨ g.sf = 0
    · rw [if_pos hg, if_pos hg]
    · rw [if_neg hg, if_neg hg]
      show (gridScaling (expandThick { ({ expandThick { c with freq := fc } with scaling := some s } : FdtdCfg) with freq := fc }).freq.wlMin (expandThick { ({ expandThick { c with freq := fc } with scaling := some s } : FdtdCfg) with freq := fc }).minGp >>= fun s' =>
        (fdtdLoop { expandThick { ({ expandThick { c with freq := fc } with scaling := some s } : FdtdCfg) with freq := fc } with scaling := some s' } s' g wls 0 [] [] >>= fun rt =>
          Except.ok (rt, { expandThick { ({ expandThick { c with freq := fc } with scaling := some s } : FdtdCfg) with freq := fc } with scaling := some s' }))) = _
      rw [hset, expandThick_scaling]
      show (gridScaling (expandThick { c with freq := fc }).freq.wlMin (expandThick { c with freq := fc }).minGp >>= _) = _
      rw [hs1, ok_bind]
  · unfold fdtdCfgAfter
    rw [hfr, hagain, ok_bind]
    show (gridScaling fc.wlMin ({ expandThick { c with freq := fc } with scaling := some s } : FdtdCfg).minGp >>= fun s' =>
      Except.ok ({ expandThick { ({ expandThick { c with freq := fc } with scaling := some s } : FdtdCfg) with freq := fc } with scaling := some s' } : FdtdCfg)) = _
    rw [hset, expandThick_scaling, hgp, hwl, hs, ok_bind]

example : 0 < (fdtdDefaultWith (3 / 2) 2 [1]).freq.wlMin ∧ (fdtdDefaultWith (3 / 2) 2 [1]).freq.wlMin ≤ (fdtdDefaultWith (3 / 2) 2 [1]).freq.wlMax := by
  constructor <;> norm_num [fdtdDefaultWith]

lemma denotesList_replicate {v : Val} {x : ℝ} (h : ∃ q : ℚ, Denotes v q ∧ x = q) (n : ℕ) : DenotesList (List.replicate n v) (List.replicate n x) := by
  induction n with
  | zero => exact .nil
  | succ n ih => exact .cons h ih

/-- C61, link of the two descriptions: if the solver's view of an accepted config is `f`, its view of the config afterwards is what the run computed with. -/
theorem C61_views (c c' : Cfg) (f f' : FdtdCfg) (h : validateConfig c = .ok ()) (hr : ReadsAs c f) (hc : cfgAfterFdtd c = .ok c') (hf : fdtdCfgAfter f = .ok f') : ReadsAs c' f' := by
  obtain ⟨c1, s, h1, -, hk, -, -, l, n, l', hl, ⟨v, hv, hn⟩, hl', hll⟩ := afterFdtd_spec h
  rw [hc] at h1
  cases h1
  unfold fdtdCfgAfter at hf
  obtain ⟨⟨wls, fs, fc⟩, hfp, hf⟩ := bind_ok.1 hf
  obtain ⟨rfl, -⟩ := getFrequencyPoints_again _ _ _ _ hfp
  obtain ⟨s', -, hf⟩ := bind_ok.1 hf
  cases hf
  have hL : ∀ k x, Untouched k → SetTo c k x → SetTo c' k x := by
    rintro k x hu ⟨w, hw, hx⟩
    exact ⟨w, by rw [hk k hu, hw], hx⟩
  have hR : ∀ k x, Untouched k → SetToReal c k x → SetToReal c' k x := by
    rintro k x hu ⟨q, hq, hx⟩
    exact ⟨q, hL k q hu hq, hx⟩
  have hthick : ∃ l, c'.lookup "PER_LAYER_THICKNESS" = some (.list l) ∧ DenotesList l (expandThick { f with freq := { f.freq with targetFrequencies := some fs } }).thick := by
    obtain ⟨l0, hl0, hden⟩ := hr.thick
    rw [hl] at hl0
    cases hl0
    obtain ⟨w, hw, hnl⟩ := hr.nLayers
    rw [hv] at hw
    cases hw
    have hnn : n = f.nLayers := by exact_mod_cast denotes_unique hn hnl
    have hlen : l.length = f.thick.length := hden.length_eq
    unfold expandThick
    rcases hll with ⟨hno, rfl⟩ | ⟨t, rfl, h1n, rfl⟩
    · refine ⟨l', hl', ?_⟩
      rw [if_neg (fun hh => hno ⟨by rw [hlen]; exact hh.1, by have := hh.2; simp only at this; omega⟩)]
      exact hden
    · refine ⟨_, hl', ?_⟩
      have hcond : f.thick.length = 1 ∧ 1 < f.nLayers := ⟨by rw [← hlen]; rfl, by omega⟩
      rw [if_pos hcond]
      obtain ⟨x, hx⟩ := List.length_eq_one_iff.1 hcond.1
      show DenotesList _ (List.replicate f.nLayers f.thick).flatten
      rw [hx, replicate_flatten_singleton, show n.toNat = f.nLayers by omega]
      rw [hx] at hden
      cases hden with
      | cons a b => exact denotesList_replicate a _
  have e : ∀ d : FdtdCfg, ∃ th, expandThick d = { d with thick := th } := by
    intro d
    unfold expandThick
    split_ifs
    · exact ⟨_, rfl⟩
    · exact ⟨d.thick, rfl⟩
  obtain ⟨th, hth⟩ := e { f with freq := { f.freq with targetFrequencies := some fs } }
  rw [hth] at hthick ⊢
  refine ⟨?_, hL _ _ (by decide) hr.nFreq, ?_, hR _ _ (by decide) hr.minGp, hR _ _ (by decide) hr.pml, hR _ _ (by decide) hr.free, hthick, hL _ _ (by decide) hr.nLayers, hL _ _ (by decide) hr.gap, ?_, ?_, ?_,
    hL _ _ (by decide) hr.niter⟩
  · rw [hk _ (by decide)]; exact hr.wavelengths
  · rw [hk _ (by decide)]; exact hr.distribution
  · rw [hk _ (by decide)]; exact hr.source
  · rw [hk _ (by decide)]; exact hr.pulse
  · rw [hk _ (by decide)]; exact hr.sourceType

example : ∃ c', cfgAfterFdtd fdtdDefault = .ok c' := by
  obtain ⟨c', _, h, -⟩ := afterFdtd_spec default_config_fdtd_accepted
  exact ⟨c', h⟩

/-! ### C67 entries -/

lemma fdtdLoop_ok (c : FdtdCfg) (s : ℝ) (g : Grid4 ℂ) : ∀ (wls : List ℝ) (i : ℕ) (rs ts : List ℝ) (out : List ℝ × List ℝ), fdtdLoop c s g wls i rs ts = .ok out →
    ∃ ps : List (ℝ × ℝ), out = (rs ++ ps.map Prod.snd, ts ++ ps.map Prod.fst) ∧ ps.length = wls.length ∧
      ∀ (j : ℕ) (wl : ℝ) (p : ℝ × ℝ), wls[j]? = some wl → ps[j]? = some p → fdtdPoint c s g (i + j) wl = .ok p := by
  intro wls
  induction wls with
  | nil =>
    intro i rs ts out h
    cases h
    exact ⟨[], by simp, rfl, fun j wl p h => by simp at h⟩
  | cons wl rest ih =>
    intro i rs ts out h
    unfold fdtdLoop at h
    obtain ⟨p, hp, h⟩ := bind_ok.1 h
    obtain ⟨ps, h1, h2, h3⟩ := ih _ _ _ _ h
    refine ⟨p :: ps, by rw [h1]; simp, by simp [h2], fun j w q hw hq => ?_⟩
    cases j with
    | zero =>
      simp only [List.getElem?_cons_zero, Option.some.injEq] at hw hq
      subst hw hq
      exact hp
    | succ j =>
      simp only [List.getElem?_cons_succ] at hw hq
      have := h3 j w q hw hq
      rw [show i + (j + 1) = i + 1 + j by omega]
      exact this

/-- C67, FDTD: a returned spectrum has one entry per configured frequency in both lists, reflection first; entry `i` comes from the simulation of the `i`-th frequency slice at the wavelength of the
`i`-th of the frequencies stored in the config. -/
theorem C67_fdtd (g : Grid4 ℂ) (c c' : FdtdCfg) (Rs Ts : List ℝ) (h0 : 0 < c.freq.wlMin) (h1 : c.freq.wlMin ≤ c.freq.wlMax)
    (hd : c.freq.distribution = "linear" ∨ c.freq.distribution = "log") (h : computeSpectrumFdtd g c = .ok ((Rs, Ts), c')) :
    ∃ fs s, c'.freq.targetFrequencies = some fs ∧ c'.scaling = some s ∧ fs.length = c.freq.nFreq ∧ Rs.length = c.freq.nFreq ∧ Ts.length = c.freq.nFreq ∧
      ∀ (i : ℕ) (f r t : ℝ), fs[i]? = some f → Rs[i]? = some r → Ts[i]? = some t → ∃ wl, wl * f = 1e-6 ∧ fdtdPoint c' s g i wl = .ok (t, r) := by
  obtain ⟨wls, fs, fc, hfp, hwl, hfl, hprod, -, -, hfc, -⟩ := C03_frequency_points c.freq h0 h1 hd
  unfold computeSpectrumFdtd at h
  rw [hfp, ok_bind] at h
  by_cases hg : g.sx = 0 ∨ g.sy = 0 ∨ g.sf = 0
  · rw [if_pos hg] at h; cases h
  rw [if_neg hg] at h
  obtain ⟨s, hs, h⟩ := bind_ok.1 h
  obtain ⟨rt', hloop, h⟩ := bind_ok.1 h
  simp only [Except.ok.injEq, Prod.mk.injEq] at h
  obtain ⟨e1, rfl⟩ := h
  rw [e1] at hloop
  obtain ⟨ps, hps, hlen, hpt⟩ := fdtdLoop_ok _ _ _ _ _ _ _ _ hloop
  simp only [List.nil_append, Prod.mk.injEq] at hps
  obtain ⟨rfl, rfl⟩ := hps
  have hfreq : (expandThick { c with freq := fc }).freq = fc := by
    unfold expandThick
    split_ifs <;> rfl
  refine ⟨fs, s, ?_, rfl, hfl, by simp [hlen, hwl], by simp [hlen, hwl], fun i f r t hf hr ht => ?_⟩
  · show (expandThick { c with freq := fc }).freq.targetFrequencies = _
    rw [hfreq, hfc]
  · rw [List.getElem?_map] at hr ht
    obtain ⟨p, hp, rfl⟩ := Option.map_eq_some_iff.1 hr
    rw [hp] at ht
    obtain rfl : p.1 = t := by simpa using ht
    obtain ⟨hi, hfe⟩ := List.getElem?_eq_some_iff.1 hf
    have hiw : i < wls.length := by omega
    refine ⟨wls[i], ?_, ?_⟩
    · rw [← hfe]
      exact hprod i hiw hi
    · have := hpt i wls[i] p (List.getElem?_eq_getElem hiw) hp
      rw [Nat.zero_add] at this
      exact this

/-- C67, slices: the answer for index `i` depends on the `i`-th frequency slice of the grid only. -/
theorem C67_slice (c : FdtdCfg) (s : ℝ) (g g' : Grid4 ℂ) (i : ℕ) (wl : ℝ) (hx : g.sx = g'.sx) (hy : g.sy = g'.sy) (hl : g.sl = g'.sl) (hf : i < g.sf) (hf' : i < g'.sf)
    (hval : ∀ x y l, g.val x y l i = g'.val x y l i) : fdtdPoint c s g i wl = fdtdPoint c s g' i wl := by
  have h1 : sliceEntries g i = sliceEntries g' i := by
    unfold sliceEntries
    simp only [hx, hy, hl, hval]
  have h2 : layerEps g i = layerEps g' i := by
    unfold layerEps
    simp only [hl, hval]
  unfold fdtdPoint
  rw [if_neg (by omega), if_neg (by omega), h1, h2]

/-- C67: if both solvers return spectra for the same grid, and the RCWA solver finds in the config the frequencies that the FDTD solver (or `get_frequency_points`) stores there, then entry `i` of all four lists
refers to the same frequency and the same slice, reflection first in both. Missing: the RCWA solver does not check that the stored frequencies belong to the configured range (C67_stale_false). -/
theorem C67_both_partial (solve : (ℕ → ℕ → ℕ → Option ℂ) → ℝ → Except PyErr (ℝ × ℝ)) (g : Grid4 ℂ) (c c' : FdtdCfg) (d : DriverCfg ℝ) (Rs Ts Rs' Ts' : List ℝ) (h0 : 0 < c.freq.wlMin) (h1 : c.freq.wlMin ≤ c.freq.wlMax)
    (hd : c.freq.distribution = "linear" ∨ c.freq.distribution = "log") (hN : d.nFreq = c.freq.nFreq)
    (h : computeSpectrumFdtd g c = .ok ((Rs, Ts), c')) (h' : computeSpectrumTrcwa solve g d = .ok (Rs', Ts')) (hsame : d.freqs = c'.freq.targetFrequencies) :
    Rs.length = Rs'.length ∧ Ts.length = Ts'.length ∧
      ∃ s, ∀ i < Rs.length, ∃ f wl r t r' t', wl * f = 1e-6 ∧ Rs[i]? = some r ∧ Ts[i]? = some t ∧ Rs'[i]? = some r' ∧ Ts'[i]? = some t' ∧
        fdtdPoint c' s g i wl = .ok (t, r) ∧ solve (fun x y l => g.val x y l i) f = .ok (r', t') := by
  obtain ⟨fs, s, hfs, -, hfl, hrl, htl, hF⟩ := C67_fdtd g c c' Rs Ts h0 h1 hd h
  obtain ⟨fs', hfit, -, hrl', htl', hT⟩ := C24_entries solve g d Rs' Ts' h'
  have e : fs' = fs := by
    have := hfit.1
    rw [hsame, hfs] at this
    cases this
    rfl
  subst e
  refine ⟨by omega, by omega, s, fun i hi => ?_⟩
  have a1 : fs'[i]? = some fs'[i] := List.getElem?_eq_getElem (by omega)
  have a2 : Rs[i]? = some Rs[i] := List.getElem?_eq_getElem (by omega)
  have a3 : Ts[i]? = some Ts[i] := List.getElem?_eq_getElem (by omega)
  have a4 : Rs'[i]? = some Rs'[i] := List.getElem?_eq_getElem (by omega)
  have a5 : Ts'[i]? = some Ts'[i] := List.getElem?_eq_getElem (by omega)
  obtain ⟨wl, hw, hp⟩ := hF i _ _ _ a1 a2 a3
  exact ⟨_, wl, _, _, _, _, hw, a2, a3, a4, a5, hp, hT i _ _ _ a1 a4 a5⟩

/-- C67 is false when the config holds the frequencies of an earlier wavelength range: the RCWA solver uses these, the FDTD solver those of the current range. -/
theorem C67_stale_false :
    ∃ (c : FreqCfg) (fs stale : List ℝ) (wls : List ℝ) (c' : FreqCfg), 0 < c.wlMin ∧ c.wlMin ≤ c.wlMax ∧ c.distribution = "linear" ∧ c.targetFrequencies = some stale ∧
      getFrequencyPoints c = .ok (wls, fs, c') ∧ fs ≠ stale ∧
      ∀ solve : (ℕ → ℕ → ℕ → Option ℂ) → ℝ → Except PyErr (ℝ × ℝ), ∀ Rs Ts,
        computeSpectrumTrcwa solve ⟨1, 1, 1, 1, fun _ _ _ _ => some 1⟩ ⟨c.targetFrequencies, 1, 1, 1, c.nFreq⟩ = .ok (Rs, Ts) →
        ∀ r t, Rs[0]? = some r → Ts[0]? = some t → ∃ f, stale[0]? = some f ∧ solve (fun _ _ _ => some 1) f = .ok (r, t) := by
  obtain ⟨wls, fs, c', h, -, hfl, hprod, -, hin, -, -⟩ := C03_frequency_points ⟨1 / 1000000, 1 / 1000000, 1, "linear", some [5]⟩ (by norm_num) (le_refl _) (Or.inl rfl)
  refine ⟨⟨1 / 1000000, 1 / 1000000, 1, "linear", some [5]⟩, fs, [5], wls, c', by norm_num, le_refl _, rfl, rfl, h, ?_, ?_⟩
  · rintro rfl
    have hl : wls.length = 1 := by
      obtain ⟨w, f, c2, hh, hwl, -⟩ := C03_frequency_points ⟨1 / 1000000, 1 / 1000000, 1, "linear", some [5]⟩ (by norm_num) (le_refl _) (Or.inl rfl)
      rw [h] at hh
      cases hh
      exact hwl
    have := hprod 0 (by omega) (by simp)
    have hw := hin wls[0] (List.getElem_mem (by omega))
    have : wls[0] = 1 / 1000000 := le_antisymm hw.2 hw.1
    simp only [List.getElem_cons_zero] at *
    norm_num [this] at *
  · intro solve Rs Ts hok r t hr ht
    obtain ⟨fs2, hfit, -, -, -, hT⟩ := C24_entries solve _ _ Rs Ts hok
    obtain rfl : [5] = fs2 := by simpa using hfit.1
    exact ⟨5, rfl, hT 0 5 r t rfl hr ht⟩

/-! ### C78 patterned layers -/

lemma mem_sliceEntries (g : Grid4 ℂ) (i : ℕ) (v : Option ℂ) : v ∈ sliceEntries g i ↔ ∃ x < g.sx, ∃ y < g.sy, ∃ l < g.sl, g.val x y l i = v := by
  unfold sliceEntries
  simp only [List.mem_flatMap, List.mem_map, List.mem_range]

lemma checkTimesteps_mem (c : FdtdCfg) (a b : List (Option ℂ)) (h : ∀ v, v ∈ a ↔ v ∈ b) : checkTimesteps c a = checkTimesteps c b := by
  unfold checkTimesteps
  have h0 : a = [] ↔ b = [] := by
    rw [List.eq_nil_iff_forall_not_mem, List.eq_nil_iff_forall_not_mem]
    exact forall_congr' fun v => not_congr (h v)
  by_cases ht : c.thick = []
  · rw [if_pos ht, if_pos ht]
  rw [if_neg ht, if_neg ht]
  by_cases ha : a = []
  · rw [if_pos ha, if_pos (h0.1 ha)]
  rw [if_neg ha, if_neg (fun hb => ha (h0.2 hb))]
  have hc : (none ∈ a ∨ ∀ v ∈ a, ∀ z, v = some z → z.re < 0) ↔ (none ∈ b ∨ ∀ v ∈ b, ∀ z, v = some z → z.re < 0) := by
    rw [h none]
    exact or_congr_right (forall_congr' fun v => by rw [h v])
  by_cases hx : none ∈ a ∨ ∀ v ∈ a, ∀ z, v = some z → z.re < 0
  · rw [if_pos hx, if_pos (hc.1 hx)]
  · rw [if_neg hx, if_neg (fun hb => hx (hc.2 hb))]

/-- C78 for laterally uniform grids: the answer is that of the one-cell grid with the same layers. Missing: patterned grids (C78_false). -/
theorem C78_uniform_partial (c : FdtdCfg) (s : ℝ) (g : Grid4 ℂ) (i : ℕ) (wl : ℝ) (hx : 0 < g.sx) (hy : 0 < g.sy) (hu : ∀ x < g.sx, ∀ y < g.sy, ∀ l < g.sl, g.val x y l i = g.val 0 0 l i) :
    fdtdPoint c s g i wl = fdtdPoint c s ⟨1, 1, g.sl, g.sf, fun _ _ l i => g.val 0 0 l i⟩ i wl := by
  have h1 : checkTimesteps c (sliceEntries g i) = checkTimesteps c (sliceEntries ⟨1, 1, g.sl, g.sf, fun _ _ l i => g.val 0 0 l i⟩ i) := by
    refine checkTimesteps_mem c _ _ fun v => ?_
    rw [mem_sliceEntries, mem_sliceEntries]
    constructor
    · rintro ⟨x, hx', y, hy', l, hl, rfl⟩
      exact ⟨0, Nat.one_pos, 0, Nat.one_pos, l, hl, (hu x hx' y hy' l hl).symm⟩
    · rintro ⟨-, -, -, -, l, hl, rfl⟩
      exact ⟨0, hx, 0, hy, l, hl, rfl⟩
  unfold fdtdPoint
  rw [h1]
  rfl

/-- C78 is false: a layer that is a checkerboard of vacuum and permittivity nine is given the answer of plain vacuum (only the first column of the grid is simulated), for every config, resolution and wavelength. -/
theorem C78_false (c : FdtdCfg) (s wl : ℝ) :
    fdtdPoint c s ⟨2, 2, 1, 1, fun x y _ _ => some (if (x + y) % 2 = 0 then 1 else 9)⟩ 0 wl = fdtdPoint c s ⟨2, 2, 1, 1, fun _ _ _ _ => some 1⟩ 0 wl := by
  have h : ∀ g : Grid4 ℂ, (∀ v ∈ sliceEntries g 0, v = some 1 ∨ v = some 9) → some 1 ∈ sliceEntries g 0 → checkTimesteps c (sliceEntries g 0) = .ok () := by
    intro g h1 h2
    unfold checkTimesteps
    by_cases ht : c.thick = []
    · rw [if_pos ht]
    rw [if_neg ht, if_neg (List.ne_nil_of_mem h2), if_neg]
    rintro (hn | hn)
    · rcases h1 _ hn with h | h <;> cases h
    · have := hn _ h2 1 rfl
      norm_num at this
  have e1 := h ⟨2, 2, 1, 1, fun x y _ _ => some (if (x + y) % 2 = 0 then 1 else 9)⟩ (by
    intro v hv
    obtain ⟨x, -, y, -, l, -, rfl⟩ := (mem_sliceEntries _ _ _).1 hv
    show some (if (x + y) % 2 = 0 then (1 : ℂ) else 9) = _ ∨ some (if (x + y) % 2 = 0 then (1 : ℂ) else 9) = _
    split_ifs
    · exact Or.inl rfl
    · exact Or.inr rfl) ((mem_sliceEntries _ _ _).2 ⟨0, by decide, 0, by decide, 0, by decide, by simp⟩)
  have e2 := h ⟨2, 2, 1, 1, fun _ _ _ _ => some 1⟩ (by
    intro v hv
    obtain ⟨x, -, y, -, l, -, rfl⟩ := (mem_sliceEntries _ _ _).1 hv
    exact Or.inl rfl) ((mem_sliceEntries _ _ _).2 ⟨0, by decide, 0, by decide, 0, by decide, rfl⟩)
  unfold fdtdPoint
  rw [e1, e2]
  have hl : layerEps ⟨2, 2, 1, 1, fun x y _ _ => some (if (x + y) % 2 = 0 then (1 : ℂ) else 9)⟩ 0 = layerEps ⟨2, 2, 1, 1, fun _ _ _ _ => some 1⟩ 0 := by
    simp [layerEps]
  rw [hl]

/-! ### C79 the step count check -/

/-- C79: for NaN-free slices with at least one non-negative real part the check for the number of time steps never stops the computation (it only logs), whatever the configured number of steps is.
Missing: slices in which all real parts are negative (C79_metal_false). -/
theorem C79_warns_partial (c : FdtdCfg) (g : Grid4 ℂ) (i : ℕ) (h : ∀ x < g.sx, ∀ y < g.sy, ∀ l < g.sl, g.val x y l i ≠ none)
    (hpos : ∃ x < g.sx, ∃ y < g.sy, ∃ l < g.sl, ∃ z, g.val x y l i = some z ∧ 0 ≤ z.re) : checkTimesteps c (sliceEntries g i) = .ok () := by
  obtain ⟨x, hx, y, hy, l, hl, z, hz, h0⟩ := hpos
  have hm : some z ∈ sliceEntries g i := (mem_sliceEntries _ _ _).2 ⟨x, hx, y, hy, l, hl, hz⟩
  unfold checkTimesteps
  by_cases ht : c.thick = []
  · rw [if_pos ht]
  rw [if_neg ht, if_neg (List.ne_nil_of_mem hm), if_neg]
  rintro (hn | hn)
  · obtain ⟨x, hx, y, hy, l, hl, hv⟩ := (mem_sliceEntries _ _ _).1 hn
    exact h x hx y hy l hl hv
  · have := hn _ hm z rfl
    linarith

example : ∃ g : Grid4 ℂ, (∀ x < g.sx, ∀ y < g.sy, ∀ l < g.sl, g.val x y l 0 ≠ none) ∧ ∃ x < g.sx, ∃ y < g.sy, ∃ l < g.sl, ∃ z, g.val x y l 0 = some z ∧ 0 ≤ z.re :=
  ⟨⟨1, 1, 2, 1, fun _ _ l _ => some (if l = 0 then -4 else 2)⟩, fun _ _ _ _ _ _ h => (by cases h), 0, by decide, 0, by decide, 1, by decide, 2, rfl, by norm_num⟩

/-- C79 is false of metals: a structure in which every permittivity has a negative real part (allowed by the default range −100 … 100) makes the check itself fail with a ValueError, for every number of time steps and every config with layers,
so no spectrum is computed. -/
theorem C79_metal_false (c : FdtdCfg) (s wl : ℝ) (g : Grid4 ℂ) (i : ℕ) (hi : i < g.sf) (hx : 0 < g.sx) (hy : 0 < g.sy) (hl : 0 < g.sl) (ht : c.thick ≠ []) (h : ∀ x y l, ∃ z, g.val x y l i = some z ∧ z.re < 0) :
    fdtdPoint c s g i wl = .error .valueError := by
  have : checkTimesteps c (sliceEntries g i) = .error .valueError := by
    unfold checkTimesteps
    rw [if_neg ht, if_neg (List.ne_nil_of_mem ((mem_sliceEntries g i _).2 ⟨0, hx, 0, hy, 0, hl, rfl⟩)), if_pos]
    refine Or.inr fun v hv z hz => ?_
    obtain ⟨x, -, y, -, l, -, rfl⟩ := (mem_sliceEntries _ _ _).1 hv
    obtain ⟨z', hz', h0⟩ := h x y l
    rw [hz'] at hz
    cases hz
    exact h0
  unfold fdtdPoint
  rw [if_neg (by omega), this]
  rfl

example : ∀ x y l, ∃ z, (⟨1, 1, 8, 1, fun _ _ _ _ => some (-20)⟩ : Grid4 ℂ).val x y l 0 = some z ∧ z.re < 0 := fun _ _ _ => ⟨-20, rfl, by norm_num⟩

end Nidn
