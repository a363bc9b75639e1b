/-
C61: what a spectrum computation does to the user's config.
-/
import Verif.Model.ConfigEffects
import Verif.Props.Config
import Verif.Props.FdtdLayout

namespace Nidn

lemma lookup_set (c : Cfg) (k : String) (v : Val) (k' : String) : (c.set k v).lookup k' = if k' = k then some v else c.lookup k' := by
  have hmap : ∀ c : Cfg, (c.map fun p => if p.1 = k then (k, v) else p).lookup k' = if k' = k then (if c.keys.contains k then some v else none) else c.lookup k' := by
    intro c
    induction c with
    | nil => by_cases h : k' = k <;> simp [h, Cfg.keys]
    | cons p ps ih =>
      obtain ⟨a, b⟩ := p
      rw [List.map_cons]
      by_cases ha : a = k
      · subst ha
        by_cases h : k' = a
        · subst h
          simp [Cfg.keys]
        · have hb : (k' == a) = false := by simp [h]
          simp only [if_true, List.lookup_cons, hb, if_neg h] at ih ⊢
          rw [ih]
      · by_cases h : k' = k
        · subst h
          have hb : (k' == a) = false := by simpa using fun e => ha e.symm
          rw [if_neg ha, List.lookup_cons, hb]
          simp only [if_true] at ih ⊢
          rw [ih]
          have : Cfg.keys ((a, b) :: ps) = a :: Cfg.keys ps := rfl
          rw [this, List.contains_cons, hb, Bool.false_or]
        · rw [if_neg ha, List.lookup_cons, List.lookup_cons]
          simp only [if_neg h] at ih ⊢
          rw [ih]
  unfold Cfg.set
  by_cases hk : c.keys.contains k = true
  · rw [if_pos hk, hmap c, hk]
    simp
  · rw [if_neg hk, List.lookup_append]
    by_cases h : k' = k
    · subst h
      have : c.lookup k' = none := by
        cases hl : c.lookup k' with
        | none => rfl
        | some w => exact absurd (keys_contains_iff.2 ⟨w, hl⟩) hk
      rw [this, if_pos rfl]
      simp [List.lookup]
    · have hb : (k' == k) = false := by simp [h]
      rw [if_neg h]
      simp [List.lookup, hb]

/-- the two configs differ at most in the two runtime entries and the thickness list, whose only entry is repeated once per layer -/
structure SameMeaning (c c' : Cfg) : Prop where
  other : ∀ k, k ≠ "target_frequencies" → k ≠ "FDTD_grid_scaling" → k ≠ "PER_LAYER_THICKNESS" → c'.lookup k = c.lookup k
  thick : ∃ l l' n, c.lookup "PER_LAYER_THICKNESS" = some (.list l) ∧ c'.lookup "PER_LAYER_THICKNESS" = some (.list l') ∧ SetTo c "N_layers" n ∧
    (l' = l ∨ ∃ t, l = [t] ∧ (l'.length : ℚ) = n ∧ ∀ x ∈ l', x = t)

lemma forEach_congr {α : Type} (l : List α) (f g : α → Except PyErr Unit) (h : ∀ x ∈ l, f x = g x) : forEach l f = forEach l g := by
  induction l with
  | nil => rfl
  | cons x xs ih =>
    unfold forEach
    rw [h x (List.mem_cons_self ..), ih fun y hy => h y (List.mem_cons_of_mem _ hy)]

/-- the entries a spectrum computation or a training run may write -/
def runtimeEntries : List String := ["target_frequencies", "FDTD_grid_scaling", "PER_LAYER_THICKNESS", "model", "out_features", "results", "best_model_state_dict", "material_collection", "N_materials"]

/-- none of the entries a run may write -/
def NotRuntime (k : String) : Prop := k ∉ runtimeEntries

instance (k : String) : Decidable (NotRuntime k) := inferInstanceAs (Decidable (¬ _))

/-- a config that differs only in entries written at runtime is accepted as well -/
lemma runtime_valid {c c' : Cfg} (h : validateConfig c = .ok ()) (el : ∀ k, NotRuntime k → c'.lookup k = c.lookup k)
    (hthick : ∃ l l' n, c.lookup "PER_LAYER_THICKNESS" = some (.list l) ∧ c'.lookup "PER_LAYER_THICKNESS" = some (.list l') ∧ SetTo c "N_layers" n ∧
      (l' = l ∨ ∃ t, l = [t] ∧ (l'.length : ℚ) = n ∧ ∀ x ∈ l', x = t)) : validateConfig c' = .ok () := by
  obtain ⟨h1, h2, h3, s, h4, h5⟩ := validate_ok.1 h
  obtain ⟨l, l', n, hl, hl', hn, hll⟩ := hthick
  have e : ∀ k, NotRuntime k → c'.get k = c.get k := by
    intro k hk
    unfold Cfg.get
    rw [el k hk]
  have ek : ∀ k, NotRuntime k → c'.keys.contains k = c.keys.contains k := by
    intro k hk
    rw [Bool.eq_iff_iff, keys_contains_iff, keys_contains_iff, el k hk]
  have hgl : c.get "PER_LAYER_THICKNESS" = .ok (.list l) := get_ok.2 hl
  have hgl' : c'.get "PER_LAYER_THICKNESS" = .ok (.list l') := get_ok.2 hl'
  have hsub : ∀ x ∈ l', x ∈ l := by
    rcases hll with rfl | ⟨t, rfl, -, ht⟩
    · exact fun x hx => hx
    · exact fun x hx => by rw [ht x hx]; exact List.mem_cons_self ..
  have hn0 : 0 < n := by
    obtain ⟨x, ⟨v, hv, hx⟩, h0⟩ := (C07_ranges c h).positive "N_layers" (by decide)
    obtain ⟨w, hw, hn⟩ := hn
    rw [hv] at hw
    cases hw
    rw [denotes_unique hn hx]
    exact h0
  have hsup : ∀ x ∈ l, x ∈ l' := by
    rcases hll with rfl | ⟨t, rfl, hlen, ht⟩
    · exact fun x hx => hx
    · intro x hx
      rw [List.mem_singleton] at hx
      subst hx
      match l', hlen, ht with
      | [], hlen, _ => simp at hlen; exact absurd hlen (ne_of_lt hn0)
      | y :: ys, _, ht => rw [← ht y (List.mem_cons_self ..)]; exact List.mem_cons_self ..
  have hscal : cfgScaling c' = cfgScaling c := by
    unfold cfgScaling
    rw [e "physical_wavelength_range" (by decide), e "FDTD_min_gridpoints_per_unit_magnitude" (by decide)]
  refine validate_ok.2 ⟨?_, ?_, ?_, s, ?_, fun hf => ?_⟩
  · simp only [checkForKeys, bind_ok, forEach_ok, require_ok] at h1 ⊢
    obtain ⟨u, a, b⟩ := h1
    refine ⟨u, fun k hk => ?_, fun k hk => ?_⟩
    · by_cases hu : NotRuntime k
      · rw [ek k hu]
        exact a k hk
      · have : k = "PER_LAYER_THICKNESS" := by
          by_contra hne
          revert k
          decide
        subst this
        exact keys_contains_iff.2 ⟨_, hl'⟩
    · by_cases hu : NotRuntime k
      · refine b k (by rw [← List.contains_iff_mem, ← ek k hu, List.contains_iff_mem]; exact hk)
      · have hr : k ∈ runtimeEntries := not_not.1 hu
        clear hk hu
        revert k
        decide
  · have ht : ∀ (p : Val → Bool) (ks : List String), (∀ xs ys, p (.list xs) = p (.list ys)) → (∀ k ∈ ks, k ≠ "PER_LAYER_THICKNESS" → NotRuntime k) →
        forEach ks (checkType c' p) = forEach ks (checkType c p) := by
      intro p ks hp a
      refine forEach_congr _ _ _ fun k hk => ?_
      unfold checkType
      by_cases hu : k = "PER_LAYER_THICKNESS"
      · subst hu
        rw [hgl, hgl', ok_bind, ok_bind, hp l l']
      · rw [e k (a k hk hu)]
    rw [← h2]
    unfold checkEntryTypes
    rw [ht Val.isInt _ (fun _ _ => rfl) (by decide), ht Val.isFloat _ (fun _ _ => rfl) (by decide), ht Val.isBool _ (fun _ _ => rfl) (by decide),
      ht Val.isStr _ (fun _ _ => rfl) (by decide), ht Val.isList _ (fun _ _ => rfl) (by decide)]
  · have hle : ∀ a b, NotRuntime a → NotRuntime b → leKeys c' a b = leKeys c a b := by
      intro a b ha hb
      unfold leKeys
      rw [e a ha, e b hb]
    have hmul : ∀ a b, NotRuntime a → NotRuntime b → multipleOf c' a b = multipleOf c a b := by
      intro a b ha hb
      unfold multipleOf
      rw [e a ha, e b hb]
    have hwl : wlOrdered c' = wlOrdered c := by
      unfold wlOrdered
      rw [e "physical_wavelength_range" (by decide)]
    have hpos : forEach positiveValueKeys (checkPositive c') = forEach positiveValueKeys (checkPositive c) := by
      refine forEach_congr _ _ _ fun k hk => ?_
      unfold checkPositive
      rw [e k]
      revert k
      decide
    have hgrid : ∀ i j, lGrid c' i j = lGrid c i j := by
      intro i j
      unfold lGrid
      rw [e "TRCWA_L_grid" (by decide)]
    have hall : forEach ["TRCWA_L_grid", "PER_LAYER_THICKNESS", "FDTD_grid", "FDTD_source_position"] (checkAllPositive c') =
        forEach ["TRCWA_L_grid", "PER_LAYER_THICKNESS", "FDTD_grid", "FDTD_source_position"] (checkAllPositive c) := by
      refine forEach_congr _ _ _ fun k hk => ?_
      unfold checkAllPositive
      by_cases hu : k = "PER_LAYER_THICKNESS"
      · subst hu
        have a : c.keys.contains "PER_LAYER_THICKNESS" = true := keys_contains_iff.2 ⟨_, hl⟩
        have b : c'.keys.contains "PER_LAYER_THICKNESS" = true := keys_contains_iff.2 ⟨_, hl'⟩
        have d : l'.all Val.truthy = l.all Val.truthy := by
          rw [Bool.eq_iff_iff, List.all_eq_true, List.all_eq_true]
          exact ⟨fun h x hx => h x (hsup x hx), fun h x hx => h x (hsub x hx)⟩
        rw [if_pos a, if_pos b, hgl, hgl', ok_bind, ok_bind]
        show (Except.ok (l'.all Val.truthy) >>= _) = (Except.ok (l.all Val.truthy) >>= _)
        rw [d]
      · have : NotRuntime k := by
          revert k
          decide
        rw [ek k this, e k this]
    have hnn : forEach ["target_transmittance_spectrum", "target_reflectance_spectrum"] (checkAllNonneg c') = forEach ["target_transmittance_spectrum", "target_reflectance_spectrum"] (checkAllNonneg c) := by
      refine forEach_congr _ _ _ fun k hk => ?_
      unfold checkAllNonneg
      rw [e k]
      revert k
      decide
    have hthick : thicknessLenOk c' = thicknessLenOk c := by
      obtain ⟨v, hv, hx⟩ := hn
      unfold thicknessLenOk
      rw [hgl, hgl', ok_bind, ok_bind, e "N_layers" (by decide), get_ok.2 hv]
      show ((Except.ok l'.length : Except PyErr ℕ) >>= fun m => ((v.num) >>= fun q => pure (decide ((m : ℚ) = q) || decide (m = 1))))
        = ((Except.ok l.length : Except PyErr ℕ) >>= fun m => ((v.num) >>= fun q => pure (decide ((m : ℚ) = q) || decide (m = 1))))
      rw [ok_bind, ok_bind, num_ok.2 hx, ok_bind, ok_bind]
      rcases hll with rfl | ⟨t, rfl, hlen, -⟩
      · rfl
      · simp [hlen]
    rw [← h3]
    unfold checkValueRanges
    rw [hle _ _ (by decide) (by decide), hle _ _ (by decide) (by decide), hwl, hscal, e "FDTD_free_space_distance" (by decide), e "FDTD_gridpoints_from_material_to_detector" (by decide), hpos,
      hmul _ _ (by decide) (by decide), hmul _ _ (by decide) (by decide), e "type" (by decide), hgrid, hgrid, hgrid, hgrid, hall, hnn, hthick, e "freq_distribution" (by decide),
      e "FDTD_source_position" (by decide), e "FDTD_source_type" (by decide), e "FDTD_pulse_type" (by decide)]
  · rw [el _ (by decide), h4]
  · have h5 := h5 hf
    unfold checkGridScale at h5 ⊢
    rw [hscal, e "FDTD_pml_thickness" (by decide), e "FDTD_free_space_distance" (by decide), hgl']
    rw [hgl] at h5
    obtain ⟨sc, hsc, h5⟩ := bind_ok.1 h5
    obtain ⟨v1, hv1, h5⟩ := bind_ok.1 h5
    obtain ⟨p, hp, h5⟩ := bind_ok.1 h5
    obtain ⟨v2, hv2, h5⟩ := bind_ok.1 h5
    obtain ⟨f, hf, h5⟩ := bind_ok.1 h5
    rw [hsc, ok_bind, hv1, ok_bind, hp, ok_bind, hv2, ok_bind, hf, ok_bind, ok_bind]
    rw [ok_bind] at h5
    exact forEach_ok.2 fun x hx => forEach_ok.1 h5 x (hsub x hx)

/-- none of the entries a spectrum computation may write -/
def Untouched (k : String) : Prop := k ≠ "target_frequencies" ∧ k ≠ "FDTD_grid_scaling" ∧ k ≠ "PER_LAYER_THICKNESS"

instance (k : String) : Decidable (Untouched k) := inferInstanceAs (Decidable (_ ∧ _ ∧ _))

/-- a config with the same meaning is accepted as well -/
lemma sameMeaning_valid {c c' : Cfg} (h : validateConfig c = .ok ()) (hs : SameMeaning c c') : validateConfig c' = .ok () :=
  runtime_valid h (fun k hk => hs.other k (fun e => hk (by subst e; decide)) (fun e => hk (by subst e; decide)) (fun e => hk (by subst e; decide))) hs.thick

end Nidn
