/-
C93: a trained config is accepted again. C94: printing a config. C100: the network that is trained fits the settings.
-/
import Verif.Model.TrainConfig
import Verif.Props.FdtdSpectrum
import Verif.Props.ConfigAccept

namespace Nidn

/-! ### C93 -/

/-- the two configs differ at most in entries written at runtime, one of which is a thickness list with a single entry, repeated for every layer -/
structure SameSettings (c c' : Cfg) : Prop where
  settings : ∀ k, k ∉ ["target_frequencies", "FDTD_grid_scaling", "PER_LAYER_THICKNESS", "model", "out_features", "results", "best_model_state_dict", "material_collection", "N_materials"] → c'.lookup k = c.lookup k
  thick : ∃ l l' n, c.lookup "PER_LAYER_THICKNESS" = some (.list l) ∧ c'.lookup "PER_LAYER_THICKNESS" = some (.list l') ∧ SetTo c "N_layers" n ∧
    (l' = l ∨ ∃ t, l = [t] ∧ (l'.length : ℚ) = n ∧ ∀ x ∈ l', x = t)

lemma sameSettings_of {c c' : Cfg} (h : validateConfig c = .ok ()) (hs : ∀ k, k ∉ ["target_frequencies", "FDTD_grid_scaling", "model", "out_features", "results", "best_model_state_dict", "material_collection", "N_materials"] → c'.lookup k = c.lookup k) :
    SameSettings c c' := by
  obtain ⟨l, n, hl, ⟨v, hv, -, hn⟩, -⟩ := accepted_thick h
  refine ⟨fun k hk => hs k ?_, l, l, n, hl, by rw [hs _ (by decide), hl], ⟨v, hv, hn⟩, Or.inl rfl⟩
  intro hk'
  refine hk ?_
  revert k
  intro k _ hk'
  simp only [List.mem_cons, List.not_mem_nil, or_false] at hk' ⊢
  tauto

lemma trainEntries_spec {nMat : ℕ} {c : Cfg} (h : validateConfig c = .ok ()) :
    ∃ c1, cfgTrainEntries nMat c = .ok c1 ∧ (∀ k, k ∉ ["target_frequencies", "out_features", "material_collection", "N_materials"] → c1.lookup k = c.lookup k) ∧
      ((c.lookup "type" = some (.str "classification") ∧ c1.lookup "out_features" = some (.int nMat)) ∨ (c.lookup "type" = some (.str "regression") ∧ c1.lookup "out_features" = some (.int 2))) := by
  obtain ⟨t, ht, hty⟩ := (C07_ranges c h).type
  have hg : (c.set "target_frequencies" .other).get "type" = .ok (.str t) := get_ok.2 (by rw [lookup_set, if_neg (by decide), hty])
  unfold cfgTrainEntries
  simp only [hg, ok_bind]
  simp only [List.mem_cons, List.not_mem_nil, or_false] at ht
  rcases ht with rfl | rfl
  · rw [if_pos (by decide)]
    refine ⟨_, rfl, fun k hk => ?_, Or.inl ⟨hty, by rw [lookup_set, if_pos rfl]⟩⟩
    simp only [List.mem_cons, List.not_mem_nil, or_false, not_or] at hk
    rw [lookup_set, if_neg hk.2.1, lookup_set, if_neg hk.2.2.2, lookup_set, if_neg hk.2.2.1, lookup_set, if_neg hk.1]
  · rw [if_neg (by decide)]
    refine ⟨_, rfl, fun k hk => ?_, Or.inr ⟨hty, by rw [lookup_set, if_pos rfl]⟩⟩
    simp only [List.mem_cons, List.not_mem_nil, or_false, not_or] at hk
    rw [lookup_set, if_neg hk.2.1, lookup_set, if_neg hk.1]

lemma training_spec {nMat : ℕ} {c c' : Cfg} {net : Option BuiltNet} {n : BuiltNet} (h : cfgAfterTraining nMat c net = .ok (c', n)) :
    validateConfig c = .ok () ∧ SameSettings c c' ∧ validateConfig c' = .ok () ∧ c'.lookup "results" = some .other ∧
      ∃ c1, cfgTrainEntries nMat c = .ok c1 ∧ c'.lookup "out_features" = c1.lookup "out_features" ∧ (net = some n ∨ (net = none ∧ initNetwork c1 = .ok n)) ∧
        prepFrequencies c = .ok () ∧ (∃ v, c.lookup "seed" = some v ∧ fixSeeds v = .ok ()) ∧ ∃ v m, c.lookup "iterations" = some v ∧ rangeLen v = .ok m := by
  unfold cfgAfterTraining at h
  obtain ⟨⟨c2, n2⟩, h2, h⟩ := bind_ok.1 h
  unfold cfgInitTraining at h2
  obtain ⟨⟨⟩, hv, h2⟩ := bind_ok.1 h2
  obtain ⟨c1, h1, hk1, -⟩ := trainEntries_spec (nMat := nMat) hv
  obtain ⟨⟨⟩, hfr, h2⟩ := bind_ok.1 h2
  rw [h1, ok_bind] at h2
  obtain ⟨sd, hsd, h2⟩ := bind_ok.1 h2
  obtain ⟨⟨⟩, hseed, h2⟩ := bind_ok.1 h2
  have hn : c2.lookup "out_features" = c1.lookup "out_features" ∧ (net = some n2 ∨ (net = none ∧ initNetwork c1 = .ok n2)) := by
    cases net with
    | some m =>
      have e := Except.ok.inj h2
      have e1 : c1 = c2 := congrArg Prod.fst e
      have e2 : m = n2 := congrArg Prod.snd e
      exact ⟨by rw [e1], Or.inl (by rw [e2])⟩
    | none =>
      obtain ⟨m, hm, h2⟩ := bind_ok.1 h2
      have e := Except.ok.inj h2
      have e1 : c1.set "model" .other = c2 := congrArg Prod.fst e
      have e2 : m = n2 := congrArg Prod.snd e
      exact ⟨by rw [← e1, lookup_set, if_neg (by decide)], Or.inr ⟨rfl, by rw [hm, e2]⟩⟩
  have hk2 : ∀ k, k ∉ ["target_frequencies", "FDTD_grid_scaling", "model", "out_features", "results", "best_model_state_dict", "material_collection", "N_materials"] → c2.lookup k = c.lookup k := by
    intro k hk
    have hk' : k ∉ ["target_frequencies", "out_features", "material_collection", "N_materials"] := by
      simp only [List.mem_cons, List.not_mem_nil, or_false, not_or] at hk ⊢
      tauto
    cases net with
    | some m =>
      have e : c1 = c2 := congrArg Prod.fst (Except.ok.inj h2)
      rw [← e]
      exact hk1 k hk'
    | none =>
      obtain ⟨m, -, h2⟩ := bind_ok.1 h2
      have e : c1.set "model" .other = c2 := congrArg Prod.fst (Except.ok.inj h2)
      rw [← e, lookup_set, if_neg, hk1 k hk']
      rintro rfl
      exact hk (by decide)
  set c3 := (c2.set "results" .other).set "best_model_state_dict" .other with hc3
  have hk3 : ∀ k, k ∉ ["target_frequencies", "FDTD_grid_scaling", "model", "out_features", "results", "best_model_state_dict", "material_collection", "N_materials"] → c3.lookup k = c.lookup k := by
    intro k hk
    rw [hc3, lookup_set, if_neg (by rintro rfl; exact hk (by decide)), lookup_set, if_neg (by rintro rfl; exact hk (by decide)), hk2 k hk]
  have hr3 : c3.lookup "results" = some .other := by rw [hc3, lookup_set, if_neg (by decide), lookup_set, if_pos rfl]
  have ho3 : c3.lookup "out_features" = c1.lookup "out_features" := by rw [hc3, lookup_set, if_neg (by decide), lookup_set, if_neg (by decide), hn.1]
  have hs3 := sameSettings_of hv hk3
  have hv3 : validateConfig c3 = .ok () := runtime_valid hv hs3.settings hs3.thick
  obtain ⟨it, hit, h⟩ := bind_ok.1 h
  obtain ⟨im, him, h⟩ := bind_ok.1 h
  have hrest : prepFrequencies c = .ok () ∧ (∃ v, c.lookup "seed" = some v ∧ fixSeeds v = .ok ()) ∧ ∃ v m, c.lookup "iterations" = some v ∧ rangeLen v = .ok m :=
    ⟨hfr, ⟨sd, by rw [← hk1 _ (by decide)]; exact get_ok.1 hsd, hseed⟩, it, im, by rw [← hk3 _ (by decide)]; exact get_ok.1 hit, him⟩
  obtain ⟨s, -, h⟩ := bind_ok.1 h
  refine ⟨hv, ?_⟩
  by_cases hf : s.eqStr "FDTD" = true
  · rw [if_pos hf] at h
    obtain ⟨c4, h4, h⟩ := bind_ok.1 h
    have := Except.ok.inj h
    obtain rfl : c4 = c' := congrArg Prod.fst this
    have hnn : n2 = n := congrArg Prod.snd this
    obtain ⟨c5, sc, e5, -, hk5, -, -, l, m, l', hl, ⟨w, hw, hm⟩, hl', hll⟩ := afterFdtd_spec hv3
    obtain rfl : c5 = c4 := Except.ok.inj (e5.symm.trans h4)
    have hs : SameSettings c c5 := by
      refine ⟨fun k hk => ?_, l, l', m, by rw [← hk3 _ (by decide)]; exact hl, hl', ⟨w, by rw [← hk3 _ (by decide)]; exact hw, hm⟩, ?_⟩
      · simp only [List.mem_cons, List.not_mem_nil, or_false, not_or] at hk
        rw [hk5 k ⟨hk.1, hk.2.1, hk.2.2.1⟩, hk3 k]
        simp only [List.mem_cons, List.not_mem_nil, or_false, not_or]
        tauto
      · rcases hll with ⟨-, e⟩ | ⟨t, e, hn1, e'⟩
        · exact Or.inl e
        · refine Or.inr ⟨t, e, ?_, fun x hx => ?_⟩
          · rw [e', List.length_replicate]
            have : ((m.toNat : ℤ) : ℚ) = m := by rw [Int.toNat_of_nonneg (by omega)]
            exact_mod_cast this
          · rw [e'] at hx
            exact List.eq_of_mem_replicate hx
    exact ⟨hs, runtime_valid hv hs.settings hs.thick, by rw [hk5 _ (by decide), hr3], c1, h1, by rw [hk5 _ (by decide), ho3], hnn ▸ hn.2, hrest⟩
  · rw [if_neg hf] at h
    have := Except.ok.inj h
    have hnn : n2 = n := congrArg Prod.snd this
    obtain rfl : c3 = c' := congrArg Prod.fst this
    exact ⟨hs3, hv3, hr3, c1, h1, ho3, hnn ▸ hn.2, hrest⟩

/-- C93: when training with an accepted config returns, all settings are as before, except that a single thickness is written out for every layer, and the config is accepted again. -/
theorem C93_again (nMat : ℕ) (c c' : Cfg) (net : Option BuiltNet) (n : BuiltNet) (h : cfgAfterTraining nMat c net = .ok (c', n)) :
    validateConfig c = .ok () ∧ SameSettings c c' ∧ validateConfig c' = .ok () :=
  ⟨(training_spec h).1, (training_spec h).2.1, (training_spec h).2.2.1⟩

/-- what training needs from the settings besides validation, stated with the model's checks (`C136_exact` says what they mean) -/
structure Prepared (c : Cfg) : Prop where
  freqs : prepFrequencies c = .ok ()
  seed : ∃ v, c.lookup "seed" = some v ∧ fixSeeds v = .ok ()
  iterations : ∃ v m, c.lookup "iterations" = some v ∧ rangeLen v = .ok m

lemma training_runs {nMat : ℕ} {c : Cfg} (h : validateConfig c = .ok ()) (hp : Prepared c) (net : Option BuiltNet)
    (hnet : net = none → ∀ c1, cfgTrainEntries nMat c = .ok c1 → ∃ n, initNetwork c1 = .ok n) :
    ∃ c' n, cfgAfterTraining nMat c net = .ok (c', n) ∧ ∀ m, net = some m → n = m := by
  obtain ⟨c1, h1, hk1, hout⟩ := trainEntries_spec (nMat := nMat) h
  obtain ⟨hfr, ⟨sd, hsd, hseed⟩, it, im, hit, him⟩ := hp
  have hinit : ∃ c2 n, cfgInitTraining nMat c net = .ok (c2, n) ∧ (∀ m, net = some m → n = m) ∧ (∀ k, k ≠ "model" → c2.lookup k = c1.lookup k) := by
    unfold cfgInitTraining
    rw [h, ok_bind, hfr, ok_bind, h1, ok_bind, get_ok.2 (show c1.lookup "seed" = some sd by rw [hk1 _ (by decide), hsd]), ok_bind, hseed, ok_bind]
    cases net with
    | some m => exact ⟨c1, m, rfl, fun _ e => Option.some.inj e, fun _ _ => rfl⟩
    | none =>
      obtain ⟨n, hn⟩ := hnet rfl c1 h1
      refine ⟨c1.set "model" .other, n, ?_, fun _ e => (by cases e), fun k hk => by rw [lookup_set, if_neg hk]⟩
      show (initNetwork c1 >>= _) = _
      rw [hn, ok_bind]
      rfl
  obtain ⟨c2, n, h2, hn, hk2⟩ := hinit
  set c3 := (c2.set "results" .other).set "best_model_state_dict" .other with hc3
  have hk3 : ∀ k, k ∉ ["target_frequencies", "FDTD_grid_scaling", "model", "out_features", "results", "best_model_state_dict", "material_collection", "N_materials"] → c3.lookup k = c.lookup k := by
    intro k hk
    rw [hc3, lookup_set, if_neg (by rintro rfl; exact hk (by decide)), lookup_set, if_neg (by rintro rfl; exact hk (by decide)), hk2 k (by rintro rfl; exact hk (by decide)), hk1 k]
    simp only [List.mem_cons, List.not_mem_nil, or_false, not_or] at hk ⊢
    tauto
  have hs3 := sameSettings_of h hk3
  have hv3 : validateConfig c3 = .ok () := runtime_valid h hs3.settings hs3.thick
  obtain ⟨-, -, -, s, hsol, -⟩ := validate_ok.1 hv3
  unfold cfgAfterTraining
  rw [h2, ok_bind]
  show ∃ c' n', (c3.get "iterations" >>= fun v => rangeLen v >>= fun _ => c3.get "solver" >>= fun s => if s.eqStr "FDTD" = true then cfgAfterFdtd c3 >>= fun c => pure (c, n) else pure (c3, n)) = .ok (c', n') ∧ _
  rw [get_ok.2 (show c3.lookup "iterations" = some it by rw [hk3 _ (by decide), hit]), ok_bind, him, ok_bind, get_ok.2 hsol, ok_bind]
  by_cases hf : s.eqStr "FDTD" = true
  · obtain ⟨c5, sc, e5, -⟩ := afterFdtd_spec hv3
    rw [if_pos hf, e5, ok_bind]
    exact ⟨c5, n, rfl, hn⟩
  · rw [if_neg hf]
    exact ⟨c3, n, rfl, hn⟩

lemma prepFrequencies_congr {c c' : Cfg} (h1 : c'.lookup "physical_wavelength_range" = c.lookup "physical_wavelength_range") (h2 : c'.lookup "freq_distribution" = c.lookup "freq_distribution") :
    prepFrequencies c' = prepFrequencies c := by
  unfold prepFrequencies Cfg.get
  rw [h1, h2]

/-- C93: after a training run that returns, another one with the resulting config and network gets past its preparation as well and trains the same network, whatever network the first run started with. -/
theorem C93_runs (nMat : ℕ) (c c' : Cfg) (net : Option BuiltNet) (n : BuiltNet) (h : cfgAfterTraining nMat c net = .ok (c', n)) :
    ∃ c'', cfgAfterTraining nMat c' (some n) = .ok (c'', n) := by
  obtain ⟨-, hs, hv', -, -, -, -, -, hfr, ⟨v, hv, hseed⟩, it, im, hit, him⟩ := training_spec h
  have hp : Prepared c' := ⟨by rw [prepFrequencies_congr (hs.settings _ (by decide)) (hs.settings _ (by decide))]; exact hfr,
    ⟨v, by rw [hs.settings _ (by decide)]; exact hv, hseed⟩, it, im, by rw [hs.settings _ (by decide)]; exact hit, him⟩
  obtain ⟨c'', n', h'', e⟩ := training_runs (nMat := nMat) hv' hp (some n) (fun e => by cases e)
  obtain rfl := e n rfl
  exact ⟨c'', h''⟩

/-- does training with the default config return? -/
def defaultTrains : Bool := match cfgAfterTraining 11 defaultConfig none with | .ok _ => true | .error _ => false

lemma default_trains : ∃ c' n, cfgAfterTraining 11 defaultConfig none = .ok (c', n) := by
  have h : defaultTrains = true := by decide +kernel
  unfold defaultTrains at h
  split at h
  · rename_i p hp
    exact ⟨p.1, p.2, hp⟩
  · cases h

example : ∃ c' n c'', cfgAfterTraining 11 defaultConfig none = .ok (c', n) ∧ cfgAfterTraining 11 c' (some n) = .ok (c'', n) := by
  obtain ⟨c', n, h⟩ := default_trains
  obtain ⟨c'', h'⟩ := C93_runs 11 _ c' none n h
  exact ⟨c', n, c'', h, h'⟩

/-! ### C94 -/

/-- the keys whose entries are printed, in order -/
def printedKeys (t : List PrintTok) : List String := t.filterMap fun x => match x with | .entry k => some k | .newline => none

/-- no line gets more than three entries if the first one has `m` already -/
def LinesOk : ℕ → List PrintTok → Prop
  | _, [] => True
  | _, .newline :: t => LinesOk 0 t
  | m, .entry _ :: t => m + 1 ≤ 3 ∧ LinesOk (m + 1) t

lemma linesOk_run (t : List PrintTok) : ∀ m a (ks : List String) b, LinesOk m t → t = a ++ ks.map .entry ++ b → ks.length ≤ 3 := by
  have hrun : ∀ (ks : List String) m b, LinesOk m (ks.map .entry ++ b) → m ≤ 3 → m + ks.length ≤ 3 := by
    intro ks
    induction ks with
    | nil => intro m b _ hm; simpa using hm
    | cons k ks ih =>
      intro m b h hm
      have := ih (m + 1) b h.2 h.1
      simp only [List.length_cons]
      omega
  induction t with
  | nil =>
    intro m a ks b _ h
    have := congrArg List.length h
    simp at this
    omega
  | cons x t ih =>
    intro m a ks b hl h
    cases a with
    | cons y a =>
      obtain ⟨rfl, rfl⟩ := List.cons.inj h
      cases x with
      | newline => exact ih 0 a ks b hl rfl
      | entry k => exact ih (m + 1) a ks b hl.2 rfl
    | nil =>
      cases ks with
      | nil => simp
      | cons k ks =>
        obtain ⟨rfl, rfl⟩ := List.cons.inj h
        have := hrun ks (m + 1) b hl.2 hl.1
        simp only [List.length_cons]
        omega

lemma printItems_ok (l : List (String × PrintKind)) (h : ∀ p ∈ l, p.2 ≠ .object) : ∀ idx m, m ≤ idx % 3 →
    (printItems idx l).2 = .ok () ∧ printedKeys (printItems idx l).1 = (l.filter fun p => p.2 ≠ .materials).map Prod.fst ∧ LinesOk m (printItems idx l).1 ∧
      ∀ k, (k, PrintKind.array) ∈ l → [.newline, .entry k, .newline] <:+: (printItems idx l).1 := by
  induction l with
  | nil => intro idx m _; exact ⟨rfl, rfl, trivial, by simp⟩
  | cons p l ih =>
    obtain ⟨k, pk⟩ := p
    intro idx m hm
    have ih := ih fun p hp => h p (List.mem_cons_of_mem _ hp)
    cases pk with
    | object => exact absurd rfl (h (k, .object) (List.mem_cons_self ..))
    | array =>
      obtain ⟨h1, h2, h3, h4⟩ := ih 1 0 (by norm_num)
      refine ⟨h1, ?_, ⟨by norm_num, h3⟩, ?_⟩
      · show k :: printedKeys (printItems 1 l).1 = _
        rw [h2]
        rfl
      · intro k' hk'
        rcases List.mem_cons.1 hk' with e | e
        · obtain rfl : k' = k := congrArg Prod.fst e
          exact ⟨[], (printItems 1 l).1, rfl⟩
        · obtain ⟨a, b, hab⟩ := h4 k' e
          exact ⟨.newline :: .entry k :: .newline :: a, b, by show _ = PrintTok.newline :: .entry k :: .newline :: (printItems 1 l).1; rw [← hab]; simp⟩
    | materials =>
      obtain ⟨h1, h2, h3, h4⟩ := ih (idx + 1) 0 (Nat.zero_le _)
      refine ⟨h1, ?_, h3, ?_⟩
      · show printedKeys (printItems (idx + 1) l).1 = _
        rw [h2]
        rfl
      · intro k' hk'
        rcases List.mem_cons.1 hk' with e | e
        · cases e
        · obtain ⟨a, b, hab⟩ := h4 k' e
          exact ⟨.newline :: a, b, by show _ = PrintTok.newline :: (printItems (idx + 1) l).1; rw [← hab]; simp⟩
    | plain =>
      by_cases h2' : idx % 3 = 2
      · obtain ⟨h1, h2, h3, h4⟩ := ih (idx + 1) 0 (Nat.zero_le _)
        have e : (printItems idx ((k, .plain) :: l)).1 = .entry k :: .newline :: (printItems (idx + 1) l).1 := by
          show (if idx % 3 = 2 then _ else _) ++ _ = _
          rw [if_pos h2']
          rfl
        rw [e]
        refine ⟨h1, ?_, ⟨by omega, h3⟩, ?_⟩
        · show k :: printedKeys (printItems (idx + 1) l).1 = _
          rw [h2]
          rfl
        · intro k' hk'
          rcases List.mem_cons.1 hk' with e | e
          · cases e
          · obtain ⟨a, b, hab⟩ := h4 k' e
            exact ⟨.entry k :: .newline :: a, b, by rw [← hab]; simp⟩
      · obtain ⟨h1, h2, h3, h4⟩ := ih (idx + 1) (m + 1) (by omega)
        have e : (printItems idx ((k, .plain) :: l)).1 = .entry k :: (printItems (idx + 1) l).1 := by
          show (if idx % 3 = 2 then _ else _) ++ _ = _
          rw [if_neg h2']
          rfl
        rw [e]
        refine ⟨h1, ?_, ⟨by omega, h3⟩, ?_⟩
        · show k :: printedKeys (printItems (idx + 1) l).1 = _
          rw [h2]
          rfl
        · intro k' hk'
          rcases List.mem_cons.1 hk' with e | e
          · cases e
          · obtain ⟨a, b, hab⟩ := h4 k' e
            exact ⟨.entry k :: a, b, by rw [← hab]; simp⟩

lemma printItems_end (l : List (String × PrintKind)) (h : ∀ p ∈ l, p.2 ≠ .object) : ∀ idx, [.newline] <:+ (printItems idx l).1 := by
  induction l with
  | nil => intro idx; exact List.suffix_rfl
  | cons p l ih =>
    intro idx
    have ih := ih fun q hq => h q (List.mem_cons_of_mem _ hq)
    obtain ⟨k, pk⟩ := p
    cases pk with
    | array => exact (ih 1).trans ⟨[.newline, .entry k, .newline], rfl⟩
    | materials => exact (ih (idx + 1)).trans ⟨[.newline], rfl⟩
    | plain => exact (ih (idx + 1)).trans ⟨_, rfl⟩
    | object => exact absurd rfl (h _ List.mem_cons_self)

/-- C94, what holds: a config without runtime objects (model, results, state dict) is printed completely, every key once and in order, never more than three entries on a line, every list on a line of its own, and the last line is ended.
Missing: configs that have been trained with, where it is false (`C94_trained_false`). -/
theorem C94_printed_partial (c : Cfg) (h : ∀ k, (k, Val.other) ∈ c → k = "target_frequencies") :
    (printCfg c).2 = .ok () ∧ printedKeys (printCfg c).1 = c.keys ∧ (∀ a ks b, (printCfg c).1 = a ++ List.map .entry ks ++ b → ks.length ≤ 3) ∧
      (∀ k l, (k, Val.list l) ∈ c → [.newline, .entry k, .newline] <:+: (printCfg c).1) ∧ [.newline] <:+ (printCfg c).1 := by
  have hk : ∀ p ∈ c.map fun p => (p.1, printKind p.1 p.2), p.2 ≠ .object ∧ p.2 ≠ .materials := by
    intro p hp
    obtain ⟨⟨k, v⟩, hkv, rfl⟩ := List.mem_map.1 hp
    cases v with
    | other =>
      obtain rfl := h k hkv
      exact ⟨by decide, by decide⟩
    | _ => exact ⟨by simp [printKind], by simp [printKind]⟩
  obtain ⟨h1, h2, h3, h4⟩ := printItems_ok _ (fun p hp => (hk p hp).1) 0 0 le_rfl
  refine ⟨h1, ?_, fun a ks b e => linesOk_run _ 0 a ks b h3 e, fun k l hkl => h4 k (List.mem_map.2 ⟨(k, .list l), hkl, rfl⟩), printItems_end _ (fun p hp => (hk p hp).1) 0⟩
  refine h2.trans ?_
  rw [List.filter_eq_self.2 (fun p hp => by simpa using (hk p hp).2), List.map_map]
  rfl

example : ∀ k, (k, Val.other) ∈ defaultConfig → k = "target_frequencies" := by
  intro k h
  simp [defaultConfig] at h

lemma mem_of_lookup {c : Cfg} {k : String} {v : Val} (h : c.lookup k = some v) : (k, v) ∈ c := by
  induction c with
  | nil => cases h
  | cons p c ih =>
    obtain ⟨a, b⟩ := p
    rw [List.lookup_cons] at h
    by_cases e : k = a
    · subst e
      simp only [beq_self_eq_true] at h
      obtain rfl := Option.some.inj h
      exact List.mem_cons_self ..
    · have : (k == a) = false := by simp [e]
      rw [this] at h
      exact List.mem_cons_of_mem _ (ih h)

/-- C94 is false: no config that has been trained with can be printed; the results are never shown. -/
theorem C94_trained_false (nMat : ℕ) (c c' : Cfg) (net : Option BuiltNet) (n : BuiltNet) (h : cfgAfterTraining nMat c net = .ok (c', n)) : (printCfg c').2 = .error .typeError := by
  have hm := mem_of_lookup (training_spec h).2.2.2.1
  have key : ∀ l : List (String × PrintKind), (∃ k, (k, PrintKind.object) ∈ l) → ∀ idx, (printItems idx l).2 = .error .typeError := by
    intro l
    induction l with
    | nil => rintro ⟨k, hk⟩; cases hk
    | cons p l ih =>
      obtain ⟨k, pk⟩ := p
      rintro ⟨k', hk'⟩ idx
      cases pk with
      | object => rfl
      | _ =>
        rcases List.mem_cons.1 hk' with e | e
        · cases e
        · exact ih ⟨k', e⟩ _
  exact key _ ⟨"results", List.mem_map.2 ⟨("results", .other), hm, by decide⟩⟩ 0

/-! ### C100 -/

/-- the name of a kind of network in a config -/
def NetKind.name : NetKind → String | .nerf => "nerf" | .siren => "siren" | .voxel => "voxel"

/-- specification: the network is of the configured kind, has two outputs (real and imaginary part) for regression and one per material for classification, and a voxel model has the size of the grid -/
structure NetFits (nMat : ℕ) (c : Cfg) (n : BuiltNet) : Prop where
  kind : c.lookup "model_type" = some (.str n.kind.name)
  regression : c.lookup "type" = some (.str "regression") → n.outFeatures = .int 2
  classification : c.lookup "type" = some (.str "classification") → n.outFeatures = .int nMat
  grid : n.kind = .voxel → [c.lookup "Nx", c.lookup "Ny", c.lookup "N_layers", c.lookup "N_freq"] = n.grid.map some

/-- C100, what holds: a network that is built by the training run itself fits the config.
Missing: a config that still holds the network of an earlier run (`C100_stale_false`). -/
theorem C100_fresh_partial (nMat : ℕ) (c c' : Cfg) (n : BuiltNet) (h : cfgAfterTraining nMat c none = .ok (c', n)) : NetFits nMat c' n := by
  obtain ⟨hv, hs, -, -, c1, h1, -, h2 | ⟨-, hn⟩, -⟩ := training_spec h
  · cases h2
  obtain ⟨c1', h1', hk, hout⟩ := trainEntries_spec (nMat := nMat) hv
  obtain rfl : c1' = c1 := Except.ok.inj (h1'.symm.trans h1)
  have e : ∀ k, k ∉ ["target_frequencies", "FDTD_grid_scaling", "PER_LAYER_THICKNESS", "model", "out_features", "results", "best_model_state_dict", "material_collection", "N_materials"] → c'.lookup k = c1'.lookup k := by
    intro k hk'
    rw [hs.settings k hk', hk k]
    simp only [List.mem_cons, List.not_mem_nil, or_false, not_or] at hk' ⊢
    tauto
  have hty : c'.lookup "type" = c.lookup "type" := hs.settings _ (by decide)
  unfold initNetwork at hn
  obtain ⟨k, hkind, hn⟩ := bind_ok.1 hn
  have hname : c1'.lookup "model_type" = some (.str k.name) := by
    unfold initNetworkKind at hkind
    obtain ⟨m, hm, hkind⟩ := bind_ok.1 hkind
    rw [get_ok] at hm
    split_ifs at hkind with a b d
    all_goals
      obtain rfl := Except.ok.inj hkind
      first
      | (rw [eqStr_iff.1 a] at hm; exact hm)
      | (rw [eqStr_iff.1 b] at hm; exact hm)
      | (rw [eqStr_iff.1 d] at hm; exact hm)
  have hplain : ∀ k : NetKind, k ≠ .voxel → c1'.lookup "model_type" = some (.str k.name) → (c1'.get "out_features" >>= fun o => buildLayers k c1' o >>= fun _ => (pure ⟨k, o, []⟩ : Except PyErr BuiltNet)) = .ok n → NetFits nMat c' n := by
    intro k hkv hname hn
    obtain ⟨o, ho, hn⟩ := bind_ok.1 hn
    obtain ⟨⟨⟩, -, hn⟩ := bind_ok.1 hn
    obtain rfl := Except.ok.inj hn
    rw [get_ok] at ho
    refine ⟨by rw [e _ (by decide)]; exact hname, fun ht => ?_, fun ht => ?_, fun h => absurd h hkv⟩
    · rw [hty] at ht
      rcases hout with ⟨a, b⟩ | ⟨a, b⟩
      · rw [ht] at a; simp at a
      · exact Option.some.inj (ho.symm.trans b)
    · rw [hty] at ht
      rcases hout with ⟨a, b⟩ | ⟨a, b⟩
      · exact Option.some.inj (ho.symm.trans b)
      · rw [ht] at a; simp at a
  cases k with
  | nerf => exact hplain .nerf (by decide) hname hn
  | siren => exact hplain .siren (by decide) hname hn
  | voxel =>
    obtain ⟨t, ht, hn⟩ := bind_ok.1 hn
    by_cases hr : t.eqStr "regression" = true
    · rw [if_pos hr] at hn
      obtain ⟨nx, hnx, hn⟩ := bind_ok.1 hn
      obtain ⟨ny, hny, hn⟩ := bind_ok.1 hn
      obtain ⟨nl, hnl, hn⟩ := bind_ok.1 hn
      obtain ⟨nf, hnf, hn⟩ := bind_ok.1 hn
      obtain rfl := Except.ok.inj hn
      rw [get_ok] at hnx hny hnl hnf ht
      rw [eqStr_iff.1 hr] at ht
      refine ⟨by rw [e _ (by decide)]; exact hname, fun _ => rfl, fun h => ?_, fun _ => ?_⟩
      · rw [e _ (by decide), ht] at h
        simp at h
      · rw [e _ (by decide), e _ (by decide), e _ (by decide), e _ (by decide), hnx, hny, hnl, hnf]
        rfl
    · rw [if_neg hr] at hn
      cases hn

example : ∃ c' n, cfgAfterTraining 11 defaultConfig none = .ok (c', n) := by
  exact default_trains

/-- train the default config, switch to classification, train again: does the second run return with a network of two outputs? -/
def retrained : Bool :=
  match cfgAfterTraining 11 defaultConfig none with
  | .ok (c, n) =>
    match cfgAfterTraining 11 (c.set "type" (.str "classification")) (some n) with
    | .ok (c', n') =>
      (match n'.outFeatures with | .int z => decide (z = 2) | _ => false) && (match c'.lookup "type" with | some (.str t) => t == "classification" | _ => false) &&
        (match c'.lookup "out_features" with | some (.int z) => decide (z = 11) | _ => false)
    | _ => false
  | _ => false

/-- C100 is false: after training for regression, switching the type to classification and training again keeps the network with two outputs although there are eleven materials; the preparation succeeds and the config even
claims eleven outputs. -/
theorem C100_stale_false : ∃ c c1 n c2 n', cfgAfterTraining 11 c none = .ok (c1, n) ∧ cfgAfterTraining 11 (c1.set "type" (.str "classification")) (some n) = .ok (c2, n') ∧
    c2.lookup "out_features" = some (.int 11) ∧ ¬ NetFits 11 c2 n' := by
  have hr : retrained = true := by decide +kernel
  unfold retrained at hr
  split at hr
  · rename_i c1 n h1
    split at hr
    · rename_i c2 n' h2
      simp only [Bool.and_eq_true] at hr
      obtain ⟨⟨ha, hb⟩, hc⟩ := hr
      refine ⟨defaultConfig, c1, n, c2, n', h1, h2, ?_, fun hf => ?_⟩
      · split at hc
        · rename_i z hz
          rw [hz, of_decide_eq_true hc]
        · cases hc
      · have : c2.lookup "type" = some (.str "classification") := by
          split at hb
          · rename_i t ht
            rw [ht, eq_of_beq hb]
          · cases hb
        rw [hf.classification this] at ha
        simp at ha
    · cases hr
  · cases hr

end Nidn
