/-
C136: which accepted configs can be trained.
-/
import Verif.Props.TrainConfig

namespace Nidn

/-- setting `k` is a whole number as Python's `range` takes it: an int or a bool -/
def SetToWhole (c : Cfg) (k : String) : Prop := (∃ z : ℤ, c.lookup k = some (.int z)) ∨ ∃ b : Bool, c.lookup k = some (.bool b)

/-- setting `k` is the int `z` (not a bool, not a float) -/
def SetToInt (c : Cfg) (k : String) (z : ℤ) : Prop := c.lookup k = some (.int z)

/-- the wavelengths are positive -/
def PositiveWavelengths (c : Cfg) : Prop := ∃ v w rest a b, c.lookup "physical_wavelength_range" = some (.list (v :: w :: rest)) ∧ Denotes v a ∧ Denotes w b ∧ 0 < a ∧ 0 < b

/-- the network can be built: a nerf or siren of int sizes and depth, a siren with at least one input and a positive omega, a voxel model only for regression -/
def NetworkSettings (c : Cfg) : Prop :=
  (c.lookup "model_type" = some (.str "nerf") ∧ ∃ e n, SetToInt c "encoding_dim" e ∧ 0 ≤ e ∧ SetToInt c "n_neurons" n ∧ SetToWhole c "hidden_layers") ∨
  (c.lookup "model_type" = some (.str "siren") ∧ (∃ e n, SetToInt c "encoding_dim" e ∧ 0 < e ∧ SetToInt c "n_neurons" n ∧ SetToWhole c "hidden_layers") ∧ ∃ om, SetTo c "siren_omega" om ∧ 0 < om) ∨
  (c.lookup "model_type" = some (.str "voxel") ∧ c.lookup "type" = some (.str "regression"))

/-- what an accepted config with positive wavelengths has to satisfy in addition: a seed that numpy takes, a whole number of iterations, and settings of which the network can be built -/
structure Trainable (c : Cfg) : Prop where
  seed : ∃ s, SetTo c "seed" s ∧ 0 ≤ s ∧ s < 2 ^ 32
  iterations : SetToWhole c "iterations"
  network : NetworkSettings c

lemma rangeLen_whole {c : Cfg} {k : String} : (∃ v m, c.lookup k = some v ∧ rangeLen v = .ok m) ↔ SetToWhole c k := by
  constructor
  · rintro ⟨v, m, hv, hm⟩
    cases v with
    | int z => exact Or.inl ⟨z, hv⟩
    | bool b => exact Or.inr ⟨b, hv⟩
    | _ => cases hm
  · rintro (⟨z, hz⟩ | ⟨b, hb⟩)
    · exact ⟨_, _, hz, rfl⟩
    · exact ⟨_, _, hb, rfl⟩

lemma sizeArg_ok {v : Val} {z : ℤ} : sizeArg v = .ok z ↔ v = .int z := by
  cases v <;> simp [sizeArg]

lemma fixSeeds_iff {v : Val} : fixSeeds v = .ok () ↔ ∃ s, Denotes v s ∧ 0 ≤ s ∧ s < 2 ^ 32 := by
  unfold fixSeeds
  rw [bind_ok]
  constructor
  · rintro ⟨s, hs, h⟩
    refine ⟨s, num_ok.1 hs, ?_⟩
    by_cases h1 : s < -2 ^ 63 ∨ 2 ^ 64 ≤ s
    · rw [if_pos h1] at h; cases h
    · rw [if_neg h1] at h
      by_cases h2 : s < 0 ∨ 2 ^ 32 ≤ s
      · rw [if_pos h2] at h; cases h
      · rw [not_or, not_lt, not_le] at h2
        exact h2
  · rintro ⟨s, hs, h0, h1⟩
    refine ⟨s, num_ok.2 hs, ?_⟩
    rw [if_neg, if_neg]
    · rw [not_or, not_lt, not_le]; exact ⟨h0, h1⟩
    · rw [not_or, not_lt, not_le]
      constructor <;> linarith

lemma nerfLayer_iff {a b : ℤ} : nerfLayer a b = .ok () ↔ 0 ≤ a ∧ 0 ≤ b ∧ 0 < a + b := by
  unfold nerfLayer linearSize
  by_cases h : a < 0 ∨ b < 0
  · rw [if_pos h, error_bind]
    simp only [reduceCtorEq, false_iff]
    omega
  · rw [if_neg h, ok_bind]
    split_ifs <;> simp only [false_iff, true_iff] <;> omega

lemma sineLayer_iff {f : Bool} {a b : ℤ} {om : ℚ} : sineLayer f a b om = .ok () ↔ 0 < a ∧ 0 ≤ b ∧ (f = true ∨ 0 < om) := by
  unfold sineLayer linearSize
  by_cases h : a < 0 ∨ b < 0
  · rw [if_pos h, error_bind]
    simp only [reduceCtorEq, false_iff]
    rintro ⟨h1, h2, -⟩
    omega
  · rw [if_neg h, ok_bind]
    rw [not_or, not_lt, not_lt] at h
    by_cases ha : a = 0
    · rw [if_pos ha]
      simp only [reduceCtorEq, false_iff]
      rintro ⟨h1, -⟩
      omega
    · rw [if_neg ha]
      have ha' : 0 < a := lt_of_le_of_ne h.1 (Ne.symm ha)
      cases f with
      | true => simp [ha', h.2]
      | false =>
        by_cases ho : om ≤ 0
        · simp only [Bool.false_eq_true, if_false, if_pos ho, reduceCtorEq, false_iff, false_or, not_and, not_lt]
          exact fun _ _ => ho
        · simp only [Bool.false_eq_true, if_false, if_neg ho, true_iff, false_or]
          exact ⟨ha', h.2, not_le.1 ho⟩

lemma buildNerf_iff {e o n : ℤ} {h : Val} (hn : 0 < n) (ho : 0 ≤ o) : buildNerf e o n h = .ok () ↔ 0 ≤ e ∧ ∃ m, rangeLen h = .ok m := by
  unfold buildNerf
  rw [bind_ok]
  constructor
  · rintro ⟨⟨⟩, h1, h2⟩
    obtain ⟨m, hm, -⟩ := bind_ok.1 h2
    exact ⟨(nerfLayer_iff.1 h1).1, m, hm⟩
  · rintro ⟨he, m, hm⟩
    refine ⟨(), nerfLayer_iff.2 ⟨he, by omega, by omega⟩, ?_⟩
    rw [hm, ok_bind]
    refine bind_ok.2 ⟨(), forEach_ok.2 fun i _ => ?_, nerfLayer_iff.2 ⟨by omega, ho, by omega⟩⟩
    by_cases hi : i = 4
    · rw [if_pos hi]; exact nerfLayer_iff.2 ⟨by omega, by omega, by omega⟩
    · rw [if_neg hi]; exact nerfLayer_iff.2 ⟨by omega, by omega, by omega⟩

lemma buildSiren_iff {e o n : ℤ} {h : Val} {om : ℚ} (hn : 0 < n) (ho : 0 ≤ o) : buildSiren e o n h om = .ok () ↔ 0 < e ∧ (∃ m, rangeLen h = .ok m) ∧ 0 < om := by
  unfold buildSiren
  rw [bind_ok]
  constructor
  · rintro ⟨⟨⟩, h1, h2⟩
    obtain ⟨m, hm, h2⟩ := bind_ok.1 h2
    obtain ⟨⟨⟩, -, h2⟩ := bind_ok.1 h2
    refine ⟨(sineLayer_iff.1 h1).1, ⟨m, hm⟩, ?_⟩
    simpa using (sineLayer_iff.1 h2).2.2
  · rintro ⟨he, ⟨m, hm⟩, hom⟩
    refine ⟨(), sineLayer_iff.2 ⟨he, by omega, Or.inl rfl⟩, ?_⟩
    rw [hm, ok_bind]
    exact bind_ok.2 ⟨(), forEach_ok.2 fun i _ => sineLayer_iff.2 ⟨hn, by omega, Or.inr hom⟩, sineLayer_iff.2 ⟨hn, ho, Or.inr hom⟩⟩

lemma prepFrequencies_ok {c : Cfg} (h : validateConfig c = .ok ()) (hw : PositiveWavelengths c) : prepFrequencies c = .ok () := by
  obtain ⟨v, w, rest, a, b, hl, ha, hb, h0, h1⟩ := hw
  obtain ⟨d, hd, hdl⟩ := (C07_ranges c h).distribution
  unfold prepFrequencies
  rw [get_ok.2 hl, ok_bind]
  show (Except.ok v >>= fun x => x.num >>= fun a => Except.ok w >>= fun y => y.num >>= _) = _
  rw [ok_bind, num_ok.2 ha, ok_bind, ok_bind, num_ok.2 hb, ok_bind, get_ok.2 hdl, ok_bind, if_neg (by rintro (e | e) <;> linarith)]
  simp only [List.mem_cons, List.not_mem_nil, or_false] at hd
  rcases hd with rfl | rfl
  · rw [if_pos (by decide)]
  · rw [if_neg (by decide), if_pos (by decide), if_neg (by rintro (e | e) <;> linarith)]

/-- the constructors succeed exactly on the settings described above -/
lemma initNetwork_iff {nMat : ℕ} {c c1 : Cfg} (h : validateConfig c = .ok ()) (h1 : cfgTrainEntries nMat c = .ok c1) : (∃ n, initNetwork c1 = .ok n) ↔ NetworkSettings c := by
  obtain ⟨c1', h1', hk, hout⟩ := trainEntries_spec (nMat := nMat) h
  obtain rfl : c1' = c1 := Except.ok.inj (h1'.symm.trans h1)
  have ho : ∃ o : ℤ, 0 ≤ o ∧ c1'.get "out_features" = .ok (.int o) := by
    rcases hout with ⟨-, e⟩ | ⟨-, e⟩
    · exact ⟨nMat, by positivity, get_ok.2 e⟩
    · exact ⟨2, by norm_num, get_ok.2 e⟩
  obtain ⟨o, ho0, ho⟩ := ho
  obtain ⟨hi, hf, -, hs, -⟩ := types_ok h
  have hkey : ∀ k ∈ requiredKeys, k ∉ ["target_frequencies", "out_features", "material_collection", "N_materials"] → ∃ v, c1'.get k = .ok v ∧ c.lookup k = some v := by
    intro k hk1 hk2
    have := (validate_ok.1 h).1
    simp only [checkForKeys, bind_ok, forEach_ok, require_ok] at this
    obtain ⟨_, hk3, -⟩ := this
    obtain ⟨v, hv⟩ := keys_contains_iff.1 (hk3 k hk1)
    exact ⟨v, get_ok.2 (by rw [hk k hk2, hv]), hv⟩
  obtain ⟨vm, hvm, hvm'⟩ := hkey "model_type" (by decide) (by decide)
  obtain ⟨ve, hve, hve'⟩ := hkey "encoding_dim" (by decide) (by decide)
  obtain ⟨vn, hvn, hvn'⟩ := hkey "n_neurons" (by decide) (by decide)
  obtain ⟨vh, hvh, hvh'⟩ := hkey "hidden_layers" (by decide) (by decide)
  obtain ⟨vo, hvo, hvo'⟩ := hkey "siren_omega" (by decide) (by decide)
  obtain ⟨vt, hvt, hvt'⟩ := hkey "type" (by decide) (by decide)
  have hnpos : ∀ z : ℤ, vn = .int z → 0 < z := by
    rintro z rfl
    obtain ⟨x, ⟨w, hw, hx⟩, hx0⟩ := (C07_ranges c h).positive "n_neurons" (by decide)
    obtain rfl : Val.int z = w := Option.some.inj (hvn'.symm.trans hw)
    cases hx
    exact_mod_cast hx0
  obtain ⟨w, hw, hwf⟩ := hf "siren_omega" (by decide)
  obtain rfl : w = vo := Option.some.inj (hw.symm.trans hvo')
  have hwn : ∃ om, Denotes w om := by
    cases w with
    | float x => exact ⟨x, .float x⟩
    | _ => cases hwf
  obtain ⟨om, hom⟩ := hwn
  have hlayers : ∀ k : NetKind, buildLayers k c1' (.int o) = .ok () ↔ ∃ e n, ve = .int e ∧ vn = .int n ∧ if k = .nerf then buildNerf e o n vh = .ok () else buildSiren e o n vh om = .ok () := by
    intro k
    unfold buildLayers
    rw [hve, ok_bind, bind_ok]
    constructor
    · rintro ⟨e, he, h⟩
      rw [show sizeArg (.int o) = .ok o from rfl, ok_bind, hvn, ok_bind] at h
      obtain ⟨n, hn, h⟩ := bind_ok.1 h
      rw [hvh, ok_bind] at h
      refine ⟨e, n, sizeArg_ok.1 he, sizeArg_ok.1 hn, ?_⟩
      by_cases hk : k = .nerf
      · rw [if_pos hk] at h ⊢; exact h
      · rw [if_neg hk] at h ⊢
        rw [hvo, ok_bind, num_ok.2 hom, ok_bind] at h
        exact h
    · rintro ⟨e, n, rfl, rfl, h⟩
      refine ⟨e, rfl, ?_⟩
      rw [show sizeArg (.int o) = .ok o from rfl, ok_bind, hvn, ok_bind, show sizeArg (.int n) = .ok n from rfl, ok_bind, hvh, ok_bind]
      by_cases hk : k = .nerf
      · rw [if_pos hk] at h ⊢; exact h
      · rw [if_neg hk] at h ⊢
        rw [hvo, ok_bind, num_ok.2 hom, ok_bind]
        exact h
  have hplain : ∀ k : NetKind, (∃ n, (c1'.get "out_features" >>= fun o => buildLayers k c1' o >>= fun _ => (pure ⟨k, o, []⟩ : Except PyErr BuiltNet)) = .ok n) ↔ buildLayers k c1' (.int o) = .ok () := by
    intro k
    rw [ho, ok_bind]
    constructor
    · rintro ⟨n, h⟩
      obtain ⟨⟨⟩, h, -⟩ := bind_ok.1 h
      exact h
    · intro h
      exact ⟨_, by rw [h, ok_bind]; rfl⟩
  have hwhole : (∃ m, rangeLen vh = .ok m) ↔ SetToWhole c "hidden_layers" := by
    rw [← rangeLen_whole]
    constructor
    · rintro ⟨m, hm⟩; exact ⟨vh, m, hvh', hm⟩
    · rintro ⟨v, m, hv, hm⟩
      obtain rfl := Option.some.inj (hv.symm.trans hvh')
      exact ⟨m, hm⟩
  unfold initNetwork initNetworkKind NetworkSettings SetToInt SetTo
  rw [hvm, ok_bind, hvm', hve', hvn', hvo', hvt']
  by_cases c1 : vm.eqStr "nerf" = true
  · rw [if_pos c1]
    rw [eqStr_iff] at c1
    subst c1
    refine ((hplain .nerf).trans (hlayers .nerf)).trans ?_
    simp only [if_true, Option.some.injEq, Val.str.injEq, show ("nerf" : String) ≠ "siren" by decide, show ("nerf" : String) ≠ "voxel" by decide, false_and, or_false, true_and]
    constructor
    · rintro ⟨e, n, he, hn, h⟩
      obtain ⟨a, b⟩ := (buildNerf_iff (hnpos n hn) ho0).1 h
      exact ⟨e, n, he, a, hn, hwhole.1 b⟩
    · rintro ⟨e, n, he, a, hn, b⟩
      exact ⟨e, n, he, hn, (buildNerf_iff (hnpos n hn) ho0).2 ⟨a, hwhole.2 b⟩⟩
  · rw [if_neg c1]
    by_cases c2 : vm.eqStr "siren" = true
    · rw [if_pos c2]
      rw [eqStr_iff] at c2
      subst c2
      refine ((hplain .siren).trans (hlayers .siren)).trans ?_
      simp only [reduceCtorEq, if_false, Option.some.injEq, Val.str.injEq, show ("siren" : String) ≠ "nerf" by decide, show ("siren" : String) ≠ "voxel" by decide, false_and, or_false, false_or, true_and]
      constructor
      · rintro ⟨e, n, he, hn, h⟩
        obtain ⟨a, b, d⟩ := (buildSiren_iff (hnpos n hn) ho0).1 h
        exact ⟨⟨e, n, he, a, hn, hwhole.1 b⟩, om, ⟨w, rfl, hom⟩, d⟩
      · rintro ⟨⟨e, n, he, a, hn, b⟩, om', ⟨w', hw', hom'⟩, d⟩
        obtain rfl := hw'
        obtain rfl := denotes_unique hom' hom
        exact ⟨e, n, he, hn, (buildSiren_iff (hnpos n hn) ho0).2 ⟨a, hwhole.2 b, d⟩⟩
    · rw [if_neg c2]
      have n1 : vm ≠ .str "nerf" := fun e => c1 (eqStr_iff.2 e)
      have n2 : vm ≠ .str "siren" := fun e => c2 (eqStr_iff.2 e)
      by_cases c3 : vm.eqStr "voxel" = true
      · rw [if_pos c3]
        rw [eqStr_iff] at c3
        subst c3
        simp only [Option.some.injEq, Val.str.injEq, show ("voxel" : String) ≠ "nerf" by decide, show ("voxel" : String) ≠ "siren" by decide, false_and, false_or, true_and]
        show (∃ n, (c1'.get "type" >>= _) = .ok n) ↔ _
        rw [hvt, ok_bind]
        by_cases hr : vt.eqStr "regression" = true
        · rw [if_pos hr]
          obtain ⟨v1, e1, -⟩ := hkey "Nx" (by decide) (by decide)
          obtain ⟨v2, e2, -⟩ := hkey "Ny" (by decide) (by decide)
          obtain ⟨v3, e3, -⟩ := hkey "N_layers" (by decide) (by decide)
          obtain ⟨v4, e4, -⟩ := hkey "N_freq" (by decide) (by decide)
          rw [e1, ok_bind, e2, ok_bind, e3, ok_bind, e4, ok_bind]
          exact ⟨fun _ => eqStr_iff.1 hr, fun _ => ⟨_, rfl⟩⟩
        · rw [if_neg hr]
          constructor
          · rintro ⟨n, hn⟩; cases hn
          · intro e; exact absurd (eqStr_iff.2 e) hr
      · rw [if_neg c3]
        have n3 : vm ≠ .str "voxel" := fun e => c3 (eqStr_iff.2 e)
        constructor
        · rintro ⟨n, hn⟩; cases hn
        · rintro (⟨e, -⟩ | ⟨e, -⟩ | ⟨e, -⟩)
          · exact absurd (Option.some.inj e) n1
          · exact absurd (Option.some.inj e) n2
          · exact absurd (Option.some.inj e) n3

/-- C136: an accepted config with positive wavelengths that holds no network gets past the preparation of training exactly if its seed, iterations and network settings are as described in `Trainable`, none of which validation checks. -/
theorem C136_exact (nMat : ℕ) (c : Cfg) (h : validateConfig c = .ok ()) (hw : PositiveWavelengths c) : (∃ c' n, cfgAfterTraining nMat c none = .ok (c', n)) ↔ Trainable c := by
  constructor
  · rintro ⟨c', n, ht⟩
    obtain ⟨-, -, -, -, c1, h1, -, hn, -, ⟨v, hv, hs⟩, it⟩ := training_spec ht
    obtain ⟨s, hs⟩ := fixSeeds_iff.1 hs
    refine ⟨⟨s, ⟨v, hv, hs.1⟩, hs.2⟩, rangeLen_whole.1 it, ?_⟩
    rcases hn with hn | ⟨-, hn⟩
    · cases hn
    · exact (initNetwork_iff h h1).1 ⟨n, hn⟩
  · rintro ⟨⟨s, ⟨v, hv, hs⟩, hs'⟩, it, hn⟩
    obtain ⟨c', n, ht, -⟩ := training_runs (nMat := nMat) h ⟨prepFrequencies_ok h hw, ⟨v, hv, fixSeeds_iff.2 ⟨s, hs, hs'⟩⟩, rangeLen_whole.2 it⟩ none fun _ c1 h1 => (initNetwork_iff h h1).2 hn
    exact ⟨c', n, ht⟩

example : validateConfig defaultConfig = .ok () ∧ PositiveWavelengths defaultConfig ∧ Trainable defaultConfig :=
  ⟨by decide +kernel, ⟨_, _, _, _, _, by rfl, .float _, .float _, by norm_num, by norm_num⟩, ⟨100, ⟨_, by rfl, .int 100⟩, by norm_num, by norm_num⟩, Or.inl ⟨3000, by rfl⟩,
    Or.inr (Or.inl ⟨by rfl, ⟨4, 100, by rfl, by norm_num, by rfl, Or.inl ⟨9, by rfl⟩⟩, 1, ⟨_, by rfl, .float 1⟩, by norm_num⟩)⟩

/-- C136, what holds of every accepted config: with positive wavelengths, a seed from 0 to 2^32 - 1, ints for iterations, layers and sizes, at least one input and a positive omega, training gets past its preparation.
Missing: validation checks none of these (`C136_false`). -/
theorem C136_partial (nMat : ℕ) (c : Cfg) (h : validateConfig c = .ok ()) (hw : PositiveWavelengths c) (hm : SetToOneOf c "model_type" ["nerf", "siren"])
    (s e n it hid : ℤ) (om : ℚ) (hs : SetToInt c "seed" s) (hs0 : 0 ≤ s) (hs1 : s < 2 ^ 32) (he : SetToInt c "encoding_dim" e) (he0 : 0 < e) (hn : SetToInt c "n_neurons" n)
    (hh : SetToInt c "hidden_layers" hid) (hit : SetToInt c "iterations" it) (hom : SetTo c "siren_omega" om) (hom0 : 0 < om) :
    ∃ c' net, cfgAfterTraining nMat c none = .ok (c', net) := by
  refine (C136_exact nMat c h hw).2 ⟨⟨s, ⟨_, hs, .int s⟩, by exact_mod_cast hs0, by exact_mod_cast hs1⟩, Or.inl ⟨it, hit⟩, ?_⟩
  obtain ⟨m, hm, hml⟩ := hm
  simp only [List.mem_cons, List.not_mem_nil, or_false] at hm
  rcases hm with rfl | rfl
  · exact Or.inl ⟨hml, e, n, he, he0.le, hn, Or.inl ⟨hid, hh⟩⟩
  · exact Or.inr (Or.inl ⟨hml, ⟨e, n, he, he0, hn, Or.inl ⟨hid, hh⟩⟩, om, hom, hom0⟩)

/-- the error with which training ends in its preparation, if any -/
def trainError (c : Cfg) : Option PyErr := match cfgAfterTraining 11 c none with | .ok _ => none | .error e => some e

lemma trainError_some {c : Cfg} {e : PyErr} (h : trainError c = some e) : cfgAfterTraining 11 c none = .error e := by
  unfold trainError at h
  split at h
  · cases h
  · rename_i e' he
    rw [he]
    cases h
    rfl

/-- C136 and C09 are false: validation accepts configs with a negative seed, a fractional number of iterations, a fractional number of hidden layers, no or a negative number of inputs, an omega of 0, a voxel
model for classification, and a wavelength range that ends at 0, and training with each of them raises. -/
theorem C136_false :
    (∃ c, validateConfig c = .ok () ∧ c.lookup "seed" = some (.int (-1)) ∧ cfgAfterTraining 11 c none = .error .valueError) ∧
    (∃ c, validateConfig c = .ok () ∧ c.lookup "iterations" = some (.float 100) ∧ cfgAfterTraining 11 c none = .error .typeError) ∧
    (∃ c, validateConfig c = .ok () ∧ c.lookup "hidden_layers" = some (.float 9) ∧ cfgAfterTraining 11 c none = .error .typeError) ∧
    (∃ c, validateConfig c = .ok () ∧ c.lookup "encoding_dim" = some (.int 0) ∧ cfgAfterTraining 11 c none = .error .zeroDivisionError) ∧
    (∃ c, validateConfig c = .ok () ∧ c.lookup "encoding_dim" = some (.int (-4)) ∧ cfgAfterTraining 11 c none = .error .runtimeError) ∧
    (∃ c, validateConfig c = .ok () ∧ c.lookup "siren_omega" = some (.float 0) ∧ cfgAfterTraining 11 c none = .error .runtimeError) ∧
    (∃ c, validateConfig c = .ok () ∧ c.lookup "type" = some (.str "classification") ∧ cfgAfterTraining 11 c none = .error .assertionError) ∧
    (∃ c, validateConfig c = .ok () ∧ c.lookup "physical_wavelength_range" = some (.list [.float (-1), .float 0]) ∧ cfgAfterTraining 11 c none = .error .zeroDivisionError) := by
  refine ⟨⟨defaultConfig.set "seed" (.int (-1)), by decide +kernel, by rfl, trainError_some (by decide +kernel)⟩,
    ⟨defaultConfig.set "iterations" (.float 100), by decide +kernel, by rfl, trainError_some (by decide +kernel)⟩,
    ⟨defaultConfig.set "hidden_layers" (.float 9), by decide +kernel, by rfl, trainError_some (by decide +kernel)⟩,
    ⟨defaultConfig.set "encoding_dim" (.int 0), by decide +kernel, by rfl, trainError_some (by decide +kernel)⟩,
    ⟨defaultConfig.set "encoding_dim" (.int (-4)), by decide +kernel, by rfl, trainError_some (by decide +kernel)⟩,
    ⟨defaultConfig.set "siren_omega" (.float 0), by decide +kernel, by rfl, trainError_some (by decide +kernel)⟩,
    ⟨(defaultConfig.set "type" (.str "classification")).set "model_type" (.str "voxel"), by decide +kernel, by rfl, trainError_some (by decide +kernel)⟩,
    ⟨defaultConfig.set "physical_wavelength_range" (.list [.float (-1), .float 0]), by decide +kernel, by rfl, trainError_some (by decide +kernel)⟩⟩

end Nidn
