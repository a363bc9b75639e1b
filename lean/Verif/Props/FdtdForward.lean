/-
C157: an FDTD simulation of an accepted config ends in spectra, or in a complaint about the recorded signals. First the signals: when the four recordings give coefficients, and which error they
give otherwise.
-/
import Verif.Props.FdtdWitness
import Verif.Props.FdtdEntry
import Verif.Props.FdtdLayout
import Verif.Props.FdtdSpectrum

namespace Nidn

section
variable {K : Type} [Field K] [LinearOrder K] [IsStrictOrderedRing K]

/-! ### specification -/

/-- the signal `s` sets in with sample `k`: the first one above 1e-8, or the first one at all when none is -/
def SetsIn (s : List K) (k : ℕ) : Prop :=
  (∃ v, s[k]? = some v ∧ 1 / 10 ^ 8 < |v| ∧ ∀ j < k, ∀ u, s[j]? = some u → |u| ≤ 1 / 10 ^ 8) ∨ (k = 0 ∧ ∀ u ∈ s, |u| ≤ 1 / 10 ^ 8)

/-- a free-space signal too weak to compare with: mean square at most 1e-15 -/
def TooWeak (s : List K) : Prop := (s.map fun v => v * v).sum / (s.length : K) ≤ 1 / 10 ^ 15

/-- exactly two windows of `w` samples are left from where the signal sets in -/
def TwoWindows (w : ℕ) (s : List K) : Prop := ∃ k, SetsIn s k ∧ s.length = k + 2 * w

/-- from sample `j` on the signal never gets above zero, but reaches it -/
def EndsAtZero (s : List K) : Prop := ∃ j, (∀ v ∈ s.drop j, v ≤ 0) ∧ 0 ∈ s.drop j

/-- sample by sample difference -/
def signalDiff (a b : List K) : List K := List.zipWith (fun x y => x - y) a b

/-! ### lemmas -/

omit [IsStrictOrderedRing K] in
lemma setsIn_iff (s : List K) (k : ℕ) : SetsIn s k ↔ firstNonZero s = k := by
  have key : SetsIn s (firstNonZero s) := by
    unfold firstNonZero
    rcases e : s.findIdx? (fun v => decide (1 / 10 ^ 8 < |v|)) with _ | k
    · right
      refine ⟨rfl, fun u hu => ?_⟩
      have := List.findIdx?_eq_none_iff.1 e u hu
      simpa using this
    · left
      obtain ⟨hk, h1, h2⟩ := List.findIdx?_eq_some_iff_getElem.1 e
      refine ⟨s[k], by simp, by simpa using h1, fun j hj u hu => ?_⟩
      have hjl : j < s.length := by simp at hj; omega
      have := h2 j (by simpa using hj)
      rw [List.getElem?_eq_getElem hjl] at hu
      cases hu
      simpa using this
  constructor
  · intro h
    have uniq : ∀ a b : ℕ, SetsIn s a → SetsIn s b → a ≤ b := by
      rintro a b (⟨v, hv, h1, h2⟩ | ⟨rfl, h1⟩) (⟨u, hu, h3, h4⟩ | ⟨rfl, h3⟩)
      · by_contra hlt
        exact absurd (h2 b (by omega) u hu) (not_le.2 h3)
      · exact absurd (h3 v (List.mem_of_getElem? hv)) (not_le.2 h1)
      · exact Nat.zero_le _
      · exact le_refl _
    exact le_antisymm (uniq _ _ key h) (uniq _ _ h key)
  · rintro rfl
    exact key

omit [IsStrictOrderedRing K] in
lemma firstNonZero_lt (s : List K) (h : s ≠ []) : firstNonZero s < s.length := by
  rcases (setsIn_iff s _).2 rfl with ⟨v, hv, -⟩ | ⟨e, -⟩
  · exact (List.getElem?_eq_some_iff.1 hv).1
  · rw [e]
    exact List.length_pos_iff.2 h

omit [IsStrictOrderedRing K] in
lemma twoWindows_iff (w : ℕ) (hw : 1 ≤ w) (s : List K) : TwoWindows w s ↔ (s.drop (firstNonZero s)).length = 2 * w := by
  rw [List.length_drop]
  constructor
  · rintro ⟨k, hk, hl⟩
    rw [(setsIn_iff s k).1 hk]
    omega
  · intro h
    exact ⟨_, (setsIn_iff s _).2 rfl, by omega⟩

/-- removal of the transient of a non-empty signal: an error exactly with two windows left, else a non-empty tail -/
lemma eliminate_cases (w : ℕ) (hw : 1 ≤ w) (free : Bool) (s : List K) (hs : s ≠ []) :
    (TwoWindows w s ∧ eliminateTransient w free s = .error .runtimeError) ∨ (¬ TwoWindows w s ∧ ∃ j, j < s.length ∧ eliminateTransient w free s = .ok (s.drop j)) := by
  rw [twoWindows_iff w hw]
  rcases Nat.lt_trichotomy (s.drop (firstNonZero s)).length (2 * w) with h | h | h
  · exact .inr ⟨h.ne, _, firstNonZero_lt s hs, (C63_short w free s h).1⟩
  · exact .inl ⟨h, C63_false w hw free s h⟩
  · obtain ⟨j, h1, -, h3⟩ := C63_tail_partial w hw free s h
    refine .inr ⟨h.ne', j, ?_, h1⟩
    rw [List.length_drop] at h3
    omega

lemma sumsq_pos (l : List K) (v : K) (hv : v ∈ l) (h : v ≠ 0) : 0 < (l.map fun u => u ^ 2).sum := by
  induction l with
  | nil => simp at hv
  | cons a l ih =>
    rw [List.map_cons, List.sum_cons]
    have h0 : 0 ≤ (l.map fun u => u ^ 2).sum := List.sum_nonneg fun x hx => by obtain ⟨u, -, rfl⟩ := List.mem_map.1 hx; positivity
    rcases List.mem_cons.1 hv with rfl | hv
    · positivity
    · have := ih hv
      have : 0 ≤ a ^ 2 := by positivity
      linarith

omit [Field K] [IsStrictOrderedRing K] in
lemma foldlMax_top (l : List K) (v : K) : l.foldl max v ∈ v :: l ∧ ∀ u ∈ v :: l, u ≤ l.foldl max v := by
  induction l generalizing v with
  | nil => simp
  | cons a l ih =>
    rw [List.foldl_cons]
    obtain ⟨h1, h2⟩ := ih (max v a)
    constructor
    · rcases List.mem_cons.1 h1 with h | h
      · rw [h]
        rcases max_choice v a with e | e <;> rw [e] <;> simp
      · exact List.mem_cons_of_mem _ (List.mem_cons_of_mem _ h)
    · intro u hu
      rcases List.mem_cons.1 hu with rfl | hu
      · exact (le_max_left _ _).trans (h2 _ List.mem_cons_self)
      · rcases List.mem_cons.1 hu with rfl | hu
        · exact (le_max_right _ _).trans (h2 _ List.mem_cons_self)
        · exact h2 _ (List.mem_cons_of_mem _ hu)

/-- the power of a non-empty signal is a number, and zero only for a signal that never gets above zero and reaches it -/
lemma peakPower_cases (s : List K) (hs : s ≠ []) : ∃ p, peakPower s = .ok p ∧ (p = 0 → (∀ v ∈ s, v ≤ 0) ∧ 0 ∈ s) := by
  unfold peakPower
  by_cases h : 1 < (findPeaks s).length
  · rw [if_pos h]
    refine ⟨_, rfl, fun h0 => ?_⟩
    exfalso
    obtain ⟨hord, hpk⟩ := C64_peaks s
    set l := findPeaks s with hl
    obtain ⟨a, rest, e⟩ : ∃ a rest, l = a :: rest := List.exists_cons_of_ne_nil (by intro e; simp [e] at h)
    have hne : rest ≠ [] := by intro e'; simp [e, e'] at h
    have hlast : l.getLast? = some (rest.getLast hne) := by rw [e, List.getLast?_cons, List.getLast?_eq_some_getLast hne]; rfl
    set b := rest.getLast hne with hb
    have hab : a < b := by
      rw [e, List.pairwise_cons] at hord
      exact hord.1 b (List.getLast_mem hne)
    obtain ⟨a1, a2, a3, ha, ea1, ea2, ea3, hlt1, hlt2⟩ := (hpk a).1 (by rw [e]; simp)
    obtain ⟨b1, b2, b3, hb', eb1, eb2, eb3, hlt3, hlt4⟩ := (hpk b).1 (by rw [e]; exact List.mem_cons_of_mem _ (List.getLast_mem hne))
    have hbl : b < s.length := (List.getElem?_eq_some_iff.1 eb2).1
    -- not next to each other: the sample after `a` is smaller than sample `a`
    have hab2 : a + 1 < b := by
      rcases Nat.lt_or_ge (a + 1) b with h | h
      · exact h
      · have hba : b = a + 1 := by omega
        rw [hba] at eb1 eb2
        rw [eb2] at ea3
        rw [Nat.add_sub_cancel, ea2] at eb1
        cases ea3
        cases eb1
        exact absurd hlt2 (not_lt.2 hlt3.le)
    have hseg : ∀ k v, a ≤ k → k < b → s[k]? = some v → v ∈ (s.take b).drop a := by
      intro k v h1 h2 hv
      refine List.mem_of_getElem? (i := k - a) ?_
      rw [List.getElem?_drop, Nat.add_sub_cancel' h1, List.getElem?_take_of_lt h2, hv]
    have hhead : l.head? = some a := by rw [e]; rfl
    rw [hhead, hlast, Option.getD_some, Option.getD_some] at h0
    unfold meanSquare at h0
    have hlen : ((s.take b).drop a).length = b - a := by simp; omega
    have hz : (((s.take b).drop a).map fun v => v ^ 2).sum = 0 := by
      rcases div_eq_zero_iff.1 h0 with h | h
      · exact h
      · rw [hlen, Nat.cast_eq_zero] at h
        omega
    have h1 : a2 = 0 := by
      by_contra hne
      exact absurd hz (sumsq_pos _ _ (hseg a a2 le_rfl hab ea2) hne).ne'
    have h2 : a3 = 0 := by
      by_contra hne
      exact absurd hz (sumsq_pos _ _ (hseg (a + 1) a3 (by omega) hab2 ea3) hne).ne'
    rw [h1, h2] at hlt2
    exact lt_irrefl _ hlt2
  · rw [if_neg h]
    obtain ⟨v, rest, rfl⟩ := List.exists_cons_of_ne_nil hs
    refine ⟨_, rfl, fun h0 => ?_⟩
    obtain ⟨h1, h2⟩ := foldlMax_top rest v
    have : rest.foldl max v = 0 := by
      have h3 : (rest.foldl max v) ^ 2 = 0 := by
        rcases div_eq_zero_iff.1 h0 with h | h
        · exact h
        · norm_num at h
      exact pow_eq_zero_iff (by norm_num) |>.1 h3
    rw [this] at h1 h2
    exact ⟨h2, h1⟩

lemma checkAllZero_iff (s : List K) (hs : s ≠ []) : (TooWeak s ∧ checkAllZero s = .error .valueError) ∨ (¬ TooWeak s ∧ checkAllZero s = .ok ()) := by
  have e : TooWeak s ↔ meanSquare s ≤ 1 / 10 ^ 15 := by unfold TooWeak; rw [meanSquare_eq_power]; rfl
  rw [e]
  unfold checkAllZero
  by_cases h : meanSquare s ≤ 1 / 10 ^ 15
  · exact .inl ⟨h, if_pos ⟨hs, h⟩⟩
  · exact .inr ⟨h, if_neg fun h' => h h'.2⟩

omit [LinearOrder K] [IsStrictOrderedRing K] in
lemma signalDiff_ne (a b : List K) (h : a.length = b.length) (hb : b ≠ []) : signalDiff a b ≠ [] ∧ (signalDiff a b).length = b.length := by
  have hl : (signalDiff a b).length = b.length := by simp [signalDiff, h]
  exact ⟨fun e => hb (List.length_eq_zero_iff.1 (by rw [← hl, e]; rfl)), hl⟩

/-- C157, the signals: four recordings of the same length with a window of at least one sample give two non-negative numbers, or
- a ValueError, exactly when a free-space signal is too weak;
- a RuntimeError, exactly when none is and one of the four signals that are compared (the last one is the difference of the two reflected ones) has exactly two windows left from where it sets in;
- NaN or infinity, only when a free-space signal ends in a part whose largest sample is zero. -/
theorem C157_answered (w : ℕ) (hw : 1 ≤ w) (t0 t1 r0 r1 : List K) (h0 : t0 ≠ []) (h1 : t1.length = t0.length) (h2 : r0.length = t0.length) (h3 : r1.length = t0.length) :
    (coefficients w t0 t1 r0 r1 = .error .valueError ↔ TooWeak t0 ∨ TooWeak r0) ∧
    (coefficients w t0 t1 r0 r1 = .error .runtimeError ↔ ¬ (TooWeak t0 ∨ TooWeak r0) ∧ ∃ s ∈ [t0, t1, r0, signalDiff r1 r0], TwoWindows w s) ∧
    (coefficients w t0 t1 r0 r1 = .error .nan → EndsAtZero t0 ∨ EndsAtZero r0) ∧
    (coefficients w t0 t1 r0 r1 = .error .valueError ∨ coefficients w t0 t1 r0 r1 = .error .runtimeError ∨ coefficients w t0 t1 r0 r1 = .error .nan ∨
      ∃ T R, coefficients w t0 t1 r0 r1 = .ok (T, R) ∧ 0 ≤ T ∧ 0 ≤ R) := by
  have ne : ∀ s : List K, s.length = t0.length → s ≠ [] := fun s hs e => h0 (List.length_eq_zero_iff.1 (by rw [← hs, e]; rfl))
  have n1 := ne t1 h1
  have n2 := ne r0 h2
  obtain ⟨n3, -⟩ := signalDiff_ne r1 r0 (h3.trans h2.symm) n2
  have hsub : subSignals r1 r0 = .ok (signalDiff r1 r0) := if_pos (h3.trans h2.symm)
  have hnn := C65_nonneg w t0 t1 r0 r1
  -- the outcome as one of five cases
  have key : (coefficients w t0 t1 r0 r1 = .error .valueError ∧ (TooWeak t0 ∨ TooWeak r0)) ∨
      (coefficients w t0 t1 r0 r1 = .error .runtimeError ∧ ¬ (TooWeak t0 ∨ TooWeak r0) ∧ ∃ s ∈ [t0, t1, r0, signalDiff r1 r0], TwoWindows w s) ∨
      (¬ (TooWeak t0 ∨ TooWeak r0) ∧ (¬ ∃ s ∈ [t0, t1, r0, signalDiff r1 r0], TwoWindows w s) ∧
        ((coefficients w t0 t1 r0 r1 = .error .nan ∧ (EndsAtZero t0 ∨ EndsAtZero r0)) ∨ ∃ p, coefficients w t0 t1 r0 r1 = .ok p)) := by
    unfold coefficients
    rw [hsub, ok_bind]
    rcases checkAllZero_iff t0 h0 with ⟨d, e⟩ | ⟨d, e⟩
    · exact .inl ⟨by rw [e, error_bind], .inl d⟩
    rcases checkAllZero_iff r0 n2 with ⟨d', e'⟩ | ⟨d', e'⟩
    · exact .inl ⟨by rw [e, ok_bind, e', error_bind], .inr d'⟩
    have dd : ¬ (TooWeak t0 ∨ TooWeak r0) := fun h => h.elim d d'
    right
    rw [e, ok_bind, e', ok_bind]
    rcases eliminate_cases w hw true t0 h0 with ⟨a, ea⟩ | ⟨a, j0, hj0, ea⟩
    · exact .inl ⟨by rw [ea, error_bind], dd, t0, by simp, a⟩
    rcases eliminate_cases w hw false t1 n1 with ⟨b, eb⟩ | ⟨b, j1, hj1, eb⟩
    · exact .inl ⟨by rw [ea, ok_bind, eb, error_bind], dd, t1, by simp, b⟩
    rcases eliminate_cases w hw true r0 n2 with ⟨c, ec⟩ | ⟨c, j2, hj2, ec⟩
    · exact .inl ⟨by rw [ea, ok_bind, eb, ok_bind, ec, error_bind], dd, r0, by simp, c⟩
    rcases eliminate_cases w hw false (signalDiff r1 r0) n3 with ⟨f, ef⟩ | ⟨f, j3, hj3, ef⟩
    · exact .inl ⟨by rw [ea, ok_bind, eb, ok_bind, ec, ok_bind, ef, error_bind], dd, _, by simp, f⟩
    refine .inr ⟨dd, ?_, ?_⟩
    · rintro ⟨s, hs, h⟩
      simp only [List.mem_cons, List.not_mem_nil, or_false] at hs
      rcases hs with rfl | rfl | rfl | rfl
      · exact a h
      · exact b h
      · exact c h
      · exact f h
    rw [ea, ok_bind, eb, ok_bind, ec, ok_bind, ef, ok_bind]
    have nd : ∀ (s : List K) (j : ℕ), j < s.length → s.drop j ≠ [] := fun s j hj e => by
      have := congrArg List.length e
      rw [List.length_drop, List.length_nil] at this
      omega
    obtain ⟨p0, e0, z0⟩ := peakPower_cases _ (nd _ _ hj0)
    obtain ⟨p1, e1, -⟩ := peakPower_cases _ (nd _ _ hj1)
    obtain ⟨p2, e2, z2⟩ := peakPower_cases _ (nd _ _ hj2)
    obtain ⟨p3, e3, -⟩ := peakPower_cases _ (nd _ _ hj3)
    unfold peakCoefficients
    rw [e1, ok_bind, e0, ok_bind, e3, ok_bind, e2, ok_bind]
    unfold floatDiv
    by_cases q0 : p0 = 0
    · rw [if_pos q0]
      exact .inl ⟨rfl, .inl ⟨j0, z0 q0⟩⟩
    by_cases q2 : p2 = 0
    · rw [if_neg q0, ok_bind, if_pos q2]
      exact .inl ⟨rfl, .inr ⟨j2, z2 q2⟩⟩
    rw [if_neg q0, ok_bind, if_neg q2]
    exact .inr ⟨_, rfl⟩
  rcases key with ⟨h, d⟩ | ⟨h, d, t⟩ | ⟨d, t, ⟨h, z⟩ | ⟨p, h⟩⟩
  · rw [h]
    exact ⟨⟨fun _ => d, fun _ => rfl⟩, ⟨fun h' => (by cases h'), fun h' => absurd d h'.1⟩, fun h' => (by cases h'), .inl rfl⟩
  · rw [h]
    exact ⟨⟨fun h' => (by cases h'), fun h' => absurd h' d⟩, ⟨fun _ => ⟨d, t⟩, fun _ => rfl⟩, fun h' => (by cases h'), .inr (.inl rfl)⟩
  · rw [h]
    exact ⟨⟨fun h' => (by cases h'), fun h' => absurd h' d⟩, ⟨fun h' => (by cases h'), fun h' => absurd h'.2 t⟩, fun _ => z, .inr (.inr (.inl rfl))⟩
  · rw [h]
    exact ⟨⟨fun h' => (by cases h'), fun h' => absurd h' d⟩, ⟨fun h' => (by cases h'), fun h' => absurd h'.2 t⟩, fun h' => (by cases h'), .inr (.inr (.inr ⟨p.1, p.2, rfl, hnn _ _ h⟩))⟩

/-- C157 is false of windows of no sample at all, which the solver chooses for short wavelengths: there is never an answer. -/
theorem C157_window_false (t0 t1 r0 r1 : List K) (h0 : t0 ≠ []) (h2 : r0.length = t0.length) (h3 : r1.length = t0.length) :
    coefficients 0 t0 t1 r0 r1 = .error .valueError ∨ coefficients 0 t0 t1 r0 r1 = .error .runtimeError := by
  have n2 : r0 ≠ [] := fun e => h0 (List.length_eq_zero_iff.1 (by rw [← h2, e]; rfl))
  have hsub : subSignals r1 r0 = .ok (signalDiff r1 r0) := if_pos (h3.trans h2.symm)
  unfold coefficients
  rw [hsub, ok_bind]
  rcases checkAllZero_iff t0 h0 with ⟨-, e⟩ | ⟨-, e⟩
  · exact .inl (by rw [e, error_bind])
  rcases checkAllZero_iff r0 n2 with ⟨-, e'⟩ | ⟨-, e'⟩
  · exact .inl (by rw [e, ok_bind, e', error_bind])
  right
  rw [e, ok_bind, e', ok_bind]
  have hd : t0.drop (firstNonZero t0) ≠ [] := fun e => by
    have := congrArg List.length e
    have := firstNonZero_lt t0 h0
    rw [List.length_drop, List.length_nil] at *
    omega
  have : eliminateTransient 0 true t0 = .error .runtimeError := by
    unfold eliminateTransient
    simp only
    rw [if_neg (by omega)]
    unfold cutTransient
    rw [if_pos rfl, if_neg hd]
  rw [this, error_bind]

end

/-- not vacuous: recordings that are answered, too weak, two windows long, and ending at zero -/
example : coefficients 2 ([1, 2, 1] : List ℚ) [1, 1, 1] [1, 1, 1] [1, 3 / 2, 1] = .ok (1 / 4, 1 / 4) ∧ coefficients 2 ([0, 0, 0] : List ℚ) [1, 1, 1] [1, 1, 1] [1, 1, 1] = .error .valueError ∧
    coefficients 2 ([1, 2, 1, 2] : List ℚ) [1, 1, 1, 1] [1, 1, 1, 1] [1, 1, 1, 1] = .error .runtimeError ∧ coefficients 2 ([-1, 0, 0] : List ℚ) [1, 1, 1] [1, 1, 1] [1, 1, 1] = .error .nan := by
  decide +kernel

/-! ### the solver -/

/-- The four signals of one frequency: what the transmission and the reflection line record during `niter` steps of the grid `init_fdtd` builds, once in vacuum and once with the permittivity and
absorption of entry `[0, 0]` of every layer in the cells of that layer. -/
def Recorded (c : FdtdCfg) (s wl : ℝ) (g : Grid4 ℂ) (i : ℕ) (t0 t1 r0 r1 : List ℝ) : Prop :=
  ∃ (gn : GridNumbers) (prof : List ℝ) (m : Materials ℝ) (l : List (ℤ × ℤ)), prof.sum = 1 ∧ (∀ v ∈ prof, 0 < v) ∧ layerRanges c s g.sl = .ok l ∧
    (∀ p : Pos, p 1 < 3 → p 2 < 1 →
      (∀ (j : ℕ) (r : ℤ × ℤ) (e : ℂ), l[j]? = some r → j < g.sl → g.val 0 0 j i = some e → inRange r (p 0) →
        m.invEps p 2 = 1 / e.re ∧ m.absorb p 2 = 1 / 2 * gn.courant * (1 / e.re) * layerCond wl e * gn.spacing * ETA_0) ∧
      ((∀ r ∈ l, ¬ inRange r (p 0)) → m.invEps p 2 = 1 ∧ m.absorb p 2 = 0)) ∧
    t0 = lineRecording (builtGrid c s wl gn ⟨fun _ _ => 1, fun _ _ => 0⟩ prof) (tDetectorX c s) c.niter.toNat ∧
    t1 = lineRecording (builtGrid c s wl gn m prof) (tDetectorX c s) c.niter.toNat ∧
    r0 = lineRecording (builtGrid c s wl gn ⟨fun _ _ => 1, fun _ _ => 0⟩ prof) (rDetectorX c s) c.niter.toNat ∧
    r1 = lineRecording (builtGrid c s wl gn m prof) (rDetectorX c s) c.niter.toNat

lemma Recorded.lengths {c : FdtdCfg} {s wl : ℝ} {g : Grid4 ℂ} {i : ℕ} {t0 t1 r0 r1 : List ℝ} (h : Recorded c s wl g i t0 t1 r0 r1) :
    t0.length = c.niter.toNat ∧ t1.length = c.niter.toNat ∧ r0.length = c.niter.toNat ∧ r1.length = c.niter.toNat := by
  obtain ⟨gn, prof, m, l, -, -, -, -, rfl, rfl, rfl, rfl⟩ := h
  simp [lineRecording]

/-- both simulations of a frequency run, and the coefficients are computed from the recordings -/
lemma fdtdPoint_runs (c : FdtdCfg) (s : ℝ) (h : LineSetup c s) (wl : ℝ) (g : Grid4 ℂ) (i : ℕ) (hi : i < g.sf) (hsl : g.sl = c.thick.length)
    (hchk : checkTimesteps c (sliceEntries g i) = .ok ()) (hwl : UNIT_MAGNITUDE / s ≤ wl) :
    ∃ t0 t1 r0 r1, Recorded c s wl g i t0 t1 r0 r1 ∧ fdtdPoint c s g i wl = coefficients (windowSize c.minGp wl).toNat t0 t1 r0 r1 := by
  have hlen : (layerEps g i).length = g.sl := by simp [layerEps]
  obtain ⟨gn, prof, hgn, -, ⟨hp1, -⟩, hp2, H⟩ := initFdtd_line c s h wl
  obtain ⟨l, m, hl, -, hm, hp⟩ := C59_material_partial c s h.geometry gn wl (layerEps g i) (hlen.trans hsl)
  rw [hlen] at hl
  have hmap : ∃ vs, (List.range c.niter.toNat).mapM (lineSignal gn (simSpec wl c.pulse)) = Except.ok vs := by
    choose v hv using lineSignal_ok _ s wl h.geometry.scaling hwl c.pulse gn hgn
    exact ⟨_, mapM_all_ok _ v _ fun q _ => hv q⟩
  obtain ⟨vs, hvs⟩ := hmap
  have hsim : ∀ layers m', addStack c s gn ![(xSize c s).toNat, 3, 1] wl ⟨fun _ _ => 1 / 1, fun _ _ => 0⟩ layers = .ok m' →
      simulate c s layers wl = .ok (lineRecording (builtGrid c s wl gn m' prof) (tDetectorX c s) c.niter.toNat,
        lineRecording (builtGrid c s wl gn m' prof) (rDetectorX c s) c.niter.toNat) := by
    intro layers m' hm'
    obtain ⟨t, r, hd, ht, hr⟩ := run_recordings c s wl gn m' prof c.niter.toNat
    unfold simulate
    rw [H layers m' hm', ok_bind]
    unfold runSimulation
    have hsteps : ∀ ts, runSteps ts (.int c.niter : PyNum ℝ) = c.niter.toNat := fun _ => rfl
    simp only [hsteps]
    rw [hvs, ok_bind, hd]
    simp only [ht, hr]
  have e1 : (1 / 1 : ℝ) = 1 := by norm_num
  have s0 := hsim none _ rfl
  have s1 := hsim _ m hm
  rw [e1] at s0
  refine ⟨_, _, _, _, ⟨gn, prof, m, l, hp1, hp2, hl, fun p h1 h2 => ⟨fun j r e hr hj he hin => (hp p h1 h2).1 j r e hr ?_ hin, (hp p h1 h2).2⟩, rfl, rfl, rfl, rfl⟩, ?_⟩
  · unfold layerEps
    rw [List.getElem?_map, List.getElem?_range hj]
    simp [he]
  · unfold fdtdPoint
    rw [if_neg (by omega), hchk, ok_bind, s0, ok_bind, s1, ok_bind]

/-- the loop gives the answers of all frequencies, or the error of the first that has none -/
lemma fdtdLoop_outcome (c : FdtdCfg) (s : ℝ) (g : Grid4 ℂ) : ∀ (wls : List ℝ) (i : ℕ) (rs ts : List ℝ),
    (∃ ps : List (ℝ × ℝ), fdtdLoop c s g wls i rs ts = .ok (rs ++ ps.map Prod.snd, ts ++ ps.map Prod.fst) ∧ ps.length = wls.length ∧
      ∀ j < wls.length, fdtdPoint c s g (i + j) (wls.getD j 0) = .ok (ps.getD j (0, 0))) ∨
    ∃ j < wls.length, ∃ e, fdtdLoop c s g wls i rs ts = .error e ∧ fdtdPoint c s g (i + j) (wls.getD j 0) = .error e ∧
      ∀ k < j, ∃ p, fdtdPoint c s g (i + k) (wls.getD k 0) = .ok p := by
  intro wls
  induction wls with
  | nil => exact fun i rs ts => .inl ⟨[], by simp [fdtdLoop], rfl, fun j hj => absurd hj (by simp)⟩
  | cons wl rest ih =>
    intro i rs ts
    unfold fdtdLoop
    rcases hp : fdtdPoint c s g i wl with e | p
    · exact .inr ⟨0, by simp, e, rfl, hp, fun k hk => absurd hk (by omega)⟩
    · rw [ok_bind]
      rcases ih (i + 1) (rs ++ [p.2]) (ts ++ [p.1]) with ⟨ps, h1, h2, h3⟩ | ⟨j, hj, e, h1, h2, h3⟩
      · refine .inl ⟨p :: ps, by rw [h1]; simp, by simp [h2], fun j hj => ?_⟩
        cases j with
        | zero => exact hp
        | succ j =>
          have := h3 j (by simpa using hj)
          rw [Nat.add_right_comm] at this
          exact this
      · refine .inr ⟨j + 1, by simpa using hj, e, h1, ?_, fun k hk => ?_⟩
        · rw [Nat.add_right_comm] at h2
          exact h2
        · cases k with
          | zero => exact ⟨p, hp⟩
          | succ k =>
            obtain ⟨q, hq⟩ := h3 k (by omega)
            rw [Nat.add_right_comm] at hq
            exact ⟨q, hq⟩

lemma expandThick_with (c : FdtdCfg) (fc : FreqCfg) : expandThick { c with freq := fc } = { expandThick c with freq := fc } := by
  unfold expandThick
  split_ifs <;> rfl

lemma expandThick_same (c : FdtdCfg) : (expandThick c).pml = c.pml ∧ (expandThick c).free = c.free ∧ (expandThick c).gap = c.gap ∧ (expandThick c).source = c.source ∧ (expandThick c).pulse = c.pulse ∧
    (expandThick c).sourceType = c.sourceType ∧ (expandThick c).niter = c.niter ∧ (expandThick c).minGp = c.minGp ∧ (expandThick c).freq = c.freq := by
  unfold expandThick
  split_ifs <;> exact ⟨rfl, rfl, rfl, rfl, rfl, rfl, rfl, rfl, rfl⟩

lemma expandThick_thick (c : FdtdCfg) (hl : c.thick.length = c.nLayers ∨ c.thick.length = 1) (hn : 0 < c.nLayers) (ht : ∀ t ∈ c.thick, 0 < t) :
    (expandThick c).thick.length = c.nLayers ∧ ∀ t ∈ (expandThick c).thick, 0 < t := by
  unfold expandThick
  split_ifs with h
  · obtain ⟨t, e⟩ := List.length_eq_one_iff.1 h.1
    have : (List.replicate c.nLayers c.thick).flatten = List.replicate c.nLayers t := by
      rw [e]
      induction c.nLayers with
      | zero => rfl
      | succ n ih => rw [List.replicate_succ, List.flatten_cons, ih]; rfl
    simp only [this]
    refine ⟨by simp, fun u hu => ?_⟩
    rw [(List.mem_replicate.1 hu).2]
    exact ht t (by rw [e]; simp)
  · exact ⟨by omega, ht⟩

/-- what validation leaves open about an FDTD run: positive wavelengths and thicknesses, a line source inside the grid, and at least one cell of PML -/
structure Runnable (f : FdtdCfg) (s : ℝ) : Prop where
  wavelength : 0 < f.freq.wlMin
  thick : ∀ t ∈ f.thick, 0 < t
  line : f.sourceType = "line"
  pml : 1 ≤ f.pml * s
  source : ∃ x, f.source[0]? = some x ∧ 0 ≤ x ∧ ⌊x * s⌋ < ⌊s * (2 * f.pml + 2 * f.free + (expandThick f).thick.sum)⌋

/-- a permittivity tensor of the configured size, without NaN and with positive real parts -/
structure FdtdTensor (f : FdtdCfg) (g : Grid4 ℂ) : Prop where
  cells : 0 < g.sx ∧ 0 < g.sy
  layers : g.sl = f.nLayers
  freqs : g.sf = f.freq.nFreq
  values : ∀ x < g.sx, ∀ y < g.sy, ∀ l < g.sl, ∀ i < g.sf, ∃ z, g.val x y l i = some z ∧ 0 < z.re

/-- the setup of an accepted run -/
lemma runnable_setup (c : Cfg) (f : FdtdCfg) (h : validateConfig c = .ok ()) (hf : ReadsAs c f) (s : ℝ) (hs : gridScaling f.freq.wlMin f.minGp = .ok s) (hr : Runnable f s) :
    LineSetup (expandThick f) s ∧ (expandThick f).thick.length = f.nLayers ∧ 0 < f.nLayers ∧ 1 ≤ f.niter := by
  obtain ⟨s', hs', h0, hp, hfr, hg, hroom, hlen⟩ := C59_accepted c f h hf
  rw [hs] at hs'
  cases hs'
  have rg := C07_ranges c h
  have pos : ∀ k ∈ documentedPositive, ∀ x : ℚ, SetTo c k x → 0 < x := by
    intro k hk x hx
    obtain ⟨y, hy, hy'⟩ := rg.positive k hk
    rwa [setTo_unique hx hy]
  have hn : 0 < f.nLayers := by
    have := pos "N_layers" (by decide) _ hf.nLayers
    exact_mod_cast this
  have hni : 1 ≤ f.niter := by
    have := pos "FDTD_niter" (by decide) _ hf.niter
    have : 0 < f.niter := by exact_mod_cast this
    omega
  obtain ⟨e1, e2, e3, e4, e5, e6, e7, -, -⟩ := expandThick_same f
  obtain ⟨t1, t2⟩ := expandThick_thick f hlen hn hr.thick
  obtain ⟨x, hx, hx0, hxlt⟩ := hr.source
  have hsc : sourceCell (expandThick f) s = ⌊x * s⌋ := by
    unfold sourceCell
    rw [e4, hx, Option.getD_some, pyTrunc_of_nonneg (by positivity)]
  have hsum : 0 ≤ (expandThick f).thick.sum := List.sum_nonneg fun t ht => (t2 t ht).le
  refine ⟨⟨⟨h0, by rw [e1]; exact hp, by rw [e2]; exact hfr, by rw [e3]; exact hg, by rw [e2, e3]; exact hroom, ?_, t2⟩, ?_, by rw [e6]; exact hr.line, ?_, ?_, ?_, ?_⟩, t1, hn, hni⟩
  · intro e
    rw [e, List.length_nil] at t1
    omega
  · unfold pmlCells
    rw [e1, pyTrunc_of_nonneg (by positivity)]
    exact Int.le_floor.2 (by exact_mod_cast hr.pml)
  · rw [e5]
    obtain ⟨p, hp', hl⟩ := rg.pulse
    rw [hf.pulse] at hl
    cases hl
    simp only [List.mem_cons, List.not_mem_nil, or_false] at hp'
    tauto
  · rw [e4]
    obtain ⟨l, hl, hden⟩ := hf.source
    obtain ⟨l', hl', hlen'⟩ := rg.sourcePosition
    rw [hl] at hl'
    cases hl'
    have : l.length = f.source.length := hden.length_eq
    omega
  · rw [hsc]
    exact Int.floor_nonneg.2 (by positivity)
  · rw [hsc]
    unfold xSize
    rw [e1, e2, pyTrunc_of_nonneg (by positivity), mul_comm f.pml 2, mul_comm f.free 2]
    exact hxlt

/-- the wavelengths of an accepted config span at least one cell -/
lemma accepted_wavelengths (c : Cfg) (f : FdtdCfg) (h : validateConfig c = .ok ()) (hf : ReadsAs c f) (s : ℝ) (hs : gridScaling f.freq.wlMin f.minGp = .ok s) (hw : 0 < f.freq.wlMin) :
    ∃ wls fs fc, getFrequencyPoints f.freq = .ok (wls, fs, fc) ∧ fc.wlMin = f.freq.wlMin ∧ wls.length = f.freq.nFreq ∧ (∀ w ∈ wls, f.freq.wlMin ≤ w ∧ w ≤ f.freq.wlMax) ∧
      ∀ w ∈ wls, UNIT_MAGNITUDE / s ≤ w := by
  have rg := C07_ranges c h
  have hd : f.freq.distribution = "linear" ∨ f.freq.distribution = "log" := by
    obtain ⟨d, hd, hl⟩ := rg.distribution
    rw [hf.distribution] at hl
    cases hl
    simpa using hd
  have hle : f.freq.wlMin ≤ f.freq.wlMax := by
    obtain ⟨v, w, rest, a, b, hl, ha, hb, hab⟩ := rg.wavelengths
    obtain ⟨l, hl', rest', hden⟩ := hf.wavelengths
    rw [hl] at hl'
    cases hl'
    cases hden with
    | cons h1 h2 =>
      cases h2 with
      | cons h2 _ =>
        obtain ⟨q1, d1, e1⟩ := h1
        obtain ⟨q2, d2, e2⟩ := h2
        rw [e1, e2, denotes_unique d1 ha, denotes_unique d2 hb]
        exact_mod_cast hab.le
  obtain ⟨wls, fs, c', hfp, hlen, -, -, -, hin, rfl, -⟩ := C03_frequency_points f.freq hw hle hd
  obtain ⟨s', hs', h10, -⟩ := C60_smallest f.freq.wlMin f.minGp hw
  rw [hs] at hs'
  cases hs'
  obtain ⟨s', hs', h0, -⟩ := C59_accepted c f h hf
  rw [hs] at hs'
  cases hs'
  refine ⟨wls, fs, _, hfp, rfl, hlen, hin, fun w hw' => ?_⟩
  have hU : UNIT_MAGNITUDE = 1e-6 := by unfold UNIT_MAGNITUDE; norm_num
  have h1 : f.freq.wlMin / 1e-6 ≤ w / 1e-6 := div_le_div_of_nonneg_right (hin w hw').1 (by norm_num)
  have h2 : 10 ≤ s * (w / 1e-6) := h10.trans (mul_le_mul_of_nonneg_left h1 h0.le)
  rw [hU, div_le_iff₀ h0]
  have h3 : w / 1e-6 * 1e-6 = w := by norm_num
  nlinarith [h2]

/-- C157: an FDTD simulation of an accepted config gives as many reflectances and transmittances as there are frequencies, each computed from the four recordings of that frequency and not negative,
or the error of the first frequency whose recordings give none: ValueError, RuntimeError or NaN (`C157_answered` says when). Nothing else can go wrong. Missing: point sources, sources outside the grid,
less than one cell of PML, wavelengths or thicknesses that are not positive (validation accepts them), and overflow of the fields. -/
theorem C157_runs_partial (c : Cfg) (f : FdtdCfg) (h : validateConfig c = .ok ()) (hf : ReadsAs c f) (s : ℝ) (hs : gridScaling f.freq.wlMin f.minGp = .ok s) (hr : Runnable f s) (g : Grid4 ℂ)
    (hg : FdtdTensor f g) :
    ∃ (wls : List ℝ) (t0 t1 r0 r1 : ℕ → List ℝ), wls.length = f.freq.nFreq ∧ (∀ w ∈ wls, f.freq.wlMin ≤ w ∧ w ≤ f.freq.wlMax) ∧
      (∀ i < f.freq.nFreq, Recorded (expandThick f) s (wls.getD i 0) g i (t0 i) (t1 i) (r0 i) (r1 i)) ∧
      ((∃ Rs Ts c', computeSpectrumFdtd g f = .ok ((Rs, Ts), c') ∧ Rs.length = f.freq.nFreq ∧ Ts.length = f.freq.nFreq ∧
          ∀ i < f.freq.nFreq, 0 ≤ Rs.getD i 0 ∧ 0 ≤ Ts.getD i 0 ∧
            coefficients (windowSize f.minGp (wls.getD i 0)).toNat (t0 i) (t1 i) (r0 i) (r1 i) = .ok (Ts.getD i 0, Rs.getD i 0)) ∨
        ∃ i < f.freq.nFreq, ∃ e ∈ [PyErr.valueError, .runtimeError, .nan], computeSpectrumFdtd g f = .error e ∧
          coefficients (windowSize f.minGp (wls.getD i 0)).toNat (t0 i) (t1 i) (r0 i) (r1 i) = .error e ∧
          ∀ j < i, ∃ p, coefficients (windowSize f.minGp (wls.getD j 0)).toNat (t0 j) (t1 j) (r0 j) (r1 j) = .ok p) := by
  obtain ⟨hset, hlen, hn, hni⟩ := runnable_setup c f h hf s hs hr
  obtain ⟨wls, fs, fc, hfp, hfc, hwl, hin, hcell⟩ := accepted_wavelengths c f h hf s hs hr.wavelength
  obtain ⟨-, -, -, -, -, -, e7, e8, e9⟩ := expandThick_same f
  set cr : FdtdCfg := { expandThick { f with freq := fc } with scaling := some s } with hcr
  have hcr' : cr = { expandThick f with freq := fc, scaling := some s } := by rw [hcr, expandThick_with]
  have hset' : LineSetup cr s := by
    rw [hcr']
    exact ⟨⟨hset.geometry.scaling, hset.geometry.pml, hset.geometry.free, hset.geometry.gap, hset.geometry.room, hset.geometry.layers, hset.geometry.thick⟩, hset.pml, hset.line, hset.pulse, hset.source,
      hset.sourceLow, hset.sourceHigh⟩
  have hmem : ∀ i < f.freq.nFreq, wls.getD i 0 ∈ wls := fun i hi => by
    rw [List.getD_eq_getElem _ _ (by omega : i < wls.length)]
    exact List.getElem_mem _
  have hpoint : ∀ i, ∃ t0 t1 r0 r1, i < f.freq.nFreq → Recorded (expandThick f) s (wls.getD i 0) g i t0 t1 r0 r1 ∧
      fdtdPoint cr s g i (wls.getD i 0) = coefficients (windowSize f.minGp (wls.getD i 0)).toNat t0 t1 r0 r1 := by
    intro i
    by_cases hi : i < f.freq.nFreq
    · have hif : i < g.sf := by rw [hg.freqs]; exact hi
      obtain ⟨z, hz, hz0⟩ := hg.values 0 hg.cells.1 0 hg.cells.2 0 (by rw [hg.layers]; exact hn) i hif
      have hchk : checkTimesteps cr (sliceEntries g i) = .ok () :=
        C79_warns_partial cr g i (fun x hx y hy l hl e => by obtain ⟨z, hz, -⟩ := hg.values x hx y hy l hl i hif; rw [e] at hz; cases hz)
          ⟨0, hg.cells.1, 0, hg.cells.2, 0, by rw [hg.layers]; exact hn, z, hz, hz0.le⟩
      obtain ⟨t0, t1, r0, r1, hrec, hp⟩ := fdtdPoint_runs cr s hset' (wls.getD i 0) g i hif (by rw [hcr']; exact hg.layers.trans hlen.symm) hchk (hcell _ (hmem i hi))
      refine ⟨t0, t1, r0, r1, fun _ => ⟨?_, ?_⟩⟩
      · rw [hcr'] at hrec
        exact hrec
      · rw [hp, show cr.minGp = f.minGp by rw [hcr']; exact e8]
    · exact ⟨[], [], [], [], fun h => absurd h hi⟩
  choose t0 t1 r0 r1 hP using hpoint
  have hcomp : computeSpectrumFdtd g f = (fdtdLoop cr s g wls 0 [] []).map fun rt => (rt, cr) := by
    unfold computeSpectrumFdtd
    rw [hfp, ok_bind]
    have hsf : ¬ (g.sx = 0 ∨ g.sy = 0 ∨ g.sf = 0) := by
      have := hg.cells
      have rg := C07_ranges c h
      obtain ⟨y, hy, hy0⟩ := rg.positive "N_freq" (by decide)
      have : 0 < f.freq.nFreq := by
        rw [← setTo_unique hf.nFreq hy] at hy0
        exact_mod_cast hy0
      have := hg.freqs
      omega
    rw [if_neg hsf]
    have e : gridScaling (expandThick { f with freq := fc }).freq.wlMin (expandThick { f with freq := fc }).minGp = .ok s := by
      rw [(expandThick_freq _).1, (expandThick_freq _).2, hfc]
      exact hs
    simp only
    rw [e, ok_bind]
    rcases fdtdLoop cr s g wls 0 [] [] with e | v
    · rfl
    · rfl
  refine ⟨wls, t0, t1, r0, r1, hwl, hin, fun i hi => (hP i hi).1, ?_⟩
  rcases fdtdLoop_outcome cr s g wls 0 [] [] with ⟨ps, h1, h2, h3⟩ | ⟨i, hi, e, h1, h2, h3⟩
  · left
    refine ⟨ps.map Prod.snd, ps.map Prod.fst, cr, by rw [hcomp, h1]; rfl, by simp [h2, hwl], by simp [h2, hwl], fun i hi => ?_⟩
    have hp := h3 i (by omega)
    rw [Nat.zero_add, (hP i hi).2] at hp
    have hi' : i < ps.length := by omega
    have e1 : (ps.map Prod.snd).getD i 0 = (ps.getD i (0, 0)).2 := by
      rw [List.getD_eq_getElem _ _ (by simpa using hi'), List.getD_eq_getElem _ _ hi', List.getElem_map]
    have e2 : (ps.map Prod.fst).getD i 0 = (ps.getD i (0, 0)).1 := by
      rw [List.getD_eq_getElem _ _ (by simpa using hi'), List.getD_eq_getElem _ _ hi', List.getElem_map]
    rw [e1, e2]
    obtain ⟨a, b⟩ := C65_nonneg _ _ _ _ _ _ _ hp
    exact ⟨b, a, hp⟩
  · right
    have hi' : i < f.freq.nFreq := by omega
    rw [Nat.zero_add, (hP i hi').2] at h2
    refine ⟨i, hi', e, ?_, by rw [hcomp, h1]; rfl, h2, fun j hj => ?_⟩
    · obtain ⟨l0, l1, l2, l3⟩ := (hP i hi').1.lengths
      rw [e7] at l0 l1 l2 l3
      have hne : t0 i ≠ [] := fun e => by rw [e, List.length_nil] at l0; omega
      simp only [List.mem_cons, List.not_mem_nil, or_false]
      rcases Nat.eq_zero_or_pos (windowSize f.minGp (wls.getD i 0)).toNat with hw | hw
      · rw [hw] at h2
        rcases C157_window_false (t0 i) (t1 i) (r0 i) (r1 i) hne (by omega) (by omega) with h | h <;> rw [h] at h2 <;> cases h2 <;> simp
      · rcases (C157_answered _ hw (t0 i) (t1 i) (r0 i) (r1 i) hne (by omega) (by omega) (by omega)).2.2.2 with h | h | h | ⟨T, R, h, -⟩ <;> rw [h] at h2 <;> cases h2 <;> simp
    · obtain ⟨p, hp⟩ := h3 j hj
      rw [Nat.zero_add, (hP j (by omega)).2] at hp
      exact ⟨p, hp⟩

/-- the hypotheses are met by an accepted config with an empty structure -/
example : validateConfig emptyConfig = .ok () ∧ ReadsAs emptyConfig emptyFdtd ∧ gridScaling emptyFdtd.freq.wlMin emptyFdtd.minGp = .ok 10 ∧ Runnable emptyFdtd 10 ∧ FdtdTensor emptyFdtd emptyGrid := by
  refine ⟨emptyConfig_accepted, emptyConfig_reads, ?_, ⟨by norm_num [emptyFdtd], by simp [emptyFdtd], rfl, by norm_num [emptyFdtd], 3 / 5, rfl, by norm_num, ?_⟩, ⟨by decide, rfl, rfl, ?_⟩⟩
  · unfold gridScaling pyDiv UNIT_MAGNITUDE emptyFdtd
    norm_num [Except.map]
  · have : expandThick emptyFdtd = emptyFdtd := rfl
    rw [this]
    norm_num [emptyFdtd]
  · intro x _ y _ l _ i _
    exact ⟨1, rfl, by norm_num⟩

/-- An accepted config whose wavelengths are all below a third of the distance of two grid points at the configured minimum density is never answered, although the solver refines its grid for it: the window of
the transient test is computed with the configured density and is empty. -/
theorem C157_short (c : Cfg) (f : FdtdCfg) (h : validateConfig c = .ok ()) (hf : ReadsAs c f) (s : ℝ) (hs : gridScaling f.freq.wlMin f.minGp = .ok s) (hr : Runnable f s) (g : Grid4 ℂ)
    (hg : FdtdTensor f g) (hshort : 3 * f.minGp * f.freq.wlMax < 1e-6) :
    computeSpectrumFdtd g f = .error .valueError ∨ computeSpectrumFdtd g f = .error .runtimeError := by
  obtain ⟨wls, t0, t1, r0, r1, hlen, hin, hrec, hout⟩ := C157_runs_partial c f h hf s hs hr g hg
  obtain ⟨-, -, -, hni⟩ := runnable_setup c f h hf s hs hr
  have rg := C07_ranges c h
  have hgp : 0 < f.minGp := by
    obtain ⟨q, hq, e⟩ := hf.minGp
    obtain ⟨y, hy, hy0⟩ := rg.positive "FDTD_min_gridpoints_per_unit_magnitude" (by decide)
    rw [e, setTo_unique hq hy]
    exact_mod_cast hy0
  have hN : 0 < f.freq.nFreq := by
    obtain ⟨y, hy, hy0⟩ := rg.positive "N_freq" (by decide)
    rw [← setTo_unique hf.nFreq hy] at hy0
    exact_mod_cast hy0
  have hw : ∀ i < f.freq.nFreq, (windowSize f.minGp (wls.getD i 0)).toNat = 0 := by
    intro i hi
    have hm : wls.getD i 0 ∈ wls := by
      rw [List.getD_eq_getElem _ _ (by omega : i < wls.length)]
      exact List.getElem_mem _
    obtain ⟨h1, h2⟩ := hin _ hm
    have h0 := hr.wavelength
    have hpos : 0 ≤ 3 * f.minGp * (wls.getD i 0 / (1 / 10 ^ 6)) := mul_nonneg (by positivity) (div_nonneg (by linarith) (by norm_num))
    have hlt : 3 * f.minGp * (wls.getD i 0 / (1 / 10 ^ 6)) < 1 := by
      have : 3 * f.minGp * wls.getD i 0 ≤ 3 * f.minGp * f.freq.wlMax := mul_le_mul_of_nonneg_left h2 (by positivity)
      have e : 3 * f.minGp * (wls.getD i 0 / (1 / 10 ^ 6)) = 3 * f.minGp * wls.getD i 0 * 10 ^ 6 := by ring
      rw [e]
      have h6 : 3 * f.minGp * wls.getD i 0 < 1 / 10 ^ 6 := lt_of_le_of_lt this (hshort.trans_le (by norm_num))
      calc 3 * f.minGp * wls.getD i 0 * 10 ^ 6 < 1 / 10 ^ 6 * 10 ^ 6 := mul_lt_mul_of_pos_right h6 (by norm_num)
        _ = 1 := by norm_num
    unfold windowSize
    rw [pyTrunc_of_nonneg hpos]
    have := Int.floor_lt.2 (show 3 * f.minGp * (wls.getD i 0 / (1 / 10 ^ 6)) < ((1 : ℤ) : ℝ) by exact_mod_cast hlt)
    omega
  have hbad : ∀ i < f.freq.nFreq, coefficients (windowSize f.minGp (wls.getD i 0)).toNat (t0 i) (t1 i) (r0 i) (r1 i) = .error .valueError ∨
      coefficients (windowSize f.minGp (wls.getD i 0)).toNat (t0 i) (t1 i) (r0 i) (r1 i) = .error .runtimeError := by
    intro i hi
    obtain ⟨l0, l1, l2, l3⟩ := (hrec i hi).lengths
    rw [(expandThick_same f).2.2.2.2.2.2.1] at l0 l1 l2 l3
    rw [hw i hi]
    exact C157_window_false _ _ _ _ (fun e => by rw [e, List.length_nil] at l0; omega) (by omega) (by omega)
  rcases hout with ⟨Rs, Ts, c', -, -, -, hall⟩ | ⟨i, hi, e, -, h1, h2, -⟩
  · obtain ⟨-, -, h3⟩ := hall 0 hN
    rcases hbad 0 hN with h | h <;> rw [h] at h3 <;> cases h3
  · rcases hbad i hi with h | h <;> rw [h] at h2 <;> cases h2
    · exact .inl h1
    · exact .inr h1

/-- `emptyConfig` at wavelengths of 20 to 30 nanometres -/
def shortConfig : Cfg := emptyConfig.set "physical_wavelength_range" (.list [.float (1 / 50000000), .float (3 / 100000000)])

/-- what the solver reads from it -/
noncomputable def shortFdtd : FdtdCfg := { emptyFdtd with freq := ⟨1 / 50000000, 3 / 100000000, 1, "linear", none⟩ }

lemma shortConfig_reads : ReadsAs shortConfig shortFdtd where
  wavelengths := ⟨_, rfl, [], .cons ⟨_, .float _, by norm_num [shortFdtd]⟩ (.cons ⟨_, .float _, by norm_num [shortFdtd]⟩ .nil)⟩
  nFreq := ⟨_, rfl, Denotes.int 1⟩
  distribution := rfl
  minGp := ⟨_, ⟨_, rfl, .int 10⟩, by norm_num [shortFdtd, emptyFdtd]⟩
  pml := ⟨_, ⟨_, rfl, .float _⟩, by norm_num [shortFdtd, emptyFdtd]⟩
  free := ⟨_, ⟨_, rfl, .float _⟩, by norm_num [shortFdtd, emptyFdtd]⟩
  thick := ⟨_, rfl, .cons ⟨_, .float _, by norm_num⟩ .nil⟩
  nLayers := ⟨_, rfl, Denotes.int 1⟩
  gap := ⟨_, rfl, Denotes.int 1⟩
  source := ⟨_, rfl, .cons ⟨_, .float _, by norm_num⟩ (.cons ⟨_, .float _, by norm_num⟩ .nil)⟩
  pulse := rfl
  sourceType := rfl
  niter := ⟨_, rfl, Denotes.int 4⟩

lemma short_runnable : gridScaling shortFdtd.freq.wlMin shortFdtd.minGp = .ok 500 ∧ Runnable shortFdtd 500 := by
  refine ⟨?_, ⟨by norm_num [shortFdtd], by simp [shortFdtd, emptyFdtd], rfl, by norm_num [shortFdtd, emptyFdtd], 3 / 5, rfl, by norm_num, ?_⟩⟩
  · unfold gridScaling pyDiv UNIT_MAGNITUDE shortFdtd emptyFdtd
    norm_num [Except.map]
  · have : expandThick shortFdtd = shortFdtd := rfl
    rw [this]
    norm_num [shortFdtd, emptyFdtd]

/-- C157, that an accepted config is answered, is false: this one is accepted and has a line source, an absorbing layer and cells fine enough for its wavelengths, and no permittivity tensor gives it spectra. -/
theorem C157_short_false : validateConfig shortConfig = .ok () ∧ ReadsAs shortConfig shortFdtd ∧ Runnable shortFdtd 500 ∧ (∃ g, FdtdTensor shortFdtd g) ∧
    ∀ g, FdtdTensor shortFdtd g → computeSpectrumFdtd g shortFdtd = .error .valueError ∨ computeSpectrumFdtd g shortFdtd = .error .runtimeError := by
  have hv : validateConfig shortConfig = .ok () := by decide +kernel
  refine ⟨hv, shortConfig_reads, short_runnable.2, ⟨emptyGrid, by decide, rfl, rfl, fun x _ y _ l _ i _ => ⟨1, rfl, by norm_num⟩⟩, fun g hg => ?_⟩
  exact C157_short _ _ hv shortConfig_reads 500 short_runnable.1 short_runnable.2 g hg (by norm_num [shortFdtd, emptyFdtd])

end Nidn
