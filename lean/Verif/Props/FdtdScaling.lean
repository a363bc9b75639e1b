/-
C65 (only relative signal strength matters) and C66 (identical signals).
-/
import Mathlib.Data.Rat.Floor
import Verif.Props.FdtdCoefficients

set_option linter.unusedSectionVars false

namespace Nidn

section
variable {K : Type} [Field K] [LinearOrder K] [IsStrictOrderedRing K]

/-- specification: a signal times a constant -/
def scaleBy (k : K) (s : List K) : List K := s.map fun v => k * v

lemma getD_scaleBy (k : K) (s : List K) (i : ℕ) : (scaleBy k s).getD i 0 = k * s.getD i 0 := by
  have := List.getD_map (l := s) (d := (0 : K)) (n := i) (fun v => k * v)
  rw [mul_zero] at this
  exact this

lemma length_scaleBy (k : K) (s : List K) : (scaleBy k s).length = s.length := by simp [scaleBy]

lemma findPeaks_scaleBy (k : K) (hk : 0 < k) (s : List K) : findPeaks (scaleBy k s) = findPeaks s := by
  unfold findPeaks
  rw [length_scaleBy]
  congr 1
  apply List.filter_congr
  intro i _
  simp only [getD_scaleBy, ← mul_sub, mul_pos_iff_of_pos_left hk]

lemma meanSquare_scaleBy (k : K) (s : List K) : meanSquare (scaleBy k s) = k ^ 2 * meanSquare s := by
  unfold meanSquare
  rw [length_scaleBy]
  have : ((scaleBy k s).map fun v => v ^ 2).sum = k ^ 2 * (s.map fun v => v ^ 2).sum := by
    unfold scaleBy
    induction s with
    | nil => simp
    | cons a s ih =>
      simp only [List.map_cons, List.sum_cons] at ih ⊢
      rw [ih]; ring
  rw [this]; ring

lemma foldl_max_scaleBy (k : K) (hk : 0 < k) (s : List K) (a : K) : (scaleBy k s).foldl max (k * a) = k * s.foldl max a := by
  induction s generalizing a with
  | nil => rfl
  | cons b s ih =>
    show (scaleBy k s).foldl max (max (k * a) (k * b)) = _
    rw [← mul_max_of_nonneg _ _ hk.le, ih]
    rfl

lemma listMax_scaleBy (k : K) (hk : 0 < k) (s : List K) : listMax (scaleBy k s) = k * listMax s := by
  cases s with
  | nil => simp [scaleBy, listMax]
  | cons a s => exact foldl_max_scaleBy k hk s a

lemma drop_scaleBy (k : K) (n : ℕ) (s : List K) : (scaleBy k s).drop n = scaleBy k (s.drop n) := by simp [scaleBy]
lemma take_scaleBy (k : K) (n : ℕ) (s : List K) : (scaleBy k s).take n = scaleBy k (s.take n) := by simp [scaleBy]

lemma peakPower_scaleBy (k : K) (hk : 0 < k) (s : List K) : peakPower (scaleBy k s) = (peakPower s).map fun p => k ^ 2 * p := by
  unfold peakPower
  rw [findPeaks_scaleBy k hk, take_scaleBy, drop_scaleBy, meanSquare_scaleBy]
  by_cases h : 1 < (findPeaks s).length
  · rw [if_pos h, if_pos h]; rfl
  · rw [if_neg h, if_neg h]
    cases s with
    | nil => rfl
    | cons a s =>
      show Except.ok (((scaleBy k s).foldl max (k * a)) ^ 2 / 2) = Except.ok (k ^ 2 * ((s.foldl max a) ^ 2 / 2))
      rw [foldl_max_scaleBy k hk]
      congr 1; ring

lemma splitChunks_scaleBy (k : K) (w : ℕ) (s : List K) : splitChunks w (scaleBy k s) = (splitChunks w s).map (scaleBy k) := by
  unfold splitChunks
  rw [length_scaleBy, List.map_map]
  apply List.map_congr_left
  intro i _
  simp only [Function.comp, drop_scaleBy, take_scaleBy]

lemma mergeLast_scaleBy (k : K) (c : List (List K)) : mergeLast (c.map (scaleBy k)) = (mergeLast c).map (scaleBy k) := by
  have hl : ∀ l : List (List K), (l.map (scaleBy k)).getLast?.getD [] = scaleBy k (l.getLast?.getD []) := by
    intro l
    rw [List.getLast?_map]
    cases l.getLast? <;> rfl
  have ha : ∀ x y : List K, scaleBy k (x ++ y) = scaleBy k x ++ scaleBy k y := fun x y => List.map_append
  unfold mergeLast
  rw [List.map_append, List.map_cons, List.map_nil, ha, ← List.map_dropLast, ← List.map_dropLast, hl, hl]

lemma chunkRange_scaleBy (k : K) (hk : 0 < k) (c : List K) : chunkRange (scaleBy k c) = k * chunkRange c := by
  unfold chunkRange
  have : (scaleBy k c).map (fun v => -v) = scaleBy k (c.map fun v => -v) := by
    simp [scaleBy]
  rw [this, listMax_scaleBy k hk, listMax_scaleBy k hk]; ring

lemma absDiffs_scaleBy (k : K) (hk : 0 < k) (r : List K) : absDiffs (scaleBy k r) = scaleBy k (absDiffs r) := by
  unfold absDiffs scaleBy
  rw [← List.map_tail, List.zipWith_map, List.map_zipWith]
  congr 1
  funext a b
  rw [← mul_sub, abs_mul, abs_of_pos hk]

lemma changeOf_scaleBy (k : K) (hk : 0 < k) (w : ℕ) (s : List K) : changeOf w (scaleBy k s) = scaleBy k (changeOf w s) := by
  unfold changeOf
  rw [splitChunks_scaleBy, mergeLast_scaleBy, ← absDiffs_scaleBy k hk, List.map_map]
  congr 1
  unfold scaleBy
  rw [List.map_map]
  apply List.map_congr_left
  intro c _
  exact chunkRange_scaleBy k hk c

lemma relBelow_scaleBy (k : K) (hk : 0 < k) (c : List K) (thr : K) : relBelow (scaleBy k c) thr = relBelow c thr := by
  funext i
  unfold relBelow
  rw [listMax_scaleBy k hk, getD_scaleBy, mul_div_mul_left _ _ hk.ne']
  by_cases h : listMax c = 0
  · rw [if_pos h, if_pos (by rw [h, mul_zero])]
  · rw [if_neg h, if_neg (mul_ne_zero hk.ne' h)]

lemma scaleBy_eq_nil (k : K) (c : List K) : scaleBy k c = [] ↔ c = [] := by simp [scaleBy]

lemma cutTransient_scaleBy (k : K) (hk : 0 < k) (w : ℕ) (thr : K) (s : List K) :
    cutTransient w thr (scaleBy k s) = (cutTransient w thr s).map (scaleBy k) := by
  unfold cutTransient
  by_cases hw : w = 0
  · rw [if_pos hw, if_pos hw]
    by_cases hs : s = []
    · rw [if_pos hs, if_pos ((scaleBy_eq_nil k s).2 hs)]; rfl
    · rw [if_neg hs, if_neg (fun h => hs ((scaleBy_eq_nil k s).1 h))]; rfl
  · rw [if_neg hw, if_neg hw]
    show (if changeOf w (scaleBy k s) = [] then _ else (scanDown (relBelow (changeOf w (scaleBy k s)) thr) ((changeOf w (scaleBy k s)).length - 1)).map _)
      = Except.map _ (if changeOf w s = [] then _ else (scanDown (relBelow (changeOf w s) thr) ((changeOf w s).length - 1)).map _)
    rw [changeOf_scaleBy k hk, relBelow_scaleBy k hk, length_scaleBy]
    by_cases hc : changeOf w s = []
    · rw [if_pos hc, if_pos ((scaleBy_eq_nil k _).2 hc)]; rfl
    · rw [if_neg hc, if_neg (fun h => hc ((scaleBy_eq_nil k _).1 h))]
      cases scanDown (relBelow (changeOf w s) thr) ((changeOf w s).length - 1) with
      | error e => rfl
      | ok i =>
        show Except.ok ((scaleBy k s).drop ((i + 1) * w)) = Except.ok (scaleBy k (s.drop ((i + 1) * w)))
        rw [drop_scaleBy]

/-- specification: no sample crosses the absolute threshold 1e-8 when scaled -/
def ClearOf (k : K) (s : List K) : Prop := ∀ v ∈ s, v = 0 ∨ (1 / 10 ^ 8 < |v| ∧ 1 / 10 ^ 8 < |k * v|)

lemma firstNonZero_scaleBy (k : K) (s : List K) (h : ClearOf k s) : firstNonZero (scaleBy k s) = firstNonZero s := by
  unfold firstNonZero scaleBy
  rw [List.findIdx?_map]
  congr 1
  induction s with
  | nil => rfl
  | cons a s ih =>
    have h1 : decide (1 / 10 ^ 8 < |k * a|) = decide (1 / 10 ^ 8 < |a|) := by
      rcases h a (by simp) with h1 | ⟨h1, h2⟩
      · rw [h1, mul_zero]
      · rw [decide_eq_true h1, decide_eq_true h2]
    rw [List.findIdx?_cons, List.findIdx?_cons]
    simp only [Function.comp, h1]
    rw [← ih fun v hv => h v (by simp [hv])]

lemma eliminate_scaleBy (k : K) (hk : 0 < k) (w : ℕ) (free : Bool) (s : List K) (h : ClearOf k s) :
    eliminateTransient w free (scaleBy k s) = (eliminateTransient w free s).map (scaleBy k) := by
  unfold eliminateTransient
  simp only
  rw [firstNonZero_scaleBy k s h, drop_scaleBy, length_scaleBy]
  by_cases h1 : (s.drop (firstNonZero s)).length < 2 * w
  · rw [if_pos h1, if_pos h1]; rfl
  · rw [if_neg h1, if_neg h1, cutTransient_scaleBy k hk]

lemma map_bind {α β γ : Type} (x : Except PyErr α) (f : α → β) (g : β → Except PyErr γ) : ((x.map f) >>= g) = (x >>= fun a => g (f a)) := by
  cases x <;> rfl

lemma bind_map {α β γ : Type} (x : Except PyErr α) (f : α → Except PyErr β) (g : β → γ) : (x >>= f).map g = (x >>= fun a => (f a).map g) := by
  cases x <;> rfl

lemma floatDiv_scale (k a b : K) (hk : 0 < k) : floatDiv (k ^ 2 * a) (k ^ 2 * b) = floatDiv a b := by
  unfold floatDiv
  have h2 : k ^ 2 ≠ 0 := pow_ne_zero _ hk.ne'
  rw [mul_div_mul_left _ _ h2]
  by_cases h : b = 0
  · rw [if_pos h, if_pos (by rw [h, mul_zero])]
  · rw [if_neg h, if_neg (mul_ne_zero h2 h)]

/-- C65 behind the thresholds: scaling the four steady signals by the same positive constant changes nothing, including which requests fail. -/
theorem C65_steady (k : K) (hk : 0 < k) (t0 t1 r0 tr : List K) :
    peakCoefficients (scaleBy k t0) (scaleBy k t1) (scaleBy k r0) (scaleBy k tr) = peakCoefficients t0 t1 r0 tr := by
  unfold peakCoefficients
  simp only [peakPower_scaleBy k hk, map_bind, floatDiv_scale k _ _ hk]

lemma subSignals_scaleBy (k : K) (a b : List K) : subSignals (scaleBy k a) (scaleBy k b) = (subSignals a b).map (scaleBy k) := by
  unfold subSignals
  rw [length_scaleBy, length_scaleBy]
  by_cases h : a.length = b.length
  · rw [if_pos h, if_pos h]
    show Except.ok _ = Except.ok _
    unfold scaleBy
    rw [List.zipWith_map, List.map_zipWith]
    simp only [mul_sub]
  · rw [if_neg h, if_neg h]; rfl

/-- specification: the mean square, independent of the model -/
def power (s : List K) : K := (s.map fun v => v * v).sum / (s.length : K)

lemma meanSquare_eq_power (s : List K) : meanSquare s = power s := by
  unfold meanSquare power
  simp only [pow_two]

lemma checkAllZero_loud (s : List K) (h : 1 / 10 ^ 15 < power s) : checkAllZero s = .ok () := by
  unfold checkAllZero
  rw [meanSquare_eq_power]
  exact if_neg fun h1 => absurd h1.2 (not_le.2 h)

/-- C65, the whole computation: scaling all signals by a positive constant changes nothing as long as no absolute threshold (1e-8 for samples, 1e-15 for the power of the free-space
signals) is crossed. Partial: negative constants change the result (`C65_sign_false`). -/
theorem C65_scale_partial (k : K) (hk : 0 < k) (w : ℕ) (t0 t1 r0 r1 : List K)
    (c1 : ClearOf k t0) (c2 : ClearOf k t1) (c3 : ClearOf k r0) (c4 : ClearOf k (List.zipWith (fun x y => x - y) r1 r0))
    (p1 : 1 / 10 ^ 15 < power t0) (p2 : 1 / 10 ^ 15 < k ^ 2 * power t0) (p3 : 1 / 10 ^ 15 < power r0) (p4 : 1 / 10 ^ 15 < k ^ 2 * power r0) :
    coefficients w (scaleBy k t0) (scaleBy k t1) (scaleBy k r0) (scaleBy k r1) = coefficients w t0 t1 r0 r1 := by
  have hp : ∀ s : List K, power (scaleBy k s) = k ^ 2 * power s := fun s => by rw [← meanSquare_eq_power, ← meanSquare_eq_power, meanSquare_scaleBy]
  unfold coefficients
  rw [checkAllZero_loud t0 p1, checkAllZero_loud r0 p3, checkAllZero_loud (scaleBy k t0) (by rw [hp]; exact p2), checkAllZero_loud (scaleBy k r0) (by rw [hp]; exact p4)]
  rw [subSignals_scaleBy, map_bind]
  by_cases hl : r1.length = r0.length
  · have hs : subSignals r1 r0 = .ok (List.zipWith (fun x y => x - y) r1 r0) := if_pos hl
    rw [hs, ok_bind, ok_bind, ok_bind, ok_bind]
    simp only [ok_bind, eliminate_scaleBy k hk _ _ _ c1, eliminate_scaleBy k hk _ _ _ c2, eliminate_scaleBy k hk _ _ _ c3, eliminate_scaleBy k hk _ _ _ c4, map_bind, C65_steady k hk]
  · have hs : subSignals r1 r0 = .error .runtimeError := if_neg hl
    rw [hs]; rfl

/-- not vacuous -/
example : ClearOf (3 : ℚ) [1, 0, 1] ∧ 1 / 10 ^ 15 < power ([1, 0, 1] : List ℚ) ∧ 1 / 10 ^ 15 < (3 : ℚ) ^ 2 * power ([1, 0, 1] : List ℚ) := by
  unfold ClearOf power
  refine ⟨?_, by norm_num, by norm_num⟩
  intro v hv
  simp only [List.mem_cons, List.not_mem_nil, or_false] at hv
  rcases hv with rfl | rfl | rfl
  · right; constructor <;> norm_num
  · left; rfl
  · right; constructor <;> norm_num

/-- C65 is false of negative constants: the sign decides what is a maximum. -/
theorem C65_sign_false :
    coefficients 2 ([1, 2, 1] : List ℚ) [1, 1, 1] [1, 1, 1] [1, 1, 1] = .ok (1 / 4, 0) ∧
    coefficients 2 (scaleBy (-1) ([1, 2, 1] : List ℚ)) (scaleBy (-1) [1, 1, 1]) (scaleBy (-1) [1, 1, 1]) (scaleBy (-1) [1, 1, 1]) = .ok (1, 0) := by
  constructor <;> decide +kernel

/-- C53, the silence test: for signals of matching lengths the coefficient computation raises its ValueError as soon as one of the two free-space
signals has a mean square of at most 1e-15, whatever the signals of the structure are. -/
theorem C53_silent (w : ℕ) (t0 t1 r0 r1 : List K) (hl : r1.length = r0.length) (h : (t0 ≠ [] ∧ power t0 ≤ 1 / 10 ^ 15) ∨ (r0 ≠ [] ∧ power r0 ≤ 1 / 10 ^ 15)) :
    coefficients w t0 t1 r0 r1 = .error .valueError := by
  have hbad : ∀ s : List K, s ≠ [] → power s ≤ 1 / 10 ^ 15 → checkAllZero s = .error .valueError := by
    intro s h1 h2
    exact if_pos ⟨h1, by rw [meanSquare_eq_power]; exact h2⟩
  unfold coefficients subSignals
  rw [if_pos hl, ok_bind]
  rcases h with h | h
  · rw [hbad _ h.1 h.2, error_bind]
  · rw [hbad _ h.1 h.2]
    by_cases h' : t0 ≠ [] ∧ meanSquare t0 ≤ 1 / 10 ^ 15
    · rw [show checkAllZero t0 = .error .valueError from if_pos h', error_bind]
    · rw [show checkAllZero t0 = .ok () from if_neg h', ok_bind, error_bind]

/-- not vacuous: a loud transmission signal and a reflection signal that is not zero but too weak -/
example : coefficients 2 ([1, 2, 1] : List ℚ) [1, 1, 1] [0, 1 / 10 ^ 8, 0] [1, 1, 1] = .error .valueError :=
  C53_silent _ _ _ _ _ rfl (.inr ⟨by simp, by unfold power; norm_num⟩)

/-- C65, the caveat: every computation turns into the ValueError when all signals are scaled down far enough. -/
theorem C65_weak_false (k : K) (w : ℕ) (t0 t1 r0 r1 : List K) (h0 : t0 ≠ []) (hl : r1.length = r0.length) (hp : k ^ 2 * power t0 ≤ 1 / 10 ^ 15) :
    coefficients w (scaleBy k t0) (scaleBy k t1) (scaleBy k r0) (scaleBy k r1) = .error .valueError := by
  unfold coefficients
  have hs : subSignals (scaleBy k r1) (scaleBy k r0) = .ok (List.zipWith (fun x y => x - y) (scaleBy k r1) (scaleBy k r0)) :=
    if_pos (by rw [length_scaleBy, length_scaleBy]; exact hl)
  have hz : checkAllZero (scaleBy k t0) = .error .valueError := by
    unfold checkAllZero
    exact if_pos ⟨fun h => h0 ((scaleBy_eq_nil k t0).1 h), by rw [meanSquare_scaleBy, meanSquare_eq_power]; exact hp⟩
  rw [hs, ok_bind, hz, error_bind]

lemma meanSquare_nonneg (s : List K) : 0 ≤ meanSquare s := by
  unfold meanSquare
  refine div_nonneg (List.sum_nonneg fun x hx => ?_) (Nat.cast_nonneg _)
  obtain ⟨v, -, rfl⟩ := List.mem_map.1 hx
  exact sq_nonneg v

lemma peakPower_nonneg (s : List K) (p : K) (h : peakPower s = .ok p) : 0 ≤ p := by
  unfold peakPower at h
  by_cases h1 : 1 < (findPeaks s).length
  · rw [if_pos h1] at h
    injection h with h
    rw [← h]; exact meanSquare_nonneg _
  · rw [if_neg h1] at h
    cases s with
    | nil => cases h
    | cons a s =>
      injection h with h
      rw [← h]; positivity

lemma floatDiv_ok (a b q : K) (h : floatDiv a b = .ok q) : b ≠ 0 ∧ q = a / b := by
  unfold floatDiv at h
  by_cases hb : b = 0
  · rw [if_pos hb] at h; cases h
  · rw [if_neg hb] at h
    injection h with h
    exact ⟨hb, h.symm⟩

/-- what a successful computation consists of -/
lemma coefficients_ok (w : ℕ) (t0 t1 r0 r1 : List K) (T R : K) (h : coefficients w t0 t1 r0 r1 = .ok (T, R)) :
    ∃ t0' t1' r0' tr' a b c d, r1.length = r0.length ∧ eliminateTransient w true t0 = .ok t0' ∧ eliminateTransient w false t1 = .ok t1' ∧
      eliminateTransient w true r0 = .ok r0' ∧ eliminateTransient w false (List.zipWith (fun x y => x - y) r1 r0) = .ok tr' ∧
      peakPower t1' = .ok a ∧ peakPower t0' = .ok b ∧ peakPower tr' = .ok c ∧ peakPower r0' = .ok d ∧ b ≠ 0 ∧ d ≠ 0 ∧
      (T, R) = normalizeCoefficients (a / b) (c / d) ∧ checkAllZero t0 = .ok () ∧ checkAllZero r0 = .ok () := by
  unfold coefficients at h
  obtain ⟨tr, e1, h⟩ := bind_ok.1 h
  obtain ⟨u2, e2, h⟩ := bind_ok.1 h
  obtain ⟨u3, e3, h⟩ := bind_ok.1 h
  cases u2; cases u3
  obtain ⟨t0', e4, h⟩ := bind_ok.1 h
  obtain ⟨t1', e5, h⟩ := bind_ok.1 h
  obtain ⟨r0', e6, h⟩ := bind_ok.1 h
  obtain ⟨tr', e7, h⟩ := bind_ok.1 h
  obtain ⟨rt, e8, h⟩ := bind_ok.1 h
  unfold peakCoefficients at e8
  obtain ⟨a, f1, e8⟩ := bind_ok.1 e8
  obtain ⟨b, f2, e8⟩ := bind_ok.1 e8
  obtain ⟨c, f3, e8⟩ := bind_ok.1 e8
  obtain ⟨d, f4, e8⟩ := bind_ok.1 e8
  obtain ⟨t, f5, e8⟩ := bind_ok.1 e8
  obtain ⟨r, f6, e8⟩ := bind_ok.1 e8
  obtain ⟨hb, rfl⟩ := floatDiv_ok _ _ _ f5
  obtain ⟨hd, rfl⟩ := floatDiv_ok _ _ _ f6
  injection e8 with e8
  subst e8
  injection h with h
  unfold subSignals at e1
  by_cases hl : r1.length = r0.length
  · rw [if_pos hl] at e1
    injection e1 with e1
    rw [← e1] at e7
    exact ⟨t0', t1', r0', tr', a, b, c, d, hl, e4, e5, e6, e7, f1, f2, f3, f4, hb, hd, h.symm, e2, e3⟩
  · rw [if_neg hl] at e1; cases e1

lemma normalize_nonneg (t r : K) (ht : 0 ≤ t) (hr : 0 ≤ r) : 0 ≤ (normalizeCoefficients t r).1 ∧ 0 ≤ (normalizeCoefficients t r).2 := by
  unfold normalizeCoefficients
  have h := add_nonneg ht hr
  split_ifs
  · exact ⟨div_nonneg ht h, div_nonneg hr h⟩
  · exact ⟨div_nonneg ht h, div_nonneg hr h⟩
  · exact ⟨ht, hr⟩

/-- C65: reported coefficients are never negative. -/
theorem C65_nonneg (w : ℕ) (t0 t1 r0 r1 : List K) (T R : K) (h : coefficients w t0 t1 r0 r1 = .ok (T, R)) : 0 ≤ T ∧ 0 ≤ R := by
  obtain ⟨t0', t1', r0', tr', a, b, c, d, -, -, -, -, -, f1, f2, f3, f4, -, -, e, -⟩ := coefficients_ok w t0 t1 r0 r1 T R h
  have := normalize_nonneg (a / b) (c / d) (div_nonneg (peakPower_nonneg _ _ f1) (peakPower_nonneg _ _ f2)) (div_nonneg (peakPower_nonneg _ _ f3) (peakPower_nonneg _ _ f4))
  rw [← e] at this
  exact this

/-- not vacuous -/
example : coefficients 2 ([1, 2, 1] : List ℚ) [1, 1, 1] [1, 1, 1] [1, 3 / 2, 1] = .ok (1 / 4, 1 / 4) := by decide +kernel

lemma normalize_small (t r : K) (h : (normalizeCoefficients t r).1 + (normalizeCoefficients t r).2 < 1) : normalizeCoefficients t r = (t, r) := by
  rcases lt_or_ge (t + r) (105 / 100) with h1 | h1
  · rcases le_or_gt (t + r) 1 with h2 | h2
    · exact (C62_partial t r h1).1 h2
    · exact absurd ((C62_partial t r h1).2 h2).1 h.ne
  · exact (C62_false t r h1).1

/-- C65: scaling only the transmitted signal with material by `k` multiplies the transmission by `k²`, scaling only the reflected part (the difference to the free-space signal)
multiplies the reflection by `k²` - as long as neither result is renormalised and no threshold is crossed. -/
theorem C65_square_partial (k : K) (hk : 0 < k) (w : ℕ) (t0 t1 r0 r1 : List K) (T R : K) (h : coefficients w t0 t1 r0 r1 = .ok (T, R)) (hs : T + R < 1) :
    (ClearOf k t1 → k ^ 2 * T + R ≤ 1 → coefficients w t0 (scaleBy k t1) r0 r1 = .ok (k ^ 2 * T, R)) ∧
    (∀ r1', r1'.length = r0.length → ClearOf k (List.zipWith (fun x y => x - y) r1 r0) →
      List.zipWith (fun x y => x - y) r1' r0 = scaleBy k (List.zipWith (fun x y => x - y) r1 r0) → T + k ^ 2 * R ≤ 1 →
      coefficients w t0 t1 r0 r1' = .ok (T, k ^ 2 * R)) := by
  obtain ⟨t0', t1', r0', tr', a, b, c, d, hl, e1, e2, e3, e4, f1, f2, f3, f4, hb, hd, e, z1, z2⟩ := coefficients_ok w t0 t1 r0 r1 T R h
  have hT : T = (normalizeCoefficients (a / b) (c / d)).1 := by rw [← e]
  have hR : R = (normalizeCoefficients (a / b) (c / d)).2 := by rw [← e]
  have hn := normalize_small (a / b) (c / d)
    (by rw [← hT, ← hR]; exact hs)
  rw [hn] at hT hR
  simp only at hT hR
  subst hT hR
  have hsub : ∀ x : List K, x.length = r0.length → subSignals x r0 = .ok (List.zipWith (fun x y => x - y) x r0) := fun x hx => if_pos hx
  have hfd : ∀ x y : K, y ≠ 0 → floatDiv x y = .ok (x / y) := fun x y hy => if_neg hy
  have hno : ∀ x y : K, x + y ≤ 1 → normalizeCoefficients x y = (x, y) := fun x y hxy => (C62_partial x y (lt_of_le_of_lt hxy (by norm_num))).1 hxy
  constructor
  · intro hc h1
    have he : eliminateTransient w false (scaleBy k t1) = .ok (scaleBy k t1') := by rw [eliminate_scaleBy k hk _ _ _ hc, e2]; rfl
    have hp : peakPower (scaleBy k t1') = .ok (k ^ 2 * a) := by rw [peakPower_scaleBy k hk, f1]; rfl
    unfold coefficients peakCoefficients
    simp only [hsub r1 hl, z1, z2, e1, he, e3, e4, hp, f2, f3, f4, hfd _ _ hb, hfd _ _ hd, ok_bind]
    rw [mul_div_assoc, hno _ _ h1]
  · intro r1' hl' hc hr h1
    have he : eliminateTransient w false (List.zipWith (fun x y => x - y) r1' r0) = .ok (scaleBy k tr') := by rw [hr, eliminate_scaleBy k hk _ _ _ hc, e4]; rfl
    have hp : peakPower (scaleBy k tr') = .ok (k ^ 2 * c) := by rw [peakPower_scaleBy k hk, f3]; rfl
    unfold coefficients peakCoefficients
    simp only [hsub r1' hl', z1, z2, e1, he, e3, e2, hp, f2, f1, f4, hfd _ _ hb, hfd _ _ hd, ok_bind]
    rw [mul_div_assoc, hno _ _ h1]

/-! ### C66 -/

lemma peakPower_zeros (s : List K) (h : ∀ v ∈ s, v = 0) (p : K) (hp : peakPower s = .ok p) : p = 0 := by
  unfold peakPower at hp
  by_cases h1 : 1 < (findPeaks s).length
  · rw [if_pos h1] at hp
    injection hp with hp
    rw [← hp, meanSquare_zero]
    intro v hv
    exact h v (List.mem_of_mem_take (List.mem_of_mem_drop hv))
  · rw [if_neg h1] at hp
    cases s with
    | nil => cases hp
    | cons a s =>
      injection hp with hp
      have hm : s.foldl max a = 0 := h _ (by
        have := listMax_mem' (a :: s) (by simp)
        exact this)
      rw [← hp, hm]; simp

lemma eliminate_drop_aux (w n : ℕ) (s s' : List K) (x : Except PyErr ℕ) (b : Prop) [Decidable b]
    (h : (if b then .error .runtimeError else x.map fun k => (s.drop n).drop ((k + 1) * w)) = Except.ok s') : ∃ j, s' = s.drop j := by
  by_cases hb : b
  · rw [if_pos hb] at h; cases h
  · rw [if_neg hb] at h
    cases x with
    | error e => cases h
    | ok i =>
      injection h with h
      exact ⟨n + (i + 1) * w, by rw [← h, ← List.drop_drop]⟩

lemma changeOf_nonneg (w : ℕ) (s : List K) : ∀ v ∈ changeOf w s, 0 ≤ v := by
  intro v hv
  unfold changeOf absDiffs at hv
  obtain ⟨i, hi, rfl⟩ := List.getElem_of_mem hv
  simp only [List.getElem_zipWith]
  exact abs_nonneg _

lemma eliminate_drop (w : ℕ) (free : Bool) (s s' : List K) (h : eliminateTransient w free s = .ok s') : ∃ j, s' = s.drop j := by
  unfold eliminateTransient at h
  simp only at h
  by_cases h1 : (s.drop (firstNonZero s)).length < 2 * w
  · rw [if_pos h1] at h
    injection h with h
    exact ⟨_, h.symm⟩
  · rw [if_neg h1] at h
    unfold cutTransient at h
    by_cases hw : w = 0
    · rw [if_pos hw] at h
      split_ifs at h
    · rw [if_neg hw] at h
      exact eliminate_drop_aux w _ s s' _ _ h

/-- C66: when the material simulation records the same signals as the free-space one, the reported reflection is zero. The transmission is one when transient removal, whose
threshold is 0.5 for free space and 0.1 for the material, keeps the same tail. Partial: in general it need not (`C66_false`). -/
theorem C66_partial (w : ℕ) (t r : List K) (T R : K) (h : coefficients w t t r r = .ok (T, R)) :
    R = 0 ∧ (eliminateTransient w true t = eliminateTransient w false t → T = 1) := by
  obtain ⟨t0', t1', r0', tr', a, b, c, d, hl, e1, e2, e3, e4, f1, f2, f3, f4, hb, hd, e, z1, z2⟩ := coefficients_ok w t t r r T R h
  obtain ⟨j, hj⟩ := eliminate_drop _ _ _ _ e4
  have hc : c = 0 := by
    refine peakPower_zeros tr' (fun v hv => ?_) c f3
    rw [hj] at hv
    have hv := List.mem_of_mem_drop hv
    obtain ⟨i, hi, rfl⟩ := List.getElem_of_mem hv
    simp
  rw [hc, zero_div] at e
  constructor
  · have : R = (normalizeCoefficients (a / b) 0).2 := by rw [← e]
    rw [this]
    unfold normalizeCoefficients
    split_ifs <;> simp
  · intro hh
    rw [e1, e2] at hh
    injection hh with hh
    rw [hh] at f2
    rw [f1] at f2
    injection f2 with f2
    rw [f2, div_self hb, (C62_partial (1 : K) 0 (by norm_num)).1 (by norm_num)] at e
    exact (Prod.mk.inj e).1

lemma scanDown_congr (p q : ℕ → Bool) (k : ℕ) (h : ∀ i ≤ k, p i = q i) : scanDown p k = scanDown q k := by
  induction k with
  | zero => unfold scanDown; rw [h 0 (le_refl _)]
  | succ k ih => unfold scanDown; rw [h (k + 1) (le_refl _), ih fun i hi => h i (by omega)]

/-- C66, two sufficient conditions for transmission one: the signal is shorter than two windows, or no change of range between consecutive windows is between a tenth and a half
of the largest change. -/
theorem C66_same_tail (w : ℕ) (t : List K)
    (h : (t.drop (firstNonZero t)).length < 2 * w ∨ ∀ v ∈ changeOf w (t.drop (firstNonZero t)), v < 1 / 2 * listMax (changeOf w (t.drop (firstNonZero t))) →
      v < 1 / 10 * listMax (changeOf w (t.drop (firstNonZero t)))) (r : List K) (T R : K) (hok : coefficients w t t r r = .ok (T, R)) : T = 1 ∧ R = 0 := by
  obtain ⟨h1, h2⟩ := C66_partial w t r T R hok
  refine ⟨h2 ?_, h1⟩
  by_cases hl : (t.drop (firstNonZero t)).length < 2 * w
  · unfold eliminateTransient
    simp only
    rw [if_pos hl, if_pos hl]
  · have h := h.resolve_left hl
    unfold eliminateTransient
    simp only
    rw [if_neg hl, if_neg hl]
    unfold cutTransient
    by_cases hw : w = 0
    · rw [if_pos hw, if_pos hw]
    · rw [if_neg hw, if_neg hw]
      show (if changeOf w (t.drop (firstNonZero t)) = [] then _ else (scanDown (relBelow (changeOf w (t.drop (firstNonZero t))) _) ((changeOf w (t.drop (firstNonZero t))).length - 1)).map _)
        = (if changeOf w (t.drop (firstNonZero t)) = [] then _ else (scanDown (relBelow (changeOf w (t.drop (firstNonZero t))) _) ((changeOf w (t.drop (firstNonZero t))).length - 1)).map _)
      by_cases hc : changeOf w (t.drop (firstNonZero t)) = []
      · rw [if_pos hc, if_pos hc]
      · rw [if_neg hc, if_neg hc]
        congr 1
        apply scanDown_congr
        intro i hi
        have hnn := changeOf_nonneg w (t.drop (firstNonZero t))
        generalize changeOf w (t.drop (firstNonZero t)) = c at *
        unfold relBelow
        by_cases hm : listMax c = 0
        · rw [if_pos hm, if_pos hm]
        · rw [if_neg hm, if_neg hm]
          have hi' : i < c.length := by
            have : c.length ≠ 0 := by rwa [ne_eq, List.length_eq_zero_iff]
            omega
          have hmem : c.getD i 0 ∈ c := by rw [List.getD_eq_getElem _ _ hi']; exact List.getElem_mem _
          have hpos : 0 < listMax c := by
            rcases lt_trichotomy 0 (listMax c) with h3 | h3 | h3
            · exact h3
            · exact absurd h3.symm hm
            · exfalso
              have h4 := hnn (listMax c) (listMax_mem' c hc)
              linarith
          simp only [if_true, Bool.false_eq_true, if_false]
          apply decide_eq_decide.2
          rw [div_lt_iff₀ hpos, div_lt_iff₀ hpos]
          constructor
          · exact h _ hmem
          · intro h3; linarith

/-- C66 is false: a start-up whose range first drops a lot and then by a third is cut at different places; the vacuum structure is reported to transmit 5/8. -/
theorem C66_false :
    coefficients 4 ([10, 0, 0, 0, 4, 0, 4, 0, 2, 0, 2, 0, 2, 0, 2, 0, 2, 0] : List ℚ) [10, 0, 0, 0, 4, 0, 4, 0, 2, 0, 2, 0, 2, 0, 2, 0, 2, 0] [1, 1] [1, 1] = .ok (5 / 8, 0) := by
  decide +kernel

/-- not vacuous: a decaying start followed by a steady signal -/
example : coefficients 2 ([9, 0, 1, 0, 1, 0, 1, 0, 1, 0] : List ℚ) [9, 0, 1, 0, 1, 0, 1, 0, 1, 0] [1, 1] [1, 1] = .ok (1, 0) ∧
    changeOf 2 (([9, 0, 1, 0, 1, 0, 1, 0, 1, 0] : List ℚ).drop (firstNonZero ([9, 0, 1, 0, 1, 0, 1, 0, 1, 0] : List ℚ))) = [8, 0, 0] := by decide +kernel

end

end Nidn
