/-
C57: what line and point sources inject.
-/
import Mathlib.Algebra.BigOperators.Ring.Finset
import Mathlib.Algebra.Order.BigOperators.Group.List
import Mathlib.Tactic.Positivity
import Mathlib.Tactic.NormNum
import Verif.Props.FdtdSources

namespace Nidn

/-! ### The profile -/

lemma tripleDist_nonneg (p q : ℤ × ℤ × ℤ) : 0 ≤ tripleDist p q := by unfold tripleDist; positivity

lemma tripleDist_eq_zero {p q : ℤ × ℤ × ℤ} (h : tripleDist p q = 0) : p = q := by
  unfold tripleDist at h
  have h1 := sq_nonneg (p.1 - q.1)
  have h2 := sq_nonneg (p.2.1 - q.2.1)
  have h3 := sq_nonneg (p.2.2 - q.2.2)
  have e1 : p.1 - q.1 = 0 := pow_eq_zero_iff (two_ne_zero) |>.1 (by omega)
  have e2 : p.2.1 - q.2.1 = 0 := pow_eq_zero_iff (two_ne_zero) |>.1 (by omega)
  have e3 : p.2.2 - q.2.2 = 0 := pow_eq_zero_iff (two_ne_zero) |>.1 (by omega)
  refine Prod.ext (by omega) (Prod.ext (by omega) (by omega))

lemma le_maxDist (ds : List ℤ) (d : ℤ) (h : d ∈ ds) : d ≤ maxDist ds := by
  induction ds with
  | nil => cases h
  | cons x ds ih =>
    show d ≤ max x (maxDist ds)
    rcases List.mem_cons.1 h with rfl | h
    · exact le_max_left _ _
    · exact le_trans (ih h) (le_max_right _ _)

lemma maxDist_le (ds : List ℤ) (m : ℤ) (h0 : 0 ≤ m) (h : ∀ d ∈ ds, d ≤ m) : maxDist ds ≤ m := by
  induction ds with
  | nil => exact h0
  | cons x ds ih => exact max_le (h x (by simp)) (ih fun d hd => h d (by simp [hd]))

lemma maxDist_zero (ds : List ℤ) (h : ∀ d ∈ ds, d = 0) : maxDist ds = 0 := by
  induction ds with
  | nil => rfl
  | cons x ds ih =>
    show max x (maxDist ds) = 0
    rw [h x (by simp), ih fun d hd => h d (by simp [hd])]
    rfl

lemma gaussWeight_pos (mx d : ℤ) : 0 < gaussWeight mx d := Real.exp_pos _

lemma gaussWeight_lt (mx d d' : ℤ) (h0 : 0 < mx) (h1 : 0 ≤ d) (h : d < d') : gaussWeight mx d' < gaussWeight mx d := by
  unfold gaussWeight
  apply Real.exp_lt_exp.2
  have hm : (0 : ℝ) < mx := by exact_mod_cast h0
  have hd : (0 : ℝ) ≤ d := by exact_mod_cast h1
  have hd' : (d : ℝ) < d' := by exact_mod_cast h
  apply div_lt_div_of_pos_right _ (by positivity)
  have : (d : ℝ) ^ 2 < (d' : ℝ) ^ 2 := by gcongr
  linarith

lemma list_sum_pos (l : List ℝ) (hl : l ≠ []) (h : ∀ x ∈ l, 0 < x) : 0 < l.sum := by
  induction l with
  | nil => exact absurd rfl hl
  | cons x l ih =>
    rw [List.sum_cons]
    by_cases hn : l = []
    · rw [hn]; simpa using h x (by simp)
    · have := ih hn fun y hy => h y (by simp [hy])
      have := h x (by simp)
      linarith

lemma sum_map_div_mul (l : List ℝ) (s a : ℝ) : (l.map fun w => w / s * a).sum = l.sum / s * a := by
  induction l with
  | nil => simp
  | cons x l ih => rw [List.map_cons, List.sum_cons, ih, List.sum_cons]; ring

/-- C57, profile: for every list of at least two different points there is a profile with one value per point. Its values add up to the amplitude, have the sign of the
amplitude, are equal at points equally far from the middle point `pts[L // 2]`, and get smaller in absolute value with the distance from it. -/
theorem C57_profile (pts : List (ℤ × ℤ × ℤ)) (c : ℤ × ℤ × ℤ) (hc : pts[pts.length / 2]? = some c) (hne : ∃ p ∈ pts, p ≠ c) (amp : ℝ) :
    ∃ prof : List ℝ, lineProfile pts amp = .ok prof ∧ prof.length = pts.length ∧ prof.sum = amp ∧ (0 < amp → ∀ v ∈ prof, 0 < v) ∧
      (∀ (i j : ℕ) (p q : ℤ × ℤ × ℤ), pts[i]? = some p → pts[j]? = some q → ∃ v w, prof[i]? = some v ∧ prof[j]? = some w ∧
        (tripleDist p c = tripleDist q c → v = w) ∧ (0 < amp → tripleDist p c < tripleDist q c → w < v)) := by
  set ds := pts.map fun p => tripleDist p c with hds
  have hmx : 0 < maxDist ds := by
    obtain ⟨p, hp, hpc⟩ := hne
    have h1 : tripleDist p c ≤ maxDist ds := le_maxDist ds _ (List.mem_map.2 ⟨p, hp, rfl⟩)
    have h2 := tripleDist_nonneg p c
    have h3 : tripleDist p c ≠ 0 := fun h => hpc (tripleDist_eq_zero h)
    omega
  set ws := ds.map (gaussWeight (maxDist ds)) with hws
  have hwne : ws ≠ [] := by
    obtain ⟨p, hp, -⟩ := hne
    rw [hws, hds]
    intro h
    simp only [List.map_eq_nil_iff] at h
    rw [h] at hp; cases hp
  have hwpos : ∀ w ∈ ws, 0 < w := by
    intro w hw
    obtain ⟨d, -, rfl⟩ := List.mem_map.1 hw
    exact gaussWeight_pos _ _
  have hS : 0 < ws.sum := list_sum_pos ws hwne hwpos
  refine ⟨ws.map fun w => w / ws.sum * amp, ?_, by simp [hws, hds], ?_, ?_, ?_⟩
  · unfold lineProfile
    rw [hc]
    show (if maxDist ds = 0 then _ else _) = _
    rw [if_neg (by omega)]
  · rw [sum_map_div_mul, div_self (ne_of_gt hS), one_mul]
  · intro ha v hv
    obtain ⟨w, hw, rfl⟩ := List.mem_map.1 hv
    have := hwpos w hw
    positivity
  · intro i j p q hp hq
    refine ⟨gaussWeight (maxDist ds) (tripleDist p c) / ws.sum * amp, gaussWeight (maxDist ds) (tripleDist q c) / ws.sum * amp, ?_, ?_, ?_, ?_⟩
    · rw [hws, hds, List.getElem?_map, List.getElem?_map, List.getElem?_map, hp]; rfl
    · rw [hws, hds, List.getElem?_map, List.getElem?_map, List.getElem?_map, hq]; rfl
    · intro h; rw [h]
    · intro ha h
      have := gaussWeight_lt (maxDist ds) _ _ hmx (tripleDist_nonneg p c) h
      have h2 : gaussWeight (maxDist ds) (tripleDist q c) / ws.sum < gaussWeight (maxDist ds) (tripleDist p c) / ws.sum := by gcongr
      gcongr

example : (([(5, 0, 0), (5, 1, 0), (5, 2, 0)] : List (ℤ × ℤ × ℤ))[3 / 2]? = some (5, 1, 0)) ∧
    ∃ p ∈ ([(5, 0, 0), (5, 1, 0), (5, 2, 0)] : List (ℤ × ℤ × ℤ)), p ≠ (5, 1, 0) := by decide

/-- C57, width: the profile falls off like a bell over the squared distance `d` from the middle point: `d` of the farthest point is two standard deviations. Between a point and the middle point the
ratio is `exp (-2 (d / dmax)²)`, whatever the amplitude. -/
theorem C57_profile_width (pts : List (ℤ × ℤ × ℤ)) (c far : ℤ × ℤ × ℤ) (hc : pts[pts.length / 2]? = some c) (hf : far ∈ pts) (hne : far ≠ c) (hmax : ∀ p ∈ pts, tripleDist p c ≤ tripleDist far c) (amp : ℝ)
    (prof : List ℝ) (h : lineProfile pts amp = .ok prof) (i : ℕ) (p : ℤ × ℤ × ℤ) (hp : pts[i]? = some p) :
    ∃ v w, prof[i]? = some v ∧ prof[pts.length / 2]? = some w ∧ v = w * Real.exp (-2 * ((tripleDist p c : ℝ) / tripleDist far c) ^ 2) := by
  set ds := pts.map fun p => tripleDist p c with hds
  have hfar : 0 < tripleDist far c := lt_of_le_of_ne (tripleDist_nonneg far c) fun e => hne (tripleDist_eq_zero e.symm)
  have hmx : maxDist ds = tripleDist far c := by
    refine le_antisymm ?_ (le_maxDist ds _ (List.mem_map.2 ⟨far, hf, rfl⟩))
    refine maxDist_le ds _ hfar.le fun d hd => ?_
    obtain ⟨q, hq, rfl⟩ := List.mem_map.1 hd
    exact hmax q hq
  unfold lineProfile at h
  rw [hc] at h
  change (if maxDist ds = 0 then _ else _) = _ at h
  rw [if_neg (by omega)] at h
  cases h
  refine ⟨_, _, by rw [List.getElem?_map, List.getElem?_map, List.getElem?_map, hp]; rfl, by rw [List.getElem?_map, List.getElem?_map, List.getElem?_map, hc]; rfl, ?_⟩
  have h0 : tripleDist c c = 0 := by simp [tripleDist]
  have hF : (0 : ℝ) < tripleDist far c := by exact_mod_cast hfar
  have hw : gaussWeight (maxDist ds) (tripleDist c c) = 1 := by rw [h0]; simp [gaussWeight]
  have hv : gaussWeight (maxDist ds) (tripleDist p c) = Real.exp (-2 * ((tripleDist p c : ℝ) / tripleDist far c) ^ 2) := by
    unfold gaussWeight
    rw [hmx]
    congr 1
    field_simp
  rw [hw, hv]
  ring

/-- the theorem applies to three cells in a row -/
example : ([(5, 0, 0), (5, 1, 0), (5, 2, 0)] : List (ℤ × ℤ × ℤ))[3 / 2]? = some (5, 1, 0) ∧ ((5, 0, 0) : ℤ × ℤ × ℤ) ∈ ([(5, 0, 0), (5, 1, 0), (5, 2, 0)] : List (ℤ × ℤ × ℤ)) ∧
    ∀ p ∈ ([(5, 0, 0), (5, 1, 0), (5, 2, 0)] : List (ℤ × ℤ × ℤ)), tripleDist p (5, 1, 0) ≤ tripleDist (5, 0, 0) (5, 1, 0) := by decide

lemma mapM_get {α β : Type} (f : α → Except PyErr β) (l : List α) (r : List β) (h : l.mapM f = .ok r) : r.length = l.length ∧ ∀ (i : ℕ) a, l[i]? = some a → ∃ b, f a = .ok b ∧ r[i]? = some b := by
  induction l generalizing r with
  | nil =>
    have : r = [] := by simpa [pure, Except.pure] using h.symm
    rw [this]
    exact ⟨rfl, fun i a h => by simp at h⟩
  | cons x l ih =>
    rw [List.mapM_cons, bind_ok] at h
    obtain ⟨b, hb, h⟩ := h
    rw [bind_ok] at h
    obtain ⟨bs, hbs, h⟩ := h
    have hr : r = b :: bs := by simpa [pure, Except.pure] using h.symm
    obtain ⟨hl, hg⟩ := ih bs hbs
    rw [hr]
    refine ⟨by simp [hl], fun i a ha => ?_⟩
    cases i with
    | zero => simp at ha; exact ⟨b, by rw [← ha]; exact hb, by simp⟩
    | succ i => simp at ha; simpa using hg i a ha

/-- C57 for the lines NIDN uses, `grid[x, :, 0]` with at least two cells in y: the source has the cells `(x, j, 0)`, its profile is positive, adds up to the amplitude and is
symmetric about cell `n 1 / 2`. -/
theorem C57_line (n : Pos) (x : ℕ) (hx : x < n 0) (hy : 2 ≤ n 1) (hz : 1 ≤ n 2) (s : SourceSpec) (ha : 0 < s.amplitude) :
    ∃ prof : List ℝ, placeLineSource n s (crossLine x 0) (crossLine x 1) (crossLine x 2) = .ok ((List.range (n 1)).map (fun j => ![x, j, 0]), prof) ∧
      prof.length = n 1 ∧ prof.sum = s.amplitude ∧ (∀ v ∈ prof, 0 < v) ∧
      ∀ d, d ≤ n 1 / 2 → n 1 / 2 + d < n 1 → prof[n 1 / 2 - d]? = prof[n 1 / 2 + d]? := by
  obtain ⟨l, hl, hcells⟩ := C56_line 2 n x hx (by omega) hy hz
  obtain ⟨hlen, hget⟩ := mapM_get _ _ _ hcells
  simp only [List.length_map, List.length_range] at hlen
  -- the triples themselves
  have htr : ∀ j, j < n 1 → ∃ t, l.triples[j]? = some t ∧ t = ((x : ℤ), (j : ℤ), (0 : ℤ)) := by
    intro j hj
    have hm : linePoints ((x : ℤ), (x : ℤ)) (0, (n 1 : ℤ)) (0, 0) = n 1 := by simp [linePoints]
    have hl' : l = ⟨(List.range (n 1)).map (axisVal x x (n 1)), (List.range (n 1)).map (axisVal 0 (n 1) (n 1)), (List.range (n 1)).map (axisVal 0 0 (n 1))⟩ := by
      have e : lineIndices 2 n (crossLine x 0) (crossLine x 1) (crossLine x 2)
          = .ok ⟨(List.range (n 1)).map (axisVal x x (n 1)), (List.range (n 1)).map (axisVal 0 (n 1) (n 1)), (List.range (n 1)).map (axisVal 0 0 (n 1))⟩ := by
        show lineSpan _ _ _ _ _ = _
        unfold lineSpan
        have b0 : lineBounds (n 0) (crossLine x 0) = .ok ((x : ℤ), (x : ℤ)) := rfl
        have b1 : lineBounds (n 1) (crossLine x 1) = .ok (0, (n 1 : ℤ)) := rfl
        have b2 : lineBounds (n 2) (crossLine x 2) = .ok (0, 0) := rfl
        rw [b0, b1, b2, ok_bind, ok_bind, ok_bind]
        simp only
        rw [hm, if_neg (by omega), intLinspace_eq _ _ _ (by omega), intLinspace_eq _ _ _ (by omega), intLinspace_eq _ _ _ (by omega)]
        rfl
      rw [hl] at e
      exact Except.ok.inj e
    refine ⟨_, ?_, rfl⟩
    rw [hl']
    unfold IndexLists.triples
    show (((List.range (n 1)).map _).zip (((List.range (n 1)).map _).zip ((List.range (n 1)).map _)))[j]? = _
    rw [zip3_map, List.getElem?_map, List.getElem?_range hj]
    have e1 : axisVal x x (n 1) j = x := if_pos rfl
    have e2 : axisVal 0 (n 1) (n 1) j = j := by rw [axisVal_full (by omega) (by omega) (by omega)]; omega
    have e3 : axisVal 0 0 (n 1) j = 0 := if_pos rfl
    simp [e1, e2, e3]
  have hc : l.triples[l.triples.length / 2]? = some ((x : ℤ), ((n 1 / 2 : ℕ) : ℤ), (0 : ℤ)) := by
    rw [← hlen]
    obtain ⟨t, h1, rfl⟩ := htr (n 1 / 2) (by omega)
    exact h1
  obtain ⟨prof, h1, h2, h3, h4, h5⟩ := C57_profile l.triples _ hc (by
    obtain ⟨t, ht, rfl⟩ := htr 0 (by omega)
    refine ⟨_, List.mem_of_getElem? ht, ?_⟩
    simp only [ne_eq, Prod.mk.injEq, and_true, true_and]
    omega) s.amplitude
  refine ⟨prof, ?_, by omega, h3, h4 ha, ?_⟩
  · unfold placeLineSource lineSourceIndices
    rw [hl, ok_bind, h1, ok_bind, hcells, ok_bind]
  · intro d hd hd2
    obtain ⟨t, ht, rfl⟩ := htr (n 1 / 2 - d) (by omega)
    obtain ⟨t', ht', rfl⟩ := htr (n 1 / 2 + d) hd2
    obtain ⟨v, w, hv, hw, heq, -⟩ := h5 _ _ _ _ ht ht'
    rw [hv, hw, heq ?_]
    unfold tripleDist
    simp only
    have e1 : (((n 1 / 2 - d : ℕ) : ℤ) - ((n 1 / 2 : ℕ) : ℤ)) = -d := by omega
    have e2 : (((n 1 / 2 + d : ℕ) : ℤ) - ((n 1 / 2 : ℕ) : ℤ)) = d := by omega
    rw [e1, e2]; ring

/-! ### The update -/

section
variable {K : Type} [Field K]

lemma foldl_addEz (l : List (Pos × K)) (E : VField K) (p : Pos) (c : Fin 3) :
    l.foldl (fun E x => addEz E x.1 x.2) E p c = E p c + if c = 2 then (l.map fun x => if x.1 = p then x.2 else 0).sum else 0 := by
  induction l generalizing E with
  | nil => simp
  | cons x l ih =>
    rw [List.foldl_cons, ih, List.map_cons, List.sum_cons]
    unfold addEz
    by_cases hc : c = 2
    · by_cases hp : p = x.1
      · rw [if_pos ⟨hp, hc⟩, if_pos hc, if_pos hc, if_pos hp.symm]; ring
      · rw [if_neg (fun h => hp h.1), if_pos hc, if_pos hc, if_neg (fun h => hp h.symm)]; ring
    · rw [if_neg (fun h => hc h.2), if_neg hc, if_neg hc]

/-- What a line source adds: the soft drive used in Model/FdtdStep.lean. -/
def lineDrive (cells : List Pos) (profile : List K) (w : K) : VField K := fun p c =>
  if c = 2 then ((cells.zip (profile.map fun v => v * w)).map fun x => if x.1 = p then x.2 else 0).sum else 0

/-- C57, update: the loop of a line source adds a fixed field to E. Nothing outside its cells and no other component than z is touched. -/
theorem C57_update (cells : List Pos) (profile : List K) (w : K) (E : VField K) :
    (∀ p c, lineUpdateE cells profile w E p c = E p c + lineDrive cells profile w p c) ∧
    (∀ p c, c ≠ 2 → lineUpdateE cells profile w E p c = E p c) ∧ (∀ p c, p ∉ cells → lineUpdateE cells profile w E p c = E p c) := by
  have h1 : ∀ p c, lineUpdateE cells profile w E p c = E p c + lineDrive cells profile w p c := fun p c => foldl_addEz _ E p c
  refine ⟨h1, fun p c hc => ?_, fun p c hp => ?_⟩
  · rw [h1]
    unfold lineDrive
    rw [if_neg hc, add_zero]
  · rw [h1]
    unfold lineDrive
    have : ((cells.zip (profile.map fun v => v * w)).map fun x => if x.1 = p then x.2 else 0).sum = 0 := by
      refine List.sum_eq_zero fun v hv => ?_
      obtain ⟨x, hx, rfl⟩ := List.mem_map.1 hv
      have hx1 := (List.of_mem_zip hx).1
      exact if_neg fun h : x.1 = p => hp (by rw [← h]; exact hx1)
    rw [this]; simp

/-- C57, total: the z-components added in one step sum up to (sum of the profile) times the signal, over any set of cells containing those of the source. -/
theorem C57_total (cells : List Pos) (profile : List K) (hl : cells.length = profile.length) (w : K) (E : VField K) (T : Finset Pos) (hT : ∀ p ∈ cells, p ∈ T) :
    ∑ p ∈ T, (lineUpdateE cells profile w E p 2 - E p 2) = profile.sum * w := by
  have h1 : ∀ p ∈ T, lineUpdateE cells profile w E p 2 - E p 2 = ((cells.zip (profile.map fun v => v * w)).map fun x => if x.1 = p then x.2 else 0).sum := by
    intro p _
    rw [(C57_update cells profile w E).1]
    unfold lineDrive
    rw [if_pos rfl]; ring
  rw [Finset.sum_congr rfl h1]
  clear h1
  induction cells generalizing profile with
  | nil =>
    have : profile = [] := List.length_eq_zero_iff.1 hl.symm
    rw [this]; simp
  | cons q cells ih =>
    cases profile with
    | nil => simp at hl
    | cons v profile =>
      have hl' : cells.length = profile.length := by simpa using hl
      simp only [List.map_cons, List.zip_cons_cons, List.sum_cons]
      rw [Finset.sum_add_distrib, ih profile hl' fun p hp => hT p (by simp [hp])]
      rw [Finset.sum_ite_eq T q, if_pos (hT q (by simp))]
      ring

end

/-- C57 put together for `grid[x, :, 0]`: in every step for which the signal is defined, the source adds in total amplitude × signal to the z-component of E on its line,
and changes nothing else. -/
theorem C57_injects (n : Pos) (x : ℕ) (hx : x < n 0) (hy : 2 ≤ n 1) (hz : 1 ≤ n 2) (s : SourceSpec) (ha : 0 < s.amplitude) (g : GridNumbers) (q : ℕ) (w : ℝ)
    (hw : lineSignal g s q = .ok w) (E : VField ℝ) :
    ∃ cells prof E', placeLineSource n s (crossLine x 0) (crossLine x 1) (crossLine x 2) = .ok (cells, prof) ∧ lineSourceStep g s cells prof q E = .ok E' ∧
      ∑ j ∈ Finset.range (n 1), (E' ![x, j, 0] 2 - E ![x, j, 0] 2) = s.amplitude * w ∧
      ∀ p c, (c ≠ 2 ∨ p 0 ≠ x ∨ p 2 ≠ 0 ∨ n 1 ≤ p 1) → E' p c = E p c := by
  obtain ⟨prof, h1, h2, h3, -, -⟩ := C57_line n x hx hy hz s ha
  refine ⟨_, prof, lineUpdateE ((List.range (n 1)).map fun j => (![x, j, 0] : Pos)) prof w E, h1, by unfold lineSourceStep; rw [hw]; rfl, ?_, ?_⟩
  · have hinj : ∀ i ∈ Finset.range (n 1), ∀ j ∈ Finset.range (n 1), (![x, i, 0] : Pos) = ![x, j, 0] → i = j := fun i _ j _ h => by simpa using congrFun h 1
    have := C57_total ((List.range (n 1)).map fun j => (![x, j, 0] : Pos)) prof (by simp [h2]) w E
      ((Finset.range (n 1)).image fun j => (![x, j, 0] : Pos)) (fun p hp => by
        obtain ⟨j, hj, rfl⟩ := List.mem_map.1 hp
        exact Finset.mem_image.2 ⟨j, by simpa using hj, rfl⟩)
    rw [Finset.sum_image hinj, h3] at this
    exact this
  · intro p c h
    by_cases hc : c = 2
    · refine (C57_update _ prof w E).2.2 p c fun hp => ?_
      obtain ⟨j, hj, rfl⟩ := List.mem_map.1 hp
      rw [List.mem_range] at hj
      rcases h with h | h | h | h
      · exact h hc
      · exact h rfl
      · exact h rfl
      · exact absurd h (by show ¬ n 1 ≤ j; omega)
    · exact (C57_update _ prof w E).2.1 p c hc

/-! ### The signals -/

/-- C57, pulses end: a Hanning pulse of a line or point source is over after ⌊2π·cycles / (frequency·dt)⌋ steps, a Ricker pulse after six wavelengths worth of cells. -/
theorem C57_ends (g : GridNumbers) (s : SourceSpec) (hp : s.period.val ≠ 0) (q : ℕ) :
    (s.signal = "hanning" → s.cycle ≠ 0 → s.dt ≠ 0 → s.hanningSteps ≤ q → lineSignal g s q = .ok 0 ∧ pointSignal g s q = .ok 0) ∧
    (s.signal = "ricker" → s.gpw g * 6 ≤ q → lineSignal g s q = .ok 0 ∧ pointSignal g s q = .ok 0) := by
  constructor
  · intro h1 h2 h3 h4
    have h : ¬ (s.cycle = 0 ∨ s.dt = 0) := by tauto
    constructor
    · unfold lineSignal
      rw [if_neg hp, if_pos h1, if_neg h, if_neg (by omega)]
    · unfold pointSignal
      rw [if_neg hp, if_pos h1, if_neg h, if_neg (by omega)]
  · intro h1 h2
    have hh : s.signal ≠ "hanning" := by rw [h1]; decide
    constructor
    · unfold lineSignal
      rw [if_neg hp, if_neg hh, if_pos h1, if_neg (not_lt.2 h2)]
    · unfold pointSignal
      rw [if_neg hp, if_neg hh, if_pos h1, if_neg (not_lt.2 h2), mul_zero]

/-- C57, line sources: with a non-zero period (also after rounding to steps), non-zero cycle count and pulse time step, every signal type is defined in every step, and at most
one in absolute value for "hanning" and "continuous". -/
theorem C57_line_signals (g : GridNumbers) (s : SourceSpec) (hp : s.period.val ≠ 0) (hr : handleTime g.timeStep s.period ≠ 0) (hc : s.cycle ≠ 0) (hd : s.dt ≠ 0) (q : ℕ) :
    ∃ w, lineSignal g s q = .ok w ∧ (s.signal ≠ "ricker" → |w| ≤ 1) := by
  unfold lineSignal
  rw [if_neg hp]
  by_cases h1 : s.signal = "hanning"
  · rw [if_pos h1, if_neg (by tauto)]
    by_cases h2 : (q : ℤ) < s.hanningSteps
    · rw [if_pos h2]
      refine ⟨_, rfl, fun _ => ?_⟩
      unfold hanningPulse
      rw [abs_mul]
      have a1 := Real.abs_sin_le_one (s.frequency * (q * s.dt))
      have a2 : |1 / 2 * (1 - Real.cos (s.frequency * (q * s.dt) / s.cycle))| ≤ 1 := by
        rw [abs_le]
        have := Real.cos_le_one (s.frequency * (q * s.dt) / s.cycle)
        have := Real.neg_one_le_cos (s.frequency * (q * s.dt) / s.cycle)
        constructor <;> linarith
      calc _ ≤ 1 * 1 := mul_le_mul a2 a1 (abs_nonneg _) zero_le_one
        _ = 1 := by norm_num
    · rw [if_neg h2]
      exact ⟨0, rfl, fun _ => by norm_num⟩
  · rw [if_neg h1]
    by_cases h3 : s.signal = "ricker"
    · rw [if_pos h3]
      by_cases h4 : (q : ℝ) < s.gpw g * 6
      · rw [if_pos h4]; exact ⟨_, rfl, fun h => absurd h3 h⟩
      · rw [if_neg h4]; exact ⟨_, rfl, fun h => absurd h3 h⟩
    · rw [if_neg h3, if_neg hr]
      exact ⟨_, rfl, fun _ => Real.abs_sin_le_one _⟩

/-- C57, point sources: the same, except that the signal type "ricker" is excluded; the value is the amplitude times the signal of a line source. -/
theorem C57_point_signals_partial (g : GridNumbers) (s : SourceSpec) (hs : s.signal ≠ "ricker") (q : ℕ) :
    pointSignal g s q = (lineSignal g s q).map fun w => s.amplitude * w := by
  unfold pointSignal lineSignal
  split_ifs <;> simp [Except.map]

/-- the source `PointSource(period=…, signal_type="ricker")` with the defaults used by NIDN -/
noncomputable def rickerSpec (period : ℝ) : SourceSpec := ⟨.flt period, 1, 0, 5, some (1 / 10 ^ 15), "ricker"⟩

/-- C57 is false of point sources with a Ricker pulse: for every period and every grid, as long as the pulse lasts (in particular in the first step) the update raises an
UnboundLocalError, while a line source with the same arguments works. -/
theorem C57_ricker_false (g : GridNumbers) (hg : 0 < g.spacing) (period : ℝ) (hp : 0 < period) :
    pointSignal g (rickerSpec period) 0 = .error .unboundLocalError ∧
    (∀ q : ℕ, (q : ℝ) < SPEED_OF_LIGHT * period / g.spacing * 6 → pointSignal g (rickerSpec period) q = .error .unboundLocalError) ∧
    ∀ q, ∃ w, lineSignal g (rickerSpec period) q = .ok w := by
  have hp' : (rickerSpec period).period.val ≠ 0 := ne_of_gt hp
  have hh : (rickerSpec period).signal ≠ "hanning" := by show "ricker" ≠ "hanning"; decide
  have hr : (rickerSpec period).signal = "ricker" := rfl
  have hgpw : (rickerSpec period).gpw g = SPEED_OF_LIGHT * period / g.spacing := by
    show SPEED_OF_LIGHT / (1 / period) / g.spacing = _
    field_simp
  have key : ∀ q : ℕ, (q : ℝ) < SPEED_OF_LIGHT * period / g.spacing * 6 → pointSignal g (rickerSpec period) q = .error .unboundLocalError := by
    intro q hq
    unfold pointSignal
    rw [if_neg hp', if_neg hh, if_pos hr, hgpw, if_pos hq]
  refine ⟨key 0 ?_, key, fun q => ?_⟩
  · have : (0 : ℝ) < SPEED_OF_LIGHT := by unfold SPEED_OF_LIGHT; norm_num
    push_cast
    positivity
  · unfold lineSignal
    rw [if_neg hp', if_neg hh, if_pos hr]
    split_ifs
    · exact ⟨_, rfl⟩
    · exact ⟨_, rfl⟩

/-- A point source changes one component of one cell by amplitude times signal. -/
theorem C57_point (g : GridNumbers) (s : SourceSpec) (hs : s.signal ≠ "ricker") (cell : Pos) (q : ℕ) (w : ℝ) (hw : lineSignal g s q = .ok w) (E : VField ℝ) :
    ∃ E', pointSourceStep g s cell q E = .ok E' ∧ E' cell 2 = E cell 2 + s.amplitude * w ∧ ∀ p c, (p ≠ cell ∨ c ≠ 2) → E' p c = E p c := by
  refine ⟨addEz E cell (s.amplitude * w), ?_, if_pos ⟨rfl, rfl⟩, fun p c h => if_neg (by tauto)⟩
  unfold pointSourceStep
  rw [C57_point_signals_partial g s hs q, hw]
  rfl

/-- C57 is false of line sources addressed by three single indices: the check for at least two cells is skipped and the profile is 0/0 = NaN. -/
theorem C57_single_false (n : Pos) (s : SourceSpec) (x y z : ℤ) :
    placeLineSource n s (.list [x]) (.list [y]) (.list [z]) = .error .nan := by
  have h : lineProfile [(x, y, z)] s.amplitude = .error .nan := by
    unfold lineProfile
    have e : [(x, y, z)][[(x, y, z)].length / 2]? = some (x, y, z) := by simp
    rw [e]
    exact if_pos (maxDist_zero _ fun d hd => by
      simp only [List.map_cons, List.map_nil, List.mem_singleton] at hd
      rw [hd]; simp [tripleDist])
  show (lineProfile [(x, y, z)] s.amplitude >>= _) = _
  rw [h, error_bind]

end Nidn
