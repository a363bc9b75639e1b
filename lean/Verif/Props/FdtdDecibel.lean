/-
C129: the decibel map of a block detector.
-/
import Mathlib.Analysis.SpecialFunctions.Log.Base
import Mathlib.Tactic.Ring
import Mathlib.Tactic.FieldSimp
import Mathlib.Tactic.Linarith
import Mathlib.Order.Bounds.Basic
import Verif.Model.FdtdVisual
import Verif.Lemmas.Py
import Verif.Props.FdtdSources
import Verif.Props.Classification
import Verif.Props.Materials

namespace Nidn

/-- `w` is the difference of the largest and the smallest element of `S`. -/
def IsSwing (S : Set ℝ) (w : ℝ) : Prop := ∃ hi lo, IsGreatest S hi ∧ IsLeast S lo ∧ w = hi - lo

/-- what cell (i, j) of the lowest plane reads over time in component `a` -/
def BlockReadings.seen (b : BlockReadings) (a i j : ℕ) : Set ℝ := {v | ∃ t < b.times, v = b.val t i j 0 a}

lemma IsSwing.unique {S : Set ℝ} {v w : ℝ} (hv : IsSwing S v) (hw : IsSwing S w) : v = w := by
  obtain ⟨a, b, ha, hb, rfl⟩ := hv
  obtain ⟨c, d, hc, hd, rfl⟩ := hw
  rw [ha.unique hc, hb.unique hd]

lemma foldl_min_le (l : List ℝ) (v : ℝ) : l.foldl min v ≤ v ∧ ∀ w ∈ l, l.foldl min v ≤ w := by
  induction l generalizing v with
  | nil => simp
  | cons a rest ih =>
      obtain ⟨h1, h2⟩ := ih (min v a)
      refine ⟨h1.trans (min_le_left _ _), fun w hw => ?_⟩
      rcases List.mem_cons.mp hw with rfl | hw
      · exact h1.trans (min_le_right _ _)
      · exact h2 w hw

lemma foldl_min_mem (l : List ℝ) (v : ℝ) : l.foldl min v = v ∨ l.foldl min v ∈ l := by
  induction l generalizing v with
  | nil => simp
  | cons a rest ih =>
      rcases ih (min v a) with h | h
      · rcases min_choice v a with h1 | h1
        · left; rw [List.foldl_cons, h, h1]
        · right; rw [List.foldl_cons, h, h1]; simp
      · right; rw [List.foldl_cons]; exact List.mem_cons_of_mem _ h

lemma swing_spec (l : List ℝ) (h : l ≠ []) : ∃ w, swing l = .ok w ∧ IsSwing {v | v ∈ l} w := by
  rcases l with _ | ⟨v, l⟩
  · exact absurd rfl h
  · refine ⟨_, rfl, _, _, ⟨?_, ?_⟩, ⟨?_, ?_⟩, rfl⟩
    · rcases foldl_max_mem l v with h | h
      · rw [h]; simp
      · exact List.mem_cons_of_mem _ h
    · intro w hw
      rcases List.mem_cons.1 hw with rfl | hw
      · exact (foldl_max_ge l _).1
      · exact (foldl_max_ge l v).2 w hw
    · rcases foldl_min_mem l v with h | h
      · rw [h]; simp
      · exact List.mem_cons_of_mem _ h
    · intro w hw
      rcases List.mem_cons.1 hw with rfl | hw
      · exact (foldl_min_le l _).1
      · exact (foldl_min_le l v).2 w hw

lemma tableFold_ok (f : ℝ → ℝ → ℝ) (a : List (List ℝ)) (h : a ≠ []) (h2 : ∀ row ∈ a, row ≠ []) : ∃ m, tableFold f a = .ok m := by
  obtain ⟨out, ho⟩ := mapM_total (fun row : List ℝ => (match row with | [] => .error .valueError | v :: r => .ok (r.foldl f v) : Except PyErr ℝ)) a (by
    intro row hr
    rcases row with _ | ⟨v, r⟩
    · exact absurd rfl (h2 _ hr)
    · exact ⟨_, rfl⟩)
  have hl := (mapM_ok _ _ _ ho).1
  rcases out with _ | ⟨v, r⟩
  · exact absurd (List.length_eq_zero_iff.1 (by rw [← hl]; rfl)) h
  · refine ⟨r.foldl f v, ?_⟩
    unfold tableFold
    exact bind_ok.2 ⟨v :: r, ho, rfl⟩

lemma tableFold_ne (f : ℝ → ℝ → ℝ) (a : List (List ℝ)) (m : ℝ) (hm : tableFold f a = .ok m) : a ≠ [] ∧ ∀ row ∈ a, row ≠ [] := by
  unfold tableFold at hm
  obtain ⟨out, ho, hm⟩ := bind_ok.1 hm
  obtain ⟨hl, hg⟩ := mapM_ok _ _ _ ho
  constructor
  · rintro rfl
    have : out = [] := List.length_eq_zero_iff.1 (by rw [hl]; rfl)
    subst this
    cases hm
  · rintro row hr rfl
    obtain ⟨i, hi, he⟩ := List.mem_iff_getElem.1 hr
    have := hg i hi (by omega)
    rw [he] at this
    cases this

lemma tableFold_min (a : List (List ℝ)) (m : ℝ) (hm : tableFold min a = .ok m) : (∃ row ∈ a, m ∈ row) ∧ ∀ row ∈ a, ∀ y ∈ row, m ≤ y := by
  unfold tableFold at hm
  obtain ⟨out, ho, hm⟩ := bind_ok.1 hm
  obtain ⟨hl, hg⟩ := mapM_ok _ _ _ ho
  have hrow : ∀ i (hi : i < a.length) (ho : i < out.length), out[i] ∈ a[i] ∧ ∀ y ∈ a[i], out[i] ≤ y := by
    intro i hi hi2
    have := hg i hi hi2
    revert this
    generalize a[i] = row
    generalize out[i] = w
    intro this
    rcases row with _ | ⟨v, r⟩
    · cases this
    · obtain rfl : r.foldl min v = w := Except.ok.inj this
      refine ⟨?_, fun y hy => ?_⟩
      · rcases foldl_min_mem r v with h | h
        · rw [h]; simp
        · exact List.mem_cons_of_mem _ h
      · rcases List.mem_cons.1 hy with rfl | hy
        · exact (foldl_min_le r _).1
        · exact (foldl_min_le r v).2 y hy
  rcases out with _ | ⟨v, r⟩
  · cases hm
  · obtain rfl : r.foldl min v = m := Except.ok.inj hm
    constructor
    · have hmem : r.foldl min v ∈ v :: r := by
        rcases foldl_min_mem r v with h | h
        · rw [h]; simp
        · exact List.mem_cons_of_mem _ h
      obtain ⟨i, hi, he⟩ := List.mem_iff_getElem.1 hmem
      refine ⟨a[i]'(by omega), List.getElem_mem _, ?_⟩
      have := (hrow i (by omega) hi).1
      rwa [he] at this
    · intro row hr y hy
      obtain ⟨i, hi, rfl⟩ := List.mem_iff_getElem.1 hr
      refine le_trans ?_ ((hrow i hi (by omega)).2 y hy)
      have : (v :: r)[i]'(by omega) ∈ v :: r := List.getElem_mem _
      rcases List.mem_cons.1 this with h | h
      · rw [h]; exact (foldl_min_le r v).1
      · exact (foldl_min_le r v).2 _ h

/-- the table of swings, written down -/
lemma swingTable_spec (b : BlockReadings) (axis : ℤ) (a : ℕ) (ha : torchIndex b.comps axis = .ok a) (ht : b.times ≠ 0) (hh : b.heights ≠ 0) :
    ∃ w : ℕ → ℕ → ℝ, (∀ i j, IsSwing (b.seen a i j) (w i j)) ∧
      swingTable b axis = .ok ((List.range b.rows).map fun i => (List.range b.cols).map fun j => w i j) := by
  have key : ∀ i j, ∃ w, (do let s ← cellSignal b axis i j; swing s) = .ok w ∧ IsSwing (b.seen a i j) w := by
    intro i j
    obtain ⟨w, h1, h2⟩ := swing_spec ((List.range b.times).map fun t => b.val t i j 0 a) (by simpa using ht)
    refine ⟨w, ?_, ?_⟩
    · unfold cellSignal
      rw [if_neg hh, ha]
      exact h1
    · convert h2 using 1
      ext v
      simp [BlockReadings.seen, eq_comm]
  choose w h1 h2 using key
  refine ⟨w, h2, ?_⟩
  unfold swingTable
  rw [mapM_all_ok _ (fun i => (List.range b.cols).map fun j => w i j)]
  intro i _
  exact mapM_all_ok _ _ _ fun j _ => h1 i j

/-- C129: wherever the map is drawn, every cell of the lowest plane shows ten times the decimal logarithm of the ratio between how far the chosen component swings there and how far it swings in the
cell where it moves least, which is more than zero. -/
theorem C129_map (b : BlockReadings) (axis : ℤ) (m : List (List ℝ)) (h : dbMap (.readings b) axis = .ok m) :
    ∃ (a : ℕ) (least : ℝ), (axis = a ∨ axis + b.comps = a) ∧ a < b.comps ∧ 0 < least ∧
      (∃ i < b.rows, ∃ j < b.cols, IsSwing (b.seen a i j) least) ∧
      (∀ i < b.rows, ∀ j < b.cols, ∀ w, IsSwing (b.seen a i j) w → least ≤ w) ∧
      m.length = b.rows ∧ ∀ i < b.rows, ∃ row, m[i]? = some row ∧ row.length = b.cols ∧
        ∀ j < b.cols, ∀ w, IsSwing (b.seen a i j) w → row[j]? = some (10 * Real.logb 10 (w / least)) := by
  unfold dbMap at h
  dsimp only at h
  split_ifs at h with ht
  obtain ⟨tab, htab, h⟩ := bind_ok.1 h
  obtain ⟨-, -, h⟩ := bind_ok.1 h
  obtain ⟨mn, hmn, h⟩ := bind_ok.1 h
  split_ifs at h with h0
  obtain rfl := (Except.ok.inj h).symm
  obtain ⟨hne, hrow⟩ := tableFold_ne _ _ _ hmn
  -- there is a first cell, so the indexing worked
  have hbr : b.rows ≠ 0 := by
    intro hr
    unfold swingTable at htab
    rw [hr] at htab
    exact hne (Except.ok.inj htab).symm
  obtain ⟨hl, hg⟩ := mapM_ok _ _ _ htab
  have hcol : ∀ i (hi : i < b.rows), ∃ row, tab[i]? = some row ∧ ((List.range b.cols).mapM fun j => do
      let s ← cellSignal b axis i j
      swing s) = .ok row := by
    intro i hi
    have := hg i (by simpa using hi) (by rw [hl]; simpa using hi)
    refine ⟨_, List.getElem?_eq_getElem (by rw [hl]; simpa using hi), ?_⟩
    simpa using this
  have hbc : b.cols ≠ 0 := by
    intro hc
    obtain ⟨row, h1, h2⟩ := hcol 0 (by omega)
    rw [hc] at h2
    exact hrow row (List.mem_of_getElem? h1) (Except.ok.inj h2).symm
  obtain ⟨row0, h01, h02⟩ := hcol 0 (by omega)
  obtain ⟨hl0, hg0⟩ := mapM_ok _ _ _ h02
  have hcell := hg0 0 (by simp; omega) (by rw [hl0]; simp; omega)
  obtain ⟨s0, hs0, -⟩ := bind_ok.1 hcell
  unfold cellSignal at hs0
  split_ifs at hs0 with hh
  cases ha : torchIndex b.comps axis with
  | error e => rw [ha] at hs0; cases hs0
  | ok a =>
  obtain ⟨w, hw, htab'⟩ := swingTable_spec b axis a ha ht hh
  obtain rfl := Except.ok.inj (htab.symm.trans htab')
  obtain ⟨⟨rowm, hr1, hr2⟩, hle⟩ := tableFold_min _ _ hmn
  have hax : (axis = a ∨ axis + b.comps = a) ∧ a < b.comps := by
    unfold torchIndex at ha
    split_ifs at ha with h1 h2
    · have := Except.ok.inj ha
      omega
    · have := Except.ok.inj ha
      omega
  have hmem : ∀ i < b.rows, ∀ j < b.cols, mn ≤ w i j := by
    intro i hi j hj
    exact hle _ (List.mem_map.2 ⟨i, List.mem_range.2 hi, rfl⟩) _ (List.mem_map.2 ⟨j, List.mem_range.2 hj, rfl⟩)
  obtain ⟨i0, hi0, rfl⟩ := List.mem_map.1 hr1
  obtain ⟨j0, hj0, hmn0⟩ := List.mem_map.1 hr2
  have hnn : 0 ≤ mn := by
    rw [← hmn0]
    obtain ⟨hi, lo, h1, h2, h3⟩ := hw i0 j0
    rw [h3]
    linarith [h2.2 h1.1]
  refine ⟨a, mn, hax.1, hax.2, lt_of_le_of_ne hnn (Ne.symm h0), ⟨i0, List.mem_range.1 hi0, j0, List.mem_range.1 hj0, hmn0 ▸ hw i0 j0⟩, ?_, by simp, ?_⟩
  · intro i hi j hj v hv
    rw [hv.unique (hw i j)]
    exact hmem i hi j hj
  · intro i hi
    refine ⟨((List.range b.cols).map fun j => w i j).map fun y => 10 * Real.logb 10 (y / mn), ?_, by simp, ?_⟩
    · simp [List.getElem?_map, List.getElem?_range hi]
    · intro j hj v hv
      rw [hv.unique (hw i j)]
      simp [List.getElem?_map, List.getElem?_range hj]

/-- C129: exactly when a map is drawn: there are readings at some time in some cell, the component exists, and no cell stands still. -/
theorem C129_total_partial (b : BlockReadings) (axis : ℤ) :
    (∃ m, dbMap (.readings b) axis = .ok m) ↔
      0 < b.times ∧ 0 < b.rows ∧ 0 < b.cols ∧ 0 < b.heights ∧ ∃ a < b.comps, (axis = a ∨ axis + b.comps = a) ∧
        ∀ i < b.rows, ∀ j < b.cols, ∃ t < b.times, ∃ t' < b.times, b.val t i j 0 a ≠ b.val t' i j 0 a := by
  constructor
  · rintro ⟨m, h⟩
    obtain ⟨a, least, ha, hac, hpos, ⟨i0, hi0, j0, hj0, hs0⟩, hle, -⟩ := C129_map b axis m h
    have ht : 0 < b.times := by
      obtain ⟨hi, lo, ⟨⟨t, ht, -⟩, -⟩, -⟩ := hs0
      omega
    have hh : 0 < b.heights := by
      rcases Nat.eq_zero_or_pos b.heights with hz | hz
      · exfalso
        unfold dbMap at h
        dsimp only at h
        rw [if_neg (by omega)] at h
        obtain ⟨tab, htab, -⟩ := bind_ok.1 h
        obtain ⟨hl, hg⟩ := mapM_ok _ _ _ htab
        have h1 := hg i0 (by simpa using hi0) (by rw [hl]; simpa using hi0)
        obtain ⟨hl2, hg2⟩ := mapM_ok _ _ _ h1
        have h2 := hg2 j0 (by simpa using hj0) (by rw [hl2]; simpa using hj0)
        obtain ⟨s, hs, -⟩ := bind_ok.1 h2
        unfold cellSignal at hs
        rw [if_pos hz] at hs
        cases hs
      · exact hz
    refine ⟨ht, by omega, by omega, hh, a, hac, ha, fun i hi j hj => ?_⟩
    obtain ⟨w, hw1, hw2⟩ := swing_spec ((List.range b.times).map fun t => b.val t i j 0 a) (by simp; omega)
    have hw : IsSwing (b.seen a i j) w := by
      convert hw2 using 1
      ext v
      simp [BlockReadings.seen, eq_comm]
    have h1 := hle i hi j hj w hw
    obtain ⟨hi', lo, ⟨⟨t, ht1, he1⟩, -⟩, ⟨⟨t', ht2, he2⟩, -⟩, rfl⟩ := hw
    refine ⟨t, ht1, t', ht2, fun he => ?_⟩
    rw [he1, he2, he] at h1
    linarith
  · rintro ⟨ht, hr, hc, hh, a, hac, ha, hmove⟩
    have hti : torchIndex b.comps axis = .ok a := by
      unfold torchIndex
      rcases ha with ha | ha
      · rw [if_pos (by omega), ha]; rfl
      · rw [if_neg (by omega), if_pos (by omega), ha]; rfl
    obtain ⟨w, hw, htab⟩ := swingTable_spec b axis a hti (by omega) (by omega)
    have hne : ((List.range b.rows).map fun i => (List.range b.cols).map fun j => w i j) ≠ [] := by
      simp; omega
    have hne2 : ∀ row ∈ ((List.range b.rows).map fun i => (List.range b.cols).map fun j => w i j), row ≠ [] := by
      intro row hrow
      obtain ⟨i, -, rfl⟩ := List.mem_map.1 hrow
      simp; omega
    obtain ⟨mx, hmx⟩ := tableFold_ok max _ hne hne2
    obtain ⟨mn, hmn⟩ := tableFold_ok min _ hne hne2
    have h0 : mn ≠ 0 := by
      obtain ⟨⟨row, h1, h2⟩, -⟩ := tableFold_min _ _ hmn
      obtain ⟨i, hi, rfl⟩ := List.mem_map.1 h1
      obtain ⟨j, hj, rfl⟩ := List.mem_map.1 h2
      intro hz
      obtain ⟨t, ht1, t', ht2, hd⟩ := hmove i (List.mem_range.1 hi) j (List.mem_range.1 hj)
      obtain ⟨hi', lo, h1, h2, h3⟩ := hw i j
      rw [hz] at h3
      have e1 := h1.2 ⟨t, ht1, rfl⟩
      have e2 := h2.2 ⟨t, ht1, rfl⟩
      have e3 := h1.2 ⟨t', ht2, rfl⟩
      have e4 := h2.2 ⟨t', ht2, rfl⟩
      exact hd (by linarith)
    refine ⟨((List.range b.rows).map fun i => (List.range b.cols).map fun j => w i j).map fun row => row.map fun y => 10 * Real.logb 10 (y / mn), ?_⟩
    unfold dbMap
    dsimp only
    rw [if_neg (by omega), htab, ok_bind, hmx, ok_bind, hmn, ok_bind, if_neg h0]

/-- C129: the scale begins at the cell that moves least: no value is negative, and one is zero. -/
theorem C129_zero (b : BlockReadings) (axis : ℤ) (m : List (List ℝ)) (h : dbMap (.readings b) axis = .ok m) :
    (∀ row ∈ m, ∀ v ∈ row, 0 ≤ v) ∧ ∃ row ∈ m, (0 : ℝ) ∈ row := by
  obtain ⟨a, least, -, -, hpos, ⟨i0, hi0, j0, hj0, hs0⟩, hle, hlen, hrows⟩ := C129_map b axis m h
  have ht : 0 < b.times := by
    obtain ⟨hi, lo, ⟨⟨t, ht, -⟩, -⟩, -⟩ := hs0
    omega
  constructor
  · intro row hrow v hv
    obtain ⟨i, hi, he⟩ := List.mem_iff_getElem.1 hrow
    obtain ⟨row', hr1, hr2, hr3⟩ := hrows i (by omega)
    rw [List.getElem?_eq_getElem hi, he] at hr1
    obtain rfl := Option.some.inj hr1
    obtain ⟨j, hj, rfl⟩ := List.mem_iff_getElem.1 hv
    obtain ⟨w, -, hw2⟩ := swing_spec ((List.range b.times).map fun t => b.val t i j 0 a) (by simp; omega)
    have hw : IsSwing (b.seen a i j) w := by
      convert hw2 using 1
      ext v
      simp [BlockReadings.seen, eq_comm]
    have := hr3 j (by omega) w hw
    rw [List.getElem?_eq_getElem hj] at this
    rw [Option.some.inj this]
    have h1 : 1 ≤ w / least := by
      rw [le_div_iff₀ hpos, one_mul]
      exact hle i (by omega) j (by omega) w hw
    have := Real.logb_nonneg (b := 10) (by norm_num) h1
    linarith
  · obtain ⟨row, hr1, hr2, hr3⟩ := hrows i0 hi0
    refine ⟨row, List.mem_of_getElem? hr1, ?_⟩
    have := hr3 j0 hj0 least hs0
    rw [div_self hpos.ne', Real.logb_one, mul_zero] at this
    exact List.mem_of_getElem? this

/-- C129: the unit of the readings does not matter: multiplying all of them by the same number other than zero, or adding a constant to each cell, gives the same map. -/
theorem C129_units (b : BlockReadings) (axis : ℤ) (k : ℝ) (off : ℕ → ℕ → ℕ → ℕ → ℝ) (hk : k ≠ 0) (m : List (List ℝ)) (h : dbMap (.readings b) axis = .ok m) :
    dbMap (.readings { b with val := fun t i j z c => k * b.val t i j z c + off i j z c }) axis = .ok m := by
  have hs : ∀ a i j w, IsSwing (b.seen a i j) w → IsSwing (({ b with val := fun t i j z c => k * b.val t i j z c + off i j z c } : BlockReadings).seen a i j) (|k| * w) := by
    rintro a i j w ⟨hi, lo, ⟨⟨t, ht, rfl⟩, h2⟩, ⟨⟨t', ht', rfl⟩, h4⟩, rfl⟩
    rcases lt_or_gt_of_ne hk with hk | hk
    · refine ⟨_, _, ⟨⟨t', ht', rfl⟩, ?_⟩, ⟨⟨t, ht, rfl⟩, ?_⟩, ?_⟩
      · rintro _ ⟨s, hs, rfl⟩
        have := h4 ⟨s, hs, rfl⟩
        dsimp only
        nlinarith
      · rintro _ ⟨s, hs, rfl⟩
        have := h2 ⟨s, hs, rfl⟩
        dsimp only
        nlinarith
      · rw [abs_of_neg hk]; dsimp only; ring
    · refine ⟨_, _, ⟨⟨t, ht, rfl⟩, ?_⟩, ⟨⟨t', ht', rfl⟩, ?_⟩, ?_⟩
      · rintro _ ⟨s, hs, rfl⟩
        have := h2 ⟨s, hs, rfl⟩
        dsimp only
        nlinarith
      · rintro _ ⟨s, hs, rfl⟩
        have := h4 ⟨s, hs, rfl⟩
        dsimp only
        nlinarith
      · rw [abs_of_pos hk]; dsimp only; ring
  have hka : |k| ≠ 0 := abs_ne_zero.2 hk
  obtain ⟨m', hm'⟩ : ∃ m', dbMap (.readings { b with val := fun t i j z c => k * b.val t i j z c + off i j z c }) axis = .ok m' := by
    rw [C129_total_partial]
    obtain ⟨h1, h2, h3, h4, a, h5, h6, h7⟩ := (C129_total_partial b axis).1 ⟨m, h⟩
    refine ⟨h1, h2, h3, h4, a, h5, h6, fun i hi j hj => ?_⟩
    obtain ⟨t, ht, t', ht', hd⟩ := h7 i hi j hj
    exact ⟨t, ht, t', ht', fun he => hd (mul_left_cancel₀ hk (by dsimp only at he; linarith))⟩
  rw [hm']
  obtain ⟨a, least, ha, hac, hpos, ⟨i0, hi0, j0, hj0, hs0⟩, hle, hlen, hrows⟩ := C129_map b axis m h
  obtain ⟨a', least', ha', hac', hpos', ⟨i1, hi1, j1, hj1, hs1⟩, hle', hlen', hrows'⟩ := C129_map _ axis m' hm'
  dsimp only at ha' hac' hi1 hj1 hlen' hrows' hle'
  obtain rfl : a' = a := by omega
  have ht : 0 < b.times := by
    obtain ⟨hi, lo, ⟨⟨t, ht, -⟩, -⟩, -⟩ := hs0
    omega
  have hex : ∀ i j, ∃ w, IsSwing (b.seen a' i j) w := by
    intro i j
    obtain ⟨w, -, hw2⟩ := swing_spec ((List.range b.times).map fun t => b.val t i j 0 a') (by simp; omega)
    refine ⟨w, ?_⟩
    convert hw2 using 1
    ext v
    simp [BlockReadings.seen, eq_comm]
  have hll : least' = |k| * least := by
    apply le_antisymm
    · exact hle' i0 hi0 j0 hj0 _ (hs _ _ _ _ hs0)
    · obtain ⟨w, hw⟩ := hex i1 j1
      rw [hs1.unique (hs _ _ _ _ hw)]
      exact mul_le_mul_of_nonneg_left (hle i1 hi1 j1 hj1 w hw) (abs_nonneg k)
  congr 1
  apply List.ext_getElem? fun i => ?_
  by_cases hi : i < b.rows
  · obtain ⟨row, hr1, hr2, hr3⟩ := hrows i hi
    obtain ⟨row', hr1', hr2', hr3'⟩ := hrows' i hi
    rw [hr1, hr1']
    congr 1
    apply List.ext_getElem? fun j => ?_
    by_cases hj : j < b.cols
    · obtain ⟨w, hw⟩ := hex i j
      rw [hr3 j hj w hw, hr3' j hj _ (hs _ _ _ _ hw), hll, mul_div_mul_left _ _ hka]
    · rw [List.getElem?_eq_none (by omega), List.getElem?_eq_none (by omega)]
  · rw [List.getElem?_eq_none (by omega), List.getElem?_eq_none (by omega)]

/-- The intensity of an oscillation, up to a constant factor: the square of its amplitude (half the swing). -/
def IsIntensity (S : Set ℝ) (x : ℝ) : Prop := ∃ w, IsSwing S w ∧ x = (w / 2) ^ 2

/-- two time steps, one row of two cells; the field swings between -1 and 1 in the first cell and between -10 and 10 in the second -/
noncomputable def loudAndQuiet : BlockReadings := ⟨2, 1, 2, 1, 3, fun t _ j _ _ => (if t = 0 then 1 else -1) * (if j = 0 then 1 else 10)⟩

/-- the readings used as a witness -/
lemma loudAndQuiet_swing : IsSwing (loudAndQuiet.seen 2 0 0) 2 ∧ IsSwing (loudAndQuiet.seen 2 0 1) 20 := by
  constructor
  · refine ⟨1, -1, ⟨⟨0, by simp [loudAndQuiet], by simp [loudAndQuiet]⟩, ?_⟩, ⟨⟨1, by simp [loudAndQuiet], by simp [loudAndQuiet]⟩, ?_⟩, by norm_num⟩
    · rintro _ ⟨t, -, rfl⟩
      simp only [loudAndQuiet]
      split_ifs <;> norm_num
    · rintro _ ⟨t, -, rfl⟩
      simp only [loudAndQuiet]
      split_ifs <;> norm_num
  · refine ⟨10, -10, ⟨⟨0, by simp [loudAndQuiet], by simp [loudAndQuiet]⟩, ?_⟩, ⟨⟨1, by simp [loudAndQuiet], by simp [loudAndQuiet]⟩, ?_⟩, by norm_num⟩
    · rintro _ ⟨t, -, rfl⟩
      simp only [loudAndQuiet]
      split_ifs <;> norm_num
    · rintro _ ⟨t, -, rfl⟩
      simp only [loudAndQuiet]
      split_ifs <;> norm_num

/-- a map is drawn for the witness, so the hypotheses of the theorems above can be met -/
example : ∃ m, dbMap (.readings loudAndQuiet) 2 = .ok m := by
  rw [C129_total_partial]
  refine ⟨by simp [loudAndQuiet], by simp [loudAndQuiet], by simp [loudAndQuiet], by simp [loudAndQuiet], 2, by simp [loudAndQuiet], by simp, fun i _ j _ => ⟨0, by simp [loudAndQuiet], 1, by simp [loudAndQuiet], ?_⟩⟩
  simp only [loudAndQuiet]
  by_cases hj : j = 0 <;> simp [hj] <;> norm_num

/-- C129 fails: the values are not the decibels of the intensity. Decibels are ten times the logarithm of a ratio of intensities; a cell with a hundred times the intensity of the weakest one is 20 dB above it and drawn with 10. -/
theorem C129_decibel_false :
    ¬ ∀ (b : BlockReadings) (axis : ℕ) (m : List (List ℝ)), dbMap (.readings b) axis = .ok m → axis < b.comps →
      ∀ i < b.rows, ∀ j < b.cols, ∀ i' < b.rows, ∀ j' < b.cols, ∀ x x' v v',
        IsIntensity (b.seen axis i j) x → IsIntensity (b.seen axis i' j') x' → (m[i]?.bind fun r => r[j]?) = some v → (m[i']?.bind fun r => r[j']?) = some v' →
        v' - v = 10 * Real.logb 10 (x' / x) := by
  intro hall
  have hex : ∃ m, dbMap (.readings loudAndQuiet) ((2 : ℕ) : ℤ) = .ok m := by
    rw [C129_total_partial]
    refine ⟨by simp [loudAndQuiet], by simp [loudAndQuiet], by simp [loudAndQuiet], by simp [loudAndQuiet], 2, by simp [loudAndQuiet], by simp, fun i _ j _ => ⟨0, by simp [loudAndQuiet], 1, by simp [loudAndQuiet], ?_⟩⟩
    simp only [loudAndQuiet]
    by_cases hj : j = 0 <;> simp [hj] <;> norm_num
  obtain ⟨m, hm⟩ := hex
  obtain ⟨s0, s1⟩ := loudAndQuiet_swing
  obtain ⟨a, least, ha, hac, hpos, -, -, -, hrows⟩ := C129_map _ _ m hm
  have ha2 : a = 2 := by
    simp only [loudAndQuiet] at ha hac
    omega
  subst ha2
  obtain ⟨row, hr, -, hv⟩ := hrows 0 (by simp [loudAndQuiet])
  have h0 := hv 0 (by simp [loudAndQuiet]) 2 s0
  have h1 := hv 1 (by simp [loudAndQuiet]) 20 s1
  have := hall loudAndQuiet 2 m hm (by simp [loudAndQuiet]) 0 (by simp [loudAndQuiet]) 0 (by simp [loudAndQuiet]) 0 (by simp [loudAndQuiet]) 1 (by simp [loudAndQuiet])
    ((2 / 2) ^ 2) ((20 / 2) ^ 2) _ _ ⟨2, s0, rfl⟩ ⟨20, s1, rfl⟩ (by rw [hr]; exact h0) (by rw [hr]; exact h1)
  have e1 : Real.logb 10 (20 / least) = Real.logb 10 10 + Real.logb 10 (2 / least) := by
    rw [← Real.logb_mul (by norm_num) (by positivity)]
    congr 1
    field_simp
    norm_num
  have e2 : Real.logb 10 ((20 / 2 : ℝ) ^ 2 / (2 / 2) ^ 2) = 2 := by
    rw [show ((20 / 2 : ℝ) ^ 2 / (2 / 2) ^ 2) = 10 ^ (2 : ℕ) by norm_num, Real.logb_pow, Real.logb_self_eq_one (by norm_num)]
    norm_num
  rw [e1, e2, Real.logb_self_eq_one (by norm_num)] at this
  linarith

/-- C129: the documented ValueError is raised exactly without readings, with readings of another kind of detector, and for a detector without cells. -/
theorem C129_rejected (arg : DbArg) (axis : ℤ) :
    dbMap arg axis = .error .valueError ↔ arg = .none ∨ arg = .wrongAxes ∨ ∃ b, arg = .readings b ∧ 0 < b.times ∧ (b.rows = 0 ∨ b.cols = 0) := by
  cases arg with
  | none => simp [dbMap]
  | wrongAxes => simp [dbMap]
  | readings b =>
    simp only [reduceCtorEq, DbArg.readings.injEq, false_or]
    constructor
    · intro h
      refine ⟨b, rfl, ?_⟩
      by_contra hcon
      unfold dbMap at h
      dsimp only at h
      by_cases ht : b.times = 0
      · rw [if_pos ht] at h; cases h
      rw [if_neg ht] at h
      have hr : 0 < b.rows ∧ 0 < b.cols := by omega
      have hidx : ∀ i ∈ List.range b.rows, ((List.range b.cols).mapM fun j => do
          let s ← cellSignal b axis i j
          swing s) = .error .indexError ∨ (b.heights ≠ 0 ∧ ∃ a, torchIndex b.comps axis = .ok a) := by
        intro i _
        by_cases hh : b.heights = 0
        · left
          obtain ⟨c, hc⟩ := Nat.exists_eq_succ_of_ne_zero hr.2.ne'
          rw [hc, List.range_succ_eq_map, List.mapM_cons]
          unfold cellSignal
          rw [if_pos hh]
          rfl
        · cases ha : torchIndex b.comps axis with
          | ok a => exact Or.inr ⟨hh, a, rfl⟩
          | error e =>
            left
            have he : e = .indexError := by
              unfold torchIndex at ha
              split_ifs at ha
              exact (Except.error.inj ha).symm
            subst he
            obtain ⟨c, hc⟩ := Nat.exists_eq_succ_of_ne_zero hr.2.ne'
            rw [hc, List.range_succ_eq_map, List.mapM_cons]
            unfold cellSignal
            rw [if_neg hh, ha]
            rfl
      rcases hidx 0 (List.mem_range.2 hr.1) with h1 | ⟨hh, a, ha⟩
      · have : swingTable b axis = .error .indexError := by
          unfold swingTable
          obtain ⟨c, hc⟩ := Nat.exists_eq_succ_of_ne_zero hr.1.ne'
          rw [hc, List.range_succ_eq_map, List.mapM_cons, h1]
          rfl
        rw [this] at h
        cases h
      · obtain ⟨w, -, htab⟩ := swingTable_spec b axis a ha (by omega) hh
        have hne : ((List.range b.rows).map fun i => (List.range b.cols).map fun j => w i j) ≠ [] := by
          simp; omega
        have hne2 : ∀ row ∈ ((List.range b.rows).map fun i => (List.range b.cols).map fun j => w i j), row ≠ [] := by
          intro row hrow
          obtain ⟨i, -, rfl⟩ := List.mem_map.1 hrow
          simp; omega
        obtain ⟨mx, hmx⟩ := tableFold_ok max _ hne hne2
        obtain ⟨mn, hmn⟩ := tableFold_ok min _ hne hne2
        rw [htab, ok_bind, hmx, ok_bind, hmn, ok_bind] at h
        split_ifs at h
        cases h
    · rintro ⟨b', rfl, ht, hrc⟩
      unfold dbMap
      dsimp only
      rw [if_neg (by omega)]
      by_cases hr : b.rows = 0
      · unfold swingTable
        rw [hr]
        rfl
      · have hc : b.cols = 0 := by omega
        have : swingTable b axis = .ok ((List.range b.rows).map fun _ => []) := by
          unfold swingTable
          rw [hc]
          exact mapM_all_ok _ _ _ fun i _ => rfl
        rw [this, ok_bind]
        obtain ⟨c, hc⟩ := Nat.exists_eq_succ_of_ne_zero hr
        rw [hc, List.range_succ_eq_map]
        unfold tableFold
        rw [List.map_cons, List.mapM_cons]
        rfl

end Nidn
