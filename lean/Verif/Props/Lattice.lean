/-
Properties C13 and C14: reciprocal lattice and circular truncation.
-/
import Verif.Lemmas.LatticeCount
import Mathlib.Tactic.Linarith
import Mathlib.Tactic.Ring
import Mathlib.Tactic.FieldSimp
import Mathlib.Tactic.LinearCombination
import Mathlib.Data.List.Sort

namespace Nidn

/-! ## C13 -/

/-- C13: for a non-degenerate pair of lattice vectors the result is the dual basis. -/
theorem C13_duality {K : Type} [Field K] [DecidableEq K] (a b c e : K) (h : a * e ≠ b * c) :
    ∃ x1 y1 x2 y2 : K, latticeReciprocate [a, b] [c, e] = .ok ((x1, y1), (x2, y2)) ∧
      x1 * a + y1 * b = 1 ∧ x1 * c + y1 * e = 0 ∧ x2 * a + y2 * b = 0 ∧ x2 * c + y2 * e = 1 := by
  have hd : a * e - b * c ≠ 0 := sub_ne_zero.2 h
  refine ⟨e / (a * e - b * c), -c / (a * e - b * c), -b / (a * e - b * c), a / (a * e - b * c),
    by simp only [latticeReciprocate, if_neg hd], ?_, ?_, ?_, ?_⟩
  · rw [div_mul_eq_mul_div, div_mul_eq_mul_div, ← add_div, div_eq_one_iff_eq hd]; ring
  all_goals field_simp
  all_goals ring_nf

/-- C13: the returned pair is the only dual pair. -/
theorem C13_unique {K : Type} [Field K] [DecidableEq K] (a b c e : K) (h : a * e ≠ b * c) (x1 y1 x2 y2 : K)
    (h11 : x1 * a + y1 * b = 1) (h12 : x1 * c + y1 * e = 0) (h21 : x2 * a + y2 * b = 0) (h22 : x2 * c + y2 * e = 1) :
    latticeReciprocate [a, b] [c, e] = .ok ((x1, y1), (x2, y2)) := by
  have hd : a * e - b * c ≠ 0 := sub_ne_zero.2 h
  simp only [latticeReciprocate, if_neg hd, Except.ok.injEq, Prod.mk.injEq]
  refine ⟨⟨?_, ?_⟩, ?_, ?_⟩ <;> rw [div_eq_iff hd]
  · linear_combination (-e) * h11 + b * h12
  · linear_combination c * h11 - a * h12
  · linear_combination (-e) * h21 + b * h22
  · linear_combination c * h21 - a * h22

/-- C13: reciprocating twice gives the original lattice back. -/
theorem C13_involution {K : Type} [Field K] [DecidableEq K] (a b c e : K) (h : a * e ≠ b * c) :
    ∃ x1 y1 x2 y2 : K, latticeReciprocate [a, b] [c, e] = .ok ((x1, y1), (x2, y2)) ∧
      latticeReciprocate [x1, y1] [x2, y2] = .ok ((a, b), (c, e)) := by
  obtain ⟨x1, y1, x2, y2, h0, h1, h2, h3, h4⟩ := C13_duality a b c e h
  refine ⟨x1, y1, x2, y2, h0, C13_unique _ _ _ _ ?_ _ _ _ _ ?_ ?_ ?_ ?_⟩
  · intro hx
    have : (x1 * y2 - y1 * x2) * (a * e - b * c) = 1 := by
      linear_combination (x2 * c + y2 * e) * h1 + h4 - (x2 * a + y2 * b) * h2
    rw [sub_eq_zero.2 hx, zero_mul] at this
    exact zero_ne_one this
  · linear_combination h1
  · linear_combination h3
  · linear_combination h2
  · linear_combination h4

/-- C13: degenerate (parallel or zero) vectors are an error. -/
theorem C13_degenerate {K : Type} [Field K] [DecidableEq K] (a b c e : K) (h : a * e = b * c) :
    latticeReciprocate [a, b] [c, e] = .error .zeroDivisionError := by
  simp [latticeReciprocate, h]

/-- C13: vectors that are not two-dimensional are an error. -/
theorem C13_wrong_length {K : Type} [Field K] [DecidableEq K] (l m : List K) (h : ¬ (l.length = 2 ∧ m.length = 2)) :
    latticeReciprocate l m = .error .assertionError := by
  unfold latticeReciprocate
  split
  · simp at h
  · rfl

example : latticeReciprocate [(2 : ℚ), 1] [0, 3] = .ok ((1 / 2, 0), (-1 / 6, 1 / 3)) := by decide +kernel

example : (2 : ℚ) * 3 ≠ 1 * 0 := by norm_num

/-! ## C14 -/

/-- Spec: squared length of the order `g`, i.e. of the vector `g.1 Lk1 + g.2 Lk2`. -/
def lenSq (Lk1 Lk2 : ℝ × ℝ) (g : ℤ × ℤ) : ℝ :=
  (g.1 * Lk1.1 + g.2 * Lk2.1) ^ 2 + (g.1 * Lk1.2 + g.2 * Lk2.2) ^ 2

/-- Spec: the result of a sort of the candidate orders by length, with arbitrary tie-breaking. -/
structure IsSortOf (Lk1 Lk2 : ℝ × ℝ) (box sorted : List (ℤ × ℤ)) : Prop where
  perm : sorted.Perm box
  mono : sorted.Pairwise fun g h => lenSq Lk1 Lk2 g ≤ lenSq Lk1 Lk2 h

/-- The candidates enumerated by the code (a box of integer orders around the origin). -/
noncomputable def candidates (nG : ℕ) (Lk1 Lk2 : ℝ × ℝ) : List (ℤ × ℤ) :=
  orderBox (extent nG Lk1 Lk2 (norm2 Lk1)) (extent nG Lk1 Lk2 (norm2 Lk2))

lemma gl2_eq (Lk1 Lk2 : ℝ × ℝ) (g : ℤ × ℤ) : gl2 Lk1 Lk2 g = lenSq Lk1 Lk2 g := by
  rw [gl2, norm2_sq, norm2_sq, dot2, lenSq]; ring

lemma lenSq_eq (Lk1 Lk2 : ℝ × ℝ) (g : ℤ × ℤ) : lenSq Lk1 Lk2 g = norm2 (latPt Lk1 Lk2 g.1 g.2) ^ 2 := by
  rw [norm2_sq, lenSq, latPt]; ring

lemma lenSq_neg (Lk1 Lk2 : ℝ × ℝ) (g : ℤ × ℤ) : lenSq Lk1 Lk2 (-g) = lenSq Lk1 Lk2 g := by
  simp only [lenSq, Prod.fst_neg, Prod.snd_neg, Int.cast_neg]; ring

lemma mem_symRange (e : ℕ) (a : ℤ) : a ∈ symRange e ↔ |a| ≤ e := by
  simp only [symRange, List.mem_map, List.mem_range, abs_le]
  constructor
  · rintro ⟨i, hi, rfl⟩; omega
  · rintro ⟨h1, h2⟩; exact ⟨(a + e).toNat, by omega, by omega⟩

lemma mem_orderBox (e f : ℕ) (g : ℤ × ℤ) : g ∈ orderBox e f ↔ |g.1| ≤ e ∧ |g.2| ≤ f := by
  simp only [orderBox, List.mem_flatMap, List.mem_map, mem_symRange]
  constructor
  · rintro ⟨a, ha, b, hb, rfl⟩; exact ⟨ha, hb⟩
  · rintro ⟨h1, h2⟩; exact ⟨g.1, h1, g.2, h2, rfl⟩

lemma nodup_symRange (e : ℕ) : (symRange e).Nodup :=
  (List.nodup_range).map (fun a b h => by simpa using h)

lemma nodup_orderBox (e f : ℕ) : (orderBox e f).Nodup := by
  have : orderBox e f = symRange e ×ˢ symRange f := rfl
  rw [this]
  exact (nodup_symRange e).product (nodup_symRange f)

lemma length_orderBox (e f : ℕ) : (orderBox e f).length = (2 * e + 1) * (2 * f + 1) := by
  have : orderBox e f = symRange e ×ˢ symRange f := rfl
  rw [this, List.length_product]; simp [symRange]

lemma truncLoop_le (l : List ℝ) (tol : ℝ) (i : ℕ) : truncLoop l tol i ≤ i := by
  induction i with
  | zero => simp [truncLoop]
  | succ i ih => rw [truncLoop]; split <;> omega

lemma truncLoop_gap (l : List ℝ) (tol : ℝ) (i : ℕ) (n : ℕ) (h : truncLoop l tol i = n + 1) :
    |l.getD (n + 1) 0 - l.getD n 0| > tol := by
  induction i with
  | zero => simp [truncLoop] at h
  | succ i ih =>
    rw [truncLoop] at h
    split at h
    · simp only [Nat.add_right_cancel_iff] at h; subst h; assumption
    · exact ih h

lemma truncLoop_pos (l : List ℝ) (tol : ℝ) (i : ℕ) (hi : 1 ≤ i) (h : |l.getD 1 0 - l.getD 0 0| > tol) :
    1 ≤ truncLoop l tol i := by
  induction i with
  | zero => omega
  | succ i ih =>
    rw [truncLoop]
    split
    · omega
    · rcases i with _ | i
      · rename_i hn; exact absurd h hn
      · exact ih (by omega)

/-- the norm of the order along one reciprocal vector, from the area spanned with the other -/
lemma coord_bound (a b : ℝ × ℝ) (s t : ℝ) :
    |s| * |cross2 a b| ≤ norm2 (latPt a b s t) * norm2 b := by
  rw [← abs_mul]
  refine abs_le_of_sq_le_sq ?_ (mul_nonneg (norm2_nonneg _) (norm2_nonneg _))
  rw [mul_pow, mul_pow, norm2_sq, norm2_sq, latPt, cross2]
  nlinarith [sq_nonneg ((a.1 * s + b.1 * t) * b.1 + (a.2 * s + b.2 * t) * b.2)]

lemma sin_eq (a b : ℝ × ℝ) (hc : cross2 a b ≠ 0) :
    0 < norm2 a ∧ 0 < norm2 b ∧
    Real.sqrt (1.0 - dot2 a b ^ 2 / (norm2 a * norm2 b) ^ 2) = |cross2 a b| / (norm2 a * norm2 b) := by
  have h1 : 0 < norm2 a := by
    rcases (norm2_nonneg a).lt_or_eq with h | h
    · exact h
    · have := norm2_sq a; rw [← h] at this
      have h1 : a.1 = 0 := by nlinarith [sq_nonneg a.1, sq_nonneg a.2]
      have h2 : a.2 = 0 := by nlinarith [sq_nonneg a.1, sq_nonneg a.2]
      exact absurd (by rw [cross2, h1, h2]; ring) hc
  have h2 : 0 < norm2 b := by
    rcases (norm2_nonneg b).lt_or_eq with h | h
    · exact h
    · have := norm2_sq b; rw [← h] at this
      have h1 : b.1 = 0 := by nlinarith [sq_nonneg b.1, sq_nonneg b.2]
      have h2 : b.2 = 0 := by nlinarith [sq_nonneg b.1, sq_nonneg b.2]
      exact absurd (by rw [cross2, h1, h2]; ring) hc
  refine ⟨h1, h2, ?_⟩
  rw [Real.sqrt_eq_iff_eq_sq, div_pow, sq_abs]
  · have : (norm2 a * norm2 b) ^ 2 ≠ 0 := by positivity
    rw [eq_div_iff this, sub_mul, div_mul_cancel₀ _ this, mul_pow, norm2_sq, norm2_sq, dot2, cross2]; norm_num; ring
  · have : 0 < (norm2 a * norm2 b) ^ 2 := by positivity
    rw [sub_nonneg, div_le_iff₀ this, mul_pow, norm2_sq, norm2_sq, dot2]
    nlinarith [sq_nonneg (a.1 * b.2 - a.2 * b.1)]
  · positivity

/-- every order inside the circle is a candidate -/
lemma mem_candidates (nG : ℕ) (a b : ℝ × ℝ) (hc : cross2 a b ≠ 0) (g : ℤ × ℤ)
    (h : norm2 (latPt a b g.1 g.2) ≤ circRadius nG a b) : g ∈ candidates nG a b := by
  obtain ⟨ha, hb, hs⟩ := sin_eq a b hc
  have hA : 0 < |cross2 a b| := abs_pos.2 hc
  have key : ∀ (z : ℤ) (w w' : ℝ), 0 < w → 0 < w' → w * w' = norm2 a * norm2 b →
      |(z : ℝ)| * |cross2 a b| ≤ norm2 (latPt a b g.1 g.2) * w' → |z| ≤ (extent nG a b w : ℕ) := by
    intro z w w' hw hw' hww hz
    rw [extent, hs, ← hww]
    have e : circRadius nG a b / (w * (|cross2 a b| / (w * w'))) = circRadius nG a b * w' / |cross2 a b| := by
      field_simp
    rw [e]
    have hx : |(z : ℝ)| ≤ circRadius nG a b * w' / |cross2 a b| := by
      rw [le_div_iff₀ hA]; exact hz.trans (mul_le_mul_of_nonneg_right h hw'.le)
    have hx0 : ¬ circRadius nG a b * w' / |cross2 a b| < 0 := not_lt.2 ((abs_nonneg _).trans hx)
    rw [pyInt, if_neg hx0]
    have : |z| ≤ ⌊circRadius nG a b * w' / |cross2 a b|⌋ := Int.le_floor.2 (by push_cast; exact hx)
    have := abs_nonneg z
    omega
  rw [candidates, mem_orderBox]
  refine ⟨key g.1 _ (norm2 b) ha hb rfl (coord_bound a b _ _), key g.2 _ (norm2 a) hb ha (mul_comm _ _) ?_⟩
  have := coord_bound b a g.2 g.1
  have e1 : |cross2 b a| = |cross2 a b| := by rw [← abs_neg, cross2, cross2]; congr 1; ring
  have e2 : latPt b a g.2 g.1 = latPt a b g.1 g.2 := by simp only [latPt]; ext <;> ring
  rwa [e1, e2] at this

lemma getD_map_lenSq {Lk1 Lk2 : ℝ × ℝ} {l : List (ℤ × ℤ)} {i : ℕ} (h : i < l.length) :
    (l.map (gl2 Lk1 Lk2)).getD i 0 = lenSq Lk1 Lk2 l[i] := by
  simp [List.getD, List.getElem?_eq_getElem h, gl2_eq]

/-- What the circular truncation returns: a prefix of the sorted candidates, shorter than the request, ending at a gap. -/
lemma gsel_shape (nG : ℕ) (hn : 0 < nG) (Lk1 Lk2 : ℝ × ℝ) (hc : cross2 Lk1 Lk2 ≠ 0) (sorted : List (ℤ × ℤ))
    (hs : IsSortOf Lk1 Lk2 (candidates nG Lk1 Lk2) sorted) :
    nG ≤ sorted.length ∧ (∀ i (h : i < sorted.length), i < nG → norm2 (latPt Lk1 Lk2 sorted[i].1 sorted[i].2) ≤ circRadius nG Lk1 Lk2) ∧
    gselCircular nG Lk1 Lk2 sorted =
      .ok (sorted.take (truncLoop (sorted.map (gl2 Lk1 Lk2)) (1e-10 * max (norm2 Lk1 ^ 2) (norm2 Lk2 ^ 2)) (nG - 1)),
        truncLoop (sorted.map (gl2 Lk1 Lk2)) (1e-10 * max (norm2 Lk1 ^ 2) (norm2 Lk2 ^ 2)) (nG - 1)) := by
  classical
  have hr : 0 ≤ circRadius nG Lk1 Lk2 :=
    add_nonneg (add_nonneg (Real.sqrt_nonneg _) (norm2_nonneg _)) (norm2_nonneg _)
  set P : ℤ × ℤ → Bool := fun g => decide (norm2 (latPt Lk1 Lk2 g.1 g.2) ≤ circRadius nG Lk1 Lk2) with hP
  have hnd : sorted.Nodup := hs.perm.nodup_iff.2 (nodup_orderBox _ _)
  have hcount : nG ≤ (sorted.filter P).length := by
    have := lattice_count Lk1 Lk2 hc nG (sorted.filter P).toFinset ?_
    · rwa [List.toFinset_card_of_nodup (hnd.filter _)] at this
    · intro g hg
      rw [List.mem_toFinset, List.mem_filter]
      exact ⟨hs.perm.mem_iff.2 (mem_candidates nG Lk1 Lk2 hc g hg), by simpa [hP] using hg⟩
  have hlen : nG ≤ sorted.length := hcount.trans (List.length_filter_le _ _)
  refine ⟨hlen, ?_, ?_⟩
  · intro i h hi
    by_contra hcon
    -- everything from position `i` on is outside the circle
    have hout : ∀ g ∈ sorted.drop i, P g = false := by
      intro g hg
      obtain ⟨j, hj, rfl⟩ := List.getElem_of_mem hg
      rw [List.getElem_drop]
      rw [List.length_drop] at hj
      have hle : lenSq Lk1 Lk2 sorted[i] ≤ lenSq Lk1 Lk2 (sorted[i + j]'(by omega)) := by
        rcases Nat.eq_zero_or_pos j with rfl | hj0
        · simp
        · exact List.pairwise_iff_getElem.1 hs.mono i (i + j) h (by omega) (by omega)
      rw [lenSq_eq, lenSq_eq] at hle
      have := abs_le_of_sq_le_sq hle (norm2_nonneg _)
      rw [abs_of_nonneg (norm2_nonneg _)] at this
      simp only [hP, decide_eq_false_iff_not, not_le]
      exact (not_le.1 hcon).trans_le this
    have : (sorted.filter P).length ≤ i := by
      conv_lhs => rw [← List.take_append_drop i sorted, List.filter_append]
      have e : (sorted.drop i).filter P = [] := List.filter_eq_nil_iff.2 fun g hg => by simp [hout g hg]
      rw [e, List.append_nil]
      exact (List.length_filter_le _ _).trans (List.length_take_le _ _)
    omega
  · have hmin : min nG ((2 * extent nG Lk1 Lk2 (norm2 Lk1) + 1) * (2 * extent nG Lk1 Lk2 (norm2 Lk2) + 1)) = nG := by
      rw [← length_orderBox]
      apply min_eq_left
      have := hs.perm.length_eq
      rw [candidates] at this
      omega
    simp only [gselCircular]
    rw [hmin, if_neg (by omega)]

/-- C14, for every lattice, every request and every tie-breaking: the selected orders are distinct integer orders in non-decreasing order of
length, fewer than requested; every integer order that is not longer than a selected one is selected (so groups of equal length are never
split, and the set is symmetric under negation); and if anything is selected, the first order is (0,0). -/
theorem C14_whole_shells (nG : ℕ) (hn : 0 < nG) (Lk1 Lk2 : ℝ × ℝ) (hc : cross2 Lk1 Lk2 ≠ 0) (sorted : List (ℤ × ℤ))
    (hs : IsSortOf Lk1 Lk2 (candidates nG Lk1 Lk2) sorted) :
    ∃ sel, gselCircular nG Lk1 Lk2 sorted = .ok (sel, sel.length) ∧ sel.length < nG ∧ sel.Nodup ∧
      (sel.Pairwise fun g h => lenSq Lk1 Lk2 g ≤ lenSq Lk1 Lk2 h) ∧
      (∀ g ∈ sel, ∀ h : ℤ × ℤ, lenSq Lk1 Lk2 h ≤ lenSq Lk1 Lk2 g → h ∈ sel) ∧
      (∀ g ∈ sel, -g ∈ sel) ∧
      (sel ≠ [] → sel.head? = some (0, 0)) := by
  obtain ⟨hlen, hin, heq⟩ := gsel_shape nG hn Lk1 Lk2 hc sorted hs
  set n := truncLoop (sorted.map (gl2 Lk1 Lk2)) (1e-10 * max (norm2 Lk1 ^ 2) (norm2 Lk2 ^ 2)) (nG - 1) with hndef
  have hnle : n ≤ nG - 1 := truncLoop_le _ _ _
  have hnd : sorted.Nodup := hs.perm.nodup_iff.2 (nodup_orderBox _ _)
  have htl : (sorted.take n).length = n := by rw [List.length_take]; omega
  have hr : 0 ≤ circRadius nG Lk1 Lk2 :=
    add_nonneg (add_nonneg (Real.sqrt_nonneg _) (norm2_nonneg _)) (norm2_nonneg _)
  have shell : ∀ g ∈ sorted.take n, ∀ h : ℤ × ℤ, lenSq Lk1 Lk2 h ≤ lenSq Lk1 Lk2 g → h ∈ sorted.take n := by
    intro g hg h hle
    obtain ⟨i, hi, rfl⟩ := List.getElem_of_mem hg
    rw [htl] at hi
    rw [List.getElem_take] at hle
    have hci : norm2 (latPt Lk1 Lk2 h.1 h.2) ≤ circRadius nG Lk1 Lk2 := by
      rw [lenSq_eq, lenSq_eq] at hle
      have := abs_le_of_sq_le_sq hle (norm2_nonneg _)
      rw [abs_of_nonneg (norm2_nonneg _)] at this
      exact this.trans (hin i (by omega) (by omega))
    have hmem : h ∈ sorted := hs.perm.mem_iff.2 (mem_candidates nG Lk1 Lk2 hc h hci)
    obtain ⟨j, hj, rfl⟩ := List.getElem_of_mem hmem
    by_cases hjn : j < n
    · exact List.mem_take_iff_getElem.2 ⟨j, by omega, rfl⟩
    · exfalso
      obtain ⟨m, hm⟩ : ∃ m, n = m + 1 := ⟨n - 1, by omega⟩
      have hgap := truncLoop_gap _ _ _ m (hndef ▸ hm)
      rw [getD_map_lenSq (by omega), getD_map_lenSq (by omega)] at hgap
      have mono := List.pairwise_iff_getElem.1 hs.mono
      have h1 : lenSq Lk1 Lk2 (sorted[m]'(by omega)) ≤ lenSq Lk1 Lk2 (sorted[m + 1]'(by omega)) := mono _ _ _ _ (by omega)
      have h2 : lenSq Lk1 Lk2 (sorted[i]'(by omega)) ≤ lenSq Lk1 Lk2 (sorted[m]'(by omega)) := by
        rcases Nat.lt_or_ge i m with h | h
        · exact mono _ _ _ _ h
        · have : i = m := by omega
          subst this; rfl
      have h3 : lenSq Lk1 Lk2 (sorted[m + 1]'(by omega)) ≤ lenSq Lk1 Lk2 sorted[j] := by
        rcases Nat.lt_or_ge (m + 1) j with h | h
        · exact mono _ _ _ _ h
        · have : m + 1 = j := by omega
          subst this; rfl
      rw [abs_of_nonneg (by linarith)] at hgap
      have htol : 0 ≤ 1e-10 * max (norm2 Lk1 ^ 2) (norm2 Lk2 ^ 2) :=
        mul_nonneg (by norm_num) (le_max_of_le_left (sq_nonneg _))
      linarith
  refine ⟨sorted.take n, by rw [heq, htl], by rw [htl]; omega, hnd.sublist (List.take_sublist _ _),
    hs.mono.sublist (List.take_sublist _ _), shell, ?_, ?_⟩
  · intro g hg; exact shell g hg _ (lenSq_neg _ _ _).le
  · intro hne
    obtain ⟨g, l, hgl⟩ := List.exists_cons_of_ne_nil hne
    have h0 : (0, 0) ∈ sorted.take n := shell g (by rw [hgl]; simp) (0, 0) (by
      rw [show lenSq Lk1 Lk2 (0, 0) = 0 by simp [lenSq]]; rw [lenSq]; positivity)
    have hp : (sorted.take n).Pairwise fun g h => lenSq Lk1 Lk2 g ≤ lenSq Lk1 Lk2 h := hs.mono.sublist (List.take_sublist _ _)
    rw [hgl] at h0 hp ⊢
    rw [List.head?_cons]
    rcases List.mem_cons.1 h0 with h | h
    · rw [h]
    · have := (List.pairwise_cons.1 hp).1 _ h
      rw [show lenSq Lk1 Lk2 (0, 0) = 0 by simp [lenSq]] at this
      have hb := coord_bound Lk1 Lk2 g.1 g.2
      have hb' := coord_bound Lk2 Lk1 g.2 g.1
      have hz : norm2 (latPt Lk1 Lk2 g.1 g.2) = 0 := by
        rw [lenSq_eq] at this
        exact pow_eq_zero_iff (two_ne_zero) |>.1 (le_antisymm this (sq_nonneg _))
      have e2 : latPt Lk2 Lk1 g.2 g.1 = latPt Lk1 Lk2 g.1 g.2 := by simp only [latPt]; ext <;> ring
      have e1 : |cross2 Lk2 Lk1| = |cross2 Lk1 Lk2| := by rw [← abs_neg, cross2, cross2]; congr 1; ring
      rw [hz, zero_mul] at hb
      rw [e1, e2, hz, zero_mul] at hb'
      have hA : 0 < |cross2 Lk1 Lk2| := abs_pos.2 hc
      have g1 : |(g.1 : ℝ)| = 0 := by nlinarith [abs_nonneg (g.1 : ℝ)]
      have g2 : |(g.2 : ℝ)| = 0 := by nlinarith [abs_nonneg (g.2 : ℝ)]
      congr 1
      ext
      · simpa using g1
      · simpa using g2

/-- C14, the part about the central order: with at least two requested orders and no non-zero order of squared length below the shell tolerance
the selection is not empty, hence starts with (0,0). Missing for the full property: a request of a single order, see
`C14_single_order_false`, and lattices with extremely short orders. -/
theorem C14_origin_partial (nG : ℕ) (hn : 2 ≤ nG) (Lk1 Lk2 : ℝ × ℝ) (hc : cross2 Lk1 Lk2 ≠ 0) (sorted : List (ℤ × ℤ))
    (hs : IsSortOf Lk1 Lk2 (candidates nG Lk1 Lk2) sorted)
    (hshort : ∀ g : ℤ × ℤ, g ≠ (0, 0) → 1e-10 * max (norm2 Lk1 ^ 2) (norm2 Lk2 ^ 2) < lenSq Lk1 Lk2 g) :
    ∃ sel, gselCircular nG Lk1 Lk2 sorted = .ok (sel, sel.length) ∧ sel.head? = some (0, 0) := by
  obtain ⟨sel, h1, -, h2, h3, h4, -, h5⟩ := C14_whole_shells nG (by omega) Lk1 Lk2 hc sorted hs
  refine ⟨sel, h1, h5 ?_⟩
  obtain ⟨hlen, -, heq⟩ := gsel_shape nG (by omega) Lk1 Lk2 hc sorted hs
  have htol : 0 ≤ 1e-10 * max (norm2 Lk1 ^ 2) (norm2 Lk2 ^ 2) :=
    mul_nonneg (by norm_num) (le_max_of_le_left (sq_nonneg _))
  have hz : lenSq Lk1 Lk2 (0, 0) = 0 := by simp [lenSq]
  have hnd : sorted.Nodup := hs.perm.nodup_iff.2 (nodup_orderBox _ _)
  have h0 : sorted[0]'(by omega) = (0, 0) := by
    by_contra hcon
    have hmem : (0, 0) ∈ sorted := hs.perm.mem_iff.2 (by simp [candidates, mem_orderBox])
    obtain ⟨j, hj, hj0⟩ := List.getElem_of_mem hmem
    rcases Nat.eq_zero_or_pos j with rfl | hj1
    · exact hcon hj0
    · have := List.pairwise_iff_getElem.1 hs.mono 0 j (by omega) hj hj1
      rw [hj0, hz] at this
      linarith [hshort _ hcon]
  have h1' : sorted[1]'(by omega) ≠ (0, 0) := fun h => by
    have := (List.Nodup.getElem_inj_iff hnd (i := 0) (j := 1)).1 (h0.trans h.symm)
    omega
  have hgap := hshort _ h1'
  have hpos := truncLoop_pos (sorted.map (gl2 Lk1 Lk2)) (1e-10 * max (norm2 Lk1 ^ 2) (norm2 Lk2 ^ 2)) (nG - 1) (by omega) (by
    rw [getD_map_lenSq (by omega), getD_map_lenSq (by omega), h0, hz, sub_zero]
    exact lt_of_lt_of_le hgap (le_abs_self _))
  rw [heq] at h1
  injection h1 with h1
  injection h1 with ha hb
  intro hnil
  rw [hnil] at hb
  simp only [List.length_nil] at hb
  omega

/-- C14 is false for a request of one order: every lattice and every tie-breaking gives an empty selection, so the central order (0,0)
is lost. -/
theorem C14_single_order_false (Lk1 Lk2 : ℝ × ℝ) (hc : cross2 Lk1 Lk2 ≠ 0) (sorted : List (ℤ × ℤ))
    (hs : IsSortOf Lk1 Lk2 (candidates 1 Lk1 Lk2) sorted) : gselCircular 1 Lk1 Lk2 sorted = .ok ([], 0) := by
  rw [(gsel_shape 1 one_pos Lk1 Lk2 hc sorted hs).2.2]
  simp [truncLoop]

/-- The hypotheses are satisfiable for every lattice and request (stable sort of the candidates). -/
example (nG : ℕ) (Lk1 Lk2 : ℝ × ℝ) : ∃ sorted, IsSortOf Lk1 Lk2 (candidates nG Lk1 Lk2) sorted := by
  classical
  let r : ℤ × ℤ → ℤ × ℤ → Prop := fun g h => lenSq Lk1 Lk2 g ≤ lenSq Lk1 Lk2 h
  have : Std.Total r := ⟨fun a b => le_total _ _⟩
  have : IsTrans _ r := ⟨fun a b c => le_trans⟩
  exact ⟨(candidates nG Lk1 Lk2).insertionSort r, List.perm_insertionSort _ _, List.pairwise_insertionSort r _⟩

/-- The square lattice satisfies the hypotheses of `C14_origin_partial`. -/
example : cross2 (1, 0) (0, 1) ≠ 0 ∧
    ∀ g : ℤ × ℤ, g ≠ (0, 0) → 1e-10 * max (norm2 (1, 0) ^ 2) (norm2 (0, 1) ^ 2) < lenSq (1, 0) (0, 1) g := by
  refine ⟨by simp [cross2], fun g hg => ?_⟩
  have h1 : (1 : ℤ) ≤ g.1 ^ 2 + g.2 ^ 2 := by
    by_contra h
    have h1 : g.1 = 0 := by nlinarith [sq_nonneg g.1, sq_nonneg g.2]
    have h2 : g.2 = 0 := by nlinarith [sq_nonneg g.1, sq_nonneg g.2]
    exact hg (Prod.ext h1 h2)
  have h2 : (1 : ℝ) ≤ (g.1 : ℝ) ^ 2 + (g.2 : ℝ) ^ 2 := by exact_mod_cast h1
  rw [norm2_sq, norm2_sq, lenSq]
  norm_num
  linarith

end Nidn
