/-
C14: every group of orders that fits is selected.
-/
import Verif.Props.Lattice

namespace Nidn

/-- the loop stops no later than at a gap it meets -/
lemma truncLoop_ge (l : List ℝ) (tol : ℝ) (i k : ℕ) (hk : k + 1 ≤ i) (h : |l.getD (k + 1) 0 - l.getD k 0| > tol) : k + 1 ≤ truncLoop l tol i := by
  induction i with
  | zero => omega
  | succ i ih =>
    rw [truncLoop]
    split
    · omega
    · rename_i hgap
      refine ih ?_
      by_contra hcon
      obtain rfl : i = k := by omega
      exact hgap h

/-- C14: for every lattice, every request and every tie-breaking, nothing that fits is left out: whenever fewer orders than requested are separated from all longer orders (by more than the tolerance 1e-10 times the square of
the longer reciprocal vector), they are all selected. -/
theorem C14_maximal (nG : ℕ) (Lk1 Lk2 : ℝ × ℝ) (hc : cross2 Lk1 Lk2 ≠ 0) (sorted : List (ℤ × ℤ)) (hs : IsSortOf Lk1 Lk2 (candidates nG Lk1 Lk2) sorted) (S : Finset (ℤ × ℤ)) (hS : S.card < nG)
    (hgap : ∀ g ∈ S, ∀ h ∉ S, lenSq Lk1 Lk2 g + 1e-10 * max (norm2 Lk1 ^ 2) (norm2 Lk2 ^ 2) < lenSq Lk1 Lk2 h) :
    ∃ sel, gselCircular nG Lk1 Lk2 sorted = .ok (sel, sel.length) ∧ ∀ g ∈ S, g ∈ sel := by
  classical
  have hn : 0 < nG := by omega
  obtain ⟨hlen, hin, heq⟩ := gsel_shape nG hn Lk1 Lk2 hc sorted hs
  set tol := 1e-10 * max (norm2 Lk1 ^ 2) (norm2 Lk2 ^ 2) with htol
  have htol0 : 0 ≤ tol := mul_nonneg (by norm_num) (le_max_of_le_left (sq_nonneg _))
  set n := truncLoop (sorted.map (gl2 Lk1 Lk2)) tol (nG - 1) with hndef
  have hnle : n ≤ nG - 1 := truncLoop_le _ _ _
  have hnd : sorted.Nodup := hs.perm.nodup_iff.2 (nodup_orderBox _ _)
  have htl : (sorted.take n).length = n := by rw [List.length_take]; omega
  refine ⟨sorted.take n, by rw [heq, htl], ?_⟩
  rcases Finset.eq_empty_or_nonempty S with rfl | hne
  · intro g hg; exact absurd hg (Finset.notMem_empty g)
  have hk0 : 0 < S.card := Finset.card_pos.2 hne
  have hr : 0 ≤ circRadius nG Lk1 Lk2 := add_nonneg (add_nonneg (Real.sqrt_nonneg _) (norm2_nonneg _)) (norm2_nonneg _)
  -- a member of `S` at position `j` has only members of `S` before it, so `j < |S|`
  have hpos : ∀ j (hj : j < sorted.length), sorted[j] ∈ S → j < S.card := by
    intro j hj hmem
    have hsub : (sorted.take (j + 1)).toFinset ⊆ S := by
      intro h hh
      rw [List.mem_toFinset] at hh
      obtain ⟨i, hi, rfl⟩ := List.getElem_of_mem hh
      rw [List.getElem_take]
      have hij : i < j + 1 := by rw [List.length_take] at hi; omega
      by_contra hout
      have h1 := hgap _ hmem _ hout
      have h2 : lenSq Lk1 Lk2 (sorted[i]'(by omega)) ≤ lenSq Lk1 Lk2 sorted[j] := by
        rcases Nat.lt_or_ge i j with h | h
        · exact List.pairwise_iff_getElem.1 hs.mono i j (by omega) hj h
        · obtain rfl : i = j := by omega
          exact le_rfl
      linarith
    have := Finset.card_le_card hsub
    rw [List.toFinset_card_of_nodup (hnd.sublist (List.take_sublist _ _)), List.length_take] at this
    omega
  -- the members of `S` are candidates
  have hall : ∀ g ∈ S, g ∈ sorted := by
    have hout : sorted[S.card]'(by omega) ∉ S := fun h => absurd (hpos _ (by omega) h) (lt_irrefl _)
    intro g hg
    refine hs.perm.mem_iff.2 (mem_candidates nG Lk1 Lk2 hc g ?_)
    refine le_trans ?_ (hin S.card (by omega) hS)
    have h1 := hgap g hg _ hout
    have h2 : lenSq Lk1 Lk2 g ≤ lenSq Lk1 Lk2 (sorted[S.card]'(by omega)) := by linarith
    rw [lenSq_eq, lenSq_eq] at h2
    have := abs_le_of_sq_le_sq h2 (norm2_nonneg _)
    rwa [abs_of_nonneg (norm2_nonneg _)] at this
  have hsub : S ⊆ (sorted.take S.card).toFinset := by
    intro g hg
    obtain ⟨j, hj, rfl⟩ := List.getElem_of_mem (hall g hg)
    rw [List.mem_toFinset, List.mem_take_iff_getElem]
    exact ⟨j, by have := hpos j hj hg; omega, rfl⟩
  have hEq : S = (sorted.take S.card).toFinset := by
    refine Finset.eq_of_subset_of_card_le hsub ?_
    rw [List.toFinset_card_of_nodup (hnd.sublist (List.take_sublist _ _)), List.length_take]
    omega
  obtain ⟨k, hk⟩ : ∃ k, S.card = k + 1 := ⟨S.card - 1, by omega⟩
  have hmem : sorted[k]'(by omega) ∈ (sorted.take S.card).toFinset := List.mem_toFinset.2 (List.mem_take_iff_getElem.2 ⟨k, by omega, rfl⟩)
  have hlast : sorted[k]'(by omega) ∈ S := (Finset.ext_iff.1 hEq _).2 hmem
  have hnext : sorted[k + 1]'(by omega) ∉ S := fun h => by
    have := hpos _ (by omega) h
    omega
  have hg := hgap _ hlast _ hnext
  have hle : k + 1 ≤ n := truncLoop_ge _ _ _ _ (by omega) (by
    rw [getD_map_lenSq (by omega), getD_map_lenSq (by omega)]
    exact lt_of_lt_of_le (by linarith) (le_abs_self _))
  intro g hgS
  have := hsub hgS
  rw [List.mem_toFinset, hk] at this
  exact (List.take_subset_take_left _ hle) this

/-- the nine shortest orders of a square lattice are separated from all longer ones, so a request of at least ten orders selects them -/
lemma nine_shortest {L : ℝ} (hL : L ≠ 0) : ((Finset.Icc (-1) 1) ×ˢ (Finset.Icc (-1) 1) : Finset (ℤ × ℤ)).card = 9 ∧
    ∀ g ∈ ((Finset.Icc (-1) 1) ×ˢ (Finset.Icc (-1) 1) : Finset (ℤ × ℤ)), ∀ h ∉ ((Finset.Icc (-1) 1) ×ˢ (Finset.Icc (-1) 1) : Finset (ℤ × ℤ)),
      lenSq (L, 0) (0, L) g + 1e-10 * max (norm2 (L, 0) ^ 2) (norm2 (0, L) ^ 2) < lenSq (L, 0) (0, L) h := by
  refine ⟨by decide, fun g hg h hh => ?_⟩
  simp only [Finset.mem_product, Finset.mem_Icc] at hg hh
  have h1 : g.1 ^ 2 + g.2 ^ 2 ≤ 2 := by nlinarith
  have h2 : 4 ≤ h.1 ^ 2 + h.2 ^ 2 := by
    have hq : ∀ z : ℤ, ¬ (-1 ≤ z ∧ z ≤ 1) → 4 ≤ z ^ 2 := by
      intro z hz
      rcases le_or_gt z 0 with h | h
      · have : z ≤ -2 := by omega
        nlinarith
      · have : 2 ≤ z := by omega
        nlinarith
    by_cases hz : -1 ≤ h.1 ∧ h.1 ≤ 1
    · have := hq h.2 fun h' => hh ⟨hz, h'⟩
      nlinarith [sq_nonneg h.1]
    · have := hq h.1 hz
      nlinarith [sq_nonneg h.2]
  have h1' : (g.1 : ℝ) ^ 2 + (g.2 : ℝ) ^ 2 ≤ 2 := by exact_mod_cast h1
  have h2' : (4 : ℝ) ≤ (h.1 : ℝ) ^ 2 + (h.2 : ℝ) ^ 2 := by exact_mod_cast h2
  have hL2 : 0 < L ^ 2 := by positivity
  have e : ∀ z : ℤ × ℤ, lenSq (L, 0) (0, L) z = L ^ 2 * ((z.1 : ℝ) ^ 2 + (z.2 : ℝ) ^ 2) := by intro z; simp only [lenSq]; ring
  rw [e, e, norm2_sq, norm2_sq]
  simp only [ne_eq, OfNat.ofNat_ne_zero, not_false_eq_true, zero_pow, add_zero, zero_add, max_self]
  nlinarith

/-- a request of eleven orders on a square lattice, as in the default config, selects at least the nine shortest -/
example (L : ℝ) (hL : L ≠ 0) (sorted : List (ℤ × ℤ)) (hs : IsSortOf (L, 0) (0, L) (candidates 11 (L, 0) (0, L)) sorted) :
    ∃ sel, gselCircular 11 (L, 0) (0, L) sorted = .ok (sel, sel.length) ∧ (1, -1) ∈ sel := by
  obtain ⟨sel, h1, h2⟩ := C14_maximal 11 (L, 0) (0, L) (by simp [cross2, hL]) sorted hs _ (by rw [(nine_shortest hL).1]; norm_num) (nine_shortest hL).2
  exact ⟨sel, h1, h2 _ (by decide)⟩

end Nidn
