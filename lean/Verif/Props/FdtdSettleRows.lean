/-
C180 for grids that are periodic across the row: the fields summed across settle.
-/
import Verif.Props.FdtdSettle

namespace Nidn

open Finset

/-! ### Specification -/

/-- A grid of one cell in z with absorbing layers at both ends of x, periodic in y, whose medium depends on x only (components that a wave polarised along z sees): inverse permittivity `ie x`, absorption factor `ab x`, inverse
permeability `im x`; the layers do not conduct. -/
structure PlaneGrid (g : FGrid ℝ) (t₁ t₂ : ℕ) (ie ab im : ℕ → ℝ) : Prop where
  room : t₁ + t₂ ≤ g.n 0
  wide : 2 ≤ g.n 1
  flat : g.n 2 = 1
  eps : ∀ x y, x < g.n 0 → y < g.n 1 → g.invEps ![x, y, 0] 2 = ie x
  absorb : ∀ x y, x < g.n 0 → y < g.n 1 → g.absorb ![x, y, 0] 2 = ab x
  mu : ∀ x y, x < g.n 0 → y < g.n 1 → g.invMu ![x, y, 0] 1 = im x
  calm : ∀ x, x < t₁ ∨ g.n 0 ≤ x + t₂ → ab x = 0

/-- what the sources add to a plane in step `t` -/
noncomputable def rowAdded (g : FGrid ℝ) (t x : ℕ) : ℝ := ∑ y ∈ Icc 1 (g.n 1 - 1), addedBy g.sources t ![x, y, 0] 2

/-- the sources add the same to both copies of the periodic plane -/
def WrappedSources (g : FGrid ℝ) : Prop := ∀ t x, addedBy g.sources t ![x, 0, 0] 2 = addedBy g.sources t ![x, g.n 1 - 1, 0] 2

/-! ### The two copies of the periodic plane -/

lemma framed_bounds {g : FGrid ℝ} {t₁ t₂ : ℕ} {a : ℝ} (hg : Framed g t₁ t₂ a [1]) (k : ℕ) : ∃ P₁ P₂ : Pml ℝ, (g.run k).boundaries = [.pml P₁, .pml P₂, .periodic 1] := by
  induction k with
  | zero => exact ⟨_, _, hg.layers⟩
  | succ k ih =>
    obtain ⟨P₁, P₂, h⟩ := ih
    refine ⟨(P₁.updatePhiE (g.run k).n (g.run k).H).updatePhiH (g.run k).n (g.run k).updateE.E, (P₂.updatePhiE (g.run k).n (g.run k).H).updatePhiH (g.run k).n (g.run k).updateE.E, ?_⟩
    show ((g.run k).boundaries.map _).map _ = _
    rw [h]
    rfl

lemma Framed.drives {g : FGrid ℝ} {t₁ t₂ : ℕ} {a : ℝ} {l : List (Fin 3)} (hg : Framed g t₁ t₂ a l) : ∀ s ∈ g.sources, ∃ drive, s = FSource.soft drive := fun s hs => by
  obtain ⟨d, h, -⟩ := hg.soft s hs
  exact ⟨d, h⟩

lemma periodic_lastE (n : Pos) (c : ℝ) (ie H F : VField ℝ) (P₁ P₂ : Pml ℝ) : ∃ B : VField ℝ, applyBoundariesE n c ie (List.map (FBoundary.updatePhiE n H) [.pml P₁, .pml P₂, .periodic 1]) F = periodicE n 1 B :=
  ⟨(P₂.updatePhiE n H).updateE n c ie ((P₁.updatePhiE n H).updateE n c ie F), rfl⟩

lemma wrappedE {g : FGrid ℝ} {t₁ t₂ : ℕ} {a : ℝ} (hg : Framed g t₁ t₂ a [1]) (hw : 2 ≤ g.n 1) (hs : WrappedSources g) (k x : ℕ) : (g.run (k + 1)).E ![x, 0, 0] 2 = (g.run (k + 1)).E ![x, g.n 1 - 1, 0] 2 := by
  obtain ⟨P₁, P₂, hb⟩ := framed_bounds hg k
  obtain ⟨r1, r2, r3, -, r5, r6⟩ := g.run_n k
  show applySourcesE (g.run k).time (g.run k).sources (applyBoundariesE (g.run k).n (g.run k).courant (g.run k).invEps (g.run k).phasedE (bulkE (g.run k))) _ 2 =
    applySourcesE (g.run k).time (g.run k).sources (applyBoundariesE (g.run k).n (g.run k).courant (g.run k).invEps (g.run k).phasedE (bulkE (g.run k))) _ 2
  rw [r6, soft_adds _ _ hg.drives, soft_adds _ _ hg.drives, hs, add_left_inj]
  unfold FGrid.phasedE
  rw [hb, r1]
  obtain ⟨B, hB⟩ := periodic_lastE g.n (g.run k).courant (g.run k).invEps (g.run k).H (bulkE (g.run k)) P₁ P₂
  rw [hB]
  unfold periodicE
  rw [if_pos (show (![x, 0, 0] : Pos) 1 = 0 from rfl), if_neg (show ¬ (![x, g.n 1 - 1, 0] : Pos) 1 = 0 by show ¬ g.n 1 - 1 = 0; omega), row_update]

lemma wrappedH {g : FGrid ℝ} {t₁ t₂ : ℕ} {a : ℝ} (hg : Framed g t₁ t₂ a [1]) (hw : 2 ≤ g.n 1) (k x : ℕ) (c : Fin 3) : (g.run (k + 1)).H ![x, 0, 0] c = (g.run (k + 1)).H ![x, g.n 1 - 1, 0] c := by
  obtain ⟨P₁, P₂, hb⟩ := framed_bounds hg k
  obtain ⟨r1, r2, -, r4, -, r6⟩ := g.run_n k
  show applySourcesH (g.run k).updateE.time (g.run k).sources (applyBoundariesH (g.run k).n (g.run k).courant (g.run k).invMu (g.run k).updateE.phasedH (bulkH (g.run k).updateE)) _ c =
    applySourcesH (g.run k).updateE.time (g.run k).sources (applyBoundariesH (g.run k).n (g.run k).courant (g.run k).invMu (g.run k).updateE.phasedH (bulkH (g.run k).updateE)) _ c
  rw [r6, sourcesH_at _ _ _ _ _ (hg.nosourceH _ c), sourcesH_at _ _ _ _ _ (hg.nosourceH _ c)]
  unfold FGrid.phasedH
  rw [show (g.run k).updateE.boundaries = (g.run k).boundaries.map (FBoundary.updatePhiE (g.run k).n (g.run k).H) from rfl, hb, r1]
  show periodicH g.n 1 _ ![x, 0, 0] c = periodicH g.n 1 _ ![x, g.n 1 - 1, 0] c
  unfold periodicH
  rw [if_pos (show (![x, g.n 1 - 1, 0] : Pos) 1 = g.n 1 - 1 from rfl), if_neg (show ¬ (![x, 0, 0] : Pos) 1 = g.n 1 - 1 by show ¬ 0 = g.n 1 - 1; omega), row_update]

/-! ### Sums across -/

lemma sum_wrapped {n : ℕ} (hn : 2 ≤ n) (F : ℕ → ℝ) (h : F 0 = F (n - 1)) : ∑ y ∈ Icc 1 (n - 1), F y = ∑ y ∈ range (n - 1), F y := by
  obtain ⟨m, rfl⟩ : ∃ m, n = m + 2 := ⟨n - 2, by omega⟩
  have e : Icc 1 (m + 2 - 1) = Ico (0 + 1) (m + 1 + 1) := by ext y; rw [mem_Icc, mem_Ico]; omega
  rw [e, ← sum_Ico_add' F 0 (m + 1) 1, ← range_eq_Ico, sum_range_succ, show m + 2 - 1 = m + 1 from rfl, sum_range_succ']
  rw [h]
  rfl

lemma sum_telescope {n : ℕ} (hn : 2 ≤ n) (F : ℕ → ℝ) (h : F 0 = F (n - 1)) : ∑ y ∈ Icc 1 (n - 1), (F y - F (y - 1)) = 0 := by
  have e : Icc 1 (n - 1) = Ico (0 + 1) ((n - 1) + 1) := by ext y; rw [mem_Icc, mem_Ico]; omega
  rw [e, ← sum_Ico_add' (fun y => F y - F (y - 1)) 0 (n - 1) 1, ← range_eq_Ico]
  simp only [Nat.add_sub_cancel]
  rw [sum_range_sub F, h, sub_self]

lemma stretchedAt_sum (b c : ℝ) (s : Finset ℕ) (u : ℕ → ℕ → ℝ) (k : ℕ) : ∑ y ∈ s, stretchedAt b c (fun j => u j y) k = stretchedAt b c (fun j => ∑ y ∈ s, u j y) k := by
  unfold stretchedAt
  rw [sum_add_distrib, sum_comm]
  simp only [mul_sum]

/-- fields of two runs, summed across, apart -/
noncomputable def rowApartE (g g' : FGrid ℝ) (k x : ℕ) : ℝ := ∑ y ∈ Icc 1 (g.n 1 - 1), apartE g g' k ![x, y, 0] 2

noncomputable def rowApartH (g g' : FGrid ℝ) (k x : ℕ) : ℝ := ∑ y ∈ Icc 1 (g.n 1 - 1), apartH g g' k ![x, y, 0] 1

noncomputable def rowApartS (g g' : FGrid ℝ) (k x : ℕ) : ℝ := ∑ y ∈ Icc 1 (g.n 1 - 1), apartS g g' k ![x, y, 0] 2

lemma lowerDiff_x (F : VField ℝ) (f : Fin 3) (x y : ℕ) : lowerDiff F 0 f ![x, y, 0] = lowD (fun i => F ![i, y, 0] f) x := by
  unfold lowerDiff lowD
  rw [show Function.update (![x, y, 0] : Pos) 0 ((![x, y, 0] : Pos) 0 - 1) = ![x - 1, y, 0] by funext i; fin_cases i <;> rfl]
  rfl

lemma upperDiff_x (n : Pos) (F : VField ℝ) (f : Fin 3) (x y : ℕ) : upperDiff n F 0 f ![x, y, 0] = upF (n 0) (fun i => F ![i, y, 0] f) x := by
  unfold upperDiff upF
  rw [show Function.update (![x, y, 0] : Pos) 0 ((![x, y, 0] : Pos) 0 + 1) = ![x + 1, y, 0] by funext i; fin_cases i <;> rfl]
  rfl

lemma lowD_sum (s : Finset ℕ) (F : ℕ → ℕ → ℝ) (x : ℕ) : ∑ y ∈ s, lowD (fun i => F i y) x = lowD (fun i => ∑ y ∈ s, F i y) x := by
  unfold lowD
  split_ifs
  · exact sum_const_zero
  · exact sum_sub_distrib _ _

lemma upF_sum (N : ℕ) (s : Finset ℕ) (F : ℕ → ℕ → ℝ) (x : ℕ) : ∑ y ∈ s, upF N (fun i => F i y) x = upF N (fun i => ∑ y ∈ s, F i y) x := by
  unfold upF
  split_ifs
  · exact sum_const_zero
  · exact sum_sub_distrib _ _

variable {g g' : FGrid ℝ} {t₁ t₂ : ℕ} {a : ℝ} {ie ab im : ℕ → ℝ}

lemma apart_wrappedE (hg : Framed g t₁ t₂ a [1]) (hg' : Framed g' t₁ t₂ a [1]) (hw : SameWorld g g') (h2 : 2 ≤ g.n 1) (hs : WrappedSources g) (hs' : WrappedSources g') (k x : ℕ) :
    apartE g g' (k + 1) ![x, 0, 0] 2 = apartE g g' (k + 1) ![x, g.n 1 - 1, 0] 2 := by
  unfold apartE fieldDiff
  have h := wrappedE hg' (by rw [hw.n]; exact h2) hs' k x
  rw [hw.n] at h
  rw [wrappedE hg h2 hs, h]

lemma apart_wrappedH (hg : Framed g t₁ t₂ a [1]) (hg' : Framed g' t₁ t₂ a [1]) (hw : SameWorld g g') (h2 : 2 ≤ g.n 1) (h0 : g.H = g'.H) (k x : ℕ) (c : Fin 3) :
    apartH g g' k ![x, 0, 0] c = apartH g g' k ![x, g.n 1 - 1, 0] c := by
  cases k with
  | zero =>
    show g.H _ c - g'.H _ c = g.H _ c - g'.H _ c
    rw [h0, sub_self, sub_self]
  | succ k =>
    unfold apartH fieldDiff
    have h := wrappedH hg' (by rw [hw.n]; exact h2) k x c
    rw [hw.n] at h
    rw [wrappedH hg h2, h]

/-- the electric field of a plane, two runs apart -/
lemma PlaneGrid.stepE (h : PlaneGrid g t₁ t₂ ie ab im) (hg : Framed g t₁ t₂ a [1]) (hg' : Framed g' t₁ t₂ a [1]) (hw : SameWorld g g') (h0 : g.H = g'.H) (hab : ∀ x < g.n 0, 0 ≤ ab x) (k : ℕ) {x : ℕ} (hx : x < g.n 0) :
    (1 + ab x) * rowApartE g g' (k + 1) x = (1 - ab x) * rowApartE g g' k x + g.courant * ie x *
      stretchedAt (stretchDecay a g.courant (lineSigmaE g.n t₁ t₂ (rowCell x))) (stretchStrength a g.courant (lineSigmaE g.n t₁ t₂ (rowCell x))) (fun j => lowD (rowApartH g g' j) x) k + (1 + ab x) * rowApartS g g' k x := by
  have e : ∀ y ∈ Icc 1 (g.n 1 - 1), (1 + ab x) * apartE g g' (k + 1) ![x, y, 0] 2 = (1 - ab x) * apartE g g' k ![x, y, 0] 2 + g.courant * ie x *
      stretchedAt (stretchDecay a g.courant (lineSigmaE g.n t₁ t₂ (rowCell x))) (stretchStrength a g.courant (lineSigmaE g.n t₁ t₂ (rowCell x))) (fun j => lowD (fun i => apartH g g' j ![i, y, 0] 1) x) k -
      g.courant * ie x * (apartH g g' k ![x, y, 0] 0 - apartH g g' k ![x, y - 1, 0] 0) + (1 + ab x) * apartS g g' k ![x, y, 0] 2 := by
    intro y hy
    rw [mem_Icc] at hy
    have hn := h.wide
    have hab' := h.absorb x y hx (by omega)
    have q := hg.diffE hg' hw ![x, y, 0] hx (fun d hd => by
      rw [List.mem_singleton] at hd
      subst hd
      show y ≠ 0
      omega) 2 (by rw [hab']; exact hab x hx) (fun hl => by rw [hab']; exact h.calm x hl) k
    rw [axisSign_sum, hab', h.eps x y hx (by omega)] at q
    rw [q]
    have e1 : stretchedLower 0 (stretchDecay a g.courant (lineSigmaE g.n t₁ t₂ ![x, y, 0])) (stretchStrength a g.courant (lineSigmaE g.n t₁ t₂ ![x, y, 0])) (apartH g g') ![x, y, 0] k (2 + 1) (2 + 2) =
        stretchedAt (stretchDecay a g.courant (lineSigmaE g.n t₁ t₂ (rowCell x))) (stretchStrength a g.courant (lineSigmaE g.n t₁ t₂ (rowCell x))) (fun j => lowD (fun i => apartH g g' j ![i, y, 0] 1) x) k := by
      unfold stretchedLower
      rw [if_pos (by decide)]
      simp only [show (2 + 1 : Fin 3) = 0 from rfl, show (2 + 2 : Fin 3) = 1 from rfl, lowerDiff_x]
      rfl
    have e2 : stretchedLower 0 (stretchDecay a g.courant (lineSigmaE g.n t₁ t₂ ![x, y, 0])) (stretchStrength a g.courant (lineSigmaE g.n t₁ t₂ ![x, y, 0])) (apartH g g') ![x, y, 0] k (2 + 2) (2 + 1) =
        apartH g g' k ![x, y, 0] 0 - apartH g g' k ![x, y - 1, 0] 0 := by
      unfold stretchedLower
      rw [if_neg (by decide)]
      show lowerDiff _ 1 0 _ = _
      unfold lowerDiff
      rw [if_neg (show ¬ (![x, y, 0] : Pos) 1 = 0 by show ¬ y = 0; omega), show Function.update (![x, y, 0] : Pos) 1 ((![x, y, 0] : Pos) 1 - 1) = ![x, y - 1, 0] by funext i; fin_cases i <;> rfl]
    rw [e1, e2]
    ring
  have s1 : ∀ j, lowD (rowApartH g g' j) x = ∑ y ∈ Icc 1 (g.n 1 - 1), lowD (fun i => apartH g g' j ![i, y, 0] 1) x := fun j => (lowD_sum _ (fun i y => apartH g g' j ![i, y, 0] 1) x).symm
  simp only [s1]
  rw [← stretchedAt_sum _ _ _ (fun j y => lowD (fun i => apartH g g' j ![i, y, 0] 1) x)]
  unfold rowApartE rowApartS
  rw [mul_sum, sum_congr rfl e, sum_add_distrib, sum_sub_distrib, sum_add_distrib, ← mul_sum, ← mul_sum, ← mul_sum, ← mul_sum,
    sum_telescope h.wide (fun y => apartH g g' k ![x, y, 0] 0) (apart_wrappedH hg hg' hw h.wide h0 k x 0)]
  ring

/-- the magnetic field of a plane, two runs apart -/
lemma PlaneGrid.stepH (h : PlaneGrid g t₁ t₂ ie ab im) (hg : Framed g t₁ t₂ a [1]) (hg' : Framed g' t₁ t₂ a [1]) (hw : SameWorld g g') (h0 : g.H = g'.H) (hs : WrappedSources g) (hs' : WrappedSources g') (k : ℕ) {x : ℕ} (hx : x < g.n 0) :
    rowApartH g g' (k + 1) x = rowApartH g g' k x + g.courant * im x *
      stretchedAt (stretchDecay a g.courant (lineSigmaH g.n t₁ t₂ (rowCell x))) (stretchStrength a g.courant (lineSigmaH g.n t₁ t₂ (rowCell x))) (fun j => upF (g.n 0) (rowApartE g g' (j + 1)) x) k := by
  have hn := h.wide
  have e : ∀ y ∈ range (g.n 1 - 1), apartH g g' (k + 1) ![x, y, 0] 1 = apartH g g' k ![x, y, 0] 1 + g.courant * im x *
      stretchedAt (stretchDecay a g.courant (lineSigmaH g.n t₁ t₂ (rowCell x))) (stretchStrength a g.courant (lineSigmaH g.n t₁ t₂ (rowCell x))) (fun j => upF (g.n 0) (fun i => apartE g g' (j + 1) ![i, y, 0] 2) x) k := by
    intro y hy
    rw [mem_range] at hy
    have q := hg.diffH hg' hw ![x, y, 0] (fun d => by
      fin_cases d
      · exact hx
      · show y < g.n 1
        omega
      · show 0 < g.n 2
        rw [h.flat]; norm_num) (fun d hd => by
      rw [List.mem_singleton] at hd
      subst hd
      show y + 1 ≠ g.n 1
      omega) 1 k
    rw [axisSign_sum, h.mu x y hx (by omega)] at q
    rw [q]
    have e1 : stretchedUpper g.n 0 (stretchDecay a g.courant (lineSigmaH g.n t₁ t₂ ![x, y, 0])) (stretchStrength a g.courant (lineSigmaH g.n t₁ t₂ ![x, y, 0])) (fun j => apartE g g' (j + 1)) ![x, y, 0] k (1 + 2) (1 + 1) =
        stretchedAt (stretchDecay a g.courant (lineSigmaH g.n t₁ t₂ (rowCell x))) (stretchStrength a g.courant (lineSigmaH g.n t₁ t₂ (rowCell x))) (fun j => upF (g.n 0) (fun i => apartE g g' (j + 1) ![i, y, 0] 2) x) k := by
      unfold stretchedUpper
      rw [if_pos (by decide)]
      simp only [show (1 + 2 : Fin 3) = 0 from rfl, show (1 + 1 : Fin 3) = 2 from rfl, upperDiff_x]
      rfl
    have e2 : stretchedUpper g.n 0 (stretchDecay a g.courant (lineSigmaH g.n t₁ t₂ ![x, y, 0])) (stretchStrength a g.courant (lineSigmaH g.n t₁ t₂ ![x, y, 0])) (fun j => apartE g g' (j + 1)) ![x, y, 0] k (1 + 1) (1 + 2) = 0 := by
      unfold stretchedUpper
      rw [if_neg (by decide)]
      show upperDiff _ _ 2 0 _ = _
      unfold upperDiff
      rw [if_pos (show g.n 2 ≤ (![x, y, 0] : Pos) 2 + 1 by rw [h.flat]; exact Nat.le_add_left 1 _)]
    rw [e1, e2]
    ring
  have s0 : ∀ j i, rowApartE g g' (j + 1) i = ∑ y ∈ range (g.n 1 - 1), apartE g g' (j + 1) ![i, y, 0] 2 := fun j i =>
    sum_wrapped hn (fun y => apartE g g' (j + 1) ![i, y, 0] 2) (apart_wrappedE hg hg' hw hn hs hs' j i)
  have s1 : ∀ j, upF (g.n 0) (rowApartE g g' (j + 1)) x = ∑ y ∈ range (g.n 1 - 1), upF (g.n 0) (fun i => apartE g g' (j + 1) ![i, y, 0] 2) x := by
    intro j
    rw [upF_sum]
    congr 1
    funext i
    exact s0 j i
  simp only [s1]
  rw [← stretchedAt_sum _ _ _ (fun j y => upF (g.n 0) (fun i => apartE g g' (j + 1) ![i, y, 0] 2) x)]
  unfold rowApartH
  rw [sum_wrapped hn (fun y => apartH g g' (k + 1) ![x, y, 0] 1) (apart_wrappedH hg hg' hw hn h0 (k + 1) x 1), sum_wrapped hn (fun y => apartH g g' k ![x, y, 0] 1) (apart_wrappedH hg hg' hw hn h0 k x 1), sum_congr rfl e,
    sum_add_distrib, ← mul_sum]

lemma rowApartE_eq (hw : SameWorld g g') (k x : ℕ) : rowApartE g g' k x = rowE (g.run k) x - rowE (g'.run k) x := by
  unfold rowApartE rowE
  rw [(g.run_n k).1, (g'.run_n k).1, hw.n, ← sum_sub_distrib]
  rfl

lemma rowApartH_eq (hw : SameWorld g g') (k x : ℕ) : rowApartH g g' k x = rowH (g.run k) x - rowH (g'.run k) x := by
  unfold rowApartH rowH
  rw [(g.run_n k).1, (g'.run_n k).1, hw.n, ← sum_sub_distrib]
  rfl

lemma rowApartS_eq (hw : SameWorld g g') (k x : ℕ) : rowApartS g g' k x = rowAdded g (g.time + k) x - rowAdded g' (g.time + k) x := by
  unfold rowApartS rowAdded
  rw [hw.n, ← sum_sub_distrib]
  rfl

/-- C180 for grids that are periodic in y, with a medium that depends on x only: if what the sources of two simulations that start from the same fields add to the planes differs by an oscillation of ω radians per step from
some step on, then their fields summed across differ by an oscillation of ω radians per step, up to an error like ρᵏ. -/
theorem C180_rows (w : FGrid ℝ) (t₁ t₂ : ℕ) (a κ : ℝ) (ie ab im : ℕ → ℝ) (h : PlaneGrid w t₁ t₂ ie ab im) (ht : 2 ≤ t₁) (ha : 0 < a) (hc : 0 < w.courant) (hc1 : w.courant < 1) (hκ : 0 < κ)
    (hie : ∀ x < w.n 0, 1 / κ ≤ ie x ∧ ie x ≤ 1) (him : ∀ x < w.n 0, 1 / κ ≤ im x ∧ im x ≤ 1) (hab : ∀ x < w.n 0, 0 ≤ ab x) :
    ∃ ρ : ℝ, 0 < ρ ∧ ρ < 1 ∧ ∀ (ω : ℝ) (α β : ℕ → ℝ), α 0 = 0 → β 0 = 0 → ∃ X Y P Q : ℕ → ℝ, ∀ (g g' : FGrid ℝ) (K : ℕ), SameWorld w g → SameWorld w g' → Framed g t₁ t₂ a [1] → Framed g' t₁ t₂ a [1] →
      g.E = g'.E → g.H = g'.H → WrappedSources g → WrappedSources g' →
      (∀ k : ℕ, K ≤ k → ∀ x < w.n 0, rowAdded g (w.time + k) x - rowAdded g' (w.time + k) x = Real.cos (ω * k) * α x + Real.sin (ω * k) * β x) →
      ∃ C, ∀ k : ℕ, K ≤ k → ∀ x < w.n 0, |rowE (g.run k) x - rowE (g'.run k) x - (Real.cos (ω * k) * X x + Real.sin (ω * k) * Y x)| ≤ C * ρ ^ k ∧
        |rowH (g.run k) x - rowH (g'.run k) x - (Real.cos (ω * k) * P x + Real.sin (ω * k) * Q x)| ≤ C * ρ ^ k := by
  have hroom := h.room
  obtain ⟨ρ, r0, r1, H⟩ := line_settling (N := w.n 0) (by omega) ha hc hc1 ie im ab (fun i => lineSigmaE w.n t₁ t₂ (rowCell i)) (fun i => lineSigmaH w.n t₁ t₂ (rowCell i))
    hie him hκ hab (fun i hi => (lineSigmaE_range _ _ _ _ hi).1) (fun i hi => (lineSigmaH_range _ _ _ _ hi).1) (lineSigmaH_first ht _ rfl) (fun i hi h' => h.calm _ (by
      unfold lineSigmaE at h'
      by_contra h''
      rw [not_or] at h''
      rw [if_neg (show ¬ rowCell i 0 < t₁ from h''.1), if_neg (show ¬ w.n 0 < rowCell i 0 + t₂ from fun hh => h''.2 (le_of_lt hh))] at h'
      exact h' rfl))
  refine ⟨ρ, r0, r1, fun ω α β hα hβ => ?_⟩
  obtain ⟨X, Y, P, Q, hXY⟩ := H ω α β hα hβ
  refine ⟨X, Y, P, Q, fun g g' K w1 w2 hg hg' hE hH hs hs' hd => ?_⟩
  have hgg := w1.trans' w2
  have hS : PlaneGrid g t₁ t₂ ie ab im := by
    refine ⟨?_, ?_, ?_, ?_, ?_, ?_, ?_⟩
    all_goals simp only [w1.n, w1.invEps, w1.absorb, w1.invMu]
    exacts [h.room, h.wide, h.flat, h.eps, h.absorb, h.mu, h.calm]
  obtain ⟨C, hC⟩ := hXY (fun k i => rowApartE g g' k i) (fun k i => rowApartH g g' k i) (fun k i => rowApartS g g' k i) K
    (sum_eq_zero fun y _ => by show g.E _ _ - g'.E _ _ = 0; rw [hE, sub_self]) (sum_eq_zero fun y _ => by show g.H _ _ - g'.H _ _ = 0; rw [hH, sub_self])
    (fun k => sum_eq_zero fun y _ => sub_eq_zero.2 ((hg.added (.inl (by show 0 < t₁; omega)) _ _).trans (hg'.added (.inl (by show 0 < t₁; omega)) _ _).symm))
    (fun k hk i hi => by
      have := hd k hk i hi
      rw [← w1.time] at this
      show rowApartS g g' k i = _
      rw [rowApartS_eq hgg, this])
    (fun k i hi => by
      have := hS.stepE hg hg' hgg hH (by rw [w1.n]; exact hab) k (by rw [w1.n]; exact hi)
      rw [w1.n, w1.courant] at this
      exact this)
    (fun k i hi => by
      have := hS.stepH hg hg' hgg hH hs hs' k (by rw [w1.n]; exact hi)
      rw [w1.n, w1.courant] at this
      exact this)
  refine ⟨C, fun k hk x hx => ?_⟩
  have := hC k hk x hx
  simp only [rowApartE_eq hgg, rowApartH_eq hgg] at this
  exact this

end Nidn
