/-
C138: what a current detector records over a run.
-/
import Verif.Model.FdtdCurrent
import Verif.Props.FdtdSources
import Verif.Props.FdtdCoefficients
import Verif.Props.FdtdRun

set_option linter.unusedSectionVars false

namespace Nidn

section
variable {K : Type} [Field K]

/-- an index that has a neighbour below it on its axis, or is alone on it -/
def HasBelow (N i : ℕ) : Prop := i < N ∧ (1 ≤ i ∨ N = 1)

lemma torchIndex_nat (N i : ℕ) (h : i < N) : torchIndex N (i : ℤ) = .ok i := by
  unfold torchIndex
  rw [if_pos ⟨by omega, by omega⟩]
  rfl

lemma torchIndex_below (N i : ℕ) (h : HasBelow N i) : torchIndex N ((i : ℤ) - 1) = .ok (i - 1) := by
  obtain ⟨h1, h2⟩ := h
  unfold torchIndex
  rcases h2 with h2 | h2
  · rw [if_pos ⟨by omega, by omega⟩]
    congr 1
    omega
  · have : i = 0 := by omega
    subst this h2
    rfl

lemma readH_ok (n : Pos) (H : VField K) (x y z : ℤ) (c : Fin 3) (a b d : ℕ) (hx : torchIndex (n 0) x = .ok a) (hy : torchIndex (n 1) y = .ok b)
    (hz : torchIndex (n 2) z = .ok d) : readH n H x y z c = .ok (H ![a, b, d] c) := by
  unfold readH torchCell
  simp only
  rw [hx, ok_bind, hy, ok_bind, hz, ok_bind, ok_bind]

/-- At a cell with neighbours below, python's indices are the neighbours. -/
lemma singlePointCurrent_ok (n : Pos) (spacing : K) (H : VField K) (p : Pos) (h : ∀ c, HasBelow (n c) (p c)) :
    singlePointCurrent n spacing H (p 0) (p 1) (p 2) = .ok (pointCurrent spacing H p) := by
  have i0 := torchIndex_nat _ _ (h 0).1
  have i1 := torchIndex_nat _ _ (h 1).1
  have i2 := torchIndex_nat _ _ (h 2).1
  have d0 := torchIndex_below _ _ (h 0)
  have d1 := torchIndex_below _ _ (h 1)
  have d2 := torchIndex_below _ _ (h 2)
  have e0 : p = ![p 0, p 1, p 2] := by funext c; fin_cases c <;> rfl
  have e1 : p.dn 1 = ![p 0, p 1 - 1, p 2] := by funext c; fin_cases c <;> rfl
  have e2 : p.dn 0 = ![p 0 - 1, p 1, p 2] := by funext c; fin_cases c <;> rfl
  have e3 : p.dn 2 = ![p 0, p 1, p 2 - 1] := by funext c; fin_cases c <;> rfl
  have e4 : (p.dn 2).dn 1 = ![p 0, p 1 - 1, p 2 - 1] := by funext c; fin_cases c <;> rfl
  have e5 : (p.dn 2).dn 0 = ![p 0 - 1, p 1, p 2 - 1] := by funext c; fin_cases c <;> rfl
  unfold singlePointCurrent
  rw [readH_ok n H _ _ _ 0 _ _ _ i0 d1 i2, ok_bind, readH_ok n H _ _ _ 0 _ _ _ i0 i1 i2, ok_bind, readH_ok n H _ _ _ 1 _ _ _ i0 i1 i2, ok_bind,
    readH_ok n H _ _ _ 1 _ _ _ d0 i1 i2, ok_bind, readH_ok n H _ _ _ 0 _ _ _ i0 d1 d2, ok_bind, readH_ok n H _ _ _ 0 _ _ _ i0 i1 d2, ok_bind,
    readH_ok n H _ _ _ 1 _ _ _ i0 i1 d2, ok_bind, readH_ok n H _ _ _ 1 _ _ _ d0 i1 d2, ok_bind]
  unfold pointCurrent
  rw [← e0, ← e1, ← e2, ← e3, ← e4, ← e5]

/-- the sample of one step when every cell has neighbours below -/
lemma currentSample_ok (n : Pos) (spacing : K) (H : VField K) (xs ys zs : List ℕ) (hx : ∀ i ∈ xs, HasBelow (n 0) i) (hy : ∀ i ∈ ys, HasBelow (n 1) i)
    (hz : ∀ i ∈ zs, HasBelow (n 2) i) :
    currentSample n spacing H ⟨xs.map fun i : ℕ => (i : ℤ), ys.map fun i : ℕ => (i : ℤ), zs.map fun i : ℕ => (i : ℤ)⟩ =
      .ok (xs.map fun x => ys.map fun y => zs.map fun z => pointCurrent spacing H ![x, y, z]) := by
  unfold currentSample
  simp only [List.mapM_map]
  refine mapM_all_ok _ _ _ fun x hx' => ?_
  refine mapM_all_ok _ _ _ fun y hy' => ?_
  refine mapM_all_ok _ _ _ fun z hz' => ?_
  refine singlePointCurrent_ok n spacing H ![x, y, z] fun c => ?_
  fin_cases c
  · exact hx x hx'
  · exact hy y hy'
  · exact hz z hz'

lemma currentRun_ok (g : FGrid K) (spacing : K) (xs ys zs : List ℕ) (hx : ∀ i ∈ xs, HasBelow (g.n 0) i) (hy : ∀ i ∈ ys, HasBelow (g.n 1) i)
    (hz : ∀ i ∈ zs, HasBelow (g.n 2) i) (k : ℕ) :
    currentRun g spacing ⟨⟨xs.map fun i : ℕ => (i : ℤ), ys.map fun i : ℕ => (i : ℤ), zs.map fun i : ℕ => (i : ℤ)⟩, []⟩ k =
      .ok ⟨⟨xs.map fun i : ℕ => (i : ℤ), ys.map fun i : ℕ => (i : ℤ), zs.map fun i : ℕ => (i : ℤ)⟩,
        (List.range k).map fun t => xs.map fun x => ys.map fun y => zs.map fun z => pointCurrent spacing (g.run (t + 1)).H ![x, y, z]⟩ := by
  induction k with
  | zero => rfl
  | succ k ih =>
    show (currentRun g spacing _ k >>= _) = _
    rw [ih, ok_bind]
    show (currentSample g.n spacing (g.run (k + 1)).H _ >>= _) = _
    rw [currentSample_ok g.n spacing _ xs ys zs hx hy hz, ok_bind, List.range_succ, List.map_append]
    rfl

/-- specification: reading `(i, j, l)` of step `t` in the recordings of a detector -/
def readingAt (I : List (List (List (List K)))) (t i j l : ℕ) : Option K :=
  (I[t]?).bind fun a => (a[i]?).bind fun b => (b[j]?).bind fun c => c[l]?

/-- specification: the recordings have one block of `m 0 × m 1 × m 2` readings for each of `k` steps -/
def BlockShape (I : List (List (List (List K)))) (k : ℕ) (m : Fin 3 → ℕ) : Prop :=
  I.length = k ∧ ∀ a ∈ I, a.length = m 0 ∧ ∀ b ∈ a, b.length = m 1 ∧ ∀ c ∈ b, c.length = m 2

/-- the reading the code takes at a cell (see C69): mean of the two loops around it, plus half of the y part of the nearer one -/
def reportedCurrent (spacing : K) (H : VField K) (p : Pos) : K :=
  (loopCurrent spacing H p + loopCurrent spacing H (p.dn 2)) / 2 + (H p 1 - H (p.dn 0) 1) * spacing / 2

lemma run_shape (g : FGrid K) (spacing : K) (xs ys zs : List ℕ) (hx : ∀ i ∈ xs, HasBelow (g.n 0) i) (hy : ∀ i ∈ ys, HasBelow (g.n 1) i)
    (hz : ∀ i ∈ zs, HasBelow (g.n 2) i) (k : ℕ) :
    ∃ d, currentRun g spacing ⟨⟨xs.map fun i : ℕ => (i : ℤ), ys.map fun i : ℕ => (i : ℤ), zs.map fun i : ℕ => (i : ℤ)⟩, []⟩ k = .ok d ∧
      BlockShape d.record k ![xs.length, ys.length, zs.length] ∧
      ∀ t i j l x y z, t < k → xs[i]? = some x → ys[j]? = some y → zs[l]? = some z →
        readingAt d.record t i j l = some (reportedCurrent spacing (g.run (t + 1)).H ![x, y, z]) := by
  refine ⟨_, currentRun_ok g spacing xs ys zs hx hy hz k, ⟨by simp, ?_⟩, ?_⟩
  · intro a ha
    simp only [List.mem_map] at ha
    obtain ⟨t, -, rfl⟩ := ha
    refine ⟨by simp, fun b hb => ?_⟩
    simp only [List.mem_map] at hb
    obtain ⟨x, -, rfl⟩ := hb
    refine ⟨by simp, fun c hc => ?_⟩
    simp only [List.mem_map] at hc
    obtain ⟨y, -, rfl⟩ := hc
    simp
  · intro t i j l x y z ht h1 h2 h3
    unfold readingAt
    simp only [List.getElem?_map, List.getElem?_range ht, h1, h2, h3, Option.map_some, Option.bind_some]
    congr 1
    exact (C69_partial spacing _ _).1

/-- C138, what is true of detectors placed with slices `a:b` that start at one (or lie on an axis of one cell) and end before the last plane: placing it and running `k` steps
succeeds and leaves one block per step with one reading for each of the cells `a … b`, both ends included; the reading of step `t` is taken from the magnetic field at the end of that
step. -/
theorem C138_partial (g : FGrid K) (spacing : K) (a b : Fin 3 → ℕ) (hab : ∀ c, a c ≤ b c) (hb : ∀ c, b c < g.n c) (ha : ∀ c, 1 ≤ a c ∨ g.n c = 1) (k : ℕ) :
    ∃ d0 d, CurrentDet.register g.n (.slice ⟨some (a 0), some (b 0), none⟩) (.slice ⟨some (a 1), some (b 1), none⟩) (.slice ⟨some (a 2), some (b 2), none⟩) = .ok d0 ∧
      currentRun g spacing d0 k = .ok d ∧ BlockShape d.record k (fun c => b c + 1 - a c) ∧
      ∀ t i j l, t < k → i ≤ b 0 - a 0 → j ≤ b 1 - a 1 → l ≤ b 2 - a 2 →
        readingAt d.record t i j l = some (reportedCurrent spacing (g.run (t + 1)).H ![a 0 + i, a 1 + j, a 2 + l]) := by
  have hr : ∀ u v : ℕ, u ≤ v → blockRange (u : ℤ) (v : ℤ) = .ok (((List.range (v + 1 - u)).map fun i => u + i).map fun i : ℕ => (i : ℤ)) := by
    intro u v huv
    unfold blockRange
    rw [if_neg (by omega)]
    congr 1
    have : ((v : ℤ) + 1 - u).toNat = v + 1 - u := by omega
    rw [this, List.map_map]
    exact List.map_congr_left fun i _ => by simp
  have hin : ∀ c, ∀ i ∈ (List.range (b c + 1 - a c)).map (fun i => a c + i), HasBelow (g.n c) i := by
    intro c i hi
    simp only [List.mem_map, List.mem_range] at hi
    obtain ⟨j, hj, rfl⟩ := hi
    have := hb c
    refine ⟨by omega, ?_⟩
    rcases ha c with h | h
    · left; omega
    · right; exact h
  obtain ⟨d, hd, hs, hv⟩ := run_shape g spacing _ _ _ (hin 0) (hin 1) (hin 2) k
  refine ⟨_, d, ?_, hd, ?_, ?_⟩
  · have hl : blockIndices g.n (.slice ⟨some (a 0), some (b 0), none⟩) (.slice ⟨some (a 1), some (b 1), none⟩) (.slice ⟨some (a 2), some (b 2), none⟩) =
        .ok ⟨((List.range (b 0 + 1 - a 0)).map fun i => a 0 + i).map fun i : ℕ => (i : ℤ), ((List.range (b 1 + 1 - a 1)).map fun i => a 1 + i).map fun i : ℕ => (i : ℤ),
          ((List.range (b 2 + 1 - a 2)).map fun i => a 2 + i).map fun i : ℕ => (i : ℤ)⟩ := by
      show (blockRange (a 0) (b 0) >>= _) = _
      rw [hr _ _ (hab 0), ok_bind]
      show (blockRange (a 1) (b 1) >>= _) = _
      rw [hr _ _ (hab 1), ok_bind]
      show (blockRange (a 2) (b 2) >>= _) = _
      rw [hr _ _ (hab 2), ok_bind]
    unfold CurrentDet.register
    rw [hl, ok_bind]
  · obtain ⟨h1, h2⟩ := hs
    refine ⟨h1, fun x hx => ?_⟩
    obtain ⟨q1, q2⟩ := h2 x hx
    refine ⟨by simpa using q1, fun y hy => ?_⟩
    obtain ⟨q3, q4⟩ := q2 y hy
    refine ⟨by simpa using q3, fun z hz => ?_⟩
    simpa using q4 z hz
  · intro t i j l ht hi hj hl
    have := hab 0; have := hab 1; have := hab 2
    refine hv t i j l _ _ _ ht ?_ ?_ ?_
    · rw [List.getElem?_map, List.getElem?_range (by omega)]; rfl
    · rw [List.getElem?_map, List.getElem?_range (by omega)]; rfl
    · rw [List.getElem?_map, List.getElem?_range (by omega)]; rfl

/-- C138, single cells: a detector placed with three integers records one reading per step, of that cell. -/
theorem C138_cell (g : FGrid K) (spacing : K) (p : Pos) (h : ∀ c, p c < g.n c ∧ (1 ≤ p c ∨ g.n c = 1)) (k : ℕ) :
    ∃ d0 d, CurrentDet.register g.n (.list [(p 0 : ℤ)]) (.list [(p 1 : ℤ)]) (.list [(p 2 : ℤ)]) = .ok d0 ∧ currentRun g spacing d0 k = .ok d ∧
      BlockShape d.record k ![1, 1, 1] ∧ ∀ t < k, readingAt d.record t 0 0 0 = some (reportedCurrent spacing (g.run (t + 1)).H p) := by
  obtain ⟨d, hd, hs, hv⟩ := run_shape g spacing [p 0] [p 1] [p 2] (by simpa [HasBelow] using h 0) (by simpa [HasBelow] using h 1) (by simpa [HasBelow] using h 2) k
  refine ⟨_, d, rfl, hd, hs, fun t ht => ?_⟩
  have e0 : p = ![p 0, p 1, p 2] := by funext c; fin_cases c <;> rfl
  conv_rhs => rw [e0]
  exact hv t 0 0 0 _ _ _ ht rfl rfl rfl

/-- C138, lists: `m` points given as index lists are recorded as `m³` readings, at all combinations of the coordinates. -/
theorem C138_lists (g : FGrid K) (spacing : K) (xs ys zs : List ℕ) (hl : ys.length = xs.length) (hl' : zs.length = xs.length) (hx : ∀ i ∈ xs, HasBelow (g.n 0) i)
    (hy : ∀ i ∈ ys, HasBelow (g.n 1) i) (hz : ∀ i ∈ zs, HasBelow (g.n 2) i) (k : ℕ) :
    ∃ d0 d, CurrentDet.register g.n (.list (xs.map fun i : ℕ => (i : ℤ))) (.list (ys.map fun i : ℕ => (i : ℤ))) (.list (zs.map fun i : ℕ => (i : ℤ))) = .ok d0 ∧
      currentRun g spacing d0 k = .ok d ∧ BlockShape d.record k (fun _ => xs.length) ∧
      ∀ t i j l x y z, t < k → xs[i]? = some x → ys[j]? = some y → zs[l]? = some z →
        readingAt d.record t i j l = some (reportedCurrent spacing (g.run (t + 1)).H ![x, y, z]) := by
  obtain ⟨d, hd, hs, hv⟩ := run_shape g spacing xs ys zs hx hy hz k
  refine ⟨_, d, ?_, hd, ?_, hv⟩
  · unfold CurrentDet.register blockIndices
    simp only [List.length_map, hl, hl', ne_eq, not_true_eq_false, or_self, if_false, ok_bind]
  · have : (![xs.length, ys.length, zs.length] : Fin 3 → ℕ) = fun _ => xs.length := by
      funext c; fin_cases c <;> simp [hl, hl']
    rwa [this] at hs

/-! ### Ampère's law -/

/-- C138, the meaning of a loop: at a cell that no boundary, source or absorption acts on, the loop current around it after a step is the displacement current of the next step, i.e. the
change of E_z times the permittivity. -/
theorem C138_ampere (g : FGrid K) (spacing : K) (p : Pos) (hp : 1 ≤ p 0 ∧ 1 ≤ p 1) (hb : ∀ b ∈ g.boundaries, ¬ b.touchesE g.n p) (hs : ∀ s ∈ g.sources, ¬ s.touchesE p)
    (ha : g.absorb p 2 = 0) (t : ℕ) :
    g.courant * g.invEps p 2 * loopCurrent spacing (g.run t).H p = ((g.run (t + 1)).E p 2 - (g.run t).E p 2) * spacing := by
  have hE : (g.run (t + 1)).E p 2 = (g.run t).E p 2 + g.courant * g.invEps p 2 * curlH (g.run t).H p 2 := by
    show (g.run t).newE p 2 = _
    unfold FGrid.newE
    rw [applySourcesE_untouched _ _ _ _ (by rw [run_sources]; exact hs), applyBoundariesE_untouched]
    · unfold bulkE
      rw [run_absorb, run_courant, run_invEps, ha]
      simp
    · have hq := run_boundaries_all (fun b => ¬ b.touchesE g.n p) g (fun b H h => by rwa [FBoundary.touchesE_phiE]) (fun b E h => by rwa [FBoundary.touchesE_phiH]) hb t
      intro b hb'
      unfold FGrid.phasedE at hb'
      rw [List.mem_map] at hb'
      obtain ⟨b0, hb0, rfl⟩ := hb'
      rw [FBoundary.touchesE_phiE, run_n]
      exact hq b0 hb0
  rw [hE]
  have hc : curlH (g.run t).H p 2 = dDn (g.run t).H 0 1 p - dDn (g.run t).H 1 0 p := rfl
  rw [hc]
  unfold dDn loopCurrent
  rw [if_pos hp.1, if_pos hp.2]
  ring

end

/-! ### Where the recordings are not the current at the requested cells -/

/-- a grid at rest with a magnetic field that has no curl away from its edges: H_x = y, H_y = x on a 5 × 5 × 3 grid, nothing else -/
def curlFreeGrid : FGrid ℚ := { FGrid.fresh ![5, 5, 3] (1 / 2) 1 1 with H := fun q c => if c = 0 then (q 1 : ℚ) else if c = 1 then (q 0 : ℚ) else 0 }

/-- the recordings of a run, if it succeeds -/
def recordsOf (n : Pos) (kx ky kz : AxisKey) (g : FGrid ℚ) (k : ℕ) : Except PyErr (List (List (List (List ℚ)))) := do
  let d0 ← CurrentDet.register n kx ky kz
  let d ← currentRun g 1 d0 k
  .ok d.record

/-- C138 is false: where no current flows (E_z does not change in either cell of the two loops) the detector records one half in every step. -/
theorem C138_no_current_false : (∀ q ∈ [(![3, 3, 1] : Pos), ![3, 3, 0]], (curlFreeGrid.run 1).E q 2 = curlFreeGrid.E q 2 ∧ (curlFreeGrid.run 2).E q 2 = curlFreeGrid.E q 2) ∧
    recordsOf ![5, 5, 3] (.list [3]) (.list [3]) (.list [1]) curlFreeGrid 1 = .ok [[[[1 / 2]]]] := by
  refine ⟨by decide +kernel, ?_⟩
  have hr := currentRun_ok curlFreeGrid 1 [3] [3] [1] (by unfold HasBelow; decide) (by unfold HasBelow; decide) (by unfold HasBelow; decide) 1
  have hv : pointCurrent 1 (curlFreeGrid.run 1).H ![3, 3, 1] = 1 / 2 := by decide +kernel
  have hd : CurrentDet.register (K := ℚ) ![5, 5, 3] (.list [3]) (.list [3]) (.list [1]) = .ok ⟨⟨[3], [3], [1]⟩, []⟩ := rfl
  unfold recordsOf
  rw [hd, ok_bind]
  refine (congrArg (· >>= _) hr).trans ?_
  rw [ok_bind, ← hv]
  rfl

/-- C138 is false: two points given as lists are recorded as eight readings. -/
theorem C138_lists_false : ∃ I, recordsOf ![5, 5, 3] (.list [1, 2]) (.list [1, 2]) (.list [1, 1]) curlFreeGrid 1 = .ok [I] ∧ (I.flatten.flatten).length = 8 := by
  refine ⟨_, rfl, ?_⟩
  decide +kernel

/-- C138 is false at the lower edge: on every grid of at least two cells per axis a detector at x index zero reads the field of the last x plane: a field that is zero everywhere else
gives a current at index zero. -/
theorem C138_edge_false {K : Type} [Field K] [CharZero K] (n : Pos) (hn : ∀ c, 2 ≤ n c) (spacing : K) :
    singlePointCurrent n spacing (fun q c => if q 0 = n 0 - 1 ∧ c = 1 then 1 else 0) 0 1 1 = .ok (-(3 / 2 * spacing)) := by
  have h0 := hn 0
  have h1 := hn 1
  have h2 := hn 2
  have i0 : torchIndex (n 0) 0 = .ok 0 := torchIndex_nat (n 0) 0 (by omega)
  have i1 : torchIndex (n 1) 1 = .ok 1 := torchIndex_nat (n 1) 1 (by omega)
  have i2 : torchIndex (n 2) 1 = .ok 1 := torchIndex_nat (n 2) 1 (by omega)
  have d1 : torchIndex (n 1) (1 - 1) = .ok 0 := torchIndex_nat (n 1) 0 (by omega)
  have d2 : torchIndex (n 2) (1 - 1) = .ok 0 := torchIndex_nat (n 2) 0 (by omega)
  have d0 : torchIndex (n 0) (0 - 1) = .ok (n 0 - 1) := by
    unfold torchIndex
    rw [if_neg (by omega), if_pos ⟨by omega, by omega⟩]
    congr 1
    omega
  unfold singlePointCurrent
  rw [readH_ok n _ _ _ _ 0 _ _ _ i0 d1 i2, ok_bind, readH_ok n _ _ _ _ 0 _ _ _ i0 i1 i2, ok_bind, readH_ok n _ _ _ _ 1 _ _ _ i0 i1 i2, ok_bind,
    readH_ok n _ _ _ _ 1 _ _ _ d0 i1 i2, ok_bind, readH_ok n _ _ _ _ 0 _ _ _ i0 d1 d2, ok_bind, readH_ok n _ _ _ _ 0 _ _ _ i0 i1 d2, ok_bind,
    readH_ok n _ _ _ _ 1 _ _ _ i0 i1 d2, ok_bind, readH_ok n _ _ _ _ 1 _ _ _ d0 i1 d2, ok_bind]
  have hne : ¬ (0 = n 0 - 1) := by omega
  simp [hne]
  ring

lemma readH_error {K : Type} [Field K] (n : Pos) (H : VField K) (x y z : ℤ) (c : Fin 3) (e : PyErr) (h : readH n H x y z c = .error e) : e = .indexError := by
  unfold readH at h
  rw [bind_err] at h
  rcases h with h | ⟨p, -, h⟩
  · exact torchCell_error _ _ _ h
  · cases h

lemma singlePointCurrent_error {K : Type} [Field K] (n : Pos) (spacing : K) (H : VField K) (x y z : ℤ) (e : PyErr) (h : singlePointCurrent n spacing H x y z = .error e) :
    e = .indexError := by
  unfold singlePointCurrent at h
  iterate 8
    rw [bind_err] at h
    rcases h with h | ⟨_, -, h⟩
    · exact readH_error _ _ _ _ _ _ _ h
  cases h

lemma mapM_fails {α β : Type} (f : α → Except PyErr β) (e : PyErr) : ∀ l : List α, l.mapM f = .error e → ∃ x ∈ l, f x = .error e
  | [], h => by cases h
  | a :: l, h => by
    rw [List.mapM_cons, bind_err] at h
    rcases h with h | ⟨b, -, h⟩
    · exact ⟨a, by simp, h⟩
    · rw [bind_err] at h
      rcases h with h | ⟨_, -, h⟩
      · obtain ⟨x, hx, hf⟩ := mapM_fails f e l h
        exact ⟨x, by simp [hx], hf⟩
      · cases h

/-- C138 is false of whole axes: on every grid, a detector over the whole grid is accepted, and the first step raises an IndexError. -/
theorem C138_whole_false {K : Type} [Field K] (g : FGrid K) (spacing : K) (k : ℕ) :
    ∃ d0, CurrentDet.register (K := K) g.n (.slice fullSlice) (.slice fullSlice) (.slice fullSlice) = .ok d0 ∧ currentRun g spacing d0 (k + 1) = .error .indexError := by
  obtain ⟨l, hl, hx, -⟩ := C58_block_false g.n
  have hyz : l.y ≠ [] ∧ l.z ≠ [] := by
    have hb : ∀ N : ℕ, lineBounds N (.slice fullSlice) = .ok (0, (N : ℤ)) := fun _ => rfl
    unfold blockIndices at hl
    simp only [hb, ok_bind] at hl
    obtain ⟨xs, -, hl⟩ := bind_ok.1 hl
    obtain ⟨ys, h1, hl⟩ := bind_ok.1 hl
    obtain ⟨zs, h2, hl⟩ := bind_ok.1 hl
    cases hl
    unfold blockRange at h1 h2
    rw [if_neg (by omega)] at h1 h2
    cases h1
    cases h2
    constructor <;> (simp only [ne_eq, List.map_eq_nil_iff, List.range_eq_nil]; omega)
  refine ⟨⟨l, []⟩, ?_, ?_⟩
  · unfold CurrentDet.register
    rw [hl, ok_bind]
  · have hs : ∀ H : VField K, currentSample g.n spacing H l = .error .indexError := by
      intro H
      obtain ⟨y, hy⟩ := List.exists_mem_of_ne_nil _ hyz.1
      obtain ⟨z, hz⟩ := List.exists_mem_of_ne_nil _ hyz.2
      have e3 : ∀ x y e, (l.z.mapM fun z => singlePointCurrent g.n spacing H x y z) = .error e → e = .indexError := by
        intro x y e h
        obtain ⟨z, -, h⟩ := mapM_fails _ _ _ h
        exact singlePointCurrent_error _ _ _ _ _ _ _ h
      have e2 : ∀ x e, (l.y.mapM fun y => l.z.mapM fun z => singlePointCurrent g.n spacing H x y z) = .error e → e = .indexError := by
        intro x e h
        obtain ⟨y, -, h⟩ := mapM_fails _ _ _ h
        exact e3 _ _ _ h
      have hbad : ∀ y z, singlePointCurrent g.n spacing H (g.n 0) y z = .error .indexError := by
        intro y z
        have : torchIndex (g.n 0) (g.n 0) = .error .indexError := by
          unfold torchIndex
          rw [if_neg (by omega), if_neg (by omega)]
        unfold singlePointCurrent readH torchCell
        simp only [this, error_bind]
      unfold currentSample
      refine mapM_error _ _ e2 _ ⟨(g.n 0 : ℤ), ?_, ?_⟩
      · rw [hx, List.mem_map]
        exact ⟨g.n 0, by simp, rfl⟩
      · refine mapM_error _ _ (e3 _) _ ⟨y, hy, ?_⟩
        exact mapM_error _ _ (fun z e h => singlePointCurrent_error _ _ _ _ _ _ _ h) _ ⟨z, hz, hbad y z⟩
    induction k with
    | zero =>
      show (currentSample g.n spacing _ l >>= _) = _
      rw [hs, error_bind]
    | succ k ih =>
      show (currentRun g spacing _ (k + 1) >>= _) = _
      rw [ih, error_bind]

/-! ### Cases -/

example : ∃ g : FGrid ℚ, ∃ a b : Fin 3 → ℕ, (∀ c, a c ≤ b c) ∧ (∀ c, b c < g.n c) ∧ (∀ c, 1 ≤ a c ∨ g.n c = 1) ∧ a ≠ b ∧ reportedCurrent 1 (g.run 1).H ![a 0, a 1, a 2] = 1 / 2 :=
  ⟨curlFreeGrid, ![3, 3, 1], ![4, 4, 1], by decide, by decide, by decide, by decide, by decide +kernel⟩

example : (∀ b : FBoundary ℚ, b ∈ curlFreeGrid.boundaries → ¬ b.touchesE curlFreeGrid.n ![3, 3, 1]) ∧ (∀ s : FSource ℚ, s ∈ curlFreeGrid.sources → ¬ s.touchesE ![3, 3, 1]) ∧ curlFreeGrid.absorb ![3, 3, 1] 2 = 0 :=
  by
  refine ⟨fun b hb => ?_, fun s hs => ?_, rfl⟩
  · exact absurd hb (List.not_mem_nil)
  · exact absurd hs (List.not_mem_nil)

end Nidn
