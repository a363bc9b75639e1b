/-
C176: the energy in a part of an FDTD grid changes only by the power that flows through its surface, by absorption and by the sources in it.
-/
import Verif.Props.FdtdEnergy

set_option linter.unusedSectionVars false

namespace Nidn

section
variable {K : Type} [Field K]

/-- the cells of a box `lo ≤ p < hi` -/
def cuboid (lo hi : Pos) : Finset Pos := Fintype.piFinset fun a => Finset.Ico (lo a) (hi a)

lemma mem_cuboid {lo hi p : Pos} : p ∈ cuboid lo hi ↔ ∀ a, lo a ≤ p a ∧ p a < hi a := by simp [cuboid]

/-- component `a` of `E × H` (E and H need not belong to the same cell) -/
def crossAt (e h : Fin 3 → K) (a : Fin 3) : K := e (a + 1) * h (a + 2) - e (a + 2) * h (a + 1)

/-- power through the face of a cell towards lower indices: E of the cell, H of the cell before it (at the edge of the grid there is none) -/
def lowFace (E H : VField K) (a : Fin 3) (p : Pos) : K := crossAt (E p) (H (p.dn a)) a

/-- power through the face of a cell towards higher indices -/
def highFace (n : Pos) (E H : VField K) (a : Fin 3) (p : Pos) : K := crossAt (E (if p a + 1 < n a then p.up a else p)) (H p) a

/-- power that leaves the box `lo ≤ p < hi` through its six sides -/
def outflow (n lo hi : Pos) (E H : VField K) : K :=
  ∑ a, (∑ p ∈ cuboid lo hi with p a + 1 = hi a, highFace n E H a p - ∑ p ∈ cuboid lo hi with p a = lo a, lowFace E H a p)

lemma highFace_up {n : Pos} {E H : VField K} {a : Fin 3} {p : Pos} (h : p a + 1 < n a) : highFace n E H a p = lowFace E H a (p.up a) := by
  rw [highFace, lowFace, if_pos h, Pos.dn_up]

/-- what leaves the cells of a box leaves the box -/
lemma sum_faces (n lo hi : Pos) (hin : ∀ a, hi a ≤ n a) (E H : VField K) :
    ∑ p ∈ cuboid lo hi, ∑ a, (highFace n E H a p - lowFace E H a p) = outflow n lo hi E H := by
  rw [Finset.sum_comm, outflow]
  refine Finset.sum_congr rfl fun a _ => ?_
  rw [Finset.sum_sub_distrib, ← Finset.sum_filter_add_sum_filter_not (cuboid lo hi) (fun p => p a + 1 = hi a) (fun p => highFace n E H a p),
    ← Finset.sum_filter_add_sum_filter_not (cuboid lo hi) (fun p => p a = lo a) (fun p => lowFace E H a p)]
  have : ∑ p ∈ cuboid lo hi with ¬ p a + 1 = hi a, highFace n E H a p = ∑ p ∈ cuboid lo hi with ¬ p a = lo a, lowFace E H a p := by
    refine Finset.sum_bij' (fun p _ => p.up a) (fun p _ => p.dn a) ?_ ?_ ?_ ?_ ?_
    · intro p hp
      obtain ⟨h1, h2⟩ := Finset.mem_filter.1 hp
      rw [mem_cuboid] at h1
      refine Finset.mem_filter.2 ⟨mem_cuboid.2 fun b => ?_, ?_⟩
      · by_cases hb : b = a
        · subst hb; rw [Pos.up_self]; have := h1 b; omega
        · rw [Pos.up_ne _ hb]; exact h1 b
      · rw [Pos.up_self]; have := h1 a; omega
    · intro p hp
      obtain ⟨h1, h2⟩ := Finset.mem_filter.1 hp
      rw [mem_cuboid] at h1
      refine Finset.mem_filter.2 ⟨mem_cuboid.2 fun b => ?_, ?_⟩
      · by_cases hb : b = a
        · subst hb; rw [Pos.dn_self]; have := h1 b; omega
        · rw [Pos.dn_ne _ hb]; exact h1 b
      · rw [Pos.dn_self]; have := h1 a; omega
    · intro p _
      exact Pos.dn_up p a
    · intro p hp
      obtain ⟨h1, h2⟩ := Finset.mem_filter.1 hp
      have := mem_cuboid.1 h1 a
      exact Pos.up_dn p a (by omega)
    · intro p hp
      obtain ⟨h1, h2⟩ := Finset.mem_filter.1 hp
      have := mem_cuboid.1 h1 a
      have := hin a
      exact highFace_up (by omega)
  rw [this]
  ring

/-- the local form: `E · curl H - H · curl E` is minus what leaves the cell through its faces -/
lemma cell_faces (n : Pos) (E H : VField K) (p : Pos) :
    ∑ c, (E p c * curlH H p c - H p c * curlE n E p c) = -∑ a, (highFace n E H a p - lowFace E H a p) := by
  have dd : ∀ a b : Fin 3, dDn H a b p = H p b - H (p.dn a) b := by
    intro a b
    unfold dDn
    split_ifs with h
    · rfl
    · have : p.dn a = p := by
        funext x
        by_cases hx : x = a
        · subst hx; rw [Pos.dn_self]; omega
        · rw [Pos.dn_ne _ hx]
      rw [this, sub_self]
  have du : ∀ a b : Fin 3, dUp n E a b p = E (if p a + 1 < n a then p.up a else p) b - E p b := by
    intro a b
    unfold dUp
    split_ifs <;> ring
  simp only [Fin.sum_univ_three, curlH, curlE, dd, du, highFace, lowFace, crossAt]
  simp only [Fin.isValue, show (0 : Fin 3) + 1 = 1 from rfl, show (0 : Fin 3) + 2 = 2 from rfl, show (1 : Fin 3) + 1 = 2 from rfl, show (1 : Fin 3) + 2 = 0 from rfl,
    show (2 : Fin 3) + 1 = 0 from rfl, show (2 : Fin 3) + 2 = 1 from rfl]
  ring

/-- no boundary and no plane source writes to the cell -/
def Unwritten (g : FGrid K) (p : Pos) : Prop :=
  (∀ b ∈ g.boundaries, match b with
    | .periodic a => 0 < p a ∧ p a + 1 < g.n a
    | .pml P => ¬ P.inside g.n p) ∧
  ∀ s ∈ g.sources, match s with
    | .soft _ => True
    | .plane cells _ _ _ => cells p = false

/-- what the soft sources add to the electric field of a cell -/
def softSum (ss : List (FSource K)) (t : ℕ) (p : Pos) (c : Fin 3) : K :=
  (ss.map fun s => match s with
    | .soft drive => drive t p c
    | .plane _ _ _ _ => 0).sum

lemma untouched_boundariesE (n : Pos) (courant : K) (invEps : VField K) (p : Pos) (c : Fin 3) (bs : List (FBoundary K)) (E : VField K)
    (h : ∀ b ∈ bs, match b with | .periodic a => 0 < p a ∧ p a + 1 < n a | .pml P => ¬ P.inside n p) : applyBoundariesE n courant invEps bs E p c = E p c := by
  induction bs generalizing E with
  | nil => rfl
  | cons b bs ih =>
    show applyBoundariesE n courant invEps bs (b.updateE n courant invEps E) p c = _
    rw [ih _ fun b hb => h b (List.mem_cons_of_mem _ hb)]
    have hb := h b List.mem_cons_self
    cases b with
    | periodic a =>
      have hb : 0 < p a ∧ p a + 1 < n a := hb
      exact if_neg (by omega)
    | pml P => exact if_neg hb

lemma untouched_boundariesH (n : Pos) (courant : K) (invMu : VField K) (p : Pos) (c : Fin 3) (bs : List (FBoundary K)) (H : VField K)
    (h : ∀ b ∈ bs, match b with | .periodic a => 0 < p a ∧ p a + 1 < n a | .pml P => ¬ P.inside n p) : applyBoundariesH n courant invMu bs H p c = H p c := by
  induction bs generalizing H with
  | nil => rfl
  | cons b bs ih =>
    show applyBoundariesH n courant invMu bs (b.updateH n courant invMu H) p c = _
    rw [ih _ fun b hb => h b (List.mem_cons_of_mem _ hb)]
    have hb := h b List.mem_cons_self
    cases b with
    | periodic a =>
      have hb : 0 < p a ∧ p a + 1 < n a := hb
      exact if_neg (by omega)
    | pml P => exact if_neg hb

lemma untouched_sourcesE (t : ℕ) (p : Pos) (c : Fin 3) (ss : List (FSource K)) (E : VField K)
    (h : ∀ s ∈ ss, match s with | .soft _ => True | .plane cells _ _ _ => cells p = false) : applySourcesE t ss E p c = E p c + softSum ss t p c := by
  induction ss generalizing E with
  | nil => simp [applySourcesE, softSum]
  | cons s ss ih =>
    show applySourcesE t ss (s.updateE t E) p c = _
    rw [ih _ fun s hs => h s (List.mem_cons_of_mem _ hs)]
    have hs := h s List.mem_cons_self
    cases s with
    | soft drive =>
      rw [softSum, softSum, List.map_cons, List.sum_cons]
      show E p c + drive t p c + _ = _
      ring
    | plane cells e m v =>
      have hs : cells p = false := hs
      rw [softSum, softSum, List.map_cons, List.sum_cons]
      simp [FSource.updateE, hs]

lemma untouched_sourcesH (t : ℕ) (p : Pos) (c : Fin 3) (ss : List (FSource K)) (H : VField K)
    (h : ∀ s ∈ ss, match s with | .soft _ => True | .plane cells _ _ _ => cells p = false) : applySourcesH t ss H p c = H p c := by
  induction ss generalizing H with
  | nil => rfl
  | cons s ss ih =>
    show applySourcesH t ss (s.updateH t H) p c = _
    rw [ih _ fun s hs => h s (List.mem_cons_of_mem _ hs)]
    have hs := h s List.mem_cons_self
    cases s with
    | soft drive => rfl
    | plane cells e m v =>
      have hs : cells p = false := hs
      simp [FSource.updateH, hs]

lemma untouched_phiE {n p : Pos} {F : VField K} {bs : List (FBoundary K)} (h : ∀ b ∈ bs, match b with | .periodic a => 0 < p a ∧ p a + 1 < n a | .pml P => ¬ P.inside n p) :
    ∀ b ∈ bs.map (FBoundary.updatePhiE n F), match b with | .periodic a => 0 < p a ∧ p a + 1 < n a | .pml P => ¬ P.inside n p := by
  intro b hb
  obtain ⟨b', hb', rfl⟩ := List.mem_map.1 hb
  have := h b' hb'
  cases b' with
  | periodic a => exact this
  | pml P => exact this

lemma untouched_phiH {n p : Pos} {F : VField K} {bs : List (FBoundary K)} (h : ∀ b ∈ bs, match b with | .periodic a => 0 < p a ∧ p a + 1 < n a | .pml P => ¬ P.inside n p) :
    ∀ b ∈ bs.map (FBoundary.updatePhiH n F), match b with | .periodic a => 0 < p a ∧ p a + 1 < n a | .pml P => ¬ P.inside n p := by
  intro b hb
  obtain ⟨b', hb', rfl⟩ := List.mem_map.1 hb
  have := h b' hb'
  cases b' with
  | periodic a => exact this
  | pml P => exact this

lemma Unwritten.step {g : FGrid K} {p : Pos} (h : Unwritten g p) : Unwritten g.step p := ⟨untouched_phiH (untouched_phiE h.1), h.2⟩

lemma Unwritten.run {g : FGrid K} {p : Pos} (h : Unwritten g p) (k : ℕ) : Unwritten (g.run k) p := by
  induction k with
  | zero => exact h
  | succ k ih => exact ih.step

lemma Unwritten.stepE {g : FGrid K} {p : Pos} (h : Unwritten g p) (c : Fin 3) : g.step.E p c = bulkE g p c + softSum g.sources g.time p c := by
  show applySourcesE g.time g.sources (applyBoundariesE g.n g.courant g.invEps g.phasedE (bulkE g)) p c = _
  rw [untouched_sourcesE _ _ _ _ _ h.2]
  exact congrArg (· + _) (untouched_boundariesE _ _ _ _ _ _ _ (untouched_phiE h.1))

lemma Unwritten.stepH {g : FGrid K} {p : Pos} (h : Unwritten g p) (c : Fin 3) : g.step.H p c = g.H p c - g.courant * g.invMu p c * curlE g.n g.step.E p c := by
  show applySourcesH g.time g.sources (applyBoundariesH g.n g.courant g.invMu (g.updateE.phasedH) (bulkH g.updateE)) p c = _
  rw [untouched_sourcesH _ _ _ _ _ h.2]
  exact untouched_boundariesH _ _ _ _ _ _ _ (untouched_phiH (untouched_phiE h.1))

/-- leap-frog energy in a box during the next step -/
def energyIn (lo hi : Pos) (g : FGrid K) : K :=
  ∑ p ∈ cuboid lo hi, ∑ c, (g.step.E p c ^ 2 / g.invEps p c + g.H p c * g.step.H p c / g.invMu p c)

/-- energy absorbed in a box between the next step and the one after it -/
def lossIn (lo hi : Pos) (g : FGrid K) : K :=
  ∑ p ∈ cuboid lo hi, ∑ c, g.absorb p c / g.invEps p c * (g.step.step.E p c + g.step.E p c) ^ 2

/-- work that the soft sources do in a box in that time -/
def workIn (lo hi : Pos) (g : FGrid K) : K :=
  ∑ p ∈ cuboid lo hi, ∑ c, (1 + g.absorb p c) / g.invEps p c * softSum g.sources (g.time + 1) p c * (g.step.step.E p c + g.step.E p c)

/-- energy that leaves a box through its surface in that time -/
def leavingIn (lo hi : Pos) (g : FGrid K) : K :=
  g.courant * outflow g.n lo hi (fun p c => g.step.step.E p c + g.step.E p c) g.step.H

/-- **C176.** Energy balance of a part of the grid: in a box of cells that no boundary layer and no plane source touches, from one step to the next the energy changes exactly by what leaves through the six sides of the box, by what is
absorbed and by the work of the sources in it. The rest of the grid may contain anything. -/
theorem C176_balance (g : FGrid K) (hr : Regular g) (lo hi : Pos) (hin : ∀ a, hi a ≤ g.n a) (hU : ∀ p ∈ cuboid lo hi, Unwritten g p) :
    energyIn lo hi g.step = energyIn lo hi g - lossIn lo hi g + workIn lo hi g - leavingIn lo hi g := by
  rw [leavingIn, ← sum_faces g.n lo hi hin, energyIn, energyIn, lossIn, workIn, ← Finset.sum_sub_distrib, ← Finset.sum_add_distrib, Finset.mul_sum, ← Finset.sum_sub_distrib]
  refine Finset.sum_congr rfl fun p hp => ?_
  have h0 := hU p hp
  have hcell := cell_faces g.n (fun p c => g.step.step.E p c + g.step.E p c) g.step.H p
  rw [← neg_eq_iff_eq_neg] at hcell
  rw [← hcell, mul_neg, sub_neg_eq_add, ← Finset.sum_sub_distrib, ← Finset.sum_add_distrib, Finset.mul_sum, ← Finset.sum_add_distrib]
  refine Finset.sum_congr rfl fun c _ => ?_
  have h1 := hr.eps p c
  have h2 := hr.mu p c
  have h3 := hr.abs p c
  have h4 : (1 + g.absorb p c) * g.step.step.E p c
      = (1 - g.absorb p c) * g.step.E p c + g.courant * g.invEps p c * curlH g.step.H p c + (1 + g.absorb p c) * softSum g.sources (g.time + 1) p c := by
    rw [h0.step.stepE c]
    show (1 + g.absorb p c) * (g.step.E p c * ((1 - g.absorb p c) / (1 + g.absorb p c))
      + g.courant * g.invEps p c * curlH g.step.H p c / (1 + g.absorb p c) + softSum g.sources (g.time + 1) p c) = _
    field_simp
  have h5 := h0.stepH c
  have h6 := h0.step.stepH c
  change g.step.step.H p c = g.step.H p c - g.courant * g.invMu p c * curlE g.n g.step.step.E p c at h6
  rw [curlE_add]
  show g.step.step.E p c ^ 2 / g.invEps p c + g.step.H p c * g.step.step.H p c / g.invMu p c = _
  field_simp
  linear_combination (g.step.step.E p c + g.step.E p c) * g.invMu p c * h4 + g.step.H p c * g.invEps p c * (h6 + h5)

/-- the same over a whole run -/
theorem C176_run (g : FGrid K) (hr : Regular g) (lo hi : Pos) (hin : ∀ a, hi a ≤ g.n a) (hU : ∀ p ∈ cuboid lo hi, Unwritten g p) (k : ℕ) :
    energyIn lo hi (g.run k) = energyIn lo hi g - ∑ j ∈ Finset.range k, lossIn lo hi (g.run j) + ∑ j ∈ Finset.range k, workIn lo hi (g.run j) - ∑ j ∈ Finset.range k, leavingIn lo hi (g.run j) := by
  induction k with
  | zero => simp [FGrid.run]
  | succ k ih =>
    have := C176_balance (g.run k) (hr.run k) lo hi (by rw [run_n]; exact hin) (fun p hp => (hU p hp).run k)
    rw [Finset.sum_range_succ, Finset.sum_range_succ, Finset.sum_range_succ]
    show energyIn lo hi (g.run k).step = _
    rw [this, ih]
    ring

/-- In a steady state (the fields in the box come back after `k` steps) what leaves the box in these steps is what the sources supply less what is absorbed; if there is neither in the box, as much leaves as enters. -/
theorem C176_steady (g : FGrid K) (hr : Regular g) (lo hi : Pos) (hin : ∀ a, hi a ≤ g.n a) (hU : ∀ p ∈ cuboid lo hi, Unwritten g p) (k : ℕ)
    (hback : ∀ p ∈ cuboid lo hi, ∀ c, (g.run (k + 1)).E p c = (g.run 1).E p c ∧ (g.run k).H p c = g.H p c ∧ (g.run (k + 1)).H p c = (g.run 1).H p c) :
    ∑ j ∈ Finset.range k, leavingIn lo hi (g.run j) = ∑ j ∈ Finset.range k, workIn lo hi (g.run j) - ∑ j ∈ Finset.range k, lossIn lo hi (g.run j) := by
  have h := C176_run g hr lo hi hin hU k
  have e : energyIn lo hi (g.run k) = energyIn lo hi g := by
    rw [energyIn, energyIn, run_invEps, run_invMu]
    refine Finset.sum_congr rfl fun p hp => Finset.sum_congr rfl fun c _ => ?_
    obtain ⟨h1, h2, h3⟩ := hback p hp c
    change (g.run k).step.E p c = g.step.E p c at h1
    change (g.run k).step.H p c = g.step.H p c at h3
    rw [h1, h2, h3]
  rw [e] at h
  linear_combination h

/-- What leaves a box through the side it shares with the next box enters that one: cut a box in two, and the outflow is the sum of the outflows. -/
theorem C176_adjoining (n lo hi : Pos) (hin : ∀ a, hi a ≤ n a) (a : Fin 3) (m : ℕ) (h1 : lo a ≤ m) (h2 : m ≤ hi a) (E H : VField K) :
    outflow n lo hi E H = outflow n lo (Function.update hi a m) E H + outflow n (Function.update lo a m) hi E H := by
  rw [← sum_faces n lo hi hin, ← sum_faces n lo _ (fun b => ?_), ← sum_faces n _ hi hin]
  · rw [← Finset.sum_filter_add_sum_filter_not (cuboid lo hi) (fun p => p a < m)]
    congr 1
    · refine Finset.sum_congr (Finset.ext fun p => ?_) fun _ _ => rfl
      rw [Finset.mem_filter, mem_cuboid, mem_cuboid]
      constructor
      · rintro ⟨h, hm⟩ b
        by_cases hb : b = a
        · subst hb; rw [Function.update_self]; exact ⟨(h b).1, hm⟩
        · rw [Function.update_of_ne hb]; exact h b
      · intro h
        have ha := h a
        rw [Function.update_self] at ha
        refine ⟨fun b => ?_, ha.2⟩
        by_cases hb : b = a
        · subst hb; exact ⟨ha.1, lt_of_lt_of_le ha.2 h2⟩
        · have := h b; rwa [Function.update_of_ne hb] at this
    · refine Finset.sum_congr (Finset.ext fun p => ?_) fun _ _ => rfl
      rw [Finset.mem_filter, mem_cuboid, mem_cuboid]
      constructor
      · rintro ⟨h, hm⟩ b
        by_cases hb : b = a
        · subst hb; rw [Function.update_self]; exact ⟨not_lt.1 hm, (h b).2⟩
        · rw [Function.update_of_ne hb]; exact h b
      · intro h
        have ha := h a
        rw [Function.update_self] at ha
        refine ⟨fun b => ?_, not_lt.2 ha.1⟩
        by_cases hb : b = a
        · subst hb; exact ⟨le_trans h1 ha.1, ha.2⟩
        · have := h b; rwa [Function.update_of_ne hb] at this
  · by_cases hb : b = a
    · subst hb; rw [Function.update_self]; exact le_trans h2 (hin b)
    · rw [Function.update_of_ne hb]; exact hin b

end

section
variable {K : Type} [Field K] [LinearOrder K] [IsStrictOrderedRing K]

/-- A part of the grid without sources that does not amplify gives out no more than the energy that was in it or came in: energy plus outflow never grows. -/
theorem C176_passive (g : FGrid K) (hr : Regular g) (he : ∀ p c, 0 < g.invEps p c) (ha : ∀ p c, 0 ≤ g.absorb p c) (lo hi : Pos) (hin : ∀ a, hi a ≤ g.n a) (hU : ∀ p ∈ cuboid lo hi, Unwritten g p)
    (hs : ∀ p ∈ cuboid lo hi, ∀ t c, softSum g.sources t p c = 0) (k : ℕ) :
    energyIn lo hi (g.run k) + ∑ j ∈ Finset.range k, leavingIn lo hi (g.run j) ≤ energyIn lo hi g := by
  have hw : ∑ j ∈ Finset.range k, workIn lo hi (g.run j) = 0 := Finset.sum_eq_zero fun j _ => Finset.sum_eq_zero fun p hp => Finset.sum_eq_zero fun c _ => by
    rw [run_sources, hs p hp, mul_zero, zero_mul]
  have hl : 0 ≤ ∑ j ∈ Finset.range k, lossIn lo hi (g.run j) := Finset.sum_nonneg fun j _ => Finset.sum_nonneg fun p _ => Finset.sum_nonneg fun c _ => by
    rw [run_absorb, run_invEps]
    have := he p c
    have := ha p c
    positivity
  have := C176_run g hr lo hi hin hU k
  rw [hw] at this
  linarith

end

/-- a periodic grid with a soft source in the cell (2, 2, 2) -/
def sparkGrid : FGrid ℚ :=
  { FGrid.fresh ![6, 6, 6] (1 / 2) 1 1 with
    boundaries := [.periodic 0, .periodic 1, .periodic 2]
    sources := [.soft fun _ p c => if p = ![2, 2, 2] ∧ c = 2 then 1 else 0] }

/-- the balance of the box of the cells 1 to 4 around the source -/
example : ∀ k, energyIn ![1, 1, 1] ![5, 5, 5] (sparkGrid.run k) = energyIn ![1, 1, 1] ![5, 5, 5] sparkGrid - ∑ j ∈ Finset.range k, lossIn ![1, 1, 1] ![5, 5, 5] (sparkGrid.run j) +
    ∑ j ∈ Finset.range k, workIn ![1, 1, 1] ![5, 5, 5] (sparkGrid.run j) - ∑ j ∈ Finset.range k, leavingIn ![1, 1, 1] ![5, 5, 5] (sparkGrid.run j) := by
  refine C176_run sparkGrid ⟨fun _ _ => by norm_num [sparkGrid, FGrid.fresh], fun _ _ => by norm_num [sparkGrid, FGrid.fresh], fun _ _ => by norm_num [sparkGrid, FGrid.fresh]⟩ _ _ (by decide) ?_
  intro p hp
  have h := mem_cuboid.1 hp
  have h0 := h 0
  have h1 := h 1
  have h2 := h 2
  simp at h0 h1 h2
  refine ⟨fun b hb => ?_, fun s hs => ?_⟩
  · simp only [sparkGrid, List.mem_cons, List.not_mem_nil, or_false] at hb
    rcases hb with rfl | rfl | rfl
    · exact ⟨h0.1, by show p 0 + 1 < 6; omega⟩
    · exact ⟨h1.1, by show p 1 + 1 < 6; omega⟩
    · exact ⟨h2.1, by show p 2 + 1 < 6; omega⟩
  · simp only [sparkGrid, List.mem_cons, List.not_mem_nil, or_false] at hs
    subst hs
    trivial

/-- in this grid the first step puts energy into the box (nothing in the balance is empty) -/
example : energyIn ![1, 1, 1] ![5, 5, 5] sparkGrid = 1 ∧ workIn ![1, 1, 1] ![5, 5, 5] sparkGrid = 2 := by decide +kernel

end Nidn
