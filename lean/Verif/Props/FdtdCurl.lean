/-
C45 (Gauss's laws) and C46 (adjointness of the two discrete curls).
-/
import Verif.Lemmas.FdtdField
import Mathlib.Tactic.NormNum

namespace Nidn

section
variable {K : Type} [Field K]

/-- outgoing flux of a vector field through the forward faces of a cell -/
def divUp (F : VField K) (p : Pos) : K := ∑ a, (F (p.up a) a - F p a)

/-- outgoing flux of a vector field through the backward faces of a cell -/
def divDn (F : VField K) (p : Pos) : K := ∑ a, (F p a - F (p.dn a) a)

lemma dUp_pos {n p : Pos} {a : Fin 3} (F : VField K) (c : Fin 3) (h : p a + 1 < n a) :
    dUp n F a c p = F (p.up a) c - F p c := if_pos h

lemma dDn_pos {p : Pos} {a : Fin 3} (F : VField K) (c : Fin 3) (h : 1 ≤ p a) :
    dDn F a c p = F p c - F (p.dn a) c := if_pos h

/-- C45: the divergence of `curl_E` vanishes in every cell having a next neighbour on each axis, for every field and shape. -/
theorem C45_curlE (n : Pos) (E : VField K) (p : Pos) (hp : ∀ a, p a + 1 < n a) :
    divUp (curlE n E) p = 0 := by
  have hu : ∀ a b : Fin 3, b ≠ a → (p.up a) b + 1 < n b := fun a b h => by
    rw [Pos.up_ne _ h]; exact hp b
  simp only [divUp, Fin.sum_univ_three, curlE]
  rw [dUp_pos E 2 (hu 0 1 (by decide)), dUp_pos E 1 (hu 0 2 (by decide)), dUp_pos E 2 (hp 1), dUp_pos E 1 (hp 2),
    dUp_pos E 0 (hu 1 2 (by decide)), dUp_pos E 2 (hu 1 0 (by decide)), dUp_pos E 0 (hp 2), dUp_pos E 2 (hp 0),
    dUp_pos E 1 (hu 2 0 (by decide)), dUp_pos E 0 (hu 2 1 (by decide)), dUp_pos E 1 (hp 0), dUp_pos E 0 (hp 1),
    Pos.up_comm p 1 0, Pos.up_comm p 2 0, Pos.up_comm p 2 1]
  ring

/-- C45: the divergence of `curl_H` vanishes in every cell having a previous neighbour on each axis. -/
theorem C45_curlH (H : VField K) (p : Pos) (hp : ∀ a, 1 ≤ p a) :
    divDn (curlH H) p = 0 := by
  have hu : ∀ a b : Fin 3, b ≠ a → 1 ≤ (p.dn a) b := fun a b h => by
    rw [Pos.dn_ne _ h]; exact hp b
  simp only [divDn, Fin.sum_univ_three, curlH]
  rw [dDn_pos H 2 (hu 0 1 (by decide)), dDn_pos H 1 (hu 0 2 (by decide)), dDn_pos H 2 (hp 1), dDn_pos H 1 (hp 2),
    dDn_pos H 0 (hu 1 2 (by decide)), dDn_pos H 2 (hu 1 0 (by decide)), dDn_pos H 0 (hp 2), dDn_pos H 2 (hp 0),
    dDn_pos H 1 (hu 2 0 (by decide)), dDn_pos H 0 (hu 2 1 (by decide)), dDn_pos H 1 (hp 0), dDn_pos H 0 (hp 1),
    Pos.dn_comm p 1 0, Pos.dn_comm p 2 0, Pos.dn_comm p 2 1]
  ring

/-- a cell whose magnetic field no boundary and no source assigns to -/
def QuietH (g : FGrid K) (q : Pos) : Prop :=
  (∀ b ∈ g.boundaries, ¬ b.touchesH g.n q) ∧ ∀ s ∈ g.sources, ¬ s.touchesH q

/-- a cell whose electric field no boundary and no source assigns to, and without absorption -/
def QuietE (g : FGrid K) (q : Pos) : Prop :=
  (∀ b ∈ g.boundaries, ¬ b.touchesE g.n q) ∧ (∀ s ∈ g.sources, ¬ s.touchesE q) ∧ ∀ c, g.absorb q c = 0

lemma QuietH.run {g : FGrid K} {q : Pos} (h : QuietH g q) (k : ℕ) : QuietH (g.run k) q := by
  refine ⟨?_, by rw [run_sources]; exact h.2⟩
  rw [run_n]
  refine run_boundaries_all (fun b => ¬ b.touchesH g.n q) g ?_ ?_ h.1 k
  · intro b H hb; rwa [FBoundary.touchesH_phiE]
  · intro b H hb; rwa [FBoundary.touchesH_phiH]

lemma QuietE.run {g : FGrid K} {q : Pos} (h : QuietE g q) (k : ℕ) : QuietE (g.run k) q := by
  refine ⟨?_, by rw [run_sources]; exact h.2.1, by rw [run_absorb]; exact h.2.2⟩
  rw [run_n]
  refine run_boundaries_all (fun b => ¬ b.touchesE g.n q) g ?_ ?_ h.1 k
  · intro b H hb; rwa [FBoundary.touchesE_phiE]
  · intro b H hb; rwa [FBoundary.touchesE_phiH]

lemma newE_quiet {g : FGrid K} {q : Pos} (h : QuietE g q) (c : Fin 3) :
    g.newE q c = g.E q c + g.courant * g.invEps q c * curlH g.H q c := by
  rw [FGrid.newE, applySourcesE_untouched _ _ _ _ h.2.1, applyBoundariesE_untouched]
  · simp [bulkE, h.2.2 c]
  · intro b hb
    simp only [FGrid.phasedE, List.mem_map] at hb
    obtain ⟨b', hb', rfl⟩ := hb
    rw [FBoundary.touchesE_phiE]; exact h.1 b' hb'

lemma newH_quiet {g : FGrid K} {q : Pos} (h : QuietH g q) (c : Fin 3) :
    g.newH q c = g.H q c - g.courant * g.invMu q c * curlE g.n g.E q c := by
  rw [FGrid.newH, applySourcesH_untouched _ _ _ _ h.2, applyBoundariesH_untouched]
  · rfl
  · intro b hb
    simp only [FGrid.phasedH, List.mem_map] at hb
    obtain ⟨b', hb', rfl⟩ := hb
    rw [FBoundary.touchesH_phiH]; exact h.1 b' hb'

lemma QuietH.updateE {g : FGrid K} {q : Pos} (h : QuietH g q) : QuietH g.updateE q := by
  refine ⟨?_, h.2⟩
  intro b hb
  change b ∈ g.phasedE at hb
  simp only [FGrid.phasedE, List.mem_map] at hb
  obtain ⟨b', hb', rfl⟩ := hb
  show ¬ FBoundary.touchesH g.n q _
  rw [FBoundary.touchesH_phiE]; exact h.1 b' hb'

/-- C45, magnetic Gauss law: around an interior cell where no boundary or source writes the magnetic field (sources and boundaries
may do anything elsewhere) the flux of `mu H` through the faces is the same after every number of steps. -/
theorem C45_gauss_H (g : FGrid K) (p : Pos) (hp : ∀ a, p a + 1 < g.n a)
    (hq : QuietH g p) (hqu : ∀ a, QuietH g (p.up a))
    (hmu : ∀ q c, g.invMu q c ≠ 0) (k : ℕ) :
    divUp (fun q c => (g.run k).H q c / g.invMu q c) p = divUp (fun q c => g.H q c / g.invMu q c) p := by
  induction k with
  | zero => rfl
  | succ k ih =>
    rw [← ih]
    have hcurl := C45_curlE g.n (g.run k).newE p hp
    have key : ∀ q c, QuietH g q → (g.run (k + 1)).H q c / g.invMu q c
        = (g.run k).H q c / g.invMu q c - g.courant * curlE g.n (g.run k).newE q c := by
      intro q c hqq
      show (g.run k).updateE.newH q c / _ = _
      rw [newH_quiet (hqq.run k).updateE]
      show ((g.run k).H q c - (g.run k).courant * (g.run k).invMu q c * curlE (g.run k).n (g.run k).newE q c) / _ = _
      rw [run_courant, run_invMu, run_n]
      have := hmu q c
      field_simp
    simp only [divUp] at hcurl ⊢
    simp only [Fin.sum_univ_three, key _ _ hq, key _ _ (hqu _)] at hcurl ⊢
    linear_combination (-g.courant) * hcurl

/-- C45, electric Gauss law: around an interior cell without absorption where no boundary or source writes the electric field the
flux of `eps E` through the faces is the same after every number of steps. -/
theorem C45_gauss_E (g : FGrid K) (p : Pos) (hp : ∀ a, 1 ≤ p a)
    (hq : QuietE g p) (hqu : ∀ a, QuietE g (p.dn a))
    (heps : ∀ q c, g.invEps q c ≠ 0) (k : ℕ) :
    divDn (fun q c => (g.run k).E q c / g.invEps q c) p = divDn (fun q c => g.E q c / g.invEps q c) p := by
  induction k with
  | zero => rfl
  | succ k ih =>
    rw [← ih]
    have hcurl := C45_curlH (g.run k).H p hp
    have key : ∀ q c, QuietE g q → (g.run (k + 1)).E q c / g.invEps q c
        = (g.run k).E q c / g.invEps q c + g.courant * curlH (g.run k).H q c := by
      intro q c hqq
      show (g.run k).newE q c / _ = _
      rw [newE_quiet (hqq.run k), run_courant, run_invEps]
      have := heps q c
      field_simp
    simp only [divDn] at hcurl ⊢
    simp only [Fin.sum_univ_three, key _ _ hq, key _ _ (hqu _)] at hcurl ⊢
    linear_combination g.courant * hcurl

/-- C45 for a fresh grid: whatever boundaries, sources and objects are added, `div (mu H)` stays zero around every interior cell they do
not write to. -/
theorem C45_fresh (g : FGrid K) (p : Pos) (hp : ∀ a, p a + 1 < g.n a) (h0 : ∀ q c, g.H q c = 0)
    (hq : QuietH g p) (hqu : ∀ a, QuietH g (p.up a)) (hmu : ∀ q c, g.invMu q c ≠ 0) (k : ℕ) :
    divUp (fun q c => (g.run k).H q c / g.invMu q c) p = 0 := by
  rw [C45_gauss_H g p hp hq hqu hmu k]
  simp [divUp, h0]

/-- a 4x4x4 grid with a soft source at (1,1,1), a periodic x boundary: the cell (1,1,1) is quiet for H, the cell (2,2,2) for E -/
example :
    let g : FGrid ℚ := { FGrid.fresh ![4, 4, 4] (1 / 2) 2 1 with
      boundaries := [.periodic 0]
      sources := [.soft fun t p c => if p = ![1, 1, 1] ∧ c = 2 then t + 1 else 0] }
    QuietH g ![1, 1, 1] ∧ (∀ a, QuietH g (Pos.up ![1, 1, 1] a)) ∧
      QuietE g ![3, 3, 3] ∧ (∀ a, QuietE g (Pos.dn ![3, 3, 3] a)) := by
  intro g
  refine ⟨⟨?_, ?_⟩, ?_, ⟨?_, ?_, fun _ => rfl⟩, ?_⟩
  · simp [g, FGrid.fresh, FBoundary.touchesH]
  · simp [g, FSource.touchesH]
  · intro a
    refine ⟨?_, by simp [g, FSource.touchesH]⟩
    fin_cases a <;> simp [g, FGrid.fresh, FBoundary.touchesH, Pos.up, Function.update]
  · simp [g, FBoundary.touchesE]
  · simp [g, FSource.touchesE]
  · intro a
    refine ⟨?_, ?_, fun _ => rfl⟩
    · fin_cases a <;> simp [g, FBoundary.touchesE, Pos.dn, Function.update]
    · have hne : Pos.dn ![3, 3, 3] a ≠ ![1, 1, 1] := by fin_cases a <;> decide
      simp [g, FSource.touchesE, hne]

/-! ### C46 -/

/-- sum of the componentwise products over all cells -/
def fieldInner (n : Pos) (F G : VField K) : K := ∑ p ∈ box n, ∑ c, F p c * G p c

/-- component of the cross product `E × H` along axis `a` (written with the cyclic successor of the axis) -/
def crossComp (E H : VField K) (a : Fin 3) (p : Pos) : K :=
  E p (a + 1) * H p (a + 2) - E p (a + 2) * H p (a + 1)

/-- flux of `E × H` out of the grid: last planes minus first planes, over the three axes -/
def boundaryFlux (n : Pos) (E H : VField K) : K :=
  ∑ a, (∑ p ∈ (box n).filter (fun p => p a + 1 = n a), crossComp E H a p
      - ∑ p ∈ (box n).filter (fun p => p a = 0), crossComp E H a p)

/-- C46: `<H, curl_E E> = <E, curl_H H> + (flux of E × H through the outermost planes)`, for all shapes and fields. -/
theorem C46_adjoint (n : Pos) (E H : VField K) :
    fieldInner n H (curlE n E) = fieldInner n E (curlH H) + boundaryFlux n E H := by
  have sbp : ∀ a c d : Fin 3, ∑ p ∈ box n, H p d * dUp n E a c p = -(∑ p ∈ box n, E p c * dDn H a d p)
      + (∑ p ∈ box n, (if p a + 1 = n a then E p c * H p d else 0)
        - ∑ p ∈ box n, (if p a = 0 then E p c * H p d else 0)) :=
    fun a c d => sum_by_parts n a (fun p => E p c) (fun p => H p d)
  have e1 : fieldInner n H (curlE n E) =
      ∑ p ∈ box n, H p 0 * dUp n E 1 2 p - ∑ p ∈ box n, H p 0 * dUp n E 2 1 p
      + (∑ p ∈ box n, H p 1 * dUp n E 2 0 p - ∑ p ∈ box n, H p 1 * dUp n E 0 2 p)
      + (∑ p ∈ box n, H p 2 * dUp n E 0 1 p - ∑ p ∈ box n, H p 2 * dUp n E 1 0 p) := by
    simp only [fieldInner, ← Finset.sum_sub_distrib, ← Finset.sum_add_distrib, Fin.sum_univ_three, curlE]
    exact Finset.sum_congr rfl fun p _ => by ring
  have e2 : fieldInner n E (curlH H) =
      ∑ p ∈ box n, E p 0 * dDn H 1 2 p - ∑ p ∈ box n, E p 0 * dDn H 2 1 p
      + (∑ p ∈ box n, E p 1 * dDn H 2 0 p - ∑ p ∈ box n, E p 1 * dDn H 0 2 p)
      + (∑ p ∈ box n, E p 2 * dDn H 0 1 p - ∑ p ∈ box n, E p 2 * dDn H 1 0 p) := by
    simp only [fieldInner, ← Finset.sum_sub_distrib, ← Finset.sum_add_distrib, Fin.sum_univ_three, curlH]
    exact Finset.sum_congr rfl fun p _ => by ring
  have e3 : ∀ (a c d : Fin 3) (Q : Pos → Prop) [DecidablePred Q],
      ∑ p ∈ (box n).filter Q, (E p c * H p d - E p d * H p c)
        = ∑ p ∈ box n, (if Q p then E p c * H p d else 0) - ∑ p ∈ box n, (if Q p then E p d * H p c else 0) := by
    intro a c d Q _
    rw [Finset.sum_sub_distrib, Finset.sum_filter, Finset.sum_filter]
  have e4 : boundaryFlux n E H =
      ((∑ p ∈ box n, (if p 0 + 1 = n 0 then E p 1 * H p 2 else 0) - ∑ p ∈ box n, (if p 0 + 1 = n 0 then E p 2 * H p 1 else 0))
      - (∑ p ∈ box n, (if p 0 = 0 then E p 1 * H p 2 else 0) - ∑ p ∈ box n, (if p 0 = 0 then E p 2 * H p 1 else 0)))
      + ((∑ p ∈ box n, (if p 1 + 1 = n 1 then E p 2 * H p 0 else 0) - ∑ p ∈ box n, (if p 1 + 1 = n 1 then E p 0 * H p 2 else 0))
      - (∑ p ∈ box n, (if p 1 = 0 then E p 2 * H p 0 else 0) - ∑ p ∈ box n, (if p 1 = 0 then E p 0 * H p 2 else 0)))
      + ((∑ p ∈ box n, (if p 2 + 1 = n 2 then E p 0 * H p 1 else 0) - ∑ p ∈ box n, (if p 2 + 1 = n 2 then E p 1 * H p 0 else 0))
      - (∑ p ∈ box n, (if p 2 = 0 then E p 0 * H p 1 else 0) - ∑ p ∈ box n, (if p 2 = 0 then E p 1 * H p 0 else 0))) := by
    simp only [boundaryFlux, Fin.sum_univ_three, crossComp]
    rw [← e3 0 1 2 (fun p => p 0 + 1 = n 0), ← e3 0 1 2 (fun p => p 0 = 0), ← e3 0 2 0 (fun p => p 1 + 1 = n 1),
      ← e3 0 2 0 (fun p => p 1 = 0), ← e3 0 0 1 (fun p => p 2 + 1 = n 2), ← e3 0 0 1 (fun p => p 2 = 0)]
    rfl
  rw [e1, e2, e4, sbp 1 2 0, sbp 2 1 0, sbp 2 0 1, sbp 0 2 1, sbp 0 1 2, sbp 1 0 2]
  ring

/-- C46: the extra terms involve only boundary cells: fields vanishing in the outermost planes make the curls exactly adjoint. -/
theorem C46_interior (n : Pos) (E H : VField K)
    (h : ∀ p ∈ box n, (∃ a, p a = 0 ∨ p a + 1 = n a) → ∀ c, E p c = 0) :
    fieldInner n H (curlE n E) = fieldInner n E (curlH H) := by
  rw [C46_adjoint, boundaryFlux]
  have h1 : ∀ a, ∑ p ∈ (box n).filter (fun p => p a + 1 = n a), crossComp E H a p = 0 := fun a =>
    Finset.sum_eq_zero fun p hp => by
      rw [Finset.mem_filter] at hp
      have := h p hp.1 ⟨a, Or.inr hp.2⟩
      simp [crossComp, this]
  have h2 : ∀ a, ∑ p ∈ (box n).filter (fun p => p a = 0), crossComp E H a p = 0 := fun a =>
    Finset.sum_eq_zero fun p hp => by
      rw [Finset.mem_filter] at hp
      have := h p hp.1 ⟨a, Or.inl hp.2⟩
      simp [crossComp, this]
  simp [h1, h2]

/-- the boundary term is not always zero: one cell pair along x -/
example : boundaryFlux ![2, 1, 1] (fun p c => if p 0 = 1 ∧ c = 1 then 1 else 0) (fun _ c => if c = 2 then (1 : ℚ) else 0) = 1 := by
  decide +kernel

end

end Nidn
