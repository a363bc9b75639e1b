/-
C47: energy of source-free propagation without periodic boundaries (for the periodic case see Props/FdtdTorusEnergy.lean).
-/
import Verif.Props.FdtdCurl
import Mathlib.Algebra.Order.BigOperators.Ring.Finset
import Mathlib.Tactic.Positivity

set_option linter.unusedSectionVars false

namespace Nidn

section
variable {K : Type} [Field K]

/-- leap-frog energy `sum eps E'^2 + sum mu H H'` of an electric field between two magnetic half steps -/
def leapEnergy (n : Pos) (invEps invMu E' H H' : VField K) : K :=
  ∑ p ∈ box n, ∑ c, (E' p c ^ 2 / invEps p c + H p c * H' p c / invMu p c)

/-- the leap-frog energy during the next step of a grid -/
def energyAt (g : FGrid K) : K := leapEnergy g.n g.invEps g.invMu g.step.E g.H g.step.H

/-- ohmic loss in two successive electric fields -/
def ohmicLoss (n : Pos) (invEps absorb E E' : VField K) : K :=
  ∑ p ∈ box n, ∑ c, absorb p c / invEps p c * (E' p c + E p c) ^ 2

lemma dUp_add (n : Pos) (F G : VField K) (a c : Fin 3) (p : Pos) :
    dUp n (fun q d => F q d + G q d) a c p = dUp n F a c p + dUp n G a c p := by
  unfold dUp; split_ifs <;> ring

lemma curlE_add (n : Pos) (F G : VField K) (p : Pos) (c : Fin 3) :
    curlE n (fun q d => F q d + G q d) p c = curlE n F p c + curlE n G p c := by
  fin_cases c <;> simp only [curlE, dUp_add] <;> ring

/-- a grid without boundaries and sources -/
def Bare (g : FGrid K) : Prop := g.boundaries = [] ∧ g.sources = []

lemma Bare.run {g : FGrid K} (h : Bare g) (k : ℕ) : Bare (g.run k) := by
  refine ⟨?_, by rw [run_sources]; exact h.2⟩
  induction k with
  | zero => exact h.1
  | succ k ih =>
    show ((g.run k).boundaries.map _).map _ = []
    rw [ih]; rfl

lemma Bare.stepE {g : FGrid K} (h : Bare g) : g.step.E = bulkE g := by
  show g.newE = _
  rw [FGrid.newE, FGrid.phasedE, h.1, h.2]; rfl

lemma Bare.stepH {g : FGrid K} (h : Bare g) (p : Pos) (c : Fin 3) :
    g.step.H p c = g.H p c - g.courant * g.invMu p c * curlE g.n g.step.E p c := by
  show g.updateE.newH p c = _
  have h1 : g.updateE.boundaries = [] := by show g.boundaries.map _ = []; rw [h.1]; rfl
  have h2 : g.updateE.sources = [] := h.2
  rw [FGrid.newH, FGrid.phasedH, h1, h2]; rfl

/-- the numbers a step divides by are not zero -/
structure Regular (g : FGrid K) : Prop where
  eps : ∀ p c, g.invEps p c ≠ 0
  mu : ∀ p c, g.invMu p c ≠ 0
  abs : ∀ p c, 1 + g.absorb p c ≠ 0

lemma Regular.run {g : FGrid K} (h : Regular g) (k : ℕ) : Regular (g.run k) :=
  ⟨by rw [run_invEps]; exact h.eps, by rw [run_invMu]; exact h.mu, by rw [run_absorb]; exact h.abs⟩

/-- C47, discrete Poynting theorem: without boundaries and sources, in any number of dimensions, the leap-frog energy changes from one step to the next
exactly by the ohmic loss and by the flux of `E × H` through the outermost planes. -/
theorem C47_balance (g : FGrid K) (hb : Bare g) (hr : Regular g) :
    energyAt g.step = energyAt g - ohmicLoss g.n g.invEps g.absorb g.step.E g.step.step.E
      - g.courant * boundaryFlux g.n (fun p c => g.step.step.E p c + g.step.E p c) g.step.H := by
  have hb1 : Bare g.step := hb.run 1
  have adj := C46_adjoint g.n (fun p c => g.step.step.E p c + g.step.E p c) g.step.H
  have eE : ∀ p c, g.step.step.E p c ^ 2 / g.invEps p c = g.step.E p c ^ 2 / g.invEps p c
      - g.absorb p c / g.invEps p c * (g.step.step.E p c + g.step.E p c) ^ 2
      + g.courant * ((g.step.step.E p c + g.step.E p c) * curlH g.step.H p c) := by
    intro p c
    have h1 := hr.eps p c
    have h3 := hr.abs p c
    have h4 : (1 + g.absorb p c) * g.step.step.E p c
        = (1 - g.absorb p c) * g.step.E p c + g.courant * g.invEps p c * curlH g.step.H p c := by
      rw [hb1.stepE]
      show (1 + g.absorb p c) * (g.step.E p c * ((1 - g.absorb p c) / (1 + g.absorb p c))
        + g.courant * g.invEps p c * curlH g.step.H p c / (1 + g.absorb p c)) = _
      field_simp
    field_simp
    linear_combination (g.step.step.E p c + g.step.E p c) * h4
  have eH : ∀ p c, g.step.H p c * g.step.step.H p c / g.invMu p c = g.H p c * g.step.H p c / g.invMu p c
      - g.courant * (g.step.H p c * curlE g.n (fun p c => g.step.step.E p c + g.step.E p c) p c) := by
    intro p c
    have h1 := hr.mu p c
    have h2 := hb.stepH p c
    have h3 := hb1.stepH p c
    rw [curlE_add]
    change g.step.step.H p c = g.step.H p c - g.courant * g.invMu p c * curlE g.n g.step.step.E p c at h3
    field_simp
    linear_combination g.step.H p c * h3 + g.step.H p c * h2
  have lhs : energyAt g.step = energyAt g - ohmicLoss g.n g.invEps g.absorb g.step.E g.step.step.E
      + g.courant * (fieldInner g.n (fun p c => g.step.step.E p c + g.step.E p c) (curlH g.step.H)
      - fieldInner g.n g.step.H (curlE g.n (fun p c => g.step.step.E p c + g.step.E p c))) := by
    unfold energyAt leapEnergy ohmicLoss fieldInner
    rw [← Finset.sum_sub_distrib, ← Finset.sum_sub_distrib, Finset.mul_sum, ← Finset.sum_add_distrib]
    refine Finset.sum_congr rfl fun p _ => ?_
    rw [← Finset.sum_sub_distrib, ← Finset.sum_sub_distrib, Finset.mul_sum, ← Finset.sum_add_distrib]
    refine Finset.sum_congr rfl fun c _ => ?_
    show g.step.step.E p c ^ 2 / g.invEps p c + g.step.H p c * g.step.step.H p c / g.invMu p c = _
    rw [eE, eH]; ring
  rw [lhs, adj]; ring

/-- one-dimensional configuration along x -/
def OneDim (g : FGrid K) : Prop := g.n 1 = 1 ∧ g.n 2 = 1

/-- dark edges: no tangential electric field in the first plane, no tangential magnetic field in the last one (true of every
freshly constructed grid) -/
def DarkEdges (g : FGrid K) : Prop :=
  (∀ p ∈ box g.n, p 0 = 0 → g.E p 1 = 0 ∧ g.E p 2 = 0) ∧ (∀ p ∈ box g.n, p 0 + 1 = g.n 0 → g.H p 1 = 0 ∧ g.H p 2 = 0)

lemma OneDim.pos {g : FGrid K} (h : OneDim g) {p : Pos} (hp : p ∈ box g.n) : p 1 = 0 ∧ p 2 = 0 := by
  have h1 := mem_box.mp hp 1
  have h2 := mem_box.mp hp 2
  rw [h.1] at h1
  rw [h.2] at h2
  omega

lemma oneDim_curlH {g : FGrid K} (h : OneDim g) (H : VField K) {p : Pos} (hp : p ∈ box g.n) :
    curlH H p 0 = 0 ∧ curlH H p 1 = -dDn H 0 2 p ∧ curlH H p 2 = dDn H 0 1 p := by
  obtain ⟨h1, h2⟩ := h.pos hp
  have d1 : ∀ c, dDn H 1 c p = 0 := fun c => by simp [dDn, h1]
  have d2 : ∀ c, dDn H 2 c p = 0 := fun c => by simp [dDn, h2]
  simp [curlH, d1, d2]

lemma oneDim_curlE {g : FGrid K} (h : OneDim g) (E : VField K) {p : Pos} (hp : p ∈ box g.n) :
    curlE g.n E p 0 = 0 ∧ curlE g.n E p 1 = -dUp g.n E 0 2 p ∧ curlE g.n E p 2 = dUp g.n E 0 1 p := by
  obtain ⟨h1, h2⟩ := h.pos hp
  have d1 : ∀ c, dUp g.n E 1 c p = 0 := fun c => by simp [dUp, h1, h.1]
  have d2 : ∀ c, dUp g.n E 2 c p = 0 := fun c => by simp [dUp, h2, h.2]
  simp [curlE, d1, d2]

lemma darkEdges_step {g : FGrid K} (hb : Bare g) (h1 : OneDim g) (hd : DarkEdges g) : DarkEdges g.step := by
  constructor
  · intro p hp h0
    obtain ⟨-, c1, c2⟩ := oneDim_curlH h1 g.H hp
    have hz : ∀ c, dDn g.H 0 c p = 0 := fun c => by simp [dDn, h0]
    obtain ⟨e1, e2⟩ := hd.1 p hp h0
    rw [hb.stepE]
    simp [bulkE, c1, c2, hz, e1, e2]
  · intro p hp h0
    change p 0 + 1 = g.n 0 at h0
    obtain ⟨-, c1, c2⟩ := oneDim_curlE h1 g.step.E hp
    have hz : ∀ c, dUp g.n g.step.E 0 c p = 0 := fun c => by simp [dUp, h0]
    obtain ⟨e1, e2⟩ := hd.2 p hp h0
    rw [hb.stepH, hb.stepH]
    simp [c1, c2, hz, e1, e2]

lemma darkEdges_run {g : FGrid K} (hb : Bare g) (h1 : OneDim g) (hd : DarkEdges g) (k : ℕ) : DarkEdges (g.run k) := by
  induction k with
  | zero => exact hd
  | succ k ih => exact darkEdges_step (hb.run k) (by rw [OneDim, run_n]; exact h1) ih

lemma boundaryFlux_dark {n : Pos} (h1 : n 1 = 1) (h2 : n 2 = 1) (E H : VField K)
    (hE : ∀ p ∈ box n, p 0 = 0 → E p 1 = 0 ∧ E p 2 = 0) (hH : ∀ p ∈ box n, p 0 + 1 = n 0 → H p 1 = 0 ∧ H p 2 = 0) :
    boundaryFlux n E H = 0 := by
  have f1 : (box n).filter (fun p => p 1 + 1 = n 1) = (box n).filter (fun p => p 1 = 0) := by
    refine Finset.filter_congr fun p _ => ?_
    rw [h1]; omega
  have f2 : (box n).filter (fun p => p 2 + 1 = n 2) = (box n).filter (fun p => p 2 = 0) := by
    refine Finset.filter_congr fun p _ => ?_
    rw [h2]; omega
  have a0 : ∑ p ∈ (box n).filter (fun p => p 0 + 1 = n 0), crossComp E H 0 p = 0 := Finset.sum_eq_zero fun p hp => by
    rw [Finset.mem_filter] at hp
    obtain ⟨e1, e2⟩ := hH p hp.1 hp.2
    show E p 1 * H p 2 - E p 2 * H p 1 = 0
    rw [e1, e2]; ring
  have a1 : ∑ p ∈ (box n).filter (fun p => p 0 = 0), crossComp E H 0 p = 0 := Finset.sum_eq_zero fun p hp => by
    rw [Finset.mem_filter] at hp
    obtain ⟨e1, e2⟩ := hE p hp.1 hp.2
    show E p 1 * H p 2 - E p 2 * H p 1 = 0
    rw [e1, e2]; ring
  simp only [boundaryFlux, Fin.sum_univ_three]
  rw [f1, f2, a0, a1]; ring

lemma energy_step_1d {g : FGrid K} (hb : Bare g) (hr : Regular g) (h1 : OneDim g) (hd : DarkEdges g) :
    energyAt g.step = energyAt g - ohmicLoss g.n g.invEps g.absorb g.step.E g.step.step.E := by
  rw [C47_balance g hb hr, boundaryFlux_dark h1.1 h1.2, mul_zero, sub_zero]
  · intro p hp h0
    obtain ⟨a1, a2⟩ := (darkEdges_run hb h1 hd 1).1 p hp h0
    obtain ⟨b1, b2⟩ := (darkEdges_run hb h1 hd 2).1 p hp h0
    change g.step.E p 1 = 0 at a1
    change g.step.E p 2 = 0 at a2
    change g.step.step.E p 1 = 0 at b1
    change g.step.step.E p 2 = 0 at b2
    rw [a1, a2, b1, b2]; simp
  · exact (darkEdges_run hb h1 hd 1).2

/-- C47, conservation: a one-dimensional grid with any permittivity and permeability profile and any number of cells, without conductivity, has
exactly the same leap-frog energy after every number of steps. -/
theorem C47_conserved (g : FGrid K) (hb : Bare g) (hr : Regular g) (h1 : OneDim g) (hd : DarkEdges g)
    (ha : ∀ p c, g.absorb p c = 0) (k : ℕ) : energyAt (g.run k) = energyAt g := by
  induction k with
  | zero => rfl
  | succ k ih =>
    rw [← ih]
    show energyAt (g.run k).step = _
    rw [energy_step_1d (hb.run k) (hr.run k) (by rw [OneDim, run_n]; exact h1) (darkEdges_run hb h1 hd k)]
    simp [ohmicLoss, run_absorb, ha]

end

section
variable {K : Type} [Field K] [LinearOrder K] [IsStrictOrderedRing K]

/-- C47, dissipation: with non-negative conductivity the leap-frog energy never increases. -/
theorem C47_dissipative (g : FGrid K) (hb : Bare g) (hr : Regular g) (h1 : OneDim g) (hd : DarkEdges g)
    (he : ∀ p c, 0 < g.invEps p c) (ha : ∀ p c, 0 ≤ g.absorb p c) (k : ℕ) :
    energyAt (g.run (k + 1)) ≤ energyAt (g.run k) := by
  show energyAt (g.run k).step ≤ _
  rw [energy_step_1d (hb.run k) (hr.run k) (by rw [OneDim, run_n]; exact h1) (darkEdges_run hb h1 hd k)]
  have : 0 ≤ ohmicLoss (g.run k).n (g.run k).invEps (g.run k).absorb (g.run k).step.E (g.run k).step.step.E := by
    rw [run_n, run_invEps, run_absorb]
    refine Finset.sum_nonneg fun p _ => Finset.sum_nonneg fun c _ => ?_
    have := he p c
    have := ha p c
    positivity
  linarith

lemma sum_dUp_sq (n : Pos) (F : VField K) (a c : Fin 3) :
    ∑ p ∈ box n, dUp n F a c p ^ 2 ≤ 4 * ∑ p ∈ box n, F p c ^ 2 := by
  have e1 : ∑ p ∈ box n, dUp n F a c p ^ 2 ≤ ∑ p ∈ box n, (if p a + 1 < n a then 2 * F (p.up a) c ^ 2 else 0)
      + ∑ p ∈ box n, 2 * F p c ^ 2 := by
    rw [← Finset.sum_add_distrib]
    refine Finset.sum_le_sum fun p _ => ?_
    unfold dUp
    split_ifs
    · nlinarith [sq_nonneg (F (p.up a) c + F p c)]
    · nlinarith [sq_nonneg (F p c)]
  have e2 := sum_shift n a (fun _ q => 2 * F q c ^ 2)
  have e3 : ∑ p ∈ box n, (if 1 ≤ p a then 2 * F p c ^ 2 else 0) ≤ ∑ p ∈ box n, 2 * F p c ^ 2 := by
    refine Finset.sum_le_sum fun p _ => ?_
    split_ifs
    · exact le_refl _
    · positivity
  rw [e2] at e1
  rw [← Finset.mul_sum] at e1 e3
  linarith

/-- total squared field -/
def fieldSq (n : Pos) (F : VField K) : K := ∑ p ∈ box n, ∑ c, F p c ^ 2

lemma fieldSq_nonneg (n : Pos) (F : VField K) : 0 ≤ fieldSq n F :=
  Finset.sum_nonneg fun _ _ => Finset.sum_nonneg fun _ _ => sq_nonneg _

lemma fieldSq_eq (n : Pos) (F : VField K) : fieldSq n F = ∑ c, ∑ p ∈ box n, F p c ^ 2 := Finset.sum_comm

lemma curlE_sq_1d {g : FGrid K} (h1 : OneDim g) (F : VField K) : fieldSq g.n (curlE g.n F) ≤ 4 * fieldSq g.n F := by
  have e : fieldSq g.n (curlE g.n F) = ∑ p ∈ box g.n, dUp g.n F 0 2 p ^ 2 + ∑ p ∈ box g.n, dUp g.n F 0 1 p ^ 2 := by
    rw [← Finset.sum_add_distrib]
    refine Finset.sum_congr rfl fun p hp => ?_
    obtain ⟨c0, c1, c2⟩ := oneDim_curlE h1 F hp
    rw [Fin.sum_univ_three, c0, c1, c2]; ring
  rw [e, fieldSq_eq, Fin.sum_univ_three]
  have h2 := sum_dUp_sq g.n F 0 2
  have h3 := sum_dUp_sq g.n F 0 1
  have h4 : 0 ≤ ∑ p ∈ box g.n, F p 0 ^ 2 := Finset.sum_nonneg fun _ _ => sq_nonneg _
  linarith

/-- the leap-frog energy controls the fields if `c^2 |curl|^2 <= 4 c^2 D |E|^2` with `c^2 D < 1` -/
lemma energy_controls (n : Pos) (invEps invMu E' H H' : VField K) (co D : K) (C : VField K)
    (hH : ∀ p ∈ box n, ∀ c, H' p c = H p c - co * invMu p c * C p c)
    (hC : fieldSq n C ≤ 4 * D * fieldSq n E') (hD : co ^ 2 * D < 1) (hD0 : 0 ≤ D)
    (he : ∀ p ∈ box n, ∀ c, 0 < invEps p c ∧ invEps p c ≤ 1) (hm : ∀ p ∈ box n, ∀ c, 0 < invMu p c ∧ invMu p c ≤ 1) :
    (1 - co ^ 2 * D) * fieldSq n E' ≤ leapEnergy n invEps invMu E' H H' ∧
    (1 - co ^ 2 * D) * fieldSq n H' ≤ 2 * leapEnergy n invEps invMu E' H H' := by
  set S := fieldSq n E' with hS
  set W := leapEnergy n invEps invMu E' H H' with hW
  set B := ∑ p ∈ box n, ∑ c, ((H p c + H' p c) / 2) ^ 2 with hB
  have hS0 : 0 ≤ S := fieldSq_nonneg _ _
  have hB0 : 0 ≤ B := Finset.sum_nonneg fun _ _ => Finset.sum_nonneg fun _ _ => sq_nonneg _
  -- lower bound of the energy
  have low : S + B - co ^ 2 / 4 * fieldSq n C ≤ W := by
    have : S + B - co ^ 2 / 4 * fieldSq n C
        = ∑ p ∈ box n, ∑ c, (E' p c ^ 2 + ((H p c + H' p c) / 2) ^ 2 - co ^ 2 / 4 * C p c ^ 2) := by
      simp only [hS, hB, fieldSq, Finset.sum_sub_distrib, Finset.sum_add_distrib, Finset.mul_sum]
    rw [this]
    refine Finset.sum_le_sum fun p hp => Finset.sum_le_sum fun c _ => ?_
    obtain ⟨he0, he1⟩ := he p hp c
    obtain ⟨hm0, hm1⟩ := hm p hp c
    have t1 : E' p c ^ 2 ≤ E' p c ^ 2 / invEps p c := le_div_self (sq_nonneg _) he0 he1
    have t2 : H p c * H' p c / invMu p c = ((H p c + H' p c) / 2) ^ 2 / invMu p c - co ^ 2 / 4 * invMu p c * C p c ^ 2 := by
      have e := hH p hp c
      have hne := hm0.ne'
      field_simp
      rw [e]; ring
    have t3 : ((H p c + H' p c) / 2) ^ 2 ≤ ((H p c + H' p c) / 2) ^ 2 / invMu p c := le_div_self (sq_nonneg _) hm0 hm1
    have t4 : co ^ 2 / 4 * invMu p c * C p c ^ 2 ≤ co ^ 2 / 4 * C p c ^ 2 := by
      have h5 : 0 ≤ co ^ 2 / 4 * C p c ^ 2 := by positivity
      nlinarith
    rw [t2]; linarith
  have hcC : co ^ 2 / 4 * fieldSq n C ≤ co ^ 2 * D * S := by
    have := mul_le_mul_of_nonneg_left hC (by positivity : (0 : K) ≤ co ^ 2 / 4)
    linarith
  have up : fieldSq n H' ≤ 2 * B + co ^ 2 / 2 * fieldSq n C := by
    have : 2 * B + co ^ 2 / 2 * fieldSq n C
        = ∑ p ∈ box n, ∑ c, (2 * ((H p c + H' p c) / 2) ^ 2 + co ^ 2 / 2 * C p c ^ 2) := by
      simp only [hB, fieldSq, Finset.sum_add_distrib, Finset.mul_sum]
    rw [this]
    refine Finset.sum_le_sum fun p hp => Finset.sum_le_sum fun c _ => ?_
    obtain ⟨hm0, hm1⟩ := hm p hp c
    have e := hH p hp c
    have e' : H' p c = (H p c + H' p c) / 2 - co / 2 * invMu p c * C p c := by rw [e]; ring
    have h1 : H' p c ^ 2 ≤ 2 * ((H p c + H' p c) / 2) ^ 2 + 2 * (co / 2 * invMu p c * C p c) ^ 2 := by
      have gen : ∀ x m d : K, x = m - d → x ^ 2 ≤ 2 * m ^ 2 + 2 * d ^ 2 := by
        rintro x m d rfl
        nlinarith [sq_nonneg (m + d)]
      exact gen _ _ _ e'
    have h2 : (co / 2 * invMu p c * C p c) ^ 2 ≤ (co / 2 * C p c) ^ 2 := by
      have h3 : (co / 2 * invMu p c * C p c) ^ 2 = (co / 2 * C p c) ^ 2 * invMu p c ^ 2 := by ring
      have h4 : invMu p c ^ 2 ≤ 1 := by nlinarith
      rw [h3]
      nlinarith [sq_nonneg (co / 2 * C p c)]
    nlinarith
  have hcD : 0 ≤ co ^ 2 * D := by positivity
  constructor
  · linarith
  · have k1 : (1 - co ^ 2 * D) * S + B ≤ W := by linarith
    have k2 : fieldSq n H' ≤ 2 * B + 2 * (co ^ 2 * D) * S := by linarith
    have k3 : (1 - co ^ 2 * D) * fieldSq n H' ≤ (1 - co ^ 2 * D) * (2 * B + 2 * (co ^ 2 * D) * S) :=
      mul_le_mul_of_nonneg_left k2 (by linarith)
    have k4 : (co ^ 2 * D) * ((1 - co ^ 2 * D) * S) ≤ (co ^ 2 * D) * (W - B) := mul_le_mul_of_nonneg_left (by linarith) hcD
    have k5 : (co ^ 2 * D) * (W - B) ≤ W - B := by
      have : 0 ≤ W - B := by nlinarith
      nlinarith
    nlinarith

/-- materials at least as dense as vacuum -/
def DenserThanVacuum (g : FGrid K) : Prop :=
  (∀ p c, 0 < g.invEps p c ∧ g.invEps p c ≤ 1) ∧ ∀ p c, 0 < g.invMu p c ∧ g.invMu p c ≤ 1

/-- C47, stability: a one-dimensional grid (Courant number below the limit 1, relative permittivity and permeability at least 1, any non-negative conductivity) keeps
its fields bounded forever by the initial energy: `(1 - c^2) sum E^2 <= W`, `(1 - c^2) sum H^2 <= 2 W` after every number of steps. -/
theorem C47_bounded (g : FGrid K) (hb : Bare g) (h1 : OneDim g) (hd : DarkEdges g) (hv : DenserThanVacuum g)
    (ha : ∀ p c, 0 ≤ g.absorb p c) (hc : g.courant ^ 2 < 1) (k : ℕ) :
    (1 - g.courant ^ 2) * fieldSq g.n (g.run (k + 1)).E ≤ energyAt g ∧
    (1 - g.courant ^ 2) * fieldSq g.n (g.run (k + 1)).H ≤ 2 * energyAt g := by
  have hr : Regular g := ⟨fun p c => (hv.1 p c).1.ne', fun p c => (hv.2 p c).1.ne', fun p c => by have := ha p c; positivity⟩
  have mono : energyAt (g.run k) ≤ energyAt g := by
    induction k with
    | zero => exact le_refl _
    | succ k ih => exact (C47_dissipative g hb hr h1 hd (fun p c => (hv.1 p c).1) ha k).trans ih
  have h1k : OneDim (g.run k) := by rw [OneDim, run_n]; exact h1
  have := energy_controls g.n g.invEps g.invMu (g.run (k + 1)).E (g.run k).H (g.run (k + 1)).H g.courant 1
    (curlE g.n (g.run (k + 1)).E) (fun p _ c => ?_) ?_ (by linarith) zero_le_one (fun p _ c => hv.1 p c) (fun p _ c => hv.2 p c)
  · rw [mul_one] at this
    have e : leapEnergy g.n g.invEps g.invMu (g.run (k + 1)).E (g.run k).H (g.run (k + 1)).H = energyAt (g.run k) := by
      unfold energyAt
      rw [run_n, run_invEps, run_invMu]; rfl
    rw [e] at this
    exact ⟨this.1.trans mono, this.2.trans (by linarith)⟩
  · have := (hb.run k).stepH p c
    rw [run_courant, run_invMu, run_n] at this
    exact this
  · have := curlE_sq_1d h1k (g.run (k + 1)).E
    rw [run_n] at this
    linarith

end

section
variable {K : Type} [Field K]

/-- add constants to the field components -/
def FGrid.lift (g : FGrid K) (e h : Fin 3 → K) : FGrid K :=
  { g with E := fun p c => g.E p c + e c, H := fun p c => g.H p c + h c }

lemma curlE_const (n : Pos) (F : VField K) (e : Fin 3 → K) (p : Pos) (c : Fin 3) :
    curlE n (fun q d => F q d + e d) p c = curlE n F p c := by
  have : ∀ a d, dUp n (fun q d => F q d + e d) a d p = dUp n F a d p := fun a d => by unfold dUp; split_ifs <;> ring
  fin_cases c <;> simp only [curlE, this]

lemma curlH_const (F : VField K) (e : Fin 3 → K) (p : Pos) (c : Fin 3) :
    curlH (fun q d => F q d + e d) p c = curlH F p c := by
  have : ∀ a d, dDn (fun q d => F q d + e d) a d p = dDn F a d p := fun a d => by unfold dDn; split_ifs <;> ring
  fin_cases c <;> simp only [curlH, this]

/-- C47: without conductivity constants ride along unchanged; so any initial field can be reduced to dark edges by subtracting its edge values. -/
theorem C47_lift (g : FGrid K) (hb : Bare g) (ha : ∀ p c, g.absorb p c = 0) (e h : Fin 3 → K) (k : ℕ) :
    (∀ p c, ((g.lift e h).run k).E p c = (g.run k).E p c + e c) ∧ ∀ p c, ((g.lift e h).run k).H p c = (g.run k).H p c + h c := by
  induction k with
  | zero => exact ⟨fun _ _ => rfl, fun _ _ => rfl⟩
  | succ k ih =>
    have hbl : Bare (g.lift e h) := hb
    have hE : ∀ p c, ((g.lift e h).run k).step.E p c = (g.run k).step.E p c + e c := by
      intro p c
      rw [(hbl.run k).stepE, (hb.run k).stepE]
      have hH : ((g.lift e h).run k).H = fun p c => (g.run k).H p c + h c := by funext p c; exact ih.2 p c
      simp only [bulkE, hH, curlH_const, run_absorb, run_courant, run_invEps, ih.1]
      simp [FGrid.lift, ha]
      ring
    refine ⟨hE, fun p c => ?_⟩
    show ((g.lift e h).run k).step.H p c = (g.run k).step.H p c + h c
    rw [(hbl.run k).stepH, (hb.run k).stepH]
    have hE' : ((g.lift e h).run k).step.E = fun p c => (g.run k).step.E p c + e c := by funext p c; exact hE p c
    rw [hE', curlE_const, ih.2, run_courant, run_invMu, run_n, run_courant, run_invMu, run_n]
    simp only [FGrid.lift]
    ring

end

section
variable {K : Type} [Field K] [LinearOrder K] [IsStrictOrderedRing K]

/-- C47, stability for every initial field (no conductivity): relative to the values frozen at the edges, the fields are bounded forever by a constant
determined by the initial state. -/
theorem C47_bounded_any (g : FGrid K) (hb : Bare g) (h1 : OneDim g) (hv : DenserThanVacuum g)
    (ha : ∀ p c, g.absorb p c = 0) (hc : g.courant ^ 2 < 1) :
    ∃ W : K, ∀ k, fieldSq g.n (fun p c => (g.run (k + 1)).E p c - g.E (fun _ => 0) c) ≤ W ∧
      fieldSq g.n (fun p c => (g.run (k + 1)).H p c - g.H (Function.update (fun _ => 0) 0 (g.n 0 - 1)) c) ≤ W := by
  set e : Fin 3 → K := fun c => -g.E (fun _ => 0) c with he
  set h : Fin 3 → K := fun c => -g.H (Function.update (fun _ => 0) 0 (g.n 0 - 1)) c with hh
  have hd : DarkEdges (g.lift e h) := by
    constructor
    · intro p hp h0
      have hp0 : p = fun _ => 0 := by
        funext b
        obtain ⟨q1, q2⟩ := h1.pos (g := g) hp
        fin_cases b
        · exact h0
        · exact q1
        · exact q2
      subst hp0
      simp [FGrid.lift, he]
    · intro p hp h0
      change p 0 + 1 = g.n 0 at h0
      have hp0 : p = Function.update (fun _ => 0) 0 (g.n 0 - 1) := by
        funext b
        obtain ⟨q1, q2⟩ := h1.pos (g := g) hp
        fin_cases b
        · show p 0 = g.n 0 - 1
          omega
        · exact q1
        · exact q2
      rw [hp0]
      simp [FGrid.lift, hh]
  have hpos : 0 < 1 - g.courant ^ 2 := by linarith
  have key := C47_bounded (g.lift e h) hb h1 hd hv (fun p c => (ha p c).symm.le) hc
  refine ⟨2 * energyAt (g.lift e h) / (1 - g.courant ^ 2), fun k => ?_⟩
  obtain ⟨kE, kH⟩ := key k
  have hl := C47_lift g hb ha e h (k + 1)
  have eE : ((g.lift e h).run (k + 1)).E = fun p c => (g.run (k + 1)).E p c - g.E (fun _ => 0) c := by
    funext p c; rw [hl.1]; simp only [he]; ring
  have eH : ((g.lift e h).run (k + 1)).H
      = fun p c => (g.run (k + 1)).H p c - g.H (Function.update (fun _ => 0) 0 (g.n 0 - 1)) c := by
    funext p c; rw [hl.2]; simp only [hh]; ring
  rw [eE] at kE
  rw [eH] at kH
  change (1 - g.courant ^ 2) * fieldSq g.n _ ≤ _ at kE
  change (1 - g.courant ^ 2) * fieldSq g.n _ ≤ _ at kH
  have hE0 : 0 ≤ energyAt (g.lift e h) := by
    have := mul_nonneg hpos.le (fieldSq_nonneg g.n (fun p c => (g.run (k + 1)).E p c - g.E (fun _ => 0) c))
    linarith
  rw [le_div_iff₀ hpos, le_div_iff₀ hpos]
  constructor <;> linarith

/-- a four-cell grid with a dielectric in the second half, an initial pulse and the default 1-D Courant number meets all hypotheses; its energy is not zero -/
example : ∃ g : FGrid ℚ, Bare g ∧ Regular g ∧ OneDim g ∧ DarkEdges g ∧ DenserThanVacuum g ∧ (∀ p c, g.absorb p c = 0) ∧
    g.courant ^ 2 < 1 ∧ energyAt g ≠ 0 := by
  refine ⟨{ FGrid.fresh ![4, 1, 1] (99 / 100) 1 1 with
    invEps := fun p _ => if p 0 < 2 then 1 else 1 / 4
    E := fun p c => if p 0 = 1 ∧ c = 2 then 1 else 0 }, ⟨rfl, rfl⟩, ⟨?_, ?_, ?_⟩, ⟨rfl, rfl⟩, ⟨?_, ?_⟩, ⟨?_, ?_⟩, fun _ _ => rfl, ?_, ?_⟩
  · intro p c
    show (if p 0 < 2 then (1 : ℚ) else 1 / 4) ≠ 0
    split_ifs <;> norm_num
  · intro p c; show (1 / 1 : ℚ) ≠ 0; norm_num
  · intro p c; show (1 + 0 : ℚ) ≠ 0; norm_num
  · intro p _ h0; simp [h0]
  · intro p _ h0; exact ⟨rfl, rfl⟩
  · intro p c
    show 0 < (if p 0 < 2 then (1 : ℚ) else 1 / 4) ∧ (if p 0 < 2 then (1 : ℚ) else 1 / 4) ≤ 1
    split_ifs <;> norm_num
  · intro p c; show 0 < (1 / 1 : ℚ) ∧ (1 / 1 : ℚ) ≤ 1; norm_num
  · norm_num [FGrid.fresh]
  · decide +kernel

end

end Nidn
