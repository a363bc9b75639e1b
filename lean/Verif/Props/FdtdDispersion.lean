/-
Property C123: plane waves on the FDTD grid. In a uniform medium they travel without changing shape, with the frequency of the discrete dispersion
relation; their speed is at most that of light in the medium and, for well resolved waves, close to it.
-/
import Verif.Props.FdtdTorusEnergy
import Verif.Props.FdtdGrid
import Mathlib.Analysis.SpecialFunctions.Trigonometric.Bounds
import Mathlib.Analysis.SpecialFunctions.Trigonometric.Inverse
import Mathlib.Analysis.Convex.SpecificFunctions.Deriv
import Mathlib.Analysis.Convex.Jensen
import Mathlib.Analysis.Real.Pi.Bounds

namespace Nidn

/-! ### specification -/

/-- the phase of a wave with the wave numbers `κ` (radians per cell) at the corner of cell `p` -/
def latticePhase (κ : Fin 3 → ℝ) (p : Pos) : ℝ := ∑ a, κ a * p a

/-- The electric field of a travelling plane wave on the staggered lattice at time `t` (in steps): component `c` sits half a cell along axis `c`. -/
noncomputable def waveE (κ : Fin 3 → ℝ) (Ω : ℝ) (e : Fin 3 → ℝ) (t : ℝ) : VField ℝ := fun p c =>
  e c * Real.cos (latticePhase κ p + κ c / 2 - Ω * t)

/-- The magnetic field of the wave: component `c` sits half a cell along the two other axes. -/
noncomputable def waveH (κ : Fin 3 → ℝ) (Ω : ℝ) (h : Fin 3 → ℝ) (t : ℝ) : VField ℝ := fun p c =>
  h c * Real.cos (latticePhase κ p + (κ (c + 1) + κ (c + 2)) / 2 - Ω * t)

/-- A plane wave of the lattice in a medium with inverse permittivity `ie` and inverse permeability `im` at the Courant number `s`: the discrete
dispersion relation, transverse electric field, and the magnetic field that belongs to it. -/
structure LatticeWave (s ie im : ℝ) (κ : Fin 3 → ℝ) (Ω : ℝ) (e h : Fin 3 → ℝ) : Prop where
  moves : Real.sin (Ω / 2) ≠ 0
  dispersion : Real.sin (Ω / 2) ^ 2 = s ^ 2 * ie * im * ∑ a, Real.sin (κ a / 2) ^ 2
  transverse : ∑ a, Real.sin (κ a / 2) * e a = 0
  magnetic : ∀ c, Real.sin (Ω / 2) * h c = s * im * (Real.sin (κ (c + 1) / 2) * e (c + 2) - Real.sin (κ (c + 2) / 2) * e (c + 1))

/-- The wave numbers fit on the grid: whole numbers of wavelengths on the periodic axes (which have one cell less than planes), none on the others. -/
def Fits (n : Pos) (as : List (Fin 3)) (κ : Fin 3 → ℝ) : Prop :=
  ∀ a, (a ∈ as → ∃ m : ℤ, κ a * ((n a : ℝ) - 1) = 2 * Real.pi * m) ∧ (a ∉ as → κ a = 0)

/-! ### proofs -/

variable {κ : Fin 3 → ℝ} {Ω s ie im : ℝ} {e h : Fin 3 → ℝ}

lemma LatticeWave.electric (w : LatticeWave s ie im κ Ω e h) (c : Fin 3) :
    Real.sin (Ω / 2) * e c = -(s * ie) * (Real.sin (κ (c + 1) / 2) * h (c + 2) - Real.sin (κ (c + 2) / 2) * h (c + 1)) := by
  have hd := w.dispersion
  have ht := w.transverse
  have h0 := w.magnetic 0
  have h1 := w.magnetic 1
  have h2 := w.magnetic 2
  rw [Fin.sum_univ_three] at hd ht
  have i1 : (1 : Fin 3) + 1 = 2 := rfl
  have i2 : (1 : Fin 3) + 2 = 0 := rfl
  have i3 : (2 : Fin 3) + 1 = 0 := rfl
  have i4 : (2 : Fin 3) + 2 = 1 := rfl
  simp only [i1, i2, i3, i4, zero_add] at h0 h1 h2
  apply mul_left_cancel₀ w.moves
  set S := Real.sin (Ω / 2)
  set a0 := Real.sin (κ 0 / 2)
  set a1 := Real.sin (κ 1 / 2)
  set a2 := Real.sin (κ 2 / 2)
  fin_cases c
  · show S * (S * e 0) = S * (-(s * ie) * (Real.sin (κ 1 / 2) * h 2 - Real.sin (κ 2 / 2) * h 1))
    linear_combination e 0 * hd + s * ie * a1 * h2 - s * ie * a2 * h1 + s ^ 2 * ie * im * a0 * ht
  · show S * (S * e 1) = S * (-(s * ie) * (Real.sin (κ 2 / 2) * h 0 - Real.sin (κ 0 / 2) * h 2))
    linear_combination e 1 * hd + s * ie * a2 * h0 - s * ie * a0 * h2 + s ^ 2 * ie * im * a1 * ht
  · show S * (S * e 2) = S * (-(s * ie) * (Real.sin (κ 0 / 2) * h 1 - Real.sin (κ 1 / 2) * h 0))
    linear_combination e 2 * hd + s * ie * a0 * h1 - s * ie * a1 * h0 + s ^ 2 * ie * im * a2 * ht

lemma phase_up (κ : Fin 3 → ℝ) (p : Pos) (a : Fin 3) : latticePhase κ (p.up a) = latticePhase κ p + κ a := by
  rw [latticePhase, latticePhase, Fin.sum_univ_three, Fin.sum_univ_three]
  fin_cases a <;> simp [Pos.up] <;> ring

lemma phase_dn (κ : Fin 3 → ℝ) (p : Pos) (a : Fin 3) (h : 1 ≤ p a) : latticePhase κ (p.dn a) = latticePhase κ p - κ a := by
  rw [latticePhase, latticePhase, Fin.sum_univ_three, Fin.sum_univ_three]
  fin_cases a <;> simp [Pos.dn] at h ⊢ <;> rw [Nat.cast_sub (by omega)] <;> push_cast <;> ring

lemma phase_shift {κ : Fin 3 → ℝ} {p q : Pos} (h : ∀ a, ∃ m : ℤ, κ a * q a = κ a * p a + 2 * Real.pi * m) :
    ∃ m : ℤ, latticePhase κ q = latticePhase κ p + m * (2 * Real.pi) := by
  choose m hm using h
  refine ⟨∑ a, m a, ?_⟩
  rw [latticePhase, latticePhase, Fin.sum_univ_three, Fin.sum_univ_three, Fin.sum_univ_three, hm, hm, hm]
  push_cast
  ring

lemma phase_repE {n : Pos} {as : List (Fin 3)} (hn : ∀ a ∈ as, 2 ≤ n a) (hf : Fits n as κ) (p : Pos) :
    ∃ m : ℤ, latticePhase κ (repE n as p) = latticePhase κ p + m * (2 * Real.pi) := by
  refine phase_shift fun a => ?_
  by_cases h : a ∈ as ∧ p a = 0
  · obtain ⟨m, hm⟩ := (hf a).1 h.1
    have := hn a h.1
    refine ⟨m, ?_⟩
    rw [repE, if_pos h, h.2, Nat.cast_sub (by omega)]
    push_cast
    linarith
  · exact ⟨0, by rw [repE, if_neg h]; simp⟩

lemma phase_repH {n : Pos} {as : List (Fin 3)} (hn : ∀ a ∈ as, 2 ≤ n a) (hf : Fits n as κ) (p : Pos) :
    ∃ m : ℤ, latticePhase κ (repH n as p) = latticePhase κ p + m * (2 * Real.pi) := by
  refine phase_shift fun a => ?_
  by_cases h : a ∈ as ∧ p a = n a - 1
  · obtain ⟨m, hm⟩ := (hf a).1 h.1
    have := hn a h.1
    refine ⟨-m, ?_⟩
    rw [repH, if_pos h, h.2, Nat.cast_sub (by omega)]
    push_cast
    linarith
  · exact ⟨0, by rw [repH, if_neg h]; simp⟩

lemma waveE_shift {p q : Pos} (h : ∃ m : ℤ, latticePhase κ q = latticePhase κ p + m * (2 * Real.pi)) (t : ℝ) (c : Fin 3) :
    waveE κ Ω e t q c = waveE κ Ω e t p c := by
  obtain ⟨m, hm⟩ := h
  rw [waveE, waveE, hm, show latticePhase κ p + m * (2 * Real.pi) + κ c / 2 - Ω * t = latticePhase κ p + κ c / 2 - Ω * t + m * (2 * Real.pi) by ring,
    Real.cos_add_int_mul_two_pi]

lemma waveH_shift {p q : Pos} (h' : ∃ m : ℤ, latticePhase κ q = latticePhase κ p + m * (2 * Real.pi)) (t : ℝ) (c : Fin 3) :
    waveH κ Ω h t q c = waveH κ Ω h t p c := by
  obtain ⟨m, hm⟩ := h'
  rw [waveH, waveH, hm, show latticePhase κ p + m * (2 * Real.pi) + (κ (c + 1) + κ (c + 2)) / 2 - Ω * t =
    latticePhase κ p + (κ (c + 1) + κ (c + 2)) / 2 - Ω * t + m * (2 * Real.pi) by ring, Real.cos_add_int_mul_two_pi]

/-- backward difference of the magnetic wave -/
lemma dDn_wave (t : ℝ) {F : VField ℝ} {n : Pos} (hF : ∀ p ∈ box n, ∀ c, F p c = waveH κ Ω h t p c) {p : Pos} (hp : p ∈ box n) (a c : Fin 3)
    (ha : 1 ≤ p a ∨ κ a = 0 ∧ p a = 0) :
    dDn F a c p = h c * (-2 * Real.sin (latticePhase κ p + (κ (c + 1) + κ (c + 2)) / 2 - κ a / 2 - Ω * t) * Real.sin (κ a / 2)) := by
  rcases ha with ha | ⟨hk, ha⟩
  · have hp' : p.dn a ∈ box n := by
      rw [mem_box] at *
      intro b
      have := hp b
      by_cases hb : b = a
      · subst hb; simp [Pos.dn]; omega
      · simp [Pos.dn, Function.update_of_ne hb]; omega
    rw [dDn, if_pos ha, hF _ hp, hF _ hp', waveH, waveH, phase_dn _ _ _ ha, ← mul_sub, Real.cos_sub_cos]
    congr 1
    congr 2
    · congr 2; ring
    · congr 1; ring
  · rw [dDn, if_neg (by omega), hk]; simp

/-- forward difference of the electric wave -/
lemma dUp_wave (t : ℝ) {F : VField ℝ} {n : Pos} (hF : ∀ p ∈ box n, ∀ c, F p c = waveE κ Ω e t p c) {p : Pos} (hp : p ∈ box n) (a c : Fin 3)
    (ha : p a + 1 < n a ∨ κ a = 0 ∧ ¬ p a + 1 < n a) :
    dUp n F a c p = e c * (-2 * Real.sin (latticePhase κ p + κ c / 2 + κ a / 2 - Ω * t) * Real.sin (κ a / 2)) := by
  rcases ha with ha | ⟨hk, ha⟩
  · have hp' : p.up a ∈ box n := by
      rw [mem_box] at *
      intro b
      have := hp b
      by_cases hb : b = a
      · subst hb; simpa [Pos.up] using ha
      · simp [Pos.up, Function.update_of_ne hb]; omega
    rw [dUp, if_pos ha, hF _ hp, hF _ hp', waveE, waveE, phase_up, ← mul_sub, Real.cos_sub_cos]
    congr 1
    congr 2
    · congr 2; ring
    · congr 1; ring
  · rw [dUp, if_neg ha, hk]; simp

/-- a grid filled uniformly with one lossless medium, without sources -/
structure UniformGrid (g : FGrid ℝ) (ie im : ℝ) : Prop where
  eps : ∀ p c, g.invEps p c = ie
  mu : ∀ p c, g.invMu p c = im
  lossless : ∀ p c, g.absorb p c = 0
  silent : g.sources = []

lemma wave_step {g : FGrid ℝ} {as : List (Fin 3)} (hp : AllPeriodic g as) (hu : UniformGrid g ie im) (hf : Fits g.n as κ)
    (w : LatticeWave g.courant ie im κ Ω e h) (t : ℝ)
    (hE : ∀ p ∈ box g.n, ∀ c, g.E p c = waveE κ Ω e t p c) (hH : ∀ p ∈ box g.n, ∀ c, g.H p c = waveH κ Ω h (t + 1 / 2) p c) :
    (∀ p ∈ box g.n, ∀ c, g.step.E p c = waveE κ Ω e (t + 1) p c) ∧ ∀ p ∈ box g.n, ∀ c, g.step.H p c = waveH κ Ω h (t + 1 + 1 / 2) p c := by
  have hn : ∀ a ∈ as, 2 ≤ g.n a := fun a ha => by
    rcases hp.2 a with h | h
    · exact h.2
    · exact absurd ha h.1
  have hs : AllSoft g.sources := by rw [hu.silent]; intro s hs; simp at hs
  have i1 : (1 : Fin 3) + 1 = 2 := rfl
  have i2 : (1 : Fin 3) + 2 = 0 := rfl
  have i3 : (2 : Fin 3) + 1 = 0 := rfl
  have i4 : (2 : Fin 3) + 2 = 1 := rfl
  have e1 : ∀ p ∈ box g.n, ∀ c, g.newE p c = waveE κ Ω e (t + 1) p c := by
    intro p hpb c
    rw [newE_periodic g as hp.1 hn hs, hu.silent, totalDrive, List.map_nil, List.sum_nil, add_zero, ← waveE_shift (phase_repE hn hf p)]
    have hq := repE_box as hpb
    set q := repE g.n as p with hqd
    have hge : ∀ a, 1 ≤ q a ∨ κ a = 0 ∧ q a = 0 := by
      intro a
      rcases hp.2 a with ⟨h1, h2⟩ | ⟨h1, h2⟩
      · left
        simp only [hqd, repE, h1, true_and]
        split_ifs <;> omega
      · have := mem_box.mp hq a
        exact .inr ⟨(hf a).2 h1, by omega⟩
    rw [bulkE, hu.lossless, hu.eps, hE _ hq]
    have hc : curlH g.H q c = -2 * Real.sin (latticePhase κ q + κ c / 2 - Ω * (t + 1 / 2)) *
        (Real.sin (κ (c + 1) / 2) * h (c + 2) - Real.sin (κ (c + 2) / 2) * h (c + 1)) := by
      have key := fun a c => dDn_wave (t + 1 / 2) hH hq a c (hge a)
      fin_cases c
      · show dDn g.H 1 2 q - dDn g.H 2 1 q = _
        rw [key, key, i3, i4, i1, i2]
        show _ = -2 * Real.sin (latticePhase κ q + κ 0 / 2 - Ω * (t + 1 / 2)) * (Real.sin (κ 1 / 2) * h 2 - Real.sin (κ 2 / 2) * h 1)
        rw [show latticePhase κ q + (κ 0 + κ 1) / 2 - κ 1 / 2 - Ω * (t + 1 / 2) = latticePhase κ q + κ 0 / 2 - Ω * (t + 1 / 2) by ring,
          show latticePhase κ q + (κ 2 + κ 0) / 2 - κ 2 / 2 - Ω * (t + 1 / 2) = latticePhase κ q + κ 0 / 2 - Ω * (t + 1 / 2) by ring]
        ring
      · show dDn g.H 2 0 q - dDn g.H 0 2 q = _
        rw [key, key, i3, i4]
        show h 0 * (-2 * Real.sin (latticePhase κ q + (κ 1 + κ 2) / 2 - κ 2 / 2 - Ω * (t + 1 / 2)) * Real.sin (κ 2 / 2)) - _ =
          -2 * Real.sin (latticePhase κ q + κ 1 / 2 - Ω * (t + 1 / 2)) * (Real.sin (κ 2 / 2) * h 0 - Real.sin (κ 0 / 2) * h 2)
        rw [show latticePhase κ q + (κ 1 + κ 2) / 2 - κ 2 / 2 - Ω * (t + 1 / 2) = latticePhase κ q + κ 1 / 2 - Ω * (t + 1 / 2) by ring,
          show latticePhase κ q + (κ 0 + κ 1) / 2 - κ 0 / 2 - Ω * (t + 1 / 2) = latticePhase κ q + κ 1 / 2 - Ω * (t + 1 / 2) by ring]
        ring
      · show dDn g.H 0 1 q - dDn g.H 1 0 q = _
        rw [key, key, i1, i2]
        show h 1 * (-2 * Real.sin (latticePhase κ q + (κ 2 + κ 0) / 2 - κ 0 / 2 - Ω * (t + 1 / 2)) * Real.sin (κ 0 / 2)) -
            h 0 * (-2 * Real.sin (latticePhase κ q + (κ 1 + κ 2) / 2 - κ 1 / 2 - Ω * (t + 1 / 2)) * Real.sin (κ 1 / 2)) =
          -2 * Real.sin (latticePhase κ q + κ 2 / 2 - Ω * (t + 1 / 2)) * (Real.sin (κ 0 / 2) * h 1 - Real.sin (κ 1 / 2) * h 0)
        rw [show latticePhase κ q + (κ 2 + κ 0) / 2 - κ 0 / 2 - Ω * (t + 1 / 2) = latticePhase κ q + κ 2 / 2 - Ω * (t + 1 / 2) by ring,
          show latticePhase κ q + (κ 1 + κ 2) / 2 - κ 1 / 2 - Ω * (t + 1 / 2) = latticePhase κ q + κ 2 / 2 - Ω * (t + 1 / 2) by ring]
        ring
    have ht : waveE κ Ω e (t + 1) q c - waveE κ Ω e t q c = 2 * Real.sin (latticePhase κ q + κ c / 2 - Ω * (t + 1 / 2)) * (Real.sin (Ω / 2) * e c) := by
      rw [waveE, waveE, ← mul_sub, Real.cos_sub_cos,
        show (latticePhase κ q + κ c / 2 - Ω * (t + 1) + (latticePhase κ q + κ c / 2 - Ω * t)) / 2 = latticePhase κ q + κ c / 2 - Ω * (t + 1 / 2) by ring,
        show (latticePhase κ q + κ c / 2 - Ω * (t + 1) - (latticePhase κ q + κ c / 2 - Ω * t)) / 2 = -(Ω / 2) by ring, Real.sin_neg]
      ring
    rw [w.electric] at ht
    rw [hc]
    linear_combination -ht
  refine ⟨e1, fun p hpb c => ?_⟩
  have hb' : g.updateE.boundaries = as.map FBoundary.periodic := by
    show g.boundaries.map _ = _
    rw [hp.1]; exact (periodic_phased _ _ as).1
  show g.updateE.newH p c = _
  rw [newH_periodic g.updateE as hb' hn hs, ← waveH_shift (phase_repH hn hf p)]
  have hq := repH_box as hpb
  show g.H (repH g.n as p) c - g.courant * g.invMu (repH g.n as p) c * curlE g.n g.newE (repH g.n as p) c = _
  set q := repH g.n as p with hqd
  have hlt : ∀ a, q a + 1 < g.n a ∨ κ a = 0 ∧ ¬ q a + 1 < g.n a := by
    intro a
    have hb := mem_box.mp hpb a
    rcases hp.2 a with ⟨h1, h2⟩ | ⟨h1, h2⟩
    · left
      simp only [hqd, repH, h1, true_and]
      split_ifs <;> omega
    · have := mem_box.mp hq a
      exact .inr ⟨(hf a).2 h1, by omega⟩
  rw [hu.mu, hH _ hq]
  have hc : curlE g.n g.newE q c = -2 * Real.sin (latticePhase κ q + (κ (c + 1) + κ (c + 2)) / 2 - Ω * (t + 1)) *
      (Real.sin (κ (c + 1) / 2) * e (c + 2) - Real.sin (κ (c + 2) / 2) * e (c + 1)) := by
    have key := fun a c => dUp_wave (t + 1) e1 hq a c (hlt a)
    fin_cases c
    · show dUp g.n g.newE 1 2 q - dUp g.n g.newE 2 1 q = -2 * Real.sin (latticePhase κ q + (κ 1 + κ 2) / 2 - Ω * (t + 1)) *
        (Real.sin (κ 1 / 2) * e 2 - Real.sin (κ 2 / 2) * e 1)
      rw [key, key, show latticePhase κ q + κ 2 / 2 + κ 1 / 2 - Ω * (t + 1) = latticePhase κ q + (κ 1 + κ 2) / 2 - Ω * (t + 1) by ring,
        show latticePhase κ q + κ 1 / 2 + κ 2 / 2 - Ω * (t + 1) = latticePhase κ q + (κ 1 + κ 2) / 2 - Ω * (t + 1) by ring]
      ring
    · show dUp g.n g.newE 2 0 q - dUp g.n g.newE 0 2 q = -2 * Real.sin (latticePhase κ q + (κ 2 + κ 0) / 2 - Ω * (t + 1)) *
        (Real.sin (κ 2 / 2) * e 0 - Real.sin (κ 0 / 2) * e 2)
      rw [key, key, show latticePhase κ q + κ 0 / 2 + κ 2 / 2 - Ω * (t + 1) = latticePhase κ q + (κ 2 + κ 0) / 2 - Ω * (t + 1) by ring,
        show latticePhase κ q + κ 2 / 2 + κ 0 / 2 - Ω * (t + 1) = latticePhase κ q + (κ 2 + κ 0) / 2 - Ω * (t + 1) by ring]
      ring
    · show dUp g.n g.newE 0 1 q - dUp g.n g.newE 1 0 q = -2 * Real.sin (latticePhase κ q + (κ 0 + κ 1) / 2 - Ω * (t + 1)) *
        (Real.sin (κ 0 / 2) * e 1 - Real.sin (κ 1 / 2) * e 0)
      rw [key, key, show latticePhase κ q + κ 1 / 2 + κ 0 / 2 - Ω * (t + 1) = latticePhase κ q + (κ 0 + κ 1) / 2 - Ω * (t + 1) by ring,
        show latticePhase κ q + κ 0 / 2 + κ 1 / 2 - Ω * (t + 1) = latticePhase κ q + (κ 0 + κ 1) / 2 - Ω * (t + 1) by ring]
      ring
  have ht : waveH κ Ω h (t + 1 + 1 / 2) q c - waveH κ Ω h (t + 1 / 2) q c =
      2 * Real.sin (latticePhase κ q + (κ (c + 1) + κ (c + 2)) / 2 - Ω * (t + 1)) * (Real.sin (Ω / 2) * h c) := by
    set φ := latticePhase κ q + (κ (c + 1) + κ (c + 2)) / 2 with hφ
    rw [waveH, waveH, ← hφ, ← mul_sub, Real.cos_sub_cos, show (φ - Ω * (t + 1 + 1 / 2) + (φ - Ω * (t + 1 / 2))) / 2 = φ - Ω * (t + 1) by ring,
      show (φ - Ω * (t + 1 + 1 / 2) - (φ - Ω * (t + 1 / 2))) / 2 = -(Ω / 2) by ring, Real.sin_neg]
    ring
  rw [w.magnetic] at ht
  rw [hc]
  linear_combination -ht

/-- C123: on a grid with periodic boundaries (one, two or three dimensions; the other axes one cell wide) filled with a uniform lossless medium,
a plane wave that fits on the grid and has the frequency of the discrete dispersion relation travels unchanged: after every number `k` of
steps the fields are those of the wave at the time `k` (the magnetic ones half a step later). -/
theorem C123_wave {g : FGrid ℝ} {as : List (Fin 3)} (hp : AllPeriodic g as) (hu : UniformGrid g ie im) (hf : Fits g.n as κ)
    (w : LatticeWave g.courant ie im κ Ω e h) (hE : ∀ p ∈ box g.n, ∀ c, g.E p c = waveE κ Ω e 0 p c)
    (hH : ∀ p ∈ box g.n, ∀ c, g.H p c = waveH κ Ω h (1 / 2) p c) (k : ℕ) :
    ∀ p ∈ box g.n, ∀ c, (g.run k).E p c = waveE κ Ω e k p c ∧ (g.run k).H p c = waveH κ Ω h (k + 1 / 2) p c := by
  have key : (∀ p ∈ box g.n, ∀ c, (g.run k).E p c = waveE κ Ω e k p c) ∧ ∀ p ∈ box g.n, ∀ c, (g.run k).H p c = waveH κ Ω h (k + 1 / 2) p c := by
    induction k with
    | zero =>
      refine ⟨?_, ?_⟩
      · simpa [FGrid.run] using hE
      · simpa [FGrid.run] using hH
    | succ k ih =>
      have hn := run_n g k
      have := wave_step (g := g.run k) (as := as) ⟨run_boundaries_periodic g as hp.1 k, by rw [hn]; exact hp.2⟩
        ⟨by rw [run_invEps]; exact hu.eps, by rw [run_invMu]; exact hu.mu, by rw [run_absorb]; exact hu.lossless, by rw [run_sources]; exact hu.silent⟩
        (by rw [hn]; exact hf) (by rw [run_courant]; exact w) k (by rw [hn]; exact ih.1) (by rw [hn]; exact ih.2)
      rw [hn] at this
      push_cast
      exact this
  exact fun p hpb c => ⟨key.1 p hpb c, key.2 p hpb c⟩

/-! ### how fast the waves are -/

/-- the number of directions a wave varies along -/
noncomputable def waveDims (κ : Fin 3 → ℝ) : ℕ := (Finset.univ.filter fun a => κ a ≠ 0).card

/-- length of the wave vector, in radians per cell -/
noncomputable def waveNumber (κ : Fin 3 → ℝ) : ℝ := Real.sqrt (∑ a, κ a ^ 2)

/-- C123: below the stability limit every wave that varies along the grid and every transverse polarisation gives a wave of the lattice, with a
real frequency of at most `π` radians per step. -/
theorem C123_exists (hs : 0 < s) (hie : 0 < ie) (him : 0 < im) (κ : Fin 3 → ℝ) (hc : s ^ 2 * ie * im * waveDims κ ≤ 1)
    (hk : ∃ a, Real.sin (κ a / 2) ≠ 0) (e : Fin 3 → ℝ) (he : ∑ a, Real.sin (κ a / 2) * e a = 0) :
    ∃ Ω h, 0 < Ω ∧ Ω ≤ Real.pi ∧ LatticeWave s ie im κ Ω e h := by
  set R := s ^ 2 * ie * im * ∑ a, Real.sin (κ a / 2) ^ 2 with hR
  have hpos : 0 < R := by
    obtain ⟨a, ha⟩ := hk
    have : 0 < ∑ a, Real.sin (κ a / 2) ^ 2 :=
      Finset.sum_pos' (fun _ _ => sq_nonneg _) ⟨a, Finset.mem_univ _, sq_pos_of_ne_zero ha⟩
    exact mul_pos (mul_pos (mul_pos (pow_pos hs 2) hie) him) this
  have hle : R ≤ 1 := by
    refine le_trans ?_ hc
    have : ∑ a, Real.sin (κ a / 2) ^ 2 ≤ waveDims κ := by
      rw [waveDims, ← Finset.sum_filter_add_sum_filter_not _ (fun a => κ a ≠ 0), Finset.card_eq_sum_ones, Nat.cast_sum]
      have h0 : ∑ a with ¬ κ a ≠ 0, Real.sin (κ a / 2) ^ 2 = 0 :=
        Finset.sum_eq_zero fun a ha => by
          have : κ a = 0 := by simpa using ha
          simp [this]
      rw [h0, add_zero]
      exact Finset.sum_le_sum fun a _ => by simpa using Real.sin_sq_le_one (κ a / 2)
    exact mul_le_mul_of_nonneg_left this (mul_pos (mul_pos (pow_pos hs 2) hie) him).le
  have hq : 0 < Real.sqrt R := Real.sqrt_pos.mpr hpos
  have hq1 : Real.sqrt R ≤ 1 := by rw [Real.sqrt_le_one]; exact hle
  have hsin : Real.sin (2 * Real.arcsin (Real.sqrt R) / 2) = Real.sqrt R := by
    rw [show 2 * Real.arcsin (Real.sqrt R) / 2 = Real.arcsin (Real.sqrt R) by ring]
    exact Real.sin_arcsin (by linarith) hq1
  refine ⟨2 * Real.arcsin (Real.sqrt R),
    fun c => s * im * (Real.sin (κ (c + 1) / 2) * e (c + 2) - Real.sin (κ (c + 2) / 2) * e (c + 1)) / Real.sqrt R, ?_, ?_, ?_⟩
  · have := Real.arcsin_pos.mpr hq; linarith
  · have := Real.arcsin_le_pi_div_two (Real.sqrt R); linarith
  · exact ⟨by rw [hsin]; exact hq.ne', by rw [hsin, Real.sq_sqrt hpos.le], he, fun c => by rw [hsin]; field_simp⟩

lemma sinc_antitone {x y : ℝ} (hx : 0 < x) (hxy : x ≤ y) (hy : y ≤ Real.pi) : Real.sin y / y ≤ Real.sin x / x := by
  have h := strictConcaveOn_sin_Icc.concaveOn.slope_anti (x := 0) ⟨le_rfl, Real.pi_pos.le⟩
  have := h (a := x) (b := y) ⟨⟨hx.le, by linarith⟩, hx.ne'⟩ ⟨⟨by linarith, hy⟩, by simp; linarith⟩ hxy
  simpa [slope_def_field] using this

/-- squared sine of a square root is concave up to the first maximum -/
lemma concave_sinSq : ConcaveOn ℝ (Set.Icc 0 ((Real.pi / 2) ^ 2)) fun u => Real.sin (Real.sqrt u) ^ 2 := by
  have hd : ∀ u, 0 < u → HasDerivAt (fun u => Real.sin (Real.sqrt u) ^ 2) (Real.sin (2 * Real.sqrt u) / (2 * Real.sqrt u)) u := by
    intro u hu
    have h1 := ((Real.hasDerivAt_sqrt hu.ne').sin).pow 2
    have h2 : Real.sin (2 * Real.sqrt u) / (2 * Real.sqrt u) = ↑2 * Real.sin (Real.sqrt u) ^ (2 - 1) * (Real.cos (Real.sqrt u) * (1 / (2 * Real.sqrt u))) := by
      have : Real.sqrt u ≠ 0 := (Real.sqrt_pos.mpr hu).ne'
      rw [Real.sin_two_mul]
      push_cast
      field_simp
    rw [h2]
    exact h1
  refine AntitoneOn.concaveOn_of_deriv (convex_Icc _ _) ?_ ?_ ?_
  · exact ((Real.continuous_sin.comp Real.continuous_sqrt).pow 2).continuousOn
  · rw [interior_Icc]
    exact fun u hu => (hd u hu.1).differentiableAt.differentiableWithinAt
  · rw [interior_Icc]
    intro u hu v hv huv
    rw [(hd u hu.1).deriv, (hd v hv.1).deriv]
    have h1 := Real.sqrt_pos.mpr hu.1
    have h2 : Real.sqrt v ≤ Real.pi / 2 := by
      rw [← Real.sqrt_sq (by positivity : 0 ≤ Real.pi / 2)]
      exact Real.sqrt_le_sqrt hv.2.le
    exact sinc_antitone (by linarith) (by linarith [Real.sqrt_le_sqrt huv]) (by linarith)

lemma sin_sqrt_sq (x : ℝ) : Real.sin (Real.sqrt (x ^ 2)) ^ 2 = Real.sin x ^ 2 := by
  rw [Real.sqrt_sq_eq_abs]
  rcases abs_choice x with h | h <;> rw [h]
  rw [Real.sin_neg, neg_sq]

/-- Waves are not faster than light: with `σ` cells per step the speed of light in the medium, `Ω ≤ σ |κ|`. -/
lemma wave_upper {σ : ℝ} (hσ : 0 ≤ σ) (hc : σ ^ 2 * waveDims κ ≤ 1) (hk : ∀ a, |κ a| ≤ Real.pi) (hΩ : 0 ≤ Ω) (hΩ' : Ω ≤ Real.pi)
    (hd : Real.sin (Ω / 2) ^ 2 = σ ^ 2 * ∑ a, Real.sin (κ a / 2) ^ 2) : Ω ≤ σ * waveNumber κ := by
  by_contra hlt
  push Not at hlt
  have hw : 0 ≤ waveNumber κ := Real.sqrt_nonneg _
  have hj := concave_sinSq.le_map_sum (t := (Finset.univ : Finset (Option (Fin 3))))
    (w := fun o => o.elim (1 - σ ^ 2 * waveDims κ) fun a => if κ a ≠ 0 then σ ^ 2 else 0)
    (p := fun o => o.elim 0 fun a => (κ a / 2) ^ 2) ?_ ?_ ?_
  · simp only [Fintype.sum_option, Option.elim, smul_eq_mul, Real.sqrt_zero, Real.sin_zero, sin_sqrt_sq] at hj
    have e1 : ∀ f : ℝ → ℝ, f 0 = 0 → ∑ a, (if κ a ≠ 0 then σ ^ 2 else 0) * f (κ a) = σ ^ 2 * ∑ a, f (κ a) := by
      intro f hf
      rw [Finset.mul_sum]
      refine Finset.sum_congr rfl fun a _ => ?_
      by_cases h : κ a = 0
      · simp [h, hf]
      · rw [if_pos h]
    rw [e1 (fun x => Real.sin (x / 2) ^ 2) (by simp), e1 (fun x => (x / 2) ^ 2) (by simp)] at hj
    have e2 : σ ^ 2 * ∑ a, (κ a / 2) ^ 2 = (σ * waveNumber κ / 2) ^ 2 := by
      rw [div_pow, mul_pow, waveNumber, Real.sq_sqrt (Finset.sum_nonneg fun _ _ => sq_nonneg _), mul_div_assoc, Finset.sum_div]
      simp only [div_pow]
    rw [e2, mul_zero, zero_add, sin_sqrt_sq, ← hd] at hj
    have hlt' : Real.sin (σ * waveNumber κ / 2) < Real.sin (Ω / 2) :=
      Real.sin_lt_sin_of_lt_of_le_pi_div_two (by have := Real.pi_pos; have := mul_nonneg hσ hw; linarith) (by linarith) (by linarith)
    have h0 : 0 ≤ Real.sin (σ * waveNumber κ / 2) :=
      Real.sin_nonneg_of_nonneg_of_le_pi (by have := mul_nonneg hσ hw; linarith) (by linarith)
    have := pow_lt_pow_left₀ hlt' h0 (n := 2) (by norm_num)
    simp only [mul_zero, zero_add, ne_eq, OfNat.ofNat_ne_zero, not_false_eq_true, zero_pow] at hj
    linarith
  · rintro (_ | a) -
    · simp only [Option.elim]; linarith
    · simp only [Option.elim]; split_ifs <;> positivity
  · simp only [Fintype.sum_option, Option.elim]
    rw [← Finset.sum_filter, Finset.sum_const, waveDims, nsmul_eq_mul]
    ring
  · rintro (_ | a) -
    · exact ⟨le_rfl, by positivity⟩
    · simp only [Option.elim]
      refine ⟨sq_nonneg _, ?_⟩
      rw [← sq_abs]
      refine pow_le_pow_left₀ (abs_nonneg _) ?_ 2
      rw [abs_div, abs_two]
      linarith [hk a]

lemma sin_sq_lower (x : ℝ) (hx : x ^ 2 ≤ 6) : x ^ 2 * (1 - x ^ 2 / 6) ^ 2 ≤ Real.sin x ^ 2 := by
  have key : ∀ y, 0 ≤ y → y ^ 2 ≤ 6 → y ^ 2 * (1 - y ^ 2 / 6) ^ 2 ≤ Real.sin y ^ 2 := by
    intro y hy hy2
    have h := Real.sin_ge_sub_cube hy
    have h0 : 0 ≤ y - y ^ 3 / 6 := by
      have : y - y ^ 3 / 6 = y * (1 - y ^ 2 / 6) := by ring
      rw [this]
      exact mul_nonneg hy (by linarith)
    calc y ^ 2 * (1 - y ^ 2 / 6) ^ 2 = (y - y ^ 3 / 6) ^ 2 := by ring
      _ ≤ _ := pow_le_pow_left₀ h0 h 2
  rcases le_total 0 x with h | h
  · exact key x h hx
  · have := key (-x) (by linarith) (by rw [neg_sq]; exact hx)
    rwa [neg_sq, Real.sin_neg, neg_sq] at this

/-- Waves are not much slower than light. -/
lemma wave_lower {σ : ℝ} (hσ : 0 ≤ σ) (hΩ : 0 ≤ Ω) (hd : Real.sin (Ω / 2) ^ 2 = σ ^ 2 * ∑ a, Real.sin (κ a / 2) ^ 2) :
    σ * waveNumber κ * (1 - waveNumber κ ^ 2 / 24) ≤ Ω := by
  have hw : 0 ≤ waveNumber κ := Real.sqrt_nonneg _
  have hw2 : waveNumber κ ^ 2 = ∑ a, κ a ^ 2 := Real.sq_sqrt (Finset.sum_nonneg fun _ _ => sq_nonneg _)
  by_cases hbig : 24 < waveNumber κ ^ 2
  · have : σ * waveNumber κ * (1 - waveNumber κ ^ 2 / 24) ≤ 0 :=
      mul_nonpos_of_nonneg_of_nonpos (mul_nonneg hσ hw) (by linarith)
    linarith
  push Not at hbig
  have hm : 0 ≤ 1 - waveNumber κ ^ 2 / 24 := by linarith
  have hκ : ∀ a, κ a ^ 2 ≤ waveNumber κ ^ 2 := fun a => by
    rw [hw2]
    exact Finset.single_le_sum (f := fun a => κ a ^ 2) (fun _ _ => sq_nonneg _) (Finset.mem_univ a)
  have hsum : waveNumber κ ^ 2 / 4 * (1 - waveNumber κ ^ 2 / 24) ^ 2 ≤ ∑ a, Real.sin (κ a / 2) ^ 2 := by
    rw [show waveNumber κ ^ 2 / 4 = ∑ a, (κ a / 2) ^ 2 by rw [hw2, Finset.sum_div]; exact Finset.sum_congr rfl fun a _ => by ring, Finset.sum_mul]
    refine Finset.sum_le_sum fun a _ => le_trans ?_ (sin_sq_lower _ (by have := hκ a; rw [div_pow]; linarith))
    refine mul_le_mul_of_nonneg_left (pow_le_pow_left₀ hm ?_ 2) (sq_nonneg _)
    have := hκ a
    rw [div_pow]
    linarith
  have h1 : (σ * waveNumber κ * (1 - waveNumber κ ^ 2 / 24) / 2) ^ 2 ≤ (Ω / 2) ^ 2 := by
    calc _ = σ ^ 2 * (waveNumber κ ^ 2 / 4 * (1 - waveNumber κ ^ 2 / 24) ^ 2) := by ring
      _ ≤ σ ^ 2 * ∑ a, Real.sin (κ a / 2) ^ 2 := mul_le_mul_of_nonneg_left hsum (sq_nonneg _)
      _ = Real.sin (Ω / 2) ^ 2 := hd.symm
      _ ≤ (Ω / 2) ^ 2 := by
        rw [← sq_abs (Real.sin _), ← sq_abs (Ω / 2)]
        exact pow_le_pow_left₀ (abs_nonneg _) (Real.abs_sin_le_abs) 2
  have := abs_le_of_sq_le_sq h1 (by linarith)
  linarith [le_abs_self (σ * waveNumber κ * (1 - waveNumber κ ^ 2 / 24) / 2)]

/-- C123, speed: a wave of the lattice with at least two cells per wavelength in every direction is at most as fast as light in the medium
(`σ` cells per step), and slower by at most the fraction `|κ|²/24`. -/
theorem C123_speed {σ : ℝ} (hσ : 0 ≤ σ) (hσ2 : σ ^ 2 = s ^ 2 * ie * im) (hc : σ ^ 2 * waveDims κ ≤ 1) (hk : ∀ a, |κ a| ≤ Real.pi)
    (hΩ : 0 ≤ Ω) (hΩ' : Ω ≤ Real.pi) (w : LatticeWave s ie im κ Ω e h) :
    σ * waveNumber κ * (1 - waveNumber κ ^ 2 / 24) ≤ Ω ∧ Ω ≤ σ * waveNumber κ := by
  have hd := w.dispersion
  rw [← hσ2] at hd
  exact ⟨wave_lower hσ hΩ hd, wave_upper hσ hc hk hΩ hΩ' hd⟩

/-- C123, in metres and seconds: on a grid the constructor accepts, in a medium of relative permittivity `ε` and permeability `μ` with `ε μ ≥ 1`, a
wave of wavelength `λ` of at least ten grid spacings that varies along the extended axes only has a phase velocity between 98 % and 100 % of
`c / sqrt (ε μ)`. -/
theorem C123_velocity (shape : List (PyNum ℝ)) (spacing : ℝ) (co : Option ℝ) (g : GridNumbers) (hg : gridInit shape spacing co = .ok g)
    (hsp : 0 < spacing) (hco : 0 < g.courant) (hdim : waveDims κ ≤ spreadAxes g.shape) {ε μ : ℝ} (hε : 0 < ε) (hμ : 0 < μ) (hn : 1 ≤ ε * μ)
    (hΩ : 0 ≤ Ω) (hΩ' : Ω ≤ Real.pi) (w : LatticeWave g.courant (1 / ε) (1 / μ) κ Ω e h)
    {lam omega : ℝ} (hlam : lam * waveNumber κ = 2 * Real.pi * spacing) (hlong : 10 * spacing ≤ lam) (homega : omega = Ω / g.timeStep) :
    0.98 * (299792458 / Real.sqrt (ε * μ)) ≤ omega * lam / (2 * Real.pi) ∧ omega * lam / (2 * Real.pi) ≤ 299792458 / Real.sqrt (ε * μ) := by
  obtain ⟨hD, hlim, hts⟩ := C43_limit shape spacing co g hg
  have hπ := Real.pi_pos
  have hw : 0 ≤ waveNumber κ := Real.sqrt_nonneg _
  have hlp : 0 < lam := by linarith
  have hw0 : 0 < waveNumber κ := by
    rcases hw.lt_or_eq with h | h
    · exact h
    · rw [← h, mul_zero] at hlam
      have : 0 < 2 * Real.pi * spacing := by positivity
      linarith
  have hn0 : 0 < Real.sqrt (ε * μ) := Real.sqrt_pos.mpr (by linarith)
  have hn1 : Real.sqrt (ε * μ) ^ 2 = ε * μ := Real.sq_sqrt (by linarith)
  -- the speed of light in the medium, in cells per step
  set σ := g.courant / Real.sqrt (ε * μ) with hσd
  have hσ : 0 < σ := by positivity
  have hσ2 : σ ^ 2 = g.courant ^ 2 * (1 / ε) * (1 / μ) := by
    rw [hσd, div_pow, hn1]; field_simp
  have hcD : g.courant ^ 2 * spreadAxes g.shape ≤ 1 := by
    have hD' : (0 : ℝ) < spreadAxes g.shape := by exact_mod_cast hD
    have h1 : g.courant ^ 2 ≤ (1 / Real.sqrt (spreadAxes g.shape)) ^ 2 := pow_le_pow_left₀ hco.le hlim 2
    rw [div_pow, one_pow, Real.sq_sqrt hD'.le, le_div_iff₀ hD'] at h1
    exact h1
  have hc : σ ^ 2 * waveDims κ ≤ 1 := by
    have h1 : σ ^ 2 ≤ g.courant ^ 2 := by
      rw [hσd, div_pow, hn1]
      exact div_le_self (sq_nonneg _) hn
    have h2 : (waveDims κ : ℝ) ≤ spreadAxes g.shape := by exact_mod_cast hdim
    calc σ ^ 2 * waveDims κ ≤ g.courant ^ 2 * spreadAxes g.shape := by gcongr
      _ ≤ 1 := hcD
  have hwle : waveNumber κ ≤ 2 * Real.pi / 10 := by
    have : 10 * spacing * waveNumber κ ≤ 2 * Real.pi * spacing := by rw [← hlam]; gcongr
    have : spacing * (10 * waveNumber κ) ≤ spacing * (2 * Real.pi) := by linarith
    linarith [le_of_mul_le_mul_left this hsp]
  have hk : ∀ a, |κ a| ≤ Real.pi := fun a => by
    have h1 : κ a ^ 2 ≤ waveNumber κ ^ 2 := by
      rw [waveNumber, Real.sq_sqrt (Finset.sum_nonneg fun _ _ => sq_nonneg _)]
      exact Finset.single_le_sum (f := fun a => κ a ^ 2) (fun _ _ => sq_nonneg _) (Finset.mem_univ a)
    have := abs_le_of_sq_le_sq h1 hw
    linarith
  obtain ⟨hlo, hup⟩ := C123_speed hσ.le hσ2 hc hk hΩ hΩ' w
  have hv : omega * lam / (2 * Real.pi) = 299792458 / Real.sqrt (ε * μ) * (Ω / (σ * waveNumber κ)) := by
    have : lam = 2 * Real.pi * spacing / waveNumber κ := by field_simp; linarith
    rw [homega, hts, this, hσd]
    field_simp
  have hv0 : 0 < 299792458 / Real.sqrt (ε * μ) := by positivity
  have hσw : 0 < σ * waveNumber κ := by positivity
  rw [hv]
  constructor
  · rw [mul_comm (0.98 : ℝ)]
    refine mul_le_mul_of_nonneg_left ?_ hv0.le
    rw [le_div_iff₀ hσw]
    refine le_trans ?_ hlo
    rw [mul_comm (0.98 : ℝ)]
    refine mul_le_mul_of_nonneg_left ?_ hσw.le
    have h1 : waveNumber κ ^ 2 ≤ (2 * Real.pi / 10) ^ 2 := pow_le_pow_left₀ hw hwle 2
    have h2 : Real.pi ≤ 3.15 := by linarith [Real.pi_lt_d2]
    nlinarith
  · have : Ω / (σ * waveNumber κ) ≤ 1 := (div_le_one hσw).mpr hup
    nlinarith

/-! ### instances -/

/-- a wave along x with twelve cells per wavelength, polarised along y -/
noncomputable def demoKappa : Fin 3 → ℝ := ![Real.pi / 6, 0, 0]

lemma demo_dims : waveDims demoKappa = 1 := by
  have : (Finset.univ.filter fun a => demoKappa a ≠ 0) = {0} := by
    ext a
    rw [Finset.mem_filter]
    fin_cases a <;> simp [demoKappa, Real.pi_ne_zero]
  rw [waveDims, this, Finset.card_singleton]

lemma demo_wave (s : ℝ) (hs : 0 < s) (hs1 : s ≤ 1) : ∃ Ω h, 0 < Ω ∧ Ω ≤ Real.pi ∧ LatticeWave s (1 / 1) (1 / 1) demoKappa Ω ![0, 1, 0] h := by
  refine C123_exists hs (by norm_num) (by norm_num) _ (by rw [demo_dims]; push_cast; nlinarith) ⟨0, ?_⟩ _ ?_
  · refine (Real.sin_pos_of_pos_of_lt_pi ?_ ?_).ne' <;> have := Real.pi_pos <;> simp [demoKappa] <;> linarith
  · rw [Fin.sum_univ_three]
    simp [demoKappa]

/-- a periodic line of 25 points (24 cells) at Courant number 1/2 on which the wave fits twice: it moves on for ever -/
example : ∃ g : FGrid ℝ, ∃ Ω h, AllPeriodic g [0] ∧ UniformGrid g (1 / 1) (1 / 1) ∧ Fits g.n [0] demoKappa ∧ g.E (fun _ => 0) 1 = 1 ∧ 0 < Ω ∧
    ∀ k : ℕ, ∀ p ∈ box g.n, ∀ c, (g.run k).E p c = waveE demoKappa Ω ![0, 1, 0] k p c ∧ (g.run k).H p c = waveH demoKappa Ω h (k + 1 / 2) p c := by
  obtain ⟨Ω, h, h0, -, w⟩ := demo_wave (1 / 2) (by norm_num) (by norm_num)
  let g : FGrid ℝ := { FGrid.fresh ![25, 1, 1] (1 / 2) 1 1 with
    E := waveE demoKappa Ω ![0, 1, 0] 0, H := waveH demoKappa Ω h (1 / 2), boundaries := [.periodic 0] }
  have hp : AllPeriodic g [0] := ⟨rfl, fun a => by fin_cases a <;> simp [g, FGrid.fresh]⟩
  have hu : UniformGrid g (1 / 1) (1 / 1) :=
    ⟨fun p c => by simp [g, FGrid.fresh], fun p c => by simp [g, FGrid.fresh], fun p c => by simp [g, FGrid.fresh], rfl⟩
  have hf : Fits g.n [0] demoKappa := by
    intro a
    refine ⟨fun ha => ⟨2, ?_⟩, fun ha => ?_⟩
    · obtain rfl : a = 0 := by simpa using ha
      simp [g, FGrid.fresh, demoKappa]
      ring
    · fin_cases a
      · simp at ha
      · simp [demoKappa]
      · simp [demoKappa]
  exact ⟨g, Ω, h, hp, hu, hf, by simp [g, waveE, latticePhase, demoKappa], h0,
    fun k => C123_wave hp hu hf w (fun _ _ _ => rfl) (fun _ _ _ => rfl) k⟩

/-- the same wave on the grid of 25 × 1 × 1 cells of 100 nm that the constructor makes: between 98 and 100 % of the speed of light -/
example : ∃ g, gridInit [.int 25, .int 1, .int 1] 1e-7 none = .ok g ∧ ∃ Ω, 0.98 * 299792458 ≤ Ω / g.timeStep * 1.2e-6 / (2 * Real.pi) ∧
    Ω / g.timeStep * 1.2e-6 / (2 * Real.pi) ≤ 299792458 := by
  have hg : gridInit [.int 25, .int 1, .int 1] 1e-7 none = .ok ⟨(25, 1, 1), 1e-7, 1, 0.99, 0.99 * 1e-7 / SPEED_OF_LIGHT⟩ := by
    simp [gridInit, handleTuple, handleDistance, gridDims, maxCourant, chooseCourant, bind, Except.bind]
  refine ⟨_, hg, ?_⟩
  obtain ⟨Ω, h, h0, h1, w⟩ := demo_wave 0.99 (by norm_num) (by norm_num)
  refine ⟨Ω, ?_⟩
  have hw : waveNumber demoKappa = Real.pi / 6 := by
    rw [waveNumber, Fin.sum_univ_three]
    simp only [demoKappa, Matrix.cons_val_zero, Matrix.cons_val_one, Matrix.cons_val]
    rw [show (Real.pi / 6) ^ 2 + 0 ^ 2 + 0 ^ 2 = (Real.pi / 6) ^ 2 by ring, Real.sqrt_sq (by positivity)]
  have := C123_velocity _ _ _ _ hg (by norm_num) (by norm_num) (by rw [demo_dims]; decide) (one_pos) (one_pos) (by norm_num) h0.le h1 w
    (lam := 1.2e-6) (by rw [hw]; ring) (by norm_num) rfl
  simpa using this

end Nidn
