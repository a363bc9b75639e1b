/-
C169: quarter-wave stacks. In both solvers a stack of lossless quarter-wave layers at normal incidence reflects like one bare surface of a transformed index; Bragg mirrors and coatings follow.
-/
import Verif.Props.FilmsCases
import Verif.Props.TmmAccept
import Mathlib.Analysis.SpecificLimits.Basic

namespace Nidn

noncomputable section

/-- Specification: the index that a stack of quarter-wave layers (first layer first) on a substrate `nN` pretends to have: each layer of index `n` turns `Y` into `n² / Y`. -/
def quarterIndex (ns : List ℝ) (nN : ℝ) : ℝ := ns.foldr (fun n Y => n ^ 2 / Y) nN

/-- Specification: Fresnel's reflectance and transmittance of a bare surface at normal incidence. -/
def bareR (n0 n1 : ℝ) : ℝ := ((n0 - n1) / (n0 + n1)) ^ 2
def bareT (n0 n1 : ℝ) : ℝ := 4 * n0 * n1 / (n0 + n1) ^ 2

/-- A layer: its index and `k`, for a thickness of `2 k + 1` quarters of the wavelength inside it. -/
def quarterThickness (lam : ℝ) (l : ℝ × ℕ) : ℝ := (2 * l.2 + 1) * lam / (4 * l.1)

lemma quarterIndex_pos {ns : List ℝ} {nN : ℝ} (hN : 0 < nN) (h : ∀ n ∈ ns, 0 < n) : 0 < quarterIndex ns nN := by
  induction ns with
  | nil => exact hN
  | cons n ns ih =>
    have h1 := ih fun m hm => h m (List.mem_cons_of_mem _ hm)
    have h2 := h n List.mem_cons_self
    show 0 < n ^ 2 / quarterIndex ns nN
    positivity

lemma cos_odd (k : ℕ) : Complex.cos ((2 * k + 1) * Real.pi / 2 : ℂ) = 0 := by
  rw [Complex.cos_eq_zero_iff]
  exact ⟨k, by push_cast; ring⟩

lemma sin_odd_sq (k : ℕ) : Complex.sin ((2 * k + 1) * Real.pi / 2 : ℂ) ^ 2 = 1 := by
  have := Complex.sin_sq_add_cos_sq ((2 * k + 1) * Real.pi / 2 : ℂ)
  rwa [cos_odd, zero_pow two_ne_zero, add_zero] at this

/-- the fields in front of quarter-wave films: their ratio is the transformed impedance, their power the transmitted one -/
lemma quarter_fields (ls : List (ℝ × ℕ)) {nN : ℝ} (hN : 0 < nN) (h : ∀ l ∈ ls, 0 < l.1) :
    ∃ a : ℂ, frontFields (ls.map fun l => (1 / (l.1 : ℂ), ((2 * l.2 + 1) * Real.pi / 2 : ℂ))) (1 / (nN : ℂ)) = (a, a / (quarterIndex (ls.map (·.1)) nN : ℝ)) ∧
      Complex.normSq a * nN = quarterIndex (ls.map (·.1)) nN := by
  induction ls with
  | nil => exact ⟨1, by simp [frontFields, quarterIndex], by simp [quarterIndex]⟩
  | cons l ls ih =>
    obtain ⟨a, e, hp⟩ := ih fun m hm => h m (List.mem_cons_of_mem _ hm)
    have hl := h l List.mem_cons_self
    have hY := quarterIndex_pos (ns := ls.map (·.1)) hN (by
      intro n hn
      obtain ⟨m, hm, rfl⟩ := List.mem_map.1 hn
      exact h m (List.mem_cons_of_mem _ hm))
    set Y := quarterIndex (ls.map (·.1)) nN with hYd
    have hq : quarterIndex ((l :: ls).map (·.1)) nN = l.1 ^ 2 / Y := rfl
    have hlc : (l.1 : ℂ) ≠ 0 := Complex.ofReal_ne_zero.2 hl.ne'
    have hYc : (Y : ℂ) ≠ 0 := Complex.ofReal_ne_zero.2 hY.ne'
    have hs := sin_odd_sq l.2
    set S := Complex.sin ((2 * l.2 + 1) * Real.pi / 2 : ℂ) with hS
    have hSn : Complex.normSq S = 1 := by
      have h1 := congrArg Complex.normSq hs
      rw [map_pow, map_one] at h1
      nlinarith [Complex.normSq_nonneg S]
    refine ⟨-(Complex.I * S * l.1 * (a / Y)), ?_, ?_⟩
    · rw [List.map_cons, frontFields, e, filmFront, cos_odd, ← hS, hq]
      refine Prod.ext ?_ ?_
      · dsimp only
        field_simp
        ring
      · dsimp only
        push_cast
        field_simp
        ring
    · rw [hq, Complex.normSq_neg, map_mul, map_mul, map_mul, Complex.normSq_I, hSn, Complex.normSq_ofReal, Complex.normSq_div, Complex.normSq_ofReal]
      field_simp
      linear_combination hp

/-- reflectance and transmittance of quarter-wave films -/
lemma quarter_RT (ls : List (ℝ × ℕ)) {n0 nN : ℝ} (h0 : 0 < n0) (hN : 0 < nN) (h : ∀ l ∈ ls, 0 < l.1) :
    filmsR (1 / n0) (ls.map fun l => (1 / (l.1 : ℂ), ((2 * l.2 + 1) * Real.pi / 2 : ℂ))) (1 / (nN : ℂ)) = bareR n0 (quarterIndex (ls.map (·.1)) nN) ∧
    filmsT (1 / n0) (ls.map fun l => (1 / (l.1 : ℂ), ((2 * l.2 + 1) * Real.pi / 2 : ℂ))) (1 / (nN : ℂ)) = bareT n0 (quarterIndex (ls.map (·.1)) nN) := by
  obtain ⟨a, e, hp⟩ := quarter_fields ls hN h
  have hY := quarterIndex_pos (ns := ls.map (·.1)) hN (by
    intro n hn
    obtain ⟨m, hm, rfl⟩ := List.mem_map.1 hn
    exact h m hm)
  set Y := quarterIndex (ls.map (·.1)) nN
  have ha : a ≠ 0 := by
    rintro rfl
    rw [map_zero, zero_mul] at hp
    exact hY.ne hp
  have h0c : (n0 : ℂ) ≠ 0 := Complex.ofReal_ne_zero.2 h0.ne'
  have hYc : (Y : ℂ) ≠ 0 := Complex.ofReal_ne_zero.2 hY.ne'
  have hsc : ((n0 + Y : ℝ) : ℂ) ≠ 0 := Complex.ofReal_ne_zero.2 (by positivity)
  have hden : ((1 / n0 : ℝ) : ℂ) * a + a / (Y : ℝ) = a * ((n0 + Y) / (n0 * Y) : ℝ) := by
    push_cast
    field_simp
    ring
  unfold filmsR filmsT filmsDen
  rw [e]
  dsimp only
  rw [hden]
  constructor
  · have : (((1 / n0 : ℝ) : ℂ) * a - a / (Y : ℝ)) / (a * ((n0 + Y) / (n0 * Y) : ℝ)) = (((Y - n0) / (n0 + Y) : ℝ) : ℂ) := by
      push_cast at hsc ⊢
      field_simp
    rw [this, Complex.normSq_ofReal, bareR]
    ring
  · have hna : Complex.normSq a = Y / nN := by rw [eq_div_iff hN.ne', hp]
    rw [Complex.normSq_mul, hna, Complex.normSq_ofReal, bareT]
    have : (1 / (nN : ℂ)).re = 1 / nN := by rw [← Complex.ofReal_one, ← Complex.ofReal_div, Complex.ofReal_re]
    rw [this]
    field_simp

/-- C169, transfer-matrix solver. For every list of quarter-wave layers (any odd number of quarters each), either polarisation, at normal incidence, `coh_tmm` succeeds and its R and T are those of a bare
surface with the transformed index. -/
theorem C169_tmm (asin : ℂ → ℂ) (hasin : ∀ z, Complex.sin (asin z) = z) (hz : asin 0 = 0) (pol : String) (hpol : pol = "s" ∨ pol = "p") (n0 nN lam : ℝ) (h0 : 0 < n0) (hN : 0 < nN)
    (hlam : 0 < lam) (ls : List (ℝ × ℕ)) (h : ∀ l ∈ ls, 0 < l.1) :
    ∃ c, cohTmm asin pol ((n0 : ℂ) :: (ls.map (fun l => (l.1 : ℂ)) ++ [(nN : ℂ)])) (none :: (ls.map (fun l => some (quarterThickness lam l)) ++ [none])) 0 lam = .ok c ∧
      c.R = bareR n0 (quarterIndex (ls.map (·.1)) nN) ∧ c.T = bareT n0 (quarterIndex (ls.map (·.1)) nN) := by
  set mids : List (ℂ × ℝ × ℂ) := ls.map fun l => ((l.1 : ℂ), quarterThickness lam l, 1) with hmids
  have e1 : (n0 : ℂ) :: (ls.map (fun l => (l.1 : ℂ)) ++ [(nN : ℂ)]) = stackIndices n0 mids nN := by simp [stackIndices, hmids, Function.comp_def]
  have e2 : none :: (ls.map (fun l => some (quarterThickness lam l)) ++ [none]) = stackThicknesses mids := by simp [stackThicknesses, hmids, Function.comp_def]
  have tr : ∀ x : ℝ, 0 < x → Travels asin ((n0 * Real.sin 0 : ℝ) : ℂ) x := fun x hx => ⟨Complex.ofReal_ne_zero.2 hx.ne', by simp, by simpa [normalIndex, hz] using hx, by simp [normalIndex, hz]⟩
  have hd : ∀ l ∈ ls, (2 * Real.pi * (l.1 : ℂ) * 1 * (quarterThickness lam l : ℝ) / lam : ℂ) = (2 * l.2 + 1) * Real.pi / 2 := by
    intro l hl
    have := (h l hl).ne'
    have hlc : (l.1 : ℂ) ≠ 0 := Complex.ofReal_ne_zero.2 this
    have hlm : (lam : ℂ) ≠ 0 := Complex.ofReal_ne_zero.2 hlam.ne'
    unfold quarterThickness
    push_cast
    field_simp
    ring
  have hreal : ∀ k : ℕ, ((2 * k + 1) * Real.pi / 2 : ℂ).im = 0 := fun k => by
    have : ((2 * k + 1) * Real.pi / 2 : ℂ) = (((2 * k + 1) * Real.pi / 2 : ℝ) : ℂ) := by push_cast; ring
    rw [this, Complex.ofReal_im]
  obtain ⟨c, hc⟩ := C140_accepts asin hasin pol hpol n0 0 lam h0 (by simp) hlam mids nN (by
      intro m hm
      simp only [stackIndices, hmids, List.map_map, List.mem_cons, List.mem_append, List.mem_map, List.not_mem_nil, or_false] at hm
      rcases hm with rfl | ⟨l, hl, rfl⟩ | rfl
      · exact tr _ h0
      · exact tr _ (h l hl)
      · exact tr _ hN) (by
      intro m hm
      obtain ⟨l, hl, rfl⟩ := List.mem_map.1 hm
      have hl0 := h l hl
      refine ⟨by unfold quarterThickness; positivity, ?_⟩
      have : normalIndex asin ((n0 * Real.sin 0 : ℝ) : ℂ) (l.1 : ℂ) = l.1 * 1 := by simp [normalIndex, hz]
      dsimp only
      rw [this, ← mul_assoc, hd l hl, hreal]
      norm_num)
  rw [Complex.ofReal_zero] at hc
  refine ⟨c, by rw [e1, e2]; exact hc, ?_⟩
  have := C140_films asin hasin pol n0 0 lam mids nN 1 c (by rw [Complex.ofReal_zero]; exact hc) (by
      intro m hm
      obtain ⟨l, hl, rfl⟩ := List.mem_map.1 hm
      refine ⟨by simp, ?_⟩
      dsimp only
      rw [hd l hl, hreal]
      norm_num) (by simp) (.inr ⟨by rw [mul_one, Complex.ofReal_im, abs_zero]; positivity, by simpa using hN⟩)
  have hf : filmStack pol lam mids = ls.map fun l => (1 / (l.1 : ℂ), ((2 * l.2 + 1) * Real.pi / 2 : ℂ)) := by
    rw [filmStack, hmids, List.map_map]
    refine List.map_congr_left fun l hl => ?_
    simp only [Function.comp]
    rw [hd l hl, filmImpedance, mul_one]
    simp
  have hb : filmImpedance pol nN 1 = 1 / nN := by simp [filmImpedance]
  have ha : (if pol = "s" then 1 / (n0 * Real.cos 0) else Real.cos 0 / n0) = 1 / n0 := by simp
  rw [hf, hb, ha] at this
  obtain ⟨q1, q2⟩ := quarter_RT ls h0 hN h
  rw [q1, q2] at this
  exact this

variable {n : ℕ}

/-- C169, Fourier-modal solver at a real frequency: the same law, for any mixture of polarisations and any set of orders that propagate in front and graze nowhere. -/
theorem C169_rcwa (ω φ n0 nN : ℝ) (hω : 0 < ω) (h0 : 0 < n0) (hN : 0 < nN) (ls : List (ℝ × ℕ)) (hls : ∀ l ∈ ls, 0 < l.1) (Lk1 Lk2 : ℝ × ℝ)
    (G : Fin n → ℤ × ℤ) (o : Fin n) (ho : G o = (0, 0)) (d0 dN : ℝ) (kx ky : Fin n → ℂ)
    (hkx : kx = kxOf ω 0 φ (n0 ^ 2) Lk1 Lk2 G) (hky : ky = kyOf ω 0 φ (n0 ^ 2) Lk1 Lk2 G)
    (hprop : ∀ i, (kx i).re ^ 2 + (ky i).re ^ 2 < n0 ^ 2 * ω ^ 2)
    (hq : ∀ m ∈ nN :: ls.map (·.1), ∀ i, ((m ^ 2 : ℝ) : ℂ) * (ω : ℂ) ^ 2 ≠ kx i ^ 2 + ky i ^ 2)
    (s p : ℂ) (hsp : Complex.normSq s + Complex.normSq p = 1) :
    rtForward ω (rtNormalization (n0 ^ 2) 0) (uniformLayer ω kx ky ((n0 ^ 2 : ℝ) : ℂ) d0 ::
        (ls.map (fun l => uniformLayer ω kx ky ((l.1 ^ 2 : ℝ) : ℂ) (quarterThickness (2 * Real.pi / ω) l)) ++ [uniformLayer ω kx ky ((nN ^ 2 : ℝ) : ℂ) dN])) (planewave 0 φ s p o) 0 =
      .ok (bareR n0 (quarterIndex (ls.map (·.1)) nN), bareT n0 (quarterIndex (ls.map (·.1)) nN)) := by
  have hπ := Real.pi_pos
  have hx : ∀ i, (kx i).im = 0 := by rw [hkx]; exact kxOf_real ω 0 φ _ Lk1 Lk2 G
  have hy : ∀ i, (ky i).im = 0 := by rw [hky]; exact kyOf_real ω 0 φ _ Lk1 Lk2 G
  have hq0 : ∀ i, ((n0 ^ 2 : ℝ) : ℂ) * (ω : ℂ) ^ 2 ≠ kx i ^ 2 + ky i ^ 2 := by
    intro i e
    have e1 : kx i = ((kx i).re : ℂ) := Complex.ext rfl (by rw [hx i, Complex.ofReal_im])
    have e2 : ky i = ((ky i).re : ℂ) := Complex.ext rfl (by rw [hy i, Complex.ofReal_im])
    rw [e1, e2] at e
    have := hprop i
    have e' : n0 ^ 2 * ω ^ 2 = (kx i).re ^ 2 + (ky i).re ^ 2 := by exact_mod_cast e
    linarith
  set mids : List (ℂ × ℝ × ℂ) := ls.map fun l => (((l.1 ^ 2 : ℝ) : ℂ), quarterThickness (2 * Real.pi / ω) l, (l.1 : ℂ)) with hmids
  have el : (uniformLayer ω kx ky ((n0 ^ 2 : ℝ) : ℂ) d0 ::
        (ls.map (fun l => uniformLayer ω kx ky ((l.1 ^ 2 : ℝ) : ℂ) (quarterThickness (2 * Real.pi / ω) l)) ++ [uniformLayer ω kx ky ((nN ^ 2 : ℝ) : ℂ) dN])) =
      uniformLayer ω kx ky ((n0 ^ 2 : ℝ) : ℂ) d0 :: (mids.map (fun m => (m.1, m.2.1)) ++ [(((nN ^ 2 : ℝ) : ℂ), dN)]).map fun e => uniformLayer ω kx ky e.1 e.2 := by
    simp [hmids, Function.comp_def]
  have hqs : ∀ M ∈ uniformLayer ω kx ky ((n0 ^ 2 : ℝ) : ℂ) d0 :: (mids.map (fun m => (m.1, m.2.1)) ++ [(((nN ^ 2 : ℝ) : ℂ), dN)]).map fun e => uniformLayer ω kx ky e.1 e.2,
      ∀ m, M.q m ≠ 0 := by
    rw [← el]
    intro M hM
    simp only [List.mem_cons, List.mem_append, List.mem_map, List.not_mem_nil, or_false] at hM
    rcases hM with rfl | ⟨l, hl, rfl⟩ | rfl
    · exact qs_of_ord (no_grazing hq0)
    · exact qs_of_ord (no_grazing (hq _ (List.mem_cons_of_mem _ (List.mem_map_of_mem hl))))
    · exact qs_of_ord (no_grazing (hq _ List.mem_cons_self))
  have hne : ∀ x : ℝ, 0 < x → ((x ^ 2 : ℝ) : ℂ) ≠ 0 := fun x hx => Complex.ofReal_ne_zero.2 (by positivity)
  obtain ⟨R, T, h⟩ := C113_real ω 0 φ (n0 ^ 2) hω (by positivity) Lk1 Lk2 G kx ky hkx hky hprop d0 (mids.map fun m => (m.1, m.2.1)) (by
      intro m hm
      obtain ⟨m', hm', rfl⟩ := List.mem_map.1 hm
      obtain ⟨l, hl, rfl⟩ := List.mem_map.1 hm'
      have hl0 := hls l hl
      exact ⟨hne _ hl0, by rw [Complex.ofReal_im], by unfold quarterThickness; positivity⟩) ((nN ^ 2 : ℝ) : ℂ) dN (hne _ hN) (by rw [Complex.ofReal_im]) _ rfl hqs
      (rtNormalization (n0 ^ 2) 0) (planewave 0 φ s p o) 0
  have hf := C112_films ω 0 φ (n0 ^ 2) hω (by simp) (by positivity) Lk1 Lk2 G o ho d0 mids (by
      intro m hm
      obtain ⟨l, hl, rfl⟩ := List.mem_map.1 hm
      exact ⟨hne _ (hls l hl), by simp⟩) ((nN ^ 2 : ℝ) : ℂ) dN (nN : ℂ) (hne _ hN) (by simp) (.inr ⟨Complex.ofReal_im _, by rwa [Complex.ofReal_re]⟩) kx ky hkx hky _ rfl
      hqs s p R T h
  have hωc : (ω : ℂ) ≠ 0 := Complex.ofReal_ne_zero.2 hω.ne'
  have hs1 : (mids.map fun m => (1 / m.2.2, (ω : ℂ) * m.2.2 * (m.2.1 : ℝ))) = ls.map fun l => (1 / (l.1 : ℂ), ((2 * l.2 + 1) * Real.pi / 2 : ℂ)) := by
    rw [hmids, List.map_map]
    refine List.map_congr_left fun l hl => ?_
    have hlc : (l.1 : ℂ) ≠ 0 := Complex.ofReal_ne_zero.2 (hls l hl).ne'
    refine Prod.ext rfl ?_
    simp only [Function.comp]
    unfold quarterThickness
    push_cast
    field_simp
    ring
  have hs2 : (mids.map fun m => (m.2.2 / m.1, (ω : ℂ) * m.2.2 * (m.2.1 : ℝ))) = ls.map fun l => (1 / (l.1 : ℂ), ((2 * l.2 + 1) * Real.pi / 2 : ℂ)) := by
    rw [← hs1, hmids, List.map_map, List.map_map]
    refine List.map_congr_left fun l hl => ?_
    have hlc : (l.1 : ℂ) ≠ 0 := Complex.ofReal_ne_zero.2 (hls l hl).ne'
    refine Prod.ext ?_ rfl
    simp only [Function.comp]
    push_cast
    field_simp
  have hb : (nN : ℂ) / ((nN ^ 2 : ℝ) : ℂ) = 1 / (nN : ℂ) := by
    have : (nN : ℂ) ≠ 0 := Complex.ofReal_ne_zero.2 hN.ne'
    push_cast
    field_simp
  have hr : Real.sqrt (n0 ^ 2) = n0 := Real.sqrt_sq h0.le
  rw [hs1, hs2, hb, hr, Real.cos_zero, mul_one] at hf
  obtain ⟨q1, q2⟩ := quarter_RT ls h0 hN hls
  obtain ⟨-, -, hR, hT⟩ := hf
  rw [q1, ← add_mul, hsp, one_mul] at hR
  rw [q2, ← add_mul, hsp, one_mul] at hT
  rw [el, h, hR, hT]

/-- Specification: `N` pairs of a high and a low index, each layer one quarter of a wavelength. -/
def braggPairs (nH nL : ℝ) (N : ℕ) : List (ℝ × ℕ) := (List.replicate N [(nH, 0), (nL, 0)]).flatten

lemma braggPairs_index {nH nL nN : ℝ} (hH : 0 < nH) (hL : 0 < nL) (hN : 0 < nN) (N : ℕ) : quarterIndex ((braggPairs nH nL N).map (·.1)) nN = (nH / nL) ^ (2 * N) * nN := by
  induction N with
  | zero => simp [braggPairs, quarterIndex]
  | succ N ih =>
    have : quarterIndex ((braggPairs nH nL (N + 1)).map (·.1)) nN = nH ^ 2 / (nL ^ 2 / quarterIndex ((braggPairs nH nL N).map (·.1)) nN) := by
      rw [braggPairs, List.replicate_succ]
      rfl
    rw [this, ih, Nat.mul_add, pow_add, mul_one, div_pow nH nL 2]
    field_simp

lemma braggPairs_pos {nH nL : ℝ} (hH : 0 < nH) (hL : 0 < nL) (N : ℕ) : ∀ l ∈ braggPairs nH nL N, 0 < l.1 := by
  intro l hl
  obtain ⟨x, hx, hlx⟩ := List.mem_flatten.1 hl
  rw [(List.mem_replicate.1 hx).2] at hlx
  simp only [List.mem_cons, List.not_mem_nil, or_false] at hlx
  rcases hlx with rfl | rfl <;> assumption

/-- the call for a Bragg mirror of `N` pairs -/
def braggTmm (asin : ℂ → ℂ) (pol : String) (n0 nH nL nN lam : ℝ) (N : ℕ) : Except PyErr TmmData :=
  cohTmm asin pol ((n0 : ℂ) :: ((braggPairs nH nL N).map (fun l => (l.1 : ℂ)) ++ [(nN : ℂ)])) (none :: ((braggPairs nH nL N).map (fun l => some (quarterThickness lam l)) ++ [none])) 0 lam

/-- C169, Bragg mirrors: the textbook reflectance. -/
theorem C169_bragg (asin : ℂ → ℂ) (hasin : ∀ z, Complex.sin (asin z) = z) (hz : asin 0 = 0) (pol : String) (hpol : pol = "s" ∨ pol = "p") (n0 nH nL nN lam : ℝ) (h0 : 0 < n0)
    (hH : 0 < nH) (hL : 0 < nL) (hN : 0 < nN) (hlam : 0 < lam) (N : ℕ) :
    ∃ c, braggTmm asin pol n0 nH nL nN lam N = .ok c ∧ c.R = ((n0 * nL ^ (2 * N) - nN * nH ^ (2 * N)) / (n0 * nL ^ (2 * N) + nN * nH ^ (2 * N))) ^ 2 ∧ c.R + c.T = 1 := by
  obtain ⟨c, hc, hR, hT⟩ := C169_tmm asin hasin hz pol hpol n0 nN lam h0 hN hlam _ (braggPairs_pos hH hL N)
  rw [braggPairs_index hH hL hN] at hR hT
  refine ⟨c, hc, ?_, ?_⟩
  · rw [hR, bareR, div_pow nH nL]
    congr 1
    field_simp
  · rw [hR, hT, bareR, bareT]
    have : n0 + (nH / nL) ^ (2 * N) * nN ≠ 0 := by positivity
    field_simp
    ring

/-- C169: every further pair makes the mirror better, once the substrate is at least as dense as the medium in front. -/
theorem C169_better (asin : ℂ → ℂ) (hasin : ∀ z, Complex.sin (asin z) = z) (hz : asin 0 = 0) (pol : String) (hpol : pol = "s" ∨ pol = "p") (n0 nH nL nN lam : ℝ) (h0 : 0 < n0)
    (hL : 0 < nL) (hHL : nL < nH) (hN : n0 ≤ nN) (hlam : 0 < lam) {M N : ℕ} (hMN : M < N) :
    ∃ c c', braggTmm asin pol n0 nH nL nN lam M = .ok c ∧ braggTmm asin pol n0 nH nL nN lam N = .ok c' ∧ c.R < c'.R ∧ c'.T < c.T := by
  have hN' : 0 < nN := h0.trans_le hN
  have hH : 0 < nH := hL.trans hHL
  obtain ⟨c, hc, hR, hT⟩ := C169_tmm asin hasin hz pol hpol n0 nN lam h0 hN' hlam _ (braggPairs_pos hH hL M)
  obtain ⟨c', hc', hR', hT'⟩ := C169_tmm asin hasin hz pol hpol n0 nN lam h0 hN' hlam _ (braggPairs_pos hH hL N)
  rw [braggPairs_index hH hL hN'] at hR hT hR' hT'
  have h1 : 1 < nH / nL := (one_lt_div hL).2 hHL
  have hlt : (nH / nL) ^ (2 * M) < (nH / nL) ^ (2 * N) := pow_lt_pow_right₀ h1 (by omega)
  have hge : 1 ≤ (nH / nL) ^ (2 * M) := one_le_pow₀ h1.le
  set a := (nH / nL) ^ (2 * M)
  set b := (nH / nL) ^ (2 * N)
  have ha : n0 ≤ a * nN := by nlinarith
  have hab : a * nN < b * nN := mul_lt_mul_of_pos_right hlt hN'
  set u := a * nN
  set v := b * nN
  have hu : 0 < u := h0.trans_le ha
  have hv : 0 < v := hu.trans hab
  have key : bareT n0 v < bareT n0 u := by
    unfold bareT
    rw [div_lt_div_iff₀ (by positivity) (by positivity)]
    have e : 4 * n0 * u * (n0 + v) ^ 2 - 4 * n0 * v * (n0 + u) ^ 2 = 4 * n0 * ((v - u) * (u * v - n0 ^ 2)) := by ring
    have h2 : 0 < u * v - n0 ^ 2 := by nlinarith
    have h3 : 0 < 4 * n0 * ((v - u) * (u * v - n0 ^ 2)) := by
      have := sub_pos.2 hab
      positivity
    linarith
  have sum : ∀ x : ℝ, 0 < x → bareR n0 x = 1 - bareT n0 x := by
    intro x hx
    unfold bareR bareT
    have : n0 + x ≠ 0 := by positivity
    field_simp
    ring
  refine ⟨c, c', hc, hc', ?_, ?_⟩
  · rw [hR, hR', sum u hu, sum v hv]; linarith
  · rw [hT, hT']; exact key

/-- C169: enough pairs reflect as much as one likes. -/
theorem C169_mirror (asin : ℂ → ℂ) (hasin : ∀ z, Complex.sin (asin z) = z) (hz : asin 0 = 0) (pol : String) (hpol : pol = "s" ∨ pol = "p") (n0 nH nL nN lam : ℝ) (h0 : 0 < n0)
    (hL : 0 < nL) (hHL : nL < nH) (hN : 0 < nN) (hlam : 0 < lam) (τ : ℝ) (hτ : 0 < τ) :
    ∃ N0, ∀ N ≥ N0, ∃ c, braggTmm asin pol n0 nH nL nN lam N = .ok c ∧ 1 - τ < c.R ∧ c.T < τ := by
  have hH : 0 < nH := hL.trans hHL
  have h1 : 1 < nH / nL := (one_lt_div hL).2 hHL
  obtain ⟨N0, hN0⟩ := pow_unbounded_of_one_lt (4 * n0 / (τ * nN)) h1
  refine ⟨N0, fun N hge => ?_⟩
  obtain ⟨c, hc, hR, hT⟩ := C169_tmm asin hasin hz pol hpol n0 nN lam h0 hN hlam _ (braggPairs_pos hH hL N)
  rw [braggPairs_index hH hL hN] at hR hT
  have hle : (nH / nL) ^ N0 ≤ (nH / nL) ^ (2 * N) := pow_le_pow_right₀ h1.le (by omega)
  have hbig : 4 * n0 < τ * ((nH / nL) ^ (2 * N) * nN) := by
    have := (div_lt_iff₀ (by positivity)).1 (hN0.trans_le hle)
    linarith
  set u := (nH / nL) ^ (2 * N) * nN with hu
  have hu0 : 0 < u := by positivity
  have key : bareT n0 u < τ := by
    unfold bareT
    rw [div_lt_iff₀ (by positivity)]
    nlinarith [mul_pos hτ (mul_pos h0 hu0), mul_pos hτ (mul_pos h0 h0), mul_lt_mul_of_pos_right hbig hu0]
  have sum : bareR n0 u = 1 - bareT n0 u := by
    unfold bareR bareT
    have : n0 + u ≠ 0 := by positivity
    field_simp
    ring
  exact ⟨c, hc, by rw [hR, sum]; linarith, by rw [hT]; exact key⟩

/-- C169: a quarter-wave coating of any number of layers reflects nothing exactly if its transformed index is that of the medium in front. -/
theorem C169_coating (asin : ℂ → ℂ) (hasin : ∀ z, Complex.sin (asin z) = z) (hz : asin 0 = 0) (pol : String) (hpol : pol = "s" ∨ pol = "p") (n0 nN lam : ℝ) (h0 : 0 < n0) (hN : 0 < nN)
    (hlam : 0 < lam) (ls : List (ℝ × ℕ)) (h : ∀ l ∈ ls, 0 < l.1) :
    ∃ c, cohTmm asin pol ((n0 : ℂ) :: (ls.map (fun l => (l.1 : ℂ)) ++ [(nN : ℂ)])) (none :: (ls.map (fun l => some (quarterThickness lam l)) ++ [none])) 0 lam = .ok c ∧
      (c.R = 0 ↔ quarterIndex (ls.map (·.1)) nN = n0) ∧ (c.T = 1 ↔ quarterIndex (ls.map (·.1)) nN = n0) := by
  obtain ⟨c, hc, hR, hT⟩ := C169_tmm asin hasin hz pol hpol n0 nN lam h0 hN hlam ls h
  have hY := quarterIndex_pos (ns := ls.map (·.1)) hN (by
    intro n hn
    obtain ⟨m, hm, rfl⟩ := List.mem_map.1 hn
    exact h m hm)
  set Y := quarterIndex (ls.map (·.1)) nN
  have hs : n0 + Y ≠ 0 := by positivity
  refine ⟨c, hc, ?_, ?_⟩
  · rw [hR, bareR, pow_eq_zero_iff two_ne_zero, div_eq_zero_iff, or_iff_left hs, sub_eq_zero, eq_comm]
  · rw [hT, bareT, div_eq_one_iff_eq (pow_ne_zero _ hs)]
    constructor
    · intro e
      have : (n0 - Y) ^ 2 = 0 := by linear_combination -e
      have := pow_eq_zero_iff two_ne_zero |>.1 this
      linarith
    · rintro e
      rw [e]; ring

/-- one pair of indices 2 and 3/2 in air on glass of index 3/2: R = (5/11)² -/
example : ∃ c, braggTmm someArcsin "p" 1 2 (3 / 2) (3 / 2) 1 1 = .ok c ∧ c.R = (5 / 11) ^ 2 := by
  obtain ⟨c, hc, hR, -⟩ := C169_bragg someArcsin someArcsin_sin (by simp [someArcsin]) "p" (.inr rfl) 1 2 (3 / 2) (3 / 2) 1 one_pos two_pos (by norm_num) (by norm_num) one_pos 1
  exact ⟨c, hc, by rw [hR]; norm_num⟩

/-- the two-layer coating 2, 3 on a substrate of index 9/4: the transformed index is 4 / (9 / (9/4)) = 1, nothing is reflected in air -/
example : ∃ c, cohTmm someArcsin "s" [1, (2 : ℝ), (3 : ℝ), (9 / 4 : ℝ)] [none, some (1 / 8), some (1 / 4), none] 0 (1 : ℝ) = .ok c ∧ c.R = 0 := by
  obtain ⟨c, hc, hR, -⟩ := C169_coating someArcsin someArcsin_sin (by simp [someArcsin]) "s" (.inl rfl) 1 (9 / 4) 1 one_pos (by norm_num) one_pos [(2, 0), (3, 1)] (by
    intro l hl
    simp only [List.mem_cons, List.not_mem_nil, or_false] at hl
    rcases hl with rfl | rfl <;> norm_num)
  refine ⟨c, ?_, hR.2 (by norm_num [quarterIndex])⟩
  rw [← hc]
  norm_num [quarterThickness]

/-- the same coating in the Fourier-modal solver -/
example : ∃ R T, rtForward ((1 : ℝ) : ℂ) (rtNormalization (1 ^ 2) 0) (uniformLayer ((1 : ℝ) : ℂ) (kxOf ((1 : ℝ) : ℂ) 0 0 (1 ^ 2) (1, 0) (0, 1) oneOrder) (kyOf ((1 : ℝ) : ℂ) 0 0 (1 ^ 2) (1, 0) (0, 1) oneOrder) (((1 : ℝ) ^ 2 : ℝ) : ℂ) 1 ::
      ([((2 : ℝ), 0), ((3 : ℝ), 1)].map (fun l => uniformLayer ((1 : ℝ) : ℂ) (kxOf ((1 : ℝ) : ℂ) 0 0 (1 ^ 2) (1, 0) (0, 1) oneOrder) (kyOf ((1 : ℝ) : ℂ) 0 0 (1 ^ 2) (1, 0) (0, 1) oneOrder) ((l.1 ^ 2 : ℝ) : ℂ) (quarterThickness (2 * Real.pi / 1) l)) ++
        [uniformLayer ((1 : ℝ) : ℂ) (kxOf ((1 : ℝ) : ℂ) 0 0 (1 ^ 2) (1, 0) (0, 1) oneOrder) (kyOf ((1 : ℝ) : ℂ) 0 0 (1 ^ 2) (1, 0) (0, 1) oneOrder) (((9 / 4 : ℝ) ^ 2 : ℝ) : ℂ) 1])) (planewave 0 0 1 0 (0 : Fin 1)) 0 = .ok (R, T) ∧ R = 0 := by
  refine ⟨_, _, C169_rcwa 1 0 1 (9 / 4) one_pos one_pos (by norm_num) [(2, 0), (3, 1)] ?_ (1, 0) (0, 1) oneOrder 0 rfl 1 1 _ _ rfl rfl (fun i => ?_) ?_ 1 0 (by simp), by norm_num [bareR, quarterIndex]⟩
  · intro l hl
    simp only [List.mem_cons, List.not_mem_nil, or_false] at hl
    rcases hl with rfl | rfl <;> norm_num
  · obtain ⟨k1, k2⟩ := kOf_zero_order ((1 : ℝ) : ℂ) 0 (1 ^ 2) (1, 0) (0, 1) (G := oneOrder) (o := i) (by rfl)
    rw [k1, k2]; norm_num
  · intro m hm
    refine one_no_grazing one_pos ?_
    simp only [List.map_cons, List.map_nil, List.mem_cons, List.not_mem_nil, or_false] at hm
    rcases hm with rfl | rfl | rfl <;> norm_num

end

end Nidn
