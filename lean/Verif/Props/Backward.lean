/-
Properties C107 (light from behind) and C108 (power by order).
-/
import Verif.Props.Maxwell

set_option linter.unusedSectionVars false

namespace Nidn

open Matrix

variable {κ : Type} [Fintype κ] [DecidableEq κ]

/-! ## turning a stack around -/

lemma hTan_flip {ι : Type} [Fintype ι] (L : LayerData ι) (u v : ι → ℂ) : L.hTan v u = L.hTan u v := by
  rw [LayerData.hTan, add_comm]; rfl

lemma eTan_flip {ι : Type} [Fintype ι] (L : LayerData ι) (u v : ι → ℂ) : L.eTan v u = -L.eTan u v := by
  rw [LayerData.eTan, LayerData.eTan, ← Matrix.mulVec_neg, ← Matrix.mulVec_neg]
  congr 2
  ext m
  rw [Pi.neg_apply]; ring

lemma continuous_flip {ι : Type} [Fintype ι] {L L' : LayerData ι} {a b a' b' : ι → ℂ} (h : Continuous L L' a b a' b') :
    Continuous L' L b' a' b a where
  h := by rw [hTan_flip, hTan_flip L, ← h.h]
  e := by rw [eTan_flip, eTan_flip L, ← h.e]

lemma stackSol_flip {ι : Type} [Fintype ι] [DecidableEq ι] {l : List (LayerData ι)} {a0 b0 aN bN : ι → ℂ} (h : StackSol l a0 b0 aN bN) :
    StackSol l.reverse bN aN b0 a0 := by
  induction l generalizing a0 b0 with
  | nil => exact h
  | cons L rest ih =>
    cases rest with
    | nil =>
      obtain ⟨rfl, rfl⟩ := h
      exact ⟨rfl, rfl⟩
    | cons L' rest =>
      obtain ⟨a', b', hc, hs⟩ := h
      have h1 := ih hs
      rw [List.reverse_cons] at h1 ⊢
      rw [List.reverse_cons, List.append_assoc]
      exact (stackSol_append _ L' [L] _ _ _ _).2 ⟨b', a', h1, b0, a0, continuous_flip hc, rfl, rfl⟩

lemma fluxXY_flip (ω : ℂ) (L : LayerData (κ ⊕ κ)) (a b : κ ⊕ κ → ℂ) (m : κ ⊕ κ) : forwardXY ω L a b m = -backwardXY ω L b a m := by
  have h5 : (starRingEnd ℂ) (0.5 : ℂ) = 0.5 := by
    rw [show (0.5 : ℂ) = ((1 / 2 : ℝ) : ℂ) by norm_num, Complex.conj_ofReal]
  simp only [forwardXY, backwardXY, fluxDiff, map_mul, map_sub, Complex.conj_conj, h5]
  ring

lemma byOrder_flip (ω : ℂ) (L : LayerData (κ ⊕ κ)) (a b : κ ⊕ κ → ℂ) (i : κ) : (fluxByOrder ω L a b).1 i = -(fluxByOrder ω L b a).2 i := by
  simp only [fluxByOrder, fluxXY_flip]; ring

lemma zflux_flip (ω : ℂ) (L : LayerData (κ ⊕ κ)) (a b : κ ⊕ κ → ℂ) : (zPoyntingFlux ω L a b).1 = -(zPoyntingFlux ω L b a).2 := by
  simp only [zPoyntingFlux, byOrder_flip, Finset.sum_neg_distrib]

/-! ## what `RT_Solve` returns -/

lemma rtSolve_forward {nrm bo : ℤ} {ω : ℂ} {norm : ℝ} {layers : List (LayerData (κ ⊕ κ))} {a0 bN : κ ⊕ κ → ℂ} {u : (κ ⊕ κ → ℂ) × (κ ⊕ κ → ℂ)}
    {L0 LN : LayerData (κ ⊕ κ)} (hu : solveExterior layers a0 bN = .ok u) (h0 : layers.head? = some L0) (hN : layers.getLast? = some LN) :
    rtSolve "forward" nrm bo ω norm layers a0 bN = .ok (if bo = 0 then
        .total ((-(zPoyntingFlux ω L0 a0 u.2).2).re * (if nrm = 1 then norm else 1)) ((zPoyntingFlux ω LN u.1 bN).1.re * (if nrm = 1 then norm else 1))
      else .orders (fun i => (-(fluxByOrder ω L0 a0 u.2).2 i).re * (if nrm = 1 then norm else 1))
        (fun i => ((fluxByOrder ω LN u.1 bN).1 i).re * (if nrm = 1 then norm else 1))) := by
  rw [rtSolve, hu, ok_bind, h0, hN]
  by_cases hb : bo = 0
  · rw [if_pos hb]; simp only [hb, if_true]; rfl
  · rw [if_neg hb]; simp only [hb, if_true, if_false]; rfl

lemma rtSolve_backward {nrm bo : ℤ} {ω : ℂ} {norm : ℝ} {layers : List (LayerData (κ ⊕ κ))} {a0 bN : κ ⊕ κ → ℂ} {u : (κ ⊕ κ → ℂ) × (κ ⊕ κ → ℂ)}
    {L0 LN : LayerData (κ ⊕ κ)} (hu : solveExterior layers a0 bN = .ok u) (h0 : layers.head? = some L0) (hN : layers.getLast? = some LN) :
    rtSolve "backward" nrm bo ω norm layers a0 bN = .ok (if bo = 0 then
        .total ((zPoyntingFlux ω LN u.1 bN).1.re * (if nrm = 1 then norm else 1)) ((-(zPoyntingFlux ω L0 a0 u.2).2).re * (if nrm = 1 then norm else 1))
      else .orders (fun i => ((fluxByOrder ω LN u.1 bN).1 i).re * (if nrm = 1 then norm else 1))
        (fun i => (-(fluxByOrder ω L0 a0 u.2).2 i).re * (if nrm = 1 then norm else 1))) := by
  rw [rtSolve, hu, ok_bind, h0, hN]
  have hs : ("backward" : String) ≠ "forward" := by decide
  by_cases hb : bo = 0
  · rw [if_pos hb]; simp only [hb, if_true, if_neg hs]; rfl
  · rw [if_neg hb]; simp only [hb, if_true, if_false, if_neg hs]; rfl

/-- a successful call found a solution, a first and a last layer -/
lemma rtSolve_ok {dir : String} {nrm bo : ℤ} {ω : ℂ} {norm : ℝ} {layers : List (LayerData (κ ⊕ κ))} {a0 bN : κ ⊕ κ → ℂ} {r : RtResult κ}
    (h : rtSolve dir nrm bo ω norm layers a0 bN = .ok r) :
    ∃ u L0 LN, solveExterior layers a0 bN = .ok u ∧ layers.head? = some L0 ∧ layers.getLast? = some LN := by
  unfold rtSolve at h
  obtain ⟨u, hu, h⟩ := bind_ok.1 h
  cases h0 : layers.head? with
  | none => rw [h0] at h; simp at h
  | some L0 =>
    cases hN : layers.getLast? with
    | none => rw [h0, hN] at h; simp at h
    | some LN => exact ⟨u, L0, LN, hu, rfl, rfl⟩

/-! ## C107 -/

/-- C107: illuminating any stack from behind gives exactly the reflectance and transmittance, in total or by order, of the stack turned
around and illuminated from the front, for the same wave vectors and the same normalisation. -/
theorem C107_mirror_partial (nrm bo : ℤ) (ω : ℂ) (norm : ℝ) (layers : List (LayerData (κ ⊕ κ))) (hq : ∀ M ∈ layers, ∀ m, M.q m ≠ 0)
    (θ φ : ℝ) (s p : ℂ) (o : κ) (r r' : RtResult κ)
    (hb : rtSolve "backward" nrm bo ω norm layers (excitation "backward" θ φ s p o).1 (excitation "backward" θ φ s p o).2 = .ok r)
    (hf : rtSolve "forward" nrm bo ω norm layers.reverse (excitation "forward" θ φ s p o).1 (excitation "forward" θ φ s p o).2 = .ok r') :
    r = r' := by
  have x1 : excitation "backward" θ φ s p o = (0, planewave θ φ s p o) := by simp [excitation]
  have x2 : excitation "forward" θ φ s p o = (planewave θ φ s p o, 0) := by simp [excitation]
  rw [x1] at hb
  rw [x2] at hf
  generalize planewave θ φ s p o = w at *
  obtain ⟨u, L0, LN, hu, h0, hN⟩ := rtSolve_ok hb
  obtain ⟨v, -, -, hv, -, -⟩ := rtSolve_ok hf
  have s1 := (C16_exterior layers hq 0 w u.1 u.2 u hu).2 ⟨rfl, rfl⟩
  obtain ⟨e1, e2⟩ := (C16_exterior layers.reverse (fun M hM => hq M (List.mem_reverse.1 hM)) w 0 u.2 u.1 v hv).1 (stackSol_flip s1)
  rw [rtSolve_backward hu h0 hN] at hb
  rw [rtSolve_forward hv (by rw [List.head?_reverse, hN]) (by rw [List.getLast?_reverse, h0]), ← e1, ← e2] at hf
  injection hb with hb
  injection hf with hf
  rw [← hb, ← hf]
  simp only [zflux_flip ω LN, zflux_flip ω L0, byOrder_flip ω LN, byOrder_flip ω L0]

variable {n : ℕ}

/-- the powers behind the two numbers for light from behind -/
lemma rt_values_back {ω ε0 εN : ℂ} {kx ky : κ → ℂ} {d0 dN norm : ℝ} {mids : List (LayerData (κ ⊕ κ))} {o : κ} (hr : RealOrder ω εN kx ky o)
    {w : κ ⊕ κ → ℂ} (hw : InOrder o w)
    (hq : ∀ M ∈ uniformLayer ω kx ky ε0 d0 :: mids ++ [uniformLayer ω kx ky εN dN], ∀ m, M.q m ≠ 0) {R T : ℝ}
    (h : rtSolve "backward" 1 0 ω norm (uniformLayer ω kx ky ε0 d0 :: mids ++ [uniformLayer ω kx ky εN dN]) 0 w = .ok (.total R T)) :
    ∃ aN b0, StackSol (uniformLayer ω kx ky εN dN :: mids.reverse ++ [uniformLayer ω kx ky ε0 d0]) w aN b0 0 ∧
      R = oneWay ω (uniformLayer ω kx ky εN dN) aN * norm ∧ T = oneWay ω (uniformLayer ω kx ky ε0 d0) b0 * norm := by
  obtain ⟨u, L0, LN, hu, h0, hN⟩ := rtSolve_ok h
  have e1 : L0 = uniformLayer ω kx ky ε0 d0 := by
    have : (uniformLayer ω kx ky ε0 d0 :: mids ++ [uniformLayer ω kx ky εN dN]).head? = some (uniformLayer ω kx ky ε0 d0) := rfl
    rw [this] at h0; exact (Option.some.inj h0).symm
  have e2 : LN = uniformLayer ω kx ky εN dN := by
    have : (uniformLayer ω kx ky ε0 d0 :: mids ++ [uniformLayer ω kx ky εN dN]).getLast? = some (uniformLayer ω kx ky εN dN) :=
      List.getLast?_append_of_ne_nil _ (by simp)
    rw [this] at hN; exact (Option.some.inj hN).symm
  rw [rtSolve_backward hu h0 hN, if_pos rfl, if_pos rfl] at h
  injection h with h
  injection h with h1 h2
  subst e1 e2
  have hs := stackSol_flip ((C16_exterior _ hq 0 w u.1 u.2 u hu).2 ⟨rfl, rfl⟩)
  refine ⟨u.1, u.2, ?_, ?_, ?_⟩
  · simpa using hs
  · rw [← h1, zflux_flip, backward_re hr dN w u.1 hw]
  · rw [← h2, ← zflux_flip]
    have hz := (C23_one_way ω (uniformLayer ω kx ky ε0 d0) u.2 0).2.1
    have := zflux_eq_layerFlux ω (uniformLayer ω kx ky ε0 d0) u.2 0
    rw [hz, add_zero, layerFlux_zero] at this
    rw [this]

lemma balance_back {ω : ℂ} {ε0 εN : ℂ} {kx ky : Fin n → ℂ} {d0 dN norm : ℝ} {mids : List (LayerData (Fin n ⊕ Fin n))} {o : Fin n}
    (hr : RealOrder ω εN kx ky o) {w : Fin n ⊕ Fin n → ℂ} (hw : InOrder o w)
    (hq : ∀ M ∈ uniformLayer ω kx ky ε0 d0 :: mids ++ [uniformLayer ω kx ky εN dN], ∀ m, M.q m ≠ 0)
    (hm : ∀ M ∈ mids, ∀ a b, layerFlux ω M (M.through a) b = layerFlux ω M a (M.through b)) {R T : ℝ}
    (h : rtSolve "backward" 1 0 ω norm (uniformLayer ω kx ky ε0 d0 :: mids ++ [uniformLayer ω kx ky εN dN]) 0 w = .ok (.total R T)) :
    R + T = Complex.normSq (Complex.exp (Complex.I * qOrd ω εN kx ky o * dN)) * (oneWay ω (uniformLayer ω kx ky εN dN) w * norm) := by
  obtain ⟨aN, b0, hsol, rfl, rfl⟩ := rt_values_back hr hw hq h
  have := stack_flux_eq (fun M hM => hm M (List.mem_reverse.1 hM)) hsol
  rw [through_zero, layerFlux_zero, through_inOrder hw, layerFlux_incident hr dN _ _ (inOrder_smul hw _), oneWay_smul] at this
  rw [← add_mul, this]; ring

/-- C107: a stack of lossless layers between two half-spaces of the *same* transparent medium, lit from behind, reflects and transmits exactly
the incident power (any real frequency, angle, polarisation). Missing: different media in front and behind, where it is false; patterned
layers altered by the entry filter of C15. -/
theorem C107_energy_partial (ω θ φ ε0 : ℝ) (hω : 0 < ω) (hc : 0 < Real.cos θ) (h0 : 0 < ε0) (Lk1 Lk2 : ℝ × ℝ)
    (G : Fin n → ℤ × ℤ) (o : Fin n) (ho : G o = (0, 0)) (d0 dN : ℝ) (mids : List (LayerData (Fin n ⊕ Fin n)))
    (hm : ∀ M ∈ mids, SolverLayer ω (kxOf ω θ φ ε0 Lk1 Lk2 G) (kyOf ω θ φ ε0 Lk1 Lk2 G) G (fun ε => ε.im = 0) M)
    (hq : ∀ M ∈ uniformLayer ω (kxOf ω θ φ ε0 Lk1 Lk2 G) (kyOf ω θ φ ε0 Lk1 Lk2 G) ε0 d0 :: mids ++
      [uniformLayer ω (kxOf ω θ φ ε0 Lk1 Lk2 G) (kyOf ω θ φ ε0 Lk1 Lk2 G) ε0 dN], ∀ m, M.q m ≠ 0)
    (s p : ℂ) (hsp : Complex.normSq s + Complex.normSq p = 1) (R T : ℝ)
    (h : rtSolve "backward" 1 0 ω (rtNormalization ε0 θ) (uniformLayer ω (kxOf ω θ φ ε0 Lk1 Lk2 G) (kyOf ω θ φ ε0 Lk1 Lk2 G) ε0 d0 :: mids ++
      [uniformLayer ω (kxOf ω θ φ ε0 Lk1 Lk2 G) (kyOf ω θ φ ε0 Lk1 Lk2 G) ε0 dN]) (excitation "backward" θ φ s p o).1
      (excitation "backward" θ φ s p o).2 = .ok (.total R T)) :
    R + T = 1 := by
  have x1 : excitation "backward" θ φ s p o = (0, planewave θ φ s p o) := by simp [excitation]
  rw [x1] at h
  obtain ⟨hkx, hky⟩ := kxOf_order ω θ φ ε0 Lk1 Lk2 ho
  have hx := kxOf_real ω θ φ ε0 Lk1 Lk2 G
  have hy := kyOf_real ω θ φ ε0 Lk1 Lk2 G
  have hωc : (ω : ℂ) ≠ 0 := by exact_mod_cast hω.ne'
  rw [balance_back (realOrder_oblique hω hc h0 φ hkx hky) (planewave_inOrder θ φ s p o) hq
    (fun M hM => solverLayer_flux_eq hωc (Complex.ofReal_im ω) hx hy (hm M hM) (hq M (by simp [hM]))) h,
    incident_oblique hω hc h0 φ hx hy hkx hky, hsp, normSq_exp, qOrd_oblique hω hc h0 φ hkx hky]
  have : (Complex.I * ((Real.sqrt ε0 * ω * Real.cos θ : ℝ) : ℂ) * (dN : ℂ)).re = 0 := by
    rw [mul_assoc, ← Complex.ofReal_mul, Complex.I_mul_re, Complex.ofReal_im, neg_zero]
  rw [this]; simp

/-- C107: with different media on the two sides (permittivities `ε0` in front, `εN` behind) the reflectance and transmittance of a lossless
stack lit from behind at normal incidence add up to `sqrt(ε0/εN)` instead of one, because the incident power is taken to be that of a wave
in the front medium. -/
theorem C107_scaled_partial (ω φ ε0 εN : ℝ) (hω : 0 < ω) (h0 : 0 < ε0) (hN : 0 < εN) (Lk1 Lk2 : ℝ × ℝ)
    (G : Fin n → ℤ × ℤ) (o : Fin n) (ho : G o = (0, 0)) (d0 dN : ℝ) (mids : List (LayerData (Fin n ⊕ Fin n)))
    (hm : ∀ M ∈ mids, SolverLayer ω (kxOf ω 0 φ ε0 Lk1 Lk2 G) (kyOf ω 0 φ ε0 Lk1 Lk2 G) G (fun ε => ε.im = 0) M)
    (hq : ∀ M ∈ uniformLayer ω (kxOf ω 0 φ ε0 Lk1 Lk2 G) (kyOf ω 0 φ ε0 Lk1 Lk2 G) ε0 d0 :: mids ++
      [uniformLayer ω (kxOf ω 0 φ ε0 Lk1 Lk2 G) (kyOf ω 0 φ ε0 Lk1 Lk2 G) εN dN], ∀ m, M.q m ≠ 0)
    (s p : ℂ) (hsp : Complex.normSq s + Complex.normSq p = 1) (R T : ℝ)
    (h : rtSolve "backward" 1 0 ω (rtNormalization ε0 0) (uniformLayer ω (kxOf ω 0 φ ε0 Lk1 Lk2 G) (kyOf ω 0 φ ε0 Lk1 Lk2 G) ε0 d0 :: mids ++
      [uniformLayer ω (kxOf ω 0 φ ε0 Lk1 Lk2 G) (kyOf ω 0 φ ε0 Lk1 Lk2 G) εN dN]) (excitation "backward" 0 φ s p o).1
      (excitation "backward" 0 φ s p o).2 = .ok (.total R T)) :
    R + T = Real.sqrt ε0 / Real.sqrt εN := by
  have x1 : excitation "backward" 0 φ s p o = (0, planewave 0 φ s p o) := by simp [excitation]
  rw [x1] at h
  obtain ⟨hkx, hky⟩ := kOf_zero_order (ω : ℂ) φ ε0 Lk1 Lk2 ho
  have hx := kxOf_real ω 0 φ ε0 Lk1 Lk2 G
  have hy := kyOf_real ω 0 φ ε0 Lk1 Lk2 G
  have hωc : (ω : ℂ) ≠ 0 := by exact_mod_cast hω.ne'
  have hre : 0 < (ω : ℂ).re := by rwa [Complex.ofReal_re]
  have him : 0 ≤ (ω : ℂ).im := by rw [Complex.ofReal_im]
  have hsN := Real.sqrt_pos.2 hN
  have e1 := incident_normal hre him hN φ hx hy hkx hky dN s p
  have e2 : rtNormalization ε0 0 = Real.sqrt ε0 / Real.sqrt εN * rtNormalization εN 0 := by
    simp only [rtNormalization, Real.cos_zero, div_one]
    field_simp
  rw [balance_back (realOrder_normal hre him hN hkx hky) (planewave_inOrder 0 φ s p o) hq
    (fun M hM => solverLayer_flux_eq hωc (Complex.ofReal_im ω) hx hy (hm M hM) (hq M (by simp [hM]))) h, e2, mul_left_comm (oneWay _ _ _),
    e1, hsp, normSq_exp, qOrd_normal hre him hN hkx hky]
  have : (Complex.I * ((Real.sqrt εN : ℂ) * (ω : ℂ)) * (dN : ℂ)).re = 0 := by
    rw [mul_assoc, ← Complex.ofReal_mul, ← Complex.ofReal_mul, Complex.I_mul_re, Complex.ofReal_im, neg_zero]
  rw [this]; simp

/-- success of the queries, from the scattering matrix -/
lemma rtSolve_back_exists {nrm : ℤ} {ω : ℂ} {norm : ℝ} {L0 LN : LayerData (κ ⊕ κ)} {mids : List (LayerData (κ ⊕ κ))} {S : SMat (κ ⊕ κ)}
    (h : getSMatrix (L0 :: mids ++ [LN]) 0 (mids.length + 1) = .ok S) (w : κ ⊕ κ → ℂ) :
    ∃ R T, rtSolve "backward" nrm 0 ω norm (L0 :: mids ++ [LN]) 0 w = .ok (.total R T) := by
  have hl : (L0 :: mids ++ [LN]).length - 1 = mids.length + 1 := by simp
  have e1 : (L0 :: mids ++ [LN]).head? = some L0 := rfl
  have e2 : (L0 :: mids ++ [LN]).getLast? = some LN := List.getLast?_append_of_ne_nil _ (by simp)
  have hu : ∃ u, solveExterior (L0 :: mids ++ [LN]) 0 w = .ok u := by
    rw [solveExterior, hl, h, ok_bind]; exact ⟨_, rfl⟩
  obtain ⟨u, hu⟩ := hu
  rw [rtSolve_backward hu e1 e2, if_pos rfl]
  exact ⟨_, _, rfl⟩

lemma oneOrder_q {ω ε : ℝ} (hω : 0 < ω) (hε : 0 < ε) (ε0 : ℝ) (i : Fin 1) :
    qOrd (ω : ℂ) (ε : ℂ) (kxOf ω 0 0 ε0 (1, 0) (0, 1) oneOrder) (kyOf ω 0 0 ε0 (1, 0) (0, 1) oneOrder) i ≠ 0 := by
  have h0 : oneOrder i = (0, 0) := rfl
  intro h
  have := qOrd_sq (ω : ℂ) (ε : ℂ) (kxOf ω 0 0 ε0 (1, 0) (0, 1) oneOrder) (kyOf ω 0 0 ε0 (1, 0) (0, 1) oneOrder) i
  rw [h, (kOf_zero_order (ω : ℂ) 0 ε0 (1, 0) (0, 1) h0).1, (kOf_zero_order (ω : ℂ) 0 ε0 (1, 0) (0, 1) h0).2] at this
  have h1 : (ε : ℂ) ≠ 0 := by exact_mod_cast hε.ne'
  have h2 : (ω : ℂ) ≠ 0 := by exact_mod_cast hω.ne'
  simp [h1, h2] at this

/-- a single interface, lit from behind, always has an answer -/
lemma backward_interface_ok (ω ε0 εN : ℝ) (hω : 0 < ω) (h0 : 0 < ε0) (hN : 0 < εN) (d0 dN : ℝ) (s p : ℂ) :
    ∃ R T, rtSolve "backward" 1 0 (ω : ℂ) (rtNormalization ε0 0)
      (uniformLayer (ω : ℂ) (kxOf ω 0 0 ε0 (1, 0) (0, 1) oneOrder) (kyOf ω 0 0 ε0 (1, 0) (0, 1) oneOrder) ε0 d0 :: [] ++
        [uniformLayer (ω : ℂ) (kxOf ω 0 0 ε0 (1, 0) (0, 1) oneOrder) (kyOf ω 0 0 ε0 (1, 0) (0, 1) oneOrder) εN dN])
      (excitation "backward" 0 0 s p 0).1 (excitation "backward" 0 0 s p 0).2 = .ok (.total R T) := by
  obtain ⟨S, hS⟩ := interface_ok (ω := (ω : ℂ)) (by rwa [Complex.ofReal_re]) (by rw [Complex.ofReal_im]) h0 hN
    (kxOf_real ω 0 0 ε0 (1, 0) (0, 1) oneOrder) (kyOf_real ω 0 0 ε0 (1, 0) (0, 1) oneOrder) d0 dN (oneOrder_q hω h0 ε0) (oneOrder_q hω hN ε0)
  have x1 : (excitation "backward" 0 0 s p (0 : Fin 1)) = (0, planewave 0 0 s p 0) := by simp [excitation]
  rw [x1]
  exact rtSolve_back_exists (mids := []) hS _

/-- C107 is false as stated: a single interface between vacuum and glass of index two, both lossless, lit from behind: reflectance plus
transmittance is one half. -/
theorem C107_energy_false (ω : ℝ) (hω : 0 < ω) : ∃ R T, rtSolve "backward" 1 0 (ω : ℂ) (rtNormalization 1 0)
      (uniformLayer (ω : ℂ) (kxOf ω 0 0 1 (1, 0) (0, 1) oneOrder) (kyOf ω 0 0 1 (1, 0) (0, 1) oneOrder) (1 : ℝ) 1 :: [] ++
        [uniformLayer (ω : ℂ) (kxOf ω 0 0 1 (1, 0) (0, 1) oneOrder) (kyOf ω 0 0 1 (1, 0) (0, 1) oneOrder) (4 : ℝ) 1])
      (excitation "backward" 0 0 1 0 0).1 (excitation "backward" 0 0 1 0 0).2 = .ok (.total R T) ∧ R + T = 1 / 2 := by
  obtain ⟨R, T, h⟩ := backward_interface_ok ω 1 4 hω one_pos (by norm_num) 1 1 1 0
  refine ⟨R, T, h, ?_⟩
  rw [C107_scaled_partial ω 0 1 4 hω one_pos (by norm_num) (1, 0) (0, 1) oneOrder 0 rfl 1 1 [] (by simp) ?_ 1 0 (by simp) R T h]
  · rw [Real.sqrt_one, show (4 : ℝ) = 2 ^ 2 by norm_num, Real.sqrt_sq (by norm_num)]
  · intro M hM m
    rcases (by simpa using hM : M = _ ∨ M = _) with rfl | rfl
    · exact qs_of_ord (oneOrder_q hω (ε := 1) one_pos 1) m
    · exact qs_of_ord (oneOrder_q hω (ε := 4) (by norm_num) 1) m

/-- C107: any other direction is accepted when the excitation is set and fails when the result is asked for. -/
theorem C107_unknown (dir : String) (hf : dir ≠ "forward") (hb : dir ≠ "backward") (nrm bo : ℤ) (ω : ℂ) (norm : ℝ)
    (layers : List (LayerData (κ ⊕ κ))) (a0 bN : κ ⊕ κ → ℂ) (u : (κ ⊕ κ → ℂ) × (κ ⊕ κ → ℂ)) (hu : solveExterior layers a0 bN = .ok u)
    (hne : layers ≠ []) (θ φ : ℝ) (s p : ℂ) (o : κ) :
    excitation dir θ φ s p o = (0, 0) ∧ rtSolve dir nrm bo ω norm layers a0 bN = .error .unboundLocalError := by
  refine ⟨by simp [excitation, hf, hb], ?_⟩
  obtain ⟨L0, h0⟩ : ∃ L0, layers.head? = some L0 := by
    cases layers with
    | nil => exact absurd rfl hne
    | cons L _ => exact ⟨L, rfl⟩
  obtain ⟨LN, hN⟩ : ∃ LN, layers.getLast? = some LN := ⟨_, List.getLast?_eq_some_getLast hne⟩
  rw [rtSolve, hu, ok_bind, h0, hN]
  by_cases h : bo = 0
  · simp [h, hf, hb]
  · simp [h, hf, hb]

/-- The mirror theorem applies to an interface lit from behind: both calls succeed. -/
example : (∃ r, rtSolve "backward" 1 0 ((1 : ℝ) : ℂ) (rtNormalization 1 0)
      (uniformLayer ((1 : ℝ) : ℂ) (kxOf (1 : ℝ) 0 0 1 (1, 0) (0, 1) oneOrder) (kyOf (1 : ℝ) 0 0 1 (1, 0) (0, 1) oneOrder) (1 : ℝ) 1 :: [] ++
        [uniformLayer ((1 : ℝ) : ℂ) (kxOf (1 : ℝ) 0 0 1 (1, 0) (0, 1) oneOrder) (kyOf (1 : ℝ) 0 0 1 (1, 0) (0, 1) oneOrder) (4 : ℝ) 1])
      (excitation "backward" 0 0 1 0 0).1 (excitation "backward" 0 0 1 0 0).2 = .ok r) := by
  obtain ⟨R, T, h⟩ := backward_interface_ok 1 1 4 one_pos one_pos (by norm_num) 1 1 1 0
  exact ⟨_, h⟩

end Nidn
