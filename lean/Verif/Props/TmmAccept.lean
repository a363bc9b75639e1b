/-
C140: stacks of passive materials are accepted by `coh_tmm`.
-/
import Verif.Props.Tmm
import Verif.Props.TmmEnergy
import Mathlib.Analysis.SpecialFunctions.Trigonometric.Complex

namespace Nidn

noncomputable section

/-- the normal component of the index in a medium `m`, with the angle that the arcsine gives -/
def normalIndex (asin : ℂ → ℂ) (s m : ℂ) : ℂ := m * Complex.cos (asin (s / m))

/-- a passive medium into which the light travels: the arcsine gives the forward angle -/
structure Travels (asin : ℂ → ℂ) (s m : ℂ) : Prop where
  ne : m ≠ 0
  passive : 0 ≤ m.re * m.im
  re : 0 < (normalIndex asin s m).re
  im : 0 ≤ (normalIndex asin s m).im

lemma towards_of {q : ℂ} (h1 : 0 < q.re) (h2 : 0 ≤ q.im) : TowardsBack q := by
  unfold TowardsBack
  by_cases h : 100 * tmmEps < |q.im|
  · left
    refine ⟨h, lt_of_le_of_ne h2 fun e => ?_⟩
    rw [← e, abs_zero] at h
    have := tmmEps_pos
    linarith
  · exact .inr ⟨not_lt.1 h, h1.le⟩

lemma power_pos {pol : String} {n th : ℂ} {s : ℝ} (hn : n ≠ 0) (hs : n * Complex.sin th = s) (hq : 0 < (n * Complex.cos th).re) : 0 < tmmP pol n th := by
  have hsq : (n * Complex.cos th) ^ 2 = n ^ 2 - s ^ 2 := by rw [← hs]; linear_combination n ^ 2 * Complex.sin_sq_add_cos_sq th
  unfold tmmP
  split
  · exact hq
  · set q := n * Complex.cos th with hqq
    have h2 : 0 < Complex.normSq n := Complex.normSq_pos.2 hn
    have h3 : n * starRingEnd ℂ (Complex.cos th) * (Complex.normSq n : ℂ) = (q ^ 2 + s ^ 2) * starRingEnd ℂ q := by
      rw [← Complex.mul_conj, hqq, map_mul]
      rw [hsq]
      ring
    have h4 := congrArg Complex.re h3
    rw [Complex.re_mul_ofReal] at h4
    have h5 : ((q ^ 2 + (s : ℂ) ^ 2) * starRingEnd ℂ q).re = q.re * (q.re ^ 2 + q.im ^ 2 + s ^ 2) := by
      rw [← Complex.ofReal_pow]
      simp only [pow_two, Complex.mul_re, Complex.add_re, Complex.add_im, Complex.mul_im, Complex.conj_re, Complex.conj_im, Complex.ofReal_re, Complex.ofReal_im]
      ring
    rw [h5] at h4
    have h7 : 0 < q.re * (q.re ^ 2 + q.im ^ 2 + s ^ 2) := mul_pos hq (by positivity)
    by_contra hneg
    have h6 := mul_nonpos_of_nonpos_of_nonneg (not_lt.1 hneg) h2.le
    linarith

lemma cos_conj (z : ℂ) : Complex.cos (starRingEnd ℂ z) = starRingEnd ℂ (Complex.cos z) := (Complex.cos_conj z)

lemma forward_true {n th : ℂ} {s : ℝ} (hn : n ≠ 0) (hp : 0 ≤ n.re * n.im) (hs : n * Complex.sin th = s) (h1 : 0 < (n * Complex.cos th).re) (h2 : 0 ≤ (n * Complex.cos th).im) :
    isForwardAngle n th = .ok true := by
  have ht := tmmEps_pos
  have hf : forwardAnswer (n * Complex.cos th) = true := by
    unfold forwardAnswer
    split
    · rename_i h
      rw [decide_eq_true_eq]
      refine lt_of_le_of_ne h2 fun e => ?_
      rw [← e, abs_zero] at h
      linarith
    · simpa using h1
  have h3 := power_pos (pol := "p") hn hs h1
  simp only [tmmP, if_neg (show ¬("p" = "s") by decide)] at h3
  unfold isForwardAngle
  refine bind_ok.2 ⟨(), assertTrue_ok.2 hp, ?_⟩
  rw [if_pos hf]
  refine bind_ok.2 ⟨(), assertTrue_ok.2 (by linarith), bind_ok.2 ⟨(), assertTrue_ok.2 (by linarith), bind_ok.2 ⟨(), assertTrue_ok.2 ?_, rfl⟩⟩⟩
  rw [cos_conj]
  linarith

lemma interface_accept {pol : String} (hpol : pol = "s" ∨ pol = "p") {ni nf thi thf : ℂ} {s : ℝ} (hni : ni ≠ 0) (hnf : nf ≠ 0) (hsi : ni * Complex.sin thi = s) (hsf : nf * Complex.sin thf = s)
    (h1 : 0 < (ni * Complex.cos thi).re) (h2 : 0 < (nf * Complex.cos thf).re) :
    ∃ t r, interfaceT pol ni nf thi thf = .ok t ∧ interfaceR pol ni nf thi thf = .ok r ∧ t ≠ 0 := by
  have hci : Complex.cos thi ≠ 0 := by rintro e; rw [e, mul_zero] at h1; simp at h1
  rcases hpol with rfl | rfl
  · have hd : ni * Complex.cos thi + nf * Complex.cos thf ≠ 0 := by
      intro e
      have := congrArg Complex.re e
      rw [Complex.add_re, Complex.zero_re] at this
      linarith
    refine ⟨_, _, by unfold interfaceT; rw [if_pos rfl]; exact nanDiv_ok.2 ⟨hd, rfl⟩, by unfold interfaceR; rw [if_pos rfl]; exact nanDiv_ok.2 ⟨hd, rfl⟩, ?_⟩
    exact div_ne_zero (mul_ne_zero (mul_ne_zero two_ne_zero hni) hci) hd
  · have hp1 := power_pos (pol := "p") hni hsi h1
    have hp2 := power_pos (pol := "p") hnf hsf h2
    simp only [tmmP, if_neg (show ¬("p" = "s") by decide)] at hp1 hp2
    have hd : nf * Complex.cos thi + ni * Complex.cos thf ≠ 0 := by
      intro e
      have e1 : Complex.cos thi / ni + Complex.cos thf / nf = 0 := by
        have : Complex.cos thi / ni + Complex.cos thf / nf = (nf * Complex.cos thi + ni * Complex.cos thf) / (ni * nf) := by field_simp
        rw [this, e, zero_div]
      have hre : ∀ a m : ℂ, m ≠ 0 → (m * starRingEnd ℂ a).re = Complex.normSq m * (a / m).re := by
        intro a m hm
        rw [Complex.div_re]
        have : Complex.normSq m ≠ 0 := by simpa using hm
        simp only [Complex.mul_re, Complex.conj_re, Complex.conj_im]
        field_simp
        ring
      rw [hre _ _ hni] at hp1
      rw [hre _ _ hnf] at hp2
      have g1 := pos_of_mul_pos_right hp1 (Complex.normSq_nonneg _)
      have g2 := pos_of_mul_pos_right hp2 (Complex.normSq_nonneg _)
      have := congrArg Complex.re e1
      rw [Complex.add_re, Complex.zero_re] at this
      linarith
    refine ⟨_, _, by unfold interfaceT; rw [if_neg (by decide), if_pos rfl]; exact nanDiv_ok.2 ⟨hd, rfl⟩,
      by unfold interfaceR; rw [if_neg (by decide), if_pos rfl]; exact nanDiv_ok.2 ⟨hd, rfl⟩, ?_⟩
    exact div_ne_zero (mul_ne_zero (mul_ne_zero two_ne_zero hni) hci) hd

lemma listSnell_accept {asin : ℂ → ℂ} (hasin : ∀ z, Complex.sin (asin z) = z) {n : List ℂ} {n0 θ : ℝ} (h0 : n[0]? = some (n0 : ℂ)) (hn : ∀ m ∈ n, m ≠ 0)
    (hf : Travels asin ((n0 * Real.sin θ : ℝ) : ℂ) n0) (hb : ∀ m, n[n.length - 1]? = some m → Travels asin ((n0 * Real.sin θ : ℝ) : ℂ) m) :
    listSnell asin n θ = .ok (n.map fun m => asin (((n0 * Real.sin θ : ℝ) : ℂ) / m)) := by
  have hlen : 0 < n.length := by
    by_contra hh
    rw [List.getElem?_eq_none (by omega)] at h0
    cases h0
  have key : ∀ m, Travels asin ((n0 * Real.sin θ : ℝ) : ℂ) m → makeForward m (asin (((n0 * Real.sin θ : ℝ) : ℂ) / m)) = .ok (asin (((n0 * Real.sin θ : ℝ) : ℂ) / m)) := by
    intro m hm
    obtain ⟨a, b, e, f⟩ := hm
    unfold makeForward
    rw [forward_true a b (by rw [hasin]; field_simp) e f]
    rfl
  have e0 : ((n0 : ℂ) * Complex.sin θ) = ((n0 * Real.sin θ : ℝ) : ℂ) := by push_cast; rfl
  unfold listSnell
  rw [pyNth_zero.2 h0, ok_bind, e0]
  have hm : (n.mapM fun m => do
      let z ← nanDiv ((n0 * Real.sin θ : ℝ) : ℂ) m
      pure (asin z)) = Except.ok (n.map fun m => asin (((n0 * Real.sin θ : ℝ) : ℂ) / m)) := by
    apply mapM_all_ok
    intro m hm
    rw [nanDiv_ok.2 ⟨hn m hm, rfl⟩]
    rfl
  rw [hm, ok_bind]
  have g0 : pyNth (n.map fun m => asin (((n0 * Real.sin θ : ℝ) : ℂ) / m)) 0 = .ok (asin (((n0 * Real.sin θ : ℝ) : ℂ) / n0)) := by
    rw [pyNth_zero, List.getElem?_map, h0]; rfl
  rw [g0, ok_bind, key _ hf, ok_bind]
  have hset0 : (n.map fun m => asin (((n0 * Real.sin θ : ℝ) : ℂ) / m)).set 0 (asin (((n0 * Real.sin θ : ℝ) : ℂ) / n0)) = n.map fun m => asin (((n0 * Real.sin θ : ℝ) : ℂ) / m) := by
    cases n with
    | nil => rfl
    | cons a l => simp only [List.getElem?_cons_zero, Option.some.injEq] at h0; subst h0; rfl
  rw [hset0]
  have hl : n[n.length - 1]? = some (n[n.length - 1]'(by omega)) := List.getElem?_eq_getElem _
  have gl : pyNth (n.map fun m => asin (((n0 * Real.sin θ : ℝ) : ℂ) / m)) (-1) = .ok (asin (((n0 * Real.sin θ : ℝ) : ℂ) / n[n.length - 1]'(by omega))) := by
    rw [pyNth_last, List.length_map, List.getElem?_map, hl]; rfl
  rw [pyNth_last.2 hl, ok_bind, gl, ok_bind, key _ (hb _ hl), ok_bind]
  congr 1
  apply List.ext_getElem?
  intro i
  by_cases hi : i = n.length - 1
  · subst hi
    rw [List.length_map, List.getElem?_set_self (by simp; omega), List.getElem?_map, hl]; rfl
  · rw [List.length_map, List.getElem?_set_ne (by omega)]

/-- acceptance, from the pieces: layers that lose no less than nothing -/
lemma accepts_of (asin : ℂ → ℂ) (hasin : ∀ z, Complex.sin (asin z) = z) (pol : String) (hpol : pol = "s" ∨ pol = "p") (n0 θ : ℝ) (lam : ℂ) (hn0 : 0 < n0) (hθ : 0 < Real.cos θ) (lne : lam ≠ 0)
    (mids : List (ℂ × ℝ × ℂ)) (nN : ℂ) (hf : Travels asin ((n0 * Real.sin θ : ℝ) : ℂ) n0) (hb : Travels asin ((n0 * Real.sin θ : ℝ) : ℂ) nN)
    (hm : ∀ m ∈ stackIndices n0 mids nN, m ≠ 0 ∧ 0 < (normalIndex asin ((n0 * Real.sin θ : ℝ) : ℂ) m).re)
    (hx : ∀ m ∈ mids, 0 ≤ m.2.1 ∧ (2 * Real.pi * normalIndex asin ((n0 * Real.sin θ : ℝ) : ℂ) m.1 * m.2.1 / lam).im ≤ 35)
    (hloss : ∀ m ∈ mids, ∀ v, 0 ≤ tmmLoss (starRingEnd ℂ (tmmA pol m.1 (asin (((n0 * Real.sin θ : ℝ) : ℂ) / m.1))) * tmmB pol m.1 (asin (((n0 * Real.sin θ : ℝ) : ℂ) / m.1)))
      (2 * Real.pi * m.1 * Complex.cos (asin (((n0 * Real.sin θ : ℝ) : ℂ) / m.1)) / lam) v) :
    ∃ c, cohTmm asin pol (stackIndices n0 mids nN) (stackThicknesses mids) θ lam = .ok c := by
  have hd0 : (stackThicknesses mids)[0]? = some none := rfl
  have hdl : (stackThicknesses mids).length = mids.length + 2 := by simp [stackThicknesses]
  have hdN : (stackThicknesses mids)[(stackThicknesses mids).length - 1]? = some none := by rw [hdl]; simp [stackThicknesses]
  have hdi : ∀ i (hi : i < mids.length), (stackThicknesses mids).getD (i + 1) none = some mids[i].2.1 := by
    intro i hi
    simp [stackThicknesses, List.getD, List.getElem?_append_left, hi]
  have hni : ∀ i (hi : i < mids.length), (stackIndices n0 mids nN).getD (i + 1) 0 = mids[i].1 := by
    intro i hi
    simp [stackIndices, List.getD, List.getElem?_append_left, hi]
  have hn00 : (stackIndices n0 mids nN)[0]? = some (n0 : ℂ) := rfl
  have hnl : (stackIndices n0 mids nN).length = mids.length + 2 := by simp [stackIndices]
  have hth := listSnell_accept hasin hn00 (fun m h => (hm m h).1) hf (fun m h => by
    rw [hnl] at h
    simp [stackIndices] at h
    exact h ▸ hb)
  generalize hns : stackIndices n0 mids nN = ns at *
  generalize hds : stackThicknesses mids = ds at *
  set S : ℂ := ((n0 * Real.sin θ : ℝ) : ℂ) with hS
  set th := ns.map fun m => asin (S / m) with hthd
  have lth : th.length = ns.length := by simp [hthd]
  have thi : ∀ i < ns.length, th.getD i 0 = asin (S / ns.getD i 0) := by
    intro i hi
    rw [getD_at (by omega), getD_at hi]
    simp [hthd]
  have tr : ∀ i < ns.length, ns.getD i 0 ≠ 0 ∧ 0 < (normalIndex asin S (ns.getD i 0)).re := by
    intro i hi
    rw [getD_at hi]
    exact hm _ (List.getElem_mem hi)
  have sn : ∀ i < ns.length, ns.getD i 0 * Complex.sin (th.getD i 0) = ((n0 * Real.sin θ : ℝ) : ℂ) := by
    intro i hi
    have := (tr i hi).1
    rw [thi i hi, hasin, mul_div_cancel₀ _ this]
  have qre : ∀ i < ns.length, 0 < (ns.getD i 0 * Complex.cos (th.getD i 0)).re := fun i hi => by rw [thi i hi]; exact (tr i hi).2
  obtain ⟨kz, hkz⟩ := mapM_total (fun p : ℂ × ℂ => nanDiv (2 * Real.pi * p.1 * Complex.cos p.2) lam) (ns.zip th) fun a _ => ⟨_, nanDiv_ok.2 ⟨lne, rfl⟩⟩
  obtain ⟨lkz, ekz⟩ := mapM_ok _ _ _ hkz
  rw [List.length_zip, lth, min_self] at lkz
  have kzs : ∀ i < ns.length, kz.getD i 0 = 2 * Real.pi * ns.getD i 0 * Complex.cos (th.getD i 0) / lam := by
    intro i hi
    have := ekz i (by rw [List.length_zip, lth, min_self]; exact hi) (by omega)
    rw [nanDiv_ok] at this
    obtain ⟨-, h2⟩ := this
    rw [List.getElem_zip] at h2
    rw [getD_at (by omega), getD_at hi, getD_at (by omega), h2]
  have hcl : ∀ i (hi : i < mids.length), layerPhase (kz.getD (i + 1) 0) (ds.getD (i + 1) none) = .ok (kz.getD (i + 1) 0 * mids[i].2.1) := by
    intro i hi
    rw [hdi i hi]
    unfold layerPhase clampPhase
    simp only
    rw [if_neg]
    have := (hx _ (List.getElem_mem hi)).2
    rw [kzs (i + 1) (by omega), thi (i + 1) (by omega), hni i hi]
    rw [not_lt]
    refine le_trans (le_of_eq ?_) this
    unfold normalIndex
    congr 1
    ring
  obtain ⟨δ, hδ⟩ := mapM_total (fun i => layerPhase (kz.getD (i + 1) 0) (ds.getD (i + 1) none)) (List.range (ns.length - 2)) fun i hi => by
    rw [List.mem_range] at hi
    exact ⟨_, hcl i (by omega)⟩
  obtain ⟨lδ, eδ⟩ := mapM_ok _ _ _ hδ
  simp only [List.length_range, List.getElem_range] at lδ eδ
  have δs : ∀ i (hi : i < mids.length), δ.getD i 0 = kz.getD (i + 1) 0 * mids[i].2.1 := by
    intro i hi
    have := eδ i (by omega) (by omega)
    rw [hcl i hi, Except.ok.injEq] at this
    rw [getD_at (by omega), this]
  have hint : ∀ i < ns.length - 1, ∃ t r, interfaceT pol (ns.getD i 0) (ns.getD (i + 1) 0) (th.getD i 0) (th.getD (i + 1) 0) = .ok t ∧
      interfaceR pol (ns.getD i 0) (ns.getD (i + 1) 0) (th.getD i 0) (th.getD (i + 1) 0) = .ok r ∧ t ≠ 0 := fun i hi =>
    interface_accept hpol (tr i (by omega)).1 (tr (i + 1) (by omega)).1 (sn i (by omega)) (sn (i + 1) (by omega)) (qre i (by omega)) (qre (i + 1) (by omega))
  obtain ⟨trs, htrs⟩ := mapM_total (fun i => do
    let t ← interfaceT pol (ns.getD i 0) (ns.getD (i + 1) 0) (th.getD i 0) (th.getD (i + 1) 0)
    let r ← interfaceR pol (ns.getD i 0) (ns.getD (i + 1) 0) (th.getD i 0) (th.getD (i + 1) 0)
    pure (t, r)) (List.range (ns.length - 1)) fun i hi => by
    rw [List.mem_range] at hi
    obtain ⟨t, r, ht, hr, -⟩ := hint i hi
    exact ⟨(t, r), by rw [ht, ok_bind, hr]; rfl⟩
  obtain ⟨ltr, etr⟩ := mapM_ok _ _ _ htrs
  simp only [List.length_range, List.getElem_range] at ltr etr
  have trf : ∀ i < ns.length - 1, (trs.getD i (0, 0)).1 ≠ 0 ∧ tmmA pol (ns.getD i 0) (th.getD i 0) * (1 + (trs.getD i (0, 0)).2) / (trs.getD i (0, 0)).1 = tmmA pol (ns.getD (i + 1) 0) (th.getD (i + 1) 0) ∧
      tmmB pol (ns.getD i 0) (th.getD i 0) * (1 - (trs.getD i (0, 0)).2) / (trs.getD i (0, 0)).1 = tmmB pol (ns.getD (i + 1) 0) (th.getD (i + 1) 0) := by
    intro i hi
    obtain ⟨t, r, ht, hr, h0⟩ := hint i hi
    have := etr i hi (by omega)
    rw [ht, ok_bind, hr, ok_bind, pure, Applicative.toPure, Monad.toApplicative] at this
    simp only [Except.instMonad, Except.pure, Except.ok.injEq] at this
    rw [getD_at (by omega), ← this]
    exact ⟨h0, (fresnel_ok ht hr h0 (tr i (by omega)).1).2.2⟩
  obtain ⟨M, hM⟩ := mapM_total (fun i => layerMatrix (δ.getD i 0) (trs.getD (i + 1) (0, 0)).1 (trs.getD (i + 1) (0, 0)).2) (List.range (ns.length - 2)) fun i hi => by
    rw [List.mem_range] at hi
    exact ⟨_, bind_ok.2 ⟨_, nanDiv_ok.2 ⟨(trf (i + 1) (by omega)).1, rfl⟩, rfl⟩⟩
  obtain ⟨lM, eM⟩ := mapM_ok _ _ _ hM
  simp only [List.length_range, List.getElem_range] at lM eM
  -- the power flow of the unit transmitted wave is positive everywhere
  have flux : ∀ j ≤ mids.length, 0 < tmmFlux pol (ns.getD (mids.length + 1 - j) 0) (th.getD (mids.length + 1 - j) 0) (vwAt M 1 (mids.length + 1 - j)) := by
    intro j hj
    induction j with
    | zero =>
      rw [Nat.sub_zero]
      have := vwAt_end M 1
      rw [show M.length + 1 = mids.length + 1 by omega] at this
      rw [this, flux_forward, norm_one, one_pow, one_mul]
      exact power_pos (tr _ (by omega)).1 (sn _ (by omega)) (qre _ (by omega))
    | succ j ih =>
      obtain ⟨i, hi, hi'⟩ : ∃ i, mids.length + 1 - (j + 1) = i + 1 ∧ mids.length + 1 - j = i + 2 := ⟨mids.length - (j + 1), by omega, by omega⟩
      have ih' := ih (by omega)
      rw [hi'] at ih'
      rw [hi]
      have hMi := eM i (by omega) (by omega)
      obtain ⟨a, b, e⟩ := trf (i + 1) (by omega)
      have hb := (layerMatrix_ok hMi (vwAt M 1 (i + 2))).2
      rw [← vwAt_step (by omega)] at hb
      have hj' := joined_of b e a (vwAt M 1 (i + 2))
      rw [← hb] at hj'
      rw [← joined_flux hj'] at ih'
      refine lt_of_lt_of_le ih' ?_
      rw [δs i (by omega), kzs (i + 1) (by omega)]
      refine tmmFlux_drop (fun v => ?_) _ (hx _ (List.getElem_mem (by omega))).1
      rw [thi (i + 1) (by omega), hni i (by omega)]
      exact hloss _ (List.getElem_mem (by omega)) v
  have f1 := flux mids.length le_rfl
  rw [show mids.length + 1 - mids.length = 1 by omega] at f1
  obtain ⟨a, b, e⟩ := trf 0 (by omega)
  have hj0 := joined_of b e a (vwAt M 1 1)
  have hmt : (((trs.getD 0 (0, 0)).1⁻¹ • make2x2 1 (trs.getD 0 (0, 0)).2 (trs.getD 0 (0, 0)).2 1) * M.foldl (· * ·) (make2x2 1 0 0 1)) 0 0 ≠ 0 := by
    intro h0
    have ev : (((trs.getD 0 (0, 0)).1⁻¹ • make2x2 1 (trs.getD 0 (0, 0)).2 (trs.getD 0 (0, 0)).2 1) * M.foldl (· * ·) (make2x2 1 0 0 1)).mulVec ![1, 0] =
        ((trs.getD 0 (0, 0)).1⁻¹ • make2x2 1 (trs.getD 0 (0, 0)).2 (trs.getD 0 (0, 0)).2 1).mulVec (vwAt M 1 1) := by
      rw [← Matrix.mulVec_mulVec, foldl_mulVec]
      have : make2x2 1 0 0 1 = 1 := by ext i j; fin_cases i <;> fin_cases j <;> simp [make2x2]
      rw [this, Matrix.one_mulVec]
      rfl
    rw [← joined_flux hj0, ← ev] at f1
    generalize (((trs.getD 0 (0, 0)).1⁻¹ • make2x2 1 (trs.getD 0 (0, 0)).2 (trs.getD 0 (0, 0)).2 1) * M.foldl (· * ·) (make2x2 1 0 0 1)) = Q at h0 f1
    have hv : Q.mulVec ![1, 0] = ![0, Q 1 0] := by
      funext i
      rw [Matrix.mulVec, dotProduct, Fin.sum_univ_two]
      fin_cases i <;> simp [h0]
    rw [hv] at f1
    have hback : tmmFlux pol (ns.getD 0 0) (th.getD 0 0) ![0, Q 1 0] = -tmmFlux pol (ns.getD 0 0) (th.getD 0 0) ![Q 1 0, 0] := by
      unfold tmmFlux
      simp only [Matrix.cons_val_zero, Matrix.cons_val_one, zero_add, add_zero, zero_sub, sub_zero, mul_neg, Complex.neg_re]
    rw [hback, flux_forward] at f1
    have := power_pos (pol := pol) (tr 0 (by omega)).1 (sn 0 (by omega)) (qre 0 (by omega))
    have h3 : 0 ≤ ‖Q 1 0‖ ^ 2 * tmmP pol (ns.getD 0 0) (th.getD 0 0) := by positivity
    linarith
  have g0 : ns.getD 0 0 = n0 := by simp [List.getD, hn00]
  have hP0 : tmmP pol n0 θ ≠ 0 := by
    unfold tmmP
    rw [← Complex.ofReal_cos, Complex.conj_ofReal, ← Complex.ofReal_mul, Complex.ofReal_re, ite_self]
    positivity
  have hfw : isForwardAngle (n0 : ℂ) (θ : ℂ) = .ok true := by
    have hne : (n0 : ℂ) ≠ 0 := by exact_mod_cast hn0.ne'
    have ec : (n0 : ℂ) * Complex.cos θ = ((n0 * Real.cos θ : ℝ) : ℂ) := by push_cast; rfl
    refine forward_true (s := n0 * Real.sin θ) hne (by simp) (by push_cast; rfl) ?_ ?_
    · rw [ec, Complex.ofReal_re]; positivity
    · rw [ec, Complex.ofReal_im]
  have him : |((n0 : ℂ) * Complex.sin θ).im| < 100 * tmmEps := by
    have : (n0 : ℂ) * Complex.sin θ = ((n0 * Real.sin θ : ℝ) : ℂ) := by push_cast; rfl
    rw [this, Complex.ofReal_im, abs_zero]
    have := tmmEps_pos
    linarith
  have hsm : stackMatrices pol ns th kz ds = .ok (trs, M) := by
    unfold stackMatrices
    rw [hδ, ok_bind, htrs, ok_bind, hM]
    rfl
  have htr0 : trs[0]? = some (trs.getD 0 (0, 0)) := by rw [getD_at (by omega), List.getElem?_eq_getElem]
  have hnN : ns[ns.length - 1]? = some (ns.getD (ns.length - 1) 0) := by rw [getD_at (by omega), List.getElem?_eq_getElem]
  have hthN : th[th.length - 1]? = some (th.getD (ns.length - 1) 0) := by rw [lth, getD_at (by omega), List.getElem?_eq_getElem]
  have hT : ∀ t, ∃ T, tFromT pol t n0 (ns.getD (ns.length - 1) 0) θ (th.getD (ns.length - 1) 0) = .ok T := by
    intro t
    unfold tFromT
    rcases hpol with rfl | rfl
    · rw [if_pos rfl]
      exact ⟨_, bind_ok.2 ⟨_, nanDivR_ok.2 ⟨by simpa [tmmP] using hP0, rfl⟩, rfl⟩⟩
    · rw [if_neg (by decide), if_pos rfl]
      exact ⟨_, bind_ok.2 ⟨_, nanDivR_ok.2 ⟨by simpa [tmmP] using hP0, rfl⟩, rfl⟩⟩
  have hpe : ∀ r, ∃ x, powerEnteringFromR pol r n0 θ = .ok x := by
    intro r
    unfold powerEnteringFromR
    rcases hpol with rfl | rfl
    · rw [if_pos rfl]
      exact ⟨_, nanDivR_ok.2 ⟨by simpa [tmmP] using hP0, rfl⟩⟩
    · rw [if_neg (by decide), if_pos rfl]
      exact ⟨_, nanDivR_ok.2 ⟨by simpa [tmmP] using hP0, rfl⟩⟩
  unfold cohTmm
  rw [if_neg (by rw [hnl, hdl]; simp)]
  simp only [bind_ok, assertTrue_ok, exists_const]
  have hu : (1 : ℂ) / (trs.getD 0 (0, 0)).1 = (trs.getD 0 (0, 0)).1⁻¹ := one_div _
  obtain ⟨T, hT⟩ := hT (1 / (((trs.getD 0 (0, 0)).1⁻¹ • make2x2 1 (trs.getD 0 (0, 0)).2 (trs.getD 0 (0, 0)).2 1) * M.foldl (· * ·) (make2x2 1 0 0 1)) 0 0)
  obtain ⟨pe, hpe⟩ := hpe ((((trs.getD 0 (0, 0)).1⁻¹ • make2x2 1 (trs.getD 0 (0, 0)).2 (trs.getD 0 (0, 0)).2 1) * M.foldl (· * ·) (make2x2 1 0 0 1)) 1 0 /
    (((trs.getD 0 (0, 0)).1⁻¹ • make2x2 1 (trs.getD 0 (0, 0)).2 (trs.getD 0 (0, 0)).2 1) * M.foldl (· * ·) (make2x2 1 0 0 1)) 0 0)
  refine ⟨_, none, pyNth_zero.2 hd0, none, pyNth_last.2 hdN, ⟨rfl, rfl⟩, n0, pyNth_zero.2 hn00, him, true, hfw, rfl, th, hth, kz, hkz, (trs, M), hsm, trs.getD 0 (0, 0), pyNth_zero.2 htr0,
    _, nanDiv_ok.2 ⟨a, hu.symm⟩, _, nanDiv_ok.2 ⟨hmt, rfl⟩, _, nanDiv_ok.2 ⟨hmt, rfl⟩, _, pyNth_last.2 hnN, _, pyNth_last.2 hthN, T, hT, pe, hpe, rfl⟩

/-- C140. Stacks of passive materials into which the light travels are accepted, in either polarisation: no check fails and nothing is divided by zero. -/
theorem C140_accepts (asin : ℂ → ℂ) (hasin : ∀ z, Complex.sin (asin z) = z) (pol : String) (hpol : pol = "s" ∨ pol = "p") (n0 θ lam : ℝ) (hn0 : 0 < n0) (hθ : 0 < Real.cos θ) (hl : 0 < lam)
    (mids : List (ℂ × ℝ × ℂ)) (nN : ℂ) (hm : ∀ m ∈ stackIndices n0 mids nN, Travels asin ((n0 * Real.sin θ : ℝ) : ℂ) m)
    (hx : ∀ m ∈ mids, 0 ≤ m.2.1 ∧ (2 * Real.pi * normalIndex asin ((n0 * Real.sin θ : ℝ) : ℂ) m.1 * m.2.1 / lam).im ≤ 35) :
    ∃ c, cohTmm asin pol (stackIndices n0 mids nN) (stackThicknesses mids) θ lam = .ok c := by
  have hm1 : ∀ m ∈ mids, m.1 ∈ stackIndices n0 mids nN := fun m h => by simp only [stackIndices, List.mem_cons, List.mem_append, List.mem_map]; exact .inr (.inl ⟨m, h, rfl⟩)
  refine accepts_of asin hasin pol hpol n0 θ lam hn0 hθ (by exact_mod_cast hl.ne') mids nN (hm _ (by simp [stackIndices])) (hm _ (by simp [stackIndices])) (fun m h => ⟨(hm m h).ne, (hm m h).re⟩) hx fun m h v => ?_
  have tr := hm _ (hm1 m h)
  rw [loss_layer hpol tr.ne (s := n0 * Real.sin θ) (by rw [hasin, mul_div_cancel₀ _ tr.ne]) v]
  have h1 := tr.passive
  have h2 : (m.1 ^ 2).im = 2 * (m.1.re * m.1.im) := by simp only [pow_two, Complex.mul_im]; ring
  rw [h2]
  have hπ := Real.pi_pos
  split <;> positivity

/-- an arcsine -/
def someArcsin (z : ℂ) : ℂ := if z = 0 then 0 else Classical.choose (Complex.sin_surjective z)

lemma someArcsin_sin (z : ℂ) : Complex.sin (someArcsin z) = z := by
  unfold someArcsin
  split
  · rename_i h; simp [h]
  · exact Classical.choose_spec (Complex.sin_surjective z)

/-- the stack of the comparison notebook, a film of index 2 + 0.5 i in air at normal incidence, is accepted -/
lemma slab_accepted : ∃ c, cohTmm someArcsin "s" (stackIndices (1 : ℝ) [(2 + 0.5 * Complex.I, 0.2, 1)] 1) (stackThicknesses [(2 + 0.5 * Complex.I, 0.2, 1)]) (0 : ℝ) (1 : ℝ) = .ok c := by
  have hA : someArcsin 0 = 0 := by simp [someArcsin]
  have hpi := Real.pi_lt_four
  have hpi0 := Real.pi_pos
  have hne : (2 + 0.5 * Complex.I : ℂ) ≠ 0 := by
    intro e
    have := congrArg Complex.re e
    norm_num at this
  exact C140_accepts someArcsin someArcsin_sin "s" (.inl rfl) 1 0 1 one_pos (by simp) one_pos [(2 + 0.5 * Complex.I, 0.2, 1)] 1
    (by
      intro m hm
      simp only [stackIndices, List.map_cons, List.map_nil, List.cons_append, List.nil_append, List.mem_cons, List.not_mem_nil, or_false] at hm
      rcases hm with rfl | rfl | rfl
      · exact ⟨by simp, by simp, by simp [normalIndex, hA], by simp [normalIndex, hA]⟩
      · exact ⟨hne, by norm_num, by simp [normalIndex, hA], by norm_num [normalIndex, hA]⟩
      · exact ⟨by simp, by simp, by simp [normalIndex, hA], by simp [normalIndex, hA]⟩)
    (by
      intro m hm
      simp only [List.mem_singleton] at hm
      subst hm
      refine ⟨by norm_num, ?_⟩
      simp [normalIndex, hA]
      norm_num
      linarith)

/-- Non-vacuity: its reflectance and transmittance are those of the film. -/
example : ∃ c, cohTmm someArcsin "s" [1, 2 + 0.5 * Complex.I, 1] [none, some 0.2, none] (0 : ℝ) (1 : ℝ) = .ok c ∧
    c.R = filmsR 1 [(1 / (2 + 0.5 * Complex.I), 2 * Real.pi * (2 + 0.5 * Complex.I) * 0.2)] 1 ∧
    c.T = filmsT 1 [(1 / (2 + 0.5 * Complex.I), 2 * Real.pi * (2 + 0.5 * Complex.I) * 0.2)] 1 := by
  have hpi := Real.pi_lt_four
  have hpi0 := Real.pi_pos
  obtain ⟨c, hc⟩ := slab_accepted
  have hcc : cohTmm someArcsin "s" [1, 2 + 0.5 * Complex.I, 1] [none, some 0.2, none] (0 : ℝ) (1 : ℝ) = .ok c := by
    rw [← hc]; simp [stackIndices, stackThicknesses]
  refine ⟨c, hcc, ?_⟩
  have := C140_films someArcsin someArcsin_sin "s" 1 0 (1 : ℝ) [(2 + 0.5 * Complex.I, 0.2, 1)] 1 1 c hc (by
    intro m hm
    simp only [List.mem_singleton] at hm
    subst hm
    refine ⟨by simp, ?_⟩
    simp
    norm_num
    rw [abs_of_nonneg (by positivity)]
    linarith) (by simp) (by right; simp; norm_num)
  simpa [filmStack, filmImpedance] using this

/-- what examples need of it -/
lemma slab_facts : ∃ c, cohTmm someArcsin "s" [1, 2 + 0.5 * Complex.I, 1] [none, some 0.2, none] (0 : ℝ) (1 : ℝ) = .ok c ∧
    (∀ z ∈ [1, 2 + 0.5 * Complex.I, 1], 0 ≤ z.re * z.im) ∧
    ∀ (i : ℕ) x, [none, some (0.2 : ℝ), none][i]? = some (some x) → 0 ≤ x ∧ (c.kz.getD i 0 * x).im ≤ 35 := by
  obtain ⟨c, hc⟩ := slab_accepted
  have hc' : cohTmm someArcsin "s" [1, 2 + 0.5 * Complex.I, 1] [none, some 0.2, none] (0 : ℝ) (1 : ℝ) = .ok c := by
    rw [← hc]; simp [stackIndices, stackThicknesses]
  have hr := cohTmm_run someArcsin_sin hc'
  have hkz := hr.kz_at 1 (by simp)
  have hsn := (hr.snell_at 1 (by simp)).2
  simp only [List.getD_cons_succ, List.getD_cons_zero, Complex.ofReal_zero, Complex.sin_zero, mul_zero] at hkz hsn
  have hne : (2 + 0.5 * Complex.I : ℂ) ≠ 0 := by
    intro e
    have := congrArg Complex.re e
    norm_num at this
  have hs0 : Complex.sin (c.th.getD 1 0) = 0 := by simpa [hne] using hsn
  have hcos : Complex.cos (c.th.getD 1 0) = 1 ∨ Complex.cos (c.th.getD 1 0) = -1 := by
    have := Complex.sin_sq_add_cos_sq (c.th.getD 1 0)
    rw [hs0, zero_pow two_ne_zero, zero_add] at this
    exact eq_or_eq_neg_of_sq_eq_sq _ _ (by rw [this, one_pow])
  have hpi := Real.pi_lt_four
  have hpi0 := Real.pi_pos
  have hpass : ∀ z ∈ [1, 2 + 0.5 * Complex.I, 1], 0 ≤ z.re * z.im := by
    intro z hz
    simp only [List.mem_cons, List.not_mem_nil, or_false] at hz
    rcases hz with rfl | rfl | rfl <;> norm_num
  have hx : ∀ (i : ℕ) x, [none, some (0.2 : ℝ), none][i]? = some (some x) → 0 ≤ x ∧ (c.kz.getD i 0 * x).im ≤ 35 := by
    intro i x hi
    obtain rfl : i = 1 := by
      rcases i with _ | _ | _ | i <;> simp at hi ⊢
    simp at hi
    subst hi
    refine ⟨by norm_num, ?_⟩
    rw [hkz]
    rcases hcos with e | e <;> rw [e] <;> simp <;> norm_num <;> linarith
  exact ⟨c, hc', hpass, hx⟩

end

end Nidn
