/-
C142: the transfer-matrix reference accounts for all the light.
-/
import Verif.Lemmas.TmmFlux
import Verif.Props.FdtdSources

namespace Nidn

noncomputable section

lemma poynS (n th Ef Eb : ℂ) : (n * Complex.cos th * starRingEnd ℂ (Ef + Eb) * (Ef - Eb)).re = tmmFlux "s" n th ![Ef, Eb] := by
  simp only [tmmFlux, tmmA, tmmB, if_true, one_mul, Matrix.cons_val_zero, Matrix.cons_val_one]
  congr 1; ring

lemma poynP (n th Ef Eb : ℂ) : (n * starRingEnd ℂ (Complex.cos th) * (Ef + Eb) * starRingEnd ℂ (Ef - Eb)).re = tmmFlux "p" n th ![Ef, Eb] := by
  simp only [tmmFlux, tmmA, tmmB, if_neg (show ¬("p" = "s") by decide), Matrix.cons_val_zero, Matrix.cons_val_one]
  rw [← Complex.conj_re]
  congr 1
  simp only [map_mul, Complex.conj_conj]
  ring

lemma pointData_s {n th kz n0 th0 : ℂ} (h : (n0 * Complex.cos th0).re ≠ 0) (Ef Eb : ℂ) : pointData "s" n th kz n0 th0 Ef Eb = .ok
    { poyn := tmmFlux "s" n th ![Ef, Eb] / tmmP "s" n0 th0, absor := (n * Complex.cos th * kz * (‖Ef + Eb‖ ^ 2 : ℝ)).im / tmmP "s" n0 th0, Ex := 0, Ey := Ef + Eb, Ez := 0 } := by
  unfold pointData
  rw [if_pos rfl, poynS]
  simp only [nanDivR, if_neg h]
  rfl

lemma pointData_p {n th kz n0 th0 : ℂ} (h : (n0 * starRingEnd ℂ (Complex.cos th0)).re ≠ 0) (Ef Eb : ℂ) : pointData "p" n th kz n0 th0 Ef Eb = .ok
    { poyn := tmmFlux "p" n th ![Ef, Eb] / tmmP "p" n0 th0,
      absor := (n * starRingEnd ℂ (Complex.cos th) * (kz * (‖Ef - Eb‖ ^ 2 : ℝ) - starRingEnd ℂ kz * (‖Ef + Eb‖ ^ 2 : ℝ))).im / tmmP "p" n0 th0,
      Ex := (Ef - Eb) * Complex.cos th, Ey := 0, Ez := (-Ef - Eb) * Complex.sin th } := by
  unfold pointData
  rw [if_neg (by decide), if_pos rfl, poynP]
  simp only [nanDivR, if_neg h]
  rfl

/-- what `position_resolved` returns at depth `z` of a layer -/
lemma position_ok {pol : String} {n : List ℂ} {d : List (Option ℝ)} {th0 lam : ℂ} {c : TmmData} (h : TmmRun pol n d th0 lam c) {i : ℕ} (hi : 1 ≤ i) (hN : i < n.length) {z : ℝ} (hz : 0 ≤ z)
    (hd : ∀ x, d[i]? = some (some x) → z ≤ x) :
    ∃ p, positionResolved i z c = .ok p ∧ pointData pol (n.getD i 0) (c.th.getD i 0) (c.kz.getD i 0) (n.getD 0 0) th0
      (atDepth (c.kz.getD i 0) z (c.vw.getD i 0) 0) (atDepth (c.kz.getD i 0) z (c.vw.getD i 0) 1) = .ok p ∧
      p.poyn = tmmFlux pol (n.getD i 0) (c.th.getD i 0) (atDepth (c.kz.getD i 0) z (c.vw.getD i 0)) / tmmP pol (n.getD 0 0) th0 := by
  obtain ⟨k1, k2, k3, k4, -⟩ := h.keeps
  have two := h.two
  have e1 : pyNth c.vw i = .ok (c.vw.getD i 0) := pyNth_nat.2 (by rw [getD_at (by rw [h.len_vw]; exact hN), List.getElem?_eq_getElem])
  have e2 : pyNth c.kz i = .ok (c.kz.getD i 0) := pyNth_nat.2 (by rw [getD_at (by rw [h.len_kz]; exact hN), List.getElem?_eq_getElem])
  have e3 : pyNth c.th i = .ok (c.th.getD i 0) := pyNth_nat.2 (by rw [getD_at (by rw [h.len_th]; exact hN), List.getElem?_eq_getElem])
  have e4 : pyNth n i = .ok (n.getD i 0) := pyNth_nat.2 (by rw [getD_at hN, List.getElem?_eq_getElem])
  have e5 : pyNth n 0 = .ok (n.getD 0 0) := pyNth_zero.2 (by rw [getD_at (by omega), List.getElem?_eq_getElem])
  have hdi : i < d.length := by rw [h.len_d]; exact hN
  have e6 : pyNth d i = .ok d[i] := pyNth_nat.2 (List.getElem?_eq_getElem hdi)
  have hw : withinThickness z d[i] := by
    cases hx : d[i] with
    | none => trivial
    | some x => exact hd x (by rw [List.getElem?_eq_getElem hdi, hx])
  have hv : atDepth (c.kz.getD i 0) z (c.vw.getD i 0) = ![atDepth (c.kz.getD i 0) z (c.vw.getD i 0) 0, atDepth (c.kz.getD i 0) z (c.vw.getD i 0) 1] := by
    funext j; fin_cases j <;> rfl
  have hpd : ∃ p, pointData pol (n.getD i 0) (c.th.getD i 0) (c.kz.getD i 0) (n.getD 0 0) th0
      (atDepth (c.kz.getD i 0) z (c.vw.getD i 0) 0) (atDepth (c.kz.getD i 0) z (c.vw.getD i 0) 1) = .ok p ∧
      p.poyn = tmmFlux pol (n.getD i 0) (c.th.getD i 0) (atDepth (c.kz.getD i 0) z (c.vw.getD i 0)) / tmmP pol (n.getD 0 0) th0 := by
    have hp := h.pow_ne
    rw [hv]
    simp only [Matrix.cons_val_zero, Matrix.cons_val_one]
    generalize atDepth (c.kz.getD i 0) z (c.vw.getD i 0) 0 = Ef
    generalize atDepth (c.kz.getD i 0) z (c.vw.getD i 0) 1 = Eb
    rcases h.pol_ok with rfl | rfl
    · exact ⟨_, pointData_s (by simpa [tmmP] using hp) Ef Eb, rfl⟩
    · exact ⟨_, pointData_p (by simpa [tmmP] using hp) Ef Eb, rfl⟩
  obtain ⟨p, hp1, hp2⟩ := hpd
  refine ⟨p, ?_, hp1, hp2⟩
  unfold positionResolved
  rw [if_pos (by omega), e1, ok_bind]
  simp only [e2, ok_bind, e3, k2, e4, e5, k3, e6]
  refine bind_ok.2 ⟨(), assertTrue_ok.2 (.inl ⟨by omega, hz, hw⟩), ?_⟩
  rw [k1, k4, ← hp1]
  simp only [atDepth, atBack, Matrix.cons_val_zero, Matrix.cons_val_one, mul_assoc, neg_mul]

lemma flux_cos {pol : String} {n th th' : ℂ} (h : Complex.cos th = Complex.cos th') (v : Fin 2 → ℂ) : tmmFlux pol n th v = tmmFlux pol n th' v := by
  simp only [tmmFlux, tmmA, tmmB, h]

/-- the power that enters the stack is the power flow at its front -/
lemma entering_first {pol : String} {n : List ℂ} {d : List (Option ℝ)} {th0 lam : ℂ} {c : TmmData} (h : TmmRun pol n d th0 lam c) :
    c.powerEntering = tmmFlux pol (n.getD 0 0) th0 ![1, c.r] / tmmP pol (n.getD 0 0) th0 ∧
    c.powerEntering = tmmFlux pol (n.getD 1 0) (c.th.getD 1 0) (c.vw.getD 1 0) / tmmP pol (n.getD 0 0) th0 := by
  have h1 := h.pe_def
  have key : c.powerEntering = tmmFlux pol (n.getD 0 0) th0 ![1, c.r] / tmmP pol (n.getD 0 0) th0 := by
    unfold powerEnteringFromR at h1
    rcases h.pol_ok with rfl | rfl
    · rw [if_pos rfl, nanDivR_ok] at h1
      rw [h1.2, ← poynS]
      simp only [tmmP, if_true, map_add, map_one]
    · rw [if_neg (by decide), if_pos rfl, nanDivR_ok] at h1
      rw [h1.2, ← poynP]
      simp only [tmmP, if_neg (show ¬("p" = "s") by decide), map_sub, map_one]
  refine ⟨key, ?_⟩
  rw [key, ← flux_cos h.cos_first, joined_flux h.join_first]

/-- power flow into every layer -/
lemma entering_ok {pol : String} {n : List ℂ} {d : List (Option ℝ)} {th0 lam : ℂ} {c : TmmData} (h : TmmRun pol n d th0 lam c) (hx : ∀ (i : ℕ) x, d[i]? = some (some x) → 0 ≤ x) :
    ∃ p, powerEntering c = .ok p ∧ p.length = n.length ∧ p.getD 0 0 = 1 ∧
      ∀ i, 1 ≤ i → i < n.length → p.getD i 0 = tmmFlux pol (n.getD i 0) (c.th.getD i 0) (c.vw.getD i 0) / tmmP pol (n.getD 0 0) th0 := by
  have two := h.two
  have hcd : c.d.length = n.length := by rw [h.keeps.2.2.1, h.len_d]
  have hlast : c.T = tmmFlux pol (n.getD (n.length - 1) 0) (c.th.getD (n.length - 1) 0) (c.vw.getD (n.length - 1) 0) / tmmP pol (n.getD 0 0) th0 := by
    rw [h.T_def, h.vw_last, flux_forward]; ring
  set g : ℕ → ℝ := fun i => if i = 0 then 1 else tmmFlux pol (n.getD i 0) (c.th.getD i 0) (c.vw.getD i 0) / tmmP pol (n.getD 0 0) th0 with hg
  refine ⟨(List.range n.length).map g, ?_, by simp, ?_, ?_⟩
  · unfold powerEntering
    rw [if_neg (by omega), hcd]
    apply mapM_all_ok
    intro i hi
    rw [List.mem_range] at hi
    by_cases h1 : i = n.length - 1
    · rw [if_pos h1, hg]
      simp only [if_neg (show i ≠ 0 by omega)]
      rw [hlast, h1]
    · rw [if_neg h1]
      by_cases h2 : i = 0
      · rw [if_pos h2, hg]; simp only [if_pos h2]
      · rw [if_neg h2]
        by_cases h3 : i = 1
        · rw [if_pos h3, hg]
          subst h3
          simp only [if_neg (show (1 : ℕ) ≠ 0 by omega)]
          rw [(entering_first h).2]
        · rw [if_neg h3]
          obtain ⟨p, hp, -, hp2⟩ := position_ok h (i := i) (by omega) hi (z := 0) le_rfl (fun x hx' => hx i x hx')
          rw [hp, ok_bind, hg]
          simp only [if_neg h2]
          rw [hp2, atDepth_zero]
          rfl
  · rw [getD_at (by simp; omega)]; simp [hg]
  · intro i h1 h2
    rw [getD_at (by simpa using h2)]
    simp [hg, show i ≠ 0 by omega]

lemma tele_sum (p : ℕ → ℝ) (m : ℕ) : ((List.range (m + 1)).map fun i => if i + 1 < m + 1 then -(p (i + 1) - p i) else p i).sum = p 0 := by
  have : ∀ k ≤ m, ((List.range k).map fun i => if i + 1 < m + 1 then -(p (i + 1) - p i) else p i).sum = p 0 - p k := by
    intro k hk
    induction k with
    | zero => simp
    | succ k ih =>
      rw [List.range_succ, List.map_append, List.sum_append, ih (by omega)]
      simp only [List.map_cons, List.map_nil, List.sum_cons, List.sum_nil]
      rw [if_pos (by omega)]
      ring
  rw [List.range_succ, List.map_append, List.sum_append, this m le_rfl]
  simp

/-- C142. `absorp_in_each_layer` accounts for all the light: the shares add up to 1. -/
theorem C142_sum (c : TmmData) (a : List ℝ) (h : absorpInEachLayer c = .ok a) : a.sum = 1 := by
  unfold absorpInEachLayer at h
  simp only [bind_ok, pure, Except.pure, Except.ok.injEq] at h
  obtain ⟨p, hp, rfl⟩ := h
  unfold powerEntering at hp
  split at hp
  · cases hp
  rename_i hlen
  obtain ⟨h1, h2⟩ := mapM_ok _ _ _ hp
  simp only [List.length_range] at h1 h2
  obtain ⟨m, hm⟩ : ∃ m, p.length = m + 1 := ⟨p.length - 1, by omega⟩
  rw [hm]
  refine (tele_sum (fun i => p.getD i 0) m).trans ?_
  have := h2 0 (by omega) (by omega)
  simp only [List.getElem_range] at this
  rw [if_neg (by omega), if_pos trivial, Except.ok.injEq] at this
  rw [getD_at (by omega), ← this]

lemma real_power {pol : String} {n0 θ : ℝ} (h : isForwardAngle (n0 : ℂ) (θ : ℂ) = .ok true) : tmmP pol n0 θ = n0 * Real.cos θ ∧ 0 < n0 * Real.cos θ := by
  have h1 := isForward_answer h
  have e : (n0 : ℂ) * Complex.cos θ = ((n0 * Real.cos θ : ℝ) : ℂ) := by push_cast; rfl
  rw [e] at h1
  unfold forwardAnswer at h1
  rw [Complex.ofReal_im, abs_zero, if_neg (by have := tmmEps_pos; linarith), Complex.ofReal_re] at h1
  refine ⟨?_, by simpa using h1.symm⟩
  unfold tmmP
  rw [← Complex.ofReal_cos, Complex.conj_ofReal, ← Complex.ofReal_mul, Complex.ofReal_re, ite_self]

lemma power_nonneg {pol : String} {n th : ℂ} {s : ℝ} (hn : n ≠ 0) (hi : 0 ≤ n.re * n.im) (hs : n * Complex.sin th = s) (hf : TowardsBack (n * Complex.cos th)) : 0 ≤ tmmP pol n th := by
  have hsq : (n * Complex.cos th) ^ 2 = n ^ 2 - s ^ 2 := by rw [← hs]; linear_combination n ^ 2 * Complex.sin_sq_add_cos_sq th
  set q := n * Complex.cos th with hq
  have him : q.re * q.im = n.re * n.im := by
    have := congrArg Complex.im hsq
    rw [← Complex.ofReal_pow] at this
    simp only [pow_two, Complex.mul_im, Complex.sub_im, Complex.ofReal_im] at this
    linarith
  have hqr : 0 ≤ q.re := by
    rcases hf with ⟨-, h⟩ | ⟨-, h⟩
    · by_contra hneg
      have := mul_neg_of_neg_of_pos (not_le.1 hneg) h
      linarith
    · exact h
  unfold tmmP
  split
  · exact hqr
  · have h2 : 0 < Complex.normSq n := Complex.normSq_pos.2 hn
    have h3 : n * starRingEnd ℂ (Complex.cos th) * (Complex.normSq n : ℂ) = (q ^ 2 + s ^ 2) * starRingEnd ℂ q := by
      rw [← Complex.mul_conj, hq, map_mul]
      rw [hsq]
      ring
    have h4 := congrArg Complex.re h3
    rw [Complex.re_mul_ofReal] at h4
    have h5 : ((q ^ 2 + (s : ℂ) ^ 2) * starRingEnd ℂ q).re = q.re * (q.re ^ 2 + q.im ^ 2 + s ^ 2) := by
      rw [← Complex.ofReal_pow]
      simp only [pow_two, Complex.mul_re, Complex.add_re, Complex.add_im, Complex.mul_im, Complex.conj_re, Complex.conj_im, Complex.ofReal_re, Complex.ofReal_im]
      ring
    rw [h5] at h4
    by_contra hneg
    have h6 := mul_neg_of_neg_of_pos (not_le.1 hneg) h2
    have h7 : 0 ≤ q.re * (q.re ^ 2 + q.im ^ 2 + s ^ 2) := mul_nonneg hqr (by positivity)
    linarith

/-- C142. For light from a medium of real index `n0` at a real angle, through layers of passive materials that are not opaque: `absorp_in_each_layer`
returns one share per layer, no share is negative, the first one is the reflectance, the last one the transmittance, and layers without loss
have none. -/
theorem C142_shares (asin : ℂ → ℂ) (hasin : ∀ z, Complex.sin (asin z) = z) (pol : String) (n : List ℂ) (d : List (Option ℝ)) (n0 θ lam : ℝ) (hl : 0 < lam) (c : TmmData)
    (h : cohTmm asin pol n d θ lam = .ok c) (h0 : n[0]? = some (n0 : ℂ)) (hn : ∀ z ∈ n, 0 ≤ z.re * z.im)
    (hx : ∀ (i : ℕ) x, d[i]? = some (some x) → 0 ≤ x ∧ (c.kz.getD i 0 * x).im ≤ 35) :
    ∃ a, absorpInEachLayer c = .ok a ∧ a.length = n.length ∧ (∀ x ∈ a, 0 ≤ x) ∧ a[0]? = some c.R ∧ a[n.length - 1]? = some c.T ∧
      ∀ i, 0 < i → i + 1 < n.length → (n.getD i 0).re * (n.getD i 0).im = 0 → a[i]? = some 0 := by
  have hr := cohTmm_run hasin h
  have two := hr.two
  have g0 : n.getD 0 0 = n0 := by simp [List.getD, h0]
  obtain ⟨p, hp, plen, p0, pi⟩ := entering_ok hr fun i x hxx => (hx i x hxx).1
  have hf := hr.fwd_first
  rw [g0] at hf
  obtain ⟨hP, hPpos⟩ := real_power (pol := pol) hf
  rw [g0] at pi
  rw [hP] at pi
  have hsn : ∀ i < n.length, n.getD i 0 ≠ 0 ∧ n.getD i 0 * Complex.sin (c.th.getD i 0) = ((n0 * Real.sin θ : ℝ) : ℂ) := by
    intro i hi
    have := hr.snell_at i hi
    rw [g0] at this
    exact ⟨this.1, by rw [this.2]; push_cast; rfl⟩
  have hpass : ∀ i < n.length, 0 ≤ (n.getD i 0).re * (n.getD i 0).im := fun i hi => by rw [getD_at hi]; exact hn _ (List.getElem_mem hi)
  have him2 : ∀ z : ℂ, (z ^ 2).im = 2 * (z.re * z.im) := fun z => by simp only [pow_two, Complex.mul_im]; ring
  have hstep : ∀ i, 1 ≤ i → i + 1 < n.length → p.getD (i + 1) 0 ≤ p.getD i 0 ∧ ((n.getD i 0).re * (n.getD i 0).im = 0 → p.getD (i + 1) 0 = p.getD i 0) := by
    intro i h1 h2
    obtain ⟨x, hdx, hj⟩ := hr.join i h1 h2
    obtain ⟨hx0, hx35⟩ := hx i x hdx
    have hcl : clampPhase (c.kz.getD i 0 * x) = c.kz.getD i 0 * x := by unfold clampPhase; rw [if_neg (not_lt.2 hx35)]
    rw [hcl] at hj
    rw [pi i h1 (by omega), pi (i + 1) (by omega) h2, ← joined_flux hj]
    have hloss := fun v => loss_layer hr.pol_ok (lam := lam) (hsn i (by omega)).1 (hsn i (by omega)).2 v
    rw [← hr.kz_at i (by omega)] at hloss
    constructor
    · refine div_le_div_of_nonneg_right (tmmFlux_drop (fun v => ?_) _ hx0) hPpos.le
      rw [hloss v, him2]
      have := hpass i (by omega)
      have hπ := Real.pi_pos
      split <;> positivity
    · intro hz
      rw [flux_keep (fun v => ?_) (c.vw.getD i 0) x]
      rw [hloss v, him2, hz]
      ring
  have hR : p.getD 1 0 = 1 - c.R := by
    rw [pi 1 le_rfl (by omega)]
    have e1 := (entering_first hr).1
    have e2 := (entering_first hr).2
    rw [g0, hP] at e1 e2
    rw [← e2, e1, hr.R_def, ← Complex.normSq_eq_norm_sq, Complex.normSq_apply, eq_comm, eq_div_iff hPpos.ne']
    have hcc : Complex.cos (θ : ℂ) = ((Real.cos θ : ℝ) : ℂ) := by push_cast; rfl
    unfold tmmFlux tmmA tmmB
    rw [hcc]
    split
    · simp only [Matrix.cons_val_zero, Matrix.cons_val_one, map_add, map_one, one_mul, Complex.mul_re, Complex.mul_im, Complex.add_re, Complex.add_im, Complex.sub_re, Complex.sub_im,
        Complex.one_re, Complex.one_im, Complex.conj_re, Complex.conj_im, Complex.ofReal_re, Complex.ofReal_im]
      ring
    · simp only [Matrix.cons_val_zero, Matrix.cons_val_one, map_mul, map_add, map_one, Complex.mul_re, Complex.mul_im, Complex.add_re, Complex.add_im, Complex.sub_re, Complex.sub_im,
        Complex.one_re, Complex.one_im, Complex.conj_re, Complex.conj_im, Complex.ofReal_re, Complex.ofReal_im]
      ring
  have hT : p.getD (n.length - 1) 0 = c.T := by
    rw [pi _ (by omega) (by omega), hr.T_def, hr.vw_last, flux_forward, g0, hP]; ring
  have hT0 : 0 ≤ c.T := by
    rw [hr.T_def, g0, hP]
    exact mul_nonneg (by positivity) (div_nonneg (power_nonneg (hsn _ (by omega)).1 (hpass _ (by omega)) (hsn _ (by omega)).2 hr.fwd_last) hPpos.le)
  have hR0 : 0 ≤ c.R := by rw [hr.R_def]; positivity
  refine ⟨_, by unfold absorpInEachLayer; rw [hp]; rfl, by simp [plen], ?_, ?_, ?_, ?_⟩
  · intro x hx'
    obtain ⟨i, hi, rfl⟩ := List.mem_map.1 hx'
    rw [List.mem_range, plen] at hi
    rw [plen]
    by_cases h1 : i + 1 < n.length
    · rw [if_pos h1]
      by_cases h2 : i = 0
      · subst h2; rw [p0, zero_add, hR]; linarith
      · have := (hstep i (by omega) h1).1; linarith
    · rw [if_neg h1, show i = n.length - 1 by omega, hT]; exact hT0
  · rw [plen, List.getElem?_map, List.getElem?_range (by omega), Option.map_some, if_pos (by omega), p0, zero_add, hR]
    congr 1; ring
  · rw [plen, List.getElem?_map, List.getElem?_range (by omega), Option.map_some, if_neg (by omega), hT]
  · intro i h1 h2 hz
    rw [plen, List.getElem?_map, List.getElem?_range (by omega), Option.map_some, if_pos h2, (hstep i (by omega) h2).2 hz, sub_self, neg_zero]

end

end Nidn
