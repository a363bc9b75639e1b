/-
C146: `coh_tmm_reverse`. The stack transmits the same from both sides.
-/
import Verif.Props.TmmRcwa

open Complex

namespace Nidn

noncomputable section

/-- the angles of `list_snell`, one by one -/
lemma listSnell_angles {asin : ℂ → ℂ} {n : List ℂ} {th0 : ℂ} {th : List ℂ} (h : listSnell asin n th0 = .ok th) (hl : 2 ≤ n.length) :
    (∀ i, 1 ≤ i → i + 1 < n.length → th.getD i 0 = asin (n.getD 0 0 * Complex.sin th0 / n.getD i 0)) ∧
    makeForward (n.getD (n.length - 1) 0) (asin (n.getD 0 0 * Complex.sin th0 / n.getD (n.length - 1) 0)) = .ok (th.getD (n.length - 1) 0) := by
  unfold listSnell at h
  simp only [bind_ok, pure, Except.pure, Except.ok.injEq] at h
  obtain ⟨n0, h0, an, han, a0, ha0, fi, hfi, nN, hnN, aN, haN, la, hla, rfl⟩ := h
  obtain ⟨e1, e2⟩ := mapM_ok _ _ _ han
  rw [pyNth_zero] at h0 ha0
  rw [pyNth_last] at hnN haN
  have hlen : (an.set 0 fi).length = n.length := by rw [List.length_set, e1]
  rw [hlen] at haN ⊢
  have g0 : n.getD 0 0 = n0 := by simp [List.getD, h0]
  have gN : n.getD (n.length - 1) 0 = nN := by simp [List.getD, hnN]
  rw [g0]
  have hs : ∀ i (hi : i < n.length), an.getD i 0 = asin (n0 * Complex.sin th0 / n.getD i 0) := by
    intro i hi
    have := e2 i hi (by omega)
    obtain ⟨z, hz, h⟩ := bind_ok.1 this
    rw [nanDiv_ok] at hz
    rw [Except.ok.injEq] at h
    rw [getD_at hi, getD_at (by omega : i < an.length), ← h, hz.2]
  have haN' : an.getD (n.length - 1) 0 = aN := by
    rw [List.getElem?_set_ne (by omega)] at haN
    simp [List.getD, haN]
  have gthN : ((an.set 0 fi).set (n.length - 1) la).getD (n.length - 1) 0 = la := by
    simp only [List.getD]
    rw [List.getElem?_set_self (by rw [hlen]; omega)]; rfl
  refine ⟨fun i h1 h2 => ?_, ?_⟩
  · rw [← hs i (by omega)]
    simp only [List.getD]
    rw [List.getElem?_set_ne (by omega), List.getElem?_set_ne (by omega)]
  · rw [gthN, ← hs _ (by omega), haN', gN]; exact hla

lemma cohTmm_snell {asin : ℂ → ℂ} {pol : String} {n : List ℂ} {d : List (Option ℝ)} {th0 lam : ℂ} {c : TmmData} (h : cohTmm asin pol n d th0 lam = .ok c) : listSnell asin n th0 = .ok c.th := by
  unfold cohTmm at h
  by_cases hlen : n.length ≠ d.length
  · rw [if_pos hlen] at h; cases h
  rw [if_neg hlen] at h
  simp only [bind_ok, assertTrue_ok, pure, Except.pure, Except.ok.injEq, exists_const] at h
  obtain ⟨d0, hd0, dN, hdN, ⟨rfl, rfl⟩, n0, hn0, him, fwd, hfwd, rfl, th, hth, kz, hkz, ⟨tr, M⟩, htrM, ⟨t0, r0⟩, htr0, u, hu, r, hr, t, ht, nN, hnN, thN, hthN, T, hT, pe, hpe, hc⟩ := h
  rw [← hc]
  exact hth

lemma getD_rev {α : Type} {l : List α} {i : ℕ} (x : α) (h : i < l.length) : l.reverse.getD i x = l.getD (l.length - 1 - i) x := by
  simp [List.getD, List.getElem?_reverse h]

/-- what the two calls of a stack and its reverse have in common -/
structure ReverseRun (pol : String) (n : List ℂ) (d : List (Option ℝ)) (th0 lam : ℂ) (c b : TmmData) : Prop where
  fwd : TmmRun pol n d th0 lam c
  bwd : TmmRun pol n.reverse d.reverse (c.th.getD (n.length - 1) 0) lam b
  cos_at : ∀ i < n.length, Complex.cos (b.th.getD (n.length - 1 - i) 0) = Complex.cos (c.th.getD i 0)
  kz_at : ∀ i < n.length, b.kz.getD (n.length - 1 - i) 0 = c.kz.getD i 0

lemma reverse_call {asin : ℂ → ℂ} {pol : String} {n : List ℂ} {d : List (Option ℝ)} {th0 lam : ℂ} {c b : TmmData} (h : cohTmm asin pol n d th0 lam = .ok c) (two : 2 ≤ n.length)
    (hb : cohTmmReverse asin pol n d th0 lam = .ok b) : cohTmm asin pol n.reverse d.reverse (c.th.getD (n.length - 1) 0) lam = .ok b := by
  obtain ⟨-, a2⟩ := listSnell_angles (cohTmm_snell h) two
  unfold cohTmmReverse at hb
  simp only [bind_ok] at hb
  obtain ⟨n0, hn0, nN, hnN, thf, hthf, hb⟩ := hb
  rw [pyNth_zero] at hn0
  rw [pyNth_last] at hnN
  have g0 : n.getD 0 0 = n0 := by simp [List.getD, hn0]
  have gN : n.getD (n.length - 1) 0 = nN := by simp [List.getD, hnN]
  unfold snell at hthf
  simp only [bind_ok, nanDiv_ok] at hthf
  obtain ⟨z, ⟨hz, rfl⟩, hthf⟩ := hthf
  rw [g0, gN] at a2
  obtain rfl : thf = c.th.getD (n.length - 1) 0 := by
    rw [a2] at hthf
    exact (Except.ok.inj hthf).symm
  exact hb

lemma reverse_run {asin : ℂ → ℂ} (hasin : ∀ z, Complex.sin (asin z) = z) {pol : String} {n : List ℂ} {d : List (Option ℝ)} {th0 lam : ℂ} {c b : TmmData} (h : cohTmm asin pol n d th0 lam = .ok c)
    (hb : cohTmmReverse asin pol n d th0 lam = .ok b) : ReverseRun pol n d th0 lam c b := by
  have hr := cohTmm_run hasin h
  have two := hr.two
  obtain ⟨a1, a2⟩ := listSnell_angles (cohTmm_snell h) two
  replace hb := reverse_call h two hb
  obtain ⟨n0, g0⟩ : ∃ n0, n.getD 0 0 = n0 := ⟨_, rfl⟩
  obtain ⟨nN, gN⟩ : ∃ nN, n.getD (n.length - 1) 0 = nN := ⟨_, rfl⟩
  have hr' := cohTmm_run hasin hb
  have l1 : n.reverse.length = n.length := List.length_reverse
  obtain ⟨b1, b2⟩ := listSnell_angles (cohTmm_snell hb) hr'.two
  have r0 : n.reverse.getD 0 0 = nN := by rw [getD_rev _ (by omega), Nat.sub_zero, gN]
  have rN : n.reverse.getD (n.length - 1) 0 = n0 := by rw [getD_rev _ (by omega), Nat.sub_self, g0]
  have es := (hr.snell_at (n.length - 1) (by omega)).2
  rw [gN, g0] at es
  have hcos : ∀ i < n.length, Complex.cos (b.th.getD (n.length - 1 - i) 0) = Complex.cos (c.th.getD i 0) := by
    intro i hi
    rcases Nat.eq_zero_or_pos i with rfl | h1
    · rw [Nat.sub_zero, hr.cos_first]
      have hs := (hr'.snell_at (n.length - 1) (by omega))
      have hf := hr'.fwd_last
      rw [l1] at hf
      rw [rN, r0, es] at hs
      rw [rN] at hf
      refine cos_same (n := n0) (mul_left_cancel₀ hs.1 hs.2) hf ?_
      have := isForward_answer hr.fwd_first
      rw [g0] at this
      exact this.symm
    · by_cases h2 : i + 1 < n.length
      · rw [b1 (n.length - 1 - i) (by omega) (by omega), a1 i h1 h2, r0, es, getD_rev _ (by omega), show n.length - 1 - (n.length - 1 - i) = i by omega, g0]
      · rw [show i = n.length - 1 by omega, Nat.sub_self, hr'.cos_first]
  refine ⟨hr, hr', hcos, fun i hi => ?_⟩
  rw [hr.kz_at i hi, hr'.kz_at _ (by omega), hcos i hi, getD_rev _ (by omega), show n.length - 1 - (n.length - 1 - i) = i by omega]

/-- the reciprocity product of two waves that travel in opposite directions -/
def crossed (pol : String) (n th : ℂ) (v w : Fin 2 → ℂ) : ℂ := tmmA pol n th * tmmB pol n th * (v 0 * w 0 - v 1 * w 1)

lemma crossed_joined {pol : String} {n th n' th' m mth m' mth' : ℂ} {v v' w w' : Fin 2 → ℂ} (h : TmmJoined pol n th n' th' v v') (hw : TmmJoined pol m' mth' m mth w' w) (e1 : m = n) (e2 : Complex.cos mth = Complex.cos th)
    (e3 : m' = n') (e4 : Complex.cos mth' = Complex.cos th') : crossed pol n th v w = crossed pol n' th' v' w' := by
  subst e1 e3
  have f2 : tmmB pol m mth = tmmB pol m th := by unfold tmmB; rw [e2]
  have f4 : tmmB pol m' mth' = tmmB pol m' th' := by unfold tmmB; rw [e4]
  obtain ⟨h1, h2⟩ := h
  obtain ⟨w1, w2⟩ := hw
  rw [f2, f4] at w2
  have f1 : tmmA pol m mth = tmmA pol m th := rfl
  have f3 : tmmA pol m' mth' = tmmA pol m' th' := rfl
  rw [f1, f3] at w1
  unfold crossed
  generalize tmmA pol m th = A at *
  generalize tmmA pol m' th' = A' at *
  generalize tmmB pol m th = B at *
  generalize tmmB pol m' th' = B' at *
  have e1 : A * (v 0 + v 1) * (B * (w 0 - w 1)) = A' * (v' 0 + v' 1) * (B' * (w' 0 - w' 1)) := by rw [h1, w2]
  have e2 : A * (w 0 + w 1) * (B * (v 0 - v 1)) = A' * (w' 0 + w' 1) * (B' * (v' 0 - v' 1)) := by rw [h2, w1]
  linear_combination (e1 + e2) / 2

lemma crossed_back (pol : String) (n th δ : ℂ) (v w : Fin 2 → ℂ) : crossed pol n th (atBack δ v) w = crossed pol n th v (atBack δ w) := by
  simp only [crossed, atBack, Matrix.cons_val_zero, Matrix.cons_val_one]
  ring

lemma tmmAB (pol : String) (n th : ℂ) : tmmA pol n th * tmmB pol n th = n * Complex.cos th := by
  unfold tmmA tmmB
  split <;> ring

lemma reverse_amplitude {pol : String} {n : List ℂ} {d : List (Option ℝ)} {th0 lam : ℂ} {c b : TmmData} (h : ReverseRun pol n d th0 lam c b) :
    b.t * (n.getD 0 0 * Complex.cos th0) = c.t * (n.getD (n.length - 1) 0 * Complex.cos (c.th.getD (n.length - 1) 0)) := by
  have two := h.fwd.two
  have l1 : n.reverse.length = n.length := List.length_reverse
  have l2 := h.fwd.len_d
  -- the wave from behind at the front of layer i ≥ 1
  have step : ∀ i, 1 ≤ i → i + 1 < n.length → crossed pol (n.getD 0 0) (c.th.getD 0 0) ![1, c.r] ![b.t, 0] =
      crossed pol (n.getD i 0) (c.th.getD i 0) (c.vw.getD i 0) (atBack (clampPhase (c.kz.getD i 0 * ((d.getD i none).getD 0))) (b.vw.getD (n.length - 1 - i) 0)) := by
    intro i h1
    induction i, h1 using Nat.le_induction with
    | base =>
      intro h2
      obtain ⟨x, hx, hj⟩ := h.bwd.join (n.length - 2) (by omega) (by omega)
      have hv := h.bwd.vw_last
      rw [l1] at hv
      rw [show n.length - 2 + 1 = n.length - 1 by omega, hv] at hj
      rw [List.getElem?_reverse (by omega), show d.length - 1 - (n.length - 2) = 1 by omega] at hx
      have hk := h.kz_at 1 (by omega)
      rw [show n.length - 1 - 1 = n.length - 2 by omega] at hk ⊢
      rw [hk] at hj
      have hd : (d.getD 1 none).getD 0 = x := by simp [List.getD, hx]
      rw [hd]
      have c0 := h.cos_at 0 (by omega)
      have c1 := h.cos_at 1 (by omega)
      rw [Nat.sub_zero] at c0
      rw [show n.length - 1 - 1 = n.length - 2 by omega] at c1
      refine crossed_joined h.fwd.join_first hj ?_ c0 ?_ c1
      · rw [getD_rev _ (by omega), Nat.sub_self]
      · rw [getD_rev _ (by omega), show n.length - 1 - (n.length - 2) = 1 by omega]
    | succ i h1 ih =>
      intro h2
      rw [ih (by omega)]
      obtain ⟨x, hx, hj⟩ := h.fwd.join i h1 (by omega)
      obtain ⟨y, hy, hk⟩ := h.bwd.join (n.length - 2 - i) (by omega) (by omega)
      rw [List.getElem?_reverse (by omega), show d.length - 1 - (n.length - 2 - i) = i + 1 by omega] at hy
      have hd : (d.getD i none).getD 0 = x := by simp [List.getD, hx]
      have hd' : (d.getD (i + 1) none).getD 0 = y := by simp [List.getD, hy]
      rw [hd, hd', ← crossed_back]
      have k1 := h.kz_at (i + 1) (by omega)
      rw [show n.length - 1 - (i + 1) = n.length - 2 - i by omega] at k1 ⊢
      rw [k1, show n.length - 2 - i + 1 = n.length - 1 - i by omega] at hk
      have c1 := h.cos_at (i + 1) (by omega)
      rw [show n.length - 1 - (i + 1) = n.length - 2 - i by omega] at c1
      refine crossed_joined hj hk ?_ (h.cos_at i (by omega)) ?_ c1
      · rw [getD_rev _ (by omega), show n.length - 1 - (n.length - 1 - i) = i by omega]
      · rw [getD_rev _ (by omega), show n.length - 1 - (n.length - 2 - i) = i + 1 by omega]
  have hend : crossed pol (n.getD 0 0) (c.th.getD 0 0) ![1, c.r] ![b.t, 0] =
      crossed pol (n.getD (n.length - 1) 0) (c.th.getD (n.length - 1) 0) ![c.t, 0] ![1, b.r] := by
    have cN := h.cos_at (n.length - 1) (by omega)
    rw [Nat.sub_self] at cN
    have jb := h.bwd.join_first
    by_cases h3 : 2 < n.length
    · rw [step (n.length - 2) (by omega) (by omega)]
      obtain ⟨x, hx, hj⟩ := h.fwd.join (n.length - 2) (by omega) (by omega)
      have hd : (d.getD (n.length - 2) none).getD 0 = x := by simp [List.getD, hx]
      rw [hd, ← crossed_back]
      have hv := h.fwd.vw_last
      rw [show n.length - 2 + 1 = n.length - 1 by omega, hv] at hj
      have c1 := h.cos_at (n.length - 2) (by omega)
      rw [show n.length - 1 - (n.length - 2) = 1 by omega] at c1 ⊢
      refine crossed_joined hj jb ?_ c1 ?_ cN
      · rw [getD_rev _ (by omega), show n.length - 1 - 1 = n.length - 2 by omega]
      · rw [getD_rev _ (by omega), Nat.sub_zero]
    · have e2 : n.length = 2 := by omega
      have hf := h.fwd.join_first
      have hv := h.fwd.vw_last
      have hw := h.bwd.vw_last
      have c0 := h.cos_at 0 (by omega)
      rw [l1] at hw
      rw [e2] at hv hw cN c0 ⊢
      simp only [Nat.add_one_sub_one, Nat.sub_zero] at hv hw cN c0 ⊢
      rw [hv] at hf
      rw [hw] at jb
      refine crossed_joined hf jb ?_ c0 ?_ cN
      · rw [getD_rev _ (by omega), e2]
      · rw [getD_rev _ (by omega), e2]
  unfold crossed at hend
  simp only [Matrix.cons_val_zero, Matrix.cons_val_one, tmmAB] at hend
  rw [h.fwd.cos_first] at hend
  linear_combination hend

/-- C146. The transmission amplitudes of a stack from its two sides differ by the ratio of the normal components of the indices of the two outer
media: any layers, absorbing or not, any angle, either polarisation. -/
theorem C146_amplitudes (asin : ℂ → ℂ) (hasin : ∀ z, Complex.sin (asin z) = z) (pol : String) (n : List ℂ) (d : List (Option ℝ)) (th0 lam : ℂ) (c b : TmmData) (h : cohTmm asin pol n d th0 lam = .ok c)
    (hb : cohTmmReverse asin pol n d th0 lam = .ok b) (n0 nN thN : ℂ) (h0 : n[0]? = some n0) (hN : n[n.length - 1]? = some nN) (ht : c.th[n.length - 1]? = some thN) :
    b.t * (n0 * Complex.cos th0) = c.t * (nN * Complex.cos thN) := by
  have := reverse_amplitude (reverse_run hasin h hb)
  rwa [show n.getD 0 0 = n0 by simp [List.getD, h0], show n.getD (n.length - 1) 0 = nN by simp [List.getD, hN], show c.th.getD (n.length - 1) 0 = thN by simp [List.getD, ht]] at this

lemma real_angle {z : ℂ} (h1 : (Complex.sin z).im = 0) (h2 : (Complex.cos z).im = 0) : z = (z.re : ℂ) := by
  have e1 : Complex.sin z = ((Complex.sin z).re : ℂ) := Complex.ext rfl (by simp [h1])
  have e2 : Complex.cos z = ((Complex.cos z).re : ℂ) := Complex.ext rfl (by simp [h2])
  have h3 : Complex.exp (z * Complex.I) = ((Complex.cos z).re : ℂ) + ((Complex.sin z).re : ℂ) * Complex.I := by rw [Complex.exp_mul_I, ← e1, ← e2]
  have h4 := congrArg Complex.normSq h3
  rw [Complex.normSq_add_mul_I, Complex.normSq_eq_norm_sq, Complex.norm_exp] at h4
  have h5 : (Complex.cos z).re ^ 2 + (Complex.sin z).re ^ 2 = 1 := by
    have := Complex.sin_sq_add_cos_sq z
    rw [e1, e2] at this
    have : (((Complex.sin z).re ^ 2 + (Complex.cos z).re ^ 2 : ℝ) : ℂ) = 1 := by push_cast; exact this
    have : (Complex.sin z).re ^ 2 + (Complex.cos z).re ^ 2 = 1 := by exact_mod_cast this
    linarith
  rw [h5, ← Real.exp_nat_mul, Real.exp_eq_one_iff] at h4
  refine Complex.ext rfl ?_
  simp only [Complex.mul_re, Complex.I_re, Complex.I_im] at h4
  push_cast at h4
  rw [Complex.ofReal_im]
  linarith

/-- light that carries power in a medium of real index travels at a real angle -/
lemma real_last {pol : String} {n s : ℝ} {th : ℂ} (hn : n ≠ 0) (hs : (n : ℂ) * Complex.sin th = s) (hp : tmmP pol n th ≠ 0) :
    th = (th.re : ℂ) ∧ (n : ℂ) * Complex.cos th = ((n * Real.cos th.re : ℝ) : ℂ) ∧ tmmP pol n th = n * Real.cos th.re := by
  have hnc : (n : ℂ) ≠ 0 := by exact_mod_cast hn
  have hre : tmmP pol n th = n * (Complex.cos th).re := by
    unfold tmmP
    split <;> simp
  have hsin : Complex.sin th = ((s / n : ℝ) : ℂ) := by
    push_cast
    rw [← hs]; field_simp
  have him : (Complex.cos th).im = 0 := by
    have h2 := Complex.sin_sq_add_cos_sq th
    have h3 := congrArg Complex.im h2
    rw [hsin, ← Complex.ofReal_pow, Complex.add_im, Complex.ofReal_im, pow_two, Complex.mul_im, zero_add, Complex.one_im] at h3
    have h4 : (Complex.cos th).re ≠ 0 := by
      intro e; rw [hre, e, mul_zero] at hp; exact hp rfl
    have : (Complex.cos th).re * (Complex.cos th).im = 0 := by linarith
    exact (mul_eq_zero.1 this).resolve_left h4
  have hr := real_angle (z := th) (by rw [hsin]; simp) him
  have hc : Complex.cos th = ((Real.cos th.re : ℝ) : ℂ) := by rw [hr]; push_cast; simp
  refine ⟨hr, by rw [hc]; push_cast; ring, ?_⟩
  rw [hre, hc, Complex.ofReal_re]

/-- C146. A stack between two media of real index transmits the same share of the light from both sides: any layers, absorbing or not, either polarisation. -/
theorem C146_transmittance (asin : ℂ → ℂ) (hasin : ∀ z, Complex.sin (asin z) = z) (pol : String) (n : List ℂ) (d : List (Option ℝ)) (θ : ℝ) (lam : ℂ) (c b : TmmData) (h : cohTmm asin pol n d θ lam = .ok c)
    (hb : cohTmmReverse asin pol n d θ lam = .ok b) (n0 nN : ℝ) (h0 : n[0]? = some (n0 : ℂ)) (hN : n[n.length - 1]? = some (nN : ℂ)) : b.T = c.T := by
  have hr := reverse_run hasin h hb
  have ha := reverse_amplitude hr
  have g0 : n.getD 0 0 = n0 := by simp [List.getD, h0]
  have gN : n.getD (n.length - 1) 0 = nN := by simp [List.getD, hN]
  have two := hr.fwd.two
  have r0 : n.reverse.getD 0 0 = nN := by rw [getD_rev _ (by omega), Nat.sub_zero, gN]
  have rN : n.reverse.getD (n.length - 1) 0 = n0 := by rw [getD_rev _ (by omega), Nat.sub_self, g0]
  have hT := hr.fwd.T_def
  have hT' := hr.bwd.T_def
  have hp0 := hr.fwd.pow_ne
  have hpN := hr.bwd.pow_ne
  rw [List.length_reverse, rN, r0] at hT'
  rw [r0] at hpN
  rw [g0] at hp0
  rw [g0, gN] at hT ha
  have hne := (hr.fwd.snell_at (n.length - 1) (by omega))
  rw [gN, g0] at hne
  have hnN : nN ≠ 0 := by exact_mod_cast hne.1
  obtain ⟨-, e2, e3⟩ := real_last (s := n0 * Real.sin θ) hnN (by rw [hne.2]; push_cast; ring) hpN
  have hfw := hr.fwd.fwd_first
  rw [g0] at hfw
  obtain ⟨p1, p2⟩ := real_power (pol := pol) hfw
  have hc0 := hr.cos_at 0 (by omega)
  rw [Nat.sub_zero, hr.fwd.cos_first] at hc0
  have hPb : tmmP pol n0 (b.th.getD (n.length - 1) 0) = n0 * Real.cos θ := by
    rw [← p1]; unfold tmmP; rw [hc0]
  rw [hT, hT', hPb, p1, e3]
  rw [e3] at hpN
  rw [e2, ← Complex.ofReal_cos, ← Complex.ofReal_mul] at ha
  generalize n0 * Real.cos θ = x at *
  generalize nN * Real.cos _ = y at *
  have hx : x ≠ 0 := p2.ne'
  have hs : ‖b.t‖ ^ 2 * x ^ 2 = ‖c.t‖ ^ 2 * y ^ 2 := by
    have := congrArg (fun z : ℂ => ‖z‖ ^ 2) ha
    simpa only [norm_mul, Complex.norm_real, Real.norm_eq_abs, mul_pow, sq_abs] using this
  field_simp
  linear_combination hs

/-- C146. If no layer absorbs, the stack also reflects the same share from both sides. -/
theorem C146_reflectance (asin : ℂ → ℂ) (hasin : ∀ z, Complex.sin (asin z) = z) (pol : String) (n : List ℂ) (d : List (Option ℝ)) (θ lam : ℝ) (hl : 0 < lam) (c b : TmmData) (h : cohTmm asin pol n d θ lam = .ok c)
    (hb : cohTmmReverse asin pol n d θ lam = .ok b) (n0 nN : ℝ) (h0 : n[0]? = some (n0 : ℂ)) (hN : n[n.length - 1]? = some (nN : ℂ)) (hn : ∀ z ∈ n, z.re * z.im = 0)
    (hx : ∀ (i : ℕ) x, d[i]? = some (some x) → 0 ≤ x ∧ (c.kz.getD i 0 * x).im ≤ 35) : b.R = c.R ∧ c.R + c.T = 1 := by
  have hr := reverse_run hasin h hb
  have two := hr.fwd.two
  have hT := C146_transmittance asin hasin pol n d θ lam c b h hb n0 nN h0 hN
  have hc := (C142_RT asin hasin pol n d n0 θ lam hl c h h0 (fun z hz => (hn z hz).ge) hx).2.2.2 hn
  have hcall := reverse_call h two hb
  have g0 : n.getD 0 0 = n0 := by simp [List.getD, h0]
  have gN : n.getD (n.length - 1) 0 = nN := by simp [List.getD, hN]
  have r0 : n.reverse.getD 0 0 = nN := by rw [getD_rev _ (by omega), Nat.sub_zero, gN]
  have hpN := hr.bwd.pow_ne
  rw [r0] at hpN
  have hne := (hr.fwd.snell_at (n.length - 1) (by omega))
  rw [gN, g0] at hne
  have hnN : nN ≠ 0 := by exact_mod_cast hne.1
  obtain ⟨e1, -, -⟩ := real_last (s := n0 * Real.sin θ) hnN (by rw [hne.2]; push_cast; ring) hpN
  rw [e1] at hcall
  have hl2 := hr.fwd.len_d
  have hb' := (C142_RT asin hasin pol n.reverse d.reverse nN _ lam hl b hcall (by rw [List.getElem?_reverse (by omega), Nat.sub_zero]; exact hN) (fun z hz => (hn z (List.mem_reverse.1 hz)).ge) (by
    intro i x hi
    have hi' : i < d.length := by
      rw [List.getElem?_eq_some_iff] at hi
      simpa using hi.1
    rw [List.getElem?_reverse hi'] at hi
    have k := hr.kz_at (d.length - 1 - i) (by omega)
    rw [show n.length - 1 - (d.length - 1 - i) = i by omega] at k
    rw [k]
    exact hx _ x hi)).2.2.2 fun z hz => hn z (List.mem_reverse.1 hz)
  exact ⟨by linarith, hc⟩

/-- C146. Stacks of passive materials between two media of real index, through which the light travels, are accepted from both sides. -/
theorem C146_accepts (asin : ℂ → ℂ) (hasin : ∀ z, Complex.sin (asin z) = z) (pol : String) (hpol : pol = "s" ∨ pol = "p") (n0 nN θ lam : ℝ) (hn0 : 0 < n0) (hnN : 0 < nN) (hθ : 0 < Real.cos θ) (hl : 0 < lam)
    (mids : List (ℂ × ℝ × ℂ)) (hm : ∀ m ∈ stackIndices n0 mids nN, Travels asin ((n0 * Real.sin θ : ℝ) : ℂ) m)
    (hx : ∀ m ∈ mids, 0 ≤ m.2.1 ∧ (2 * Real.pi * normalIndex asin ((n0 * Real.sin θ : ℝ) : ℂ) m.1 * m.2.1 / lam).im ≤ 35) :
    ∃ c b, cohTmm asin pol (stackIndices n0 mids nN) (stackThicknesses mids) θ lam = .ok c ∧ cohTmmReverse asin pol (stackIndices n0 mids nN) (stackThicknesses mids) θ lam = .ok b ∧ b.T = c.T := by
  obtain ⟨c, hc⟩ := C140_accepts asin hasin pol hpol n0 θ lam hn0 hθ hl mids nN hm hx
  have tN := hm nN (by simp [stackIndices])
  have hsin : (nN : ℂ) * Complex.sin (asin (((n0 * Real.sin θ : ℝ) : ℂ) / nN)) = ((n0 * Real.sin θ : ℝ) : ℂ) := by rw [hasin, mul_div_cancel₀ _ tN.ne]
  have hpos : 0 < tmmP pol nN (asin (((n0 * Real.sin θ : ℝ) : ℂ) / nN)) := power_pos tN.ne hsin tN.re
  obtain ⟨e1, e2, e3⟩ := real_last hnN.ne' hsin hpos.ne'
  set x := (asin (((n0 * Real.sin θ : ℝ) : ℂ) / nN)).re with hxdef
  have hs : nN * Real.sin x = n0 * Real.sin θ := by
    rw [e1, ← Complex.ofReal_sin, ← Complex.ofReal_mul] at hsin
    exact_mod_cast hsin
  have hcx : 0 < Real.cos x := by
    rw [e3] at hpos
    exact (pos_iff_pos_of_mul_pos hpos).1 hnN
  have hrev : (stackIndices n0 mids nN).reverse = stackIndices nN mids.reverse n0 := by simp [stackIndices, List.map_reverse]
  have hrevd : (stackThicknesses mids).reverse = stackThicknesses mids.reverse := by simp [stackThicknesses, List.map_reverse]
  obtain ⟨b, hb⟩ := C140_accepts asin hasin pol hpol nN x lam hnN hcx hl mids.reverse n0 (by
    intro m hm'
    rw [hs]
    refine hm m ?_
    rw [← hrev] at hm'
    exact List.mem_reverse.1 hm') (by
    intro m hm'
    rw [hs]
    exact hx m (List.mem_reverse.1 hm'))
  have hrb : cohTmmReverse asin pol (stackIndices n0 mids nN) (stackThicknesses mids) θ lam = .ok b := by
    unfold cohTmmReverse
    refine bind_ok.2 ⟨n0, pyNth_zero.2 (by simp [stackIndices]), bind_ok.2 ⟨nN, pyNth_last.2 (by simp [stackIndices]), bind_ok.2 ⟨(x : ℂ), ?_, ?_⟩⟩⟩
    · unfold snell
      refine bind_ok.2 ⟨_, nanDiv_ok.2 ⟨tN.ne, rfl⟩, ?_⟩
      unfold makeForward
      have e0 : (n0 : ℂ) * Complex.sin θ = ((n0 * Real.sin θ : ℝ) : ℂ) := by push_cast; rfl
      rw [e0]
      refine bind_ok.2 ⟨true, forward_true tN.ne tN.passive hsin tN.re tN.im, ?_⟩
      simp only [if_true, pure, Except.pure, Except.ok.injEq]
      exact e1
    · rw [hrev, hrevd]; exact hb
  exact ⟨c, b, hc, hrb, C146_transmittance asin hasin pol _ _ θ lam c b hc hrb n0 nN (by simp [stackIndices]) (by simp [stackIndices])⟩

/-- Non-vacuity: a film of index 2 + 0.5 i on glass, at normal incidence. -/
example : ∃ c b, cohTmm someArcsin "p" [1, 2 + 0.5 * Complex.I, 1.5] [none, some 0.2, none] (0 : ℝ) (1 : ℝ) = .ok c ∧
    cohTmmReverse someArcsin "p" [1, 2 + 0.5 * Complex.I, 1.5] [none, some 0.2, none] (0 : ℝ) (1 : ℝ) = .ok b ∧ b.T = c.T := by
  have hA : someArcsin 0 = 0 := by simp [someArcsin]
  have hpi := Real.pi_lt_four
  have hpi0 := Real.pi_pos
  have hne : (2 + 0.5 * Complex.I : ℂ) ≠ 0 := by
    intro e
    have := congrArg Complex.re e
    norm_num at this
  have := C146_accepts someArcsin someArcsin_sin "p" (.inr rfl) 1 1.5 0 1 one_pos (by norm_num) (by simp) one_pos [(2 + 0.5 * Complex.I, 0.2, 1)]
    (by
      intro m hm
      simp only [stackIndices, List.map_cons, List.map_nil, List.cons_append, List.nil_append, List.mem_cons, List.not_mem_nil, or_false] at hm
      rcases hm with rfl | rfl | rfl
      · exact ⟨by simp, by simp, by simp [normalIndex, hA], by simp [normalIndex, hA]⟩
      · exact ⟨hne, by norm_num, by simp [normalIndex, hA], by norm_num [normalIndex, hA]⟩
      · exact ⟨by norm_num, by norm_num, by norm_num [normalIndex, hA], by norm_num [normalIndex, hA]⟩)
    (by
      intro m hm
      simp only [List.mem_singleton] at hm
      subst hm
      refine ⟨by norm_num, ?_⟩
      simp [normalIndex, hA]
      norm_num
      linarith)
  simpa [stackIndices, stackThicknesses] using this

end

end Nidn
