/-
C152: at normal incidence the polarisation does not matter.
-/
import Verif.Props.TmmReverse

namespace Nidn

noncomputable section

/-- turns the sign of the backward amplitude -/
def turnBack : Matrix (Fin 2) (Fin 2) ℂ := !![1, 0; 0, -1]

lemma turnBack_sq : turnBack * turnBack = 1 := by
  unfold turnBack
  ext i j
  fin_cases i <;> fin_cases j <;> simp

lemma interfaceR_normal (a b : ℂ) {α β : ℂ} (hα : Complex.cos α = 1) (hβ : Complex.cos β = 1) {r : ℂ} (h : interfaceR "s" a b α β = .ok r) : interfaceR "p" a b α β = .ok (-r) := by
  unfold interfaceR at h ⊢
  simp only [hα, hβ, mul_one, if_true, if_neg (show ¬("p" = "s") by decide), nanDiv_ok] at h ⊢
  obtain ⟨h1, rfl⟩ := h
  refine ⟨by rwa [add_comm], ?_⟩
  rw [← neg_div, neg_sub, add_comm]

lemma interfaceT_normal (a b : ℂ) {α β : ℂ} (hα : Complex.cos α = 1) (hβ : Complex.cos β = 1) {t : ℂ} (h : interfaceT "s" a b α β = .ok t) : interfaceT "p" a b α β = .ok t := by
  unfold interfaceT at h ⊢
  simp only [hα, hβ, mul_one, if_true, if_neg (show ¬("p" = "s") by decide), nanDiv_ok] at h ⊢
  obtain ⟨h1, rfl⟩ := h
  exact ⟨by rwa [add_comm], by rw [add_comm]⟩

lemma layerMatrix_turn {δ t r : ℂ} {M : Matrix (Fin 2) (Fin 2) ℂ} (h : layerMatrix δ t r = .ok M) : layerMatrix δ t (-r) = .ok (turnBack * M * turnBack) := by
  unfold layerMatrix at h ⊢
  simp only [bind_ok, pure, Except.pure, Except.ok.injEq] at h ⊢
  obtain ⟨u, hu, rfl⟩ := h
  refine ⟨u, hu, ?_⟩
  unfold turnBack make2x2
  ext i j
  fin_cases i <;> fin_cases j <;> simp [Matrix.mul_apply, Fin.sum_univ_two]

lemma foldl_turn (M : List (Matrix (Fin 2) (Fin 2) ℂ)) (A : Matrix (Fin 2) (Fin 2) ℂ) :
    (M.map fun m => turnBack * m * turnBack).foldl (· * ·) (turnBack * A * turnBack) = turnBack * M.foldl (· * ·) A * turnBack := by
  induction M generalizing A with
  | nil => rfl
  | cons m M ih =>
    rw [List.map_cons, List.foldl_cons, List.foldl_cons, ← ih]
    congr 1
    calc turnBack * A * turnBack * (turnBack * m * turnBack) = turnBack * A * (turnBack * turnBack) * m * turnBack := by simp only [mul_assoc]
      _ = turnBack * (A * m) * turnBack := by rw [turnBack_sq]; simp only [mul_assoc, one_mul]

lemma mapM_transfer {α β γ : Type} {f : α → Except PyErr β} {g : α → Except PyErr γ} (φ : β → γ) {l : List α} {r : List β} (h : l.mapM f = .ok r) (hfg : ∀ a ∈ l, ∀ b, f a = .ok b → g a = .ok (φ b)) :
    l.mapM g = .ok (r.map φ) := by
  induction l generalizing r with
  | nil =>
    simp only [List.mapM_nil, pure, Except.pure, Except.ok.injEq] at h ⊢
    rw [← h]; rfl
  | cons a l ih =>
    simp only [List.mapM_cons, bind_ok, pure, Except.pure, Except.ok.injEq] at h ⊢
    obtain ⟨b, hb, bs, hbs, rfl⟩ := h
    exact ⟨φ b, hfg a (by simp) b hb, bs.map φ, ih hbs (fun a ha => hfg a (by simp [ha])), rfl⟩

lemma cos_normal {asin : ℂ → ℂ} (hasin : ∀ z, Complex.sin (asin z) = z) (h0 : asin 0 = 0) {pol : String} {n : List ℂ} {d : List (Option ℝ)} {lam : ℂ} (hn : ∀ m ∈ n, 0 < m.re ∧ 0 ≤ m.im) {c : TmmData}
    (h : cohTmm asin pol n d 0 lam = .ok c) : ∀ i < n.length, Complex.cos (c.th.getD i 0) = 1 := by
  have hr := cohTmm_run hasin h
  have two := hr.two
  obtain ⟨a1, a2⟩ := listSnell_angles (cohTmm_snell h) two
  rw [Complex.sin_zero, mul_zero, zero_div, h0] at a2
  intro i hi
  rcases Nat.eq_zero_or_pos i with rfl | q1
  · rw [hr.cos_first, Complex.cos_zero]
  · by_cases q2 : i + 1 < n.length
    · rw [a1 i q1 q2, Complex.sin_zero, mul_zero, zero_div, h0, Complex.cos_zero]
    · obtain rfl : i = n.length - 1 := by omega
      obtain ⟨m1, m2⟩ := hn (n.getD (n.length - 1) 0) (by rw [getD_at hi]; exact List.getElem_mem hi)
      have := forward_true (n := n.getD (n.length - 1) 0) (th := 0) (s := 0) (hr.snell_at _ hi).1 (mul_nonneg m1.le m2) (by simp) (by simpa using m1) (by simpa using m2)
      unfold makeForward at a2
      rw [this, ok_bind, if_pos rfl] at a2
      rw [← Except.ok.inj a2, Complex.cos_zero]

/-- C152. At normal incidence both polarisations give the same transmitted amplitude and opposite reflected amplitudes (the reflected field is counted the other way round for p), so the same
reflectance and transmittance; `unpolarized_RT` returns these, and `ellips` returns 45 degrees and no phase. -/
theorem C152_normal (asin : ℂ → ℂ) (hasin : ∀ z, Complex.sin (asin z) = z) (h0 : asin 0 = 0) (n : List ℂ) (d : List (Option ℝ)) (lam : ℂ) (hn : ∀ m ∈ n, 0 < m.re ∧ 0 ≤ m.im) (c : TmmData) (h : cohTmm asin "s" n d 0 lam = .ok c) :
    (∃ b, cohTmm asin "p" n d 0 lam = .ok b ∧ b.r = -c.r ∧ b.t = c.t ∧ b.R = c.R ∧ b.T = c.T ∧ b.powerEntering = c.powerEntering) ∧ unpolarizedRT asin n d 0 lam = .ok (c.R, c.T) ∧
      (c.r ≠ 0 → ellips asin n d 0 lam = .ok (Real.pi / 4, 0)) := by
  have key : ∃ b, cohTmm asin "p" n d 0 lam = .ok b ∧ b.r = -c.r ∧ b.t = c.t ∧ b.R = c.R ∧ b.T = c.T ∧ b.powerEntering = c.powerEntering := by
    have hcos := cos_normal hasin h0 hn h
    have hrun := cohTmm_run hasin h
    have htheq := cohTmm_snell h
    unfold cohTmm at h
    by_cases hlen : n.length ≠ d.length
    · rw [if_pos hlen] at h; cases h
    rw [if_neg hlen] at h
    simp only [bind_ok, assertTrue_ok, pure, Except.pure, Except.ok.injEq, exists_const] at h
    obtain ⟨d0, hd0, dN, hdN, hdd, n0, hn0, him, fwd, hfwd, hf, th, hth, kz, hkz, ⟨tr, M⟩, htrM, ⟨t0, r0⟩, htr0, u, hu, r, hr, t, ht, nN, hnN, thN, hthN, T, hT, pe, hpe, hc⟩ := h
    rw [htheq, Except.ok.injEq] at hth
    subst hth
    unfold stackMatrices at htrM
    simp only [bind_ok, pure, Except.pure, Except.ok.injEq, Prod.mk.injEq] at htrM
    obtain ⟨δ, hδ, tr', htr, M', hM, rfl, rfl⟩ := htrM
    dsimp only at htr0 hu hr ht hc
    set tp : List (ℂ × ℂ) := tr'.map fun x => (x.1, -x.2) with htp
    set Mp := M'.map fun m => turnBack * m * turnBack with hMp
    have htr' : (List.range (n.length - 1)).mapM (fun i => do
        let t ← interfaceT "p" (n.getD i 0) (n.getD (i + 1) 0) (c.th.getD i 0) (c.th.getD (i + 1) 0)
        let r ← interfaceR "p" (n.getD i 0) (n.getD (i + 1) 0) (c.th.getD i 0) (c.th.getD (i + 1) 0)
        pure (t, r)) = .ok tp := by
      refine mapM_transfer _ htr fun i hi b hb => ?_
      rw [List.mem_range] at hi
      simp only [bind_ok, pure, Except.pure, Except.ok.injEq] at hb ⊢
      obtain ⟨t, ht, r, hr, rfl⟩ := hb
      exact ⟨t, interfaceT_normal _ _ (hcos i (by omega)) (hcos (i + 1) (by omega)) ht, -r, interfaceR_normal _ _ (hcos i (by omega)) (hcos (i + 1) (by omega)) hr, rfl⟩
    have htg : ∀ i, tp.getD i (0, 0) = ((tr'.getD i (0, 0)).1, -(tr'.getD i (0, 0)).2) := by
      intro i
      rw [htp]
      simp only [List.getD, List.getElem?_map]
      cases tr'[i]? <;> simp
    have hM' : (List.range (n.length - 2)).mapM (fun i => layerMatrix (δ.getD i 0) (tp.getD (i + 1) (0, 0)).1 (tp.getD (i + 1) (0, 0)).2) = .ok Mp := by
      refine mapM_transfer _ hM fun i _ b hb => ?_
      rw [htg]
      exact layerMatrix_turn hb
    have hsm : stackMatrices "p" n c.th kz d = .ok (tp, Mp) := by
      unfold stackMatrices
      rw [hδ, ok_bind, htr', ok_bind, hM']
      rfl
    have htp0 : tp[0]? = some (t0, -r0) := by
      rw [pyNth_zero] at htr0
      rw [htp, List.getElem?_map, htr0]
      rfl
    have e1 : make2x2 1 0 0 1 = turnBack * make2x2 1 0 0 1 * turnBack := by
      unfold turnBack make2x2
      ext i j
      fin_cases i <;> fin_cases j <;> simp
    have e2 : u • make2x2 1 (-r0) (-r0) 1 = turnBack * (u • make2x2 1 r0 r0 1) * turnBack := by
      unfold turnBack make2x2
      ext i j
      fin_cases i <;> fin_cases j <;> simp
    have e3 : (u • make2x2 1 (-r0) (-r0) 1) * Mp.foldl (· * ·) (make2x2 1 0 0 1) = turnBack * ((u • make2x2 1 r0 r0 1) * M'.foldl (· * ·) (make2x2 1 0 0 1)) * turnBack := by
      rw [e1, hMp, foldl_turn, ← e1, e2]
      generalize u • make2x2 1 r0 r0 1 = A
      generalize M'.foldl (· * ·) (make2x2 1 0 0 1) = B
      calc turnBack * A * turnBack * (turnBack * B * turnBack) = turnBack * A * (turnBack * turnBack) * B * turnBack := by simp only [mul_assoc]
        _ = turnBack * (A * B) * turnBack := by rw [turnBack_sq]; simp only [mul_assoc, one_mul]
    generalize (u • make2x2 1 r0 r0 1) * M'.foldl (· * ·) (make2x2 1 0 0 1) = Q at e3 hr ht
    have q0 : (turnBack * Q * turnBack) 0 0 = Q 0 0 := by rw [Matrix.mul_apply, Fin.sum_univ_two, Matrix.mul_apply, Matrix.mul_apply, Fin.sum_univ_two, Fin.sum_univ_two]; simp [turnBack]
    have q1 : (turnBack * Q * turnBack) 1 0 = -Q 1 0 := by rw [Matrix.mul_apply, Fin.sum_univ_two, Matrix.mul_apply, Matrix.mul_apply, Fin.sum_univ_two, Fin.sum_univ_two]; simp [turnBack]
    rw [nanDiv_ok] at hr ht
    have hcN : Complex.cos thN = 1 := by
      rw [pyNth_last, hrun.len_th] at hthN
      have := hcos (n.length - 1) (by have := hrun.two; omega)
      rwa [show c.th.getD (n.length - 1) 0 = thN by simp [List.getD, hthN]] at this
    have hT' : tFromT "p" t n0 nN 0 thN = .ok T := by
      unfold tFromT at hT ⊢
      simp only [hcN, Complex.cos_zero, map_one, if_true, if_neg (show ¬("p" = "s") by decide)] at hT ⊢
      exact hT
    have hpe' : powerEnteringFromR "p" (-r) n0 0 = .ok pe := by
      unfold powerEnteringFromR at hpe ⊢
      simp only [Complex.cos_zero, map_one, if_true, if_neg (show ¬("p" = "s") by decide), map_neg] at hpe ⊢
      rw [← hpe]
      congr 2
      ring
    refine ⟨_, by
      unfold cohTmm
      rw [if_neg hlen]
      simp only [bind_ok, assertTrue_ok, exists_const]
      refine ⟨d0, hd0, dN, hdN, hdd, n0, hn0, him, fwd, hfwd, hf, c.th, htheq, kz, hkz, (tp, Mp), hsm, (t0, -r0), pyNth_zero.2 htp0, u, hu, -r, ?_, t, ?_, nN, hnN, thN, hthN, T, hT', pe, hpe', rfl⟩
      · simp only [e3, q0, q1]
        exact nanDiv_ok.2 ⟨hr.1, by rw [hr.2, neg_div]⟩
      · simp only [e3, q0]
        exact nanDiv_ok.2 ht, ?_⟩
    rw [← hc]
    refine ⟨rfl, rfl, ?_, rfl, rfl⟩
    simp [rFromR]
  refine ⟨key, ?_, ?_⟩
  · obtain ⟨b, hb, h1, h2, h3, h4, h5⟩ := key
    unfold unpolarizedRT
    rw [h, ok_bind, hb, ok_bind, h3, h4]
    simp only [pure, Except.pure]
    congr 2 <;> ring
  · intro hr
    obtain ⟨b, hb, h1, h2, h3, h4, h5⟩ := key
    unfold ellips
    rw [h, ok_bind, hb, ok_bind, h1, nanDiv_ok.2 ⟨hr, rfl⟩, ok_bind, neg_neg, nanDiv_ok.2 ⟨hr, rfl⟩, ok_bind, neg_div, div_self hr, norm_neg, norm_one, Real.arctan_one, Complex.arg_one]
    rfl

/-- Non-vacuity of `C152_normal`: an absorbing layer in air. -/
example : ∃ c, cohTmm someArcsin "s" [1, 2 + 0.5 * Complex.I, 1] [none, some 0.2, none] 0 1 = .ok c ∧ ∀ m ∈ [(1 : ℂ), 2 + 0.5 * Complex.I, 1], 0 < m.re ∧ 0 ≤ m.im := by
  obtain ⟨c, hc⟩ := slab_accepted
  refine ⟨c, by simpa [stackIndices, stackThicknesses] using hc, ?_⟩
  intro m hm
  simp only [List.mem_cons, List.not_mem_nil, or_false] at hm
  rcases hm with rfl | rfl | rfl <;> norm_num

end

end Nidn
