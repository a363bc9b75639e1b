/-
Property C112: stacks of homogeneous layers agree with the characteristic-matrix method of thin-film optics.
-/
import Verif.Lemmas.Films

set_option linter.unusedSectionVars false

namespace Nidn

open Matrix

noncomputable section

variable {n : ℕ}

/-- power of a one-way wave in one order: the two polarisations add -/
lemma oneWay_proj {ω ε : ℂ} {kx ky : Fin n → ℂ} (hx : ∀ i, (kx i).im = 0) (hy : ∀ i, (ky i).im = 0) (d : ℝ) {o : Fin n} {K φ : ℝ}
    (hkx : kx o = K * Real.cos φ) (hky : ky o = K * Real.sin φ) {a : Fin n ⊕ Fin n → ℂ} (ha : InOrder o a) :
    oneWay ω (uniformLayer ω kx ky ε d) a =
      (projY ω kx ky o (fun _ => ω ^ 2) ε).re * Complex.normSq (proj o (Real.cos φ) (Real.sin φ) a) +
      (projY ω kx ky o (fun ε => ω ^ 2 - 1 / ε * (K : ℂ) ^ 2) ε).re * Complex.normSq (proj o (-Real.sin φ) (Real.cos φ) a) := by
  have e1 : Complex.normSq (kx o * a (.inr o) - ky o * a (.inl o)) = K ^ 2 * Complex.normSq (proj o (-Real.sin φ) (Real.cos φ) a) := by
    rw [show kx o * a (.inr o) - ky o * a (.inl o) = K * proj o (-Real.sin φ) (Real.cos φ) a by rw [hkx, hky, proj]; ring, Complex.normSq_mul,
      Complex.normSq_ofReal]; ring
  have e2 : Complex.normSq (a (.inl o)) + Complex.normSq (a (.inr o)) =
      Complex.normSq (proj o (Real.cos φ) (Real.sin φ) a) + Complex.normSq (proj o (-Real.sin φ) (Real.cos φ) a) := by
    have h := Real.sin_sq_add_cos_sq φ
    simp only [proj, Complex.normSq_apply, Complex.add_re, Complex.add_im, ← Complex.ofReal_neg, Complex.re_ofReal_mul, Complex.im_ofReal_mul]
    linear_combination (-((a (.inl o)).re ^ 2 + (a (.inl o)).im ^ 2 + (a (.inr o)).re ^ 2 + (a (.inr o)).im ^ 2)) * h
  rw [oneWay_planewave ω ε kx ky hx hy d ha, e1, e2, ← Complex.re_mul_ofReal, ← Complex.re_mul_ofReal, ← Complex.add_re]
  congr 1
  simp only [projY]
  push_cast
  rw [div_eq_mul_inv, div_eq_mul_inv, mul_inv]
  ring

/-- the amplitude of one polarisation at the far side and the reflected one, from the film problem -/
lemma film_solve {y0 : ℝ} (h0 : 0 < y0) {E a b t : ℂ} {films : List (ℂ × ℂ)} {yN : ℂ} (hD : filmsDen y0 films yN ≠ 0)
    (h1 : E * a + b = (frontFields films yN).1 * t) (h2 : (y0 : ℂ) * (E * a - b) = (frontFields films yN).2 * t) :
    y0 * Complex.normSq b = Complex.normSq E * (y0 * Complex.normSq a) * filmsR y0 films yN ∧
    yN.re * Complex.normSq t = Complex.normSq E * (y0 * Complex.normSq a) * filmsT y0 films yN := by
  have hy : (y0 : ℂ) ≠ 0 := by exact_mod_cast h0.ne'
  have ht : t = 2 * y0 * E * a / filmsDen y0 films yN := by
    rw [eq_div_iff hD, filmsDen]; linear_combination (-(y0 : ℂ)) * h1 - h2
  have hb : b = E * a * (((y0 : ℂ) * (frontFields films yN).1 - (frontFields films yN).2) / filmsDen y0 films yN) := by
    have e : 2 * (y0 : ℂ) * b = ((y0 : ℂ) * (frontFields films yN).1 - (frontFields films yN).2) * t := by linear_combination (y0 : ℂ) * h1 - h2
    rw [ht] at e
    field_simp at e ⊢
    linear_combination e
  constructor
  · rw [hb, Complex.normSq_mul, Complex.normSq_mul, filmsR]; ring
  · rw [ht, filmsT, Complex.normSq_div, Complex.normSq_mul, Complex.normSq_mul, Complex.normSq_mul, Complex.normSq_ofReal]
    have : Complex.normSq 2 = 4 := by norm_num [Complex.normSq_apply]
    rw [this]; ring

/-- the amplitudes of a solved stack of uniform layers stay in the order of the excitation -/
lemma stack_only {ω ε0 εN : ℂ} {kx ky : Fin n → ℂ} {d0 dN : ℝ} {l : List (ℂ × ℝ)} {o : Fin n}
    (hq : ∀ M ∈ uniformLayer ω kx ky ε0 d0 :: (l ++ [(εN, dN)]).map fun e => uniformLayer ω kx ky e.1 e.2, ∀ m, M.q m ≠ 0)
    {a0 : Fin n ⊕ Fin n → ℂ} (ha : InOrder o a0) {r : (Fin n ⊕ Fin n → ℂ) × (Fin n ⊕ Fin n → ℂ)}
    (h : solveExterior (uniformLayer ω kx ky ε0 d0 :: (l ++ [(εN, dN)]).map fun e => uniformLayer ω kx ky e.1 e.2) a0 0 = .ok r) :
    StackSol (uniformLayer ω kx ky ε0 d0 :: (l ++ [(εN, dN)]).map fun e => uniformLayer ω kx ky e.1 e.2) a0 r.2 r.1 0 ∧ InOrder o r.2 ∧ InOrder o r.1 := by
  have hs := (C16_exterior _ hq _ 0 r.1 r.2 r h).2 ⟨rfl, rfl⟩
  have ho := only_sol (fun M hM => by
    simp only [List.mem_cons, List.mem_map] at hM
    rcases hM with rfl | ⟨e, _, rfl⟩
    · exact ⟨_, _, rfl⟩
    · exact ⟨_, _, rfl⟩) o hs
  rw [onlyOrder_of_inOrder ha, onlyOrder_zero] at ho
  obtain ⟨ea, eb⟩ := (C16_exterior _ hq _ 0 _ _ r h).1 ho
  exact ⟨hs, by rw [← eb]; exact onlyOrder_inOrder o r.2, by rw [← ea]; exact onlyOrder_inOrder o r.1⟩

/-- if the solver succeeds, the film problem of one polarisation has a denominator different from zero -/
lemma film_den {ω : ℂ} (hω : ω ≠ 0) {kx ky : Fin n → ℂ} {o : Fin n} {u v : ℂ} (huv : u ≠ 0 ∨ v ≠ 0) {lam : ℂ → ℂ} (he : ProjEig ω kx ky o u v lam)
    {ε0 : ℂ} {d0 : ℝ} {εN : ℂ} {dN : ℝ} {l : List (ℂ × ℝ)} (hy : ∀ e ∈ l, projY ω kx ky o lam e.1 ≠ 0) (hy0 : projY ω kx ky o lam ε0 ≠ 0)
    (hq : ∀ M ∈ uniformLayer ω kx ky ε0 d0 :: (l ++ [(εN, dN)]).map fun e => uniformLayer ω kx ky e.1 e.2, ∀ m, M.q m ≠ 0)
    (a0 : Fin n ⊕ Fin n → ℂ) (r : (Fin n ⊕ Fin n → ℂ) × (Fin n ⊕ Fin n → ℂ))
    (h : solveExterior (uniformLayer ω kx ky ε0 d0 :: (l ++ [(εN, dN)]).map fun e => uniformLayer ω kx ky e.1 e.2) a0 0 = .ok r) :
    filmsDen (projY ω kx ky o lam ε0) (filmsOf ω kx ky o lam l) (projY ω kx ky o lam εN) ≠ 0 := by
  intro hD
  rw [solveExterior] at h
  obtain ⟨S, hS, -⟩ := bind_ok.1 h
  have key : ∀ x : Fin n ⊕ Fin n → ℂ, proj o u v x = 0 := by
    intro x
    obtain ⟨r', hr'⟩ : ∃ r', solveExterior (uniformLayer ω kx ky ε0 d0 :: (l ++ [(εN, dN)]).map fun e => uniformLayer ω kx ky e.1 e.2) x 0 = .ok r' := by
      rw [solveExterior, hS]; exact ⟨_, rfl⟩
    have hs := (C16_exterior _ hq _ 0 r'.1 r'.2 r' hr').2 ⟨rfl, rfl⟩
    obtain ⟨h1, h2⟩ := film_stack hω he ε0 d0 εN dN l hy _ _ _ hs
    rw [filmsDen] at hD
    have h3 : 2 * projY ω kx ky o lam ε0 * (Complex.exp (Complex.I * qOrd ω ε0 kx ky o * d0) * proj o u v x) = 0 := by
      linear_combination projY ω kx ky o lam ε0 * h1 + h2 + proj o u v r'.1 * hD
    have h4 := (mul_eq_zero.1 h3).resolve_left (mul_ne_zero two_ne_zero hy0)
    exact (mul_eq_zero.1 h4).resolve_left (Complex.exp_ne_zero _)
  have k1 := key (Sum.elim (fun _ => 1) (fun _ => 0))
  have k2 := key (Sum.elim (fun _ => 0) (fun _ => 1))
  simp only [proj, Sum.elim_inl, Sum.elim_inr] at k1 k2
  rcases huv with h | h
  · exact h (by linear_combination k1)
  · exact h (by linear_combination k2)

/-- reflectance and transmittance of a stack, by polarisation, for a complex frequency -/
lemma films_core {ω : ℂ} (hω : ω ≠ 0) {kx ky : Fin n → ℂ} (hx : ∀ i, (kx i).im = 0) (hy : ∀ i, (ky i).im = 0) {o : Fin n} {K φ : ℝ}
    (hkx : kx o = K * Real.cos φ) (hky : ky o = K * Real.sin φ) {ε0 : ℂ} (hr : RealOrder ω ε0 kx ky o) {d0 : ℝ} {εN : ℂ} {dN : ℝ} {l : List (ℂ × ℝ)}
    (hε : ∀ e ∈ l, e.1 ≠ 0)
    (hq : ∀ M ∈ uniformLayer ω kx ky ε0 d0 :: (l ++ [(εN, dN)]).map fun e => uniformLayer ω kx ky e.1 e.2, ∀ m, M.q m ≠ 0)
    {yS yP : ℝ} (hS0 : 0 < yS) (hP0 : 0 < yP) (hS : projY ω kx ky o (fun _ => ω ^ 2) ε0 = yS)
    (hP : projY ω kx ky o (fun ε => ω ^ 2 - 1 / ε * (K : ℂ) ^ 2) ε0 = yP) {a0 : Fin n ⊕ Fin n → ℂ} (ha : InOrder o a0) {norm R T : ℝ}
    (h : rtForward ω norm (uniformLayer ω kx ky ε0 d0 :: (l ++ [(εN, dN)]).map fun e => uniformLayer ω kx ky e.1 e.2) a0 0 = .ok (R, T)) :
    filmsDen yS (filmsOf ω kx ky o (fun _ => ω ^ 2) l) (projY ω kx ky o (fun _ => ω ^ 2) εN) ≠ 0 ∧
    filmsDen yP (filmsOf ω kx ky o (fun ε => ω ^ 2 - 1 / ε * (K : ℂ) ^ 2) l) (projY ω kx ky o (fun ε => ω ^ 2 - 1 / ε * (K : ℂ) ^ 2) εN) ≠ 0 ∧
    R = Complex.normSq (Complex.exp (Complex.I * qOrd ω ε0 kx ky o * d0)) *
      (norm * yS * Complex.normSq (proj o (Real.cos φ) (Real.sin φ) a0) *
          filmsR yS (filmsOf ω kx ky o (fun _ => ω ^ 2) l) (projY ω kx ky o (fun _ => ω ^ 2) εN) +
        norm * yP * Complex.normSq (proj o (-Real.sin φ) (Real.cos φ) a0) *
          filmsR yP (filmsOf ω kx ky o (fun ε => ω ^ 2 - 1 / ε * (K : ℂ) ^ 2) l) (projY ω kx ky o (fun ε => ω ^ 2 - 1 / ε * (K : ℂ) ^ 2) εN)) ∧
    T = Complex.normSq (Complex.exp (Complex.I * qOrd ω ε0 kx ky o * d0)) *
      (norm * yS * Complex.normSq (proj o (Real.cos φ) (Real.sin φ) a0) *
          filmsT yS (filmsOf ω kx ky o (fun _ => ω ^ 2) l) (projY ω kx ky o (fun _ => ω ^ 2) εN) +
        norm * yP * Complex.normSq (proj o (-Real.sin φ) (Real.cos φ) a0) *
          filmsT yP (filmsOf ω kx ky o (fun ε => ω ^ 2 - 1 / ε * (K : ℂ) ^ 2) l) (projY ω kx ky o (fun ε => ω ^ 2 - 1 / ε * (K : ℂ) ^ 2) εN)) := by
  have hqo : ∀ e ∈ l, qOrd ω e.1 kx ky o ≠ 0 := fun e he =>
    hq (uniformLayer ω kx ky e.1 e.2) (List.mem_cons_of_mem _ (List.mem_map.2 ⟨e, List.mem_append_left _ he, rfl⟩)) (.inl o)
  have heig : ∀ ε, ε ≠ 0 → ω ^ 2 - 1 / ε * (K : ℂ) ^ 2 = qOrd ω ε kx ky o ^ 2 / ε := by
    intro ε he
    rw [← kp_eigen he, hkx, hky]
    linear_combination (1 / ε * (K : ℂ) ^ 2) * cos_sin_cast φ
  have hyS : ∀ e ∈ l, projY ω kx ky o (fun _ => ω ^ 2) e.1 ≠ 0 := fun e he =>
    div_ne_zero (pow_ne_zero _ hω) (mul_ne_zero hω (hqo e he))
  have hyP : ∀ e ∈ l, projY ω kx ky o (fun ε => ω ^ 2 - 1 / ε * (K : ℂ) ^ 2) e.1 ≠ 0 := by
    intro e he
    refine div_ne_zero ?_ (mul_ne_zero hω (hqo e he))
    show ω ^ 2 - 1 / e.1 * (K : ℂ) ^ 2 ≠ 0
    rw [heig _ (hε e he)]
    exact div_ne_zero (pow_ne_zero _ (hqo e he)) (hε e he)
  have h' := h
  rw [rtForward] at h'
  obtain ⟨r, hr1, -⟩ := bind_ok.1 h'
  obtain ⟨hs, hb, hN⟩ := stack_only hq ha hr1
  have hmap : uniformLayer ω kx ky ε0 d0 :: (l ++ [(εN, dN)]).map (fun e => uniformLayer ω kx ky e.1 e.2) =
      uniformLayer ω kx ky ε0 d0 :: l.map (fun e => uniformLayer ω kx ky e.1 e.2) ++ [uniformLayer ω kx ky εN dN] := by
    rw [List.map_append]; rfl
  have hv := h
  rw [hmap] at hv
  obtain ⟨aN, b0, hsol, hR, hT⟩ := rt_values hr ha (by rw [← hmap]; exact hq) hv
  rw [← hmap] at hsol
  obtain ⟨rfl, rfl⟩ := (C16_exterior _ hq _ 0 _ _ r hr1).1 hsol
  have huv : (Real.cos φ : ℂ) ≠ 0 ∨ (Real.sin φ : ℂ) ≠ 0 := by
    by_contra hc
    push Not at hc
    have := cos_sin_cast φ
    rw [hc.1, hc.2] at this; norm_num at this
  have huv' : (-Real.sin φ : ℂ) ≠ 0 ∨ (Real.cos φ : ℂ) ≠ 0 := huv.symm.imp_left neg_ne_zero.2
  have pS := proj_along (ω := ω) hkx hky
  have pP := proj_across (ω := ω) hkx hky
  have dS := film_den hω huv pS hyS (by rw [hS]; exact_mod_cast hS0.ne') hq a0 r hr1
  have dP := film_den hω huv' pP hyP (by rw [hP]; exact_mod_cast hP0.ne') hq a0 r hr1
  obtain ⟨s1, s2⟩ := film_stack hω pS ε0 d0 εN dN l hyS _ _ _ hs
  obtain ⟨p1, p2⟩ := film_stack hω pP ε0 d0 εN dN l hyP _ _ _ hs
  rw [hS] at dS s2
  rw [hP] at dP p2
  obtain ⟨fS1, fS2⟩ := film_solve hS0 dS s1 s2
  obtain ⟨fP1, fP2⟩ := film_solve hP0 dP p1 p2
  refine ⟨dS, dP, ?_, ?_⟩
  · rw [hR, oneWay_proj hx hy d0 hkx hky hb, hS, hP, Complex.ofReal_re, Complex.ofReal_re, fS1, fP1]; ring
  · rw [hT, oneWay_proj hx hy dN hkx hky hN, fS2, fP2]; ring

/-- a film does not depend on the sign of the root by which it is described -/
lemma filmFront_neg (y δ : ℂ) (f : ℂ × ℂ) : filmFront (-y) (-δ) f = filmFront y δ f := by
  simp only [filmFront, Complex.cos_neg, Complex.sin_neg, Prod.mk.injEq, div_neg]
  constructor <;> ring

lemma frontFields_congr {α : Type} (l : List α) (f g : α → ℂ × ℂ) (yN : ℂ) (h : ∀ e ∈ l, f e = g e ∨ f e = -g e) :
    frontFields (l.map f) yN = frontFields (l.map g) yN := by
  induction l with
  | nil => rfl
  | cons e l ih =>
    have i := ih fun e he => h e (List.mem_cons_of_mem _ he)
    have e1 : ∀ f : α → ℂ × ℂ, frontFields ((e :: l).map f) yN = filmFront (f e).1 (f e).2 (frontFields (l.map f) yN) := fun f => rfl
    rw [e1, e1, i]
    rcases h e (by simp) with h | h
    · rw [h]
    · rw [h, Prod.fst_neg, Prod.snd_neg, filmFront_neg]

/-- the wave number of the code is the physical root -/
lemma qOrd_root {ω ε c : ℂ} {kx ky : Fin n → ℂ} {o : Fin n} (hc : (ω * c) ^ 2 = ε * ω ^ 2 - kx o ^ 2 - ky o ^ 2)
    (hp : 0 < (ω * c).im ∨ (ω * c).im = 0 ∧ 0 < (ω * c).re) : qOrd ω ε kx ky o = ω * c := by
  rcases hp with hp | ⟨h1, h2⟩
  · have h := qOrd_sq ω ε kx ky o
    rw [← hc] at h
    rcases sq_eq_sq_iff_eq_or_eq_neg.1 h with h | h
    · exact h
    · have := branchQ_im (csqrt (ε * ω ^ 2 - kx o ^ 2 - ky o ^ 2))
      rw [← qOrd, h, Complex.neg_im] at this
      linarith
  · rw [qOrd, ← hc]; exact branchQ_csqrt_of_sq _ h2 h1.ge

lemma qOrd_root_or {ω ε c : ℂ} {kx ky : Fin n → ℂ} {o : Fin n} (hc : (ω * c) ^ 2 = ε * ω ^ 2 - kx o ^ 2 - ky o ^ 2) :
    qOrd ω ε kx ky o = ω * c ∨ qOrd ω ε kx ky o = -(ω * c) := by
  have h := qOrd_sq ω ε kx ky o
  rw [← hc] at h
  exact sq_eq_sq_iff_eq_or_eq_neg.1 h

/-- C112: for every stack of homogeneous layers (any number of them, complex permittivities, any thicknesses) between a transparent front
half-space and any back half-space, every real frequency, angle of incidence, azimuth and polarisation, every lattice and every truncation of
the orders, reflectance and transmittance are those of the characteristic-matrix method. `c` is `n cos` of the angle inside a layer (Snell);
either root may be used for a layer, the decaying or forward one for the back half-space. `hq` excludes the grazing orders at which the code
divides by zero. -/
theorem C112_films (ω θ φ ε0 : ℝ) (hω : 0 < ω) (hc : 0 < Real.cos θ) (h0 : 0 < ε0) (Lk1 Lk2 : ℝ × ℝ) (G : Fin n → ℤ × ℤ) (o : Fin n)
    (ho : G o = (0, 0)) (d0 : ℝ) (mids : List (ℂ × ℝ × ℂ)) (hm : ∀ m ∈ mids, m.1 ≠ 0 ∧ m.2.2 ^ 2 = m.1 - ε0 * Real.sin θ ^ 2) (εN : ℂ) (dN : ℝ) (cN : ℂ)
    (hεN : εN ≠ 0) (hcN : cN ^ 2 = εN - ε0 * Real.sin θ ^ 2) (hp : 0 < cN.im ∨ cN.im = 0 ∧ 0 < cN.re) (kx ky : Fin n → ℂ)
    (hkx : kx = kxOf ω θ φ ε0 Lk1 Lk2 G) (hky : ky = kyOf ω θ φ ε0 Lk1 Lk2 G) (layers : List (LayerData (Fin n ⊕ Fin n)))
    (hl : layers = uniformLayer ω kx ky ε0 d0 :: (mids.map (fun m => (m.1, m.2.1)) ++ [(εN, dN)]).map fun e => uniformLayer ω kx ky e.1 e.2)
    (hq : ∀ M ∈ layers, ∀ m, M.q m ≠ 0) (s p : ℂ) (R T : ℝ)
    (h : rtForward ω (rtNormalization ε0 θ) layers (planewave θ φ s p o) 0 = .ok (R, T)) :
    filmsDen (1 / (Real.sqrt ε0 * Real.cos θ) : ℝ) (mids.map fun m => (1 / m.2.2, ω * m.2.2 * m.2.1)) (1 / cN) ≠ 0 ∧
    filmsDen (Real.cos θ / Real.sqrt ε0 : ℝ) (mids.map fun m => (m.2.2 / m.1, ω * m.2.2 * m.2.1)) (cN / εN) ≠ 0 ∧
    R = Complex.normSq s * filmsR (1 / (Real.sqrt ε0 * Real.cos θ)) (mids.map fun m => (1 / m.2.2, ω * m.2.2 * m.2.1)) (1 / cN) +
      Complex.normSq p * filmsR (Real.cos θ / Real.sqrt ε0) (mids.map fun m => (m.2.2 / m.1, ω * m.2.2 * m.2.1)) (cN / εN) ∧
    T = Complex.normSq s * filmsT (1 / (Real.sqrt ε0 * Real.cos θ)) (mids.map fun m => (1 / m.2.2, ω * m.2.2 * m.2.1)) (1 / cN) +
      Complex.normSq p * filmsT (Real.cos θ / Real.sqrt ε0) (mids.map fun m => (m.2.2 / m.1, ω * m.2.2 * m.2.1)) (cN / εN) := by
  have hωc : (ω : ℂ) ≠ 0 := by exact_mod_cast hω.ne'
  have hs0 := Real.sqrt_pos.2 h0
  have hs2 := Real.sq_sqrt h0.le
  have hs2c : ((Real.sqrt ε0 : ℝ) : ℂ) ^ 2 = ε0 := by exact_mod_cast hs2
  obtain ⟨ko1, ko2⟩ := kxOf_order ω θ φ ε0 Lk1 Lk2 ho
  rw [← hkx] at ko1
  rw [← hky] at ko2
  have hx : ∀ i, (kx i).im = 0 := by rw [hkx]; exact kxOf_real ω θ φ ε0 Lk1 Lk2 G
  have hy : ∀ i, (ky i).im = 0 := by rw [hky]; exact kyOf_real ω θ φ ε0 Lk1 Lk2 G
  have hr := realOrder_oblique hω hc h0 φ ko1 ko2
  have hq0 := qOrd_oblique hω hc h0 φ ko1 ko2
  have hkx' : kx o = ((ω * Real.sin θ * Real.sqrt ε0 : ℝ) : ℂ) * Real.cos φ := by rw [ko1]; push_cast; ring
  have hky' : ky o = ((ω * Real.sin θ * Real.sqrt ε0 : ℝ) : ℂ) * Real.sin φ := by rw [ko2]; push_cast; ring
  have hk2 : kx o ^ 2 + ky o ^ 2 = ω ^ 2 * (ε0 * Real.sin θ ^ 2) := by
    rw [hkx', hky', ← hs2c, Complex.ofReal_mul, Complex.ofReal_mul]
    linear_combination (((ω : ℂ) * Real.sin θ * Real.sqrt ε0) ^ 2) * cos_sin_cast φ
  have hK2 : (((ω * Real.sin θ * Real.sqrt ε0 : ℝ) : ℂ)) ^ 2 = ω ^ 2 * (ε0 * Real.sin θ ^ 2) := by
    rw [← hs2c]; push_cast; ring
  have hroot : ∀ {ε c : ℂ}, c ^ 2 = ε - ε0 * Real.sin θ ^ 2 → ((ω : ℂ) * c) ^ 2 = ε * ω ^ 2 - kx o ^ 2 - ky o ^ 2 := by
    intro ε c h
    rw [mul_pow, h]; linear_combination hk2
  have hqN : qOrd ω εN kx ky o = ω * cN := qOrd_root (hroot hcN) (by
    rw [Complex.im_ofReal_mul, Complex.re_ofReal_mul]
    rcases hp with hp | ⟨h1, h2⟩
    · exact .inl (by positivity)
    · exact .inr ⟨by rw [h1, mul_zero], by positivity⟩)
  have hcN0 : cN ≠ 0 := by
    rintro rfl; simp at hp
  subst hl
  have hlam : ∀ {ε c : ℂ}, ε ≠ 0 → c ^ 2 = ε - ε0 * Real.sin θ ^ 2 →
      (ω : ℂ) ^ 2 - 1 / ε * ((ω * Real.sin θ * Real.sqrt ε0 : ℝ) : ℂ) ^ 2 = ω ^ 2 * c ^ 2 / ε := by
    intro ε c hε h
    rw [hK2, h]; field_simp
  have hS : projY ω kx ky o (fun _ => (ω : ℂ) ^ 2) ε0 = ((1 / (Real.sqrt ε0 * Real.cos θ) : ℝ) : ℂ) := by
    rw [projY, hq0]
    have : (Real.cos θ : ℂ) ≠ 0 := by exact_mod_cast hc.ne'
    have : (Real.sqrt ε0 : ℂ) ≠ 0 := by exact_mod_cast hs0.ne'
    rw [Complex.ofReal_div, Complex.ofReal_mul, Complex.ofReal_mul, Complex.ofReal_mul, Complex.ofReal_one]
    field_simp
  have hP : projY ω kx ky o (fun ε => (ω : ℂ) ^ 2 - 1 / ε * ((ω * Real.sin θ * Real.sqrt ε0 : ℝ) : ℂ) ^ 2) ε0 =
      ((Real.cos θ / Real.sqrt ε0 : ℝ) : ℂ) := by
    have e0 : (ε0 : ℂ) ≠ 0 := by exact_mod_cast h0.ne'
    rw [projY, hq0, hlam (c := ((Real.sqrt ε0 * Real.cos θ : ℝ) : ℂ)) e0]
    · have : (Real.cos θ : ℂ) ≠ 0 := by exact_mod_cast hc.ne'
      have : (Real.sqrt ε0 : ℂ) ≠ 0 := by exact_mod_cast hs0.ne'
      rw [← hs2c, Complex.ofReal_div, Complex.ofReal_mul, Complex.ofReal_mul, Complex.ofReal_mul]
      field_simp
    · rw [Complex.ofReal_mul, mul_pow, hs2c]
      linear_combination (ε0 : ℂ) * cos_sin_cast θ
  obtain ⟨dS, dP, hR, hT⟩ := films_core hωc hx hy hkx' hky' hr (fun e he => by
    obtain ⟨m, hm', rfl⟩ := List.mem_map.1 he
    exact (hm m hm').1) hq (by positivity) (by positivity) hS hP (planewave_inOrder θ φ s p o) h
  have fS : ∀ y, frontFields (filmsOf ω kx ky o (fun _ => (ω : ℂ) ^ 2) (mids.map fun m => (m.1, m.2.1))) y =
      frontFields (mids.map fun m => (1 / m.2.2, ω * m.2.2 * m.2.1)) y := by
    intro y
    rw [filmsOf, List.map_map]
    refine frontFields_congr _ _ _ _ fun m hm' => ?_
    obtain ⟨hε, hcm⟩ := hm m hm'
    simp only [Function.comp_apply, projY]
    rcases qOrd_root_or (hroot hcm) with h | h
    · left; rw [h, Prod.mk.injEq]; exact ⟨by rw [← mul_assoc, ← sq, div_mul_eq_div_div, div_self (pow_ne_zero _ hωc)], rfl⟩
    · right
      rw [h, Prod.neg_mk, Prod.mk.injEq]
      exact ⟨by rw [mul_neg, div_neg, ← mul_assoc, ← sq, div_mul_eq_div_div, div_self (pow_ne_zero _ hωc)], by ring⟩
  have fP : ∀ y, frontFields (filmsOf ω kx ky o (fun ε => (ω : ℂ) ^ 2 - 1 / ε * ((ω * Real.sin θ * Real.sqrt ε0 : ℝ) : ℂ) ^ 2)
      (mids.map fun m => (m.1, m.2.1))) y = frontFields (mids.map fun m => (m.2.2 / m.1, ω * m.2.2 * m.2.1)) y := by
    intro y
    rw [filmsOf, List.map_map]
    refine frontFields_congr _ _ _ _ fun m hm' => ?_
    obtain ⟨hε, hcm⟩ := hm m hm'
    have hq' : qOrd ω m.1 kx ky o ≠ 0 :=
      hq (uniformLayer ω kx ky m.1 m.2.1) (List.mem_cons_of_mem _ (List.mem_map.2 ⟨(m.1, m.2.1),
        List.mem_append_left _ (List.mem_map.2 ⟨m, hm', rfl⟩), rfl⟩)) (.inl o)
    have hc0 : m.2.2 ≠ 0 := by
      intro h0
      have := qOrd_sq ω m.1 kx ky o
      rw [← hroot hcm, h0] at this
      exact hq' (by simpa using this)
    simp only [Function.comp_apply, projY]
    rw [hlam hε hcm]
    rcases qOrd_root_or (hroot hcm) with h | h
    · left; rw [h, Prod.mk.injEq]; exact ⟨by field_simp, rfl⟩
    · right
      rw [h, Prod.neg_mk, Prod.mk.injEq]
      exact ⟨by field_simp, by ring⟩
  have gS : projY ω kx ky o (fun _ => (ω : ℂ) ^ 2) εN = 1 / cN := by rw [projY, hqN]; field_simp
  have gP : projY ω kx ky o (fun ε => (ω : ℂ) ^ 2 - 1 / ε * ((ω * Real.sin θ * Real.sqrt ε0 : ℝ) : ℂ) ^ 2) εN = cN / εN := by
    rw [projY, hqN, hlam hεN hcN]; field_simp
  have hE : Complex.normSq (Complex.exp (Complex.I * qOrd ω ε0 kx ky o * d0)) = 1 := by
    rw [normSq_exp, hq0, mul_assoc, ← Complex.ofReal_mul, Complex.re_mul_ofReal, Complex.I_re]; simp
  have nS : Complex.normSq (proj o (Real.cos φ) (Real.sin φ) (planewave θ φ s p o)) = Complex.normSq s * Real.cos θ ^ 2 := by
    have : proj o (Real.cos φ) (Real.sin φ) (planewave θ φ s p o) = -s * (Real.cos θ : ℂ) := by
      simp only [proj, planewave, Sum.elim_inl, Sum.elim_inr, if_true]
      linear_combination (-s * (Real.cos θ : ℂ)) * cos_sin_cast φ
    rw [this, Complex.normSq_mul, Complex.normSq_neg, Complex.normSq_ofReal]; ring
  have nP : Complex.normSq (proj o (-Real.sin φ) (Real.cos φ) (planewave θ φ s p o)) = Complex.normSq p := by
    have : proj o (-Real.sin φ) (Real.cos φ) (planewave θ φ s p o) = p := by
      simp only [proj, planewave, Sum.elim_inl, Sum.elim_inr, if_true]
      linear_combination p * cos_sin_cast φ
    rw [this]
  have wS : rtNormalization ε0 θ * (1 / (Real.sqrt ε0 * Real.cos θ)) * (Complex.normSq s * Real.cos θ ^ 2) = Complex.normSq s := by
    rw [rtNormalization]; field_simp
  have wP : rtNormalization ε0 θ * (Real.cos θ / Real.sqrt ε0) * Complex.normSq p = Complex.normSq p := by
    rw [rtNormalization]; field_simp
  rw [hE, nS, nP, wS, wP, one_mul] at hR hT
  simp only [filmsDen, filmsR, filmsT, gS, gP, fS, fP] at dS dP hR hT ⊢
  exact ⟨dS, dP, hR, hT⟩

end

end Nidn
