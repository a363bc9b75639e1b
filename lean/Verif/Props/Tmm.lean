/-
C140: `coh_tmm` gives the thin-film values.
-/
import Verif.Lemmas.Tmm
import Verif.Props.Films

namespace Nidn

noncomputable section

/-- tangential fields of amplitudes -/
def tmmFields (pol : String) (n th : ℂ) (v : Fin 2 → ℂ) : ℂ × ℂ := (tmmA pol n th * (v 0 + v 1), tmmB pol n th * (v 0 - v 1))

lemma joined_fields {pol : String} {n th n' th' : ℂ} {v v' : Fin 2 → ℂ} (h : TmmJoined pol n th n' th' v v') : tmmFields pol n th v = tmmFields pol n' th' v' := Prod.ext h.1 h.2

lemma front_of_back {pol : String} {n th : ℂ} (hn : n ≠ 0) (hc : Complex.cos th ≠ 0) (δ : ℂ) (v : Fin 2 → ℂ) :
    tmmFields pol n th v = filmFront (tmmB pol n th / tmmA pol n th) δ (tmmFields pol n th (atBack δ v)) := by
  have hB : tmmB pol n th ≠ 0 := by unfold tmmB; split <;> simp [hn, hc]
  have e1 : Complex.exp (Complex.I * δ) = Complex.cos δ + Complex.I * Complex.sin δ := by rw [mul_comm, Complex.exp_mul_I]; ring
  have e2 : Complex.exp (-Complex.I * δ) = Complex.cos δ - Complex.I * Complex.sin δ := by
    rw [show -Complex.I * δ = (-δ) * Complex.I by ring, Complex.exp_mul_I, Complex.cos_neg, Complex.sin_neg]; ring
  have hcs := Complex.sin_sq_add_cos_sq δ
  have hI := Complex.I_sq
  have h1 : (Complex.cos δ + Complex.I * Complex.sin δ) * (Complex.cos δ - Complex.I * Complex.sin δ) = 1 := by
    linear_combination hcs - Complex.sin δ ^ 2 * hI
  unfold tmmFields filmFront atBack
  simp only [Matrix.cons_val_zero, Matrix.cons_val_one, e1, e2]
  have hAA : tmmA pol n th ≠ 0 := by unfold tmmA; split <;> simp [hn]
  generalize tmmA pol n th = A at hAA
  generalize tmmB pol n th = B at hB
  refine Prod.ext ?_ ?_
  · simp only
    have : Complex.I * Complex.sin δ / (B / A) * (B * (v 0 * (Complex.cos δ + Complex.I * Complex.sin δ) - v 1 * (Complex.cos δ - Complex.I * Complex.sin δ))) =
        A * (Complex.I * Complex.sin δ) * (v 0 * (Complex.cos δ + Complex.I * Complex.sin δ) - v 1 * (Complex.cos δ - Complex.I * Complex.sin δ)) := by
      field_simp
    rw [this]
    linear_combination (-A * (v 0 + v 1)) * h1
  · simp only
    have : Complex.I * (B / A) * Complex.sin δ * (A * (v 0 * (Complex.cos δ + Complex.I * Complex.sin δ) + v 1 * (Complex.cos δ - Complex.I * Complex.sin δ))) =
        B * (Complex.I * Complex.sin δ) * (v 0 * (Complex.cos δ + Complex.I * Complex.sin δ) + v 1 * (Complex.cos δ - Complex.I * Complex.sin δ)) := by
      field_simp
    rw [this]
    linear_combination (-B * (v 0 - v 1)) * h1

/-- A stack as the user writes it: index and thickness of the inner layers between the half-spaces `n0` and `nN`. -/
def stackIndices (n0 : ℂ) (mids : List (ℂ × ℝ × ℂ)) (nN : ℂ) : List ℂ := n0 :: (mids.map (·.1) ++ [nN])
def stackThicknesses (mids : List (ℂ × ℝ × ℂ)) : List (Option ℝ) := none :: (mids.map (fun m => some m.2.1) ++ [none])

/-- Specification: impedance of a wave with cosine `c` in a medium of index `n`: perpendicular and parallel polarisation. -/
def filmImpedance (pol : String) (n c : ℂ) : ℂ := if pol = "s" then 1 / (n * c) else c / n

/-- Specification: the films of the characteristic-matrix method at vacuum wavelength `lam`. -/
def filmStack (pol : String) (lam : ℂ) (mids : List (ℂ × ℝ × ℂ)) : List (ℂ × ℂ) :=
  mids.map fun m => (filmImpedance pol m.1 m.2.2, 2 * Real.pi * m.1 * m.2.2 * m.2.1 / lam)

/-- Specification: a wave with normal index component `q` that decays or, if it neither decays nor grows, carries power towards the back (up to the code's tolerance of `100 ε`). -/
def ForwardWave (q : ℂ) : Prop := 100 / 2 ^ 52 < q.im ∨ |q.im| ≤ 100 / 2 ^ 52 ∧ 0 < q.re

/-- admittance-like ratio used by the code's amplitudes (electric for `s`, magnetic for `p`) -/
def codeRatio (pol : String) (n c : ℂ) : ℂ := if pol = "s" then n * c else c / n

lemma ratio_eq (pol : String) (n th : ℂ) : tmmB pol n th / tmmA pol n th = codeRatio pol n (Complex.cos th) := by
  unfold tmmA tmmB codeRatio
  split <;> simp

lemma codeRatio_neg (pol : String) (n c : ℂ) : codeRatio pol n (-c) = -codeRatio pol n c := by
  unfold codeRatio
  split <;> ring

lemma clamp_small {δ : ℂ} (h : |δ.im| ≤ 35) : clampPhase δ = δ := by
  unfold clampPhase
  rw [if_neg (not_lt.2 (le_of_abs_le h))]

lemma stack_fields {pol : String} {n0 nN th0 lam : ℂ} {mids : List (ℂ × ℝ × ℂ)} {c : TmmData} (h : TmmRun pol (stackIndices n0 mids nN) (stackThicknesses mids) th0 lam c)
    (hm : ∀ m ∈ mids, (m.1 * m.2.2) ^ 2 = m.1 ^ 2 - (n0 * Complex.sin th0) ^ 2 ∧ |(2 * Real.pi * m.1 * m.2.2 * m.2.1 / lam).im| ≤ 35) {cN : ℂ}
    (hN : Complex.cos (c.th.getD (mids.length + 1) 0) = cN) (pre post : List (ℂ × ℝ × ℂ)) (hp : mids = pre ++ post) :
    tmmFields pol ((stackIndices n0 mids nN).getD (pre.length + 1) 0) (c.th.getD (pre.length + 1) 0) (c.vw.getD (pre.length + 1) 0) =
      ((frontFields (post.map fun m => (codeRatio pol m.1 m.2.2, 2 * Real.pi * m.1 * m.2.2 * m.2.1 / lam)) (codeRatio pol nN cN)).1 * (c.t * (if pol = "s" then 1 else nN)),
       (frontFields (post.map fun m => (codeRatio pol m.1 m.2.2, 2 * Real.pi * m.1 * m.2.2 * m.2.1 / lam)) (codeRatio pol nN cN)).2 * (c.t * (if pol = "s" then 1 else nN))) := by
  have hlen : (stackIndices n0 mids nN).length = mids.length + 2 := by simp [stackIndices]
  induction post generalizing pre with
  | nil =>
    have e : pre.length = mids.length := by rw [hp]; simp
    have hv := h.vw_last
    rw [hlen, show mids.length + 2 - 1 = mids.length + 1 by omega] at hv
    have hnN : (stackIndices n0 mids nN).getD (mids.length + 1) 0 = nN := by simp [stackIndices, List.getD]
    have hne := (h.snell_at (mids.length + 1) (by omega)).1
    rw [hnN] at hne
    rw [e, hv, hnN]
    simp only [List.map_nil, frontFields, tmmFields, tmmA, tmmB, codeRatio, hN, Matrix.cons_val_zero, Matrix.cons_val_one]
    refine Prod.ext ?_ ?_
    · simp only; split <;> ring
    · simp only; split
      · ring
      · field_simp
        ring
  | cons m post ih =>
    have hi : pre.length < mids.length := by rw [hp]; simp
    have ih' := ih (pre ++ [m]) (by rw [hp]; simp)
    rw [List.length_append, List.length_singleton] at ih'
    obtain ⟨x, hx, hj⟩ := h.join (pre.length + 1) (by omega) (by omega)
    have hmm : mids[pre.length]? = some m := by rw [hp]; simp
    have hxm : x = m.2.1 := by
      have : (stackThicknesses mids)[pre.length + 1]? = some (some m.2.1) := by
        simp only [stackThicknesses, List.getElem?_cons_succ]
        rw [List.getElem?_append_left (by simpa using hi), List.getElem?_map, hmm]; rfl
      rw [hx] at this
      simpa using this
    have hnm : (stackIndices n0 mids nN).getD (pre.length + 1) 0 = m.1 := by
      simp only [stackIndices, List.getD, List.getElem?_cons_succ]
      rw [List.getElem?_append_left (by simpa using hi), List.getElem?_map, hmm]; rfl
    have hn0 : (stackIndices n0 mids nN).getD 0 0 = n0 := by simp [stackIndices]
    have hs := h.snell_at (pre.length + 1) (by omega)
    have hk := h.kz_at (pre.length + 1) (by omega)
    have hcne := h.cos_ne (pre.length + 1) (by omega)
    rw [hnm, hn0] at hs
    rw [hnm] at hk hj ⊢
    obtain ⟨hm1, hm2⟩ := hm m (by rw [hp]; simp)
    have hsq : (Complex.cos (c.th.getD (pre.length + 1) 0)) ^ 2 = m.2.2 ^ 2 := by
      have h1 := Complex.sin_sq_add_cos_sq (c.th.getD (pre.length + 1) 0)
      have h2 : m.1 ^ 2 ≠ 0 := pow_ne_zero 2 hs.1
      apply mul_left_cancel₀ h2
      rw [← hs.2] at hm1
      linear_combination m.1 ^ 2 * h1 - hm1
    have hδ : clampPhase (c.kz.getD (pre.length + 1) 0 * x) = c.kz.getD (pre.length + 1) 0 * x ∧
        filmFront (codeRatio pol m.1 (Complex.cos (c.th.getD (pre.length + 1) 0))) (c.kz.getD (pre.length + 1) 0 * x) =
        filmFront (codeRatio pol m.1 m.2.2) (2 * Real.pi * m.1 * m.2.2 * m.2.1 / lam) := by
      rw [hk, hxm]
      rcases sq_eq_sq_iff_eq_or_eq_neg.1 hsq with e | e
      · rw [e]
        have e' : 2 * (Real.pi : ℂ) * m.1 * m.2.2 / lam * m.2.1 = 2 * Real.pi * m.1 * m.2.2 * m.2.1 / lam := by ring
        rw [e']
        exact ⟨clamp_small hm2, rfl⟩
      · rw [e, codeRatio_neg]
        have e' : 2 * (Real.pi : ℂ) * m.1 * -m.2.2 / lam * m.2.1 = -(2 * Real.pi * m.1 * m.2.2 * m.2.1 / lam) := by ring
        rw [e']
        refine ⟨clamp_small (by rw [Complex.neg_im, abs_neg]; exact hm2), ?_⟩
        funext f
        exact filmFront_neg _ _ f
    rw [hδ.1] at hj
    rw [front_of_back hs.1 hcne (c.kz.getD (pre.length + 1) 0 * x), ratio_eq, joined_fields hj, ih', hδ.2, filmFront_smul]
    rfl

lemma frontFields_dual (films : List (ℂ × ℂ)) (hy : ∀ f ∈ films, f.1 ≠ 0) (yN : ℂ) (hN : yN ≠ 0) :
    frontFields (films.map fun f => (1 / f.1, f.2)) (1 / yN) = ((frontFields films yN).2 / yN, (frontFields films yN).1 / yN) := by
  induction films with
  | nil => simp [frontFields, hN]
  | cons f films ih =>
    have h0 := hy f (by simp)
    rw [List.map_cons, frontFields, ih fun g hg => hy g (by simp [hg])]
    simp only [frontFields, filmFront]
    refine Prod.ext ?_ ?_
    · simp only; field_simp
    · simp only; field_simp

lemma films_dual (y0 : ℝ) (h0 : y0 ≠ 0) (films : List (ℂ × ℂ)) (hy : ∀ f ∈ films, f.1 ≠ 0) (yN : ℂ) (hN : yN ≠ 0) :
    filmsR (1 / y0) (films.map fun f => (1 / f.1, f.2)) (1 / yN) = filmsR y0 films yN ∧ filmsT (1 / y0) (films.map fun f => (1 / f.1, f.2)) (1 / yN) = filmsT y0 films yN := by
  have h0' : (y0 : ℂ) ≠ 0 := by exact_mod_cast h0
  unfold filmsR filmsT filmsDen
  rw [frontFields_dual films hy yN hN]
  set h := (frontFields films yN).1
  set e := (frontFields films yN).2
  have e1 : ((1 / y0 : ℝ) : ℂ) * (e / yN) + h / yN = (y0 * h + e) / (y0 * yN) := by push_cast; field_simp; ring
  have e2 : ((1 / y0 : ℝ) : ℂ) * (e / yN) - h / yN = -(y0 * h - e) / (y0 * yN) := by push_cast; field_simp; ring
  simp only [e1, e2]
  constructor
  · rw [div_div_div_cancel_right₀ (mul_ne_zero h0' hN), neg_div, Complex.normSq_neg]
  · rw [Complex.normSq_div, Complex.normSq_mul, Complex.normSq_ofReal, one_div, one_div yN, Complex.inv_re]
    have : Complex.normSq yN ≠ 0 := by simpa using hN
    field_simp

/-- the cosine in the last medium is the one of the forward wave -/
lemma last_cos {n th s cN : ℂ} (hn : n ≠ 0) (hs : n * Complex.sin th = s) (hf : TowardsBack (n * Complex.cos th)) (hc : (n * cN) ^ 2 = n ^ 2 - s ^ 2) (hw : ForwardWave (n * cN)) :
    Complex.cos th = cN := by
  have h2 : (n * Complex.cos th) ^ 2 = (n * cN) ^ 2 := by
    rw [hc, ← hs]
    linear_combination n ^ 2 * Complex.sin_sq_add_cos_sq th
  rcases sq_eq_sq_iff_eq_or_eq_neg.1 h2 with h | h
  · exact mul_left_cancel₀ hn h
  · exfalso
    rw [h] at hf
    unfold TowardsBack tmmEps at hf
    rw [Complex.neg_im, Complex.neg_re, abs_neg] at hf
    unfold ForwardWave at hw
    have hp : (0 : ℝ) < 100 / 2 ^ 52 := by positivity
    rcases hw with hw | ⟨hw, hw'⟩
    · rcases hf with ⟨-, h⟩ | ⟨h, -⟩
      · linarith
      · have := le_of_abs_le h
        rw [mul_one_div] at this
        linarith
    · rcases hf with ⟨h, -⟩ | ⟨-, h⟩
      · rw [mul_one_div] at h; linarith
      · linarith

lemma forwardWave_ne {q : ℂ} (h : ForwardWave q) : q ≠ 0 := by
  rintro rfl
  unfold ForwardWave at h
  have hp : (0 : ℝ) < 100 / 2 ^ 52 := by positivity
  rcases h with h | ⟨-, h⟩
  · simp at h; linarith
  · simp at h

/-- C140. `coh_tmm` returns the reflectance and transmittance that the characteristic-matrix method gives for the stack, for light of either
polarisation that comes from a medium of real index `n0` at a real angle `θ`, whichever way the square roots `m.2.2` of the inner layers are taken.
(No inner layer may attenuate the field by more than `exp (-35)`.) -/
theorem C140_films (asin : ℂ → ℂ) (hasin : ∀ z, Complex.sin (asin z) = z) (pol : String) (n0 θ : ℝ) (lam : ℂ) (mids : List (ℂ × ℝ × ℂ)) (nN cN : ℂ) (c : TmmData)
    (h : cohTmm asin pol (stackIndices n0 mids nN) (stackThicknesses mids) θ lam = .ok c)
    (hm : ∀ m ∈ mids, (m.1 * m.2.2) ^ 2 = m.1 ^ 2 - (n0 * Real.sin θ) ^ 2 ∧ |(2 * Real.pi * m.1 * m.2.2 * m.2.1 / lam).im| ≤ 35)
    (hcN : (nN * cN) ^ 2 = nN ^ 2 - (n0 * Real.sin θ) ^ 2) (hw : ForwardWave (nN * cN)) :
    c.R = filmsR (if pol = "s" then 1 / (n0 * Real.cos θ) else Real.cos θ / n0) (filmStack pol lam mids) (filmImpedance pol nN cN) ∧
    c.T = filmsT (if pol = "s" then 1 / (n0 * Real.cos θ) else Real.cos θ / n0) (filmStack pol lam mids) (filmImpedance pol nN cN) := by
  have hr := cohTmm_run hasin h
  have hlen : (stackIndices n0 mids nN).length = mids.length + 2 := by simp [stackIndices]
  have hn0 : (stackIndices n0 mids nN).getD 0 0 = n0 := by simp [stackIndices]
  have hnN : (stackIndices n0 mids nN).getD (mids.length + 1) 0 = nN := by simp [stackIndices, List.getD]
  have hnz : ∀ m ∈ mids, m.1 ≠ 0 := by
    intro m hm'
    obtain ⟨i, hi, rfl⟩ := List.getElem_of_mem hm'
    have := (hr.snell_at (i + 1) (by omega)).1
    simpa [stackIndices, List.getD, List.getElem?_append_left, hi] using this
  have hcz : ∀ m ∈ mids, m.2.2 ≠ 0 := by
    intro m hm'
    have hz := hnz m hm'
    obtain ⟨i, hi, rfl⟩ := List.getElem_of_mem hm'
    have h1 := hr.cos_ne (i + 1) (by omega)
    have h2 := (hr.snell_at (i + 1) (by omega)).2
    have h3 : (stackIndices n0 mids nN).getD (i + 1) 0 = mids[i].1 := by simp [stackIndices, List.getD, List.getElem?_append_left, hi]
    rw [h3, hn0, ← Complex.ofReal_sin] at h2
    intro h0
    have h4 := (hm _ hm').1
    rw [h0, ← h2] at h4
    apply h1
    have := Complex.sin_sq_add_cos_sq (c.th.getD (i + 1) 0)
    have h5 : mids[i].1 ^ 2 * Complex.cos (c.th.getD (i + 1) 0) ^ 2 = 0 := by linear_combination mids[i].1 ^ 2 * this - h4
    simpa [hz] using h5
  have hNz : nN ≠ 0 := by have := (hr.snell_at (mids.length + 1) (by omega)).1; rwa [hnN] at this
  have hlast := hr.fwd_last
  have hlsn := (hr.snell_at (mids.length + 1) (by omega)).2
  rw [hlen, show mids.length + 2 - 1 = mids.length + 1 by omega, hnN] at hlast
  rw [hnN, hn0, ← Complex.ofReal_sin] at hlsn
  have hcosN : Complex.cos (c.th.getD (mids.length + 1) 0) = cN := last_cos hNz hlsn hlast hcN hw
  have hF := stack_fields hr (by rw [← Complex.ofReal_sin]; exact hm) hcosN [] mids rfl
  have hJ := joined_fields hr.join_first
  simp only [List.length_nil, zero_add] at hF
  rw [hF, hn0] at hJ
  have hc0 := hr.cos_first
  have hp0 := hr.pow_ne
  have hT := hr.T_def
  rw [hlen, show mids.length + 2 - 1 = mids.length + 1 by omega, hnN, hn0] at hT
  rw [hn0] at hp0
  rw [hr.R_def, hT]
  rw [← Complex.ofReal_cos] at hc0
  have hP0 : tmmP pol n0 θ = n0 * Real.cos θ := by
    unfold tmmP
    rw [← Complex.ofReal_cos, Complex.conj_ofReal, ← Complex.ofReal_mul, Complex.ofReal_re, ite_self]
  rw [hP0] at hp0 ⊢
  obtain ⟨hn0z, hcz0⟩ := mul_ne_zero_iff.1 hp0
  have hn0c : (n0 : ℂ) ≠ 0 := by exact_mod_cast hn0z
  have hcc : ((Real.cos θ : ℝ) : ℂ) ≠ 0 := by exact_mod_cast hcz0
  have hyN := forwardWave_ne hw
  have hcNz : cN ≠ 0 := right_ne_zero_of_mul hyN
  have core : ∀ (y0 : ℝ) (A : ℂ), y0 ≠ 0 → A ≠ 0 → ∀ (τ : ℂ) (films : List (ℂ × ℂ)) (yN : ℂ), A * (1 + c.r) = (frontFields films yN).1 * τ → A * y0 * (1 - c.r) = (frontFields films yN).2 * τ →
      ‖c.r‖ ^ 2 = filmsR y0 films yN ∧ τ = 2 * (A * y0) / filmsDen y0 films yN ∧ filmsDen y0 films yN ≠ 0 := by
    intro y0 A hy0 hA τ films yN h1 h2
    have hy0c : (y0 : ℂ) ≠ 0 := by exact_mod_cast hy0
    have e1 : 2 * (A * y0) = filmsDen y0 films yN * τ := by unfold filmsDen; linear_combination y0 * h1 + h2
    have e2 : 2 * (A * y0) * c.r = (y0 * (frontFields films yN).1 - (frontFields films yN).2) * τ := by linear_combination y0 * h1 - h2
    have hne : 2 * (A * y0) ≠ 0 := mul_ne_zero two_ne_zero (mul_ne_zero hA hy0c)
    have hD : filmsDen y0 films yN ≠ 0 := by intro e; rw [e, zero_mul] at e1; exact hne e1
    have hτ : τ = 2 * (A * y0) / filmsDen y0 films yN := by rw [eq_div_iff hD, e1]; ring
    have hrr : c.r = (y0 * (frontFields films yN).1 - (frontFields films yN).2) / filmsDen y0 films yN := by
      apply mul_left_cancel₀ hne
      rw [e2, hτ]; ring
    refine ⟨?_, hτ, hD⟩
    unfold filmsR
    rw [hrr, Complex.normSq_eq_norm_sq]
  obtain ⟨j1, j2⟩ := Prod.ext_iff.1 hJ
  simp only [tmmFields, Matrix.cons_val_zero, Matrix.cons_val_one, tmmA, tmmB, hc0] at j1 j2
  by_cases hs : pol = "s"
  · subst hs
    simp only [if_true, codeRatio, tmmP, hcosN, filmImpedance, filmStack] at j1 j2 ⊢
    have hd := films_dual (n0 * Real.cos θ) hp0 (mids.map fun m => (m.1 * m.2.2, 2 * Real.pi * m.1 * m.2.2 * m.2.1 / lam))
      (by intro f hf; obtain ⟨m, hm', rfl⟩ := List.mem_map.1 hf; exact mul_ne_zero (hnz m hm') (hcz m hm')) (nN * cN) hyN
    rw [List.map_map] at hd
    simp only [Function.comp_def] at hd
    rw [hd.1, hd.2]
    obtain ⟨k1, k2, k3⟩ := core (n0 * Real.cos θ) 1 hp0 one_ne_zero (c.t * 1) _ _ j1 (by rw [← j2]; push_cast; ring)
    refine ⟨k1, ?_⟩
    rw [mul_one, one_mul] at k2
    rw [k2]
    unfold filmsT
    rw [norm_div, norm_mul, Complex.norm_ofNat, Complex.norm_real, div_pow, mul_pow, Real.norm_eq_abs, sq_abs, Complex.normSq_eq_norm_sq]
    generalize filmsDen _ _ _ = D at k3 ⊢
    have : ‖D‖ ≠ 0 := by simpa using k3
    generalize Real.cos θ = x at *
    field_simp
    ring
  · have hpp : pol = "p" := hr.pol_ok.resolve_left hs
    simp only [hs, if_false, codeRatio, tmmP, hcosN, filmImpedance, filmStack] at j1 j2 ⊢
    obtain ⟨k1, k2, k3⟩ := core (Real.cos θ / n0) n0 (div_ne_zero hcz0 hn0z) hn0c (c.t * nN) _ _ j1 (by rw [← j2]; push_cast; field_simp)
    refine ⟨k1, ?_⟩
    have k2' : c.t = 2 * (n0 * ((Real.cos θ / n0 : ℝ) : ℂ)) / (filmsDen ↑(Real.cos θ / n0) (mids.map fun m => (m.2.2 / m.1, 2 * (Real.pi : ℂ) * m.1 * m.2.2 * m.2.1 / lam)) (cN / nN)) / nN := by
      rw [← k2]; field_simp
    have e0 : (n0 : ℂ) * ((Real.cos θ / n0 : ℝ) : ℂ) = ((Real.cos θ : ℝ) : ℂ) := by push_cast; field_simp
    rw [k2', e0]
    unfold filmsT
    have eN : (nN * starRingEnd ℂ cN).re = ‖nN‖ ^ 2 * (cN / nN).re := by
      rw [← Complex.normSq_eq_norm_sq, Complex.div_re]
      have : Complex.normSq nN ≠ 0 := by simpa using hNz
      simp only [Complex.mul_re, Complex.conj_re, Complex.conj_im]
      field_simp
      ring
    rw [eN, norm_div, norm_div, norm_mul, Complex.norm_ofNat, Complex.norm_real, div_pow, div_pow, mul_pow, Real.norm_eq_abs, sq_abs, Complex.normSq_eq_norm_sq]
    generalize filmsDen _ _ _ = D at k3 ⊢
    have h1 : ‖D‖ ≠ 0 := by simpa using k3
    have h2 : ‖nN‖ ≠ 0 := by simpa using hNz
    generalize Real.cos θ = x at *
    field_simp
    ring

end

end Nidn
