/-
C154: layers that do nothing in the transfer-matrix module: a layer written as two, a layer of thickness zero or of half waves, and a layer of the same material as the medium behind it.
-/
import Verif.Props.TmmReverse
import Verif.Props.TmmAccept
import Verif.Props.FdtdFilms
import Verif.Props.FilmsCases
import Mathlib.Analysis.SpecialFunctions.Trigonometric.DerivHyp

namespace Nidn

noncomputable section

/-- the films of the stack in the form the code uses -/
def codeFilms (pol : String) (lam : ℂ) (mids : List (ℂ × ℝ × ℂ)) : List (ℂ × ℂ) := mids.map fun m => (codeRatio pol m.1 m.2.2, 2 * Real.pi * m.1 * m.2.2 * m.2.1 / lam)

/-- specification: the list of inner layers belongs to light that enters at `th0` from a medium of index `n0`: in each layer the third entry is a cosine with the right refraction; at most 35 of attenuation, so that nothing is cut off -/
def LitLayers (n0 th0 lam : ℂ) (mids : List (ℂ × ℝ × ℂ)) : Prop :=
  ∀ m ∈ mids, (m.1 * m.2.2) ^ 2 = m.1 ^ 2 - (n0 * Complex.sin th0) ^ 2 ∧ |(2 * Real.pi * m.1 * m.2.2 * m.2.1 / lam).im| ≤ 35

/-- reflection and transmission amplitudes from the fields in front of the films -/
lemma stack_amplitudes {pol : String} {n0 nN th0 lam : ℂ} {mids : List (ℂ × ℝ × ℂ)} {c : TmmData} (h : TmmRun pol (stackIndices n0 mids nN) (stackThicknesses mids) th0 lam c)
    (hm : LitLayers n0 th0 lam mids) {cN : ℂ} (hN : Complex.cos (c.th.getD (mids.length + 1) 0) = cN) :
    let F := frontFields (codeFilms pol lam mids) (codeRatio pol nN cN)
    tmmA pol n0 th0 * (1 + c.r) = F.1 * (c.t * tmmA pol nN 0) ∧ tmmB pol n0 th0 * (1 - c.r) = F.2 * (c.t * tmmA pol nN 0) := by
  have hF := stack_fields h hm hN [] mids rfl
  have hJ := joined_fields h.join_first
  have hn0 : (stackIndices n0 mids nN).getD 0 0 = n0 := by simp [stackIndices]
  simp only [List.length_nil, zero_add] at hF
  rw [hF, hn0] at hJ
  obtain ⟨j1, j2⟩ := Prod.ext_iff.1 hJ
  simp only [tmmFields, Matrix.cons_val_zero, Matrix.cons_val_one] at j1 j2
  have hA : tmmA pol n0 (c.th.getD 0 0) = tmmA pol n0 th0 := rfl
  have hB : tmmB pol n0 (c.th.getD 0 0) = tmmB pol n0 th0 := by unfold tmmB; rw [h.cos_first]
  have hAN : tmmA pol nN 0 = if pol = "s" then 1 else nN := rfl
  rw [hA] at j1
  rw [hB] at j2
  refine ⟨?_, ?_⟩
  · rw [hAN]; exact j1
  · rw [hAN]; exact j2

/-- the angle in the last medium depends on the outer media only -/
lemma last_angle {asin : ℂ → ℂ} {pol : String} {n0 nN th0 lam : ℂ} {mids mids' : List (ℂ × ℝ × ℂ)} {c c' : TmmData} (h : cohTmm asin pol (stackIndices n0 mids nN) (stackThicknesses mids) th0 lam = .ok c)
    (h' : cohTmm asin pol (stackIndices n0 mids' nN) (stackThicknesses mids') th0 lam = .ok c') : c'.th.getD (mids'.length + 1) 0 = c.th.getD (mids.length + 1) 0 := by
  have key : ∀ (ms : List (ℂ × ℝ × ℂ)) (x : TmmData), cohTmm asin pol (stackIndices n0 ms nN) (stackThicknesses ms) th0 lam = .ok x →
      makeForward nN (asin (n0 * Complex.sin th0 / nN)) = .ok (x.th.getD (ms.length + 1) 0) := by
    intro ms x hx
    have hl : (stackIndices n0 ms nN).length = ms.length + 2 := by simp [stackIndices]
    obtain ⟨-, e⟩ := listSnell_angles (cohTmm_snell hx) (by omega)
    have e0 : (stackIndices n0 ms nN).getD 0 0 = n0 := by simp [stackIndices]
    have eN : (stackIndices n0 ms nN).getD (ms.length + 1) 0 = nN := by simp [stackIndices, List.getD]
    rw [hl, show ms.length + 2 - 1 = ms.length + 1 by omega, e0, eN] at e
    exact e
  have h1 := key _ _ h
  rw [key _ _ h'] at h1
  simpa using h1

/-- if the fields in front of two stacks are proportional, the stacks reflect the same -/
lemma amplitudes_of_front {asin : ℂ → ℂ} (hasin : ∀ z, Complex.sin (asin z) = z) {pol : String} {n0 nN th0 lam σ : ℂ} {mids mids' : List (ℂ × ℝ × ℂ)} {c c' : TmmData}
    (h : cohTmm asin pol (stackIndices n0 mids nN) (stackThicknesses mids) th0 lam = .ok c) (h' : cohTmm asin pol (stackIndices n0 mids' nN) (stackThicknesses mids') th0 lam = .ok c')
    (hm : LitLayers n0 th0 lam mids) (hm' : LitLayers n0 th0 lam mids') (hσ : σ ≠ 0)
    (hF : ∀ yN, yN = codeRatio pol nN (Complex.cos (c.th.getD (mids.length + 1) 0)) → frontFields (codeFilms pol lam mids') yN = (σ * (frontFields (codeFilms pol lam mids) yN).1, σ * (frontFields (codeFilms pol lam mids) yN).2)) :
    c'.r = c.r ∧ c'.t = c.t / σ ∧ c'.R = c.R ∧ c'.T = c.T / ‖σ‖ ^ 2 ∧ c'.powerEntering = c.powerEntering := by
  have hr := cohTmm_run hasin h
  have hr' := cohTmm_run hasin h'
  have hla := last_angle h h'
  obtain ⟨a1, a2⟩ := stack_amplitudes hr hm rfl
  obtain ⟨b1, b2⟩ := stack_amplitudes hr' hm' (congrArg Complex.cos hla)
  rw [hF _ rfl] at b1 b2
  generalize frontFields (codeFilms pol lam mids) (codeRatio pol nN (Complex.cos (c.th.getD (mids.length + 1) 0))) = F at *
  dsimp only at b1 b2
  have hlen : ∀ ms : List (ℂ × ℝ × ℂ), (stackIndices n0 ms nN).length = ms.length + 2 := fun ms => by simp [stackIndices]
  have e0 : ∀ ms, (stackIndices n0 ms nN).getD 0 0 = n0 := fun ms => by simp [stackIndices]
  have eN : ∀ ms, (stackIndices n0 ms nN).getD (ms.length + 1) 0 = nN := fun ms => by simp [stackIndices, List.getD]
  have hn0 := (hr.snell_at 0 (by rw [hlen]; omega)).1
  have hnN := (hr.snell_at (mids.length + 1) (by rw [hlen]; omega)).1
  have hc0 := hr.cos_ne 0 (by rw [hlen]; omega)
  rw [hr.cos_first] at hc0
  rw [e0] at hn0
  rw [eN] at hnN
  have hA : tmmA pol n0 th0 ≠ 0 := by unfold tmmA; split; exacts [one_ne_zero, hn0]
  have hB : tmmB pol n0 th0 ≠ 0 := by unfold tmmB; split; exacts [mul_ne_zero hn0 hc0, hc0]
  have hAN : tmmA pol nN 0 ≠ 0 := by unfold tmmA; split; exacts [one_ne_zero, hnN]
  have ht := hr.t_ne
  have ht' := hr'.t_ne
  set A := tmmA pol n0 th0
  set B := tmmB pol n0 th0
  set N := tmmA pol nN 0
  have hD : (B * F.1 + A * F.2) * (c.t * N) = 2 * (A * B) := by linear_combination -B * a1 - A * a2
  have hD' : (B * F.1 + A * F.2) * (σ * (c'.t * N)) = 2 * (A * B) := by linear_combination -B * b1 - A * b2
  have hne : B * F.1 + A * F.2 ≠ 0 := by
    intro e
    rw [e, zero_mul] at hD
    exact mul_ne_zero two_ne_zero (mul_ne_zero hA hB) hD.symm
  have htt : σ * (c'.t * N) = c.t * N := mul_left_cancel₀ hne (hD'.trans hD.symm)
  have hte : c'.t = c.t / σ := by
    rw [eq_div_iff hσ]
    apply mul_right_cancel₀ hAN
    linear_combination htt
  have hrr : c'.r = c.r := by
    have : A * (1 + c'.r) = A * (1 + c.r) := by rw [b1, a1]; linear_combination F.1 * htt
    have := mul_left_cancel₀ hA this
    linear_combination this
  refine ⟨hrr, hte, by rw [hr.R_def, hr'.R_def, hrr], ?_, ?_⟩
  · rw [hr.T_def, hr'.T_def, hlen, hlen, show mids.length + 2 - 1 = mids.length + 1 by omega, show mids'.length + 2 - 1 = mids'.length + 1 by omega, e0, e0, eN, eN, hla, hte, norm_div]
    have : ‖σ‖ ≠ 0 := by simpa using hσ
    field_simp
  · have p1 := hr.pe_def
    have p2 := hr'.pe_def
    rw [e0] at p1 p2
    rw [hrr, p1] at p2
    simpa using p2.symm

lemma frontFields_append (pre : List (ℂ × ℂ)) {a b : List (ℂ × ℂ)} {yN σ : ℂ} (h : frontFields a yN = (σ * (frontFields b yN).1, σ * (frontFields b yN).2)) :
    frontFields (pre ++ a) yN = (σ * (frontFields (pre ++ b) yN).1, σ * (frontFields (pre ++ b) yN).2) := by
  induction pre with
  | nil => exact h
  | cons f pre ih =>
    simp only [List.cons_append, frontFields]
    rw [ih]
    ext <;> simp only [filmFront] <;> ring

lemma codeFilms_append (pol : String) (lam : ℂ) (a b : List (ℂ × ℝ × ℂ)) : codeFilms pol lam (a ++ b) = codeFilms pol lam a ++ codeFilms pol lam b := List.map_append ..

lemma im_scale (q lam : ℂ) (x y : ℝ) (hx : 0 ≤ x) (hxy : x ≤ y) (h : |(q * y / lam).im| ≤ 35) : |(q * x / lam).im| ≤ 35 := by
  rcases eq_or_lt_of_le hx with e | e
  · rw [← e]; simp
  have hy : 0 < y := lt_of_lt_of_le e hxy
  have : q * x / lam = ((x / y : ℝ) : ℂ) * (q * y / lam) := by
    have : (y : ℂ) ≠ 0 := by exact_mod_cast hy.ne'
    push_cast
    field_simp
  rw [this, Complex.im_ofReal_mul, abs_mul, abs_of_nonneg (by positivity)]
  calc x / y * |(q * y / lam).im| ≤ 1 * 35 := by gcongr; exact (div_le_one hy).2 hxy
    _ = 35 := one_mul _

lemma layers_cos_ne {asin : ℂ → ℂ} (hasin : ∀ z, Complex.sin (asin z) = z) {pol : String} {n0 nN th0 lam : ℂ} {mids : List (ℂ × ℝ × ℂ)} {c : TmmData}
    (h : cohTmm asin pol (stackIndices n0 mids nN) (stackThicknesses mids) th0 lam = .ok c) (hm : LitLayers n0 th0 lam mids) {m : ℂ × ℝ × ℂ} (hmem : m ∈ mids) : m.1 ≠ 0 ∧ m.2.2 ≠ 0 := by
  have hr := cohTmm_run hasin h
  have hlen : (stackIndices n0 mids nN).length = mids.length + 2 := by simp [stackIndices]
  have hq := (hm m hmem).1
  obtain ⟨i, hi, rfl⟩ := List.getElem_of_mem hmem
  have e : (stackIndices n0 mids nN).getD (i + 1) 0 = mids[i].1 := by simp [stackIndices, List.getD, List.getElem?_append_left, hi]
  have e0 : (stackIndices n0 mids nN).getD 0 0 = n0 := by simp [stackIndices]
  obtain ⟨h1, h2⟩ := hr.snell_at (i + 1) (by omega)
  have hc := hr.cos_ne (i + 1) (by omega)
  rw [e, e0] at h2
  rw [e] at h1
  refine ⟨h1, fun z => ?_⟩
  rw [z] at hq
  have hs := Complex.sin_sq_add_cos_sq (c.th.getD (i + 1) 0)
  have : (mids[i].1 * Complex.cos (c.th.getD (i + 1) 0)) ^ 2 = 0 := by linear_combination mids[i].1 ^ 2 * hs - hq - (mids[i].1 * Complex.sin (c.th.getD (i + 1) 0) + n0 * Complex.sin th0) * h2
  exact mul_ne_zero h1 hc (pow_eq_zero_iff two_ne_zero |>.1 this)

lemma codeRatio_ne {pol : String} {n c : ℂ} (hn : n ≠ 0) (hc : c ≠ 0) : codeRatio pol n c ≠ 0 := by
  unfold codeRatio
  split
  · exact mul_ne_zero hn hc
  · exact div_ne_zero hc hn

/-- C154, partial: a layer written as two of the same index, with the same total thickness, makes no difference: `coh_tmm` gives the same amplitudes, the same
`R` and `T` and the same entering power. Missing: layers that attenuate the field by more than `exp (-35)`, for which the claim is false (`C154_split_false`). -/
theorem C154_split_partial (asin : ℂ → ℂ) (hasin : ∀ z, Complex.sin (asin z) = z) (pol : String) (n0 nN th0 lam m q : ℂ) (x y : ℝ) (hx : 0 ≤ x) (hy : 0 ≤ y) (pre post : List (ℂ × ℝ × ℂ)) (c c' : TmmData)
    (h : cohTmm asin pol (stackIndices n0 (pre ++ (m, x + y, q) :: post) nN) (stackThicknesses (pre ++ (m, x + y, q) :: post)) th0 lam = .ok c)
    (h' : cohTmm asin pol (stackIndices n0 (pre ++ (m, x, q) :: (m, y, q) :: post) nN) (stackThicknesses (pre ++ (m, x, q) :: (m, y, q) :: post)) th0 lam = .ok c')
    (hm : LitLayers n0 th0 lam (pre ++ (m, x + y, q) :: post)) :
    c'.r = c.r ∧ c'.t = c.t ∧ c'.R = c.R ∧ c'.T = c.T ∧ c'.powerEntering = c.powerEntering := by
  obtain ⟨hq, hd⟩ := hm (m, x + y, q) (by simp)
  have hm' : LitLayers n0 th0 lam (pre ++ (m, x, q) :: (m, y, q) :: post) := by
    intro l hl
    simp only [List.mem_append, List.mem_cons] at hl
    rcases hl with hl | rfl | rfl | hl
    · exact hm l (by simp [hl])
    · exact ⟨hq, im_scale _ _ x (x + y) hx (by linarith) hd⟩
    · exact ⟨hq, im_scale _ _ y (x + y) hy (by linarith) hd⟩
    · exact hm l (by simp [hl])
  obtain ⟨m0, q0⟩ := layers_cos_ne hasin h hm (m := (m, x + y, q)) (by simp)
  have := amplitudes_of_front hasin h h' hm hm' (σ := 1) one_ne_zero fun yN _ => by
    rw [codeFilms_append, codeFilms_append]
    apply frontFields_append
    simp only [codeFilms, List.map_cons, frontFields, one_mul]
    rw [filmFront_add _ _ _ (codeRatio_ne m0 q0)]
    congr 1
    push_cast
    ring
  simpa using this

/-- C154. A layer of thickness zero, or of any number of half waves, makes no difference for `R`, `T` and the entering power; the transmitted amplitude
may change its sign. -/
theorem C154_absent (asin : ℂ → ℂ) (hasin : ∀ z, Complex.sin (asin z) = z) (pol : String) (n0 nN th0 lam m q : ℂ) (x : ℝ) (pre post : List (ℂ × ℝ × ℂ)) (c c' : TmmData)
    (h : cohTmm asin pol (stackIndices n0 (pre ++ post) nN) (stackThicknesses (pre ++ post)) th0 lam = .ok c)
    (h' : cohTmm asin pol (stackIndices n0 (pre ++ (m, x, q) :: post) nN) (stackThicknesses (pre ++ (m, x, q) :: post)) th0 lam = .ok c')
    (hm : LitLayers n0 th0 lam (pre ++ (m, x, q) :: post)) (hhalf : ∃ k : ℤ, 2 * Real.pi * m * q * x / lam = k * Real.pi) :
    c'.r = c.r ∧ (c'.t = c.t ∨ c'.t = -c.t) ∧ c'.R = c.R ∧ c'.T = c.T ∧ c'.powerEntering = c.powerEntering := by
  have hsin : Complex.sin (2 * Real.pi * m * q * x / lam) = 0 := by
    obtain ⟨k, hk⟩ := hhalf
    rw [hk]
    exact Complex.sin_int_mul_pi k
  set δ := 2 * Real.pi * m * q * x / lam with hδ
  have hm0 : LitLayers n0 th0 lam (pre ++ post) := fun l hl => hm l (by simp only [List.mem_append, List.mem_cons] at hl ⊢; tauto)
  have hc2 : Complex.cos δ = 1 ∨ Complex.cos δ = -1 := by
    have := Complex.sin_sq_add_cos_sq δ
    rw [hsin] at this
    exact sq_eq_one_iff.1 (by linear_combination this)
  have hc0 : Complex.cos δ ≠ 0 := by rcases hc2 with e | e <;> simp [e]
  obtain ⟨r1, r2, r3, r4, r5⟩ := amplitudes_of_front hasin h h' hm0 hm (σ := Complex.cos δ) hc0 fun yN _ => by
    rw [codeFilms_append, codeFilms_append]
    apply frontFields_append
    simp only [codeFilms, List.map_cons, frontFields]
    rw [← hδ]
    simp [filmFront, hsin]
  refine ⟨r1, ?_, r3, ?_, r5⟩
  · rw [r2]
    rcases hc2 with e | e
    · left; simp [e]
    · right; rw [e]; simp [div_neg]
  · rw [r4]
    rcases hc2 with e | e <;> simp [e]

/-- C154. A layer of the material of the last medium, put in front of that medium, reflects nothing more; what gets through decays over its thickness as
a wave of wave number `kz` does. -/
theorem C154_substrate (asin : ℂ → ℂ) (hasin : ∀ z, Complex.sin (asin z) = z) (pol : String) (n0 nN th0 lam : ℂ) (x : ℝ) (mids : List (ℂ × ℝ × ℂ)) (q : ℂ) (c c' : TmmData)
    (h : cohTmm asin pol (stackIndices n0 mids nN) (stackThicknesses mids) th0 lam = .ok c)
    (h' : cohTmm asin pol (stackIndices n0 (mids ++ [(nN, x, q)]) nN) (stackThicknesses (mids ++ [(nN, x, q)])) th0 lam = .ok c')
    (hm : LitLayers n0 th0 lam mids) (hx : |(c.kz.getD (mids.length + 1) 0 * x).im| ≤ 35) :
    c'.r = c.r ∧ c'.t = c.t * Complex.exp (Complex.I * c.kz.getD (mids.length + 1) 0 * x) ∧ c'.R = c.R ∧
      c'.T = c.T * Real.exp (-2 * (c.kz.getD (mids.length + 1) 0).im * x) ∧ c'.powerEntering = c.powerEntering := by
  have hr := cohTmm_run hasin h
  have hlen : (stackIndices n0 mids nN).length = mids.length + 2 := by simp [stackIndices]
  have e0 : (stackIndices n0 mids nN).getD 0 0 = n0 := by simp [stackIndices]
  have eN : (stackIndices n0 mids nN).getD (mids.length + 1) 0 = nN := by simp [stackIndices, List.getD]
  obtain ⟨hN, hsn⟩ := hr.snell_at (mids.length + 1) (by omega)
  have hk := hr.kz_at (mids.length + 1) (by omega)
  rw [eN] at hN hk
  rw [e0, eN] at hsn
  set θ := c.th.getD (mids.length + 1) 0 with hθ
  set k := c.kz.getD (mids.length + 1) 0 with hkk
  have hI : stackIndices n0 (mids ++ [(nN, x, q)]) nN = stackIndices n0 (mids ++ [(nN, x, Complex.cos θ)]) nN := by simp [stackIndices]
  have hT : stackThicknesses (mids ++ [(nN, x, q)]) = stackThicknesses (mids ++ [(nN, x, Complex.cos θ)]) := by simp [stackThicknesses]
  rw [hI, hT] at h'
  have hkx : 2 * Real.pi * nN * Complex.cos θ * x / lam = k * x := by rw [hk]; ring
  have hm' : LitLayers n0 th0 lam (mids ++ [(nN, x, Complex.cos θ)]) := by
    intro l hl
    rcases List.mem_append.1 hl with hl | hl
    · exact hm l hl
    · obtain rfl := List.mem_singleton.1 hl
      refine ⟨?_, by rw [show (2 * Real.pi * nN * Complex.cos θ * x / lam : ℂ) = k * x from hkx]; exact hx⟩
      have hs := Complex.sin_sq_add_cos_sq θ
      linear_combination nN ^ 2 * hs - (nN * Complex.sin θ + n0 * Complex.sin th0) * hsn
  have hcN : Complex.cos θ ≠ 0 := (layers_cos_ne hasin h' hm' (m := (nN, x, Complex.cos θ)) (by simp)).2
  obtain ⟨r1, r2, r3, r4, r5⟩ := amplitudes_of_front hasin h h' hm hm' (σ := Complex.exp (-(Complex.I * k * x))) (Complex.exp_ne_zero _) fun yN hy => by
    rw [codeFilms_append]
    nth_rewrite 2 [← List.append_nil (codeFilms pol lam mids)]
    nth_rewrite 3 [← List.append_nil (codeFilms pol lam mids)]
    apply frontFields_append
    have hy0 : yN ≠ 0 := hy ▸ codeRatio_ne hN hcN
    simp only [codeFilms, List.map_cons, List.map_nil, frontFields, filmFront]
    rw [hkx, ← hy]
    have he : Complex.exp (-(Complex.I * k * x)) = Complex.cos (k * x) - Complex.I * Complex.sin (k * x) := by
      rw [show -(Complex.I * k * x) = -(k * x) * Complex.I by ring, Complex.exp_mul_I, Complex.cos_neg, Complex.sin_neg]
      ring
    rw [he]
    ext
    · field_simp
    · simp only; ring
  refine ⟨r1, ?_, r3, ?_, r5⟩
  · rw [r2, div_eq_mul_inv, ← Complex.exp_neg, neg_neg]
  · rw [r4, Complex.norm_exp, ← Real.exp_nat_mul, div_eq_mul_inv, ← Real.exp_neg]
    congr 2
    simp [mul_assoc]

/-- C154. A layer of the material of the first medium behind that medium only delays (or, at a complex angle or index, attenuates) the light on its way in and out. -/
theorem C154_front (asin : ℂ → ℂ) (hasin : ∀ z, Complex.sin (asin z) = z) (pol : String) (n0 nN th0 lam : ℂ) (x : ℝ) (mids : List (ℂ × ℝ × ℂ)) (q : ℂ) (c c' : TmmData)
    (h : cohTmm asin pol (stackIndices n0 mids nN) (stackThicknesses mids) th0 lam = .ok c)
    (h' : cohTmm asin pol (stackIndices n0 ((n0, x, q) :: mids) nN) (stackThicknesses ((n0, x, q) :: mids)) th0 lam = .ok c')
    (hm : LitLayers n0 th0 lam mids) (hx : |(2 * Real.pi * n0 * Complex.cos th0 * x / lam).im| ≤ 35) :
    c'.r = c.r * Complex.exp (2 * Complex.I * (2 * Real.pi * n0 * Complex.cos th0 * x / lam)) ∧ c'.t = c.t * Complex.exp (Complex.I * (2 * Real.pi * n0 * Complex.cos th0 * x / lam)) ∧
      c'.R = c.R * Real.exp (-4 * (2 * Real.pi * n0 * Complex.cos th0 * x / lam).im) ∧ c'.T = c.T * Real.exp (-2 * (2 * Real.pi * n0 * Complex.cos th0 * x / lam).im) := by
  have hI : stackIndices n0 ((n0, x, q) :: mids) nN = stackIndices n0 ((n0, x, Complex.cos th0) :: mids) nN := by simp [stackIndices]
  have hT : stackThicknesses ((n0, x, q) :: mids) = stackThicknesses ((n0, x, Complex.cos th0) :: mids) := by simp [stackThicknesses]
  rw [hI, hT] at h'
  have hm' : LitLayers n0 th0 lam ((n0, x, Complex.cos th0) :: mids) := by
    intro l hl
    rcases List.mem_cons.1 hl with rfl | hl
    · refine ⟨?_, hx⟩
      have hs := Complex.sin_sq_add_cos_sq th0
      linear_combination n0 ^ 2 * hs
    · exact hm l hl
  have hr := cohTmm_run hasin h
  have hr' := cohTmm_run hasin h'
  have hla := last_angle h h'
  have hlen : ∀ ms : List (ℂ × ℝ × ℂ), (stackIndices n0 ms nN).length = ms.length + 2 := fun ms => by simp [stackIndices]
  have e0 : ∀ ms, (stackIndices n0 ms nN).getD 0 0 = n0 := fun ms => by simp [stackIndices]
  have eN : ∀ ms, (stackIndices n0 ms nN).getD (ms.length + 1) 0 = nN := fun ms => by simp [stackIndices, List.getD]
  obtain ⟨a1, a2⟩ := stack_amplitudes hr hm rfl
  obtain ⟨b1, b2⟩ := stack_amplitudes hr' hm' (congrArg Complex.cos hla)
  obtain ⟨hn0, hc0⟩ := layers_cos_ne hasin h' hm' (m := (n0, x, Complex.cos th0)) (by simp)
  have hnN := (hr.snell_at (mids.length + 1) (by rw [hlen]; omega)).1
  rw [eN] at hnN
  dsimp only at hn0 hc0
  have hA : tmmA pol n0 th0 ≠ 0 := by unfold tmmA; split; exacts [one_ne_zero, hn0]
  have hB : tmmB pol n0 th0 ≠ 0 := by unfold tmmB; split; exacts [mul_ne_zero hn0 hc0, hc0]
  have hAN : tmmA pol nN 0 ≠ 0 := by unfold tmmA; split; exacts [one_ne_zero, hnN]
  have hy : codeRatio pol n0 (Complex.cos th0) = tmmB pol n0 th0 / tmmA pol n0 th0 := (ratio_eq pol n0 th0).symm
  simp only [codeFilms, List.map_cons, frontFields, filmFront] at b1 b2
  rw [show (mids.map fun m : ℂ × ℝ × ℂ => (codeRatio pol m.1 m.2.2, 2 * Real.pi * m.1 * m.2.2 * m.2.1 / lam)) = codeFilms pol lam mids from rfl, hy] at b1 b2
  generalize frontFields (codeFilms pol lam mids) (codeRatio pol nN (Complex.cos (c.th.getD (mids.length + 1) 0))) = F at *
  generalize hδ : 2 * Real.pi * n0 * Complex.cos th0 * x / lam = δ at *
  set A := tmmA pol n0 th0
  set B := tmmB pol n0 th0
  set N := tmmA pol nN 0
  have hp : Complex.exp (Complex.I * δ) = Complex.cos δ + Complex.I * Complex.sin δ := by rw [mul_comm, Complex.exp_mul_I]; ring
  have hq : Complex.cos δ - Complex.I * Complex.sin δ = (Complex.exp (Complex.I * δ))⁻¹ := by
    rw [← Complex.exp_neg, show -(Complex.I * δ) = -δ * Complex.I by ring, Complex.exp_mul_I, Complex.cos_neg, Complex.sin_neg]; ring
  have hE := Complex.exp_ne_zero (Complex.I * δ)
  have hE2 : Complex.exp (2 * Complex.I * δ) = Complex.exp (Complex.I * δ) ^ 2 := by rw [← Complex.exp_nat_mul]; congr 1; push_cast; ring
  have hn1 : ‖Complex.exp (Complex.I * δ)‖ = Real.exp (-δ.im) := by rw [Complex.norm_exp]; simp
  rw [hE2]
  set E := Complex.exp (Complex.I * δ)
  have b1' : A * B * (1 + c'.r) = (Complex.cos δ * (B * F.1) - Complex.I * Complex.sin δ * (A * F.2)) * (c'.t * N) := by
    have : Complex.I * Complex.sin δ / (B / A) * B = Complex.I * Complex.sin δ * A := by field_simp
    linear_combination B * b1 - F.2 * c'.t * N * this
  have b2' : A * B * (1 - c'.r) = (Complex.cos δ * (A * F.2) - Complex.I * Complex.sin δ * (B * F.1)) * (c'.t * N) := by
    have : Complex.I * (B / A) * Complex.sin δ * A = Complex.I * Complex.sin δ * B := by field_simp
    linear_combination A * b2 - F.1 * c'.t * N * this
  have hD : (B * F.1 + A * F.2) * (c.t * N) = 2 * (A * B) := by linear_combination -B * a1 - A * a2
  have hD' : (B * F.1 + A * F.2) * ((Complex.cos δ - Complex.I * Complex.sin δ) * (c'.t * N)) = 2 * (A * B) := by linear_combination -b1' - b2'
  have hne : B * F.1 + A * F.2 ≠ 0 := by
    intro e
    rw [e, zero_mul] at hD
    exact mul_ne_zero two_ne_zero (mul_ne_zero hA hB) hD.symm
  have htt := mul_left_cancel₀ hne (hD'.trans hD.symm)
  rw [hq] at htt
  have ht : c'.t = c.t * E := by
    apply mul_right_cancel₀ hAN
    field_simp at htt
    linear_combination N * htt
  have hrr : c'.r = c.r * E ^ 2 := by
    have h1 : 2 * (A * B) * c'.r = E * (B * F.1 - A * F.2) * (c'.t * N) := by rw [hp]; linear_combination b1' - b2'
    have h2 : 2 * (A * B) * c.r = (B * F.1 - A * F.2) * (c.t * N) := by linear_combination B * a1 - A * a2
    apply mul_left_cancel₀ (mul_ne_zero two_ne_zero (mul_ne_zero hA hB))
    rw [h1, ht]
    linear_combination -E ^ 2 * h2
  refine ⟨hrr, ht, ?_, ?_⟩
  · rw [hr.R_def, hr'.R_def, hrr, norm_mul, norm_pow, hn1, ← Real.exp_nat_mul, mul_pow, ← Real.exp_nat_mul]
    congr 2
    push_cast
    ring
  · rw [hr.T_def, hr'.T_def, hlen, hlen, show mids.length + 2 - 1 = mids.length + 1 by omega, show ((n0, x, Complex.cos th0) :: mids).length + 2 - 1 = ((n0, x, Complex.cos th0) :: mids).length + 1 by omega, e0, e0, eN, eN, hla, ht,
      norm_mul, hn1, mul_pow, ← Real.exp_nat_mul]
    have : ((2 : ℕ) : ℝ) * -δ.im = -2 * δ.im := by push_cast; ring
    rw [this]
    ring

lemma mapM_same {α β : Type} {f g : α → Except PyErr β} {l : List α} (h : ∀ a ∈ l, f a = g a) : l.mapM f = l.mapM g := by
  induction l with
  | nil => rfl
  | cons a l ih =>
    rw [List.mapM_cons, List.mapM_cons, h a (by simp), ih fun b hb => h b (by simp [hb])]

/-- thicknesses matter only through the phases of the layers, up to whole turns -/
lemma cohTmm_phases {asin : ℂ → ℂ} {pol : String} {n : List ℂ} {d d' : List (Option ℝ)} {th0 lam : ℂ} {c : TmmData} (h : cohTmm asin pol n d th0 lam = .ok c) (hl : d'.length = d.length)
    (h0 : d'[0]? = some none) (hN : d'[d'.length - 1]? = some none)
    (hp : ∀ i, 1 ≤ i → i + 1 < n.length → ∃ a b, layerPhase (c.kz.getD i 0) (d.getD i none) = .ok a ∧ layerPhase (c.kz.getD i 0) (d'.getD i none) = .ok b ∧ ∃ k : ℤ, b = a + k * (2 * Real.pi)) :
    cohTmm asin pol n d' th0 lam = .ok { c with d := d' } := by
  unfold cohTmm at h ⊢
  have p0 : pyNth d' 0 = .ok none := by rw [pyNth_zero]; exact h0
  have pN : pyNth d' (-1) = .ok none := by rw [pyNth_last]; exact hN
  rw [hl]
  by_cases hlen : n.length ≠ d.length
  · rw [if_pos hlen] at h; cases h
  rw [if_neg hlen] at h ⊢
  simp only [bind_ok, pure, Except.pure, Except.ok.injEq] at h
  obtain ⟨d0, hd0, dN, hdN, u1, hu1, n0, hn0, u2, hu2, fw, hfw, u3, hu3, th, hth, kz, hkz, trM, htr, tr0, htr0, u, hu, r, hr, t, ht, nN, hnN, thN, hthN, T, hT, pe, hpe, rfl⟩ := h
  have hM : stackMatrices pol n th kz d' = stackMatrices pol n th kz d := by
    have key : ∀ i < n.length - 2, ∃ a b, layerPhase (kz.getD (i + 1) 0) (d.getD (i + 1) none) = .ok a ∧ layerPhase (kz.getD (i + 1) 0) (d'.getD (i + 1) none) = .ok b ∧ ∃ k : ℤ, b = a + k * (2 * Real.pi) :=
      fun i hi => hp (i + 1) (by omega) (by omega)
    choose! fa fb ha hb hk using key
    have e1 : ((List.range (n.length - 2)).mapM fun i => layerPhase (kz.getD (i + 1) 0) (d.getD (i + 1) none)) = .ok ((List.range (n.length - 2)).map fa) :=
      mapM_all_ok _ _ _ fun i hi => ha i (List.mem_range.1 hi)
    have e2 : ((List.range (n.length - 2)).mapM fun i => layerPhase (kz.getD (i + 1) 0) (d'.getD (i + 1) none)) = .ok ((List.range (n.length - 2)).map fb) :=
      mapM_all_ok _ _ _ fun i hi => hb i (List.mem_range.1 hi)
    unfold stackMatrices
    rw [e1, e2]
    simp only [ok_bind]
    congr 1
    funext tr
    congr 1
    apply mapM_same
    intro i hi
    have hi' := List.mem_range.1 hi
    obtain ⟨k, hk⟩ := hk i hi'
    have g : ∀ f : ℕ → ℂ, ((List.range (n.length - 2)).map f).getD i 0 = f i := fun f => by simp [List.getD, hi']
    rw [g, g, hk]
    unfold layerMatrix
    have x1 : Complex.exp (-Complex.I * (fa i + k * (2 * Real.pi))) = Complex.exp (-Complex.I * fa i) := by
      rw [Complex.exp_eq_exp_iff_exists_int]
      exact ⟨-k, by push_cast; ring⟩
    have x2 : Complex.exp (Complex.I * (fa i + k * (2 * Real.pi))) = Complex.exp (Complex.I * fa i) := by
      rw [Complex.exp_eq_exp_iff_exists_int]
      exact ⟨k, by ring⟩
    rw [x1, x2]
  obtain ⟨z0, zN⟩ := assertTrue_ok.1 hu1
  rw [z0, zN] at hu1
  rw [p0, ok_bind, pN, ok_bind, hu1, ok_bind]
  simp only [hM, ok_bind, hn0, hu2, hfw, hu3, hth, hkz, htr, htr0, hu, hr, ht, hnN, hthN, hT, hpe, pure, Except.pure]

/-- light at normal incidence from air is accepted by films that absorb or let through -/
lemma normal_accepts (mids : List (ℂ × ℝ × ℂ)) (nN : ℂ) (hN : 0 < nN.re ∧ 0 ≤ nN.im) (hm : ∀ m ∈ mids, 0 < m.1.re ∧ 0 ≤ m.1.im ∧ 0 ≤ m.2.1 ∧ 2 * Real.pi * m.1.im * m.2.1 ≤ 35) :
    ∃ c, cohTmm someArcsin "s" (stackIndices (1 : ℝ) mids nN) (stackThicknesses mids) (0 : ℝ) (1 : ℝ) = .ok c := by
  have hA : someArcsin 0 = 0 := by simp [someArcsin]
  have hI : ∀ z : ℂ, normalIndex someArcsin ((1 * Real.sin 0 : ℝ) : ℂ) z = z := fun z => by simp [normalIndex, hA]
  have hT : ∀ z : ℂ, 0 < z.re → 0 ≤ z.im → Travels someArcsin ((1 * Real.sin 0 : ℝ) : ℂ) z := fun z h1 h2 =>
    ⟨fun e => by rw [e] at h1; simp at h1, mul_nonneg h1.le h2, by rwa [hI], by rwa [hI]⟩
  refine C140_accepts someArcsin someArcsin_sin "s" (.inl rfl) 1 0 1 one_pos (by simp) one_pos mids nN ?_ ?_
  · intro m h
    simp only [stackIndices, List.mem_cons, List.mem_append, List.mem_map, List.not_mem_nil, or_false] at h
    rcases h with rfl | ⟨l, hl, rfl⟩ | rfl
    · exact hT _ (by simp) (by simp)
    · exact hT _ (hm l hl).1 (hm l hl).2.1
    · exact hT _ hN.1 hN.2
  · intro m h
    refine ⟨(hm m h).2.2.1, ?_⟩
    rw [hI]
    have : (2 * Real.pi * m.1 * m.2.1 / (1 : ℝ) : ℂ).im = 2 * Real.pi * m.1.im * m.2.1 := by
      rw [Complex.ofReal_one, div_one, Complex.im_mul_ofReal, ← Complex.ofReal_ofNat, ← Complex.ofReal_mul, Complex.im_ofReal_mul]
    rw [this]
    exact (hm m h).2.2.2

lemma normal_lit (mids : List (ℂ × ℝ × ℂ)) (hm : ∀ m ∈ mids, m.2.2 = 1 ∧ 0 ≤ m.1.im ∧ 0 ≤ m.2.1 ∧ 2 * Real.pi * m.1.im * m.2.1 ≤ 35) : LitLayers ((1 : ℝ) : ℂ) ((0 : ℝ) : ℂ) ((1 : ℝ) : ℂ) mids := by
  intro m h
  obtain ⟨h1, h2, h3, h4⟩ := hm m h
  rw [h1]
  refine ⟨by simp, ?_⟩
  have : (2 * Real.pi * m.1 * 1 * m.2.1 / (1 : ℝ) : ℂ).im = 2 * Real.pi * m.1.im * m.2.1 := by
    rw [Complex.ofReal_one, div_one, mul_one, Complex.im_mul_ofReal, ← Complex.ofReal_ofNat, ← Complex.ofReal_mul, Complex.im_ofReal_mul]
  have hpi := Real.pi_pos
  rw [this, abs_of_nonneg (by positivity)]
  exact h4

/-- Non-vacuity: the absorbing film of 0.2 wavelengths, in one piece and as two films of 0.1, on a substrate of index 3/2 -/
example : ∃ c c', cohTmm someArcsin "s" (stackIndices (1 : ℝ) ([] ++ [(2 + 0.5 * Complex.I, 0.1 + 0.1, 1)]) (3 / 2)) (stackThicknesses ([] ++ [(2 + 0.5 * Complex.I, 0.1 + 0.1, 1)])) (0 : ℝ) (1 : ℝ) = .ok c ∧
    cohTmm someArcsin "s" (stackIndices (1 : ℝ) ([] ++ [(2 + 0.5 * Complex.I, 0.1, 1), (2 + 0.5 * Complex.I, 0.1, 1)]) (3 / 2)) (stackThicknesses ([] ++ [(2 + 0.5 * Complex.I, 0.1, 1), (2 + 0.5 * Complex.I, 0.1, 1)])) (0 : ℝ) (1 : ℝ) = .ok c' ∧
    c'.R = c.R ∧ c'.T = c.T := by
  have hpi := Real.pi_lt_four
  obtain ⟨c, hc⟩ := normal_accepts ([] ++ [(2 + 0.5 * Complex.I, 0.1 + 0.1, 1)]) (3 / 2) (by norm_num) (by
    intro m h
    obtain rfl : m = _ := by simpa using h
    norm_num; linarith)
  obtain ⟨c', hc'⟩ := normal_accepts ([] ++ [(2 + 0.5 * Complex.I, 0.1, 1), (2 + 0.5 * Complex.I, 0.1, 1)]) (3 / 2) (by norm_num) (by
    intro m h
    obtain rfl : m = _ := by simpa using h
    norm_num; linarith)
  obtain ⟨-, -, h1, h2, -⟩ := C154_split_partial someArcsin someArcsin_sin "s" _ _ _ _ _ _ _ _ (by norm_num) (by norm_num) [] [] c c' hc hc' (normal_lit _ (by
    intro m h
    obtain rfl : m = _ := by simpa using h
    norm_num; linarith))
  exact ⟨c, c', hc, hc', h1, h2⟩

/-- Non-vacuity: a layer of a half wave (index 2, a quarter of the vacuum wavelength) in front of the film; a layer of the substrate's material behind it; a layer of air before it -/
example : ∃ c c1 c2 c3, cohTmm someArcsin "s" (stackIndices (1 : ℝ) ([] ++ [(2 + 0.5 * Complex.I, 0.2, 1)]) (3 / 2)) (stackThicknesses ([] ++ [(2 + 0.5 * Complex.I, 0.2, 1)])) (0 : ℝ) (1 : ℝ) = .ok c ∧
    cohTmm someArcsin "s" (stackIndices (1 : ℝ) ([] ++ [(2, 0.25, 1), (2 + 0.5 * Complex.I, 0.2, 1)]) (3 / 2)) (stackThicknesses ([] ++ [(2, 0.25, 1), (2 + 0.5 * Complex.I, 0.2, 1)])) (0 : ℝ) (1 : ℝ) = .ok c1 ∧
    cohTmm someArcsin "s" (stackIndices (1 : ℝ) ([(2 + 0.5 * Complex.I, 0.2, 1)] ++ [(3 / 2, 0.7, 1)]) (3 / 2)) (stackThicknesses ([(2 + 0.5 * Complex.I, 0.2, 1)] ++ [(3 / 2, 0.7, 1)])) (0 : ℝ) (1 : ℝ) = .ok c2 ∧
    cohTmm someArcsin "s" (stackIndices (1 : ℝ) [((1 : ℝ), 0.3, 1), (2 + 0.5 * Complex.I, 0.2, 1)] (3 / 2)) (stackThicknesses [(((1 : ℝ) : ℂ), 0.3, 1), (2 + 0.5 * Complex.I, 0.2, 1)]) (0 : ℝ) (1 : ℝ) = .ok c3 ∧
    c1.R = c.R ∧ c1.T = c.T ∧ c2.R = c.R ∧ c2.T = c.T ∧ c3.R = c.R ∧ c3.T = c.T := by
  have hpi := Real.pi_lt_four
  obtain ⟨c, hc⟩ := normal_accepts ([] ++ [(2 + 0.5 * Complex.I, 0.2, 1)]) (3 / 2) (by norm_num) (by
    intro m h
    obtain rfl : m = _ := by simpa using h
    norm_num; linarith)
  obtain ⟨c1, hc1⟩ := normal_accepts ([] ++ [(2, 0.25, 1), (2 + 0.5 * Complex.I, 0.2, 1)]) (3 / 2) (by norm_num) (by
    intro m h
    simp only [List.nil_append, List.mem_cons, List.not_mem_nil, or_false] at h
    rcases h with rfl | rfl
    · norm_num
    · norm_num; linarith)
  obtain ⟨c2, hc2⟩ := normal_accepts ([(2 + 0.5 * Complex.I, 0.2, 1)] ++ [(3 / 2, 0.7, 1)]) (3 / 2) (by norm_num) (by
    intro m h
    simp only [List.cons_append, List.nil_append, List.mem_cons, List.not_mem_nil, or_false] at h
    rcases h with rfl | rfl
    · norm_num; linarith
    · norm_num)
  obtain ⟨c3, hc3⟩ := normal_accepts [(((1 : ℝ) : ℂ), 0.3, 1), (2 + 0.5 * Complex.I, 0.2, 1)] (3 / 2) (by norm_num) (by
    intro m h
    simp only [List.mem_cons, List.not_mem_nil, or_false] at h
    rcases h with rfl | rfl
    · norm_num
    · norm_num; linarith)
  have lit : LitLayers ((1 : ℝ) : ℂ) ((0 : ℝ) : ℂ) ((1 : ℝ) : ℂ) [(2 + 0.5 * Complex.I, 0.2, 1)] := normal_lit _ (by
    intro m h
    obtain rfl : m = _ := by simpa using h
    norm_num; linarith)
  obtain ⟨-, -, a1, a2, -⟩ := C154_absent someArcsin someArcsin_sin "s" _ _ _ _ _ _ _ [] [(2 + 0.5 * Complex.I, 0.2, 1)] c c1 hc hc1 (normal_lit _ (by
    intro m h
    simp only [List.nil_append, List.mem_cons, List.not_mem_nil, or_false] at h
    rcases h with rfl | rfl
    · norm_num
    · norm_num; linarith)) ⟨1, by push_cast; ring⟩
  have hr := cohTmm_run someArcsin_sin hc
  have hk := hr.kz_at 2 (by simp [stackIndices])
  obtain ⟨-, hs⟩ := hr.snell_at 2 (by simp [stackIndices])
  simp only [stackIndices, List.nil_append, List.map_cons, List.map_nil, List.cons_append, List.getD_cons_succ, List.getD_cons_zero, Complex.ofReal_zero, Complex.sin_zero, mul_zero] at hk hs
  have hs0 : Complex.sin (c.th.getD 2 0) = 0 := by simpa using hs
  have hcos : Complex.cos (c.th.getD 2 0) = 1 ∨ Complex.cos (c.th.getD 2 0) = -1 := by
    have := Complex.sin_sq_add_cos_sq (c.th.getD 2 0)
    rw [hs0, zero_pow two_ne_zero, zero_add] at this
    exact eq_or_eq_neg_of_sq_eq_sq _ _ (by rw [this, one_pow])
  have him : (c.kz.getD 2 0).im = 0 := by rw [hk]; rcases hcos with e | e <;> rw [e] <;> norm_num
  obtain ⟨-, -, b1, b2, -⟩ := C154_substrate someArcsin someArcsin_sin "s" _ _ _ _ 0.7 [(2 + 0.5 * Complex.I, 0.2, 1)] 1 c c2 hc hc2 lit (by
    rw [Complex.im_mul_ofReal]
    show |(c.kz.getD 2 0).im * _| ≤ 35
    rw [him]; norm_num)
  have him3 : (2 * Real.pi * ((1 : ℝ) : ℂ) * Complex.cos ((0 : ℝ) : ℂ) * ((0.3 : ℝ) : ℂ) / ((1 : ℝ) : ℂ)).im = 0 := by simp
  obtain ⟨-, -, d1, d2⟩ := C154_front someArcsin someArcsin_sin "s" _ _ _ _ 0.3 [(2 + 0.5 * Complex.I, 0.2, 1)] 1 c c3 hc hc3 lit (by rw [him3]; norm_num)
  rw [him3] at d1 d2
  rw [show c.kz.getD ([(2 + 0.5 * Complex.I, (0.2 : ℝ), (1 : ℂ))].length + 1) 0 = c.kz.getD 2 0 from rfl, him] at b2
  refine ⟨c, c1, c2, c3, hc, hc1, hc2, hc3, a1, a2, b1, ?_, ?_, ?_⟩
  · rw [b2]; simp
  · rw [d1]; simp
  · rw [d2]; simp

/-- what gets through a film in air whose phase is a whole number of turns and `τ` of attenuation -/
lemma opaque_den (m : ℂ) (hm : m ≠ 0) (k : ℤ) (τ : ℝ) : filmsDen 1 [(1 / m, k * (2 * Real.pi) + τ * Complex.I)] 1 = 2 * Real.cosh τ + Real.sinh τ * (m + m⁻¹) := by
  have hc : Complex.cos (k * (2 * Real.pi) + τ * Complex.I) = Real.cosh τ := by
    rw [add_comm, Complex.cos_add_int_mul_two_pi, Complex.cos_mul_I, Complex.ofReal_cosh]
  have hs : Complex.sin (k * (2 * Real.pi) + τ * Complex.I) = Real.sinh τ * Complex.I := by
    rw [add_comm, Complex.sin_add_int_mul_two_pi, Complex.sin_mul_I, Complex.ofReal_sinh]
  simp only [filmsDen, frontFields, filmFront, hc, hs]
  have hI := Complex.I_sq
  field_simp
  linear_combination (-(Real.sinh τ : ℂ) * (m ^ 2 + 1)) * hI

/-- C154 without the bound on the attenuation is false: more than `exp (-35)` of attenuation is cut off in each layer, so an opaque film lets through more
light in one piece than in two. -/
theorem C154_split_false : ∃ (m : ℂ) (c c' : TmmData), cohTmm someArcsin "s" (stackIndices (1 : ℝ) [(m, 1 + 1, 1)] 1) (stackThicknesses [(m, 1 + 1, 1)]) (0 : ℝ) (1 : ℝ) = .ok c ∧
    cohTmm someArcsin "s" (stackIndices (1 : ℝ) [(m, 1, 1), (m, 1, 1)] 1) (stackThicknesses [(m, 1, 1), (m, 1, 1)]) (0 : ℝ) (1 : ℝ) = .ok c' ∧ c'.T < c.T := by
  have hpi := Real.pi_pos
  set b : ℝ := 35 / (2 * Real.pi) with hb
  have hb0 : 0 < b := by positivity
  have hb35 : 2 * Real.pi * b = 35 := by rw [hb]; field_simp
  set m : ℂ := 1 + b * Complex.I with hm
  have mre : m.re = 1 := by simp [hm]
  have mim : m.im = b := by simp [hm]
  have m0 : m ≠ 0 := fun e => by rw [e] at mre; simp at mre
  have hb' : (2 * Real.pi * b : ℂ) = 35 := by exact_mod_cast congrArg (fun r : ℝ => (r : ℂ)) hb35
  obtain ⟨c1, h1⟩ := normal_accepts [(m, 1, 1)] 1 (by norm_num) (by
    intro l hl
    obtain rfl : l = _ := by simpa using hl
    refine ⟨by rw [mre]; norm_num, by rw [mim]; exact hb0.le, by norm_num, ?_⟩
    rw [mim, hb35]; norm_num)
  obtain ⟨c', h'⟩ := normal_accepts [(m, 1, 1), (m, 1, 1)] 1 (by norm_num) (by
    intro l hl
    obtain rfl : l = _ := by simpa using hl
    refine ⟨by rw [mre]; norm_num, by rw [mim]; exact hb0.le, by norm_num, ?_⟩
    rw [mim, hb35]; norm_num)
  have lit : ∀ l ∈ [(m, (1 : ℝ), (1 : ℂ)), (m, 1, 1)], (l.1 * l.2.2) ^ 2 = l.1 ^ 2 - (((1 : ℝ) : ℂ) * ((Real.sin 0 : ℝ) : ℂ)) ^ 2 ∧ |(2 * Real.pi * l.1 * l.2.2 * l.2.1 / ((1 : ℝ) : ℂ)).im| ≤ 35 := by
    have := normal_lit [(m, 1, 1), (m, 1, 1)] (by
      intro l hl
      obtain rfl : l = _ := by simpa using hl
      refine ⟨rfl, by rw [mim]; exact hb0.le, by norm_num, ?_⟩
      rw [mim, hb35]; norm_num)
    intro l hl
    simpa [LitLayers] using this l hl
  have T1 := (C140_films someArcsin someArcsin_sin "s" 1 0 (1 : ℝ) [(m, 1, 1)] 1 1 c1 h1 (fun l hl => lit l (by simp at hl; simp [hl])) (by simp) (by right; simp; norm_num)).2
  have T2 := (C140_films someArcsin someArcsin_sin "s" 1 0 (1 : ℝ) [(m, 1, 1), (m, 1, 1)] 1 1 c' h' lit (by simp) (by right; simp; norm_num)).2
  -- the film of double thickness
  have hr1 := cohTmm_run someArcsin_sin h1
  have hk := hr1.kz_at 1 (by simp [stackIndices])
  have hth := (listSnell_angles (cohTmm_snell h1) (by simp [stackIndices])).1 1 le_rfl (by simp [stackIndices])
  have hA : someArcsin 0 = 0 := by simp [someArcsin]
  have hth0 : c1.th.getD 1 0 = 0 := by rw [hth]; simp [hA]
  have hkz : c1.kz.getD 1 0 = 2 * Real.pi + 35 * Complex.I := by
    rw [hk, hth0]
    simp only [stackIndices, List.map_cons, List.map_nil, List.cons_append, List.nil_append, List.getD_cons_succ, List.getD_cons_zero, Complex.cos_zero, Complex.ofReal_one, div_one, mul_one]
    rw [hm]
    linear_combination Complex.I * hb'
  have h2 := cohTmm_phases (d' := [none, some (1 + 1), none]) h1 (by simp [stackThicknesses]) rfl rfl (by
    intro i hi hi'
    obtain rfl : i = 1 := by simp [stackIndices] at hi'; omega
    rw [hkz]
    refine ⟨2 * Real.pi + 35 * Complex.I, 4 * Real.pi + 35 * Complex.I, ?_, ?_, 1, by push_cast; ring⟩
    · simp [layerPhase, stackThicknesses, clampPhase]
    · have e : ((2 * Real.pi + 35 * Complex.I) * ((1 + 1 : ℝ) : ℂ)) = ((4 * Real.pi : ℝ) : ℂ) + ((70 : ℝ) : ℂ) * Complex.I := by push_cast; ring
      simp only [layerPhase, List.getD_cons_succ, List.getD_cons_zero, e, clampPhase]
      rw [if_pos (by simp; norm_num)]
      simp)
  refine ⟨m, { c1 with d := [none, some (1 + 1), none] }, c', ?_, h', ?_⟩
  · rw [← h2]; simp [stackIndices, stackThicknesses]
  show c'.T < c1.T
  have s1 : filmStack "s" ((1 : ℝ) : ℂ) [(m, 1, 1)] = [(1 / m, ((1 : ℤ) : ℂ) * (2 * Real.pi) + ((35 : ℝ) : ℂ) * Complex.I)] := by
    simp only [filmStack, List.map_cons, List.map_nil, filmImpedance, if_true, mul_one, Complex.ofReal_one, div_one]
    congr 2
    rw [hm]
    push_cast
    linear_combination Complex.I * hb'
  have e2 : filmsDen 1 (filmStack "s" ((1 : ℝ) : ℂ) [(m, 1, 1), (m, 1, 1)]) 1 = filmsDen 1 [(1 / m, ((2 : ℤ) : ℂ) * (2 * Real.pi) + ((70 : ℝ) : ℂ) * Complex.I)] 1 := by
    simp only [filmsDen, filmStack, List.map_cons, List.map_nil, filmImpedance, if_true, mul_one, Complex.ofReal_one, div_one, frontFields]
    rw [filmFront_add _ _ _ (by simpa using m0)]
    rw [show 2 * Real.pi * m + 2 * Real.pi * m = ((2 : ℤ) : ℂ) * (2 * Real.pi) + ((70 : ℝ) : ℂ) * Complex.I by rw [hm]; push_cast; linear_combination 2 * Complex.I * hb']
  have hT : ∀ films, filmsT (if ("s" : String) = "s" then 1 / (1 * Real.cos 0) else Real.cos 0 / 1) films (filmImpedance "s" 1 1) = 4 / Complex.normSq (filmsDen 1 films 1) := by
    intro films
    simp [filmsT, filmImpedance]
  rw [hT] at T1 T2
  rw [T1, T2, e2, s1, opaque_den m m0, opaque_den m m0]
  have hw : 0 < (m + m⁻¹).re := by
    rw [Complex.add_re, Complex.inv_re, mre]
    have : 0 < Complex.normSq m := Complex.normSq_pos.2 m0
    positivity
  generalize m + m⁻¹ = w at hw
  have hN : ∀ τ : ℝ, Complex.normSq (2 * Real.cosh τ + Real.sinh τ * w) = (2 * Real.cosh τ + Real.sinh τ * w.re) ^ 2 + (Real.sinh τ * w.im) ^ 2 := by
    intro τ
    rw [Complex.normSq_apply]
    have e1 : (2 * Real.cosh τ + Real.sinh τ * w : ℂ).re = 2 * Real.cosh τ + Real.sinh τ * w.re := by
      rw [Complex.add_re, Complex.re_ofReal_mul, ← Complex.ofReal_ofNat, Complex.re_ofReal_mul, Complex.ofReal_re]
    have e2 : (2 * Real.cosh τ + Real.sinh τ * w : ℂ).im = Real.sinh τ * w.im := by
      rw [Complex.add_im, Complex.im_ofReal_mul, ← Complex.ofReal_ofNat, Complex.im_ofReal_mul, Complex.ofReal_im]; ring
    rw [e1, e2]; ring
  rw [hN, hN]
  have c35 := Real.cosh_pos 35
  have s35 : 0 < Real.sinh 35 := Real.sinh_pos_iff.2 (by norm_num)
  have hcc : Real.cosh 35 < Real.cosh 70 := Real.cosh_lt_cosh.2 (by norm_num)
  have hss : Real.sinh 35 < Real.sinh 70 := Real.sinh_lt_sinh.2 (by norm_num)
  apply div_lt_div_of_pos_left (by norm_num) (by positivity)
  have q1 : Real.sinh 35 * w.re < Real.sinh 70 * w.re := by gcongr
  have q2 : (Real.sinh 35 * w.im) ^ 2 ≤ (Real.sinh 70 * w.im) ^ 2 := by
    rw [mul_pow, mul_pow]; gcongr
  have q3 : (2 * Real.cosh 35 + Real.sinh 35 * w.re) ^ 2 < (2 * Real.cosh 70 + Real.sinh 70 * w.re) ^ 2 := by
    apply pow_lt_pow_left₀ (by linarith) (by positivity) two_ne_zero
  linarith

end

end Nidn
