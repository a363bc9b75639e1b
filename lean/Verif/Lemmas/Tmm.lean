/-
What a successful run of `coh_tmm` (Model/Tmm.lean) has computed.
-/
import Verif.Model.Tmm
import Verif.Spec.Films
import Verif.Props.Materials

namespace Nidn

noncomputable section

lemma nanDiv_ok {a b c : ℂ} : nanDiv a b = .ok c ↔ b ≠ 0 ∧ c = a / b := by
  unfold nanDiv
  split
  · rename_i h; simp [h]
  · rename_i h; simp [h, eq_comm]

lemma nanDivR_ok {a b c : ℝ} : nanDivR a b = .ok c ↔ b ≠ 0 ∧ c = a / b := by
  unfold nanDivR
  split
  · rename_i h; simp [h]
  · rename_i h; simp [h, eq_comm]

lemma assertTrue_ok {p : Prop} [Decidable p] {u : Unit} : assertTrue p = .ok u ↔ p := by
  unfold assertTrue
  split <;> rename_i h <;> simp [h]

lemma pyNth_nat {α : Type} {l : List α} {i : ℕ} {x : α} : pyNth l i = .ok x ↔ l[i]? = some x := by
  unfold pyNth
  have h : ¬ ((i : ℤ) < 0) := by omega
  have h' : ¬ ((i : ℤ) < -(l.length : ℤ)) := by omega
  simp only [h, if_false, Int.toNat_natCast, h']
  cases l[i]? <;> simp

lemma pyNth_zero {α : Type} {l : List α} {x : α} : pyNth l 0 = .ok x ↔ l[0]? = some x := by
  have := pyNth_nat (l := l) (i := 0) (x := x)
  simpa using this

lemma pyNth_last {α : Type} {l : List α} {x : α} : pyNth l (-1) = .ok x ↔ l[l.length - 1]? = some x := by
  unfold pyNth
  rcases Nat.eq_zero_or_pos l.length with h | h
  · have : l = [] := List.length_eq_zero_iff.1 h
    subst this
    simp
  · have e : ((-1 : ℤ) + l.length).toNat = l.length - 1 := by omega
    have h' : ¬ ((-1 : ℤ) < -(l.length : ℤ)) := by omega
    simp only [show (-1 : ℤ) < 0 by omega, if_true, e, h', if_false]
    cases l[l.length - 1]? <;> simp

lemma getD_at {α : Type} {l : List α} {i : ℕ} {x : α} (h : i < l.length) : l.getD i x = l[i] := by simp [List.getD, h]

/-- the two field amplitudes of a unit forward wave: `α (v + w)` and `β (v - w)` are the tangential fields -/
def tmmA (pol : String) (n _th : ℂ) : ℂ := if pol = "s" then 1 else n
def tmmB (pol : String) (n th : ℂ) : ℂ := if pol = "s" then n * Complex.cos th else Complex.cos th

lemma fresnel_alg {A B A' B' : ℂ} (hA : A ≠ 0) (hB : B ≠ 0) {D : ℂ} (hD : D ≠ 0) (e : D = A' * B + A * B') :
    A * (1 + (A' * B - A * B') / D) / (2 * A * B / D) = A' ∧ B * (1 - (A' * B - A * B') / D) / (2 * A * B / D) = B' := by
  have h1 : 1 + (A' * B - A * B') / D = 2 * (A' * B) / D := by rw [eq_div_iff hD, add_mul, one_mul, div_mul_cancel₀ _ hD, e]; ring
  have h2 : 1 - (A' * B - A * B') / D = 2 * (A * B') / D := by rw [eq_div_iff hD, sub_mul, one_mul, div_mul_cancel₀ _ hD, e]; ring
  rw [h1, h2]
  constructor <;> field_simp

lemma fresnel_ok {pol : String} {ni nf thi thf t r : ℂ} (ht : interfaceT pol ni nf thi thf = .ok t) (hr : interfaceR pol ni nf thi thf = .ok r) (h0 : t ≠ 0) (hn : ni ≠ 0) :
    (pol = "s" ∨ pol = "p") ∧ Complex.cos thi ≠ 0 ∧ tmmA pol ni thi * (1 + r) / t = tmmA pol nf thf ∧ tmmB pol ni thi * (1 - r) / t = tmmB pol nf thf := by
  unfold interfaceT at ht
  unfold interfaceR at hr
  by_cases hs : pol = "s"
  · rw [if_pos hs] at ht hr
    rw [nanDiv_ok] at ht hr
    obtain ⟨hd, rfl⟩ := ht
    obtain ⟨-, rfl⟩ := hr
    have hc : Complex.cos thi ≠ 0 := by rintro e; simp [e] at h0
    have := fresnel_alg (A := 1) (B := ni * Complex.cos thi) (A' := 1) (B' := nf * Complex.cos thf) one_ne_zero (mul_ne_zero hn hc) hd (by ring)
    simp only [one_mul, mul_one, ← mul_assoc] at this
    refine ⟨.inl hs, hc, ?_, ?_⟩
    · simp only [tmmA, hs, if_true]
      rw [one_mul]; exact this.1
    · simp only [tmmB, hs, if_true]
      exact this.2
  · rw [if_neg hs] at ht hr
    by_cases hp : pol = "p"
    · rw [if_pos hp] at ht hr
      rw [nanDiv_ok] at ht hr
      obtain ⟨hd, rfl⟩ := ht
      obtain ⟨-, rfl⟩ := hr
      have hc : Complex.cos thi ≠ 0 := by rintro e; simp [e] at h0
      have := fresnel_alg (A := ni) (B := Complex.cos thi) (A' := nf) (B' := Complex.cos thf) hn hc hd rfl
      refine ⟨.inr hp, hc, ?_, ?_⟩
      · simp only [tmmA, hs, if_false]
        exact this.1
      · simp only [tmmB, hs, if_false]
        exact this.2
    · rw [if_neg hp] at ht
      simp at ht

lemma tmmEps_pos : 0 < tmmEps := by unfold tmmEps; positivity

lemma isForward_answer {n θ : ℂ} {b : Bool} (h : isForwardAngle n θ = .ok b) : b = forwardAnswer (n * Complex.cos θ) := by
  unfold isForwardAngle at h
  simp only [bind_ok] at h
  obtain ⟨_, -, h⟩ := h
  by_cases hf : forwardAnswer (n * Complex.cos θ) = true
  · rw [if_pos hf] at h
    simp only [bind_ok, pure, Except.pure, Except.ok.injEq] at h
    obtain ⟨_, _, _, _, _, _, h⟩ := h
    rw [hf, ← h]
  · rw [if_neg hf] at h
    simp only [bind_ok, pure, Except.pure, Except.ok.injEq] at h
    obtain ⟨_, _, _, _, _, _, h⟩ := h
    rw [← h]
    simpa using hf

lemma makeForward_ok {n θ θ' : ℂ} (h : makeForward n θ = .ok θ') : (θ' = θ ∨ θ' = Real.pi - θ) ∧
    (100 * tmmEps < |(n * Complex.cos θ').im| ∧ 0 < (n * Complex.cos θ').im ∨ |(n * Complex.cos θ').im| ≤ 100 * tmmEps ∧ 0 ≤ (n * Complex.cos θ').re) := by
  unfold makeForward at h
  simp only [bind_ok] at h
  obtain ⟨b, hb, h⟩ := h
  have hb' := isForward_answer hb
  cases b with
  | true =>
    simp only [if_true, pure, Except.pure, Except.ok.injEq] at h
    subst h
    refine ⟨.inl rfl, ?_⟩
    unfold forwardAnswer at hb'
    split at hb'
    · rename_i hh; exact .inl ⟨hh, by simpa using hb'.symm⟩
    · rename_i hh; exact .inr ⟨not_lt.1 hh, le_of_lt (by simpa using hb'.symm)⟩
  | false =>
    simp only [Bool.false_eq_true, if_false, pure, Except.pure, Except.ok.injEq] at h
    subst h
    refine ⟨.inr rfl, ?_⟩
    have e : n * Complex.cos (Real.pi - θ) = -(n * Complex.cos θ) := by rw [Complex.cos_pi_sub]; ring
    rw [e, Complex.neg_im, Complex.neg_re, abs_neg]
    unfold forwardAnswer at hb'
    split at hb'
    · rename_i hh
      refine .inl ⟨hh, ?_⟩
      have h1 : (n * Complex.cos θ).im ≤ 0 := by simpa using hb'.symm
      have h2 : (n * Complex.cos θ).im ≠ 0 := by
        intro e; rw [e, abs_zero] at hh
        have := tmmEps_pos; linarith
      rcases lt_or_eq_of_le h1 with h | h
      · linarith
      · exact absurd h h2
    · rename_i hh
      have h1 : (n * Complex.cos θ).re ≤ 0 := by simpa using hb'.symm
      exact .inr ⟨not_lt.1 hh, by linarith⟩

lemma makeForward_sin {n θ θ' : ℂ} (h : makeForward n θ = .ok θ') : Complex.sin θ' = Complex.sin θ := by
  rcases (makeForward_ok h).1 with rfl | rfl
  · rfl
  · exact Complex.sin_pi_sub θ

/-- the rule by which a wave counts as forward; the same wave in the opposite direction never does, except at grazing incidence -/
def TowardsBack (q : ℂ) : Prop := 100 * tmmEps < |q.im| ∧ 0 < q.im ∨ |q.im| ≤ 100 * tmmEps ∧ 0 ≤ q.re

lemma listSnell_ok {asin : ℂ → ℂ} (hasin : ∀ z, Complex.sin (asin z) = z) {n : List ℂ} {th0 : ℂ} {th : List ℂ} (h : listSnell asin n th0 = .ok th) (hl : 2 ≤ n.length) :
    th.length = n.length ∧ (∀ i < n.length, n.getD i 0 ≠ 0 ∧ n.getD i 0 * Complex.sin (th.getD i 0) = n.getD 0 0 * Complex.sin th0) ∧
    TowardsBack (n.getD 0 0 * Complex.cos (th.getD 0 0)) ∧ TowardsBack (n.getD (n.length - 1) 0 * Complex.cos (th.getD (n.length - 1) 0)) := by
  unfold listSnell at h
  simp only [bind_ok, pure, Except.pure, Except.ok.injEq] at h
  obtain ⟨n0, h0, an, han, a0, ha0, fi, hfi, nN, hnN, aN, haN, la, hla, rfl⟩ := h
  obtain ⟨e1, e2⟩ := mapM_ok _ _ _ han
  rw [pyNth_zero] at h0 ha0
  rw [pyNth_last] at hnN haN
  have hlen : (an.set 0 fi).length = n.length := by rw [List.length_set, e1]
  rw [hlen] at haN ⊢
  have g0 : n.getD 0 0 = n0 := by simp [List.getD, h0]
  have gN : n.getD (n.length - 1) 0 = nN := by simp [List.getD, hnN]
  rw [g0]
  have hs : ∀ i (hi : i < n.length), n.getD i 0 ≠ 0 ∧ an.getD i 0 = asin (n0 * Complex.sin th0 / n.getD i 0) := by
    intro i hi
    have := e2 i hi (by omega)
    obtain ⟨z, hz, h⟩ := bind_ok.1 this
    rw [nanDiv_ok] at hz
    rw [Except.ok.injEq] at h
    rw [getD_at hi, getD_at (by omega : i < an.length), ← h, hz.2]
    exact ⟨hz.1, rfl⟩
  have ha0' : an.getD 0 0 = a0 := by simp [List.getD, ha0]
  have haN' : an.getD (n.length - 1) 0 = aN := by
    rw [List.getElem?_set_ne (by omega)] at haN
    simp [List.getD, haN]
  have gth0 : ((an.set 0 fi).set (n.length - 1) la).getD 0 0 = fi := by
    simp only [List.getD]
    rw [List.getElem?_set_ne (by omega), List.getElem?_set_self (by omega)]; rfl
  have gthN : ((an.set 0 fi).set (n.length - 1) la).getD (n.length - 1) 0 = la := by
    simp only [List.getD]
    rw [List.getElem?_set_self (by rw [hlen]; omega)]; rfl
  refine ⟨by rw [List.length_set, hlen], ?_, ?_, ?_⟩
  · intro i hi
    obtain ⟨hz, he⟩ := hs i hi
    refine ⟨hz, ?_⟩
    have key : Complex.sin (((an.set 0 fi).set (n.length - 1) la).getD i 0) = Complex.sin (an.getD i 0) := by
      by_cases hi0 : i = 0
      · subst hi0; rw [gth0, makeForward_sin hfi, ha0']
      · by_cases hiN : i = n.length - 1
        · subst hiN; rw [gthN, makeForward_sin hla, haN']
        · simp only [List.getD]
          rw [List.getElem?_set_ne (by omega), List.getElem?_set_ne (by omega)]
    rw [key, he, hasin]
    field_simp
  · rw [gth0]; exact (makeForward_ok hfi).2
  · rw [gthN, gN]; exact (makeForward_ok hla).2

lemma cos_same {n a b : ℂ} (hs : Complex.sin a = Complex.sin b) (ha : TowardsBack (n * Complex.cos a)) (hb : forwardAnswer (n * Complex.cos b) = true) :
    Complex.cos a = Complex.cos b := by
  have h2 : Complex.cos a ^ 2 = Complex.cos b ^ 2 := by
    linear_combination (Complex.sin_sq_add_cos_sq a) - (Complex.sin_sq_add_cos_sq b) + (- Complex.sin a - Complex.sin b) * hs
  rcases sq_eq_sq_iff_eq_or_eq_neg.1 h2 with h | h
  · exact h
  · exfalso
    rw [h, mul_neg] at ha
    unfold TowardsBack at ha
    rw [Complex.neg_im, Complex.neg_re, abs_neg] at ha
    unfold forwardAnswer at hb
    split at hb
    · rename_i hh
      have hb' : 0 < (n * Complex.cos b).im := by simpa using hb
      rcases ha with ⟨-, h⟩ | ⟨h, -⟩ <;> linarith
    · rename_i hh
      have hb' : 0 < (n * Complex.cos b).re := by simpa using hb
      rcases ha with ⟨h, -⟩ | ⟨-, h⟩
      · exact hh h
      · linarith

/-- amplitudes at the back of an inner layer -/
def atBack (δ : ℂ) (v : Fin 2 → ℂ) : Fin 2 → ℂ := ![v 0 * Complex.exp (Complex.I * δ), v 1 * Complex.exp (-Complex.I * δ)]

/-- continuity of the tangential fields between amplitudes `v` in one medium and `v'` in the next -/
def TmmJoined (pol : String) (n th n' th' : ℂ) (v v' : Fin 2 → ℂ) : Prop :=
  tmmA pol n th * (v 0 + v 1) = tmmA pol n' th' * (v' 0 + v' 1) ∧ tmmB pol n th * (v 0 - v 1) = tmmB pol n' th' * (v' 0 - v' 1)

lemma joined_of {pol : String} {n th n' th' t r : ℂ} (h1 : tmmA pol n th * (1 + r) / t = tmmA pol n' th') (h2 : tmmB pol n th * (1 - r) / t = tmmB pol n' th') (ht : t ≠ 0) (v' : Fin 2 → ℂ) :
    TmmJoined pol n th n' th' ((t⁻¹ • make2x2 1 r r 1).mulVec v') v' := by
  unfold TmmJoined
  rw [← h1, ← h2]
  simp only [make2x2, Matrix.mulVec, Matrix.of_apply, Matrix.smul_apply, Matrix.cons_val', Matrix.cons_val_fin_one, smul_eq_mul, dotProduct, Fin.sum_univ_two, Fin.isValue,
    Matrix.cons_val_zero, Matrix.cons_val_one]
  constructor
  · field_simp; ring
  · field_simp; ring

lemma layerMatrix_ok {δ t r : ℂ} {M : Matrix (Fin 2) (Fin 2) ℂ} (h : layerMatrix δ t r = .ok M) (v : Fin 2 → ℂ) :
    t ≠ 0 ∧ atBack δ (M.mulVec v) = (t⁻¹ • make2x2 1 r r 1).mulVec v := by
  unfold layerMatrix at h
  simp only [bind_ok, nanDiv_ok, pure, Except.pure, Except.ok.injEq] at h
  obtain ⟨u, ⟨ht, rfl⟩, rfl⟩ := h
  refine ⟨ht, ?_⟩
  have e1 : Complex.exp (Complex.I * δ) * Complex.exp (-Complex.I * δ) = 1 := by rw [← Complex.exp_add]; simp
  funext i
  fin_cases i
  · simp [atBack, make2x2, Matrix.mulVec, dotProduct, Fin.sum_univ_two]
    simp only [neg_mul] at e1
    linear_combination (t⁻¹ * (v 0) + t⁻¹ * r * v 1) * e1
  · simp [atBack, make2x2, Matrix.mulVec, dotProduct, Fin.sum_univ_two]
    simp only [neg_mul] at e1
    linear_combination (t⁻¹ * r * (v 0) + t⁻¹ * v 1) * e1

lemma foldl_mulVec (M : List (Matrix (Fin 2) (Fin 2) ℂ)) (A : Matrix (Fin 2) (Fin 2) ℂ) (v : Fin 2 → ℂ) :
    (M.foldl (· * ·) A).mulVec v = A.mulVec (M.foldr (fun m v => m.mulVec v) v) := by
  induction M generalizing A with
  | nil => rfl
  | cons m M ih => rw [List.foldl_cons, ih, List.foldr_cons, Matrix.mulVec_mulVec]

lemma vwAt_step {M : List (Matrix (Fin 2) (Fin 2) ℂ)} {t : ℂ} {i : ℕ} (hi : i < M.length) : vwAt M t (i + 1) = M[i].mulVec (vwAt M t (i + 2)) := by
  unfold vwAt
  simp only [Nat.add_sub_cancel, show i + 2 - 1 = i + 1 by omega]
  rw [List.drop_eq_getElem_cons hi, List.foldr_cons]

lemma vwAt_end (M : List (Matrix (Fin 2) (Fin 2) ℂ)) (t : ℂ) : vwAt M t (M.length + 1) = ![t, 0] := by
  unfold vwAt
  simp

/-- the power that a unit forward wave carries towards the back -/
def tmmP (pol : String) (n th : ℂ) : ℝ := if pol = "s" then (n * Complex.cos th).re else (n * starRingEnd ℂ (Complex.cos th)).re

/-- what is true of the data that `coh_tmm` returns -/
structure TmmRun (pol : String) (n : List ℂ) (d : List (Option ℝ)) (th0 lam : ℂ) (c : TmmData) : Prop where
  pol_ok : pol = "s" ∨ pol = "p"
  two : 2 ≤ n.length
  len_d : d.length = n.length
  d_first : d[0]? = some none
  d_last : d[n.length - 1]? = some none
  keeps : c.pol = pol ∧ c.n = n ∧ c.d = d ∧ c.th0 = th0 ∧ c.lam = lam
  len_th : c.th.length = n.length
  len_kz : c.kz.length = n.length
  len_vw : c.vw.length = n.length
  lam_ne : lam ≠ 0
  kz_at : ∀ i < n.length, c.kz.getD i 0 = 2 * Real.pi * n.getD i 0 * Complex.cos (c.th.getD i 0) / lam
  snell_at : ∀ i < n.length, n.getD i 0 ≠ 0 ∧ n.getD i 0 * Complex.sin (c.th.getD i 0) = n.getD 0 0 * Complex.sin th0
  cos_first : Complex.cos (c.th.getD 0 0) = Complex.cos th0
  fwd_first : isForwardAngle (n.getD 0 0) th0 = .ok true
  fwd_last : TowardsBack (n.getD (n.length - 1) 0 * Complex.cos (c.th.getD (n.length - 1) 0))
  cos_ne : ∀ i < n.length - 1, Complex.cos (c.th.getD i 0) ≠ 0
  join_first : TmmJoined pol (n.getD 0 0) (c.th.getD 0 0) (n.getD 1 0) (c.th.getD 1 0) ![1, c.r] (c.vw.getD 1 0)
  join : ∀ i, 1 ≤ i → i + 1 < n.length → ∃ x, d[i]? = some (some x) ∧ TmmJoined pol (n.getD i 0) (c.th.getD i 0) (n.getD (i + 1) 0) (c.th.getD (i + 1) 0)
    (atBack (clampPhase (c.kz.getD i 0 * x)) (c.vw.getD i 0)) (c.vw.getD (i + 1) 0)
  vw_last : c.vw.getD (n.length - 1) 0 = ![c.t, 0]
  t_ne : c.t ≠ 0
  R_def : c.R = ‖c.r‖ ^ 2
  pow_ne : tmmP pol (n.getD 0 0) th0 ≠ 0
  T_def : c.T = ‖c.t‖ ^ 2 * (tmmP pol (n.getD (n.length - 1) 0) (c.th.getD (n.length - 1) 0) / tmmP pol (n.getD 0 0) th0)
  pe_def : powerEnteringFromR pol c.r (n.getD 0 0) th0 = .ok c.powerEntering
  almost_real : |(n.getD 0 0 * Complex.sin th0).im| < 100 * tmmEps

lemma tFromT_ok {pol : String} {t ni nf thi thf : ℂ} {T : ℝ} (h : tFromT pol t ni nf thi thf = .ok T) :
    tmmP pol ni thi ≠ 0 ∧ T = ‖t‖ ^ 2 * (tmmP pol nf thf / tmmP pol ni thi) := by
  unfold tFromT at h
  by_cases hs : pol = "s"
  · rw [if_pos hs] at h
    simp only [bind_ok, nanDivR_ok, pure, Except.pure, Except.ok.injEq] at h
    obtain ⟨x, ⟨h0, rfl⟩, rfl⟩ := h
    simp only [tmmP, hs, if_true, norm_pow]
    exact ⟨h0, trivial⟩
  · rw [if_neg hs] at h
    by_cases hp : pol = "p"
    · rw [if_pos hp] at h
      simp only [bind_ok, nanDivR_ok, pure, Except.pure, Except.ok.injEq] at h
      obtain ⟨x, ⟨h0, rfl⟩, rfl⟩ := h
      simp only [tmmP, hs, if_false, norm_pow]
      exact ⟨h0, trivial⟩
    · rw [if_neg hp] at h
      cases h

lemma cohTmm_run {asin : ℂ → ℂ} (hasin : ∀ z, Complex.sin (asin z) = z) {pol : String} {n : List ℂ} {d : List (Option ℝ)} {th0 lam : ℂ} {c : TmmData} (h : cohTmm asin pol n d th0 lam = .ok c) :
    TmmRun pol n d th0 lam c := by
  unfold cohTmm at h
  by_cases hlen : n.length ≠ d.length
  · rw [if_pos hlen] at h; cases h
  rw [if_neg hlen] at h
  have hlen' : n.length = d.length := not_not.1 hlen
  simp only [bind_ok, assertTrue_ok, pure, Except.pure, Except.ok.injEq, exists_const] at h
  obtain ⟨d0, hd0, dN, hdN, ⟨rfl, rfl⟩, n0, hn0, him, fwd, hfwd, rfl, th, hth, kz, hkz, ⟨tr, M⟩, htrM, ⟨t0, r0⟩, htr0, u, hu, r, hr, t, ht, nN, hnN, thN, hthN, T, hT, pe, hpe, hc⟩ := h
  rw [pyNth_zero] at hd0 hn0 htr0
  rw [pyNth_last] at hdN hnN hthN
  unfold stackMatrices at htrM
  simp only [bind_ok, pure, Except.pure, Except.ok.injEq, Prod.mk.injEq] at htrM
  obtain ⟨δ, hδ, tr', htr, M', hM, rfl, rfl⟩ := htrM
  dsimp only at htr0 hu hr ht hc
  obtain ⟨lδ, eδ⟩ := mapM_ok _ _ _ hδ
  obtain ⟨ltr, etr⟩ := mapM_ok _ _ _ htr
  obtain ⟨lM, eM⟩ := mapM_ok _ _ _ hM
  simp only [List.length_range, List.getElem_range] at lδ eδ ltr etr lM eM
  have two : 2 ≤ n.length := by
    have : 0 < tr'.length := by
      by_contra hh
      rw [List.getElem?_eq_none (by omega)] at htr0
      cases htr0
    omega
  obtain ⟨lth, hsn, hf0, hfN⟩ := listSnell_ok hasin hth two
  obtain ⟨lkz, ekz⟩ := mapM_ok _ _ _ hkz
  rw [List.length_zip, lth, min_self] at lkz
  have g0 : n.getD 0 0 = n0 := by simp [List.getD, hn0]
  have gN : n.getD (n.length - 1) 0 = nN := by simp [List.getD, hnN]
  rw [lth] at hthN
  have gthN : th.getD (n.length - 1) 0 = thN := by simp [List.getD, hthN]
  obtain ⟨t0ne, hu⟩ := nanDiv_ok.1 hu
  obtain ⟨mt0, hr⟩ := nanDiv_ok.1 hr
  obtain ⟨-, ht⟩ := nanDiv_ok.1 ht
  obtain ⟨p0, hT⟩ := tFromT_ok hT
  have kzs : ∀ i < n.length, lam ≠ 0 ∧ kz.getD i 0 = 2 * Real.pi * n.getD i 0 * Complex.cos (th.getD i 0) / lam := by
    intro i hi
    have := ekz i (by rw [List.length_zip, lth, min_self]; exact hi) (by omega)
    rw [nanDiv_ok] at this
    obtain ⟨h1, h2⟩ := this
    rw [List.getElem_zip] at h2
    exact ⟨h1, by rw [getD_at (by omega), getD_at hi, getD_at (by omega), h2]⟩
  have trs : ∀ i < n.length - 1, interfaceT pol (n.getD i 0) (n.getD (i + 1) 0) (th.getD i 0) (th.getD (i + 1) 0) = .ok (tr'.getD i (0, 0)).1 ∧
      interfaceR pol (n.getD i 0) (n.getD (i + 1) 0) (th.getD i 0) (th.getD (i + 1) 0) = .ok (tr'.getD i (0, 0)).2 := by
    intro i hi
    obtain ⟨a, ha, h⟩ := bind_ok.1 (etr i hi (by omega))
    obtain ⟨b, hb, h⟩ := bind_ok.1 h
    rw [getD_at (by omega : i < tr'.length)]
    simp only [Except.ok.injEq] at h
    rw [← h]
    exact ⟨ha, hb⟩
  have gtr0 : tr'.getD 0 (0, 0) = (t0, r0) := by simp [List.getD, htr0]
  have int0 := trs 0 (by omega)
  rw [gtr0] at int0
  have I0 := fresnel_ok int0.1 int0.2 t0ne (hsn 0 (by omega)).1
  have mats : ∀ i (hi : i < n.length - 2), layerMatrix (δ.getD i 0) (tr'.getD (i + 1) (0, 0)).1 (tr'.getD (i + 1) (0, 0)).2 = .ok (M'[i]'(by omega)) := by
    intro i hi
    exact eM i hi (by omega)
  have vws : ∀ i, 1 ≤ i → i < n.length → c.vw.getD i 0 = vwAt M' t i := by
    intro i h1 h2
    rw [← hc]
    obtain ⟨j, rfl⟩ := Nat.exists_eq_add_of_le' h1
    simp only [List.getD_cons_succ]
    rw [getD_at (by simp; omega)]
    simp
  have ev : (M'.foldl (· * ·) (make2x2 1 0 0 1)).mulVec ![t, 0] = vwAt M' t 1 := by
    rw [foldl_mulVec]
    have : make2x2 1 0 0 1 = 1 := by ext i j; fin_cases i <;> fin_cases j <;> simp [make2x2]
    rw [this, Matrix.one_mulVec]
    rfl
  have e1 : (t0⁻¹ • make2x2 1 r0 r0 1).mulVec (vwAt M' t 1) = ![1, r] := by
    rw [← ev, Matrix.mulVec_mulVec]
    have hu' : u = t0⁻¹ := by rw [hu, one_div]
    rw [hu'] at mt0 hr ht
    generalize (t0⁻¹ • make2x2 1 r0 r0 1) * M'.foldl (· * ·) (make2x2 1 0 0 1) = Q at mt0 hr ht ⊢
    funext i
    rw [Matrix.mulVec, dotProduct, Fin.sum_univ_two]
    fin_cases i
    · simp [ht, mt0]
    · simp [hr, ht]; ring
  constructor
  case pol_ok => exact I0.1
  case two => exact two
  case len_d => exact hlen'.symm
  case d_first => exact hd0
  case d_last => rw [hlen']; exact hdN
  case keeps => rw [← hc]; exact ⟨rfl, rfl, rfl, rfl, rfl⟩
  case len_th => rw [← hc]; exact lth
  case len_kz => rw [← hc]; exact lkz
  case len_vw => rw [← hc]; simp; omega
  case lam_ne => exact (kzs 0 (by omega)).1
  case kz_at => rw [← hc]; exact fun i hi => (kzs i hi).2
  case snell_at => rw [← hc]; exact hsn
  case cos_first =>
    rw [← hc]
    have hs := (hsn 0 (by omega))
    refine cos_same (n := n.getD 0 0) (mul_left_cancel₀ hs.1 hs.2) hf0 ?_
    rw [g0]
    exact (isForward_answer hfwd).symm
  case fwd_first => rw [g0]; exact hfwd
  case fwd_last => rw [← hc]; exact hfN
  case cos_ne =>
    rw [← hc]
    intro i hi
    by_cases hi0 : i = 0
    · subst hi0; exact I0.2.1
    · obtain ⟨j, rfl⟩ := Nat.exists_eq_succ_of_ne_zero hi0
      have := (layerMatrix_ok (mats j (by omega)) 0).1
      exact (fresnel_ok (trs (j + 1) (by omega)).1 (trs (j + 1) (by omega)).2 this (hsn _ (by omega)).1).2.1
  case join_first =>
    rw [vws 1 le_rfl (by omega)]
    have hr' : c.r = r := by rw [← hc]
    have hth' : c.th = th := by rw [← hc]
    rw [hr', hth', ← e1]
    exact joined_of I0.2.2.1 I0.2.2.2 t0ne _
  case join =>
    intro i h1 h2
    obtain ⟨j, rfl⟩ := Nat.exists_eq_add_of_le' h1
    have hd := eδ j (by omega) (by omega)
    have hth' : c.th = th := by rw [← hc]
    have hkz' : c.kz = kz := by rw [← hc]
    rw [hth', hkz', vws _ h1 (by omega), vws _ (by omega) h2]
    have hj : j + 1 < d.length := by omega
    obtain ⟨x, hx⟩ : ∃ x, d[j + 1]? = some (some x) := by
      rw [getD_at hj] at hd
      unfold layerPhase at hd
      split at hd
      · rename_i x hx; exact ⟨x, by rw [List.getElem?_eq_getElem hj, hx]⟩
      · cases hd
    refine ⟨x, hx, ?_⟩
    have hd' : d.getD (j + 1) none = some x := by simp [List.getD, hx]
    rw [hd'] at hd
    have hδ' : δ.getD j 0 = clampPhase (kz.getD (j + 1) 0 * x) := by
      rw [getD_at (by omega : j < δ.length)]
      simp only [layerPhase, Except.ok.injEq] at hd
      exact hd.symm
    have hm := mats j (by omega)
    rw [hδ'] at hm
    obtain ⟨tne, hb⟩ := layerMatrix_ok hm (vwAt M' t (j + 2))
    rw [vwAt_step (by omega : j < M'.length), hb]
    have I := fresnel_ok (trs (j + 1) (by omega)).1 (trs (j + 1) (by omega)).2 tne (hsn _ (by omega)).1
    exact joined_of I.2.2.1 I.2.2.2 tne _
  case vw_last =>
    have ht' : c.t = t := by rw [← hc]
    rw [vws _ (by omega) (by omega), ht', show n.length - 1 = M'.length + 1 by omega, vwAt_end]
  case t_ne =>
    have ht' : c.t = t := by rw [← hc]
    rw [ht', ht]
    exact div_ne_zero one_ne_zero mt0
  case R_def => rw [← hc]; rfl
  case pow_ne => rw [g0]; exact p0
  case T_def => rw [g0, gN, ← hc, gthN]; exact hT
  case pe_def => rw [g0, ← hc]; exact hpe
  case almost_real => rw [g0]; exact him

end

end Nidn
