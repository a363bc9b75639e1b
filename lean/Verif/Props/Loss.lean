/-
C36 (the spectrum loss is a distance), C37 (renormalised points), C38 (the likelihood regulariser), C72 (every frequency is scored).
-/
import Verif.Model.Loss
import Verif.Props.Classification
import Mathlib.Tactic.Ring
import Mathlib.Tactic.Linarith
import Mathlib.Tactic.FieldSimp
import Mathlib.Tactic.NormNum
import Mathlib.Tactic.Positivity

namespace Nidn

/-- The lengths of the five lists agree. -/
def SameLength (n : ℕ) (prodR prodT targetR targetT freqs : List ℝ) : Prop :=
  prodR.length = n ∧ prodT.length = n ∧ targetR.length = n ∧ targetT.length = n ∧ freqs.length = n

/-- A physical spectrum: no frequency reflects and transmits more than it receives. -/
def Physical (prodR prodT : List ℝ) : Prop := ∀ (i : ℕ) (r t : ℝ), prodR[i]? = some r → prodT[i]? = some t → r + t ≤ 1

lemma zipSpectra_get (n : ℕ) : ∀ (R T A B F : List ℝ), SameLength n R T A B F →
    (zipSpectra R T A B F).length = n ∧
    ∀ (i : ℕ) (p : LossPoint), (zipSpectra R T A B F)[i]? = some p ↔
      R[i]? = some p.prodR ∧ T[i]? = some p.prodT ∧ A[i]? = some p.targetR ∧ B[i]? = some p.targetT := by
  induction n with
  | zero =>
    rintro R T A B F ⟨h1, h2, h3, h4, h5⟩
    rw [List.length_eq_zero_iff] at h1 h2 h3 h4 h5
    subst h1 h2 h3 h4 h5
    simp [zipSpectra]
  | succ n ih =>
    rintro R T A B F ⟨h1, h2, h3, h4, h5⟩
    obtain _ | ⟨r, R⟩ := R
    · simp at h1
    obtain _ | ⟨t, T⟩ := T
    · simp at h2
    obtain _ | ⟨a, A⟩ := A
    · simp at h3
    obtain _ | ⟨b, B⟩ := B
    · simp at h4
    obtain _ | ⟨f, F⟩ := F
    · simp at h5
    simp only [List.length_cons, Nat.add_right_cancel_iff] at h1 h2 h3 h4 h5
    obtain ⟨hl, hg⟩ := ih R T A B F ⟨h1, h2, h3, h4, h5⟩
    refine ⟨by simp [zipSpectra, hl], ?_⟩
    rintro (_ | i) ⟨x, y, z, w⟩
    · simp [zipSpectra]
    · simp only [zipSpectra, List.getElem?_cons_succ]
      exact hg i _

/-- The contribution of one point. -/
noncomputable def pointLoss (L : ℝ) (absorb : Bool) (p : LossPoint) : ℝ :=
  |(renormPoint p.prodR p.prodT).1 - p.targetR| ^ L + |(renormPoint p.prodR p.prodT).2.1 - p.targetT| ^ L +
    if absorb then |(1 - (renormPoint p.prodR p.prodT).2.1 - (renormPoint p.prodR p.prodT).1) - (1 - p.targetT - p.targetR)| ^ L else 0

lemma foldl_lossStep (L : ℝ) (b : Bool) (ps : List LossPoint) (acc : LossAcc) :
    (ps.foldl (lossStep L b) acc).R + (ps.foldl (lossStep L b) acc).T + (if b then (ps.foldl (lossStep L b) acc).A else 0) =
      acc.R + acc.T + (if b then acc.A else 0) + (ps.map (pointLoss L b)).sum ∧
    (ps.foldl (lossStep L b) acc).renormalized = (acc.renormalized || ps.any fun p => (renormPoint p.prodR p.prodT).2.2) := by
  induction ps generalizing acc with
  | nil => simp
  | cons p ps ih =>
    obtain ⟨h1, h2⟩ := ih (lossStep L b acc p)
    refine ⟨?_, ?_⟩
    · simp only [List.foldl_cons, List.map_cons, List.sum_cons]
      rw [h1]
      cases b <;> simp [lossStep, pointLoss] <;> ring
    · simp only [List.foldl_cons, List.any_cons]
      rw [h2]
      simp [lossStep, Bool.or_assoc]

lemma spectrumLoss_eq (R T A B F : List ℝ) (L : ℝ) (b : Bool) (h : R.length ≠ 0) :
    spectrumLoss R T A B F L b = .ok (((zipSpectra R T A B F).map (pointLoss L b)).sum / ((if b then 3 else 2) * R.length),
      (zipSpectra R T A B F).any fun p => (renormPoint p.prodR p.prodT).2.2) := by
  obtain ⟨h1, h2⟩ := foldl_lossStep L b (zipSpectra R T A B F) ⟨0, 0, 0, false⟩
  rw [spectrumLoss]
  simp only [h, if_false]
  cases b
  · simp only [Bool.false_eq_true, if_false, Bool.false_or, add_zero, zero_add] at h1 h2 ⊢
    rw [h1, h2]
  · simp only [if_true, Bool.false_or, add_zero, zero_add] at h1 h2 ⊢
    rw [← h1, h2]
    congr 3
    ring

lemma renormPoint_flag (r t : ℝ) : (renormPoint r t).2.2 = true ↔ r + t > 1 := by
  unfold renormPoint; split_ifs with h <;> simp [h]

lemma renormPoint_phys {r t : ℝ} (h : r + t ≤ 1) : renormPoint r t = (r, t, false) := by
  unfold renormPoint; rw [if_neg (not_lt.mpr h)]

lemma pointLoss_nonneg (L : ℝ) (b : Bool) (p : LossPoint) : 0 ≤ pointLoss L b p := by
  unfold pointLoss
  split_ifs <;> positivity

lemma pointLoss_phys (L : ℝ) (b : Bool) (p : LossPoint) (h : p.prodR + p.prodT ≤ 1) :
    pointLoss L b p = |p.prodR - p.targetR| ^ L + |p.prodT - p.targetT| ^ L +
      if b then |(1 - p.prodT - p.prodR) - (1 - p.targetT - p.targetR)| ^ L else 0 := by
  rw [pointLoss, renormPoint_phys h]

lemma abs_rpow_eq_zero {x L : ℝ} (hL : 0 < L) : |x| ^ L = 0 ↔ x = 0 := by
  rw [Real.rpow_eq_zero (abs_nonneg x) hL.ne', abs_eq_zero]

lemma pointLoss_zero (L : ℝ) (hL : 0 < L) (b : Bool) (p : LossPoint) (h : p.prodR + p.prodT ≤ 1) :
    pointLoss L b p = 0 ↔ p.prodR = p.targetR ∧ p.prodT = p.targetT := by
  rw [pointLoss_phys L b p h]
  constructor
  · intro h0
    have h1 : 0 ≤ |p.prodR - p.targetR| ^ L := by positivity
    have h2 : 0 ≤ |p.prodT - p.targetT| ^ L := by positivity
    have h3 : 0 ≤ if b then |(1 - p.prodT - p.prodR) - (1 - p.targetT - p.targetR)| ^ L else 0 := by split_ifs <;> positivity
    have e1 : |p.prodR - p.targetR| ^ L = 0 := by linarith
    have e2 : |p.prodT - p.targetT| ^ L = 0 := by linarith
    rw [abs_rpow_eq_zero hL] at e1 e2
    exact ⟨by linarith, by linarith⟩
  · rintro ⟨e1, e2⟩
    rw [e1, e2]
    have z : (0 : ℝ) ^ L = 0 := Real.zero_rpow hL.ne'
    simp [z]

lemma sum_zero_iff (l : List ℝ) (h : ∀ x ∈ l, 0 ≤ x) : l.sum = 0 ↔ ∀ x ∈ l, x = 0 := by
  induction l with
  | nil => simp
  | cons a l ih =>
    have ha := h a (by simp)
    have hl := List.sum_nonneg fun x hx => h x (List.mem_cons_of_mem a hx)
    have ih := ih fun x hx => h x (List.mem_cons_of_mem a hx)
    simp only [List.sum_cons, List.mem_cons, forall_eq_or_imp]
    constructor
    · intro h0
      exact ⟨by linarith, ih.mp (by linarith)⟩
    · rintro ⟨h1, h2⟩
      rw [h1, ih.mpr h2, add_zero]

/-- C36: on spectra of equal positive length the loss is computed without error, it is never negative, and its flag is raised exactly when some frequency has R + T > 1. -/
theorem C36_nonneg_flag (n : ℕ) (hn : 0 < n) (R T A B F : List ℝ) (h : SameLength n R T A B F) (L : ℝ) (absorb : Bool) :
    ∃ loss flag, spectrumLoss R T A B F L absorb = .ok (loss, flag) ∧ 0 ≤ loss ∧
      (flag = true ↔ ∃ (i : ℕ) (r t : ℝ), R[i]? = some r ∧ T[i]? = some t ∧ r + t > 1) := by
  obtain ⟨hl, hg⟩ := zipSpectra_get n R T A B F h
  refine ⟨_, _, spectrumLoss_eq R T A B F L absorb (by have := h.1; omega), ?_, ?_⟩
  · apply div_nonneg
    · apply List.sum_nonneg
      intro x hx
      obtain ⟨p, -, rfl⟩ := List.mem_map.mp hx
      exact pointLoss_nonneg _ _ _
    · split_ifs <;> positivity
  · rw [List.any_eq_true]
    constructor
    · rintro ⟨p, hp, hflag⟩
      obtain ⟨i, hi⟩ := List.getElem?_of_mem hp
      obtain ⟨h1, h2, -, -⟩ := (hg i p).mp hi
      exact ⟨i, _, _, h1, h2, (renormPoint_flag _ _).mp hflag⟩
    · rintro ⟨i, r, t, h1, h2, h3⟩
      have hi : i < n := by
        have := (List.getElem?_eq_some_iff.mp h1).1
        have := h.1
        omega
      obtain ⟨hA, hB⟩ : i < A.length ∧ i < B.length := by
        obtain ⟨-, -, e1, e2, -⟩ := h; omega
      refine ⟨⟨r, t, A[i], B[i]⟩, List.mem_of_getElem? ((hg i _).mpr ⟨h1, h2, ?_, ?_⟩), (renormPoint_flag _ _).mpr h3⟩
      · exact List.getElem?_eq_getElem hA
      · exact List.getElem?_eq_getElem hB

/-- C36: for physical spectra and every exponent L > 0 the loss is zero exactly when the produced spectra are the targets. -/
theorem C36_zero (n : ℕ) (hn : 0 < n) (R T A B F : List ℝ) (h : SameLength n R T A B F) (hphys : Physical R T) (L : ℝ) (hL : 0 < L) (absorb : Bool) :
    spectrumLoss R T A B F L absorb = .ok (0, false) ↔ R = A ∧ T = B := by
  obtain ⟨hl, hg⟩ := zipSpectra_get n R T A B F h
  have hlen : R.length ≠ 0 := by have := h.1; omega
  have hposlen : (0 : ℝ) < R.length := by exact_mod_cast Nat.pos_of_ne_zero hlen
  have hphys' : ∀ p ∈ zipSpectra R T A B F, p.prodR + p.prodT ≤ 1 := by
    intro p hp
    obtain ⟨i, hi⟩ := List.getElem?_of_mem hp
    obtain ⟨h1, h2, -, -⟩ := (hg i p).mp hi
    exact hphys i _ _ h1 h2
  have hflag : ((zipSpectra R T A B F).any fun p => (renormPoint p.prodR p.prodT).2.2) = false := by
    rw [List.any_eq_false]
    intro p hp
    rw [renormPoint_phys (hphys' p hp)]
    simp
  have hzero : ((zipSpectra R T A B F).map (pointLoss L absorb)).sum = 0 ↔ ∀ p ∈ zipSpectra R T A B F, p.prodR = p.targetR ∧ p.prodT = p.targetT := by
    rw [sum_zero_iff]
    · simp only [List.forall_mem_map]
      exact forall₂_congr fun p hp => pointLoss_zero L hL absorb p (hphys' p hp)
    · intro x hx
      obtain ⟨p, -, rfl⟩ := List.mem_map.mp hx
      exact pointLoss_nonneg _ _ _
  rw [spectrumLoss_eq R T A B F L absorb hlen, hflag]
  have hc : ((if absorb then 3 else 2 : ℝ) * R.length) ≠ 0 := by split_ifs <;> positivity
  simp only [Except.ok.injEq, Prod.mk.injEq, and_true, div_eq_zero_iff, hc, or_false]
  rw [hzero]
  obtain ⟨e1, e2, e3, e4, e5⟩ := h
  constructor
  · intro hp
    have key : ∀ i, i < n → R[i]? = A[i]? ∧ T[i]? = B[i]? := by
      intro i hi
      have hR : i < R.length := by omega
      have hT : i < T.length := by omega
      have hA : i < A.length := by omega
      have hB : i < B.length := by omega
      have := hp ⟨R[i], T[i], A[i], B[i]⟩ (List.mem_of_getElem? ((hg i _).mpr ⟨List.getElem?_eq_getElem hR, List.getElem?_eq_getElem hT,
        List.getElem?_eq_getElem hA, List.getElem?_eq_getElem hB⟩))
      simp only at this
      simp only [List.getElem?_eq_getElem hR, List.getElem?_eq_getElem hT, List.getElem?_eq_getElem hA, List.getElem?_eq_getElem hB, this.1, this.2, and_self]
    refine ⟨List.ext_getElem? fun i => ?_, List.ext_getElem? fun i => ?_⟩
    · by_cases hi : i < n
      · exact (key i hi).1
      · rw [List.getElem?_eq_none (by omega), List.getElem?_eq_none (by omega)]
    · by_cases hi : i < n
      · exact (key i hi).2
      · rw [List.getElem?_eq_none (by omega), List.getElem?_eq_none (by omega)]
  · rintro ⟨rfl, rfl⟩ p hp
    obtain ⟨i, hi⟩ := List.getElem?_of_mem hp
    obtain ⟨h1, h2, h3, h4⟩ := (hg i p).mp hi
    rw [h1] at h3; rw [h2] at h4
    simp only [Option.some.injEq] at h3 h4
    exact ⟨h3, h4⟩

lemma zipSpectra_swap : ∀ (R T A B F : List ℝ),
    zipSpectra T R B A F = (zipSpectra R T A B F).map fun p => ⟨p.prodT, p.prodR, p.targetT, p.targetR⟩
  | [], T, A, B, F => by cases T <;> simp [zipSpectra]
  | r :: R, [], A, B, F => by simp [zipSpectra]
  | r :: R, t :: T, [], B, F => by cases B <;> simp [zipSpectra]
  | r :: R, t :: T, a :: A, [], F => by simp [zipSpectra]
  | r :: R, t :: T, a :: A, b :: B, [] => by simp [zipSpectra]
  | r :: R, t :: T, a :: A, b :: B, f :: F => by
    simp only [zipSpectra, List.map_cons, List.cons.injEq, true_and]
    exact zipSpectra_swap R T A B F

/-- C36: reflectance and transmittance enter alike: exchanging their roles in produced and target spectra does not change the loss of a physical spectrum. -/
theorem C36_symmetric (n : ℕ) (hn : 0 < n) (R T A B F : List ℝ) (h : SameLength n R T A B F) (hphys : Physical R T) (L : ℝ) (absorb : Bool) :
    spectrumLoss T R B A F L absorb = spectrumLoss R T A B F L absorb := by
  obtain ⟨hl, hg⟩ := zipSpectra_get n R T A B F h
  have hphys' : ∀ p ∈ zipSpectra R T A B F, p.prodR + p.prodT ≤ 1 := by
    intro p hp
    obtain ⟨i, hi⟩ := List.getElem?_of_mem hp
    obtain ⟨h1, h2, -, -⟩ := (hg i p).mp hi
    exact hphys i _ _ h1 h2
  obtain ⟨e1, e2, -⟩ := h
  rw [spectrumLoss_eq R T A B F L absorb (by omega), spectrumLoss_eq T R B A F L absorb (by omega), zipSpectra_swap, e1, e2]
  congr 2
  · congr 2
    rw [List.map_map]
    apply List.map_congr_left
    intro p hp
    have hp := hphys' p hp
    rw [Function.comp_apply, pointLoss_phys _ _ _ hp, pointLoss_phys _ _ _ (by simp only; linarith)]
    cases absorb
    · simp only [Bool.false_eq_true, if_false]; ring
    · simp only [if_true]
      have : 1 - p.prodR - p.prodT - (1 - p.targetR - p.targetT) = 1 - p.prodT - p.prodR - (1 - p.targetT - p.targetR) := by ring
      rw [this]; ring
  · rw [List.any_map, Bool.eq_iff_iff, List.any_eq_true, List.any_eq_true]
    constructor
    · rintro ⟨p, hp, hf⟩
      rw [Function.comp_apply, renormPoint_phys (by have := hphys' p hp; simp only; linarith)] at hf
      simp at hf
    · rintro ⟨p, hp, hf⟩
      rw [renormPoint_phys (hphys' p hp)] at hf
      simp at hf

/-- The value of the loss, spelled out: the mean over all frequencies and over the two (three) quantities of |difference|^L. -/
theorem C36_value (n : ℕ) (hn : 0 < n) (R T A B F : List ℝ) (h : SameLength n R T A B F) (hphys : Physical R T) (L : ℝ) :
    spectrumLoss R T A B F L false = .ok ((∑ i ∈ Finset.range n, (|R.getD i 0 - A.getD i 0| ^ L + |T.getD i 0 - B.getD i 0| ^ L)) / (2 * n), false) ∧
    spectrumLoss R T A B F L true = .ok ((∑ i ∈ Finset.range n, (|R.getD i 0 - A.getD i 0| ^ L + |T.getD i 0 - B.getD i 0| ^ L +
      |(R.getD i 0 + T.getD i 0) - (A.getD i 0 + B.getD i 0)| ^ L)) / (3 * n), false) := by
  obtain ⟨hl, hg⟩ := zipSpectra_get n R T A B F h
  have hphys' : ∀ p ∈ zipSpectra R T A B F, p.prodR + p.prodT ≤ 1 := by
    intro p hp
    obtain ⟨i, hi⟩ := List.getElem?_of_mem hp
    obtain ⟨h1, h2, -, -⟩ := (hg i p).mp hi
    exact hphys i _ _ h1 h2
  have hflag : ((zipSpectra R T A B F).any fun p => (renormPoint p.prodR p.prodT).2.2) = false := by
    rw [List.any_eq_false]
    intro p hp
    rw [renormPoint_phys (hphys' p hp)]
    simp
  have hz : zipSpectra R T A B F = (List.range n).map fun i => ⟨R.getD i 0, T.getD i 0, A.getD i 0, B.getD i 0⟩ := by
    obtain ⟨e1, e2, e3, e4, e5⟩ := h
    apply List.ext_getElem?
    intro i
    by_cases hi : i < n
    · rw [(hg i ⟨R.getD i 0, T.getD i 0, A.getD i 0, B.getD i 0⟩).mpr]
      · simp [hi]
      · have hR : i < R.length := by omega
        have hT : i < T.length := by omega
        have hA : i < A.length := by omega
        have hB : i < B.length := by omega
        simp [hR, hT, hA, hB]
    · rw [List.getElem?_eq_none (by omega), List.getElem?_eq_none (by simp; omega)]
  have key : ∀ b, ((zipSpectra R T A B F).map (pointLoss L b)).sum = ∑ i ∈ Finset.range n, (|R.getD i 0 - A.getD i 0| ^ L + |T.getD i 0 - B.getD i 0| ^ L +
      if b then |(R.getD i 0 + T.getD i 0) - (A.getD i 0 + B.getD i 0)| ^ L else 0) := by
    intro b
    rw [← list_sum_range]
    congr 1
    have h1 : (zipSpectra R T A B F).map (pointLoss L b) = (zipSpectra R T A B F).map fun p =>
        |p.prodR - p.targetR| ^ L + |p.prodT - p.targetT| ^ L + if b then |(p.prodR + p.prodT) - (p.targetR + p.targetT)| ^ L else 0 := by
      apply List.map_congr_left
      intro p hp
      rw [pointLoss_phys _ _ _ (hphys' p hp)]
      congr 1
      split_ifs
      · rw [abs_sub_comm]; congr 2; ring
      · rfl
    rw [h1, hz, List.map_map]
    rfl
  have e := h.1
  rw [spectrumLoss_eq R T A B F L false (by omega), spectrumLoss_eq R T A B F L true (by omega), hflag, key, key, e]
  simp

/-- The empty spectrum is a ZeroDivisionError, whatever the targets. -/
theorem C36_empty (T A B F : List ℝ) (L : ℝ) (absorb : Bool) : spectrumLoss [] T A B F L absorb = .error .zeroDivisionError := by
  simp [spectrumLoss]

/-- a physical two-frequency spectrum -/
example : SameLength 2 [1/2, 1] [1/4, 0] [0, 1] [1, 0] [1, 2] ∧ Physical [1/2, 1] [1/4, 0] := by
  refine ⟨by simp [SameLength], ?_⟩
  rintro (_ | _ | i) r t h1 h2
  · simp at h1 h2; subst h1 h2; norm_num
  · simp at h1 h2; subst h1 h2; norm_num
  · simp at h1

/-! ### C37 -/

/-- C37 is false: for R = T = 1 the renormalised point has R' = 1/2, T' = 2/3; neither do they sum to one nor is their ratio kept. -/
theorem C37_false : ∃ r t : ℝ, 0 ≤ r ∧ 0 ≤ t ∧ r + t > 1 ∧
    (renormPoint r t).1 + (renormPoint r t).2.1 ≠ 1 ∧ (renormPoint r t).1 * t ≠ (renormPoint r t).2.1 * r := by
  refine ⟨1, 1, by norm_num, by norm_num, by norm_num, ?_, ?_⟩ <;> · norm_num [renormPoint]

/-- C37, the part that holds (missing: the values sum to one and keep the ratio): a renormalised point has both values in [0, 1], the reflectance is the
correctly renormalised one, the transmittance is at least the correct one, so the sum is at least one; it is exactly one only if R or T was zero. -/
theorem C37_partial (r t : ℝ) (hr : 0 ≤ r) (ht : 0 ≤ t) (h : r + t > 1) :
    (renormPoint r t).1 = r / (r + t) ∧ t / (r + t) ≤ (renormPoint r t).2.1 ∧ 0 ≤ (renormPoint r t).2.1 ∧ (renormPoint r t).2.1 ≤ 1 ∧
    1 ≤ (renormPoint r t).1 + (renormPoint r t).2.1 ∧ ((renormPoint r t).1 + (renormPoint r t).2.1 = 1 ↔ r = 0 ∨ t = 0) := by
  have hs : 0 < r + t := by linarith
  have hd : 0 < r / (r + t) + t := by
    rcases hr.eq_or_lt with h0 | h0
    · subst h0; simp; linarith
    · positivity
  have hle : r / (r + t) ≤ r := div_le_self hr h.le
  have e : renormPoint r t = (r / (r + t), t / (r / (r + t) + t), true) := by rw [renormPoint, if_pos h]
  rw [e]
  have h2 : t / (r + t) ≤ t / (r / (r + t) + t) := div_le_div_of_nonneg_left ht hd (by linarith)
  have hsum : r / (r + t) + t / (r + t) = 1 := by rw [← add_div, div_self hs.ne']
  refine ⟨rfl, h2, by positivity, ?_, by simp only; linarith, ?_⟩
  · rw [div_le_one hd]
    have : 0 ≤ r / (r + t) := by positivity
    linarith
  · simp only
    constructor
    · intro h1
      by_contra hcon
      push Not at hcon
      have hr' : 0 < r := lt_of_le_of_ne hr (Ne.symm hcon.1)
      have ht' : 0 < t := lt_of_le_of_ne ht (Ne.symm hcon.2)
      have hlt : r / (r + t) < r := div_lt_self hr' h
      have : t / (r + t) < t / (r / (r + t) + t) := div_lt_div_of_pos_left ht' hd (by linarith)
      linarith
    · rintro (h0 | h0)
      · subst h0
        have : t ≠ 0 := by intro h0; subst h0; norm_num at h
        simp [this]
      · subst h0
        have : r ≠ 0 := by intro h0; subst h0; norm_num at h
        simp [this]

example : (0 : ℝ) ≤ 3/4 ∧ (0 : ℝ) ≤ 1/2 ∧ (3/4 + 1/2 : ℝ) > 1 := by norm_num

/-! ### C38 -/

lemma min_pow_bounds {p L : ℝ} (hp : 0 ≤ p) (hp1 : p ≤ 1) (hL : 0 < L) :
    0 ≤ min ((1 - p) ^ L) (p ^ L) ∧ min ((1 - p) ^ L) (p ^ L) ≤ (1 / 2) ^ L ∧ (min ((1 - p) ^ L) (p ^ L) = 0 ↔ p = 0 ∨ p = 1) := by
  have h1 : 0 ≤ 1 - p := by linarith
  refine ⟨le_min (by positivity) (by positivity), ?_, ?_⟩
  · rcases le_total p (1 / 2) with h | h
    · exact (min_le_right _ _).trans (Real.rpow_le_rpow hp h hL.le)
    · exact (min_le_left _ _).trans (Real.rpow_le_rpow h1 (by linarith) hL.le)
  · constructor
    · intro h
      rcases min_choice ((1 - p) ^ L) (p ^ L) with hc | hc
      · rw [hc, Real.rpow_eq_zero h1 hL.ne'] at h
        right; linarith
      · rw [hc, Real.rpow_eq_zero hp hL.ne'] at h
        exact Or.inl h
    · rintro (h | h)
      · subst h
        simp [Real.zero_rpow hL.ne']
      · subst h
        simp [Real.zero_rpow hL.ne']

lemma tmean_ok {l : List ℝ} (h : l ≠ []) : tmean l = .ok (l.sum / l.length) := by
  rw [tmean, if_neg]; simpa using h

lemma mean_bounds (l : List ℝ) (h : l ≠ []) (b : ℝ) (h0 : ∀ x ∈ l, 0 ≤ x ∧ x ≤ b) : 0 ≤ l.sum / l.length ∧ l.sum / l.length ≤ b := by
  have hpos : (0 : ℝ) < l.length := by exact_mod_cast List.length_pos_of_ne_nil h
  refine ⟨div_nonneg (List.sum_nonneg fun x hx => (h0 x hx).1) hpos.le, ?_⟩
  rw [div_le_iff₀ hpos]
  have := List.sum_le_card_nsmul l b fun x hx => (h0 x hx).2
  rw [nsmul_eq_mul] at this
  linarith

lemma mean_zero (l : List ℝ) (h : l ≠ []) (h0 : ∀ x ∈ l, 0 ≤ x) : l.sum / l.length = 0 ↔ ∀ x ∈ l, x = 0 := by
  have hpos : (l.length : ℝ) ≠ 0 := by exact_mod_cast (List.length_pos_of_ne_nil h).ne'
  rw [div_eq_zero_iff, or_iff_left hpos, sum_zero_iff l h0]

/-- C38 (min form): for weights in [0,1] the loss is in [0, (1/2)^L] and zero exactly when all weights are 0 or 1. -/
theorem C38_min (cells : List (List ℝ)) (hne : ∃ c ∈ cells, c ≠ []) (hw : ∀ c ∈ cells, ∀ p ∈ c, 0 ≤ p ∧ p ≤ 1) (L : ℝ) (hL : 0 < L) :
    ∃ loss, likelihoodLoss cells L false = .ok loss ∧ 0 ≤ loss ∧ loss ≤ (1 / 2) ^ L ∧ (loss = 0 ↔ ∀ c ∈ cells, ∀ p ∈ c, p = 0 ∨ p = 1) := by
  have hfl : (cells.flatten.map fun p => min ((1 - p) ^ L) (p ^ L)) ≠ [] := by
    obtain ⟨c, hc, hcne⟩ := hne
    simp only [ne_eq, List.map_eq_nil_iff, List.flatten_eq_nil_iff, not_forall]
    exact ⟨c, hc, hcne⟩
  have hw' : ∀ p ∈ cells.flatten, 0 ≤ p ∧ p ≤ 1 := by
    intro p hp
    obtain ⟨c, hc, hpc⟩ := List.mem_flatten.mp hp
    exact hw c hc p hpc
  have hb : ∀ x ∈ (cells.flatten.map fun p => min ((1 - p) ^ L) (p ^ L)), 0 ≤ x ∧ x ≤ (1 / 2) ^ L := by
    intro x hx
    obtain ⟨p, hp, rfl⟩ := List.mem_map.mp hx
    have := min_pow_bounds (hw' p hp).1 (hw' p hp).2 hL
    exact ⟨this.1, this.2.1⟩
  refine ⟨_, by rw [likelihoodLoss, if_neg (by simp), tmean_ok hfl], (mean_bounds _ hfl _ hb).1, (mean_bounds _ hfl _ hb).2, ?_⟩
  rw [mean_zero _ hfl fun x hx => (hb x hx).1, List.forall_mem_map]
  constructor
  · intro h c hc p hp
    have hm := List.mem_flatten.mpr ⟨c, hc, hp⟩
    exact (min_pow_bounds (hw' p hm).1 (hw' p hm).2 hL).2.2.mp (h p hm)
  · intro h p hp
    obtain ⟨c, hc, hpc⟩ := List.mem_flatten.mp hp
    exact (min_pow_bounds (hw' p hp).1 (hw' p hp).2 hL).2.2.mpr (h c hc p hpc)

/-- C38 (min form): replacing every weight p by 1 - p does not change the loss, for every tensor and exponent. -/
theorem C38_reflect (cells : List (List ℝ)) (L : ℝ) :
    likelihoodLoss (cells.map fun c => c.map fun p => 1 - p) L false = likelihoodLoss cells L false := by
  rw [likelihoodLoss, likelihoodLoss, if_neg (by simp), if_neg (by simp)]
  congr 1
  rw [← List.map_flatten, List.map_map]
  apply List.map_congr_left
  intro p _
  rw [Function.comp_apply, min_comm]
  congr 2
  ring

lemma listMax_mem {l : List ℝ} (h : l ≠ []) : listMax l ∈ l ∧ ∀ w ∈ l, w ≤ listMax l := by
  obtain ⟨m, hm, hmax⟩ : ∃ m ∈ l, ∀ w ∈ l, w ≤ m := by
    have hne : l.toFinset.Nonempty := by
      obtain ⟨x, hx⟩ := List.exists_mem_of_ne_nil l h
      exact ⟨x, by simpa using hx⟩
    refine ⟨l.toFinset.max' hne, by simpa using l.toFinset.max'_mem hne, fun w hw => l.toFinset.le_max' w (by simpa using hw)⟩
  rw [listMax_eq l m hm hmax]
  exact ⟨hm, hmax⟩

/-- C38 (max form): for weights at most one the loss is non-negative, and zero exactly when every cell has a weight equal to one. -/
theorem C38_max (cells : List (List ℝ)) (hne : cells ≠ []) (hcell : ∀ c ∈ cells, c ≠ []) (hw : ∀ c ∈ cells, ∀ p ∈ c, p ≤ 1) (L : ℝ) :
    ∃ loss, likelihoodLoss cells L true = .ok loss ∧ 0 ≤ loss ∧ (loss = 0 ↔ ∀ c ∈ cells, (1 : ℝ) ∈ c) := by
  have hany : (cells.any fun c => c.isEmpty) = false := by
    rw [List.any_eq_false]
    intro c hc
    simpa using hcell c hc
  have hfl : (cells.map fun c => 1 - listMax c) ≠ [] := by simpa using hne
  have hb : ∀ x ∈ (cells.map fun c => 1 - listMax c), 0 ≤ x := by
    intro x hx
    obtain ⟨c, hc, rfl⟩ := List.mem_map.mp hx
    have := hw c hc _ (listMax_mem (hcell c hc)).1
    linarith
  refine ⟨_, by rw [likelihoodLoss, if_pos rfl, hany, if_neg (by simp), tmean_ok hfl],
    div_nonneg (List.sum_nonneg hb) (by positivity), ?_⟩
  rw [mean_zero _ hfl hb, List.forall_mem_map]
  apply forall₂_congr
  intro c hc
  obtain ⟨h1, h2⟩ := listMax_mem (hcell c hc)
  constructor
  · intro h
    have : listMax c = 1 := by linarith
    rwa [this] at h1
  · intro h
    have := h2 1 h
    have := hw c hc _ h1
    linarith

example : (∃ c ∈ [[(1/4 : ℝ), 3/4], [1, 0]], c ≠ []) ∧ ∀ c ∈ [[(1/4 : ℝ), 3/4], [1, 0]], ∀ p ∈ c, 0 ≤ p ∧ p ≤ 1 := by
  refine ⟨⟨[1/4, 3/4], by simp, by simp⟩, ?_⟩
  intro c hc p hp
  simp at hc
  rcases hc with rfl | rfl <;> simp at hp <;> rcases hp with rfl | rfl <;> norm_num

/-! ### C72 -/

/-- C72 is false: with a target list shorter than the spectrum (the validator does not compare the lengths) the remaining frequencies are ignored: the
spectrum below misses the target completely at the second frequency (which has no target), yet the loss is zero. Any second value gives the same loss. -/
theorem C72_false : ∀ (r t L : ℝ), 0 < L → r + t ≤ 1 → spectrumLoss [1, r] [0, t] [1] [0] [1, 2] L false = .ok (0, false) := by
  intro r t L hL h
  rw [spectrumLoss_eq _ _ _ _ _ _ _ (by simp)]
  simp [zipSpectra, pointLoss, renormPoint, Real.zero_rpow hL.ne']

/-- C72, the part that holds (missing: lists of different lengths): when all lists have the same length, two physical spectra that differ at any
frequency cannot both have loss zero; each frequency whose reflectance or transmittance misses its target makes the loss positive. -/
theorem C72_partial (n : ℕ) (hn : 0 < n) (R T A B F : List ℝ) (h : SameLength n R T A B F) (hphys : Physical R T) (L : ℝ) (hL : 0 < L) (absorb : Bool)
    (i : ℕ) (hi : R[i]? ≠ A[i]? ∨ T[i]? ≠ B[i]?) : ∃ loss, spectrumLoss R T A B F L absorb = .ok (loss, false) ∧ 0 < loss := by
  obtain ⟨loss, flag, hok, h0, hf⟩ := C36_nonneg_flag n hn R T A B F h L absorb
  have hflag : flag = false := by
    rw [← Bool.not_eq_true]
    intro hc
    obtain ⟨j, r, t, h1, h2, h3⟩ := hf.mp hc
    have := hphys j r t h1 h2
    linarith
  subst hflag
  refine ⟨loss, hok, lt_of_le_of_ne h0 fun h1 => ?_⟩
  rw [← h1] at hok
  obtain ⟨e1, e2⟩ := (C36_zero n hn R T A B F h hphys L hL absorb).mp hok
  subst e1 e2
  simp at hi

example : ([1/2, 1] : List ℝ)[0]? ≠ ([0, 1] : List ℝ)[0]? := by norm_num

end Nidn
