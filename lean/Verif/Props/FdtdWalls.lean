/-
C47 for grids that end at walls on some axes and are periodic on others, in any number of dimensions.
-/
import Verif.Props.FdtdTorusEnergy

set_option linter.unusedSectionVars false

namespace Nidn

namespace Torus

/-- wrapped axes have at least two planes -/
def Lattice.Sane (L : Lattice) : Prop := ∀ a, L.wraps a = true → 2 ≤ L.n a

/-- number of axes with more than one plane: the `D` of the Courant limit -/
def Lattice.extent (L : Lattice) : ℕ := (Finset.univ.filter fun a => 2 ≤ L.n a).card

/-- An electric field that vanishes where a grid ends: the components along the wall in the first plane, the component into the wall in the last plane. -/
def DarkE {K : Type} [Zero K] (L : Lattice) (e : VField K) : Prop := ∀ a, L.wraps a = false → L.n a ≠ 1 → ∀ p ∈ box L.cells,
  (p a = 0 → ∀ c, c ≠ a → e p c = 0) ∧ (p a + 1 = L.n a → e p a = 0)

/-- A magnetic field that vanishes where a grid ends: the component into the wall in the first plane, the components along the wall in the last plane. -/
def DarkH {K : Type} [Zero K] (L : Lattice) (h : VField K) : Prop := ∀ a, L.wraps a = false → L.n a ≠ 1 → ∀ p ∈ box L.cells,
  (p a = 0 → h p a = 0) ∧ (p a + 1 = L.n a → ∀ c, c ≠ a → h p c = 0)

section
variable {K : Type} [Field K]

lemma next_wall {L : Lattice} {a : Fin 3} (ha : L.wraps a = false) (p : Pos) : L.next p a = p.up a := by
  unfold Lattice.next Pos.up
  rw [if_neg (by rw [ha]; simp)]

lemma prev_wall {L : Lattice} {a : Fin 3} (ha : L.wraps a = false) (p : Pos) : L.prev p a = p.dn a := by
  unfold Lattice.prev Pos.dn
  rw [if_neg (by rw [ha]; simp)]

lemma cells_wall {L : Lattice} {a : Fin 3} (ha : L.wraps a = false) : L.cells a = L.n a := by
  unfold Lattice.cells
  rw [if_neg (by rw [ha]; simp)]

lemma fwd_wall {L : Lattice} {a : Fin 3} (ha : L.wraps a = false) (F : VField K) (c : Fin 3) (p : Pos) :
    fwd L F a c p = if p a + 1 < L.cells a then F (p.up a) c - F p c else 0 := by
  unfold fwd Lattice.hasNext
  rw [next_wall ha, cells_wall ha]
  by_cases h : p a + 1 < L.n a
  · rw [if_pos (Or.inr h), if_pos h]
  · rw [if_neg (by rw [ha]; simpa using h), if_neg h]

lemma bwd_wall {L : Lattice} {a : Fin 3} (ha : L.wraps a = false) (F : VField K) (c : Fin 3) (p : Pos) :
    bwd L F a c p = if 1 ≤ p a then F p c - F (p.dn a) c else 0 := by
  unfold bwd Lattice.hasPrev
  rw [prev_wall ha]
  by_cases h : 1 ≤ p a
  · rw [if_pos (Or.inr h), if_pos h]
  · rw [if_neg (by rw [ha]; simpa using h), if_neg h]

/-- summation by parts without boundary terms: on every axis that ends, the product vanishes in the first and in the last plane -/
lemma fwd_adjoint_dark {L : Lattice} (a : Fin 3) (F G : VField K) (c d : Fin 3)
    (hz : L.wraps a = false → L.n a ≠ 1 → ∀ p ∈ box L.cells, (p a = 0 ∨ p a + 1 = L.n a) → F p c * G p d = 0) :
    ∑ p ∈ box L.cells, fwd L F a c p * G p d = -∑ p ∈ box L.cells, F p c * bwd L G a d p := by
  cases ha : L.wraps a with
  | true =>
    have h := sum_next (L := L) ha (fun p => F p c) (fun p => G p d)
    rw [← Finset.sum_neg_distrib]
    simp only [fwd_wraps ha, bwd_wraps ha]
    have e1 : ∑ p ∈ box L.cells, (F (L.next p a) c - F p c) * G p d
        = ∑ p ∈ box L.cells, F (L.next p a) c * G p d - ∑ p ∈ box L.cells, F p c * G p d := by
      rw [← Finset.sum_sub_distrib]; exact Finset.sum_congr rfl fun p _ => by ring
    have e2 : ∑ p ∈ box L.cells, -(F p c * (G p d - G (L.prev p a) d))
        = ∑ p ∈ box L.cells, F p c * G (L.prev p a) d - ∑ p ∈ box L.cells, F p c * G p d := by
      rw [← Finset.sum_sub_distrib]; exact Finset.sum_congr rfl fun p _ => by ring
    rw [e1, e2, h]
  | false =>
    have h := sum_by_parts L.cells a (fun p => F p c) (fun p => G p d)
    simp only [fwd_wall ha, bwd_wall ha]
    rw [Finset.sum_congr rfl fun p _ => mul_comm _ (G p d), h]
    have edge : ∑ p ∈ box L.cells, (if p a + 1 = L.cells a then F p c * G p d else 0)
        = ∑ p ∈ box L.cells, (if p a = 0 then F p c * G p d else 0) := by
      refine Finset.sum_congr rfl fun p hp => ?_
      have hb := mem_box.mp hp a
      rw [cells_wall ha] at hb ⊢
      by_cases h1 : L.n a = 1
      · rw [if_pos (by omega), if_pos (by omega)]
      · have := hz ha h1 p hp
        split_ifs with u v v
        · rfl
        · exact this (Or.inr u)
        · exact (this (Or.inl v)).symm
        · rfl
    rw [edge]; ring

/-- the two curls are adjoint for fields that are dark at the walls -/
theorem curl_adjoint_dark {L : Lattice} {e h : VField K} (he : DarkE L e) (hh : DarkH L h) :
    ∑ p ∈ box L.cells, ∑ c, h p c * curlFwd L e p c = ∑ p ∈ box L.cells, ∑ c, e p c * curlBwd L h p c := by
  have key : ∀ a c d, c ≠ a → d ≠ a → ∑ p ∈ box L.cells, h p d * fwd L e a c p = -∑ p ∈ box L.cells, e p c * bwd L h a d p := by
    intro a c d hc hd
    rw [← fwd_adjoint_dark a e h c d fun ha h1 p hp hpa => by
      rcases hpa with hpa | hpa
      · rw [(he a ha h1 p hp).1 hpa c hc, zero_mul]
      · rw [(hh a ha h1 p hp).2 hpa d hd, mul_zero]]
    exact Finset.sum_congr rfl fun p _ => mul_comm _ _
  rw [Finset.sum_comm, Finset.sum_comm (s := box L.cells)]
  have i1 : (1 : Fin 3) + 1 = 2 := rfl
  have i2 : (1 : Fin 3) + 2 = 0 := rfl
  have i3 : (2 : Fin 3) + 1 = 0 := rfl
  have i4 : (2 : Fin 3) + 2 = 1 := rfl
  simp only [curlFwd, curlBwd, Fin.sum_univ_three, mul_sub, Finset.sum_sub_distrib, i1, i2, i3, i4, zero_add]
  rw [key 1 2 0 (by decide) (by decide), key 2 1 0 (by decide) (by decide), key 2 0 1 (by decide) (by decide),
    key 0 2 1 (by decide) (by decide), key 0 1 2 (by decide) (by decide), key 1 0 2 (by decide) (by decide)]
  ring

lemma DarkE.add {L : Lattice} {e f : VField K} (he : DarkE L e) (hf : DarkE L f) : DarkE L (fun p c => e p c + f p c) := by
  intro a ha h1 p hp
  refine ⟨fun h0 c hc => ?_, fun h0 => ?_⟩
  · show e p c + f p c = 0
    rw [(he a ha h1 p hp).1 h0 c hc, (hf a ha h1 p hp).1 h0 c hc, add_zero]
  · show e p a + f p a = 0
    rw [(he a ha h1 p hp).2 h0, (hf a ha h1 p hp).2 h0, add_zero]

/-- neighbours on another axis lie in the same plane -/
lemma prev_other {L : Lattice} {a b : Fin 3} (h : b ≠ a) (p : Pos) : L.prev p a b = p b := by
  unfold Lattice.prev; rw [Function.update_of_ne h]

lemma next_other {L : Lattice} {a b : Fin 3} (h : b ≠ a) (p : Pos) : L.next p a b = p b := by
  unfold Lattice.next; rw [Function.update_of_ne h]

lemma prev_in {L : Lattice} {a : Fin 3} {p : Pos} (hp : p ∈ box L.cells) : L.prev p a ∈ box L.cells := by
  cases ha : L.wraps a with
  | true => exact prev_mem hp ha
  | false => rw [prev_wall ha]; exact dn_mem_box hp

lemma next_in {L : Lattice} {a : Fin 3} {p : Pos} (hp : p ∈ box L.cells) (hn : L.hasNext p a) : L.next p a ∈ box L.cells := by
  cases ha : L.wraps a with
  | true => exact next_mem hp ha
  | false =>
    rw [next_wall ha]
    refine up_mem_box hp ?_
    rw [cells_wall ha]
    rcases hn with h | h
    · rw [ha] at h; cases h
    · exact h

/-- a difference along another axis of a component that vanishes in a plane vanishes there -/
lemma bwd_zero {L : Lattice} {F : VField K} {a b c : Fin 3} {i : ℕ} (hab : a ≠ b) (hz : ∀ p ∈ box L.cells, p a = i → F p c = 0) {p : Pos}
    (hp : p ∈ box L.cells) (hi : p a = i) : bwd L F b c p = 0 := by
  unfold bwd
  rw [hz p hp hi, hz _ (prev_in hp) (by rw [prev_other hab]; exact hi), sub_zero]
  exact ite_self _

lemma fwd_zero {L : Lattice} {F : VField K} {a b c : Fin 3} {i : ℕ} (hab : a ≠ b) (hz : ∀ p ∈ box L.cells, p a = i → F p c = 0) {p : Pos}
    (hp : p ∈ box L.cells) (hi : p a = i) : fwd L F b c p = 0 := by
  unfold fwd
  split_ifs with h
  · rw [hz p hp hi, hz _ (next_in hp h) (by rw [next_other hab]; exact hi), sub_zero]
  · rfl

lemma bwd_first {L : Lattice} {a : Fin 3} (ha : L.wraps a = false) (F : VField K) (c : Fin 3) {p : Pos} (h0 : p a = 0) : bwd L F a c p = 0 := by
  rw [bwd_wall ha, if_neg (by omega)]

lemma fwd_last {L : Lattice} {a : Fin 3} (ha : L.wraps a = false) (F : VField K) (c : Fin 3) {p : Pos} (h0 : p a + 1 = L.n a) : fwd L F a c p = 0 := by
  rw [fwd_wall ha, if_neg (by rw [cells_wall ha]; omega)]

lemma two_others (a c : Fin 3) (h : c ≠ a) : (c + 1 = a ∧ c + 2 ≠ a) ∨ (c + 2 = a ∧ c + 1 ≠ a) := by
  revert a c; decide

lemma ne_shift (a : Fin 3) : a ≠ a + 1 ∧ a ≠ a + 2 ∧ a + 1 ≠ a + 2 := by
  revert a; decide

/-- the curl of a dark magnetic field is dark in the electric sense -/
lemma curlBwd_dark {L : Lattice} {h : VField K} (hh : DarkH L h) : DarkE L (curlBwd L h) := by
  intro a ha h1 p hp
  refine ⟨fun h0 c hc => ?_, fun h0 => ?_⟩
  · have hz : ∀ p ∈ box L.cells, p a = 0 → h p a = 0 := fun q hq hq0 => (hh a ha h1 q hq).1 hq0
    unfold curlBwd
    rcases two_others a c hc with ⟨u, v⟩ | ⟨u, v⟩
    · rw [u, bwd_first ha h _ h0, bwd_zero (Ne.symm v) hz hp h0, sub_zero]
    · rw [u, bwd_first ha h _ h0, bwd_zero (Ne.symm v) hz hp h0, sub_zero]
  · have hi : p a = L.n a - 1 := by omega
    have hz : ∀ d, d ≠ a → ∀ p ∈ box L.cells, p a = L.n a - 1 → h p d = 0 := fun d hd q hq hq0 => by
      have hn : 0 < L.n a := by omega
      exact (hh a ha h1 q hq).2 (by omega) d hd
    unfold curlBwd
    obtain ⟨n1, n2, -⟩ := ne_shift a
    rw [bwd_zero n1 (hz _ n2.symm) hp hi, bwd_zero n2 (hz _ n1.symm) hp hi, sub_zero]

/-- the curl of a dark electric field is dark in the magnetic sense -/
lemma curlFwd_dark {L : Lattice} {e : VField K} (he : DarkE L e) : DarkH L (curlFwd L e) := by
  intro a ha h1 p hp
  refine ⟨fun h0 => ?_, fun h0 c hc => ?_⟩
  · have hz : ∀ d, d ≠ a → ∀ p ∈ box L.cells, p a = 0 → e p d = 0 := fun d hd q hq hq0 => (he a ha h1 q hq).1 hq0 d hd
    unfold curlFwd
    obtain ⟨n1, n2, -⟩ := ne_shift a
    rw [fwd_zero n1 (hz _ n2.symm) hp h0, fwd_zero n2 (hz _ n1.symm) hp h0, sub_zero]
  · have hi : p a = L.n a - 1 := by omega
    have hz : ∀ p ∈ box L.cells, p a = L.n a - 1 → e p a = 0 := fun q hq hq0 => by
      have hn : 0 < L.n a := by omega
      exact (he a ha h1 q hq).2 (by omega)
    unfold curlFwd
    rcases two_others a c hc with ⟨u, v⟩ | ⟨u, v⟩
    · rw [u, fwd_last ha e _ h0, fwd_zero (Ne.symm v) hz hp hi, sub_zero]
    · rw [u, fwd_last ha e _ h0, fwd_zero (Ne.symm v) hz hp hi, sub_zero]

/-- walls stay dark in a step whose drive is dark -/
lemma stepE_dark {L : Lattice} {M : Medium K} {t : ℕ} {e h : VField K} (hd : DarkE L (M.drive t)) (he : DarkE L e) (hh : DarkH L h) :
    DarkE L (stepE L M t e h) := by
  have hc := curlBwd_dark hh
  intro a ha h1 p hp
  refine ⟨fun h0 c hca => ?_, fun h0 => ?_⟩
  · unfold stepE
    rw [(he a ha h1 p hp).1 h0 c hca, (hc a ha h1 p hp).1 h0 c hca, (hd a ha h1 p hp).1 h0 c hca]; simp
  · unfold stepE
    rw [(he a ha h1 p hp).2 h0, (hc a ha h1 p hp).2 h0, (hd a ha h1 p hp).2 h0]; simp

lemma stepH_dark {L : Lattice} {M : Medium K} {e h : VField K} (he : DarkE L e) (hh : DarkH L h) : DarkH L (stepH L M e h) := by
  have hc := curlFwd_dark he
  intro a ha h1 p hp
  refine ⟨fun h0 => ?_, fun h0 c hca => ?_⟩
  · unfold stepH
    rw [(hh a ha h1 p hp).1 h0, (hc a ha h1 p hp).1 h0]; simp
  · unfold stepH
    rw [(hh a ha h1 p hp).2 h0 c hca, (hc a ha h1 p hp).2 h0 c hca]; simp

lemma run_dark {L : Lattice} {M : Medium K} (hd : ∀ t, DarkE L (M.drive t)) (t0 : ℕ) {e h : VField K} (he : DarkE L e) (hh : DarkH L h) (k : ℕ) :
    DarkE L (run L M t0 e h k).1 ∧ DarkH L (run L M t0 e h k).2 := by
  induction k with
  | zero => exact ⟨he, hh⟩
  | succ k ih => exact ⟨stepE_dark (hd _) ih.1 ih.2, stepH_dark (stepE_dark (hd _) ih.1 ih.2) ih.2⟩

/-- energy balance between dark walls -/
lemma energy_step_dark {L : Lattice} (M : Medium K) (hd : ∀ t p c, M.drive t p c = 0)
    (he : ∀ p ∈ box L.cells, ∀ c, M.invEps p c ≠ 0) (hm : ∀ p ∈ box L.cells, ∀ c, M.invMu p c ≠ 0)
    (hl : ∀ p ∈ box L.cells, ∀ c, 1 + M.loss p c ≠ 0)
    (t : ℕ) (e1 e2 h0 h1 h2 : VField K) (E2 : e2 = stepE L M t e1 h1) (H1 : h1 = stepH L M e1 h0) (H2 : h2 = stepH L M e2 h1)
    (d1 : DarkE L e1) (d2 : DarkE L e2) (dh : DarkH L h1) :
    energy L M e2 h1 h2 = energy L M e1 h0 h1 - ohmicLoss L.cells M.invEps M.loss e1 e2 := by
  have adj := curl_adjoint_dark (d2.add d1) dh
  have eE : ∀ p ∈ box L.cells, ∀ c, e2 p c ^ 2 / M.invEps p c = e1 p c ^ 2 / M.invEps p c
      - M.loss p c / M.invEps p c * (e2 p c + e1 p c) ^ 2
      + M.courant * ((e2 p c + e1 p c) * curlBwd L h1 p c) := by
    intro p hp c
    have h1' := he p hp c
    have h3 := hl p hp c
    have h4 : (1 + M.loss p c) * e2 p c = (1 - M.loss p c) * e1 p c + M.courant * M.invEps p c * curlBwd L h1 p c := by
      rw [E2]
      simp only [stepE, hd, add_zero]
      field_simp
    field_simp
    linear_combination (e2 p c + e1 p c) * h4
  have eH : ∀ p ∈ box L.cells, ∀ c, h1 p c * h2 p c / M.invMu p c = h0 p c * h1 p c / M.invMu p c
      - M.courant * (h1 p c * curlFwd L (fun p c => e2 p c + e1 p c) p c) := by
    intro p hp c
    have h1' := hm p hp c
    have t1 : h1 p c = h0 p c - M.courant * M.invMu p c * curlFwd L e1 p c := by rw [H1]; rfl
    have t2 : h2 p c = h1 p c - M.courant * M.invMu p c * curlFwd L e2 p c := by rw [H2]; rfl
    rw [curlFwd_add]
    field_simp
    linear_combination h1 p c * t2 + h1 p c * t1
  have lhs : energy L M e2 h1 h2 = energy L M e1 h0 h1 - ohmicLoss L.cells M.invEps M.loss e1 e2
      + M.courant * (∑ p ∈ box L.cells, ∑ c, (e2 p c + e1 p c) * curlBwd L h1 p c
      - ∑ p ∈ box L.cells, ∑ c, h1 p c * curlFwd L (fun p c => e2 p c + e1 p c) p c) := by
    unfold energy leapEnergy ohmicLoss
    rw [← Finset.sum_sub_distrib, ← Finset.sum_sub_distrib, Finset.mul_sum, ← Finset.sum_add_distrib]
    refine Finset.sum_congr rfl fun p hp => ?_
    rw [← Finset.sum_sub_distrib, ← Finset.sum_sub_distrib, Finset.mul_sum, ← Finset.sum_add_distrib]
    refine Finset.sum_congr rfl fun c _ => ?_
    rw [eE p hp, eH p hp]; ring
  rw [lhs, adj]; ring

end

section
variable {K : Type} [Field K] [LinearOrder K] [IsStrictOrderedRing K]

lemma fwd_short {L : Lattice} (hL : L.Sane) {a : Fin 3} (ha : ¬ 2 ≤ L.n a) (F : VField K) (c : Fin 3) (p : Pos) : fwd L F a c p = 0 := by
  have hw : L.wraps a = false := by
    cases h : L.wraps a with
    | true => exact absurd (hL a h) ha
    | false => rfl
  rw [fwd_wall hw, if_neg (by rw [cells_wall hw]; omega)]

lemma bwd_short {L : Lattice} (hL : L.Sane) {a : Fin 3} (ha : ¬ 2 ≤ L.n a) (F : VField K) (c : Fin 3) {p : Pos} (hp : p ∈ box L.cells) : bwd L F a c p = 0 := by
  have hw : L.wraps a = false := by
    cases h : L.wraps a with
    | true => exact absurd (hL a h) ha
    | false => rfl
  have := mem_box.mp hp a
  rw [cells_wall hw] at this
  rw [bwd_wall hw, if_neg (by omega)]

lemma sum_fwd_sq_any {L : Lattice} (hL : L.Sane) (F : VField K) (a c : Fin 3) :
    ∑ p ∈ box L.cells, fwd L F a c p ^ 2 ≤ (if 2 ≤ L.n a then 4 else 0) * ∑ p ∈ box L.cells, F p c ^ 2 := by
  by_cases h2 : 2 ≤ L.n a
  swap
  · rw [if_neg h2, Finset.sum_eq_zero fun p _ => by rw [fwd_short hL h2]; ring]; simp
  rw [if_pos h2]
  cases ha : L.wraps a with
  | true =>
    have h := sum_next (L := L) ha (fun p => F p c ^ 2) (fun _ => 1)
    simp only [mul_one] at h
    have e1 : ∑ p ∈ box L.cells, fwd L F a c p ^ 2 ≤ ∑ p ∈ box L.cells, (2 * F (L.next p a) c ^ 2 + 2 * F p c ^ 2) := by
      refine Finset.sum_le_sum fun p _ => ?_
      rw [fwd_wraps ha]
      nlinarith [sq_nonneg (F (L.next p a) c + F p c)]
    rw [Finset.sum_add_distrib, ← Finset.mul_sum, ← Finset.mul_sum, h] at e1
    linarith
  | false =>
    have h := sum_shift L.cells a (fun _ q => F q c ^ 2)
    have e1 : ∑ p ∈ box L.cells, fwd L F a c p ^ 2
        ≤ ∑ p ∈ box L.cells, (2 * (if p a + 1 < L.cells a then F (p.up a) c ^ 2 else 0) + 2 * F p c ^ 2) := by
      refine Finset.sum_le_sum fun p _ => ?_
      rw [fwd_wall ha]
      split_ifs
      · nlinarith [sq_nonneg (F (p.up a) c + F p c)]
      · nlinarith [sq_nonneg (F p c)]
    have e2 : ∑ p ∈ box L.cells, (if 1 ≤ p a then F p c ^ 2 else 0) ≤ ∑ p ∈ box L.cells, F p c ^ 2 := by
      refine Finset.sum_le_sum fun p _ => ?_
      split_ifs
      · exact le_refl _
      · exact sq_nonneg _
    rw [Finset.sum_add_distrib, ← Finset.mul_sum, ← Finset.mul_sum, h] at e1
    linarith

lemma sum_bwd_sq_any {L : Lattice} (hL : L.Sane) (F : VField K) (a c : Fin 3) :
    ∑ p ∈ box L.cells, bwd L F a c p ^ 2 ≤ (if 2 ≤ L.n a then 4 else 0) * ∑ p ∈ box L.cells, F p c ^ 2 := by
  by_cases h2 : 2 ≤ L.n a
  swap
  · rw [if_neg h2, Finset.sum_eq_zero fun p hp => by rw [bwd_short hL h2 _ _ hp]; ring]; simp
  rw [if_pos h2]
  cases ha : L.wraps a with
  | true =>
    have h := sum_next (L := L) ha (fun _ => 1) (fun p => F p c ^ 2)
    simp only [one_mul] at h
    have e1 : ∑ p ∈ box L.cells, bwd L F a c p ^ 2 ≤ ∑ p ∈ box L.cells, (2 * F (L.prev p a) c ^ 2 + 2 * F p c ^ 2) := by
      refine Finset.sum_le_sum fun p _ => ?_
      rw [bwd_wraps ha]
      nlinarith [sq_nonneg (F (L.prev p a) c + F p c)]
    rw [Finset.sum_add_distrib, ← Finset.mul_sum, ← Finset.mul_sum, ← h] at e1
    linarith
  | false =>
    have h := sum_shift L.cells a (fun q _ => F q c ^ 2)
    have e1 : ∑ p ∈ box L.cells, bwd L F a c p ^ 2
        ≤ ∑ p ∈ box L.cells, (2 * (if 1 ≤ p a then F (p.dn a) c ^ 2 else 0) + 2 * F p c ^ 2) := by
      refine Finset.sum_le_sum fun p _ => ?_
      rw [bwd_wall ha]
      split_ifs
      · nlinarith [sq_nonneg (F (p.dn a) c + F p c)]
      · nlinarith [sq_nonneg (F p c)]
    have e2 : ∑ p ∈ box L.cells, (if p a + 1 < L.cells a then F p c ^ 2 else 0) ≤ ∑ p ∈ box L.cells, F p c ^ 2 := by
      refine Finset.sum_le_sum fun p _ => ?_
      split_ifs
      · exact le_refl _
      · exact sq_nonneg _
    rw [Finset.sum_add_distrib, ← Finset.mul_sum, ← Finset.mul_sum, ← h] at e1
    linarith

lemma hasNext_prev {L : Lattice} {a b : Fin 3} (hab : a ≠ b) (p : Pos) : L.hasNext (L.prev p a) b ↔ L.hasNext p b := by
  unfold Lattice.hasNext; rw [prev_other hab.symm]

lemma hasPrev_next {L : Lattice} {a b : Fin 3} (hab : a ≠ b) (p : Pos) : L.hasPrev (L.next p b) a ↔ L.hasPrev p a := by
  unfold Lattice.hasPrev; rw [next_other hab]

/-- differences along different axes commute -/
lemma bwd_fwd_comm {L : Lattice} (F : VField K) {a b : Fin 3} (hab : a ≠ b) (d : Fin 3) (p : Pos) :
    bwd L (fun p _ => fwd L F b d p) a (0 : Fin 3) p = fwd L (fun p _ => bwd L F a d p) b (0 : Fin 3) p := by
  have u := hasNext_prev (L := L) hab p
  have v := hasPrev_next (L := L) hab p
  unfold bwd fwd
  beta_reduce
  rw [next_prev_comm L p hab.symm]
  split_ifs <;> first | tauto | ring1

/-- mixed products of forward differences equal mixed products of backward differences, for a field that is dark at the walls -/
lemma mixed_dark {L : Lattice} {F : VField K} (hF : DarkE L F) {a b : Fin 3} (hab : a ≠ b) :
    ∑ p ∈ box L.cells, fwd L F a b p * fwd L F b a p = ∑ p ∈ box L.cells, bwd L F b b p * bwd L F a a p := by
  have h1 := fwd_adjoint_dark (L := L) a F (fun p _ => fwd L F b a p) b 0 fun ha hn p hp hpa => by
    rcases hpa with hpa | hpa
    · rw [(hF a ha hn p hp).1 hpa b hab.symm, zero_mul]
    · have hz : ∀ q ∈ box L.cells, q a = L.n a - 1 → F q a = 0 := fun q hq hqa => (hF a ha hn q hq).2 (by omega)
      rw [fwd_zero hab hz hp (by omega), mul_zero]
  have h2 := fwd_adjoint_dark (L := L) b (fun p _ => bwd L F a a p) F 0 b fun hb hn p hp hpb => by
    rcases hpb with hpb | hpb
    · have hz : ∀ q ∈ box L.cells, q b = 0 → F q a = 0 := fun q hq hqb => (hF b hb hn q hq).1 hqb a hab
      rw [bwd_zero hab.symm hz hp hpb, zero_mul]
    · rw [(hF b hb hn p hp).2 hpb, mul_zero]
  rw [h1]
  simp only [bwd_fwd_comm F hab]
  have e : ∑ p ∈ box L.cells, F p b * fwd L (fun p _ => bwd L F a a p) b (0 : Fin 3) p
      = ∑ p ∈ box L.cells, fwd L (fun p _ => bwd L F a a p) b (0 : Fin 3) p * F p b := Finset.sum_congr rfl fun _ _ => mul_comm _ _
  rw [e, h2, neg_neg]
  exact Finset.sum_congr rfl fun _ _ => mul_comm _ _

/-- the curl of a field that is dark at the walls has squared norm at most 4 D times that of the field -/
theorem curl_bound_dark {L : Lattice} (hL : L.Sane) {F : VField K} (hF : DarkE L F) :
    fieldSq L.cells (curlFwd L F) ≤ 4 * L.extent * fieldSq L.cells F := by
  have ex : fieldSq L.cells (curlFwd L F) =
      (∑ p ∈ box L.cells, fwd L F 1 2 p ^ 2 + ∑ p ∈ box L.cells, fwd L F 2 1 p ^ 2 + ∑ p ∈ box L.cells, fwd L F 2 0 p ^ 2
      + ∑ p ∈ box L.cells, fwd L F 0 2 p ^ 2 + ∑ p ∈ box L.cells, fwd L F 0 1 p ^ 2 + ∑ p ∈ box L.cells, fwd L F 1 0 p ^ 2)
      - 2 * (∑ p ∈ box L.cells, fwd L F 1 2 p * fwd L F 2 1 p + ∑ p ∈ box L.cells, fwd L F 2 0 p * fwd L F 0 2 p
      + ∑ p ∈ box L.cells, fwd L F 0 1 p * fwd L F 1 0 p) := by
    unfold fieldSq
    simp only [mul_add, Finset.mul_sum, ← Finset.sum_add_distrib, ← Finset.sum_sub_distrib]
    refine Finset.sum_congr rfl fun p _ => ?_
    rw [Fin.sum_univ_three]
    show (fwd L F 1 2 p - fwd L F 2 1 p) ^ 2 + (fwd L F 2 0 p - fwd L F 0 2 p) ^ 2 + (fwd L F 0 1 p - fwd L F 1 0 p) ^ 2 = _
    ring
  rw [mixed_dark hF (show (1 : Fin 3) ≠ 2 by decide), mixed_dark hF (show (2 : Fin 3) ≠ 0 by decide),
    mixed_dark hF (show (0 : Fin 3) ≠ 1 by decide)] at ex
  have div0 : 0 ≤ ∑ p ∈ box L.cells, (bwd L F 0 0 p + bwd L F 1 1 p + bwd L F 2 2 p) ^ 2 := Finset.sum_nonneg fun _ _ => sq_nonneg _
  have dv : ∑ p ∈ box L.cells, (bwd L F 0 0 p + bwd L F 1 1 p + bwd L F 2 2 p) ^ 2
      = ∑ p ∈ box L.cells, bwd L F 0 0 p ^ 2 + ∑ p ∈ box L.cells, bwd L F 1 1 p ^ 2 + ∑ p ∈ box L.cells, bwd L F 2 2 p ^ 2
      + 2 * (∑ p ∈ box L.cells, bwd L F 2 2 p * bwd L F 1 1 p + ∑ p ∈ box L.cells, bwd L F 0 0 p * bwd L F 2 2 p
      + ∑ p ∈ box L.cells, bwd L F 1 1 p * bwd L F 0 0 p) := by
    simp only [mul_add, Finset.mul_sum, ← Finset.sum_add_distrib]
    exact Finset.sum_congr rfl fun p _ => by ring
  have hdim : (4 * L.extent : K) = (if 2 ≤ L.n 0 then 4 else 0) + (if 2 ≤ L.n 1 then 4 else 0) + (if 2 ≤ L.n 2 then 4 else 0) := by
    have : L.extent = (if 2 ≤ L.n 0 then 1 else 0) + (if 2 ≤ L.n 1 then 1 else 0) + (if 2 ≤ L.n 2 then 1 else 0) := by
      rw [Lattice.extent, Finset.card_filter, Fin.sum_univ_three]
    rw [this]
    split_ifs <;> push_cast <;> ring
  rw [hdim, fieldSq_eq (n := L.cells) (F := F), Fin.sum_univ_three]
  have b00 := sum_bwd_sq_any hL F 0 0
  have b11 := sum_bwd_sq_any hL F 1 1
  have b22 := sum_bwd_sq_any hL F 2 2
  have f12 := sum_fwd_sq_any hL F 1 2
  have f21 := sum_fwd_sq_any hL F 2 1
  have f20 := sum_fwd_sq_any hL F 2 0
  have f02 := sum_fwd_sq_any hL F 0 2
  have f01 := sum_fwd_sq_any hL F 0 1
  have f10 := sum_fwd_sq_any hL F 1 0
  rw [ex]
  linarith

end

end Torus

section
variable {K : Type} [Field K]

/-- periodic boundaries on the axes `as` and nothing else: on every other axis the grid just ends -/
def PeriodicOn (g : FGrid K) (as : List (Fin 3)) : Prop :=
  g.boundaries = as.map FBoundary.periodic ∧ ∀ a ∈ as, 2 ≤ g.n a

/-- Where the grid just ends (an axis without periodic boundary and with more than one plane) the fields vanish in the border planes: in the first plane the electric components along it and the
magnetic component across it, in the last plane the magnetic components along it and the electric component across it. -/
def WallsDark (g : FGrid K) (as : List (Fin 3)) : Prop := ∀ a, a ∉ as → g.n a ≠ 1 → ∀ p ∈ box g.n,
  (p a = 0 → g.H p a = 0 ∧ ∀ c, c ≠ a → g.E p c = 0) ∧ (p a + 1 = g.n a → g.E p a = 0 ∧ ∀ c, c ≠ a → g.H p c = 0)

lemma once_any {g : FGrid K} {as : List (Fin 3)} {p : Pos} (hp : p ∈ box (onceCells g as)) :
    p ∈ box g.n ∧ (torusOf g.n as).wrap p = p := by
  have key : ∀ b, p b < g.n b ∧ (b ∈ as → p b < g.n b - 1) := by
    intro b
    have h1 := mem_box.mp hp b
    simp only [onceCells, Torus.Lattice.cells, torusOf, decide_eq_true_eq] at h1
    by_cases hb : b ∈ as
    · rw [if_pos hb] at h1; exact ⟨by omega, fun _ => h1⟩
    · rw [if_neg hb] at h1; exact ⟨h1, fun hh => absurd hh hb⟩
  refine ⟨mem_box.mpr fun b => (key b).1, ?_⟩
  funext b
  rw [wrap_apply]
  split_ifs with hb
  · exact Nat.mod_eq_of_lt ((key b).2 hb)
  · rfl

lemma PeriodicOn.sane {g : FGrid K} {as : List (Fin 3)} (h : PeriodicOn g as) : (torusOf g.n as).Sane := fun a ha => h.2 a (by simpa [torusOf] using ha)

lemma WallsDark.torus {g : FGrid K} {as : List (Fin 3)} (h : WallsDark g as) : Torus.DarkE (torusOf g.n as) g.E ∧ Torus.DarkH (torusOf g.n as) g.H := by
  constructor
  · intro a ha h1 p hp
    have := h a (by simpa [torusOf] using ha) h1 p (once_any (g := g) (as := as) hp).1
    exact ⟨fun h0 c hc => (this.1 h0).2 c hc, fun h0 => (this.2 h0).1⟩
  · intro a ha h1 p hp
    have := h a (by simpa [torusOf] using ha) h1 p (once_any (g := g) (as := as) hp).1
    exact ⟨fun h0 => (this.1 h0).1, fun h0 c hc => (this.2 h0).2 c hc⟩

variable (g : FGrid K) (as : List (Fin 3))

lemma periodicEnergy_any (hp : PeriodicOn g as) (hs : g.sources = []) (hA : PlanesAgree g as) (k : ℕ) :
    periodicEnergy (g.run k) as = Torus.energy (torusOf g.n as) (mediumOf g as) (torusRun g as (k + 1)).1 (torusRun g as k).2
      (torusRun g as (k + 1)).2 := by
  have hsoft : AllSoft g.sources := by rw [hs]; intro s hs; cases hs
  have hd : DriveWraps g as := by intro t p c _; rw [hs]; rfl
  have r0 := C48_torus g as hp.1 hp.2 hsoft hd g.E g.H hA k
  have r1 := C48_torus g as hp.1 hp.2 hsoft hd g.E g.H hA (k + 1)
  unfold periodicEnergy Torus.energy leapEnergy
  have hc : onceCells (g.run k) as = onceCells g as := by unfold onceCells; rw [run_n]
  rw [hc]
  refine Finset.sum_congr rfl fun p hpp => Finset.sum_congr rfl fun c _ => ?_
  obtain ⟨hin, hw⟩ := once_any hpp
  have a0 := r0 p (by rw [run_n]; exact hin) c
  have a1 := r1 p (by rw [run_n]; exact hin) c
  rw [run_n, hw] at a0 a1
  change ((g.run k).step.E p c = _) ∧ ((g.run k).step.H p c = _) at a1
  rw [a0.2, a1.1, a1.2, run_invEps, run_invMu, run_n]
  rfl

lemma torusRun_dark (hs : g.sources = []) (hW : WallsDark g as) (k : ℕ) :
    Torus.DarkE (torusOf g.n as) (torusRun g as k).1 ∧ Torus.DarkH (torusOf g.n as) (torusRun g as k).2 :=
  Torus.run_dark (fun t a _ _ p _ => ⟨fun _ c _ => by simp [mediumOf, totalDrive, hs], fun _ => by simp [mediumOf, totalDrive, hs]⟩) _ hW.torus.1 hW.torus.2 k

lemma torusRun_energy_any (hs : g.sources = []) (hW : WallsDark g as) (hr : Regular g) (k : ℕ) :
    Torus.energy (torusOf g.n as) (mediumOf g as) (torusRun g as (k + 2)).1 (torusRun g as (k + 1)).2 (torusRun g as (k + 2)).2
      = Torus.energy (torusOf g.n as) (mediumOf g as) (torusRun g as (k + 1)).1 (torusRun g as k).2 (torusRun g as (k + 1)).2
      - ohmicLoss (onceCells g as) (mediumOf g as).invEps (mediumOf g as).loss (torusRun g as (k + 1)).1 (torusRun g as (k + 2)).1 :=
  Torus.energy_step_dark (mediumOf g as) (fun t p c => by simp [mediumOf, totalDrive, hs])
    (fun p _ c => hr.eps _ c) (fun p _ c => hr.mu p c) (fun p _ c => hr.abs _ c) (g.time + (k + 1)) _ _ _ _ _ rfl rfl rfl
    (torusRun_dark g as hs hW (k + 1)).1 (torusRun_dark g as hs hW (k + 2)).1 (torusRun_dark g as hs hW (k + 1)).2

/-- the fields of a run are those of the run of the wrapped lattice, cell by cell; the walls of the grid are dark if those of the lattice are -/
lemma wallsDark_of_torus {g : FGrid K} {as : List (Fin 3)} (hn : ∀ a ∈ as, 2 ≤ g.n a) {e h : VField K} (hR : Represents g as e h)
    (he : Torus.DarkE (torusOf g.n as) e) (hh : Torus.DarkH (torusOf g.n as) h) : WallsDark g as := by
  intro a ha h1 p hp
  have hw : (torusOf g.n as).wraps a = false := by simpa [torusOf] using ha
  have hin : (torusOf g.n as).wrap p ∈ box (torusOf g.n as).cells := by
    rw [mem_box]
    intro b
    have hb := mem_box.mp hp b
    rw [wrap_apply]
    by_cases hbas : b ∈ as
    · have := hn b hbas
      simp only [Torus.Lattice.cells, torusOf, hbas, decide_true, if_true]
      exact Nat.mod_lt _ (by omega)
    · simpa only [Torus.Lattice.cells, torusOf, hbas, decide_false, if_false, Bool.false_eq_true] using hb
  have hpa : (torusOf g.n as).wrap p a = p a := by rw [wrap_apply, if_neg ha]
  refine ⟨fun h0 => ⟨?_, fun c hc => ?_⟩, fun h0 => ⟨?_, fun c hc => ?_⟩⟩
  · rw [(hR p hp a).2]; exact (hh a hw h1 _ hin).1 (by rw [hpa]; exact h0)
  · rw [(hR p hp c).1]; exact (he a hw h1 _ hin).1 (by rw [hpa]; exact h0) c hc
  · rw [(hR p hp a).1]; exact (he a hw h1 _ hin).2 (by rw [hpa]; exact h0)
  · rw [(hR p hp c).2]; exact (hh a hw h1 _ hin).2 (by rw [hpa]; exact h0) c hc

/-- the sources leave the border planes alone (in the sense of `WallsDark`) -/
def DriveDark (g : FGrid K) (as : List (Fin 3)) : Prop := ∀ a, a ∉ as → g.n a ≠ 1 → ∀ t, ∀ p ∈ box g.n,
  (p a = 0 → ∀ c, c ≠ a → totalDrive g.sources t p c = 0) ∧ (p a + 1 = g.n a → totalDrive g.sources t p a = 0)

/-- C47, where the hypothesis of the next theorems comes from: a grid with dark walls (a fresh one for example) keeps its walls dark for ever, whatever point and line sources inside the grid do. -/
theorem C47_walls_stay_dark (hp : PeriodicOn g as) (hs : AllSoft g.sources) (hd : DriveWraps g as) (hdd : DriveDark g as)
    (hA : PlanesAgree g as) (hW : WallsDark g as) (k : ℕ) : WallsDark (g.run k) as := by
  have hr := C48_torus g as hp.1 hp.2 hs hd g.E g.H hA k
  have hdark := Torus.run_dark (L := torusOf g.n as) (M := mediumOf g as) (fun t a ha h1 p hpp => by
    have := hdd a (by simpa [torusOf] using ha) h1 t p (once_any (g := g) (as := as) hpp).1
    exact ⟨fun h0 c hc => this.1 h0 c hc, fun h0 => this.2 h0⟩) g.time hW.torus.1 hW.torus.2 k
  have hn : (g.run k).n = g.n := run_n g k
  refine wallsDark_of_torus (by rw [hn]; exact hp.2) hr ?_ ?_
  · rw [hn]; exact hdark.1
  · rw [hn]; exact hdark.2

/-- C47, conservation on grids of one, two or three dimensions that are periodic on some axes and just end on the others: any inhomogeneous materials, no conductivity, no sources. -/
theorem C47_walls (hp : PeriodicOn g as) (hs : g.sources = []) (hA : PlanesAgree g as) (hW : WallsDark g as) (hr : Regular g)
    (ha : ∀ p c, g.absorb p c = 0) (k : ℕ) : periodicEnergy (g.run k) as = periodicEnergy g as := by
  induction k with
  | zero => rfl
  | succ k ih =>
    rw [← ih, periodicEnergy_any g as hp hs hA, periodicEnergy_any g as hp hs hA, torusRun_energy_any g as hs hW hr k]
    simp [ohmicLoss, mediumOf, ha]

end

section
variable {K : Type} [Field K] [LinearOrder K] [IsStrictOrderedRing K]

/-- C47, stability on such grids: with `D` axes of more than one plane and `c² D < 1` (true of the Courant number the grid constructor chooses), relative permittivity and permeability at least 1 and
non-negative conductivity, all fields stay bounded by the initial energy for ever. -/
theorem C47_walls_bounded (g : FGrid K) (as : List (Fin 3)) (hp : PeriodicOn g as) (hs : g.sources = []) (hA : PlanesAgree g as) (hW : WallsDark g as)
    (hv : DenserThanVacuum g) (ha : ∀ p c, 0 ≤ g.absorb p c) (hc : g.courant ^ 2 * ((Finset.univ.filter fun a => 2 ≤ g.n a).card : K) < 1) (k : ℕ) :
    (1 - g.courant ^ 2 * ((Finset.univ.filter fun a => 2 ≤ g.n a).card : K)) * fieldSq (onceCells g as) (g.run (k + 1)).E ≤ periodicEnergy g as ∧
    (1 - g.courant ^ 2 * ((Finset.univ.filter fun a => 2 ≤ g.n a).card : K)) * fieldSq (onceCells g as) (g.run (k + 1)).H ≤ 2 * periodicEnergy g as := by
  change g.courant ^ 2 * ((torusOf g.n as).extent : K) < 1 at hc
  show (1 - g.courant ^ 2 * ((torusOf g.n as).extent : K)) * _ ≤ _ ∧ (1 - g.courant ^ 2 * ((torusOf g.n as).extent : K)) * _ ≤ _
  have hr : Regular g := ⟨fun p c => (hv.1 p c).1.ne', fun p c => (hv.2 p c).1.ne', fun p c => by have := ha p c; positivity⟩
  have mono : periodicEnergy (g.run k) as ≤ periodicEnergy g as := by
    induction k with
    | zero => exact le_refl _
    | succ k ih =>
      refine le_trans ?_ ih
      rw [periodicEnergy_any g as hp hs hA, periodicEnergy_any g as hp hs hA, torusRun_energy_any g as hs hW hr k]
      have : 0 ≤ ohmicLoss (onceCells g as) (mediumOf g as).invEps (mediumOf g as).loss (torusRun g as (k + 1)).1 (torusRun g as (k + 2)).1 := by
        refine Finset.sum_nonneg fun p _ => Finset.sum_nonneg fun c _ => ?_
        have h1 : 0 < (mediumOf g as).invEps p c := (hv.1 _ c).1
        have h2 : 0 ≤ (mediumOf g as).loss p c := ha _ c
        positivity
      linarith
  have hsoft : AllSoft g.sources := by rw [hs]; intro s hs; cases hs
  have hd : DriveWraps g as := by intro t p c _; rw [hs]; rfl
  have r1 := C48_torus g as hp.1 hp.2 hsoft hd g.E g.H hA (k + 1)
  have ctl := energy_controls (onceCells g as) (mediumOf g as).invEps (mediumOf g as).invMu (torusRun g as (k + 1)).1 (torusRun g as k).2
    (torusRun g as (k + 1)).2 g.courant (torusOf g.n as).extent (Torus.curlFwd (torusOf g.n as) (torusRun g as (k + 1)).1)
    (fun p _ c => rfl) (Torus.curl_bound_dark hp.sane (torusRun_dark g as hs hW (k + 1)).1) hc (Nat.cast_nonneg _) (fun p _ c => hv.1 _ c) (fun p _ c => hv.2 p c)
  have e : leapEnergy (onceCells g as) (mediumOf g as).invEps (mediumOf g as).invMu (torusRun g as (k + 1)).1 (torusRun g as k).2
      (torusRun g as (k + 1)).2 = periodicEnergy (g.run k) as := (periodicEnergy_any g as hp hs hA k).symm
  have fE : fieldSq (onceCells g as) (g.run (k + 1)).E = fieldSq (onceCells g as) (torusRun g as (k + 1)).1 := by
    refine Finset.sum_congr rfl fun p hpp => Finset.sum_congr rfl fun c _ => ?_
    obtain ⟨hin, hw⟩ := once_any hpp
    have a1 := r1 p (by rw [run_n]; exact hin) c
    rw [run_n, hw] at a1
    rw [a1.1]; rfl
  have fH : fieldSq (onceCells g as) (g.run (k + 1)).H = fieldSq (onceCells g as) (torusRun g as (k + 1)).2 := by
    refine Finset.sum_congr rfl fun p hpp => Finset.sum_congr rfl fun c _ => ?_
    obtain ⟨hin, hw⟩ := once_any hpp
    have a1 := r1 p (by rw [run_n]; exact hin) c
    rw [run_n, hw] at a1
    rw [a1.2]; rfl
  rw [e] at ctl
  rw [fE, fH]
  exact ⟨ctl.1.trans mono, ctl.2.trans (by linarith)⟩

/-- a 4 x 3 x 4 grid that ends in x and z and is periodic in y, with a dielectric and an initial pulse, Courant number 1/2 < 1/sqrt 3 -/
example : ∃ g : FGrid ℚ, PeriodicOn g [1] ∧ g.sources = [] ∧ PlanesAgree g [1] ∧ WallsDark g [1] ∧ DenserThanVacuum g ∧ (∀ p c, g.absorb p c = 0) ∧
    g.courant ^ 2 * ((Finset.univ.filter fun a => 2 ≤ g.n a).card : ℚ) < 1 ∧ periodicEnergy g [1] ≠ 0 := by
  refine ⟨{ FGrid.fresh ![4, 3, 4] (1 / 2) 1 1 with
    boundaries := [1].map FBoundary.periodic
    invEps := fun p _ => if p 0 < 2 then 1 else 1 / 4
    E := fun p c => if p 0 = 1 ∧ p 1 = 1 ∧ p 2 = 1 ∧ c = 2 then 1 else 0 }, ⟨rfl, ?_⟩, rfl, ?_, ?_, ⟨?_, ?_⟩, fun _ _ => rfl, ?_, ?_⟩
  · intro a ha
    simp only [List.mem_singleton] at ha
    subst ha; simp [FGrid.fresh]
  · intro p hp c
    have h1 : p 1 < 3 := mem_box.mp hp 1
    have e0 : (torusOf ![4, 3, 4] [1]).wrap p 0 = p 0 := by simp [wrap_apply]
    have e1 : (torusOf ![4, 3, 4] [1]).wrap p 1 = p 1 % 2 := by simp [wrap_apply]
    have e2 : (torusOf ![4, 3, 4] [1]).wrap p 2 = p 2 := by simp [wrap_apply]
    have i1 : (p 1 % 2 = 1) = (p 1 = 1) := by rw [eq_iff_iff]; omega
    refine ⟨?_, rfl⟩
    simp only [FGrid.fresh, e0, e1, e2, i1]
  · intro a ha h1 p hp
    have e : ∀ q : Pos, ∀ c, (q 0 ≠ 1 ∨ q 2 ≠ 1) → (if q 0 = 1 ∧ q 1 = 1 ∧ q 2 = 1 ∧ c = (2 : Fin 3) then (1 : ℚ) else 0) = 0 := by
      intro q c hq
      rw [if_neg]
      rintro ⟨u, -, v, -⟩
      rcases hq with hq | hq
      · exact hq u
      · exact hq v
    fin_cases a
    · refine ⟨fun h0 => ⟨rfl, fun c _ => e p c (Or.inl ?_)⟩, fun h0 => ⟨e p 0 (Or.inl ?_), fun _ _ => rfl⟩⟩
      · change p 0 = 0 at h0; omega
      · change p 0 + 1 = 4 at h0; omega
    · exact absurd List.mem_cons_self ha
    · refine ⟨fun h0 => ⟨rfl, fun c _ => e p c (Or.inr ?_)⟩, fun h0 => ⟨e p 2 (Or.inr ?_), fun _ _ => rfl⟩⟩
      · change p 2 = 0 at h0; omega
      · change p 2 + 1 = 4 at h0; omega
  · intro p c
    show 0 < (if p 0 < 2 then (1 : ℚ) else 1 / 4) ∧ (if p 0 < 2 then (1 : ℚ) else 1 / 4) ≤ 1
    split_ifs <;> norm_num
  · intro p c; show 0 < (1 / 1 : ℚ) ∧ (1 / 1 : ℚ) ≤ 1; norm_num
  · have : (Finset.univ.filter fun a => 2 ≤ (![4, 3, 4] : Pos) a).card = 3 := by decide +kernel
    show (1 / 2 : ℚ) ^ 2 * (((Finset.univ.filter fun a => 2 ≤ (![4, 3, 4] : Pos) a).card : ℕ) : ℚ) < 1
    rw [this]; norm_num
  · decide +kernel

end

end Nidn
