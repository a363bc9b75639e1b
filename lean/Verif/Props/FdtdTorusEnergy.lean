/-
C47 in any number of dimensions: on a grid that is periodic along every axis longer than one cell the leap-frog energy is conserved and controls the fields for Courant
numbers below 1/sqrt(D); at the limit itself it does not.
-/
import Verif.Props.FdtdEnergy
import Verif.Props.FdtdTorus
import Mathlib.Tactic.Linarith

set_option linter.unusedSectionVars false

namespace Nidn

namespace Torus

/-- number of different cells per axis -/
def Lattice.cells (L : Lattice) : Pos := fun a => if L.wraps a then L.n a - 1 else L.n a

/-- every axis wraps around or has a single cell -/
def Lattice.Closed (L : Lattice) : Prop := ∀ a, (L.wraps a = true ∧ 2 ≤ L.n a) ∨ (L.wraps a = false ∧ L.n a = 1)

/-- number of wrapped axes -/
def Lattice.dim (L : Lattice) : ℕ := (Finset.univ.filter fun a => L.wraps a = true).card

section
variable {K : Type} [Field K]

lemma next_mem {L : Lattice} {p : Pos} (hp : p ∈ box L.cells) {a : Fin 3} (ha : L.wraps a = true) : L.next p a ∈ box L.cells := by
  rw [mem_box] at *
  intro b
  have h := hp b
  by_cases hb : b = a
  · subst hb
    simp only [Lattice.next, Function.update_self, Lattice.cells, ha, if_true, true_and] at *
    split_ifs <;> omega
  · simpa only [Lattice.next, Function.update_of_ne hb] using h

lemma prev_mem {L : Lattice} {p : Pos} (hp : p ∈ box L.cells) {a : Fin 3} (ha : L.wraps a = true) : L.prev p a ∈ box L.cells := by
  rw [mem_box] at *
  intro b
  have h := hp b
  by_cases hb : b = a
  · subst hb
    simp only [Lattice.prev, Function.update_self, Lattice.cells, ha, if_true, true_and] at *
    split_ifs <;> omega
  · simpa only [Lattice.prev, Function.update_of_ne hb] using h

lemma prev_next {L : Lattice} {p : Pos} {a : Fin 3} (hp : p ∈ box L.cells) (ha : L.wraps a = true) : L.prev (L.next p a) a = p := by
  funext b
  have h := mem_box.mp hp a
  by_cases hb : b = a
  · subst hb
    simp only [Lattice.prev, Lattice.next, Function.update_self, Lattice.cells, ha, if_true, true_and] at *
    by_cases h1 : p b + 2 = L.n b
    · rw [if_pos h1, if_pos rfl]; omega
    · rw [if_neg h1, if_neg (by omega)]; omega
  · simp only [Lattice.prev, Lattice.next, Function.update_of_ne hb]

lemma next_prev {L : Lattice} {p : Pos} {a : Fin 3} (hp : p ∈ box L.cells) (ha : L.wraps a = true) : L.next (L.prev p a) a = p := by
  funext b
  have h := mem_box.mp hp a
  by_cases hb : b = a
  · subst hb
    simp only [Lattice.prev, Lattice.next, Function.update_self, Lattice.cells, ha, if_true, true_and] at *
    by_cases h1 : p b = 0
    · rw [if_pos h1, if_pos (by omega)]; omega
    · rw [if_neg h1, if_neg (by omega)]; omega
  · simp only [Lattice.prev, Lattice.next, Function.update_of_ne hb]

lemma next_prev_comm (L : Lattice) (p : Pos) {a b : Fin 3} (hab : a ≠ b) :
    L.next (L.prev p b) a = L.prev (L.next p a) b := by
  unfold Lattice.next Lattice.prev
  rw [Function.update_of_ne hab, Function.update_of_ne hab.symm, Function.update_comm hab]

lemma sum_next {L : Lattice} {a : Fin 3} (ha : L.wraps a = true) (f g : Pos → K) :
    ∑ p ∈ box L.cells, f (L.next p a) * g p = ∑ p ∈ box L.cells, f p * g (L.prev p a) := by
  refine Finset.sum_bij' (fun p _ => L.next p a) (fun p _ => L.prev p a) (fun p hp => next_mem hp ha) (fun p hp => prev_mem hp ha)
    (fun p hp => prev_next hp ha) (fun p hp => next_prev hp ha) fun p hp => ?_
  rw [prev_next hp ha]

lemma fwd_wraps {L : Lattice} {a : Fin 3} (ha : L.wraps a = true) (F : VField K) (c : Fin 3) (p : Pos) :
    fwd L F a c p = F (L.next p a) c - F p c := if_pos (Or.inl ha)

lemma bwd_wraps {L : Lattice} {a : Fin 3} (ha : L.wraps a = true) (F : VField K) (c : Fin 3) (p : Pos) :
    bwd L F a c p = F p c - F (L.prev p a) c := if_pos (Or.inl ha)

lemma fwd_flat {L : Lattice} {a : Fin 3} (ha : L.wraps a = false ∧ L.n a = 1) (F : VField K) (c : Fin 3) (p : Pos) :
    fwd L F a c p = 0 := if_neg (by rw [Lattice.hasNext, ha.1, ha.2]; simp)

lemma bwd_flat {L : Lattice} {a : Fin 3} (ha : L.wraps a = false ∧ L.n a = 1) (F : VField K) (c : Fin 3) {p : Pos} (hp : p ∈ box L.cells) :
    bwd L F a c p = 0 := by
  have h := mem_box.mp hp a
  simp only [Lattice.cells, ha.1, ha.2] at h
  exact if_neg (by rw [Lattice.hasPrev, ha.1]; simp at *; omega)

/-- summation by parts on the torus -/
lemma fwd_adjoint {L : Lattice} (hL : L.Closed) (a : Fin 3) (F G : VField K) (c d : Fin 3) :
    ∑ p ∈ box L.cells, fwd L F a c p * G p d = -∑ p ∈ box L.cells, F p c * bwd L G a d p := by
  rcases hL a with ⟨ha, -⟩ | ha
  · have h := sum_next (L := L) ha (fun p => F p c) (fun p => G p d)
    rw [← Finset.sum_neg_distrib]
    simp only [fwd_wraps ha, bwd_wraps ha]
    have e1 : ∑ p ∈ box L.cells, (F (L.next p a) c - F p c) * G p d
        = ∑ p ∈ box L.cells, F (L.next p a) c * G p d - ∑ p ∈ box L.cells, F p c * G p d := by
      rw [← Finset.sum_sub_distrib]; exact Finset.sum_congr rfl fun p _ => by ring
    have e2 : ∑ p ∈ box L.cells, -(F p c * (G p d - G (L.prev p a) d))
        = ∑ p ∈ box L.cells, F p c * G (L.prev p a) d - ∑ p ∈ box L.cells, F p c * G p d := by
      rw [← Finset.sum_sub_distrib]; exact Finset.sum_congr rfl fun p _ => by ring
    rw [e1, e2, h]
  · rw [Finset.sum_eq_zero fun p _ => by rw [fwd_flat ha, zero_mul],
      Finset.sum_eq_zero fun p hp => by rw [bwd_flat ha _ _ hp, mul_zero], neg_zero]

/-- the two curls are adjoint on the torus: no boundary term -/
theorem curl_adjoint {L : Lattice} (hL : L.Closed) (e h : VField K) :
    ∑ p ∈ box L.cells, ∑ c, h p c * curlFwd L e p c = ∑ p ∈ box L.cells, ∑ c, e p c * curlBwd L h p c := by
  have key : ∀ a c d, ∑ p ∈ box L.cells, h p d * fwd L e a c p = -∑ p ∈ box L.cells, e p c * bwd L h a d p := by
    intro a c d
    rw [← fwd_adjoint hL a e h c d]
    exact Finset.sum_congr rfl fun p _ => mul_comm _ _
  rw [Finset.sum_comm, Finset.sum_comm (s := box L.cells)]
  simp only [curlFwd, curlBwd, Fin.sum_univ_three, mul_sub, Finset.sum_sub_distrib, key]
  have i1 : (1 : Fin 3) + 1 = 2 := rfl
  have i2 : (1 : Fin 3) + 2 = 0 := rfl
  have i3 : (2 : Fin 3) + 1 = 0 := rfl
  have i4 : (2 : Fin 3) + 2 = 1 := rfl
  simp only [i1, i2, i3, i4, zero_add]
  ring

/-- leap-frog energy on the torus -/
noncomputable def energy (L : Lattice) (M : Medium K) (e' h h' : VField K) : K :=
  leapEnergy L.cells M.invEps M.invMu e' h h'

lemma fwd_add (L : Lattice) (F G : VField K) (a c : Fin 3) (p : Pos) :
    fwd L (fun q d => F q d + G q d) a c p = fwd L F a c p + fwd L G a c p := by
  unfold fwd; split_ifs <;> ring

lemma curlFwd_add (L : Lattice) (F G : VField K) (p : Pos) (c : Fin 3) :
    curlFwd L (fun q d => F q d + G q d) p c = curlFwd L F p c + curlFwd L G p c := by
  simp only [curlFwd, fwd_add]; ring

/-- energy balance on the torus -/
lemma energy_step {L : Lattice} (hL : L.Closed) (M : Medium K) (hd : ∀ t p c, M.drive t p c = 0)
    (he : ∀ p ∈ box L.cells, ∀ c, M.invEps p c ≠ 0) (hm : ∀ p ∈ box L.cells, ∀ c, M.invMu p c ≠ 0)
    (hl : ∀ p ∈ box L.cells, ∀ c, 1 + M.loss p c ≠ 0)
    (t : ℕ) (e1 e2 h0 h1 h2 : VField K) (E2 : e2 = stepE L M t e1 h1) (H1 : h1 = stepH L M e1 h0) (H2 : h2 = stepH L M e2 h1) :
    energy L M e2 h1 h2 = energy L M e1 h0 h1 - ohmicLoss L.cells M.invEps M.loss e1 e2 := by
  have adj := curl_adjoint hL (fun p c => e2 p c + e1 p c) h1
  have eE : ∀ p ∈ box L.cells, ∀ c, e2 p c ^ 2 / M.invEps p c = e1 p c ^ 2 / M.invEps p c
      - M.loss p c / M.invEps p c * (e2 p c + e1 p c) ^ 2
      + M.courant * ((e2 p c + e1 p c) * curlBwd L h1 p c) := by
    intro p hp c
    have h1' := he p hp c
    have h3 := hl p hp c
    have h4 : (1 + M.loss p c) * e2 p c = (1 - M.loss p c) * e1 p c + M.courant * M.invEps p c * curlBwd L h1 p c := by
      rw [E2]
      simp only [stepE, hd, add_zero]
      field_simp
    field_simp
    linear_combination (e2 p c + e1 p c) * h4
  have eH : ∀ p ∈ box L.cells, ∀ c, h1 p c * h2 p c / M.invMu p c = h0 p c * h1 p c / M.invMu p c
      - M.courant * (h1 p c * curlFwd L (fun p c => e2 p c + e1 p c) p c) := by
    intro p hp c
    have h1' := hm p hp c
    have t1 : h1 p c = h0 p c - M.courant * M.invMu p c * curlFwd L e1 p c := by rw [H1]; rfl
    have t2 : h2 p c = h1 p c - M.courant * M.invMu p c * curlFwd L e2 p c := by rw [H2]; rfl
    rw [curlFwd_add]
    field_simp
    linear_combination h1 p c * t2 + h1 p c * t1
  have lhs : energy L M e2 h1 h2 = energy L M e1 h0 h1 - ohmicLoss L.cells M.invEps M.loss e1 e2
      + M.courant * (∑ p ∈ box L.cells, ∑ c, (e2 p c + e1 p c) * curlBwd L h1 p c
      - ∑ p ∈ box L.cells, ∑ c, h1 p c * curlFwd L (fun p c => e2 p c + e1 p c) p c) := by
    unfold energy leapEnergy ohmicLoss
    rw [← Finset.sum_sub_distrib, ← Finset.sum_sub_distrib, Finset.mul_sum, ← Finset.sum_add_distrib]
    refine Finset.sum_congr rfl fun p hp => ?_
    rw [← Finset.sum_sub_distrib, ← Finset.sum_sub_distrib, Finset.mul_sum, ← Finset.sum_add_distrib]
    refine Finset.sum_congr rfl fun c _ => ?_
    rw [eE p hp, eH p hp]; ring
  rw [lhs, adj]; ring

end

section
variable {K : Type} [Field K] [LinearOrder K] [IsStrictOrderedRing K]

lemma sum_fwd_sq {L : Lattice} (hL : L.Closed) (F : VField K) (a c : Fin 3) :
    ∑ p ∈ box L.cells, fwd L F a c p ^ 2 ≤ (if L.wraps a = true then 4 else 0) * ∑ p ∈ box L.cells, F p c ^ 2 := by
  rcases hL a with ⟨ha, -⟩ | ha
  · rw [if_pos ha]
    have h := sum_next (L := L) ha (fun p => F p c ^ 2) (fun _ => 1)
    simp only [mul_one] at h
    have e1 : ∑ p ∈ box L.cells, fwd L F a c p ^ 2 ≤ ∑ p ∈ box L.cells, (2 * F (L.next p a) c ^ 2 + 2 * F p c ^ 2) := by
      refine Finset.sum_le_sum fun p _ => ?_
      rw [fwd_wraps ha]
      nlinarith [sq_nonneg (F (L.next p a) c + F p c)]
    rw [Finset.sum_add_distrib, ← Finset.mul_sum, ← Finset.mul_sum, h] at e1
    linarith
  · rw [if_neg (by rw [ha.1]; simp), Finset.sum_eq_zero fun p _ => by rw [fwd_flat ha]; ring]; simp

lemma sum_bwd_sq {L : Lattice} (hL : L.Closed) (F : VField K) (a c : Fin 3) :
    ∑ p ∈ box L.cells, bwd L F a c p ^ 2 ≤ (if L.wraps a = true then 4 else 0) * ∑ p ∈ box L.cells, F p c ^ 2 := by
  rcases hL a with ⟨ha, -⟩ | ha
  · rw [if_pos ha]
    have h := sum_next (L := L) ha (fun _ => 1) (fun p => F p c ^ 2)
    simp only [one_mul] at h
    have e1 : ∑ p ∈ box L.cells, bwd L F a c p ^ 2 ≤ ∑ p ∈ box L.cells, (2 * F (L.prev p a) c ^ 2 + 2 * F p c ^ 2) := by
      refine Finset.sum_le_sum fun p _ => ?_
      rw [bwd_wraps ha]
      nlinarith [sq_nonneg (F (L.prev p a) c + F p c)]
    rw [Finset.sum_add_distrib, ← Finset.mul_sum, ← Finset.mul_sum, ← h] at e1
    linarith
  · rw [if_neg (by rw [ha.1]; simp), Finset.sum_eq_zero fun p hp => by rw [bwd_flat ha _ _ hp]; ring]; simp

/-- mixed products of forward differences equal mixed products of backward differences -/
lemma mixed {L : Lattice} (hL : L.Closed) (F : VField K) {a b : Fin 3} (hab : a ≠ b) (c d : Fin 3) :
    ∑ p ∈ box L.cells, fwd L F a c p * fwd L F b d p = ∑ p ∈ box L.cells, bwd L F b c p * bwd L F a d p := by
  rcases hL a with ⟨ha, -⟩ | ha
  swap
  · rw [Finset.sum_eq_zero fun p _ => by rw [fwd_flat ha, zero_mul], Finset.sum_eq_zero fun p hp => by rw [bwd_flat ha _ _ hp, mul_zero]]
  rcases hL b with ⟨hb, -⟩ | hb
  swap
  · rw [Finset.sum_eq_zero fun p _ => by rw [fwd_flat hb, mul_zero], Finset.sum_eq_zero fun p hp => by rw [bwd_flat hb _ _ hp, zero_mul]]
  have h1 := fwd_adjoint hL a F (fun p _ => fwd L F b d p) c 0
  have h2 := fwd_adjoint hL b (fun p _ => bwd L F a d p) F 0 c
  have comm : ∀ p, bwd L (fun p _ => fwd L F b d p) a (0 : Fin 3) p = fwd L (fun p _ => bwd L F a d p) b (0 : Fin 3) p := by
    intro p
    rw [bwd_wraps ha, fwd_wraps hb, fwd_wraps hb, fwd_wraps hb, bwd_wraps ha, bwd_wraps ha, next_prev_comm L p hab.symm]
    ring
  rw [h1]
  simp only [comm]
  have e : ∑ p ∈ box L.cells, F p c * fwd L (fun p _ => bwd L F a d p) b (0 : Fin 3) p
      = ∑ p ∈ box L.cells, fwd L (fun p _ => bwd L F a d p) b (0 : Fin 3) p * F p c := Finset.sum_congr rfl fun _ _ => mul_comm _ _
  rw [e, h2, neg_neg]
  exact Finset.sum_congr rfl fun _ _ => mul_comm _ _

/-- the curl on a D-dimensional torus has squared norm at most 4 D -/
theorem curl_bound {L : Lattice} (hL : L.Closed) (F : VField K) :
    fieldSq L.cells (curlFwd L F) ≤ 4 * L.dim * fieldSq L.cells F := by
  have ex : fieldSq L.cells (curlFwd L F) =
      (∑ p ∈ box L.cells, fwd L F 1 2 p ^ 2 + ∑ p ∈ box L.cells, fwd L F 2 1 p ^ 2 + ∑ p ∈ box L.cells, fwd L F 2 0 p ^ 2
      + ∑ p ∈ box L.cells, fwd L F 0 2 p ^ 2 + ∑ p ∈ box L.cells, fwd L F 0 1 p ^ 2 + ∑ p ∈ box L.cells, fwd L F 1 0 p ^ 2)
      - 2 * (∑ p ∈ box L.cells, fwd L F 1 2 p * fwd L F 2 1 p + ∑ p ∈ box L.cells, fwd L F 2 0 p * fwd L F 0 2 p
      + ∑ p ∈ box L.cells, fwd L F 0 1 p * fwd L F 1 0 p) := by
    unfold fieldSq
    simp only [mul_add, Finset.mul_sum, ← Finset.sum_add_distrib, ← Finset.sum_sub_distrib]
    refine Finset.sum_congr rfl fun p _ => ?_
    rw [Fin.sum_univ_three]
    show (fwd L F 1 2 p - fwd L F 2 1 p) ^ 2 + (fwd L F 2 0 p - fwd L F 0 2 p) ^ 2 + (fwd L F 0 1 p - fwd L F 1 0 p) ^ 2 = _
    ring
  rw [mixed hL F (show (1 : Fin 3) ≠ 2 by decide), mixed hL F (show (2 : Fin 3) ≠ 0 by decide),
    mixed hL F (show (0 : Fin 3) ≠ 1 by decide)] at ex
  have div0 : 0 ≤ ∑ p ∈ box L.cells, (bwd L F 0 0 p + bwd L F 1 1 p + bwd L F 2 2 p) ^ 2 := Finset.sum_nonneg fun _ _ => sq_nonneg _
  have dv : ∑ p ∈ box L.cells, (bwd L F 0 0 p + bwd L F 1 1 p + bwd L F 2 2 p) ^ 2
      = ∑ p ∈ box L.cells, bwd L F 0 0 p ^ 2 + ∑ p ∈ box L.cells, bwd L F 1 1 p ^ 2 + ∑ p ∈ box L.cells, bwd L F 2 2 p ^ 2
      + 2 * (∑ p ∈ box L.cells, bwd L F 2 2 p * bwd L F 1 1 p + ∑ p ∈ box L.cells, bwd L F 0 0 p * bwd L F 2 2 p
      + ∑ p ∈ box L.cells, bwd L F 1 1 p * bwd L F 0 0 p) := by
    simp only [mul_add, Finset.mul_sum, ← Finset.sum_add_distrib]
    exact Finset.sum_congr rfl fun p _ => by ring
  have hdim : (4 * L.dim : K) = (if L.wraps 0 = true then 4 else 0) + (if L.wraps 1 = true then 4 else 0) + (if L.wraps 2 = true then 4 else 0) := by
    have : L.dim = (if L.wraps 0 = true then 1 else 0) + (if L.wraps 1 = true then 1 else 0) + (if L.wraps 2 = true then 1 else 0) := by
      rw [Lattice.dim, Finset.card_filter, Fin.sum_univ_three]
    rw [this]
    split_ifs <;> push_cast <;> ring
  rw [hdim, fieldSq_eq (n := L.cells) (F := F), Fin.sum_univ_three]
  have b00 := sum_bwd_sq hL F 0 0
  have b11 := sum_bwd_sq hL F 1 1
  have b22 := sum_bwd_sq hL F 2 2
  have f12 := sum_fwd_sq hL F 1 2
  have f21 := sum_fwd_sq hL F 2 1
  have f20 := sum_fwd_sq hL F 2 0
  have f02 := sum_fwd_sq hL F 0 2
  have f01 := sum_fwd_sq hL F 0 1
  have f10 := sum_fwd_sq hL F 1 0
  rw [ex]
  linarith

end

end Torus

section
variable {K : Type} [Field K]

/-- periodic along every axis longer than one cell -/
def AllPeriodic (g : FGrid K) (as : List (Fin 3)) : Prop :=
  g.boundaries = as.map FBoundary.periodic ∧ ∀ a, (a ∈ as ∧ 2 ≤ g.n a) ∨ (a ∉ as ∧ g.n a = 1)

lemma AllPeriodic.closed {g : FGrid K} {as : List (Fin 3)} (h : AllPeriodic g as) : (torusOf g.n as).Closed := by
  intro a
  rcases h.2 a with h | h
  · exact Or.inl ⟨by simpa [torusOf] using h.1, h.2⟩
  · exact Or.inr ⟨by simpa [torusOf] using h.1, h.2⟩

lemma AllPeriodic.two {g : FGrid K} {as : List (Fin 3)} (h : AllPeriodic g as) : ∀ a ∈ as, 2 ≤ g.n a := by
  intro a ha
  rcases h.2 a with h | h
  · exact h.2
  · exact absurd ha h.1

/-- the cells of a periodic grid counted once: drop the last plane of every periodic axis -/
def onceCells (g : FGrid K) (as : List (Fin 3)) : Pos := (torusOf g.n as).cells

lemma AllPeriodic.once {g : FGrid K} {as : List (Fin 3)} (h : AllPeriodic g as) {p : Pos} (hp : p ∈ box (onceCells g as)) :
    p ∈ box g.n ∧ (torusOf g.n as).wrap p = p := by
  have key : ∀ b, p b < g.n b ∧ (b ∈ as → p b < g.n b - 1) := by
    intro b
    have h1 := mem_box.mp hp b
    simp only [onceCells, Torus.Lattice.cells, torusOf, decide_eq_true_eq] at h1
    rcases h.2 b with ⟨hb, h2⟩ | ⟨hb, h2⟩
    · rw [if_pos hb] at h1; exact ⟨by omega, fun _ => h1⟩
    · rw [if_neg hb] at h1; exact ⟨h1, fun hh => absurd hh hb⟩
  refine ⟨mem_box.mpr fun b => (key b).1, ?_⟩
  funext b
  rw [wrap_apply]
  split_ifs with hb
  · exact Nat.mod_eq_of_lt ((key b).2 hb)
  · rfl

/-- leap-frog energy of a periodic grid, every cell counted once; electric materials are read at the plane the code uses -/
def periodicEnergy (g : FGrid K) (as : List (Fin 3)) : K :=
  leapEnergy (onceCells g as) (fun p => g.invEps (repE g.n as p)) g.invMu g.step.E g.H g.step.H

/-- the fields agree on identified planes (true of fresh grids, and of every grid after a step, see C48_planes) -/
def PlanesAgree (g : FGrid K) (as : List (Fin 3)) : Prop :=
  ∀ p ∈ box g.n, ∀ c, g.E p c = g.E ((torusOf g.n as).wrap p) c ∧ g.H p c = g.H ((torusOf g.n as).wrap p) c

lemma PlanesAgree.represents {g : FGrid K} {as : List (Fin 3)} (h : PlanesAgree g as) : Represents g as g.E g.H := h

variable (g : FGrid K) (as : List (Fin 3))

/-- torus fields of a run -/
noncomputable def torusRun (k : ℕ) : VField K × VField K := Torus.run (torusOf g.n as) (mediumOf g as) g.time g.E g.H k

lemma periodicEnergy_run (hp : AllPeriodic g as) (hs : g.sources = []) (hA : PlanesAgree g as) (k : ℕ) :
    periodicEnergy (g.run k) as = Torus.energy (torusOf g.n as) (mediumOf g as) (torusRun g as (k + 1)).1 (torusRun g as k).2
      (torusRun g as (k + 1)).2 := by
  have hsoft : AllSoft g.sources := by rw [hs]; intro s hs; cases hs
  have hd : DriveWraps g as := by intro t p c _; rw [hs]; rfl
  have r0 := C48_torus g as hp.1 hp.two hsoft hd g.E g.H hA k
  have r1 := C48_torus g as hp.1 hp.two hsoft hd g.E g.H hA (k + 1)
  unfold periodicEnergy Torus.energy leapEnergy
  have hc : onceCells (g.run k) as = onceCells g as := by unfold onceCells; rw [run_n]
  rw [hc]
  refine Finset.sum_congr rfl fun p hpp => Finset.sum_congr rfl fun c _ => ?_
  obtain ⟨hin, hw⟩ := hp.once hpp
  have a0 := r0 p (by rw [run_n]; exact hin) c
  have a1 := r1 p (by rw [run_n]; exact hin) c
  rw [run_n, hw] at a0 a1
  change ((g.run k).step.E p c = _) ∧ ((g.run k).step.H p c = _) at a1
  rw [a0.2, a1.1, a1.2, run_invEps, run_invMu, run_n]
  rfl

lemma torusRun_energy (hp : AllPeriodic g as) (hs : g.sources = []) (hr : Regular g) (k : ℕ) :
    Torus.energy (torusOf g.n as) (mediumOf g as) (torusRun g as (k + 2)).1 (torusRun g as (k + 1)).2 (torusRun g as (k + 2)).2
      = Torus.energy (torusOf g.n as) (mediumOf g as) (torusRun g as (k + 1)).1 (torusRun g as k).2 (torusRun g as (k + 1)).2
      - ohmicLoss (onceCells g as) (mediumOf g as).invEps (mediumOf g as).loss (torusRun g as (k + 1)).1 (torusRun g as (k + 2)).1 :=
  Torus.energy_step hp.closed (mediumOf g as) (fun t p c => by simp [mediumOf, totalDrive, hs])
    (fun p _ c => hr.eps _ c) (fun p _ c => hr.mu p c) (fun p _ c => hr.abs _ c) (g.time + (k + 1)) _ _ _ _ _ rfl rfl rfl

/-- C47, conservation on periodic grids of one, two or three dimensions: any inhomogeneous materials, no conductivity, no sources. -/
theorem C47_periodic (hp : AllPeriodic g as) (hs : g.sources = []) (hA : PlanesAgree g as) (hr : Regular g)
    (ha : ∀ p c, g.absorb p c = 0) (k : ℕ) : periodicEnergy (g.run k) as = periodicEnergy g as := by
  induction k with
  | zero => rfl
  | succ k ih =>
    rw [← ih, periodicEnergy_run g as hp hs hA, periodicEnergy_run g as hp hs hA, torusRun_energy g as hp hs hr k]
    simp [ohmicLoss, mediumOf, ha]

end

section
variable {K : Type} [Field K] [LinearOrder K] [IsStrictOrderedRing K]

/-- C47, stability on periodic grids with D periodic axes: for `c^2 D < 1` (every Courant number the grid constructor chooses by default satisfies it),
relative permittivity and permeability at least 1 and non-negative conductivity, all fields stay bounded by the initial energy forever. -/
theorem C47_periodic_bounded (g : FGrid K) (as : List (Fin 3)) (hp : AllPeriodic g as) (hs : g.sources = []) (hA : PlanesAgree g as)
    (hv : DenserThanVacuum g) (ha : ∀ p c, 0 ≤ g.absorb p c) (hc : g.courant ^ 2 * (torusOf g.n as).dim < 1) (k : ℕ) :
    (1 - g.courant ^ 2 * (torusOf g.n as).dim) * fieldSq (onceCells g as) (g.run (k + 1)).E ≤ periodicEnergy g as ∧
    (1 - g.courant ^ 2 * (torusOf g.n as).dim) * fieldSq (onceCells g as) (g.run (k + 1)).H ≤ 2 * periodicEnergy g as := by
  have hr : Regular g := ⟨fun p c => (hv.1 p c).1.ne', fun p c => (hv.2 p c).1.ne', fun p c => by have := ha p c; positivity⟩
  have mono : periodicEnergy (g.run k) as ≤ periodicEnergy g as := by
    induction k with
    | zero => exact le_refl _
    | succ k ih =>
      refine le_trans ?_ ih
      rw [periodicEnergy_run g as hp hs hA, periodicEnergy_run g as hp hs hA, torusRun_energy g as hp hs hr k]
      have : 0 ≤ ohmicLoss (onceCells g as) (mediumOf g as).invEps (mediumOf g as).loss (torusRun g as (k + 1)).1 (torusRun g as (k + 2)).1 := by
        refine Finset.sum_nonneg fun p _ => Finset.sum_nonneg fun c _ => ?_
        have h1 : 0 < (mediumOf g as).invEps p c := (hv.1 _ c).1
        have h2 : 0 ≤ (mediumOf g as).loss p c := ha _ c
        positivity
      linarith
  have hsoft : AllSoft g.sources := by rw [hs]; intro s hs; cases hs
  have hd : DriveWraps g as := by intro t p c _; rw [hs]; rfl
  have r1 := C48_torus g as hp.1 hp.two hsoft hd g.E g.H hA (k + 1)
  have ctl := energy_controls (onceCells g as) (mediumOf g as).invEps (mediumOf g as).invMu (torusRun g as (k + 1)).1 (torusRun g as k).2
    (torusRun g as (k + 1)).2 g.courant (torusOf g.n as).dim (Torus.curlFwd (torusOf g.n as) (torusRun g as (k + 1)).1)
    (fun p _ c => rfl) (Torus.curl_bound hp.closed _) hc (Nat.cast_nonneg _) (fun p _ c => hv.1 _ c) (fun p _ c => hv.2 p c)
  have e : leapEnergy (onceCells g as) (mediumOf g as).invEps (mediumOf g as).invMu (torusRun g as (k + 1)).1 (torusRun g as k).2
      (torusRun g as (k + 1)).2 = periodicEnergy (g.run k) as := (periodicEnergy_run g as hp hs hA k).symm
  have fE : fieldSq (onceCells g as) (g.run (k + 1)).E = fieldSq (onceCells g as) (torusRun g as (k + 1)).1 := by
    refine Finset.sum_congr rfl fun p hpp => Finset.sum_congr rfl fun c _ => ?_
    obtain ⟨hin, hw⟩ := hp.once hpp
    have a1 := r1 p (by rw [run_n]; exact hin) c
    rw [run_n, hw] at a1
    rw [a1.1]; rfl
  have fH : fieldSq (onceCells g as) (g.run (k + 1)).H = fieldSq (onceCells g as) (torusRun g as (k + 1)).2 := by
    refine Finset.sum_congr rfl fun p hpp => Finset.sum_congr rfl fun c _ => ?_
    obtain ⟨hin, hw⟩ := hp.once hpp
    have a1 := r1 p (by rw [run_n]; exact hin) c
    rw [run_n, hw] at a1
    rw [a1.2]; rfl
  rw [e] at ctl
  rw [fE, fH]
  exact ⟨ctl.1.trans mono, ctl.2.trans (by linarith)⟩

/-- a 3 x 4 x 1 grid periodic in x and y with a dielectric and an initial pulse, two periodic axes, Courant number 7/10 < 1/sqrt 2 -/
example : ∃ g : FGrid ℚ, AllPeriodic g [0, 1] ∧ g.sources = [] ∧ PlanesAgree g [0, 1] ∧ DenserThanVacuum g ∧ (∀ p c, g.absorb p c = 0) ∧
    (torusOf g.n [0, 1]).dim = 2 ∧ g.courant ^ 2 * (torusOf g.n [0, 1]).dim < 1 ∧ periodicEnergy g [0, 1] ≠ 0 := by
  refine ⟨{ FGrid.fresh ![3, 4, 1] (7 / 10) 1 1 with
    boundaries := [0, 1].map FBoundary.periodic
    invEps := fun p _ => if p 0 < 2 then 1 else 1 / 4
    E := fun p c => if p 0 = 1 ∧ p 1 = 1 ∧ c = 2 then 1 else 0 }, ⟨rfl, ?_⟩, rfl, ?_, ⟨?_, ?_⟩, fun _ _ => rfl, ?_, ?_, ?_⟩
  · intro a; fin_cases a <;> simp [FGrid.fresh]
  · intro p hp c
    have h0 : p 0 < 3 := mem_box.mp hp 0
    have h1 : p 1 < 4 := mem_box.mp hp 1
    have e0 : (torusOf ![3, 4, 1] [0, 1]).wrap p 0 = p 0 % 2 := by simp [wrap_apply]
    have e1 : (torusOf ![3, 4, 1] [0, 1]).wrap p 1 = p 1 % 3 := by simp [wrap_apply]
    have i0 : (p 0 % 2 = 1) = (p 0 = 1) := by rw [eq_iff_iff]; omega
    have i1 : (p 1 % 3 = 1) = (p 1 = 1) := by rw [eq_iff_iff]; omega
    refine ⟨?_, rfl⟩
    simp only [FGrid.fresh, e0, e1, i0, i1]
  · intro p c
    show 0 < (if p 0 < 2 then (1 : ℚ) else 1 / 4) ∧ (if p 0 < 2 then (1 : ℚ) else 1 / 4) ≤ 1
    split_ifs <;> norm_num
  · intro p c; show 0 < (1 / 1 : ℚ) ∧ (1 / 1 : ℚ) ≤ 1; norm_num
  · decide +kernel
  · have : (torusOf ![3, 4, 1] [0, 1]).dim = 2 := by decide +kernel
    show (7 / 10 : ℚ) ^ 2 * ((torusOf ![3, 4, 1] [0, 1]).dim : ℚ) < 1
    rw [this]; norm_num
  · decide +kernel

/-- the resonant grid: three planes in x, periodic, Courant number exactly 1, magnetic field alternating in sign -/
def resonant : FGrid ℚ :=
  { FGrid.fresh ![3, 1, 1] 1 1 1 with
    boundaries := [0].map FBoundary.periodic
    H := fun p c => if c = 1 then (-1) ^ p 0 else 0 }

lemma resonant_periodic : AllPeriodic resonant [0] := by
  refine ⟨rfl, ?_⟩
  intro a; fin_cases a <;> simp [FGrid.fresh, resonant]

lemma resonant_run (k : ℕ) : ∀ p ∈ box resonant.n,
    (resonant.run k).E p 2 = -(-1) ^ k * (2 * k) * (-1) ^ p 0 ∧ (resonant.run k).H p 1 = (-1) ^ k * (2 * k + 1) * (-1) ^ p 0 := by
  induction k with
  | zero =>
    intro p _
    constructor
    · show (0 : ℚ) = _; simp
    · show (if (1 : Fin 3) = 1 then (-1 : ℚ) ^ p 0 else 0) = _; simp
  | succ k ih =>
    have hs : AllSoft (resonant.run k).sources := by rw [run_sources]; intro s hs; cases hs
    have hb := run_boundaries_periodic resonant [0] rfl k
    have hn : ∀ a ∈ [(0 : Fin 3)], 2 ≤ (resonant.run k).n a := by rw [run_n]; exact resonant_periodic.two
    have hdr : ∀ t p c, totalDrive (resonant.run k).sources t p c = 0 := by intro t p c; rw [run_sources]; rfl
    have flat : ∀ p ∈ box resonant.n, p 0 < 3 ∧ p 1 = 0 ∧ p 2 = 0 := by
      intro p hp
      have h0 : p 0 < 3 := mem_box.mp hp 0
      have h1 : p 1 < 1 := mem_box.mp hp 1
      have h2 : p 2 < 1 := mem_box.mp hp 2
      omega
    have hE : ∀ p ∈ box resonant.n, (resonant.run k).newE p 2 = -(-1) ^ (k + 1) * (2 * (k + 1)) * (-1) ^ p 0 := by
      intro p hp
      rw [newE_periodic _ [0] hb hn hs, hdr, add_zero]
      simp only [run_n, bulkE, run_absorb, run_courant, run_invEps]
      set q := repE resonant.n [0] p with hq
      have hqb : q ∈ box resonant.n := repE_box _ hp
      obtain ⟨q0, q1, q2⟩ := flat q hqb
      have par : (-1 : ℚ) ^ q 0 = (-1) ^ p 0 := by
        by_cases h0 : p 0 = 0
        · have : q 0 = 2 := by rw [hq]; simp [repE, h0]; rfl
          rw [this, h0]; norm_num
        · have : q 0 = p 0 := by rw [hq]; simp [repE, h0]
          rw [this]
      have hq1 : 1 ≤ q 0 := by
        by_cases h0 : p 0 = 0
        · have : q 0 = 2 := by rw [hq]; simp [repE, h0]; rfl
          omega
        · have : q 0 = p 0 := by rw [hq]; simp [repE, h0]
          omega
      have hcurl : curlH (resonant.run k).H q 2 = 2 * ((-1) ^ k * (2 * k + 1) * (-1) ^ q 0) := by
        show dDn _ 0 1 q - dDn _ 1 0 q = _
        rw [dDn, if_pos hq1, dDn, if_neg (by omega), (ih q hqb).2, (ih _ (dn_mem_box hqb)).2]
        rw [Pos.dn_self]
        obtain ⟨m, hm⟩ : ∃ m, q 0 = m + 1 := ⟨q 0 - 1, by omega⟩
        rw [hm, Nat.add_sub_cancel, pow_succ]; ring
      rw [hcurl, (ih q hqb).1, par]
      have a0 : resonant.absorb q 2 = 0 := rfl
      have e0 : resonant.invEps q 2 = 1 := by show (1 / 1 : ℚ) = 1; norm_num
      have c0 : resonant.courant = 1 := rfl
      rw [a0, e0, c0, pow_succ]
      ring
    intro p hp
    push_cast
    refine ⟨hE p hp, ?_⟩
    show (resonant.run k).updateE.newH p 1 = _
    have hb' : (resonant.run k).updateE.boundaries = [0].map FBoundary.periodic := by
      show (resonant.run k).boundaries.map _ = _
      rw [hb]; exact (periodic_phased _ _ [0]).1
    rw [newH_periodic _ [0] hb' hn hs]
    show (resonant.run k).H _ 1 - (resonant.run k).courant * (resonant.run k).invMu _ 1 * curlE (resonant.run k).n (resonant.run k).newE _ 1 = _
    simp only [run_courant, run_invMu]
    have hnn : (resonant.run k).updateE.n = resonant.n := run_n resonant k
    rw [run_n, hnn]
    set q := repH resonant.n [0] p with hq
    have hqb : q ∈ box resonant.n := repH_box _ hp
    obtain ⟨q0, q1, q2⟩ := flat q hqb
    obtain ⟨p0, -, -⟩ := flat p hp
    have hval : (p 0 = 2 ∧ q 0 = 0) ∨ (p 0 ≠ 2 ∧ q 0 = p 0) := by
      by_cases h0 : p 0 = 2
      · left; refine ⟨h0, ?_⟩; rw [hq]; simp only [repH, h0]; rfl
      · right
        refine ⟨h0, ?_⟩
        have hn0 : resonant.n 0 - 1 = 2 := rfl
        rw [hq]; simp only [repH, hn0]; rw [if_neg (fun hh => h0 hh.2)]
    have par : (-1 : ℚ) ^ q 0 = (-1) ^ p 0 := by
      rcases hval with ⟨h1, h2⟩ | ⟨-, h2⟩
      · rw [h1, h2]; norm_num
      · rw [h2]
    have hq1 : q 0 + 1 < resonant.n 0 := by
      show q 0 + 1 < 3
      rcases hval with ⟨h1, h2⟩ | ⟨h1, h2⟩ <;> omega
    have hcurl : curlE resonant.n (resonant.run k).newE q 1 = 2 * (-(-1) ^ (k + 1) * (2 * (k + 1)) * (-1) ^ q 0) := by
      show dUp _ _ 2 0 q - dUp _ _ 0 2 q = _
      have hz : ¬ q 2 + 1 < resonant.n 2 := by show ¬ q 2 + 1 < 1; omega
      rw [dUp, if_neg hz, dUp, if_pos hq1, hE q hqb, hE _ (up_mem_box hqb hq1), Pos.up_self, pow_succ (-1 : ℚ) (q 0)]
      ring
    rw [hcurl, (ih q hqb).2, par]
    have m0 : resonant.invMu q 1 = 1 := by show (1 / 1 : ℚ) = 1; norm_num
    have c0 : resonant.courant = 1 := rfl
    rw [m0, c0, pow_succ]
    ring

/-- C47 fails at the limit itself: with the Courant number exactly equal to the largest accepted value (1 in one dimension) a periodic vacuum grid grows without bound,
although nothing feeds it. -/
theorem C47_limit_false : ∃ g : FGrid ℚ, AllPeriodic g [0] ∧ g.sources = [] ∧ PlanesAgree g [0] ∧ DenserThanVacuum g ∧
    (∀ p c, g.absorb p c = 0) ∧ g.courant ^ 2 * (torusOf g.n [0]).dim = 1 ∧
    ∀ B : ℚ, ∃ k, ∃ p ∈ box g.n, B < |(g.run k).E p 2| := by
  refine ⟨resonant, resonant_periodic, rfl, ?_, ⟨?_, ?_⟩, fun _ _ => rfl, ?_, ?_⟩
  · intro p hp c
    have h0 : p 0 < 3 := mem_box.mp hp 0
    refine ⟨rfl, ?_⟩
    have e0 : (torusOf ![3, 1, 1] [0]).wrap p 0 = p 0 % 2 := by simp [wrap_apply]
    show (if c = 1 then (-1 : ℚ) ^ p 0 else 0) = if c = 1 then (-1 : ℚ) ^ ((torusOf ![3, 1, 1] [0]).wrap p 0) else 0
    rw [e0]
    have : (-1 : ℚ) ^ p 0 = (-1) ^ (p 0 % 2) := neg_one_pow_eq_pow_mod_two ..
    rw [this]
  · intro p c; show 0 < (1 / 1 : ℚ) ∧ (1 / 1 : ℚ) ≤ 1; norm_num
  · intro p c; show 0 < (1 / 1 : ℚ) ∧ (1 / 1 : ℚ) ≤ 1; norm_num
  · have : (torusOf ![3, 1, 1] [0]).dim = 1 := by decide +kernel
    show (1 : ℚ) ^ 2 * ((torusOf ![3, 1, 1] [0]).dim : ℚ) = 1
    rw [this]; norm_num
  · intro B
    obtain ⟨k, hk⟩ := exists_nat_gt B
    have hz : (fun _ => 0 : Pos) ∈ box resonant.n := by rw [mem_box]; decide
    refine ⟨k, fun _ => 0, hz, ?_⟩
    rw [(resonant_run k _ hz).1, pow_zero, mul_one, abs_mul, abs_neg, abs_pow, abs_neg, abs_one, one_pow, one_mul, abs_of_nonneg (by positivity)]
    have : (0 : ℚ) ≤ k := Nat.cast_nonneg k
    linarith

end

end Nidn
