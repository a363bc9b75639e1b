/-
Helper lemmas on index triples, sums over the grid and which cells a step writes.
-/
import Verif.Model.FdtdStep
import Mathlib.Algebra.BigOperators.Ring.Finset
import Mathlib.Data.Fintype.Pi
import Mathlib.Data.Fintype.BigOperators
import Mathlib.Tactic.Ring
import Mathlib.Tactic.FieldSimp
import Mathlib.Tactic.Linarith
import Mathlib.Tactic.FinCases

set_option linter.unusedSectionVars false

namespace Nidn

lemma Pos.up_self (p : Pos) (a : Fin 3) : p.up a a = p a + 1 := by simp [Pos.up]
lemma Pos.up_ne (p : Pos) {a b : Fin 3} (h : b ≠ a) : p.up a b = p b := by simp [Pos.up, h]
lemma Pos.dn_self (p : Pos) (a : Fin 3) : p.dn a a = p a - 1 := by simp [Pos.dn]
lemma Pos.dn_ne (p : Pos) {a b : Fin 3} (h : b ≠ a) : p.dn a b = p b := by simp [Pos.dn, h]

lemma Pos.up_comm (p : Pos) (a b : Fin 3) : (p.up a).up b = (p.up b).up a := by
  by_cases h : a = b
  · subst h; rfl
  · funext c
    simp only [Pos.up, Function.update_apply, h, Ne.symm h, if_false]
    split_ifs <;> simp_all

lemma Pos.dn_comm (p : Pos) (a b : Fin 3) : (p.dn a).dn b = (p.dn b).dn a := by
  by_cases h : a = b
  · subst h; rfl
  · funext c
    simp only [Pos.dn, Function.update_apply, h, Ne.symm h, if_false]
    split_ifs <;> simp_all

lemma Pos.dn_up (p : Pos) (a : Fin 3) : (p.up a).dn a = p := by
  funext c
  simp only [Pos.up, Pos.dn, Function.update_apply]
  split_ifs <;> simp_all

lemma Pos.up_dn (p : Pos) (a : Fin 3) (h : 1 ≤ p a) : (p.dn a).up a = p := by
  funext c
  simp only [Pos.up, Pos.dn, Function.update_apply]
  split_ifs with hc
  · subst hc; omega
  · rfl

/-- the cells of a grid of shape `n` -/
def box (n : Pos) : Finset Pos := Fintype.piFinset fun a => Finset.range (n a)

lemma mem_box {n p : Pos} : p ∈ box n ↔ ∀ a, p a < n a := by simp [box]

lemma up_mem_box {n p : Pos} {a : Fin 3} (hp : p ∈ box n) (h : p a + 1 < n a) : p.up a ∈ box n := by
  rw [mem_box] at *
  intro b
  by_cases hb : b = a
  · subst hb; rw [Pos.up_self]; exact h
  · rw [Pos.up_ne _ hb]; exact hp b

lemma dn_mem_box {n p : Pos} {a : Fin 3} (hp : p ∈ box n) : p.dn a ∈ box n := by
  rw [mem_box] at *
  intro b
  by_cases hb : b = a
  · subst hb; rw [Pos.dn_self]; exact lt_of_le_of_lt (Nat.sub_le _ _) (hp b)
  · rw [Pos.dn_ne _ hb]; exact hp b

section
variable {K : Type} [CommRing K]

lemma sum_shift (n : Pos) (a : Fin 3) (f : Pos → Pos → K) :
    ∑ p ∈ box n, (if p a + 1 < n a then f p (p.up a) else 0)
      = ∑ p ∈ box n, (if 1 ≤ p a then f (p.dn a) p else 0) := by
  rw [← Finset.sum_filter, ← Finset.sum_filter]
  refine Finset.sum_bij' (fun p _ => p.up a) (fun p _ => p.dn a) ?_ ?_ ?_ ?_ ?_
  · intro p hp
    rw [Finset.mem_filter] at *
    exact ⟨up_mem_box hp.1 hp.2, by rw [Pos.up_self]; omega⟩
  · intro p hp
    rw [Finset.mem_filter] at *
    refine ⟨dn_mem_box hp.1, ?_⟩
    rw [Pos.dn_self]
    have := mem_box.mp hp.1 a
    omega
  · intro p _; exact Pos.dn_up p a
  · intro p hp
    rw [Finset.mem_filter] at hp
    exact Pos.up_dn p a hp.2
  · intro p _; rw [Pos.dn_up]

/-- summation by parts along one axis -/
lemma sum_by_parts (n : Pos) (a : Fin 3) (f g : Pos → K) :
    ∑ p ∈ box n, g p * (if p a + 1 < n a then f (p.up a) - f p else 0)
      = -(∑ p ∈ box n, f p * (if 1 ≤ p a then g p - g (p.dn a) else 0))
        + (∑ p ∈ box n, (if p a + 1 = n a then f p * g p else 0)
          - ∑ p ∈ box n, (if p a = 0 then f p * g p else 0)) := by
  have h := sum_shift n a (fun p q => g p * f q)
  have e1 : ∑ p ∈ box n, g p * (if p a + 1 < n a then f (p.up a) - f p else 0)
      = ∑ p ∈ box n, (if p a + 1 < n a then g p * f (p.up a) else 0)
        - ∑ p ∈ box n, (if p a + 1 < n a then f p * g p else 0) := by
    rw [← Finset.sum_sub_distrib]
    refine Finset.sum_congr rfl fun p _ => ?_
    split_ifs <;> ring
  have e2 : ∑ p ∈ box n, f p * (if 1 ≤ p a then g p - g (p.dn a) else 0)
      = ∑ p ∈ box n, (if 1 ≤ p a then f p * g p else 0)
        - ∑ p ∈ box n, (if 1 ≤ p a then g (p.dn a) * f p else 0) := by
    rw [← Finset.sum_sub_distrib]
    refine Finset.sum_congr rfl fun p _ => ?_
    split_ifs <;> ring
  have e3 : ∑ p ∈ box n, (if p a + 1 < n a then f p * g p else 0)
      = ∑ p ∈ box n, f p * g p - ∑ p ∈ box n, (if p a + 1 = n a then f p * g p else 0) := by
    rw [← Finset.sum_sub_distrib]
    refine Finset.sum_congr rfl fun p hp => ?_
    have := mem_box.mp hp a
    by_cases h1 : p a + 1 < n a
    · rw [if_pos h1, if_neg (by omega)]; ring
    · rw [if_neg h1, if_pos (by omega)]; ring
  have e4 : ∑ p ∈ box n, (if 1 ≤ p a then f p * g p else 0)
      = ∑ p ∈ box n, f p * g p - ∑ p ∈ box n, (if p a = 0 then f p * g p else 0) := by
    rw [← Finset.sum_sub_distrib]
    refine Finset.sum_congr rfl fun p hp => ?_
    by_cases h1 : 1 ≤ p a
    · rw [if_pos h1, if_neg (by omega)]; ring
    · rw [if_neg h1, if_pos (by omega)]; ring
  rw [e1, e2, e3, e4, h]; ring

end

section
variable {K : Type} [Field K]

/-- does the boundary assign to `E` at the cell? -/
def FBoundary.touchesE (n : Pos) (p : Pos) : FBoundary K → Prop
  | .periodic a => p a = 0
  | .pml P => P.inside n p

/-- does the boundary assign to `H` at the cell? -/
def FBoundary.touchesH (n : Pos) (p : Pos) : FBoundary K → Prop
  | .periodic a => p a = n a - 1
  | .pml P => P.inside n p

/-- does the source ever change `E` at the cell? -/
def FSource.touchesE (p : Pos) : FSource K → Prop
  | .soft drive => ∃ t c, drive t p c ≠ 0
  | .plane cells _ _ _ => cells p = true

/-- does the source ever change `H` at the cell? -/
def FSource.touchesH (p : Pos) : FSource K → Prop
  | .soft _ => False
  | .plane cells _ _ _ => cells p = true

lemma FBoundary.touchesE_phiE (n p : Pos) (H : VField K) (b : FBoundary K) :
    (b.updatePhiE n H).touchesE n p ↔ b.touchesE n p := by
  cases b <;> rfl
lemma FBoundary.touchesE_phiH (n p : Pos) (H : VField K) (b : FBoundary K) :
    (b.updatePhiH n H).touchesE n p ↔ b.touchesE n p := by
  cases b <;> rfl
lemma FBoundary.touchesH_phiE (n p : Pos) (H : VField K) (b : FBoundary K) :
    (b.updatePhiE n H).touchesH n p ↔ b.touchesH n p := by
  cases b <;> rfl
lemma FBoundary.touchesH_phiH (n p : Pos) (H : VField K) (b : FBoundary K) :
    (b.updatePhiH n H).touchesH n p ↔ b.touchesH n p := by
  cases b <;> rfl

lemma applyBoundariesE_untouched (n : Pos) (co : K) (ie : VField K) (p : Pos) :
    ∀ (bs : List (FBoundary K)) (E : VField K), (∀ b ∈ bs, ¬ b.touchesE n p) →
      applyBoundariesE n co ie bs E p = E p := by
  intro bs
  induction bs with
  | nil => intro E _; rfl
  | cons b bs ih =>
    intro E h
    show applyBoundariesE n co ie bs (b.updateE n co ie E) p = E p
    rw [ih _ (fun b' hb' => h b' (List.mem_cons_of_mem _ hb'))]
    have hb := h b List.mem_cons_self
    cases b with
    | periodic a =>
      funext c
      simp only [FBoundary.updateE, periodicE]
      exact if_neg hb
    | pml P =>
      funext c
      simp only [FBoundary.updateE, Pml.updateE]
      exact if_neg hb

lemma applyBoundariesH_untouched (n : Pos) (co : K) (im : VField K) (p : Pos) :
    ∀ (bs : List (FBoundary K)) (H : VField K), (∀ b ∈ bs, ¬ b.touchesH n p) →
      applyBoundariesH n co im bs H p = H p := by
  intro bs
  induction bs with
  | nil => intro E _; rfl
  | cons b bs ih =>
    intro H h
    show applyBoundariesH n co im bs (b.updateH n co im H) p = H p
    rw [ih _ (fun b' hb' => h b' (List.mem_cons_of_mem _ hb'))]
    have hb := h b List.mem_cons_self
    cases b with
    | periodic a =>
      funext c
      simp only [FBoundary.updateH, periodicH]
      exact if_neg hb
    | pml P =>
      funext c
      simp only [FBoundary.updateH, Pml.updateH]
      exact if_neg hb

lemma applySourcesE_untouched (t : ℕ) (p : Pos) :
    ∀ (ss : List (FSource K)) (E : VField K), (∀ s ∈ ss, ¬ s.touchesE p) →
      applySourcesE t ss E p = E p := by
  intro ss
  induction ss with
  | nil => intro E _; rfl
  | cons s ss ih =>
    intro E h
    show applySourcesE t ss (s.updateE t E) p = E p
    rw [ih _ (fun b' hb' => h b' (List.mem_cons_of_mem _ hb'))]
    have hb := h s List.mem_cons_self
    cases s with
    | soft drive =>
      funext c
      simp only [FSource.updateE]
      have : drive t p c = 0 := by
        by_contra hne
        exact hb ⟨t, c, hne⟩
      rw [this, add_zero]
    | plane cells ep hp v =>
      funext c
      simp only [FSource.updateE]
      rw [if_neg (fun hh => hb hh.1)]

lemma applySourcesH_untouched (t : ℕ) (p : Pos) :
    ∀ (ss : List (FSource K)) (H : VField K), (∀ s ∈ ss, ¬ s.touchesH p) →
      applySourcesH t ss H p = H p := by
  intro ss
  induction ss with
  | nil => intro E _; rfl
  | cons s ss ih =>
    intro E h
    show applySourcesH t ss (s.updateH t E) p = E p
    rw [ih _ (fun b' hb' => h b' (List.mem_cons_of_mem _ hb'))]
    have hb := h s List.mem_cons_self
    cases s with
    | soft drive => rfl
    | plane cells ep hp v =>
      funext c
      simp only [FSource.updateH]
      rw [if_neg (fun hh => hb hh.1)]

/-! what a step leaves alone -/

lemma step_n (g : FGrid K) : g.step.n = g.n := rfl
lemma step_courant (g : FGrid K) : g.step.courant = g.courant := rfl
lemma step_invEps (g : FGrid K) : g.step.invEps = g.invEps := rfl
lemma step_invMu (g : FGrid K) : g.step.invMu = g.invMu := rfl
lemma step_absorb (g : FGrid K) : g.step.absorb = g.absorb := rfl
lemma step_sources (g : FGrid K) : g.step.sources = g.sources := rfl
lemma step_time (g : FGrid K) : g.step.time = g.time + 1 := rfl
lemma step_E (g : FGrid K) : g.step.E = g.newE := rfl
lemma step_H (g : FGrid K) : g.step.H = g.updateE.newH := rfl

lemma run_n (g : FGrid K) (k : ℕ) : (g.run k).n = g.n := by
  induction k with
  | zero => rfl
  | succ k ih => exact ih
lemma run_courant (g : FGrid K) (k : ℕ) : (g.run k).courant = g.courant := by
  induction k with
  | zero => rfl
  | succ k ih => exact ih
lemma run_invEps (g : FGrid K) (k : ℕ) : (g.run k).invEps = g.invEps := by
  induction k with
  | zero => rfl
  | succ k ih => exact ih
lemma run_invMu (g : FGrid K) (k : ℕ) : (g.run k).invMu = g.invMu := by
  induction k with
  | zero => rfl
  | succ k ih => exact ih
lemma run_absorb (g : FGrid K) (k : ℕ) : (g.run k).absorb = g.absorb := by
  induction k with
  | zero => rfl
  | succ k ih => exact ih
lemma run_sources (g : FGrid K) (k : ℕ) : (g.run k).sources = g.sources := by
  induction k with
  | zero => rfl
  | succ k ih => exact ih
lemma run_time (g : FGrid K) (k : ℕ) : (g.run k).time = g.time + k := by
  induction k with
  | zero => rfl
  | succ k ih =>
    show (g.run k).time + 1 = _
    rw [ih]; rfl

/-- a predicate on boundaries that the phi-updates preserve is preserved by runs -/
lemma run_boundaries_all (Q : FBoundary K → Prop) (g : FGrid K)
    (hE : ∀ b H, Q b → Q (b.updatePhiE g.n H)) (hH : ∀ b E, Q b → Q (b.updatePhiH g.n E))
    (h : ∀ b ∈ g.boundaries, Q b) (k : ℕ) : ∀ b ∈ (g.run k).boundaries, Q b := by
  induction k with
  | zero => exact h
  | succ k ih =>
    intro b hb
    change b ∈ (g.run k).updateE.phasedH at hb
    simp only [FGrid.phasedH, List.mem_map] at hb
    obtain ⟨b1, hb1, rfl⟩ := hb
    change b1 ∈ (g.run k).phasedE at hb1
    simp only [FGrid.phasedE, List.mem_map] at hb1
    obtain ⟨b2, hb2, rfl⟩ := hb1
    have h2 := ih b2 hb2
    have hn : (g.run k).updateE.n = g.n := run_n g k
    rw [hn, run_n]
    exact hH _ _ (hE _ _ h2)

end

end Nidn
