/-
C51 (dark grids), C52 (linearity), C55 (reset) and C56 (detectors), all about `Grid.run`.
-/
import Verif.Lemmas.FdtdField
import Verif.Props.FdtdPml
import Mathlib.Tactic.Linarith
import Mathlib.Tactic.NormNum

set_option linter.unusedSectionVars false

namespace Nidn

section
variable {K : Type} [Field K]

/-! ### C56 -/

/-- C56: after `k` steps every detector holds its old recordings followed by exactly `k` electric and `k` magnetic samples; sample `i` is the field at its cells after step `i + 1`
(the electric one is taken after the sources of that step have acted and is not changed by the magnetic half step). -/
theorem C56_samples (g : FGrid K) (k : ℕ) :
    (g.run k).detectors = g.detectors.map fun d =>
      ⟨d.cells, d.recE ++ (List.range k).map (fun i => d.cells.map fun p => (g.run (i + 1)).E p),
        d.recH ++ (List.range k).map (fun i => d.cells.map fun p => (g.run (i + 1)).H p)⟩ := by
  induction k with
  | zero =>
    show g.detectors = _
    conv_lhs => rw [← List.map_id g.detectors]
    refine List.map_congr_left fun d _ => ?_
    simp
  | succ k ih =>
    show ((g.run k).detectors.map (FDetector.detectE (g.run k).newE)).map (FDetector.detectH (g.run k).updateE.newH) = _
    rw [ih, List.map_map, List.map_map]
    refine List.map_congr_left fun d _ => ?_
    simp only [Function.comp_apply, FDetector.detectE, FDetector.detectH, List.range_succ, List.map_append, List.map_cons, List.map_nil,
      List.append_assoc]
    rfl

/-- C56: a detector that starts empty has one sample per step, each with one entry per cell. -/
theorem C56_count (g : FGrid K) (k : ℕ) (h0 : ∀ d ∈ g.detectors, d.recE = [] ∧ d.recH = []) :
    ∀ d ∈ (g.run k).detectors, d.recE.length = k ∧ d.recH.length = k ∧ (∀ s ∈ d.recE, s.length = d.cells.length) ∧
      ∀ s ∈ d.recH, s.length = d.cells.length := by
  intro d hd
  rw [C56_samples, List.mem_map] at hd
  obtain ⟨d0, hd0, rfl⟩ := hd
  obtain ⟨e1, e2⟩ := h0 d0 hd0
  simp only [e1, e2, List.nil_append, List.length_map, List.length_range, List.mem_map, true_and]
  constructor <;> rintro s ⟨i, -, rfl⟩ <;> simp

/-- C56: the sample of a step is taken after the sources of that step: a soft source acting on a detector cell is in the sample of the same step -/
theorem C56_includes_source (g : FGrid K) (drive : ℕ → VField K) (p : Pos) (c : Fin 3) :
    ({ g with sources := g.sources ++ [.soft drive] } : FGrid K).newE p c = g.newE p c + drive g.time p c := by
  show applySourcesE g.time (g.sources ++ [.soft drive]) _ p c = _
  unfold applySourcesE
  rw [List.foldl_append]
  rfl

example : ∃ g : FGrid ℚ, (∀ d ∈ g.detectors, d.recE = [] ∧ d.recH = []) ∧ g.detectors ≠ [] ∧
    ((g.run 2).detectors.map fun d => d.recE.map fun s => s.map fun v => v 2) = [[[1, 0], [3 / 2, 1 / 4]]] :=
  ⟨{ FGrid.fresh ![3, 1, 1] (1 / 2) 1 1 with
      sources := [.soft fun _ p c => if p 0 = 1 ∧ c = 2 then 1 else 0]
      detectors := [⟨[![1, 0, 0], ![2, 0, 0]], [], []⟩] }, by decide, by simp, by decide +kernel⟩

/-! ### Linear combinations of runs -/

variable {ι : Type} [Fintype ι]

/-- a linear combination of fields is zero everywhere -/
def Vanish (w : ι → K) (F : ι → VField K) : Prop := ∀ p c, ∑ i, w i * F i p c = 0

variable {w : ι → K} {F G : ι → VField K}

lemma Vanish.eq (h : Vanish w F) (p : Pos) (c : Fin 3) : ∑ i, w i * F i p c = 0 := h p c

lemma vanish_dUp (h : Vanish w F) (n : Pos) (a c : Fin 3) (p : Pos) : ∑ i, w i * dUp n (F i) a c p = 0 := by
  unfold dUp
  split_ifs
  · simp only [mul_sub, Finset.sum_sub_distrib]
    rw [h.eq, h.eq, sub_zero]
  · simp

lemma vanish_dDn (h : Vanish w F) (a c : Fin 3) (p : Pos) : ∑ i, w i * dDn (F i) a c p = 0 := by
  unfold dDn
  split_ifs
  · simp only [mul_sub, Finset.sum_sub_distrib]
    rw [h.eq, h.eq, sub_zero]
  · simp

lemma vanish_curlE (h : Vanish w F) (n : Pos) : Vanish w fun i => curlE n (F i) := by
  intro p c
  fin_cases c <;> simp only [curlE, mul_sub, Finset.sum_sub_distrib, vanish_dUp h, sub_zero]

lemma vanish_curlH (h : Vanish w F) : Vanish w fun i => curlH (F i) := by
  intro p c
  fin_cases c <;> simp only [curlH, mul_sub, Finset.sum_sub_distrib, vanish_dDn h, sub_zero]

/-- boundaries of several grids differing at most in the memories of absorbing layers, which combine to zero; a combination involving an absorbing layer has total weight zero -/
def BCombined (w : ι → K) (b : ι → FBoundary K) : Prop :=
  (∃ a, ∀ i, b i = .periodic a) ∨
  ∃ (P0 : Pml K) (P : ι → Pml K), (∀ i, b i = .pml (P i)) ∧
    (∀ i, (P i).axis = P0.axis ∧ (P i).high = P0.high ∧ (P i).thick = P0.thick ∧ (P i).bE = P0.bE ∧ (P i).cE = P0.cE ∧ (P i).bH = P0.bH ∧
      (P i).cH = P0.cH) ∧
    ∑ i, w i = 0 ∧ (∀ m, Vanish w fun i => (P i).psiE m) ∧ ∀ m, Vanish w fun i => (P i).psiH m

/-- sources of several grids differing only in their time functions, which combine to zero -/
def SCombined (w : ι → K) (s : ι → FSource K) : Prop :=
  (∃ d : ι → ℕ → VField K, (∀ i, s i = .soft (d i)) ∧ ∀ t, Vanish w fun i => d i t) ∨
  ∃ cells epol hpol, ∃ v : ι → ℕ → K, (∀ i, s i = .plane cells epol hpol (v i)) ∧ ∀ t, ∑ i, w i * v i t = 0

/-- several grids with the same shape and materials whose states combine to zero -/
structure Combined (w : ι → K) (g0 : FGrid K) (g : ι → FGrid K) : Prop where
  n : ∀ i, (g i).n = g0.n
  courant : ∀ i, (g i).courant = g0.courant
  invEps : ∀ i, (g i).invEps = g0.invEps
  invMu : ∀ i, (g i).invMu = g0.invMu
  absorb : ∀ i, (g i).absorb = g0.absorb
  time : ∀ i, (g i).time = g0.time
  E : Vanish w fun i => (g i).E
  H : Vanish w fun i => (g i).H
  bounds : ∃ bs : List (ι → FBoundary K), (∀ i, (g i).boundaries = bs.map fun b => b i) ∧ ∀ b ∈ bs, BCombined w b
  srcs : ∃ ss : List (ι → FSource K), (∀ i, (g i).sources = ss.map fun s => s i) ∧ ∀ s ∈ ss, SCombined w s

lemma view_eq {n : Pos} {P Q : Pml K} (h1 : P.axis = Q.axis) (h2 : P.high = Q.high) (h3 : P.thick = Q.thick) (F : VField K) :
    P.view n F = Q.view n F := by
  unfold Pml.view Pml.toGlobal Pml.offset
  rw [h1, h2, h3]

lemma vanish_psiE {P0 : Pml K} {P : ι → Pml K} {n : Pos}
    (hs : ∀ i, (P i).axis = P0.axis ∧ (P i).high = P0.high ∧ (P i).thick = P0.thick ∧ (P i).bE = P0.bE ∧ (P i).cE = P0.cE ∧ (P i).bH = P0.bH ∧
      (P i).cH = P0.cH) (hp : ∀ m, Vanish w fun i => (P i).psiE m) (hH : Vanish w F) (m : Fin 3) :
    Vanish w fun i => psiENew n (F i) (P i) m := by
  intro q d
  have hp' : ∑ i, w i * (P i).psiE m q d = 0 := hp m q d
  show ∑ i, w i * psiENew n (F i) (P i) m q d = 0
  have hv : Vanish w fun i => P0.view n (F i) := fun q d => hH _ d
  unfold psiENew
  cases psiPartner m d with
  | none =>
    have : ∀ i, w i * ((P i).psiE m q d * (P i).bE q d) = (w i * (P i).psiE m q d) * P0.bE q d := fun i => by
      rw [(hs i).2.2.2.1]; ring
    simp only [this, ← Finset.sum_mul, hp', zero_mul]
  | some f =>
    have : ∀ i, w i * ((P i).psiE m q d * (P i).bE q d + dDn ((P i).view n (F i)) d f q * (P i).cE q d)
        = (w i * (P i).psiE m q d) * P0.bE q d + (w i * dDn (P0.view n (F i)) d f q) * P0.cE q d := fun i => by
      obtain ⟨h1, h2, h3, h4, h5, -, -⟩ := hs i
      rw [view_eq h1 h2 h3, h4, h5]; ring
    simp only [this, Finset.sum_add_distrib, ← Finset.sum_mul, hp', vanish_dDn hv, zero_mul, add_zero]

lemma vanish_psiH {P0 : Pml K} {P : ι → Pml K} {n : Pos}
    (hs : ∀ i, (P i).axis = P0.axis ∧ (P i).high = P0.high ∧ (P i).thick = P0.thick ∧ (P i).bE = P0.bE ∧ (P i).cE = P0.cE ∧ (P i).bH = P0.bH ∧
      (P i).cH = P0.cH) (hp : ∀ m, Vanish w fun i => (P i).psiH m) (hE : Vanish w F) (m : Fin 3) :
    Vanish w fun i => psiHNew n (F i) (P i) m := by
  intro q d
  have hp' : ∑ i, w i * (P i).psiH m q d = 0 := hp m q d
  show ∑ i, w i * psiHNew n (F i) (P i) m q d = 0
  have hv : Vanish w fun i => P0.view n (F i) := fun q d => hE _ d
  unfold psiHNew
  cases psiPartner m d with
  | none =>
    have : ∀ i, w i * ((P i).psiH m q d * (P i).bH q d) = (w i * (P i).psiH m q d) * P0.bH q d := fun i => by
      rw [(hs i).2.2.2.2.2.1]; ring
    simp only [this, ← Finset.sum_mul, hp', zero_mul]
  | some f =>
    have : ∀ i, w i * ((P i).psiH m q d * (P i).bH q d + dUp ((P i).shape n) ((P i).view n (F i)) d f q * (P i).cH q d)
        = (w i * (P i).psiH m q d) * P0.bH q d + (w i * dUp (P0.shape n) (P0.view n (F i)) d f q) * P0.cH q d := fun i => by
      obtain ⟨h1, h2, h3, -, -, h4, h5⟩ := hs i
      have hsh : (P i).shape n = P0.shape n := by unfold Pml.shape; rw [h1, h3]
      rw [view_eq h1 h2 h3, hsh, h4, h5]; ring
    simp only [this, Finset.sum_add_distrib, ← Finset.sum_mul, hp', vanish_dUp hv, zero_mul, add_zero]

lemma vanish_phi {psi : ι → Fin 3 → VField K} (h : ∀ m, Vanish w fun i => psi i m) : Vanish w fun i => phiOf (psi i) := by
  have h' : ∀ m q d, ∑ i, w i * psi i m q d = 0 := fun m q d => h m q d
  intro q c
  fin_cases c <;> simp only [phiOf, mul_sub, Finset.sum_sub_distrib, h', sub_zero]

lemma bcombined_phaseE {n : Pos} {b : ι → FBoundary K} (hb : BCombined w b) (hF : Vanish w F) :
    BCombined w (fun i => (b i).updatePhiE n (F i)) ∧
      ∀ P : ι → Pml K, (∀ i, (b i).updatePhiE n (F i) = .pml (P i)) → Vanish w fun i => (P i).phiE := by
  rcases hb with ⟨a, ha⟩ | ⟨P0, P, hP, hs, hw, h1, h2⟩
  · refine ⟨Or.inl ⟨a, fun i => by simp only [ha i]; rfl⟩, fun P hP => ?_⟩
    intro p c
    rcases isEmpty_or_nonempty ι with he | ⟨⟨i⟩⟩
    · simp
    · have := hP i
      rw [ha i] at this
      cases this
  · have h3 := vanish_psiE (n := n) hs h1 hF
    refine ⟨Or.inr ⟨P0, fun i => (P i).updatePhiE n (F i), fun i => by simp only [hP i]; rfl, hs, hw, h3, h2⟩, fun Q hQ => ?_⟩
    have : ∀ i, Q i = (P i).updatePhiE n (F i) := fun i => by
      have := hQ i
      rw [hP i] at this
      exact (FBoundary.pml.inj this).symm
    have hq : (fun i => (Q i).phiE) = fun i => phiOf (psiENew n (F i) (P i)) := by funext i; rw [this i]; rfl
    rw [hq]
    exact vanish_phi h3

lemma bcombined_phaseH {n : Pos} {b : ι → FBoundary K} (hb : BCombined w b) (hF : Vanish w F) :
    BCombined w (fun i => (b i).updatePhiH n (F i)) ∧
      ∀ P : ι → Pml K, (∀ i, (b i).updatePhiH n (F i) = .pml (P i)) → Vanish w fun i => (P i).phiH := by
  rcases hb with ⟨a, ha⟩ | ⟨P0, P, hP, hs, hw, h1, h2⟩
  · refine ⟨Or.inl ⟨a, fun i => by simp only [ha i]; rfl⟩, fun P hP => ?_⟩
    intro p c
    rcases isEmpty_or_nonempty ι with he | ⟨⟨i⟩⟩
    · simp
    · have := hP i
      rw [ha i] at this
      cases this
  · have h3 := vanish_psiH (n := n) hs h2 hF
    refine ⟨Or.inr ⟨P0, fun i => (P i).updatePhiH n (F i), fun i => by simp only [hP i]; rfl, hs, hw, h1, h3⟩, fun Q hQ => ?_⟩
    have : ∀ i, Q i = (P i).updatePhiH n (F i) := fun i => by
      have := hQ i
      rw [hP i] at this
      exact (FBoundary.pml.inj this).symm
    have hq : (fun i => (Q i).phiH) = fun i => phiOf (psiHNew n (F i) (P i)) := by funext i; rw [this i]; rfl
    rw [hq]
    exact vanish_phi h3

lemma vanish_boundaryE (n : Pos) (co : K) (ie : VField K) {b : ι → FBoundary K} (hb : BCombined w b)
    (hphi : ∀ P : ι → Pml K, (∀ i, b i = .pml (P i)) → Vanish w fun i => (P i).phiE) (hF : Vanish w F) :
    Vanish w fun i => (b i).updateE n co ie (F i) := by
  rcases hb with ⟨a, ha⟩ | ⟨P0, P, hP, hs, hw, -, -⟩
  · intro p c
    simp only [ha, FBoundary.updateE, periodicE]
    split_ifs <;> exact hF _ c
  · have hph := hphi P hP
    intro p c
    have e : ∀ i, (b i).updateE n co ie (F i) p c
        = if P0.inside n p then F i p c + co * ie p c * ((P i).phiE (P0.toLocal n p) c + pmlTiny) else F i p c := by
      intro i
      obtain ⟨h1, h2, h3, -⟩ := hs i
      have hin : (P i).inside n p ↔ P0.inside n p := by simp only [Pml.inside, Pml.offset, h1, h2, h3]
      have hlo : (P i).toLocal n p = P0.toLocal n p := by simp only [Pml.toLocal, Pml.offset, h1, h2, h3]
      rw [hP i]
      show Pml.updateE _ _ _ _ _ _ _ = _
      unfold Pml.updateE
      rw [hlo]
      by_cases h : P0.inside n p
      · rw [if_pos h, if_pos (hin.mpr h)]
      · rw [if_neg h, if_neg (mt hin.mp h)]
    simp only [e]
    split_ifs
    · have e2 : ∀ i, w i * (F i p c + co * ie p c * ((P i).phiE (P0.toLocal n p) c + pmlTiny))
          = w i * F i p c + co * ie p c * (w i * (P i).phiE (P0.toLocal n p) c) + co * ie p c * pmlTiny * w i := fun i => by ring
      simp only [e2, Finset.sum_add_distrib, ← Finset.mul_sum, hw, hF p c, hph (P0.toLocal n p) c]
      ring
    · exact hF p c

lemma vanish_boundaryH (n : Pos) (co : K) (im : VField K) {b : ι → FBoundary K} (hb : BCombined w b)
    (hphi : ∀ P : ι → Pml K, (∀ i, b i = .pml (P i)) → Vanish w fun i => (P i).phiH) (hF : Vanish w F) :
    Vanish w fun i => (b i).updateH n co im (F i) := by
  rcases hb with ⟨a, ha⟩ | ⟨P0, P, hP, hs, hw, -, -⟩
  · intro p c
    simp only [ha, FBoundary.updateH, periodicH]
    split_ifs <;> exact hF _ c
  · have hph := hphi P hP
    intro p c
    have e : ∀ i, (b i).updateH n co im (F i) p c
        = if P0.inside n p then F i p c - co * im p c * (P i).phiH (P0.toLocal n p) c else F i p c := by
      intro i
      obtain ⟨h1, h2, h3, -⟩ := hs i
      have hin : (P i).inside n p ↔ P0.inside n p := by simp only [Pml.inside, Pml.offset, h1, h2, h3]
      have hlo : (P i).toLocal n p = P0.toLocal n p := by simp only [Pml.toLocal, Pml.offset, h1, h2, h3]
      rw [hP i]
      show Pml.updateH _ _ _ _ _ _ _ = _
      unfold Pml.updateH
      rw [hlo]
      by_cases h : P0.inside n p
      · rw [if_pos h, if_pos (hin.mpr h)]
      · rw [if_neg h, if_neg (mt hin.mp h)]
    simp only [e]
    split_ifs
    · have e2 : ∀ i, w i * (F i p c - co * im p c * (P i).phiH (P0.toLocal n p) c)
          = w i * F i p c - co * im p c * (w i * (P i).phiH (P0.toLocal n p) c) := fun i => by ring
      simp only [e2, Finset.sum_sub_distrib, ← Finset.mul_sum, hF p c, hph (P0.toLocal n p) c]
      ring
    · exact hF p c

lemma vanish_boundariesE (n : Pos) (co : K) (ie : VField K) : ∀ (bs : List (ι → FBoundary K)) (F : ι → VField K), Vanish w F →
    (∀ b ∈ bs, BCombined w b ∧ ∀ P : ι → Pml K, (∀ i, b i = .pml (P i)) → Vanish w fun i => (P i).phiE) →
    Vanish w fun i => applyBoundariesE n co ie (bs.map fun b => b i) (F i) := by
  intro bs
  induction bs with
  | nil => intro F hF _; exact hF
  | cons b bs ih =>
    intro F hF h
    obtain ⟨hb, hp⟩ := h b List.mem_cons_self
    exact ih _ (vanish_boundaryE n co ie hb hp hF) fun b' hb' => h b' (List.mem_cons_of_mem _ hb')

lemma vanish_boundariesH (n : Pos) (co : K) (im : VField K) : ∀ (bs : List (ι → FBoundary K)) (F : ι → VField K), Vanish w F →
    (∀ b ∈ bs, BCombined w b ∧ ∀ P : ι → Pml K, (∀ i, b i = .pml (P i)) → Vanish w fun i => (P i).phiH) →
    Vanish w fun i => applyBoundariesH n co im (bs.map fun b => b i) (F i) := by
  intro bs
  induction bs with
  | nil => intro F hF _; exact hF
  | cons b bs ih =>
    intro F hF h
    obtain ⟨hb, hp⟩ := h b List.mem_cons_self
    exact ih _ (vanish_boundaryH n co im hb hp hF) fun b' hb' => h b' (List.mem_cons_of_mem _ hb')

lemma vanish_sourcesE (t : ℕ) : ∀ (ss : List (ι → FSource K)) (F : ι → VField K), Vanish w F → (∀ s ∈ ss, SCombined w s) →
    Vanish w fun i => applySourcesE t (ss.map fun s => s i) (F i) := by
  intro ss
  induction ss with
  | nil => intro F hF _; exact hF
  | cons s ss ih =>
    intro F hF h
    refine ih (fun i => (s i).updateE t (F i)) ?_ fun s' hs' => h s' (List.mem_cons_of_mem _ hs')
    rcases h s List.mem_cons_self with ⟨d, hd, hv⟩ | ⟨cells, ep, hp, v, hs, hv⟩
    · intro p c
      simp only [hd, FSource.updateE, mul_add, Finset.sum_add_distrib, hF p c, hv t p c, add_zero]
    · intro p c
      simp only [hs, FSource.updateE]
      split_ifs
      · exact hv t
      · exact hF p c

lemma vanish_sourcesH (t : ℕ) : ∀ (ss : List (ι → FSource K)) (F : ι → VField K), Vanish w F → (∀ s ∈ ss, SCombined w s) →
    Vanish w fun i => applySourcesH t (ss.map fun s => s i) (F i) := by
  intro ss
  induction ss with
  | nil => intro F hF _; exact hF
  | cons s ss ih =>
    intro F hF h
    refine ih (fun i => (s i).updateH t (F i)) ?_ fun s' hs' => h s' (List.mem_cons_of_mem _ hs')
    rcases h s List.mem_cons_self with ⟨d, hd, hv⟩ | ⟨cells, ep, hp, v, hs, hv⟩
    · intro p c
      simp only [hd, FSource.updateH]
      exact hF p c
    · intro p c
      simp only [hs, FSource.updateH]
      split_ifs
      · exact hv t
      · exact hF p c

lemma combined_updateE {g0 : FGrid K} {g : ι → FGrid K} (h : Combined w g0 g) : Combined w g0.updateE fun i => (g i).updateE := by
  obtain ⟨bs, hbs, hb⟩ := h.bounds
  obtain ⟨ss, hss, hs⟩ := h.srcs
  have hph : ∀ i, (g i).phasedE = (bs.map fun b => fun i => (b i).updatePhiE g0.n ((g i).H)).map fun b => b i := by
    intro i
    rw [FGrid.phasedE, hbs i, h.n i, List.map_map, List.map_map]
    rfl
  have hall : ∀ b ∈ bs.map (fun b => fun i => (b i).updatePhiE g0.n ((g i).H)), BCombined w b ∧
      ∀ P : ι → Pml K, (∀ i, b i = .pml (P i)) → Vanish w fun i => (P i).phiE := by
    intro b hb'
    rw [List.mem_map] at hb'
    obtain ⟨b0, hb0, rfl⟩ := hb'
    exact bcombined_phaseE (hb b0 hb0) h.H
  have hbulk : Vanish w fun i => bulkE (g i) := by
    intro p c
    have e : ∀ i, w i * bulkE (g i) p c = ((1 - g0.absorb p c) / (1 + g0.absorb p c)) * (w i * (g i).E p c)
        + (g0.courant * g0.invEps p c / (1 + g0.absorb p c)) * (w i * curlH (g i).H p c) := fun i => by
      rw [bulkE, h.absorb i, h.courant i, h.invEps i]; ring
    simp only [e, Finset.sum_add_distrib, ← Finset.mul_sum, h.E p c, vanish_curlH h.H p c, mul_zero, add_zero]
  refine ⟨h.n, h.courant, h.invEps, h.invMu, h.absorb, h.time, ?_, h.H, ⟨_, hph, fun b hb => (hall b hb).1⟩, h.srcs⟩
  have := vanish_sourcesE g0.time ss _ (vanish_boundariesE g0.n g0.courant g0.invEps _ _ hbulk hall) hs
  have e : (fun i => (g i).updateE.E) = fun i => applySourcesE g0.time (ss.map fun s => s i)
      (applyBoundariesE g0.n g0.courant g0.invEps ((bs.map fun b => fun i => (b i).updatePhiE g0.n ((g i).H)).map fun b => b i) (bulkE (g i))) := by
    funext i
    show (g i).newE = _
    rw [FGrid.newE, hph i, h.time i, hss i, h.n i, h.courant i, h.invEps i]
  rw [e]; exact this

lemma combined_updateH {g0 : FGrid K} {g : ι → FGrid K} (h : Combined w g0 g) : Combined w g0.updateH fun i => (g i).updateH := by
  obtain ⟨bs, hbs, hb⟩ := h.bounds
  obtain ⟨ss, hss, hs⟩ := h.srcs
  have hph : ∀ i, (g i).phasedH = (bs.map fun b => fun i => (b i).updatePhiH g0.n ((g i).E)).map fun b => b i := by
    intro i
    rw [FGrid.phasedH, hbs i, h.n i, List.map_map, List.map_map]
    rfl
  have hall : ∀ b ∈ bs.map (fun b => fun i => (b i).updatePhiH g0.n ((g i).E)), BCombined w b ∧
      ∀ P : ι → Pml K, (∀ i, b i = .pml (P i)) → Vanish w fun i => (P i).phiH := by
    intro b hb'
    rw [List.mem_map] at hb'
    obtain ⟨b0, hb0, rfl⟩ := hb'
    exact bcombined_phaseH (hb b0 hb0) h.E
  have hbulk : Vanish w fun i => bulkH (g i) := by
    intro p c
    have e : ∀ i, w i * bulkH (g i) p c = w i * (g i).H p c
        - (g0.courant * g0.invMu p c) * (w i * curlE g0.n (g i).E p c) := fun i => by
      rw [bulkH, h.courant i, h.invMu i, h.n i]; ring
    simp only [e, Finset.sum_sub_distrib, ← Finset.mul_sum, h.H p c, vanish_curlE h.E g0.n p c, mul_zero, sub_zero]
  refine ⟨h.n, h.courant, h.invEps, h.invMu, h.absorb, h.time, h.E, ?_, ⟨_, hph, fun b hb => (hall b hb).1⟩, h.srcs⟩
  have := vanish_sourcesH g0.time ss _ (vanish_boundariesH g0.n g0.courant g0.invMu _ _ hbulk hall) hs
  have e : (fun i => (g i).updateH.H) = fun i => applySourcesH g0.time (ss.map fun s => s i)
      (applyBoundariesH g0.n g0.courant g0.invMu ((bs.map fun b => fun i => (b i).updatePhiH g0.n ((g i).E)).map fun b => b i) (bulkH (g i))) := by
    funext i
    show (g i).newH = _
    rw [FGrid.newH, hph i, h.time i, hss i, h.n i, h.courant i, h.invMu i]
  rw [e]; exact this

lemma combined_step {g0 : FGrid K} {g : ι → FGrid K} (h : Combined w g0 g) : Combined w g0.step fun i => (g i).step := by
  have h1 := combined_updateH (combined_updateE h)
  exact ⟨h1.n, h1.courant, h1.invEps, h1.invMu, h1.absorb, fun i => by
    show (g i).updateE.updateH.time + 1 = g0.updateE.updateH.time + 1
    rw [h1.time i], h1.E, h1.H, h1.bounds, h1.srcs⟩

/-- combinations that are zero stay zero -/
theorem combined_run {g0 : FGrid K} {g : ι → FGrid K} (h : Combined w g0 g) (k : ℕ) : Combined w (g0.run k) fun i => (g i).run k := by
  induction k with
  | zero => exact h
  | succ k ih => exact combined_step ih

/-! ### C52 -/

/-- the same grid driven by one more soft source (a point or line source with arbitrary signal) -/
def FGrid.driven (g : FGrid K) (d : ℕ → VField K) : FGrid K := { g with sources := g.sources ++ [.soft d] }

/-- combination of differently driven copies of one grid -/
lemma combined_driven (g : FGrid K) (w : ι → K) (d : ι → ℕ → VField K) (hd : ∀ t, Vanish w fun i => d i t)
    (hw : (∑ i, w i) = 0) : Combined w g fun i => g.driven (d i) := by
  have hz : ∀ x : K, ∑ i, w i * x = 0 := fun x => by rw [← Finset.sum_mul, hw, zero_mul]
  refine ⟨fun _ => rfl, fun _ => rfl, fun _ => rfl, fun _ => rfl, fun _ => rfl, fun _ => rfl, fun p c => hz _, fun p c => hz _,
    ⟨g.boundaries.map fun b _ => b, fun i => by rw [List.map_map]; exact (List.map_id _).symm, ?_⟩,
    ⟨(g.sources.map fun s _ => s) ++ [fun i => .soft (d i)], fun i => by
      rw [List.map_append, List.map_map]
      show g.sources ++ [FSource.soft (d i)] = _
      congr 1
      exact (List.map_id _).symm, ?_⟩⟩
  · intro b hb
    rw [List.mem_map] at hb
    obtain ⟨b0, -, rfl⟩ := hb
    cases b0 with
    | periodic a => exact Or.inl ⟨a, fun _ => rfl⟩
    | pml P => exact Or.inr ⟨P, fun _ => P, fun _ => rfl, fun _ => ⟨rfl, rfl, rfl, rfl, rfl, rfl, rfl⟩, hw, fun m q c => hz _, fun m q c => hz _⟩
  · intro s hs
    rw [List.mem_append] at hs
    rcases hs with hs | hs
    · rw [List.mem_map] at hs
      obtain ⟨s0, -, rfl⟩ := hs
      cases s0 with
      | soft d0 => exact Or.inl ⟨fun _ => d0, fun _ => rfl, fun t p c => hz _⟩
      | plane cells ep hp v => exact Or.inr ⟨cells, ep, hp, fun _ => v, fun _ => rfl, fun t => hz _⟩
    · rw [List.mem_singleton] at hs
      subst hs
      exact Or.inl ⟨d, fun _ => rfl, hd⟩

/-- C52, superposition for every grid (any objects, boundaries including absorbing layers, other sources, initial fields): the fields with both drives plus the fields with neither equal the sum of the
fields with one drive each, after any number of steps. -/
theorem C52_superposition (g : FGrid K) (d1 d2 : ℕ → VField K) (k : ℕ) (p : Pos) (c : Fin 3) :
    (((g.driven fun t p c => d1 t p c + d2 t p c).run k).E p c + ((g.driven fun _ _ _ => 0).run k).E p c
      = ((g.driven d1).run k).E p c + ((g.driven d2).run k).E p c) ∧
    (((g.driven fun t p c => d1 t p c + d2 t p c).run k).H p c + ((g.driven fun _ _ _ => 0).run k).H p c
      = ((g.driven d1).run k).H p c + ((g.driven d2).run k).H p c) := by
  have h := combined_run (combined_driven g (ι := Fin 4) ![1, 1, -1, -1]
    ![fun t p c => d1 t p c + d2 t p c, fun _ _ _ => 0, d1, d2] (fun t p c => by simp [Fin.sum_univ_four]) (by simp [Fin.sum_univ_four])) k
  have hE := h.E p c
  have hH := h.H p c
  simp only [Fin.sum_univ_four] at hE hH
  constructor
  · simp at hE; linear_combination hE
  · simp at hH; linear_combination hH

/-- C52, scaling for every grid: multiplying the drive by `s` multiplies the deviation from the undriven run by `s`. -/
theorem C52_scaling (g : FGrid K) (d : ℕ → VField K) (s : K) (k : ℕ) (p : Pos) (c : Fin 3) :
    (((g.driven fun t p c => s * d t p c).run k).E p c - ((g.driven fun _ _ _ => 0).run k).E p c
      = s * (((g.driven d).run k).E p c - ((g.driven fun _ _ _ => 0).run k).E p c)) ∧
    (((g.driven fun t p c => s * d t p c).run k).H p c - ((g.driven fun _ _ _ => 0).run k).H p c
      = s * (((g.driven d).run k).H p c - ((g.driven fun _ _ _ => 0).run k).H p c)) := by
  have h := combined_run (combined_driven g (ι := Fin 3) ![1, -s, s - 1]
    ![fun t p c => s * d t p c, d, fun _ _ _ => 0] (fun t p c => by simp [Fin.sum_univ_three]) (by simp [Fin.sum_univ_three]; ring)) k
  have hE := h.E p c
  have hH := h.H p c
  simp only [Fin.sum_univ_three] at hE hH
  constructor
  · simp at hE; linear_combination hE
  · simp at hH; linear_combination hH

/-- a dark grid: all fields zero, no source yet, no absorbing layer -/
structure Dark (g : FGrid K) : Prop where
  E : ∀ p c, g.E p c = 0
  H : ∀ p c, g.H p c = 0
  sources : g.sources = []
  bounds : ∀ b ∈ g.boundaries, ∃ a, b = .periodic a

lemma combined_dark (g : FGrid K) (hg : Dark g) (w : ι → K) (d : ι → ℕ → VField K) (hd : ∀ t, Vanish w fun i => d i t) :
    Combined w g fun i => g.driven (d i) := by
  refine ⟨fun _ => rfl, fun _ => rfl, fun _ => rfl, fun _ => rfl, fun _ => rfl, fun _ => rfl,
    fun p c => by simp [FGrid.driven, hg.E], fun p c => by simp [FGrid.driven, hg.H],
    ⟨g.boundaries.map fun b _ => b, fun i => by rw [List.map_map]; exact (List.map_id _).symm, ?_⟩,
    ⟨[fun i => .soft (d i)], fun i => by show g.sources ++ _ = _; rw [hg.sources]; rfl, ?_⟩⟩
  · intro b hb
    rw [List.mem_map] at hb
    obtain ⟨b0, hb0, rfl⟩ := hb
    obtain ⟨a, rfl⟩ := hg.bounds b0 hb0
    exact Or.inl ⟨a, fun _ => rfl⟩
  · intro s hs
    rw [List.mem_singleton] at hs
    subst hs
    exact Or.inl ⟨d, fun _ => rfl, hd⟩

/-- C52, exact linearity for dark grids without absorbing layers. What is missing: absorbing layers, where it is false (C52_false). -/
theorem C52_linear_partial (g : FGrid K) (hg : Dark g) (d1 d2 : ℕ → VField K) (s : K) (k : ℕ) (p : Pos) (c : Fin 3) :
    (((g.driven fun t p c => d1 t p c + s * d2 t p c).run k).E p c = ((g.driven d1).run k).E p c + s * ((g.driven d2).run k).E p c) ∧
    (((g.driven fun t p c => d1 t p c + s * d2 t p c).run k).H p c = ((g.driven d1).run k).H p c + s * ((g.driven d2).run k).H p c) := by
  have h := combined_run (combined_dark g hg (ι := Fin 3) ![1, -1, -s]
    ![fun t p c => d1 t p c + s * d2 t p c, d1, d2] (fun t p c => by simp [Fin.sum_univ_three])) k
  have hE := h.E p c
  have hH := h.H p c
  simp only [Fin.sum_univ_three] at hE hH
  constructor
  · simp at hE; linear_combination hE
  · simp at hH; linear_combination hH

/-- C52 for detector signals: the same for every recorded electric sample of every detector. -/
theorem C52_signals (g : FGrid K) (d1 d2 : ℕ → VField K) (k : ℕ) (det : FDetector K) (hdet : det ∈ g.detectors) (i : ℕ) (hi : i < k) (c : Fin 3) :
    ∃ s12 s0 s1 s2 : List (Fin 3 → K), ∃ D12 ∈ ((g.driven fun t p c => d1 t p c + d2 t p c).run k).detectors, ∃ D0 ∈ ((g.driven fun _ _ _ => 0).run k).detectors,
      ∃ D1 ∈ ((g.driven d1).run k).detectors, ∃ D2 ∈ ((g.driven d2).run k).detectors,
      D12.recE[det.recE.length + i]? = some s12 ∧ D0.recE[det.recE.length + i]? = some s0 ∧ D1.recE[det.recE.length + i]? = some s1 ∧
      D2.recE[det.recE.length + i]? = some s2 ∧
      ∀ j < det.cells.length, ∃ v12 v0 v1 v2, s12[j]? = some v12 ∧ s0[j]? = some v0 ∧ s1[j]? = some v1 ∧ s2[j]? = some v2 ∧
        v12 c + v0 c = v1 c + v2 c := by
  have key : ∀ d : ℕ → VField K, ∃ D ∈ ((g.driven d).run k).detectors,
      D.recE[det.recE.length + i]? = some (det.cells.map fun p => ((g.driven d).run (i + 1)).E p) := by
    intro d
    refine ⟨⟨det.cells, det.recE ++ (List.range k).map (fun i => det.cells.map fun p => ((g.driven d).run (i + 1)).E p),
        det.recH ++ (List.range k).map (fun i => det.cells.map fun p => ((g.driven d).run (i + 1)).H p)⟩, ?_, ?_⟩
    · rw [C56_samples]
      exact List.mem_map.mpr ⟨det, hdet, rfl⟩
    · show (det.recE ++ _)[det.recE.length + i]? = _
      rw [List.getElem?_append_right (by omega), Nat.add_sub_cancel_left, List.getElem?_map, List.getElem?_range hi]
      rfl
  obtain ⟨D12, h12, e12⟩ := key fun t p c => d1 t p c + d2 t p c
  obtain ⟨D0, h0, e0⟩ := key fun _ _ _ => 0
  obtain ⟨D1, h1, e1⟩ := key d1
  obtain ⟨D2, h2, e2⟩ := key d2
  refine ⟨_, _, _, _, D12, h12, D0, h0, D1, h1, D2, h2, e12, e0, e1, e2, fun j hj => ?_⟩
  simp only [List.getElem?_map, List.getElem?_eq_getElem hj, Option.map_some]
  exact ⟨_, _, _, _, rfl, rfl, rfl, rfl, (C52_superposition g d1 d2 (i + 1) _ c).1⟩

/-! ### C51 -/

/-- C51: without absorbing layers a dark grid stays dark for ever (any shape, materials, periodic boundaries). What is missing: absorbing layers, where it is false (C51_false). -/
theorem C51_dark_partial (g : FGrid K) (hg : Dark g) (k : ℕ) :
    (∀ p c, (g.run k).E p c = 0) ∧ (∀ p c, (g.run k).H p c = 0) := by
  have h0 : Combined (ι := Fin 1) ![1] g fun _ => g := by
    refine ⟨fun _ => rfl, fun _ => rfl, fun _ => rfl, fun _ => rfl, fun _ => rfl, fun _ => rfl,
      fun p c => by simp [hg.E], fun p c => by simp [hg.H],
      ⟨g.boundaries.map fun b _ => b, fun i => by rw [List.map_map]; exact (List.map_id _).symm, ?_⟩,
      ⟨[], fun i => by rw [hg.sources]; rfl, fun s hs => by cases hs⟩⟩
    intro b hb
    rw [List.mem_map] at hb
    obtain ⟨b0, hb0, rfl⟩ := hb
    obtain ⟨a, rfl⟩ := hg.bounds b0 hb0
    exact Or.inl ⟨a, fun _ => rfl⟩
  have h := combined_run h0 k
  constructor
  · intro p c; simpa using h.E p c
  · intro p c; simpa using h.H p c

/-- C51: and its detectors record nothing but zeros. -/
theorem C51_detectors_partial (g : FGrid K) (hg : Dark g) (hd : ∀ d ∈ g.detectors, d.recE = [] ∧ d.recH = []) (k : ℕ) :
    ∀ d ∈ (g.run k).detectors, (∀ s ∈ d.recE, ∀ v ∈ s, ∀ c, v c = 0) ∧ ∀ s ∈ d.recH, ∀ v ∈ s, ∀ c, v c = 0 := by
  intro d hd'
  rw [C56_samples, List.mem_map] at hd'
  obtain ⟨d0, hd0, rfl⟩ := hd'
  obtain ⟨e1, e2⟩ := hd d0 hd0
  simp only [e1, e2, List.nil_append, List.mem_map]
  constructor
  · rintro s ⟨i, -, rfl⟩ v hv c
    rw [List.mem_map] at hv
    obtain ⟨p, -, rfl⟩ := hv
    exact (C51_dark_partial g hg (i + 1)).1 p c
  · rintro s ⟨i, -, rfl⟩ v hv c
    rw [List.mem_map] at hv
    obtain ⟨p, -, rfl⟩ := hv
    exact (C51_dark_partial g hg (i + 1)).2 p c

/-- a dark grid with a dielectric and a periodic boundary -/
example : ∃ g : FGrid ℚ, Dark g ∧ g.boundaries ≠ [] ∧ g.invEps ![1, 0, 0] 2 ≠ g.invEps ![0, 0, 0] 2 ∧
    ((g.driven fun _ p c => if p 0 = 1 ∧ c = 2 then 1 else 0).run 3).E ![2, 0, 0] 2 ≠ 0 :=
  ⟨{ FGrid.fresh ![4, 3, 1] (1 / 2) 1 1 with
      invEps := fun p _ => if p 0 = 1 then 1 / 2 else 1
      boundaries := [.periodic 1] },
    ⟨fun _ _ => rfl, fun _ _ => rfl, rfl, by intro b hb; exact ⟨1, by simpa using hb⟩⟩, by simp, by decide +kernel, by decide +kernel⟩

/-! ### C55 -/

/-- C55: on a grid that starts dark at time zero and has no absorbing layer, running `j` steps, resetting and running `k` steps gives the same fields as running `k` steps at once,
for any sources, materials and periodic boundaries. What is missing: absorbing layers, where it is false (C55_false). -/
theorem C55_fields_partial (g : FGrid K) (hE : ∀ p c, g.E p c = 0) (hH : ∀ p c, g.H p c = 0) (ht : g.time = 0)
    (hb : ∀ b ∈ g.boundaries, ∃ a, b = .periodic a) (j k : ℕ) :
    ((g.run j).reset.run k).E = (g.run k).E ∧ ((g.run j).reset.run k).H = (g.run k).H := by
  have hbs : (g.run j).boundaries = g.boundaries := by
    induction j with
    | zero => rfl
    | succ j ih =>
      show ((g.run j).boundaries.map _).map _ = _
      rw [ih, List.map_map]
      conv_rhs => rw [← List.map_id g.boundaries]
      refine List.map_congr_left fun b hb' => ?_
      obtain ⟨a, rfl⟩ := hb b hb'
      rfl
  have hz : ∀ x : K, ∑ i, (![1, -1] : Fin 2 → K) i * x = 0 := fun x => by simp [Fin.sum_univ_two]
  have h0 : Combined (ι := Fin 2) ![1, -1] g ![(g.run j).reset, g] := by
    constructor
    · intro i; fin_cases i; exacts [run_n g j, rfl]
    · intro i; fin_cases i; exacts [run_courant g j, rfl]
    · intro i; fin_cases i; exacts [run_invEps g j, rfl]
    · intro i; fin_cases i; exacts [run_invMu g j, rfl]
    · intro i; fin_cases i; exacts [run_absorb g j, rfl]
    · intro i; fin_cases i
      · show (g.run j).time * 0 = _
        rw [Nat.mul_zero, ht]
      · rfl
    · intro p c; simp [Fin.sum_univ_two, FGrid.reset, hE]
    · intro p c; simp [Fin.sum_univ_two, FGrid.reset, hH]
    · refine ⟨g.boundaries.map fun b _ => b, fun i => ?_, ?_⟩
      · rw [List.map_map]
        fin_cases i
        · exact hbs.trans (List.map_id _).symm
        · exact (List.map_id _).symm
      · intro b hb'
        rw [List.mem_map] at hb'
        obtain ⟨b0, hb0, rfl⟩ := hb'
        obtain ⟨a, rfl⟩ := hb b0 hb0
        exact Or.inl ⟨a, fun _ => rfl⟩
    · refine ⟨g.sources.map fun s _ => s, fun i => ?_, ?_⟩
      · rw [List.map_map]
        fin_cases i
        · exact (run_sources g j).trans (List.map_id _).symm
        · exact (List.map_id _).symm
      · intro s hs
        rw [List.mem_map] at hs
        obtain ⟨s0, -, rfl⟩ := hs
        cases s0 with
        | soft d0 => exact Or.inl ⟨fun _ => d0, fun _ => rfl, fun t p c => hz _⟩
        | plane cells ep hp v => exact Or.inr ⟨cells, ep, hp, fun _ => v, fun _ => rfl, fun t => hz _⟩
  have h := combined_run h0 k
  constructor
  · funext p c
    have := h.E p c
    simp only [Fin.sum_univ_two] at this
    simp at this
    linear_combination this
  · funext p c
    have := h.H p c
    simp only [Fin.sum_univ_two] at this
    simp at this
    linear_combination this

/-- C55 for the recordings: dropping the samples of the first run, every detector holds the samples of a run from the start (the old ones are kept: reset does not clear detectors). -/
theorem C55_detectors_partial (g : FGrid K) (hE : ∀ p c, g.E p c = 0) (hH : ∀ p c, g.H p c = 0) (ht : g.time = 0)
    (hb : ∀ b ∈ g.boundaries, ∃ a, b = .periodic a) (hd : ∀ d ∈ g.detectors, d.recE = [] ∧ d.recH = []) (j k : ℕ) :
    ((g.run j).reset.run k).detectors.map (fun d => (d.cells, d.recE.drop j, d.recH.drop j))
      = (g.run k).detectors.map (fun d => (d.cells, d.recE, d.recH)) ∧
    ((g.run j).reset.run k).detectors.map (fun d => (d.cells, d.recE.take j, d.recH.take j))
      = (g.run j).detectors.map (fun d => (d.cells, d.recE, d.recH)) := by
  have hr : (g.run j).reset.detectors = (g.run j).detectors := rfl
  have hf : ∀ i, ((g.run j).reset.run i).E = (g.run i).E ∧ ((g.run j).reset.run i).H = (g.run i).H := fun i => C55_fields_partial g hE hH ht hb j i
  rw [C56_samples (g.run j).reset k, hr, C56_samples g j, C56_samples g k]
  simp only [List.map_map]
  constructor
  · refine List.map_congr_left fun d hd' => ?_
    obtain ⟨e1, e2⟩ := hd d hd'
    simp only [Function.comp_apply, e1, e2, List.nil_append, (hf _).1, (hf _).2]
    congr 2 <;> rw [List.drop_append_of_le_length (by simp), List.drop_of_length_le (by simp), List.nil_append]
  · refine List.map_congr_left fun d hd' => ?_
    obtain ⟨e1, e2⟩ := hd d hd'
    simp only [Function.comp_apply, e1, e2, List.nil_append]
    congr 2 <;> rw [List.take_append_of_le_length (by simp), List.take_of_length_le (by simp)]

example : ∃ g : FGrid ℚ, (∀ p c, g.E p c = 0) ∧ (∀ p c, g.H p c = 0) ∧ g.time = 0 ∧ (∀ b ∈ g.boundaries, ∃ a, b = .periodic a) ∧
    (∀ d ∈ g.detectors, d.recE = [] ∧ d.recH = []) ∧ g.boundaries ≠ [] ∧ g.detectors ≠ [] ∧ (g.run 2).E ![2, 0, 0] 2 ≠ 0 :=
  ⟨{ FGrid.fresh ![4, 3, 1] (1 / 2) 1 1 with
      boundaries := [.periodic 1]
      sources := [.soft fun _ p c => if p 0 = 1 ∧ c = 2 then 1 else 0]
      detectors := [⟨[![1, 0, 0], ![2, 0, 0]], [], []⟩] },
    fun _ _ => rfl, fun _ _ => rfl, rfl, by intro b hb; exact ⟨1, by simpa using hb⟩, by decide, by simp, by simp, by decide +kernel⟩

end

/-! ### with absorbing layers -/

/-- a fresh grid of `n` cells in x with one absorbing layer of thickness `t` at the low end -/
noncomputable def layered (n t : ℕ) (courant : ℝ) : FGrid ℝ :=
  { FGrid.fresh ![n, 1, 1] courant 1 1 with boundaries := [.pml (mkPml 0 false t (1 / 10 ^ 8) courant)] }

lemma phiE_dark (n : Pos) (P : Pml ℝ) (h0 : ∀ m q c, P.psiE m q c = 0) (H : VField ℝ) (hH : ∀ p c, H p c = 0) (q : Pos) (c : Fin 3) :
    (P.updatePhiE n H).phiE q c = 0 := by
  have hz : ∀ m q d, psiENew n H P m q d = 0 := by
    intro m q d
    have hd : ∀ f, dDn (P.view n H) d f q = 0 := fun f => by unfold dDn Pml.view; simp [hH]
    unfold psiENew
    cases psiPartner m d <;> simp [h0, hd]
  show phiOf (psiENew n H P) q c = 0
  fin_cases c <;> simp [phiOf, hz]

lemma layered_stepE (n t : ℕ) (courant : ℝ) (d : ℕ → VField ℝ) (p : Pos) (hp : p 0 < t) (c : Fin 3) :
    ((layered n t courant).driven d).step.E p c = courant * (1 / 10 ^ 16) + d 0 p c := by
  have hin : (mkPml 0 false t (1 / 10 ^ 8) courant).inside ![n, 1, 1] p := by
    show (if (false : Bool) = true then _ else 0) ≤ p 0 ∧ p 0 < (if (false : Bool) = true then _ else 0) + t
    simp [hp]
  have hphi := phiE_dark ![n, 1, 1] (mkPml 0 false t (1 / 10 ^ 8) courant) (fun _ _ _ => rfl) (fun _ _ => 0) (fun _ _ => rfl)
  have hbulk : bulkE ((layered n t courant).driven d) p c = 0 := by
    have hz : ∀ a c, dDn (fun _ _ => (0 : ℝ)) a c p = 0 := fun a c => by simp [dDn]
    have hc : curlH (fun _ _ => (0 : ℝ)) p c = 0 := by fin_cases c <;> simp [curlH, hz]
    show (0 : ℝ) * _ + _ * _ * curlH (fun _ _ => (0 : ℝ)) p c / _ = 0
    rw [hc]; ring
  show (Pml.updateE ![n, 1, 1] courant (fun _ _ => 1 / 1) ((mkPml 0 false t (1 / 10 ^ 8) courant).updatePhiE ![n, 1, 1] (fun _ _ => 0))
    (bulkE ((layered n t courant).driven d))) p c + d 0 p c = _
  unfold Pml.updateE
  have hin' : ((mkPml 0 false t (1 / 10 ^ 8) courant).updatePhiE ![n, 1, 1] (fun _ _ => 0)).inside ![n, 1, 1] p := hin
  rw [if_pos hin', hbulk, hphi]
  simp [pmlTiny]

/-- C51 fails with absorbing layers: for every positive Courant number and thickness, a source-free fresh grid with a layer has a nonzero electric field after one step in every cell of the layer. -/
theorem C51_false (n t : ℕ) (courant : ℝ) (hc : 0 < courant) (p : Pos) (hp : p 0 < t) (c : Fin 3) :
    (∀ p c, (layered n t courant).E p c = 0 ∧ (layered n t courant).H p c = 0) ∧ (layered n t courant).sources = [] ∧
    0 < ((layered n t courant).run 1).E p c := by
  refine ⟨fun p c => ⟨rfl, rfl⟩, rfl, ?_⟩
  have h := layered_stepE n t courant (fun _ _ _ => 0) p hp c
  have e : ((layered n t courant).driven fun _ _ _ => 0).step.E p c = ((layered n t courant).run 1).E p c := by
    show _ + (0 : ℝ) = _
    rw [add_zero]; rfl
  rw [← e, h]
  have : 0 < courant * (1 / 10 ^ 16) := by positivity
  linarith

/-- C52 fails with absorbing layers: whatever the two drives are, the response to their sum is not the sum of the responses. -/
theorem C52_false (n t : ℕ) (courant : ℝ) (hc : 0 < courant) (d1 d2 : ℕ → VField ℝ) (p : Pos) (hp : p 0 < t) (c : Fin 3) :
    (((layered n t courant).driven fun k p c => d1 k p c + d2 k p c).run 1).E p c
      ≠ (((layered n t courant).driven d1).run 1).E p c + (((layered n t courant).driven d2).run 1).E p c := by
  show ((layered n t courant).driven fun k p c => d1 k p c + d2 k p c).step.E p c
    ≠ ((layered n t courant).driven d1).step.E p c + ((layered n t courant).driven d2).step.E p c
  rw [layered_stepE _ _ _ _ _ hp, layered_stepE _ _ _ _ _ hp, layered_stepE _ _ _ _ _ hp]
  have : 0 < courant * (1 / 10 ^ 16) := by positivity
  intro h
  linarith

/-! ### reset with an absorbing layer -/

/-- a dark two-cell grid with one layer in a given state and one soft source -/
noncomputable def oneLayer (co : ℝ) (Q : Pml ℝ) (d : ℕ → VField ℝ) : FGrid ℝ :=
  { FGrid.fresh ![2, 1, 1] co 1 1 with boundaries := [.pml Q], sources := [.soft d] }

lemma oneLayer_E (co : ℝ) (Q : Pml ℝ) (d : ℕ → VField ℝ) (h0 : ∀ m q c, Q.psiE m q c = 0) (p : Pos) (c : Fin 3) :
    (oneLayer co Q d).step.E p c = (if Q.inside ![2, 1, 1] p then co * (1 / 10 ^ 16) else 0) + d 0 p c := by
  have hphi := phiE_dark ![2, 1, 1] Q h0 (fun _ _ => 0) (fun _ _ => rfl)
  have hbulk : bulkE (oneLayer co Q d) p c = 0 := by
    have hz : ∀ a c, dDn (fun _ _ => (0 : ℝ)) a c p = 0 := fun a c => by simp [dDn]
    have hc : curlH (fun _ _ => (0 : ℝ)) p c = 0 := by fin_cases c <;> simp [curlH, hz]
    show (0 : ℝ) * _ + _ * _ * curlH (fun _ _ => (0 : ℝ)) p c / _ = 0
    rw [hc]; ring
  show (Pml.updateE ![2, 1, 1] co (fun _ _ => 1 / 1) (Q.updatePhiE ![2, 1, 1] (fun _ _ => 0)) (bulkE (oneLayer co Q d))) p c + d 0 p c = _
  unfold Pml.updateE
  have hi : (Q.updatePhiE ![2, 1, 1] (fun _ _ => 0)).inside ![2, 1, 1] p ↔ Q.inside ![2, 1, 1] p := Iff.rfl
  by_cases hin : Q.inside ![2, 1, 1] p
  · rw [if_pos hin, if_pos (hi.mpr hin), hbulk, hphi]
    simp [pmlTiny]
  · rw [if_neg hin, if_neg (mt hi.mp hin), hbulk]

lemma oneLayer_H (co : ℝ) (Q : Pml ℝ) (d : ℕ → VField ℝ) (p : Pos) (hin : Q.inside ![2, 1, 1] p) (c : Fin 3) :
    (oneLayer co Q d).step.H p c = -(co * curlE ![2, 1, 1] (oneLayer co Q d).step.E p c)
      - co * phiOf (psiHNew ![2, 1, 1] (oneLayer co Q d).step.E Q) (Q.toLocal ![2, 1, 1] p) c := by
  show Pml.updateH ![2, 1, 1] co (fun _ _ => 1 / 1) ((Q.updatePhiE ![2, 1, 1] (fun _ _ => 0)).updatePhiH ![2, 1, 1] (oneLayer co Q d).step.E)
    (fun p c => 0 - co * (1 / 1) * curlE ![2, 1, 1] (oneLayer co Q d).step.E p c) p c = _
  unfold Pml.updateH
  have hi : ((Q.updatePhiE ![2, 1, 1] (fun _ _ => 0)).updatePhiH ![2, 1, 1] (oneLayer co Q d).step.E).inside ![2, 1, 1] p := hin
  rw [if_pos hi]
  show 0 - co * (1 / 1) * curlE ![2, 1, 1] (oneLayer co Q d).step.E p c
    - co * (1 / 1) * phiOf (psiHNew ![2, 1, 1] (oneLayer co Q d).step.E Q) (Q.toLocal ![2, 1, 1] p) c = _
  ring

/-- adds 1 to `E_z` in the second plane in every step -/
def unitDrive : ℕ → VField ℝ := fun _ p c => if p 0 = 1 ∧ c = 2 then 1 else 0

/-- C55 fails with absorbing layers: on a fresh grid with a layer and a source, one step, a reset and one step give a different magnetic field than one step,
because `reset` keeps the memories of the layers. For every positive Courant number. -/
theorem C55_false (co : ℝ) (hc : 0 < co) :
    ((((layered 2 2 co).driven unitDrive).run 1).reset.run 1).H ![0, 0, 0] 1 ≠ (((layered 2 2 co).driven unitDrive).run 1).H ![0, 0, 0] 1 := by
  set P := mkPml 0 false 2 (1 / 10 ^ 8) co with hP
  have hg : (layered 2 2 co).driven unitDrive = oneLayer co P unitDrive := rfl
  set E1 := (oneLayer co P unitDrive).step.E with hE1
  set P1 := (P.updatePhiE ![2, 1, 1] (fun _ _ => 0)).updatePhiH ![2, 1, 1] E1 with hP1
  have hreset : ((oneLayer co P unitDrive).run 1).reset = oneLayer co P1 unitDrive := by
    show ({ (oneLayer co P unitDrive).step with H := fun p c => _ * 0, E := fun p c => _ * 0, time := _ * 0 } : FGrid ℝ) = _
    simp only [mul_zero]
    rfl
  have hps : ∀ m q c, P1.psiE m q c = 0 := by
    intro m q d
    show psiENew ![2, 1, 1] (fun _ _ => (0 : ℝ)) P m q d = 0
    have hd : ∀ f, dDn (P.view ![2, 1, 1] fun _ _ => (0 : ℝ)) d f q = 0 := fun f => by unfold dDn Pml.view; simp
    have h0 : P.psiE m q d = 0 := rfl
    unfold psiENew
    cases psiPartner m d <;> simp [h0, hd]
  have hEE : (oneLayer co P1 unitDrive).step.E = E1 := by
    funext p c
    rw [hE1, oneLayer_E co P1 _ hps, oneLayer_E co P _ fun _ _ _ => rfl]
    rfl
  have hin : P.inside ![2, 1, 1] ![0, 0, 0] := show (0 : ℕ) ≤ 0 ∧ 0 < 0 + 2 by decide
  have hin1 : P1.inside ![2, 1, 1] ![0, 0, 0] := hin
  have hloc : P1.toLocal ![2, 1, 1] ![0, 0, 0] = P.toLocal ![2, 1, 1] ![0, 0, 0] := rfl
  rw [hg, hreset]
  show (oneLayer co P1 unitDrive).step.H _ _ ≠ (oneLayer co P unitDrive).step.H _ _
  rw [oneLayer_H co P1 _ _ hin1, oneLayer_H co P _ _ hin, hEE, ← hE1, hloc]
  set q := P.toLocal ![2, 1, 1] ![0, 0, 0] with hq
  have hq0 : q = ![0, 0, 0] := by
    funext a
    fin_cases a <;> rfl
  have hp12 : P1.psiH 1 q 2 = 0 := by
    show psiHNew ![2, 1, 1] E1 (P.updatePhiE ![2, 1, 1] fun _ _ => 0) 1 q 2 = 0
    show (0 : ℝ) * _ + dUp _ _ 2 0 q * _ = 0
    have : dUp ((P.updatePhiE ![2, 1, 1] fun _ _ => 0).shape ![2, 1, 1]) ((P.updatePhiE ![2, 1, 1] fun _ _ => 0).view ![2, 1, 1] E1) 2 0 q = 0 := by
      unfold dUp
      rw [if_neg]
      rw [hq0]
      show ¬ (0 + 1 < 1)
      decide
    rw [this]; ring
  have hp10 : P1.psiH 1 q 0 = P.cH q 0 := by
    show (0 : ℝ) * _ + dUp ((P.updatePhiE ![2, 1, 1] fun _ _ => 0).shape ![2, 1, 1]) ((P.updatePhiE ![2, 1, 1] fun _ _ => 0).view ![2, 1, 1] E1) 0 2 q * P.cH q 0 = _
    have : dUp ((P.updatePhiE ![2, 1, 1] fun _ _ => 0).shape ![2, 1, 1]) ((P.updatePhiE ![2, 1, 1] fun _ _ => 0).view ![2, 1, 1] E1) 0 2 q = 1 := by
      unfold dUp
      rw [if_pos (by rw [hq0]; show 0 + 1 < 2; decide)]
      show E1 (P.toGlobal ![2, 1, 1] (q.up 0)) 2 - E1 (P.toGlobal ![2, 1, 1] q) 2 = 1
      have e1 : P.toGlobal ![2, 1, 1] (q.up 0) = ![1, 0, 0] := by rw [hq0]; funext a; fin_cases a <;> rfl
      have e0 : P.toGlobal ![2, 1, 1] q = ![0, 0, 0] := by rw [hq0]; funext a; fin_cases a <;> rfl
      have i1 : P.inside ![2, 1, 1] ![1, 0, 0] := show (0 : ℕ) ≤ 1 ∧ 1 < 0 + 2 by decide
      rw [e1, e0, hE1, oneLayer_E co P _ fun _ _ _ => rfl, oneLayer_E co P _ fun _ _ _ => rfl, if_pos i1, if_pos hin]
      simp [unitDrive]
    rw [this]; ring
  have hc0 : P.cH q 0 < 0 := by
    have := (C49_layer 0 false 2 (1 / 10 ^ 8) co (by norm_num) hc q (by rw [hq0]; decide) 0).2.2.2.2.2
    exact this.mpr ⟨rfl, by rw [hq0]; decide⟩
  have hb0 : 0 < P.bH q 0 := (C49_layer 0 false 2 (1 / 10 ^ 8) co (by norm_num) hc q (by rw [hq0]; decide) 0).2.1
  have hdiff : phiOf (psiHNew ![2, 1, 1] E1 P1) q 1 = phiOf (psiHNew ![2, 1, 1] E1 P) q 1 - P.cH q 0 * P.bH q 0 := by
    show (P1.psiH 1 q 2 * P.bH q 2 + dUp (P.shape ![2, 1, 1]) (P.view ![2, 1, 1] E1) 2 0 q * P.cH q 2)
        - (P1.psiH 1 q 0 * P.bH q 0 + dUp (P.shape ![2, 1, 1]) (P.view ![2, 1, 1] E1) 0 2 q * P.cH q 0)
      = ((0 : ℝ) * P.bH q 2 + dUp (P.shape ![2, 1, 1]) (P.view ![2, 1, 1] E1) 2 0 q * P.cH q 2)
        - ((0 : ℝ) * P.bH q 0 + dUp (P.shape ![2, 1, 1]) (P.view ![2, 1, 1] E1) 0 2 q * P.cH q 0) - P.cH q 0 * P.bH q 0
    rw [hp12, hp10]; ring
  rw [hdiff]
  intro h
  have h1 : co * (P.cH q 0 * P.bH q 0) = 0 := by linear_combination h
  have h2 : P.cH q 0 * P.bH q 0 < 0 := mul_neg_of_neg_of_pos hc0 hb0
  have h3 : co * (P.cH q 0 * P.bH q 0) < 0 := mul_neg_of_pos_of_neg hc h2
  linarith

end Nidn
