/-
C177: the order in which boundaries, sources, detectors and objects are added to an FDTD grid.
-/
import Verif.Props.FdtdObjects
import Verif.Props.FdtdRun
import Mathlib.Tactic.FieldSimp
import Mathlib.Tactic.LinearCombination

set_option linter.unusedSectionVars false

namespace Nidn

section
variable {K : Type} [Field K]

/-- Specification: the first and the last plane along axis `a` hold the same values (they are one place of a periodic grid). -/
def SeamEqual (n : Pos) (a : Fin 3) (F : VField K) : Prop := ∀ p c, F (Function.update p a 0) c = F (Function.update p a (n a - 1)) c

/-- Specification: an absorbing layer across another axis that does not vary from the first to the last plane of axis `a`. -/
structure SeamLayer (n : Pos) (a : Fin 3) (P : Pml K) : Prop where
  across : P.axis ≠ a
  bE : SeamEqual n a P.bE
  cE : SeamEqual n a P.cE
  bH : SeamEqual n a P.bH
  cH : SeamEqual n a P.cH
  flatE : ∀ q, P.cE q a = 0
  flatH : ∀ q, P.cH q a = 0
  psiE : ∀ m, SeamEqual n a (P.psiE m)
  psiH : ∀ m, SeamEqual n a (P.psiH m)
  phiE : SeamEqual n a P.phiE
  phiH : SeamEqual n a P.phiH

/-- Specification: a source that treats the first and the last plane alike. -/
def SeamSource (n : Pos) (a : Fin 3) : FSource K → Prop
  | .soft drive => ∀ t, SeamEqual n a (drive t)
  | .plane cells _ _ _ => ∀ p, cells (Function.update p a 0) = cells (Function.update p a (n a - 1))

/-- Specification: a simulation in a state that belongs to a periodic grid: along each periodic axis fields, materials, layers and sources are the same on the first and the last plane. -/
structure SeamGrid (g : FGrid K) (a : Fin 3) : Prop where
  ring : FBoundary.periodic a ∈ g.boundaries
  invEps : SeamEqual g.n a g.invEps
  invMu : SeamEqual g.n a g.invMu
  E : SeamEqual g.n a g.E
  H : SeamEqual g.n a g.H
  layers : ∀ P, FBoundary.pml P ∈ g.boundaries → SeamLayer g.n a P
  sources : ∀ s ∈ g.sources, SeamSource g.n a s

/-- Specification: two sources that do not get into each other's way: a plane source overwrites, so it must not share a cell with another source (soft sources may overlap). -/
def ApartSources : FSource K → FSource K → Prop
  | .soft _, .soft _ => True
  | .soft drive, .plane cells e _ _ => ∀ t p, cells p = true → drive t p e = 0
  | .plane cells e _ _, .soft drive => ∀ t p, cells p = true → drive t p e = 0
  | .plane cells _ _ _, .plane cells' _ _ _ => ∀ p, ¬ (cells p = true ∧ cells' p = true)

/-- Specification: the same grid, its boundaries, sources and detectors added in another order. -/
structure Reordered (g g' : FGrid K) : Prop where
  n : g'.n = g.n
  courant : g'.courant = g.courant
  invEps : g'.invEps = g.invEps
  invMu : g'.invMu = g.invMu
  absorb : g'.absorb = g.absorb
  E : g'.E = g.E
  H : g'.H = g.H
  time : g'.time = g.time
  boundaries : g.boundaries.Perm g'.boundaries
  sources : g.sources.Perm g'.sources
  detectors : g.detectors.Perm g'.detectors

variable {n : Pos} {a : Fin 3}

lemma toGlobal_seam {P : Pml K} (h : P.axis ≠ a) (q : Pos) (v : ℕ) : P.toGlobal n (Function.update q a v) = Function.update (P.toGlobal n q) a v := by
  unfold Pml.toGlobal
  rw [Function.update_of_ne h, Function.update_comm h]

lemma toLocal_seam {P : Pml K} (h : P.axis ≠ a) (q : Pos) (v : ℕ) : P.toLocal n (Function.update q a v) = Function.update (P.toLocal n q) a v := by
  unfold Pml.toLocal
  rw [Function.update_of_ne h, Function.update_comm h]

lemma inside_seam {P : Pml K} (h : P.axis ≠ a) (q : Pos) (v : ℕ) : P.inside n (Function.update q a v) ↔ P.inside n q := by
  unfold Pml.inside
  rw [Function.update_of_ne h]

lemma SeamEqual.view {P : Pml K} (h : P.axis ≠ a) {F : VField K} (hF : SeamEqual n a F) : SeamEqual n a (P.view n F) := by
  intro p c
  show F _ c = F _ c
  rw [toGlobal_seam h, toGlobal_seam h]
  exact hF _ c

lemma SeamEqual.dDn {F : VField K} (hF : SeamEqual n a F) {d : Fin 3} (hd : d ≠ a) (f : Fin 3) (q : Pos) :
    dDn F d f (Function.update q a 0) = Nidn.dDn F d f (Function.update q a (n a - 1)) := by
  unfold Nidn.dDn Pos.dn
  rw [Function.update_of_ne hd, Function.update_of_ne hd, Function.update_comm hd.symm, Function.update_comm hd.symm, hF q f, hF _ f]

lemma SeamEqual.dUp {F : VField K} (hF : SeamEqual n a F) {m : Pos} {d : Fin 3} (hd : d ≠ a) (f : Fin 3) (q : Pos) :
    dUp m F d f (Function.update q a 0) = Nidn.dUp m F d f (Function.update q a (n a - 1)) := by
  unfold Nidn.dUp Pos.up
  rw [Function.update_of_ne hd, Function.update_of_ne hd, Function.update_comm hd.symm, Function.update_comm hd.symm, hF q f, hF _ f]

lemma phiOf_seam {psi : Fin 3 → VField K} (h : ∀ m, SeamEqual n a (psi m)) : SeamEqual n a (phiOf psi) := by
  intro p c
  fin_cases c
  · show psi 0 _ 1 - psi 0 _ 2 = psi 0 _ 1 - psi 0 _ 2
    rw [h 0 p 1, h 0 p 2]
  · show psi 1 _ 2 - psi 1 _ 0 = psi 1 _ 2 - psi 1 _ 0
    rw [h 1 p 2, h 1 p 0]
  · show psi 2 _ 0 - psi 2 _ 1 = psi 2 _ 0 - psi 2 _ 1
    rw [h 2 p 0, h 2 p 1]

lemma psiENew_seam {P : Pml K} (h : SeamLayer n a P) {H : VField K} (hH : SeamEqual n a H) (m : Fin 3) : SeamEqual n a (psiENew n H P m) := by
  intro p d
  unfold psiENew
  cases psiPartner m d with
  | none =>
    show P.psiE m _ d * P.bE _ d = P.psiE m _ d * P.bE _ d
    rw [h.psiE m p d, h.bE p d]
  | some f =>
    show P.psiE m _ d * P.bE _ d + dDn _ d f _ * P.cE _ d = P.psiE m _ d * P.bE _ d + dDn _ d f _ * P.cE _ d
    by_cases hd : d = a
    · subst hd
      rw [h.flatE, h.flatE, h.psiE m p d, h.bE p d, mul_zero, mul_zero]
    · rw [h.psiE m p d, h.bE p d, h.cE p d, (hH.view h.across).dDn hd]

lemma psiHNew_seam {P : Pml K} (h : SeamLayer n a P) {E : VField K} (hE : SeamEqual n a E) (m : Fin 3) : SeamEqual n a (psiHNew n E P m) := by
  intro p d
  unfold psiHNew
  cases psiPartner m d with
  | none =>
    show P.psiH m _ d * P.bH _ d = P.psiH m _ d * P.bH _ d
    rw [h.psiH m p d, h.bH p d]
  | some f =>
    show P.psiH m _ d * P.bH _ d + dUp _ _ d f _ * P.cH _ d = P.psiH m _ d * P.bH _ d + dUp _ _ d f _ * P.cH _ d
    by_cases hd : d = a
    · subst hd
      rw [h.flatH, h.flatH, h.psiH m p d, h.bH p d, mul_zero, mul_zero]
    · rw [h.psiH m p d, h.bH p d, h.cH p d, (hE.view h.across).dUp hd]

lemma SeamLayer.updatePhiE {P : Pml K} (h : SeamLayer n a P) {H : VField K} (hH : SeamEqual n a H) : SeamLayer n a (P.updatePhiE n H) :=
  { h with psiE := psiENew_seam h hH, phiE := phiOf_seam (psiENew_seam h hH) }

lemma SeamLayer.updatePhiH {P : Pml K} (h : SeamLayer n a P) {E : VField K} (hE : SeamEqual n a E) : SeamLayer n a (P.updatePhiH n E) :=
  { h with psiH := psiHNew_seam h hE, phiH := phiOf_seam (psiHNew_seam h hE) }

lemma pmlE_seam {P : Pml K} (h : SeamLayer n a P) {co : K} {ie E : VField K} (hi : SeamEqual n a ie) (hE : SeamEqual n a E) : SeamEqual n a (P.updateE n co ie E) := by
  intro p c
  unfold Pml.updateE
  simp only [inside_seam h.across, toLocal_seam h.across]
  rw [hE p c, hi p c, h.phiE _ c]

lemma pmlH_seam {P : Pml K} (h : SeamLayer n a P) {co : K} {im H : VField K} (hi : SeamEqual n a im) (hH : SeamEqual n a H) : SeamEqual n a (P.updateH n co im H) := by
  intro p c
  unfold Pml.updateH
  simp only [inside_seam h.across, toLocal_seam h.across]
  rw [hH p c, hi p c, h.phiH _ c]

lemma periodicE_makes (F : VField K) : SeamEqual n a (periodicE n a F) := by
  intro p c
  unfold periodicE
  rw [Function.update_self, Function.update_self, if_pos rfl, Function.update_idem, Function.update_idem]
  split_ifs <;> rfl

lemma periodicH_makes (F : VField K) : SeamEqual n a (periodicH n a F) := by
  intro p c
  unfold periodicH
  rw [Function.update_self, Function.update_self, if_pos rfl, Function.update_idem, Function.update_idem]
  split_ifs <;> rfl

lemma periodicE_seam {b : Fin 3} {F : VField K} (h : SeamEqual n a F) : SeamEqual n a (periodicE n b F) := by
  by_cases hb : b = a
  · subst hb; exact periodicE_makes F
  · intro p c
    unfold periodicE
    rw [Function.update_of_ne hb, Function.update_of_ne hb, Function.update_comm (Ne.symm hb), Function.update_comm (Ne.symm hb), h p c, h _ c]

lemma periodicH_seam {b : Fin 3} {F : VField K} (h : SeamEqual n a F) : SeamEqual n a (periodicH n b F) := by
  by_cases hb : b = a
  · subst hb; exact periodicH_makes F
  · intro p c
    unfold periodicH
    rw [Function.update_of_ne hb, Function.update_of_ne hb, Function.update_comm (Ne.symm hb), Function.update_comm (Ne.symm hb), h p c, h _ c]

lemma boundariesE_seam {co : K} {ie : VField K} (hi : SeamEqual n a ie) (bs : List (FBoundary K)) (hl : ∀ P, FBoundary.pml P ∈ bs → SeamLayer n a P) (E : VField K)
    (h : SeamEqual n a E ∨ FBoundary.periodic a ∈ bs) : SeamEqual n a (applyBoundariesE n co ie bs E) := by
  induction bs generalizing E with
  | nil =>
    rcases h with h | h
    · exact h
    · simp at h
  | cons b bs ih =>
    refine ih (fun P hP => hl P (List.mem_cons_of_mem _ hP)) _ ?_
    rcases h with h | h
    · left
      cases b with
      | periodic d => exact periodicE_seam h
      | pml P => exact pmlE_seam (hl P List.mem_cons_self) hi h
    · rcases List.mem_cons.1 h with h | h
      · left
        rw [← h]
        exact periodicE_makes E
      · exact .inr h

lemma boundariesH_seam {co : K} {im : VField K} (hi : SeamEqual n a im) (bs : List (FBoundary K)) (hl : ∀ P, FBoundary.pml P ∈ bs → SeamLayer n a P) (H : VField K)
    (h : SeamEqual n a H ∨ FBoundary.periodic a ∈ bs) : SeamEqual n a (applyBoundariesH n co im bs H) := by
  induction bs generalizing H with
  | nil =>
    rcases h with h | h
    · exact h
    · simp at h
  | cons b bs ih =>
    refine ih (fun P hP => hl P (List.mem_cons_of_mem _ hP)) _ ?_
    rcases h with h | h
    · left
      cases b with
      | periodic d => exact periodicH_seam h
      | pml P => exact pmlH_seam (hl P List.mem_cons_self) hi h
    · rcases List.mem_cons.1 h with h | h
      · left
        rw [← h]
        exact periodicH_makes H
      · exact .inr h

lemma sourcesE_seam (t : ℕ) (ss : List (FSource K)) (hs : ∀ s ∈ ss, SeamSource n a s) (E : VField K) (h : SeamEqual n a E) : SeamEqual n a (applySourcesE t ss E) := by
  induction ss generalizing E with
  | nil => exact h
  | cons s ss ih =>
    refine ih (fun s hs' => hs s (List.mem_cons_of_mem _ hs')) _ ?_
    have h1 := hs s List.mem_cons_self
    intro p c
    cases s with
    | soft drive =>
      show E _ c + drive t _ c = E _ c + drive t _ c
      rw [h p c, h1 t p c]
    | plane cells e m v =>
      show (if cells _ = true ∧ c = e then v t else E _ c) = if cells _ = true ∧ c = e then v t else E _ c
      rw [h p c, h1 p]

lemma sourcesH_seam (t : ℕ) (ss : List (FSource K)) (hs : ∀ s ∈ ss, SeamSource n a s) (H : VField K) (h : SeamEqual n a H) : SeamEqual n a (applySourcesH t ss H) := by
  induction ss generalizing H with
  | nil => exact h
  | cons s ss ih =>
    refine ih (fun s hs' => hs s (List.mem_cons_of_mem _ hs')) _ ?_
    have h1 := hs s List.mem_cons_self
    intro p c
    cases s with
    | soft drive => exact h p c
    | plane cells e m v =>
      show (if cells _ = true ∧ c = m then v t else H _ c) = if cells _ = true ∧ c = m then v t else H _ c
      rw [h p c, h1 p]

lemma phased_layersE {F : VField K} (hF : SeamEqual n a F) {bs : List (FBoundary K)} (hl : ∀ P, FBoundary.pml P ∈ bs → SeamLayer n a P) :
    ∀ P, FBoundary.pml P ∈ bs.map (FBoundary.updatePhiE n F) → SeamLayer n a P := by
  intro P hP
  obtain ⟨b, hb, e⟩ := List.mem_map.1 hP
  cases b with
  | periodic d => simp [FBoundary.updatePhiE] at e
  | pml Q =>
    have : Q.updatePhiE n F = P := FBoundary.pml.inj e
    rw [← this]
    exact (hl Q hb).updatePhiE hF

lemma phased_layersH {F : VField K} (hF : SeamEqual n a F) {bs : List (FBoundary K)} (hl : ∀ P, FBoundary.pml P ∈ bs → SeamLayer n a P) :
    ∀ P, FBoundary.pml P ∈ bs.map (FBoundary.updatePhiH n F) → SeamLayer n a P := by
  intro P hP
  obtain ⟨b, hb, e⟩ := List.mem_map.1 hP
  cases b with
  | periodic d => simp [FBoundary.updatePhiH] at e
  | pml Q =>
    have : Q.updatePhiH n F = P := FBoundary.pml.inj e
    rw [← this]
    exact (hl Q hb).updatePhiH hF

lemma SeamGrid.updateE {g : FGrid K} (h : SeamGrid g a) : SeamGrid g.updateE a where
  ring := List.mem_map.2 ⟨_, h.ring, rfl⟩
  invEps := h.invEps
  invMu := h.invMu
  E := sourcesE_seam _ _ h.sources _ (boundariesE_seam h.invEps _ (phased_layersE h.H h.layers) _ (.inr (List.mem_map.2 ⟨_, h.ring, rfl⟩)))
  H := h.H
  layers := phased_layersE h.H h.layers
  sources := h.sources

lemma SeamGrid.updateH {g : FGrid K} (h : SeamGrid g a) : SeamGrid g.updateH a where
  ring := List.mem_map.2 ⟨_, h.ring, rfl⟩
  invEps := h.invEps
  invMu := h.invMu
  E := h.E
  H := sourcesH_seam _ _ h.sources _ (boundariesH_seam h.invMu _ (phased_layersH h.E h.layers) _ (.inr (List.mem_map.2 ⟨_, h.ring, rfl⟩)))
  layers := phased_layersH h.E h.layers
  sources := h.sources

/-! boundaries and sources commute -/

lemma periodicE_comm (a b : Fin 3) (F : VField K) : periodicE n a (periodicE n b F) = periodicE n b (periodicE n a F) := by
  by_cases h : a = b
  · rw [h]
  · funext p c
    unfold periodicE
    simp only [Function.update_of_ne h, Function.update_of_ne (Ne.symm h)]
    split_ifs <;> simp [Function.update_comm h]

lemma periodicH_comm (a b : Fin 3) (F : VField K) : periodicH n a (periodicH n b F) = periodicH n b (periodicH n a F) := by
  by_cases h : a = b
  · rw [h]
  · funext p c
    unfold periodicH
    simp only [Function.update_of_ne h, Function.update_of_ne (Ne.symm h)]
    split_ifs <;> simp [Function.update_comm h]

lemma pmlE_comm (P Q : Pml K) (co : K) (ie F : VField K) : P.updateE n co ie (Q.updateE n co ie F) = Q.updateE n co ie (P.updateE n co ie F) := by
  funext p c
  unfold Pml.updateE
  split_ifs <;> ring

lemma pmlH_comm (P Q : Pml K) (co : K) (im F : VField K) : P.updateH n co im (Q.updateH n co im F) = Q.updateH n co im (P.updateH n co im F) := by
  funext p c
  unfold Pml.updateH
  split_ifs <;> ring

lemma periodic_pmlE_comm {P : Pml K} (h : SeamLayer n a P) {co : K} {ie : VField K} (hi : SeamEqual n a ie) (F : VField K) : periodicE n a (P.updateE n co ie F) = P.updateE n co ie (periodicE n a F) := by
  funext p c
  by_cases h0 : p a = 0
  · have e : p = Function.update p a 0 := by rw [← h0, Function.update_eq_self]
    have h1 : periodicE n a (P.updateE n co ie F) p c = P.updateE n co ie F (Function.update p a (n a - 1)) c := if_pos h0
    have h2 : periodicE n a F p c = F (Function.update p a (n a - 1)) c := if_pos h0
    rw [h1]
    unfold Pml.updateE
    rw [h2]
    simp only [inside_seam h.across, toLocal_seam h.across]
    have e1 : P.phiE (P.toLocal n p) c = P.phiE (Function.update (P.toLocal n p) a (n a - 1)) c := by
      rw [← h.phiE, ← toLocal_seam h.across, ← e]
    have e2 : ie p c = ie (Function.update p a (n a - 1)) c := by rw [← hi, ← e]
    rw [e1, e2]
  · have h1 : periodicE n a (P.updateE n co ie F) p c = P.updateE n co ie F p c := if_neg h0
    have h2 : periodicE n a F p c = F p c := if_neg h0
    rw [h1]
    unfold Pml.updateE
    rw [h2]

lemma periodic_pmlH_comm {P : Pml K} (h : SeamLayer n a P) {co : K} {im : VField K} (hi : SeamEqual n a im) (F : VField K) : periodicH n a (P.updateH n co im F) = P.updateH n co im (periodicH n a F) := by
  funext p c
  by_cases h0 : p a = n a - 1
  · have e : p = Function.update p a (n a - 1) := by rw [← h0, Function.update_eq_self]
    have h1 : periodicH n a (P.updateH n co im F) p c = P.updateH n co im F (Function.update p a 0) c := if_pos h0
    have h2 : periodicH n a F p c = F (Function.update p a 0) c := if_pos h0
    rw [h1]
    unfold Pml.updateH
    rw [h2]
    simp only [inside_seam h.across, toLocal_seam h.across]
    have e1 : P.phiH (P.toLocal n p) c = P.phiH (Function.update (P.toLocal n p) a 0) c := by
      rw [h.phiH, ← toLocal_seam h.across, ← e]
    have e2 : im p c = im (Function.update p a 0) c := by rw [hi, ← e]
    rw [e1, e2]
  · have h1 : periodicH n a (P.updateH n co im F) p c = P.updateH n co im F p c := if_neg h0
    have h2 : periodicH n a F p c = F p c := if_neg h0
    rw [h1]
    unfold Pml.updateH
    rw [h2]

lemma boundariesE_order {co : K} {ie : VField K} {bs bs' : List (FBoundary K)} (hp : bs.Perm bs')
    (hs : ∀ a, FBoundary.periodic a ∈ bs → SeamEqual n a ie ∧ ∀ P, FBoundary.pml P ∈ bs → SeamLayer n a P) (E : VField K) : applyBoundariesE n co ie bs E = applyBoundariesE n co ie bs' E := by
  refine hp.foldl_eq' (fun x hx y hy F => ?_) E
  cases x with
  | periodic d =>
    cases y with
    | periodic e => exact periodicE_comm e d F
    | pml P => exact (periodic_pmlE_comm ((hs d hx).2 P hy) (hs d hx).1 F).symm
  | pml Q =>
    cases y with
    | periodic e => exact periodic_pmlE_comm ((hs e hy).2 Q hx) (hs e hy).1 F
    | pml P => exact pmlE_comm P Q co ie F

lemma boundariesH_order {co : K} {im : VField K} {bs bs' : List (FBoundary K)} (hp : bs.Perm bs')
    (hs : ∀ a, FBoundary.periodic a ∈ bs → SeamEqual n a im ∧ ∀ P, FBoundary.pml P ∈ bs → SeamLayer n a P) (H : VField K) : applyBoundariesH n co im bs H = applyBoundariesH n co im bs' H := by
  refine hp.foldl_eq' (fun x hx y hy F => ?_) H
  cases x with
  | periodic d =>
    cases y with
    | periodic e => exact periodicH_comm e d F
    | pml P => exact (periodic_pmlH_comm ((hs d hx).2 P hy) (hs d hx).1 F).symm
  | pml Q =>
    cases y with
    | periodic e => exact periodic_pmlH_comm ((hs e hy).2 Q hx) (hs e hy).1 F
    | pml P => exact pmlH_comm P Q co im F

lemma sourcesE_order (t : ℕ) {ss ss' : List (FSource K)} (hp : ss.Perm ss') (ha : ∀ s ∈ ss, ∀ s' ∈ ss, s = s' ∨ ApartSources s s') (E : VField K) : applySourcesE t ss E = applySourcesE t ss' E := by
  refine hp.foldl_eq' (fun x hx y hy F => ?_) E
  rcases ha x hx y hy with rfl | h
  · rfl
  funext p c
  cases x with
  | soft d =>
    cases y with
    | soft d' =>
      show F p c + d t p c + d' t p c = F p c + d' t p c + d t p c
      ring
    | plane cells e m v =>
      show (if cells p = true ∧ c = e then v t else F p c + d t p c) = (if cells p = true ∧ c = e then v t else F p c) + d t p c
      split_ifs with h'
      · rw [h'.2, h t p h'.1, add_zero]
      · rfl
  | plane cells e m v =>
    cases y with
    | soft d =>
      show (if cells p = true ∧ c = e then v t else F p c) + d t p c = if cells p = true ∧ c = e then v t else F p c + d t p c
      split_ifs with h'
      · rw [h'.2, h t p h'.1, add_zero]
      · rfl
    | plane cells' e' m' v' =>
      show (if cells' p = true ∧ c = e' then v' t else if cells p = true ∧ c = e then v t else F p c) = if cells p = true ∧ c = e then v t else if cells' p = true ∧ c = e' then v' t else F p c
      split_ifs with h1 h2
      · exact absurd ⟨h2.1, h1.1⟩ (h p)
      all_goals rfl

lemma sourcesH_order (t : ℕ) {ss ss' : List (FSource K)} (hp : ss.Perm ss') (ha : ∀ s ∈ ss, ∀ s' ∈ ss, s = s' ∨ ApartSources s s') (H : VField K) : applySourcesH t ss H = applySourcesH t ss' H := by
  refine hp.foldl_eq' (fun x hx y hy F => ?_) H
  rcases ha x hx y hy with rfl | h
  · rfl
  cases x with
  | soft d => rfl
  | plane cells e m v =>
    cases y with
    | soft d => rfl
    | plane cells' e' m' v' =>
      funext p c
      show (if cells' p = true ∧ c = m' then v' t else if cells p = true ∧ c = m then v t else F p c) = if cells p = true ∧ c = m then v t else if cells' p = true ∧ c = m' then v' t else F p c
      split_ifs with h1 h2
      · exact absurd ⟨h2.1, h1.1⟩ (h p)
      all_goals rfl

lemma Reordered.updateE {g g' : FGrid K} (h : Reordered g g') (hs : ∀ a, FBoundary.periodic a ∈ g.boundaries → SeamGrid g a) (ha : ∀ s ∈ g.sources, ∀ s' ∈ g.sources, s = s' ∨ ApartSources s s') :
    Reordered g.updateE g'.updateE := by
  obtain ⟨n', co', ie', im', ab', E', H', t', bs', ss', ds'⟩ := g'
  obtain ⟨h1, h2, h3, h4, h5, h6, h7, h8, h9, h10, h11⟩ := h
  dsimp only at h1 h2 h3 h4 h5 h6 h7 h8 h9 h10 h11
  subst h1 h2 h3 h4 h5 h6 h7 h8
  have hb : g.phasedE.Perm (bs'.map (FBoundary.updatePhiE g.n g.H)) := h9.map _
  have e : g.newE = applySourcesE g.time ss' (applyBoundariesE g.n g.courant g.invEps (bs'.map (FBoundary.updatePhiE g.n g.H)) (bulkE g)) := by
    rw [FGrid.newE, sourcesE_order _ h10 ha, boundariesE_order hb]
    intro a hra
    have hmem : FBoundary.periodic a ∈ g.boundaries := by
      obtain ⟨b, hb, e⟩ := List.mem_map.1 hra
      cases b with
      | periodic d => rw [← e]; exact hb
      | pml P => simp [FBoundary.updatePhiE] at e
    exact ⟨(hs a hmem).invEps, phased_layersE (hs a hmem).H (hs a hmem).layers⟩
  exact ⟨rfl, rfl, rfl, rfl, rfl, e.symm, rfl, rfl, hb, h10, by
    show (g.detectors.map (FDetector.detectE g.newE)).Perm (ds'.map (FDetector.detectE _))
    rw [e]
    exact h11.map _⟩

lemma Reordered.updateH {g g' : FGrid K} (h : Reordered g g') (hs : ∀ a, FBoundary.periodic a ∈ g.boundaries → SeamGrid g a) (ha : ∀ s ∈ g.sources, ∀ s' ∈ g.sources, s = s' ∨ ApartSources s s') :
    Reordered g.updateH g'.updateH := by
  obtain ⟨n', co', ie', im', ab', E', H', t', bs', ss', ds'⟩ := g'
  obtain ⟨h1, h2, h3, h4, h5, h6, h7, h8, h9, h10, h11⟩ := h
  dsimp only at h1 h2 h3 h4 h5 h6 h7 h8 h9 h10 h11
  subst h1 h2 h3 h4 h5 h6 h7 h8
  have hb : g.phasedH.Perm (bs'.map (FBoundary.updatePhiH g.n g.E)) := h9.map _
  have e : g.newH = applySourcesH g.time ss' (applyBoundariesH g.n g.courant g.invMu (bs'.map (FBoundary.updatePhiH g.n g.E)) (bulkH g)) := by
    rw [FGrid.newH, sourcesH_order _ h10 ha, boundariesH_order hb]
    intro a hra
    have hmem : FBoundary.periodic a ∈ g.boundaries := by
      obtain ⟨b, hb, e⟩ := List.mem_map.1 hra
      cases b with
      | periodic d => rw [← e]; exact hb
      | pml P => simp [FBoundary.updatePhiH] at e
    exact ⟨(hs a hmem).invMu, phased_layersH (hs a hmem).E (hs a hmem).layers⟩
  exact ⟨rfl, rfl, rfl, rfl, rfl, rfl, e.symm, rfl, hb, h10, by
    show (g.detectors.map (FDetector.detectH g.newH)).Perm (ds'.map (FDetector.detectH _))
    rw [e]
    exact h11.map _⟩

lemma periodic_phasedE {g : FGrid K} {a : Fin 3} (h : FBoundary.periodic a ∈ g.phasedE) : FBoundary.periodic a ∈ g.boundaries := by
  obtain ⟨b, hb, e⟩ := List.mem_map.1 h
  cases b with
  | periodic d => rw [← e]; exact hb
  | pml P => simp [FBoundary.updatePhiE] at e

lemma periodic_phasedH {g : FGrid K} {a : Fin 3} (h : FBoundary.periodic a ∈ g.phasedH) : FBoundary.periodic a ∈ g.boundaries := by
  obtain ⟨b, hb, e⟩ := List.mem_map.1 h
  cases b with
  | periodic d => rw [← e]; exact hb
  | pml P => simp [FBoundary.updatePhiH] at e

/-- **C177.** The order in which boundaries, sources and detectors are added does not matter: after any number of steps the fields are the same, and every detector has recorded the same. -/
theorem C177_order {g g' : FGrid K} (h : Reordered g g') (hs : ∀ a, FBoundary.periodic a ∈ g.boundaries → SeamGrid g a) (ha : ∀ s ∈ g.sources, ∀ s' ∈ g.sources, s = s' ∨ ApartSources s s') (k : ℕ) :
    (g'.run k).E = (g.run k).E ∧ (g'.run k).H = (g.run k).H ∧ (g.run k).detectors.Perm (g'.run k).detectors := by
  suffices H : Reordered (g.run k) (g'.run k) ∧ (∀ a, FBoundary.periodic a ∈ (g.run k).boundaries → SeamGrid (g.run k) a) from ⟨H.1.E, H.1.H, H.1.detectors⟩
  induction k with
  | zero => exact ⟨h, hs⟩
  | succ k ih =>
    obtain ⟨h1, h2⟩ := ih
    have ha' : ∀ s ∈ (g.run k).sources, ∀ s' ∈ (g.run k).sources, s = s' ∨ ApartSources s s' := by rw [run_sources]; exact ha
    have h3 := h1.updateE h2 ha'
    have h4 : ∀ a, FBoundary.periodic a ∈ (g.run k).updateE.boundaries → SeamGrid (g.run k).updateE a := fun a hm => (h2 a (periodic_phasedE hm)).updateE
    have h5 := h3.updateH h4 ha'
    refine ⟨{ h5 with time := congrArg (· + 1) h5.time }, fun a hm => ?_⟩
    have h6 := (h4 a (periodic_phasedH hm)).updateH
    exact ⟨h6.ring, h6.invEps, h6.invMu, h6.E, h6.H, h6.layers, h6.sources⟩

/-- **C177, objects.** Two objects that have no cell in common can be placed in either order, if neither has cells at the far end of the grid in line with the last planes of the other. Missing: objects at the far end, see `C177_far_false`. -/
theorem C177_objects_partial (n : Pos) (courant spacing eta0 : K) (m : Materials K) (o1 o2 : ObjectSpec K) (k1 k2 : Fin 3 → AxisKey)
    (hk1 : ∀ a, ObjectKey (n a) (k1 a)) (hk2 : ∀ a, ObjectKey (n a) (k2 a)) (hz1 : (k1 2).isList = false) (hz2 : (k2 2).isList = false)
    (hd : ∀ p, ¬ (addressed n k1 p ∧ addressed n k2 p))
    (h12 : ∀ p c, addressed n k1 p → topPlane n k1 c p → ¬ addressed n k2 (Function.update p c (n c - 1)))
    (h21 : ∀ p c, addressed n k2 p → topPlane n k2 c p → ¬ addressed n k1 (Function.update p c (n c - 1))) :
    ∃ m1 m2 m', objectPlace n courant spacing eta0 m o1 k1 = .ok m1 ∧ objectPlace n courant spacing eta0 m1 o2 k2 = .ok m' ∧
      objectPlace n courant spacing eta0 m o2 k2 = .ok m2 ∧ objectPlace n courant spacing eta0 m2 o1 k1 = .ok m' := by
  obtain ⟨m1, e1, a1, b1, c1, d1, f1⟩ := C54_inside n courant spacing eta0 m o1 k1 hk1 hz1
  obtain ⟨m12, e12, a12, b12, c12, d12, f12⟩ := C54_inside n courant spacing eta0 m1 o2 k2 hk2 hz2
  obtain ⟨m2, e2, a2, b2, c2, d2, f2⟩ := C54_inside n courant spacing eta0 m o2 k2 hk2 hz2
  obtain ⟨m21, e21, a21, b21, c21, d21, f21⟩ := C54_inside n courant spacing eta0 m2 o1 k1 hk1 hz1
  have inv : ∀ p c, m12.invEps p c = m21.invEps p c := by
    intro p c
    by_cases p1 : addressed n k1 p
    · have p2 : ¬ addressed n k2 p := fun h => hd p ⟨p1, h⟩
      rw [(a12 p c p2).1]
      by_cases t : topPlane n k1 c p
      · rw [c1 p c p1 t, c21 p c p1 t, (a2 _ c (h12 p c p1 t)).1]
      · rw [b1 p c p1 t, b21 p c p1 t]
    · rw [(a21 p c p1).1]
      by_cases p2 : addressed n k2 p
      · by_cases t : topPlane n k2 c p
        · rw [c12 p c p2 t, c2 p c p2 t, (a1 _ c (h21 p c p2 t)).1]
        · rw [b12 p c p2 t, b2 p c p2 t]
      · rw [(a12 p c p2).1, (a1 p c p1).1, (a2 p c p2).1]
  have ab : ∀ p c, m12.absorb p c = m21.absorb p c := by
    intro p c
    by_cases p1 : addressed n k1 p
    · have p2 : ¬ addressed n k2 p := fun h => hd p ⟨p1, h⟩
      rw [(a12 p c p2).2]
      cases hc : o1.cond with
      | none => rw [f1 hc, f21 hc, (a2 p c p2).2]
      | some s => rw [d1 s hc p c p1, d21 s hc p c p1, ← inv, (a12 p c p2).1]
    · rw [(a21 p c p1).2]
      by_cases p2 : addressed n k2 p
      · cases hc : o2.cond with
        | none => rw [f12 hc, f2 hc, (a1 p c p1).2]
        | some s => rw [d12 s hc p c p2, d2 s hc p c p2, inv, (a21 p c p1).1]
      · rw [(a12 p c p2).2, (a1 p c p1).2, (a2 p c p2).2]
  have e : m21 = m12 := by
    cases m12
    cases m21
    simp only [Materials.mk.injEq]
    exact ⟨(funext fun p => funext fun c => (inv p c).symm), funext fun p => funext fun c => (ab p c).symm⟩
  exact ⟨m1, m2, m12, e1, e12, e2, e ▸ e21⟩

end

lemma mkPml_seam (n : Pos) {a axis : Fin 3} (h : axis ≠ a) (high : Bool) (t : ℕ) (α courant : ℝ) : SeamLayer n a (mkPml axis high t α courant) where
  across := h
  bE := fun p c => by simp only [mkPml, sigmaField, Function.update_of_ne h]
  cE := fun p c => by simp only [mkPml, sigmaField, Function.update_of_ne h]
  bH := fun p c => by simp only [mkPml, sigmaField, Function.update_of_ne h]
  cH := fun p c => by simp only [mkPml, sigmaField, Function.update_of_ne h]
  flatE := fun q => by simp only [mkPml, sigmaField, if_neg h.symm, pmlC, mul_zero, zero_div]
  flatH := fun q => by simp only [mkPml, sigmaField, if_neg h.symm, pmlC, mul_zero, zero_div]
  psiE := fun _ _ _ => rfl
  psiH := fun _ _ _ => rfl
  phiE := fun _ _ => rfl
  phiH := fun _ _ => rfl

/-- **C177, as built.** A new grid (fields zero, absorbing layers as the library builds them) with materials and sources that are the same on both ends of every periodic axis: boundaries, sources and detectors may be added in any order. -/
theorem C177_built {g g' : FGrid ℝ} (h : Reordered g g') (hE : ∀ p c, g.E p c = 0) (hH : ∀ p c, g.H p c = 0)
    (hl : ∀ P, FBoundary.pml P ∈ g.boundaries → ∃ axis high t α, P = mkPml axis high t α g.courant ∧ FBoundary.periodic axis ∉ g.boundaries)
    (hm : ∀ a, FBoundary.periodic a ∈ g.boundaries → SeamEqual g.n a g.invEps ∧ SeamEqual g.n a g.invMu ∧ ∀ s ∈ g.sources, SeamSource g.n a s)
    (ha : ∀ s ∈ g.sources, ∀ s' ∈ g.sources, s = s' ∨ ApartSources s s') (k : ℕ) :
    (g'.run k).E = (g.run k).E ∧ (g'.run k).H = (g.run k).H ∧ (g.run k).detectors.Perm (g'.run k).detectors := by
  refine C177_order h (fun a hra => ⟨hra, (hm a hra).1, (hm a hra).2.1, fun p c => by rw [hE, hE], fun p c => by rw [hH, hH], fun P hP => ?_, (hm a hra).2.2⟩) ha k
  obtain ⟨axis, high, t, α, rfl, hno⟩ := hl P hP
  exact mkPml_seam g.n (fun e => hno (by rw [e]; exact hra)) high t α g.courant

/-- a grid with absorbing layers along x and periodic along y, with a point source, a plane source and two detectors -/
noncomputable def busyGrid (bs : List (FBoundary ℝ)) (ss : List (FSource ℝ)) (ds : List (FDetector ℝ)) : FGrid ℝ where
  n := ![30, 4, 1]
  courant := 1 / 2
  invEps := fun p _ => if 12 ≤ p 0 ∧ p 0 < 15 then 1 / 4 else 1
  invMu := fun _ _ => 1
  absorb := fun _ _ => 0
  E := fun _ _ => 0
  H := fun _ _ => 0
  time := 0
  boundaries := bs
  sources := ss
  detectors := ds

/-- a point source in the cell (x, 2, 0) -/
noncomputable def sparkAt (x : ℕ) : FSource ℝ := .soft fun t p c => if p 0 = x ∧ p 1 = 2 ∧ c = 2 then (t : ℝ) else 0

/-- a plane source over the whole cross section at x = 8 -/
noncomputable def sheetSource : FSource ℝ := .plane (fun p => p 0 == 8) 2 1 fun t => (t : ℝ)

/-- the hypotheses of C177 hold of a grid with layers, a periodic axis, an object and two kinds of sources; all are added in the opposite order -/
example (k : ℕ) (d d' : FDetector ℝ) :
    let lo : FBoundary ℝ := .pml (mkPml 0 false 6 (1 / 10) (1 / 2))
    let hi : FBoundary ℝ := .pml (mkPml 0 true 6 (1 / 10) (1 / 2))
    ((busyGrid [.periodic 1, hi, lo] [sheetSource, sparkAt 20] [d', d]).run k).E = ((busyGrid [lo, hi, .periodic 1] [sparkAt 20, sheetSource] [d, d']).run k).E := by
  intro lo hi
  refine (C177_built (g := busyGrid [lo, hi, .periodic 1] [sparkAt 20, sheetSource] [d, d']) (g' := busyGrid [.periodic 1, hi, lo] [sheetSource, sparkAt 20] [d', d]) ⟨rfl, rfl, rfl, rfl, rfl, rfl, rfl, rfl, ?_, ?_, ?_⟩ (fun _ _ => rfl) (fun _ _ => rfl) ?_ ?_ ?_ k).1
  · exact (List.reverse_perm [lo, hi, .periodic 1]).symm
  · exact (List.reverse_perm [sparkAt 20, sheetSource]).symm
  · exact (List.reverse_perm [d, d']).symm
  · intro P hP
    have hP : FBoundary.pml P ∈ [lo, hi, .periodic 1] := hP
    have hno : FBoundary.periodic 0 ∉ [lo, hi, .periodic 1] := by simp [lo, hi]
    simp only [List.mem_cons, lo, hi, FBoundary.pml.injEq, reduceCtorEq, List.not_mem_nil, or_false] at hP
    rcases hP with rfl | rfl
    · exact ⟨0, false, 6, 1 / 10, rfl, hno⟩
    · exact ⟨0, true, 6, 1 / 10, rfl, hno⟩
  · intro a hra
    have hra : FBoundary.periodic a ∈ [lo, hi, .periodic 1] := hra
    simp only [List.mem_cons, lo, hi, FBoundary.periodic.injEq, reduceCtorEq, List.not_mem_nil, or_false, false_or] at hra
    subst hra
    refine ⟨fun p c => ?_, fun _ _ => rfl, fun s hs => ?_⟩
    · simp [busyGrid]
    · have hs : s ∈ [sparkAt 20, sheetSource] := hs
      simp only [List.mem_cons, List.not_mem_nil, or_false] at hs
      rcases hs with rfl | rfl
      · intro t p c
        simp [busyGrid]
      · intro p
        simp
  · intro s hs s' hs'
    have hs : s ∈ [sparkAt 20, sheetSource] := hs
    have hs' : s' ∈ [sparkAt 20, sheetSource] := hs'
    simp only [List.mem_cons, List.not_mem_nil, or_false] at hs hs'
    rcases hs with rfl | rfl <;> rcases hs' with rfl | rfl
    · exact .inl rfl
    · right
      intro t p hp
      have : p 0 = 8 := by simpa using hp
      simp [this]
    · right
      intro t p hp
      have : p 0 = 8 := by simpa using hp
      simp [this]
    · exact .inl rfl

/-- a grid of three cells with the given sources -/
def tinyGrid (ss : List (FSource ℚ)) : FGrid ℚ where
  n := ![3, 1, 1]
  courant := 1 / 2
  invEps := fun _ _ => 1
  invMu := fun _ _ => 1
  absorb := fun _ _ => 0
  E := fun _ _ => 0
  H := fun _ _ => 0
  time := 0
  boundaries := []
  sources := ss
  detectors := []

/-- The condition on sources in C177 is needed: a plane source writes over a point source in its plane that was added before it, and not over one that was added after it. -/
theorem C177_overlap :
    let spark : FSource ℚ := .soft fun _ p c => if p 0 = 1 ∧ c = 2 then 1 else 0
    let sheet : FSource ℚ := .plane (fun p => p 0 == 1) 2 1 fun _ => 3
    ((tinyGrid [spark, sheet]).run 1).E ![1, 0, 0] 2 = 3 ∧ ((tinyGrid [sheet, spark]).run 1).E ![1, 0, 0] 2 = 4 := by
  refine ⟨?_, ?_⟩ <;> decide +kernel

/-- the hypotheses of `C177_objects_partial`: objects in the planes 1 to 2 and 4 to 6 of a grid of ten, and what the two orders lead to -/
example : ∃ m1 m2 m', objectPlace ![10, 1, 1] (1 / 2 : ℚ) 1 1 vacuumMaterials ⟨4, some 8⟩ (xSlice 1 3) = .ok m1 ∧ objectPlace ![10, 1, 1] (1 / 2 : ℚ) 1 1 m1 ⟨2, none⟩ (xSlice 4 7) = .ok m' ∧
    objectPlace ![10, 1, 1] (1 / 2 : ℚ) 1 1 vacuumMaterials ⟨2, none⟩ (xSlice 4 7) = .ok m2 ∧ objectPlace ![10, 1, 1] (1 / 2 : ℚ) 1 1 m2 ⟨4, some 8⟩ (xSlice 1 3) = .ok m' ∧
    m'.invEps ![1, 0, 0] 2 = 1 / 4 ∧ m'.invEps ![5, 0, 0] 2 = 1 / 2 := by
  have key : ∀ (x y : ℤ), 0 ≤ x → x ≤ y → y ≤ 10 → ∀ a, ObjectKey (![10, 1, 1] a) (xSlice x y a) := by
    intro x y h0 h1 h2 a
    fin_cases a
    · refine ⟨Or.inl rfl, ?_, ?_, ?_⟩
      · rintro _ ⟨⟩; exact ⟨by show -((10 : ℕ) : ℤ) ≤ _; omega, by show _ ≤ ((10 : ℕ) : ℤ); omega⟩
      · rintro _ ⟨⟩; exact ⟨by show -((10 : ℕ) : ℤ) ≤ _; omega, by show _ ≤ ((10 : ℕ) : ℤ); omega⟩
      · show sliceBound 10 0 (some x) ≤ sliceBound 10 10 (some y)
        unfold sliceBound; simp; omega
    · refine ⟨Or.inl rfl, ?_, ?_, by decide⟩ <;> rintro x ⟨⟩
    · refine ⟨Or.inl rfl, ?_, ?_, by decide⟩ <;> rintro x ⟨⟩
  have s1 : ∀ p, addressed ![10, 1, 1] (xSlice 1 3) p → 1 ≤ p 0 ∧ p 0 < 3 := fun p h => by
    have h0 : sliceSelects 10 ⟨some 1, some 3, none⟩ (p 0) := h 0
    simp [sliceSelects, sliceBound] at h0
    omega
  have s2 : ∀ p, addressed ![10, 1, 1] (xSlice 4 7) p → 4 ≤ p 0 ∧ p 0 < 7 := fun p h => by
    have h0 : sliceSelects 10 ⟨some 4, some 7, none⟩ (p 0) := h 0
    simp [sliceSelects, sliceBound] at h0
    omega
  have up : ∀ (p : Pos) (c : Fin 3), (Function.update p c ((![10, 1, 1] : Pos) c - 1)) 0 = p 0 ∨ (Function.update p c ((![10, 1, 1] : Pos) c - 1)) 0 = 9 := by
    intro p c
    by_cases hc : c = 0
    · right; subst hc; rw [Function.update_self]; rfl
    · left; exact Function.update_of_ne (Ne.symm hc) _ _
  obtain ⟨m1, m2, m', e1, e2, e3, e4⟩ := C177_objects_partial ![10, 1, 1] (1 / 2 : ℚ) 1 1 vacuumMaterials ⟨4, some 8⟩ ⟨2, none⟩ (xSlice 1 3) (xSlice 4 7)
    (key 1 3 (by decide) (by decide) (by decide)) (key 4 7 (by decide) (by decide) (by decide)) rfl rfl
    (fun p h => by have := s1 p h.1; have := s2 p h.2; omega)
    (fun p c h _ h' => by have := s1 p h; have := s2 _ h'; have := up p c; omega)
    (fun p c h _ h' => by have := s2 p h; have := s1 _ h'; have := up p c; omega)
  refine ⟨m1, m2, m', e1, e2, e3, e4, ?_, ?_⟩
  · obtain rfl := Except.ok.inj ((show objectPlace ![10, 1, 1] (1 / 2 : ℚ) 1 1 vacuumMaterials ⟨4, some 8⟩ (xSlice 1 3) = .ok _ from rfl).symm.trans e1)
    obtain rfl := Except.ok.inj ((show objectPlace ![10, 1, 1] (1 / 2 : ℚ) 1 1 _ ⟨2, none⟩ (xSlice 4 7) = .ok _ from rfl).symm.trans e2)
    decide +kernel
  · obtain rfl := Except.ok.inj ((show objectPlace ![10, 1, 1] (1 / 2 : ℚ) 1 1 vacuumMaterials ⟨4, some 8⟩ (xSlice 1 3) = .ok _ from rfl).symm.trans e1)
    obtain rfl := Except.ok.inj ((show objectPlace ![10, 1, 1] (1 / 2 : ℚ) 1 1 _ ⟨2, none⟩ (xSlice 4 7) = .ok _ from rfl).symm.trans e2)
    decide +kernel

/-- C177 is false of objects at the far end of the grid: two objects that have no cell in common, and yet the permittivity of one depends on which was added first. -/
theorem C177_far_false :
    ∃ m1 m2 m12 m21, objectPlace ![6, 1, 1] (1 / 2) 1 1 vacuumMaterials ⟨4, none⟩ (xSlice 5 6) = .ok m1 ∧
      objectPlace ![6, 1, 1] (1 / 2) 1 1 m1 ⟨2, none⟩ (xSlice 0 2) = .ok m12 ∧
      objectPlace ![6, 1, 1] (1 / 2) 1 1 vacuumMaterials ⟨2, none⟩ (xSlice 0 2) = .ok m2 ∧
      objectPlace ![6, 1, 1] (1 / 2) 1 1 m2 ⟨4, none⟩ (xSlice 5 6) = .ok m21 ∧
      m12.invEps ![1, 0, 0] 0 = 1 / 4 ∧ m21.invEps ![1, 0, 0] 0 = 1 := by
  refine ⟨_, _, _, _, rfl, rfl, rfl, rfl, ?_, ?_⟩ <;> decide +kernel

end Nidn
