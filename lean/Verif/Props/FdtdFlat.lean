/-
C171: in a grid of one cell's thickness the two polarisations do not mix.
-/
import Verif.Props.FdtdRun
import Verif.Props.FdtdAxes

namespace Nidn

/-- Specification: the components of one polarisation in a grid that is flat along `a`. Out of plane (`tm = true`): the electric component along `a` and the magnetic components in the plane.
In plane (`tm = false`): the electric components in the plane and the magnetic one along `a`. -/
def OwnE (a : Fin 3) (tm : Bool) (c : Fin 3) : Prop := decide (c = a) = tm
def OwnH (a : Fin 3) (tm : Bool) (c : Fin 3) : Prop := decide (c = a) = !tm

/-- the component that is differentiated across the third axis belongs to the same polarisation -/
lemma own_curl : ∀ (a : Fin 3) (tm : Bool) (c d f : Fin 3), tripleSign c d f ≠ 0 → d ≠ a → (OwnE a tm c → OwnH a tm f) ∧ (OwnH a tm c → OwnE a tm f) := by
  unfold OwnE OwnH
  decide +kernel

lemma own_partner : ∀ (m d f : Fin 3), psiPartner m d = some f → tripleSign m d f ≠ 0 := by decide +kernel

section
variable {K : Type} [Field K]

/-- Specification: two fields have the same components of the kind `own` in all cells. -/
def SameIn (m : Pos) (own : Fin 3 → Prop) (F F' : VField K) : Prop := ∀ p ∈ box m, ∀ c, own c → F p c = F' p c

/-- Specification: layers across the plane's axes that agree in one polarisation: same coefficients, same memories of its components. -/
structure SameLayer (n : Pos) (a : Fin 3) (tm : Bool) (P P' : Pml K) : Prop where
  axis : P'.axis = P.axis
  high : P'.high = P.high
  thick : P'.thick = P.thick
  across : P.axis ≠ a
  fits : P.thick ≤ n P.axis
  bE : P'.bE = P.bE
  cE : P'.cE = P.cE
  bH : P'.bH = P.bH
  cH : P'.cH = P.cH
  psiE : ∀ m, OwnE a tm m → SameIn (P.shape n) (fun _ => True) (P.psiE m) (P'.psiE m)
  psiH : ∀ m, OwnH a tm m → SameIn (P.shape n) (fun _ => True) (P.psiH m) (P'.psiH m)
  phiE : SameIn (P.shape n) (OwnE a tm) P.phiE P'.phiE
  phiH : SameIn (P.shape n) (OwnH a tm) P.phiH P'.phiH

/-- Specification: boundaries that agree in one polarisation. -/
inductive SameBoundary (n : Pos) (a : Fin 3) (tm : Bool) : FBoundary K → FBoundary K → Prop
  | periodic (b : Fin 3) : SameBoundary n a tm (.periodic b) (.periodic b)
  | pml (P P' : Pml K) (h : SameLayer n a tm P P') : SameBoundary n a tm (.pml P) (.pml P')

/-- Specification: what all sources together do to the components of one polarisation is the same in both simulations, whatever was there before. -/
def SameSources (n : Pos) (a : Fin 3) (tm : Bool) (ss ss' : List (FSource K)) : Prop :=
  (∀ t F F', SameIn n (OwnE a tm) F F' → SameIn n (OwnE a tm) (applySourcesE t ss F) (applySourcesE t ss' F')) ∧
  ∀ t F F', SameIn n (OwnH a tm) F F' → SameIn n (OwnH a tm) (applySourcesH t ss F) (applySourcesH t ss' F')

/-- Specification: two simulations on a grid that is flat along `a` agree in everything that concerns one polarisation; the rest of them (fields, materials, sources, memories of the other polarisation, detectors) may
differ in any way. -/
structure SamePolarisation (a : Fin 3) (tm : Bool) (g g' : FGrid K) : Prop where
  n : g'.n = g.n
  flat : g.n a = 1
  courant : g'.courant = g.courant
  time : g'.time = g.time
  invEps : SameIn g.n (OwnE a tm) g.invEps g'.invEps
  absorb : SameIn g.n (OwnE a tm) g.absorb g'.absorb
  invMu : SameIn g.n (OwnH a tm) g.invMu g'.invMu
  E : SameIn g.n (OwnE a tm) g.E g'.E
  H : SameIn g.n (OwnH a tm) g.H g'.H
  boundaries : List.Forall₂ (SameBoundary g.n a tm) g.boundaries g'.boundaries
  sources : SameSources g.n a tm g.sources g'.sources

variable {n : Pos} {a : Fin 3} {tm : Bool}

lemma dDn_same {own : Fin 3 → Prop} {F F' : VField K} (h : SameIn n own F F') {p : Pos} (hp : p ∈ box n) (d c : Fin 3) (hc : own c ∨ n d = 1) : dDn F d c p = dDn F' d c p := by
  unfold dDn
  split_ifs with hd
  · rcases hc with hc | h1
    · rw [h p hp c hc, h _ (dn_mem_box hp) c hc]
    · have := mem_box.1 hp d
      omega
  · rfl

lemma dUp_same {own : Fin 3 → Prop} {F F' : VField K} (h : SameIn n own F F') {p : Pos} (hp : p ∈ box n) (d c : Fin 3) (hc : own c ∨ n d = 1) : dUp n F d c p = dUp n F' d c p := by
  unfold dUp
  split_ifs with hd
  · rcases hc with hc | h1
    · rw [h p hp c hc, h _ (up_mem_box hp hd) c hc]
    · omega
  · rfl

lemma curlH_same (hf : n a = 1) {F F' : VField K} (h : SameIn n (OwnH a tm) F F') : SameIn n (OwnE a tm) (curlH F) (curlH F') := by
  intro p hp c hc
  rw [curlH_axes_sum, curlH_axes_sum]
  refine Finset.sum_congr rfl fun d _ => Finset.sum_congr rfl fun f _ => ?_
  by_cases h0 : tripleSign c d f = 0
  · rw [h0, Int.cast_zero, zero_mul, zero_mul]
  · rw [dDn_same h hp d f]
    by_cases hd : d = a
    · subst hd; exact .inr hf
    · exact .inl ((own_curl a tm c d f h0 hd).1 hc)

lemma curlE_same (hf : n a = 1) {F F' : VField K} (h : SameIn n (OwnE a tm) F F') : SameIn n (OwnH a tm) (curlE n F) (curlE n F') := by
  intro p hp c hc
  rw [curlE_axes_sum, curlE_axes_sum]
  refine Finset.sum_congr rfl fun d _ => Finset.sum_congr rfl fun f _ => ?_
  by_cases h0 : tripleSign c d f = 0
  · rw [h0, Int.cast_zero, zero_mul, zero_mul]
  · rw [dUp_same h hp d f]
    by_cases hd : d = a
    · subst hd; exact .inr hf
    · exact .inl ((own_curl a tm c d f h0 hd).2 hc)

/-! ### Boundaries -/

omit [Field K] in
lemma SameLayer.shape {P P' : Pml K} (h : SameLayer n a tm P P') : P'.shape n = P.shape n := by unfold Pml.shape; rw [h.axis, h.thick]

omit [Field K] in
lemma SameLayer.offset {P P' : Pml K} (h : SameLayer n a tm P P') : P'.offset n = P.offset n := by unfold Pml.offset; rw [h.axis, h.high, h.thick]

omit [Field K] in
lemma SameLayer.flat {P P' : Pml K} (h : SameLayer n a tm P P') (hf : n a = 1) : P.shape n a = 1 := by rw [Pml.shape, Function.update_of_ne h.across.symm, hf]

omit [Field K] in
lemma SameLayer.global {P P' : Pml K} (h : SameLayer n a tm P P') {q : Pos} (hq : q ∈ box (P.shape n)) : P.toGlobal n q ∈ box n := by
  rw [mem_box] at hq ⊢
  intro c
  unfold Pml.toGlobal
  by_cases e : c = P.axis
  · subst e
    have l := hq P.axis
    rw [Pml.shape, Function.update_self] at l
    have f := h.fits
    rw [Function.update_self]
    unfold Pml.offset
    split <;> omega
  · have l := hq c
    rw [Pml.shape, Function.update_of_ne e] at l
    rw [Function.update_of_ne e]; exact l

omit [Field K] in
lemma SameLayer.local {P P' : Pml K} (_ : SameLayer n a tm P P') {p : Pos} (hp : p ∈ box n) (hi : P.inside n p) : P.toLocal n p ∈ box (P.shape n) := by
  rw [mem_box] at hp ⊢
  intro c
  unfold Pml.toLocal Pml.shape
  by_cases e : c = P.axis
  · subst e
    rw [Function.update_self, Function.update_self]
    unfold Pml.inside at hi
    omega
  · rw [Function.update_of_ne e, Function.update_of_ne e]; exact hp c

omit [Field K] in
lemma SameLayer.view {P P' : Pml K} (h : SameLayer n a tm P P') {own : Fin 3 → Prop} {F F' : VField K} (hF : SameIn n own F F') :
    SameIn (P.shape n) own (P.view n F) (P'.view n F') := by
  intro q hq c hc
  have e : P'.toGlobal n q = P.toGlobal n q := by unfold Pml.toGlobal; rw [h.axis, h.offset]
  unfold Pml.view
  rw [e]
  exact hF _ (h.global hq) c hc

lemma phiOf_same {m : Pos} {own : Fin 3 → Prop} {f f' : Fin 3 → VField K} (h : ∀ c, own c → SameIn m (fun _ => True) (f c) (f' c)) : SameIn m own (phiOf f) (phiOf f') := by
  intro q hq c hc
  rw [phiOf_axes_sum, phiOf_axes_sum]
  refine Finset.sum_congr rfl fun d _ => Finset.sum_congr rfl fun _ _ => ?_
  rw [h c hc q hq d trivial]

lemma SameLayer.phased_E {P P' : Pml K} (h : SameLayer n a tm P P') (hf : n a = 1) {H H' : VField K} (hH : SameIn n (OwnH a tm) H H') :
    SameLayer n a tm (P.updatePhiE n H) (P'.updatePhiE n H') := by
  have hpsi : ∀ m, OwnE a tm m → SameIn (P.shape n) (fun _ => True) (psiENew n H P m) (psiENew n H' P' m) := by
    intro m hm q hq d _
    unfold psiENew
    rw [h.psiE m hm q hq d trivial, h.bE, h.cE]
    cases hp : psiPartner m d with
    | none => rfl
    | some f =>
      dsimp only
      rw [dDn_same (h.view hH) hq d f]
      by_cases hd : d = a
      · subst hd; exact .inr (h.flat hf)
      · exact .inl ((own_curl a tm m d f (own_partner m d f hp) hd).1 hm)
  exact { h with psiE := hpsi, phiE := phiOf_same hpsi }

lemma SameLayer.phased_H {P P' : Pml K} (h : SameLayer n a tm P P') (hf : n a = 1) {E E' : VField K} (hE : SameIn n (OwnE a tm) E E') :
    SameLayer n a tm (P.updatePhiH n E) (P'.updatePhiH n E') := by
  have hpsi : ∀ m, OwnH a tm m → SameIn (P.shape n) (fun _ => True) (psiHNew n E P m) (psiHNew n E' P' m) := by
    intro m hm q hq d _
    unfold psiHNew
    rw [h.psiH m hm q hq d trivial, h.bH, h.cH, h.shape]
    cases hp : psiPartner m d with
    | none => rfl
    | some f =>
      dsimp only
      rw [dUp_same (h.view hE) hq d f]
      by_cases hd : d = a
      · subst hd; exact .inr (h.flat hf)
      · exact .inl ((own_curl a tm m d f (own_partner m d f hp) hd).2 hm)
  exact { h with psiH := hpsi, phiH := phiOf_same hpsi }

lemma phased_sameE (hf : n a = 1) {bs bs' : List (FBoundary K)} (h : List.Forall₂ (SameBoundary n a tm) bs bs') {H H' : VField K} (hH : SameIn n (OwnH a tm) H H') :
    List.Forall₂ (SameBoundary n a tm) (bs.map (FBoundary.updatePhiE n H)) (bs'.map (FBoundary.updatePhiE n H')) := by
  rw [List.forall₂_map_left_iff, List.forall₂_map_right_iff]
  refine h.imp fun b b' hb => ?_
  cases hb with
  | periodic b => exact .periodic b
  | pml P P' hP => exact .pml _ _ (hP.phased_E hf hH)

lemma phased_sameH (hf : n a = 1) {bs bs' : List (FBoundary K)} (h : List.Forall₂ (SameBoundary n a tm) bs bs') {E E' : VField K} (hE : SameIn n (OwnE a tm) E E') :
    List.Forall₂ (SameBoundary n a tm) (bs.map (FBoundary.updatePhiH n E)) (bs'.map (FBoundary.updatePhiH n E')) := by
  rw [List.forall₂_map_left_iff, List.forall₂_map_right_iff]
  refine h.imp fun b b' hb => ?_
  cases hb with
  | periodic b => exact .periodic b
  | pml P P' hP => exact .pml _ _ (hP.phased_H hf hE)

lemma update_in_box {p : Pos} (hp : p ∈ box n) (b : Fin 3) {v : ℕ} (hv : v < n b) : Function.update p b v ∈ box n := by
  rw [mem_box] at hp ⊢
  intro c
  by_cases e : c = b
  · subst e; simpa using hv
  · rw [Function.update_of_ne e]; exact hp c

lemma boundariesE_same {co : K} {ie ie' : VField K} (hie : SameIn n (OwnE a tm) ie ie') {bs bs' : List (FBoundary K)} (hb : List.Forall₂ (SameBoundary n a tm) bs bs') :
    ∀ {F F' : VField K}, SameIn n (OwnE a tm) F F' → SameIn n (OwnE a tm) (applyBoundariesE n co ie bs F) (applyBoundariesE n co ie' bs' F') := by
  induction hb with
  | nil => exact fun h => h
  | cons hb _ ih =>
    intro F F' h
    refine ih fun p hp c hc => ?_
    cases hb with
    | periodic b =>
      show periodicE n b F p c = periodicE n b F' p c
      unfold periodicE
      have := mem_box.1 hp b
      split_ifs
      · exact h _ (update_in_box hp b (by omega)) c hc
      · exact h p hp c hc
    | pml P P' hP =>
      show P.updateE n co ie F p c = P'.updateE n co ie' F' p c
      have e1 : P'.inside n p ↔ P.inside n p := by unfold Pml.inside; rw [hP.axis, hP.offset, hP.thick]
      have e2 : P'.toLocal n p = P.toLocal n p := by unfold Pml.toLocal; rw [hP.axis, hP.offset]
      unfold Pml.updateE
      by_cases hi : P.inside n p
      · rw [if_pos hi, if_pos (e1.2 hi), e2, h p hp c hc, hie p hp c hc, hP.phiE _ (hP.local hp hi) c hc]
      · rw [if_neg hi, if_neg (mt e1.1 hi), h p hp c hc]

lemma boundariesH_same {co : K} {im im' : VField K} (him : SameIn n (OwnH a tm) im im') {bs bs' : List (FBoundary K)} (hb : List.Forall₂ (SameBoundary n a tm) bs bs') :
    ∀ {F F' : VField K}, SameIn n (OwnH a tm) F F' → SameIn n (OwnH a tm) (applyBoundariesH n co im bs F) (applyBoundariesH n co im' bs' F') := by
  induction hb with
  | nil => exact fun h => h
  | cons hb _ ih =>
    intro F F' h
    refine ih fun p hp c hc => ?_
    cases hb with
    | periodic b =>
      show periodicH n b F p c = periodicH n b F' p c
      unfold periodicH
      have := mem_box.1 hp b
      split_ifs
      · exact h _ (update_in_box hp b (by omega)) c hc
      · exact h p hp c hc
    | pml P P' hP =>
      show P.updateH n co im F p c = P'.updateH n co im' F' p c
      have e1 : P'.inside n p ↔ P.inside n p := by unfold Pml.inside; rw [hP.axis, hP.offset, hP.thick]
      have e2 : P'.toLocal n p = P.toLocal n p := by unfold Pml.toLocal; rw [hP.axis, hP.offset]
      unfold Pml.updateH
      by_cases hi : P.inside n p
      · rw [if_pos hi, if_pos (e1.2 hi), e2, h p hp c hc, him p hp c hc, hP.phiH _ (hP.local hp hi) c hc]
      · rw [if_neg hi, if_neg (mt e1.1 hi), h p hp c hc]

/-! ### The step -/

lemma SamePolarisation.newE {g g' : FGrid K} (h : SamePolarisation a tm g g') : SameIn g.n (OwnE a tm) g.newE g'.newE := by
  unfold FGrid.newE FGrid.phasedE
  rw [h.n, h.courant, h.time]
  refine h.sources.1 g.time _ _ (boundariesE_same h.invEps (phased_sameE h.flat h.boundaries h.H) ?_)
  intro p hp c hc
  unfold bulkE
  rw [h.E p hp c hc, h.absorb p hp c hc, h.invEps p hp c hc, curlH_same h.flat h.H p hp c hc, h.courant]

lemma SamePolarisation.newH {g g' : FGrid K} (h : SamePolarisation a tm g g') : SameIn g.n (OwnH a tm) g.newH g'.newH := by
  unfold FGrid.newH FGrid.phasedH
  rw [h.n, h.courant, h.time]
  refine h.sources.2 g.time _ _ (boundariesH_same h.invMu (phased_sameH h.flat h.boundaries h.E) ?_)
  intro p hp c hc
  unfold bulkH
  rw [h.H p hp c hc, h.invMu p hp c hc, h.n, curlE_same h.flat h.E p hp c hc, h.courant]

lemma SamePolarisation.updateE {g g' : FGrid K} (h : SamePolarisation a tm g g') : SamePolarisation a tm g.updateE g'.updateE where
  n := h.n
  flat := h.flat
  courant := h.courant
  time := h.time
  invEps := h.invEps
  absorb := h.absorb
  invMu := h.invMu
  E := h.newE
  H := h.H
  boundaries := by
    show List.Forall₂ _ (g.boundaries.map _) (g'.boundaries.map _)
    rw [h.n]
    exact phased_sameE h.flat h.boundaries h.H
  sources := h.sources

lemma SamePolarisation.updateH {g g' : FGrid K} (h : SamePolarisation a tm g g') : SamePolarisation a tm g.updateH g'.updateH where
  n := h.n
  flat := h.flat
  courant := h.courant
  time := h.time
  invEps := h.invEps
  absorb := h.absorb
  invMu := h.invMu
  E := h.E
  H := h.newH
  boundaries := by
    show List.Forall₂ _ (g.boundaries.map _) (g'.boundaries.map _)
    rw [h.n]
    exact phased_sameH h.flat h.boundaries h.E
  sources := h.sources

lemma SamePolarisation.step {g g' : FGrid K} (h : SamePolarisation a tm g g') : SamePolarisation a tm g.step g'.step :=
  { h.updateE.updateH with time := congrArg (· + 1) h.updateE.updateH.time }

/-- **C171.** In a grid of one cell's thickness, with absorbing layers or periodic boundaries around, what one polarisation does depends on that polarisation only: two simulations that agree in its fields, materials,
layers and sources agree in its fields after every number of steps, whatever the other polarisation does. -/
theorem C171_polarisation {g g' : FGrid K} (h : SamePolarisation a tm g g') (k : ℕ) : SamePolarisation a tm (g.run k) (g'.run k) := by
  induction k with
  | zero => exact h
  | succ k ih => exact ih.step

omit [Field K] in
lemma same_refl {m : Pos} {own : Fin 3 → Prop} (F : VField K) : SameIn m own F F := fun _ _ _ _ => rfl

/-- soft sources whose values agree in one polarisation -/
lemma same_soft (d d' : ℕ → VField K) (h : ∀ t, SameIn n (OwnE a tm) (d t) (d' t)) : SameSources n a tm [.soft d] [.soft d'] :=
  ⟨fun t _ _ hF p hp c hc => congrArg₂ (· + ·) (hF p hp c hc) (h t p hp c hc), fun _ _ _ hF => hF⟩

/-- Specification: a source that does not act on one polarisation: an additive one that adds nothing to its electric components, a plane source that is set on components of the other polarisation. -/
def Foreign (a : Fin 3) (tm : Bool) : FSource K → Prop
  | .soft d => ∀ t p c, OwnE a tm c → d t p c = 0
  | .plane _ epol hpol _ => ¬ OwnE a tm epol ∧ ¬ OwnH a tm hpol

/-- Specification: the second list is the first without some sources of the other polarisation. -/
inductive Thinned (a : Fin 3) (tm : Bool) : List (FSource K) → List (FSource K) → Prop
  | nil : Thinned a tm [] []
  | keep (s : FSource K) {l l' : List (FSource K)} (h : Thinned a tm l l') : Thinned a tm (s :: l) (s :: l')
  | drop (s : FSource K) {l l' : List (FSource K)} (hs : Foreign a tm s) (h : Thinned a tm l l') : Thinned a tm (s :: l) l'

lemma thinned_same {l l' : List (FSource K)} (h : Thinned a tm l l') : SameSources n a tm l l' := by
  induction h with
  | nil => exact ⟨fun _ _ _ hF => hF, fun _ _ _ hF => hF⟩
  | keep s _ ih =>
    refine ⟨fun t F F' hF => ih.1 t _ _ ?_, fun t F F' hF => ih.2 t _ _ ?_⟩
    · intro p hp c hc
      cases s with
      | soft d => exact congrArg (· + d t p c) (hF p hp c hc)
      | plane cells e m v =>
        show (if cells p = true ∧ c = e then v t else F p c) = if cells p = true ∧ c = e then v t else F' p c
        rw [hF p hp c hc]
    · intro p hp c hc
      cases s with
      | soft d => exact hF p hp c hc
      | plane cells e m v =>
        show (if cells p = true ∧ c = m then v t else F p c) = if cells p = true ∧ c = m then v t else F' p c
        rw [hF p hp c hc]
  | drop s hs _ ih =>
    refine ⟨fun t F F' hF => ih.1 t _ _ ?_, fun t F F' hF => ih.2 t _ _ ?_⟩
    · intro p hp c hc
      cases s with
      | soft d =>
        show F p c + d t p c = F' p c
        rw [hs t p c hc, add_zero, hF p hp c hc]
      | plane cells e m v =>
        refine (if_neg fun h => hs.1 ?_).trans (hF p hp c hc)
        rw [← h.2]; exact hc
    · intro p hp c hc
      cases s with
      | soft d => exact hF p hp c hc
      | plane cells e m v =>
        refine (if_neg fun h => hs.2 ?_).trans (hF p hp c hc)
        rw [← h.2]; exact hc

/-- Specification: no absorbing layer lies across the flat axis, and every layer fits into the grid. -/
def LayersAcross (n : Pos) (a : Fin 3) (bs : List (FBoundary K)) : Prop := ∀ P, .pml P ∈ bs → P.axis ≠ a ∧ P.thick ≤ n P.axis

/-- **C171.** Sources of the other polarisation can be taken away, wherever they stand among the others, of any kind and strength: the components of this polarisation are the same in all cells after every number of steps. -/
theorem C171_foreign (g : FGrid K) (hf : g.n a = 1) (hb : LayersAcross g.n a g.boundaries) {ss : List (FSource K)} (hs : Thinned a tm g.sources ss) (k : ℕ) (p : Pos) (hp : p ∈ box g.n) (c : Fin 3) :
    (OwnE a tm c → (g.run k).E p c = (({ g with sources := ss } : FGrid K).run k).E p c) ∧ (OwnH a tm c → (g.run k).H p c = (({ g with sources := ss } : FGrid K).run k).H p c) := by
  have h : SamePolarisation a tm g { g with sources := ss } := by
    refine ⟨rfl, hf, rfl, rfl, same_refl _, same_refl _, same_refl _, same_refl _, same_refl _, ?_, thinned_same hs⟩
    show List.Forall₂ _ g.boundaries g.boundaries
    rw [List.forall₂_same]
    intro b hbm
    cases b with
    | periodic e => exact .periodic e
    | pml P =>
      obtain ⟨h1, h2⟩ := hb P hbm
      exact .pml _ _ ⟨rfl, rfl, rfl, h1, h2, rfl, rfl, rfl, rfl, fun _ _ => same_refl _, fun _ _ => same_refl _, same_refl _, same_refl _⟩
  have hk := C171_polarisation h k
  have hn : (g.run k).n = g.n := run_n g k
  exact ⟨fun hc => hk.E p (by rw [hn]; exact hp) c hc, fun hc => hk.H p (by rw [hn]; exact hp) c hc⟩

/-- **C171.** Light that starts in one polarisation stays there: a source for the out-of-plane electric field in a dark flat grid without absorbing layers never makes the other components different from zero. -/
theorem C171_stays (g : FGrid K) (hf : g.n a = 1) (hE : ∀ p c, g.E p c = 0) (hH : ∀ p c, g.H p c = 0) (hb : ∀ b ∈ g.boundaries, ∃ d, b = .periodic d) (d : ℕ → VField K)
    (hs : g.sources = [.soft d]) (hd : ∀ t p c, c ≠ a → d t p c = 0) (k : ℕ) (p : Pos) (hp : p ∈ box g.n) :
    (∀ c, c ≠ a → (g.run k).E p c = 0) ∧ (g.run k).H p a = 0 := by
  have h : SamePolarisation a false g { g with sources := [] } := by
    refine ⟨rfl, hf, rfl, rfl, same_refl _, same_refl _, same_refl _, same_refl _, same_refl _, ?_, ?_⟩
    · show List.Forall₂ _ g.boundaries g.boundaries
      rw [List.forall₂_same]
      intro b hbm
      obtain ⟨e, rfl⟩ := hb b hbm
      exact .periodic e
    · show SameSources g.n a false g.sources []
      rw [hs]
      refine ⟨fun t F F' hF p hp c hc => ?_, fun _ _ _ hF => hF⟩
      show F p c + d t p c = F' p c
      rw [hd t p c (by simpa [OwnE] using hc), add_zero, hF p hp c hc]
  have hk := C171_polarisation h k
  have dark := C51_dark_partial { g with sources := [] } ⟨hE, hH, rfl, hb⟩ k
  have hn : (g.run k).n = g.n := run_n g k
  refine ⟨fun c hc => ?_, ?_⟩
  · rw [hk.E p (by rw [hn]; exact hp) c (by simpa [OwnE] using hc)]
    exact dark.1 p c
  · rw [hk.H p (by rw [hn]; exact hp) a (by simp [OwnH])]
    exact dark.2 p a

end

/-- the layers that the code creates agree with themselves -/
lemma layer_same {n : Pos} {a : Fin 3} (tm : Bool) {axis : Fin 3} (ha : axis ≠ a) (high : Bool) {thick : ℕ} (ht : thick ≤ n axis) (α courant : ℝ) :
    SameLayer n a tm (mkPml axis high thick α courant) (mkPml axis high thick α courant) :=
  ⟨rfl, rfl, rfl, ha, ht, rfl, rfl, rfl, rfl, fun _ _ => same_refl _, fun _ _ => same_refl _, same_refl _, same_refl _⟩

/-- the grid of the solver (layers along x, periodic along y, one cell along z): a source for `E_z` makes the same `E_z` whether or not sources for `E_x` and `E_y` are on as well -/
example (w v : ℕ → ℝ) (k : ℕ) :
    let bs : List (FBoundary ℝ) := [.pml (mkPml 0 false 10 (1 / 10) (1 / 2)), .pml (mkPml 0 true 10 (1 / 10) (1 / 2)), .periodic 1]
    let g : FGrid ℝ := { FGrid.fresh ![30, 3, 1] (1 / 2) 1 1 with boundaries := bs, sources := [.soft fun t p c => if p 0 = 12 ∧ c = 2 then w t else 0] }
    let g' : FGrid ℝ := { FGrid.fresh ![30, 3, 1] (1 / 2) 1 1 with boundaries := bs, sources := [.soft fun t p c => if p 0 = 12 ∧ c = 2 then w t else if c = 0 then v t else if p 0 = 7 ∧ c = 1 then -v t else 0] }
    (g.run k).E ![17, 1, 0] 2 = (g'.run k).E ![17, 1, 0] 2 := by
  intro bs g g'
  have h : SamePolarisation 2 true g g' := by
    refine ⟨rfl, rfl, rfl, rfl, same_refl _, same_refl _, same_refl _, same_refl _, same_refl _, ?_, ?_⟩
    · exact .cons (.pml _ _ (layer_same true (by decide) _ (show 10 ≤ (![30, 3, 1] : Pos) 0 by decide) _ _)) (.cons (.pml _ _ (layer_same true (by decide) _ (show 10 ≤ (![30, 3, 1] : Pos) 0 by decide) _ _))
        (.cons (.periodic 1) .nil))
    · refine same_soft _ _ fun t p _ c hc => ?_
      have hc2 : c = 2 := by simpa [OwnE] using hc
      subst hc2
      simp
  have hn : (g.run k).n = ![30, 3, 1] := run_n g k
  exact (C171_polarisation h k).E ![17, 1, 0] (by rw [hn]; exact mem_box.2 (by decide)) 2 (by simp [OwnE])

/-- a plane source for `E_y` and `H_z` and a point source for `E_x` next to a point source for `E_z`: `E_z` and `H_x` are those of the last one alone -/
example (w v u : ℕ → ℝ) (k : ℕ) :
    let P : FSource ℝ := .plane (fun p => p 0 == 4) 1 2 v
    let Q : FSource ℝ := .soft fun t p c => if p = ![2, 1, 0] ∧ c = 0 then u t else 0
    let S : FSource ℝ := .soft fun t p c => if p = ![6, 2, 0] ∧ c = 2 then w t else 0
    let g : FGrid ℝ := { FGrid.fresh ![9, 5, 1] (1 / 2) 1 1 with boundaries := [.periodic 1], sources := [P, S, Q] }
    let g' : FGrid ℝ := { FGrid.fresh ![9, 5, 1] (1 / 2) 1 1 with boundaries := [.periodic 1], sources := [S] }
    (g.run k).E ![3, 3, 0] 2 = (g'.run k).E ![3, 3, 0] 2 ∧ (g.run k).H ![3, 3, 0] 0 = (g'.run k).H ![3, 3, 0] 0 := by
  intro P Q S g g'
  have hs : Thinned 2 true g.sources [S] := by
    refine .drop P (show ¬ OwnE 2 true 1 ∧ ¬ OwnH 2 true 2 by simp [OwnE, OwnH]) (.keep S (.drop Q ?_ .nil))
    intro t p c hc
    have hc2 : c = 2 := by simpa [OwnE] using hc
    subst hc2
    simp
  have hb : LayersAcross g.n 2 g.boundaries := by
    intro P hP
    exact absurd (List.mem_singleton.1 hP) (by simp)
  have hp : (![3, 3, 0] : Pos) ∈ box g.n := mem_box.2 (show ∀ c, (![3, 3, 0] : Pos) c < (![9, 5, 1] : Pos) c by decide)
  exact ⟨(C171_foreign g rfl hb hs k _ hp 2).1 (by simp [OwnE]), (C171_foreign g rfl hb hs k _ hp 0).2 (by simp [OwnH])⟩

end Nidn
