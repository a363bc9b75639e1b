/-
C170: along a periodic axis of an FDTD grid the place does not matter.
-/
import Verif.Props.FdtdTorus
import Verif.Lemmas.FdtdField
import Verif.Model.FdtdSources
import Mathlib.Data.Nat.ModEq

namespace Nidn

/-- Specification: the cell `p'` lies `s` cells further along axis `a` than `p`, counted around the ring; the first and the last plane of the axis are the same place. -/
def Further (n : Pos) (a : Fin 3) (s : ℕ) (p p' : Pos) : Prop :=
  p ∈ box n ∧ p' ∈ box n ∧ (∀ b, b ≠ a → p' b = p b) ∧ p a + s ≡ p' a [MOD n a - 1]

section
variable {K : Type} [Field K]

/-- Specification: two fields agree, the second read `s` cells further, on the planes `ok` of the axis. -/
def AlikeOn (n : Pos) (a : Fin 3) (s : ℕ) (ok : ℕ → Prop) (F F' : VField K) : Prop :=
  ∀ p p', Further n a s p p' → ok (p a) → ok (p' a) → ∀ c, F p c = F' p' c

/-- Specification: the same absorbing layer across another axis, each in the state that belongs to its place. -/
structure AlikeLayer (n : Pos) (a : Fin 3) (s : ℕ) (P P' : Pml K) : Prop where
  axis : P'.axis = P.axis
  high : P'.high = P.high
  thick : P'.thick = P.thick
  across : P.axis ≠ a
  fits : P.thick ≤ n P.axis
  bE : AlikeOn (P.shape n) a s (fun _ => True) P.bE P'.bE
  cE : AlikeOn (P.shape n) a s (fun _ => True) P.cE P'.cE
  bH : AlikeOn (P.shape n) a s (fun _ => True) P.bH P'.bH
  cH : AlikeOn (P.shape n) a s (fun _ => True) P.cH P'.cH
  flatE : ∀ q ∈ box (P.shape n), P.cE q a = 0 ∧ P'.cE q a = 0
  flatH : ∀ q ∈ box (P.shape n), P.cH q a = 0 ∧ P'.cH q a = 0
  psiE : ∀ m, AlikeOn (P.shape n) a s (fun _ => True) (P.psiE m) (P'.psiE m)
  psiH : ∀ m, AlikeOn (P.shape n) a s (fun _ => True) (P.psiH m) (P'.psiH m)
  phiE : AlikeOn (P.shape n) a s (fun _ => True) P.phiE P'.phiE
  phiH : AlikeOn (P.shape n) a s (fun _ => True) P.phiH P'.phiH

/-- Specification: corresponding boundaries. -/
inductive AlikeBoundary (n : Pos) (a : Fin 3) (s : ℕ) : FBoundary K → FBoundary K → Prop
  | periodic (b : Fin 3) : AlikeBoundary n a s (.periodic b) (.periodic b)
  | pml (P P' : Pml K) (h : AlikeLayer n a s P P') : AlikeBoundary n a s (.pml P) (.pml P')

/-- Specification: the same source `s` cells further. -/
inductive AlikeSource (n : Pos) (a : Fin 3) (s : ℕ) : FSource K → FSource K → Prop
  | soft (d d' : ℕ → VField K) (h : ∀ t, AlikeOn n a s (fun _ => True) (d t) (d' t)) : AlikeSource n a s (.soft d) (.soft d')
  | plane (w w' : Pos → Bool) (e h : Fin 3) (v : ℕ → K) (hw : ∀ p p', Further n a s p p' → w p = w' p') : AlikeSource n a s (.plane w e h v) (.plane w' e h v)

/-- Specification: the same detector `s` cells further, with the same recordings. -/
structure AlikeDetector (n : Pos) (a : Fin 3) (s : ℕ) (d d' : FDetector K) : Prop where
  cells : List.Forall₂ (Further n a s) d.cells d'.cells
  recE : d.recE = d'.recE
  recH : d.recH = d'.recH

/-- Specification: `g'` is the simulation `g` moved by `s` cells along the periodic axis `a`, with everything in it: fields, materials, layers on the other axes, sources, detectors. -/
structure MovedAlong (a : Fin 3) (s : ℕ) (g g' : FGrid K) : Prop where
  n : g'.n = g.n
  size : 2 ≤ g.n a
  courant : g'.courant = g.courant
  time : g'.time = g.time
  ring : FBoundary.periodic a ∈ g.boundaries
  invEps : AlikeOn g.n a s (fun _ => True) g.invEps g'.invEps
  absorb : AlikeOn g.n a s (fun _ => True) g.absorb g'.absorb
  invMu : AlikeOn g.n a s (fun _ => True) g.invMu g'.invMu
  E : AlikeOn g.n a s (fun _ => True) g.E g'.E
  H : AlikeOn g.n a s (fun _ => True) g.H g'.H
  boundaries : List.Forall₂ (AlikeBoundary g.n a s) g.boundaries g'.boundaries
  sources : List.Forall₂ (AlikeSource g.n a s) g.sources g'.sources
  detectors : List.Forall₂ (AlikeDetector g.n a s) g.detectors g'.detectors

variable {n : Pos} {a : Fin 3} {s : ℕ}

lemma Further.update_other {p p' : Pos} (h : Further n a s p p') {b : Fin 3} (hb : b ≠ a) {v : ℕ} (hv : v < n b) :
    Further n a s (Function.update p b v) (Function.update p' b v) := by
  obtain ⟨h1, h2, h3, h4⟩ := h
  rw [mem_box] at h1 h2
  refine ⟨mem_box.2 fun c => ?_, mem_box.2 fun c => ?_, fun c hc => ?_, ?_⟩
  · by_cases e : c = b
    · subst e; simpa using hv
    · rw [Function.update_of_ne e]; exact h1 c
  · by_cases e : c = b
    · subst e; simpa using hv
    · rw [Function.update_of_ne e]; exact h2 c
  · by_cases e : c = b
    · subst e; simp
    · rw [Function.update_of_ne e, Function.update_of_ne e]; exact h3 c hc
  · rw [Function.update_of_ne hb.symm, Function.update_of_ne hb.symm]; exact h4

lemma Further.update_same {p p' : Pos} (h : Further n a s p p') {v v' : ℕ} (hv : v < n a) (hv' : v' < n a) (e : v + s ≡ v' [MOD n a - 1]) :
    Further n a s (Function.update p a v) (Function.update p' a v') := by
  obtain ⟨h1, h2, h3, h4⟩ := h
  rw [mem_box] at h1 h2
  refine ⟨mem_box.2 fun c => ?_, mem_box.2 fun c => ?_, fun c hc => ?_, ?_⟩
  · by_cases e : c = a
    · subst e; simpa using hv
    · rw [Function.update_of_ne e]; exact h1 c
  · by_cases e : c = a
    · subst e; simpa using hv'
    · rw [Function.update_of_ne e]; exact h2 c
  · rw [Function.update_of_ne hc, Function.update_of_ne hc]; exact h3 c hc
  · simpa using e

lemma Further.lt {p p' : Pos} (h : Further n a s p p') : p a < n a ∧ p' a < n a := ⟨mem_box.1 h.1 a, mem_box.1 h.2.1 a⟩

/-- the backward neighbours of corresponding cells correspond -/
lemma Further.dn {p p' : Pos} (h : Further n a s p p') (d : Fin 3) (h0 : p d ≠ 0) (h1 : p' d ≠ 0) : Further n a s (p.dn d) (p'.dn d) := by
  unfold Pos.dn
  by_cases hd : d = a
  · subst hd
    obtain ⟨l1, l2⟩ := h.lt
    refine h.update_same (by omega) (by omega) ?_
    have := h.2.2.2
    refine Nat.ModEq.add_right_cancel' 1 ?_
    have e1 : p d - 1 + s + 1 = p d + s := by omega
    have e2 : p' d - 1 + 1 = p' d := by omega
    rw [e1, e2]
    exact this
  · rw [h.2.2.1 d hd]
    exact h.update_other hd (by have := mem_box.1 h.1 d; omega)

/-- the forward neighbours of corresponding cells correspond -/
lemma Further.up {p p' : Pos} (h : Further n a s p p') (d : Fin 3) (h0 : p d + 1 < n d) (h1 : p' d + 1 < n d) : Further n a s (p.up d) (p'.up d) := by
  unfold Pos.up
  by_cases hd : d = a
  · subst hd
    refine h.update_same h0 h1 ?_
    have e1 : p d + 1 + s = p d + s + 1 := by omega
    rw [e1]
    exact Nat.ModEq.add_right 1 h.2.2.2
  · rw [h.2.2.1 d hd]
    exact h.update_other hd h0

omit [Field K] in
lemma AlikeOn.weaken {F F' : VField K} {ok : ℕ → Prop} (h : AlikeOn n a s (fun _ => True) F F') : AlikeOn n a s ok F F' := fun p p' hp _ _ => h p p' hp trivial trivial

lemma dDn_alike {F F' : VField K} (h : AlikeOn n a s (fun _ => True) F F') {p p' : Pos} (hp : Further n a s p p') (d c : Fin 3) (h0 : d = a → p d ≠ 0 ∧ p' d ≠ 0) :
    dDn F d c p = dDn F' d c p' := by
  have key : p d ≠ 0 ↔ p' d ≠ 0 := by
    by_cases hd : d = a
    · simp [h0 hd]
    · rw [hp.2.2.1 d hd]
  unfold dDn
  by_cases hq : 1 ≤ p d
  · have hq' : 1 ≤ p' d := by have := key.1 (by omega); omega
    rw [if_pos hq, if_pos hq', h p p' hp trivial trivial, h _ _ (hp.dn d (by omega) (by omega)) trivial trivial]
  · have hq' : ¬ 1 ≤ p' d := fun e => hq (by have := key.2 (by omega); omega)
    rw [if_neg hq, if_neg hq']

lemma dUp_alike {F F' : VField K} (h : AlikeOn n a s (fun _ => True) F F') {p p' : Pos} (hp : Further n a s p p') (d c : Fin 3) (h0 : d = a → p d ≠ n d - 1 ∧ p' d ≠ n d - 1) :
    dUp n F d c p = dUp n F' d c p' := by
  have l1 := mem_box.1 hp.1 d
  have l2 := mem_box.1 hp.2.1 d
  have key : p d + 1 < n d ↔ p' d + 1 < n d := by
    by_cases hd : d = a
    · have := h0 hd; omega
    · rw [hp.2.2.1 d hd]
  unfold dUp
  by_cases hq : p d + 1 < n d
  · rw [if_pos hq, if_pos (key.1 hq), h p p' hp trivial trivial, h _ _ (hp.up d hq (key.1 hq)) trivial trivial]
  · rw [if_neg hq, if_neg (mt key.2 hq)]

lemma curlH_alike {F F' : VField K} (h : AlikeOn n a s (fun _ => True) F F') : AlikeOn n a s (· ≠ 0) (curlH F) (curlH F') := by
  intro p p' hp h1 h2 c
  have e : ∀ d f, dDn F d f p = dDn F' d f p' := fun d f => dDn_alike h hp d f (by rintro rfl; exact ⟨h1, h2⟩)
  fin_cases c <;> simp only [curlH, e]

lemma curlE_alike {F F' : VField K} (h : AlikeOn n a s (fun _ => True) F F') : AlikeOn n a s (· ≠ n a - 1) (curlE n F) (curlE n F') := by
  intro p p' hp h1 h2 c
  have e : ∀ d f, dUp n F d f p = dUp n F' d f p' := fun d f => dUp_alike h hp d f (by rintro rfl; exact ⟨h1, h2⟩)
  fin_cases c <;> simp only [curlE, e]

/-! ### Boundaries -/

omit [Field K] in
lemma Pml.shape_other {P : Pml K} (h : P.axis ≠ a) : P.shape n a = n a := by rw [Pml.shape, Function.update_of_ne h.symm]

lemma AlikeLayer.offset {P P' : Pml K} (h : AlikeLayer n a s P P') : P'.offset n = P.offset n := by unfold Pml.offset; rw [h.axis, h.high, h.thick]

lemma AlikeLayer.shape {P P' : Pml K} (h : AlikeLayer n a s P P') : P'.shape n = P.shape n := by unfold Pml.shape; rw [h.axis, h.thick]

lemma AlikeLayer.global {P P' : Pml K} (h : AlikeLayer n a s P P') {q q' : Pos} (hq : Further (P.shape n) a s q q') :
    Further n a s (P.toGlobal n q) (P'.toGlobal n q') := by
  obtain ⟨h1, h2, h3, h4⟩ := hq
  have hin : ∀ q ∈ box (P.shape n), P.toGlobal n q ∈ box n := by
    intro q hq
    rw [mem_box] at hq ⊢
    intro c
    unfold Pml.toGlobal
    by_cases e : c = P.axis
    · subst e
      have l := hq P.axis
      rw [Pml.shape, Function.update_self] at l
      have f := h.fits
      rw [Function.update_self]
      unfold Pml.offset
      split <;> omega
    · have l := hq c
      rw [Pml.shape, Function.update_of_ne e] at l
      rw [Function.update_of_ne e]; exact l
  have e' : P'.toGlobal n q' = P.toGlobal n q' := by unfold Pml.toGlobal; rw [h.axis, h.offset]
  rw [e']
  refine ⟨hin _ h1, hin _ h2, fun b hb => ?_, ?_⟩
  · unfold Pml.toGlobal
    by_cases e : b = P.axis
    · subst e; rw [Function.update_self, Function.update_self, h3 _ hb]
    · rw [Function.update_of_ne e, Function.update_of_ne e, h3 _ hb]
  · unfold Pml.toGlobal
    rw [Function.update_of_ne h.across.symm, Function.update_of_ne h.across.symm]
    rwa [Pml.shape_other h.across] at h4

lemma AlikeLayer.local {P P' : Pml K} (h : AlikeLayer n a s P P') {p p' : Pos} (hp : Further n a s p p') (hi : P.inside n p) :
    P'.inside n p' ∧ Further (P.shape n) a s (P.toLocal n p) (P'.toLocal n p') := by
  obtain ⟨h1, h2, h3, h4⟩ := hp
  have hi' : P.inside n p' := by unfold Pml.inside at *; rw [h3 _ h.across]; exact hi
  have hin : ∀ q ∈ box n, P.inside n q → P.toLocal n q ∈ box (P.shape n) := by
    intro q hq hiq
    rw [mem_box] at hq ⊢
    intro c
    unfold Pml.toLocal Pml.shape
    by_cases e : c = P.axis
    · subst e
      rw [Function.update_self, Function.update_self]
      unfold Pml.inside at hiq
      omega
    · rw [Function.update_of_ne e, Function.update_of_ne e]; exact hq c
  have e' : P'.toLocal n p' = P.toLocal n p' := by unfold Pml.toLocal; rw [h.axis, h.offset]
  refine ⟨by unfold Pml.inside at *; rw [h.axis, h.offset, h.thick]; exact hi', ?_⟩
  rw [e']
  refine ⟨hin _ h1 hi, hin _ h2 hi', fun b hb => ?_, ?_⟩
  · unfold Pml.toLocal
    by_cases e : b = P.axis
    · subst e; rw [Function.update_self, Function.update_self, h3 _ hb]
    · rw [Function.update_of_ne e, Function.update_of_ne e, h3 _ hb]
  · unfold Pml.toLocal
    rw [Function.update_of_ne h.across.symm, Function.update_of_ne h.across.symm, Pml.shape_other h.across]
    exact h4

lemma AlikeLayer.inside_iff {P P' : Pml K} (h : AlikeLayer n a s P P') {p p' : Pos} (hp : Further n a s p p') : P.inside n p ↔ P'.inside n p' := by
  unfold Pml.inside
  rw [h.axis, h.offset, h.thick, hp.2.2.1 _ h.across]

lemma AlikeLayer.view {P P' : Pml K} (h : AlikeLayer n a s P P') {F F' : VField K} (hF : AlikeOn n a s (fun _ => True) F F') :
    AlikeOn (P.shape n) a s (fun _ => True) (P.view n F) (P'.view n F') := fun _ _ hq _ _ c => hF _ _ (h.global hq) trivial trivial c

lemma phiOf_alike {m : Pos} {f f' : Fin 3 → VField K} (h : ∀ i, AlikeOn m a s (fun _ => True) (f i) (f' i)) : AlikeOn m a s (fun _ => True) (phiOf f) (phiOf f') := by
  intro q q' hq _ _ c
  have e : ∀ i d, f i q d = f' i q' d := fun i d => h i q q' hq trivial trivial d
  fin_cases c <;> simp only [phiOf, e]

lemma AlikeLayer.phased_E {P P' : Pml K} (h : AlikeLayer n a s P P') {H H' : VField K} (hH : AlikeOn n a s (fun _ => True) H H') :
    AlikeLayer n a s (P.updatePhiE n H) (P'.updatePhiE n H') := by
  have hpsi : ∀ m, AlikeOn (P.shape n) a s (fun _ => True) (psiENew n H P m) (psiENew n H' P' m) := by
    intro m q q' hq _ _ d
    unfold psiENew
    rw [h.psiE m q q' hq trivial trivial d, h.bE q q' hq trivial trivial d]
    cases psiPartner m d with
    | none => rfl
    | some f =>
      dsimp only
      by_cases hd : d = a
      · subst hd
        rw [(h.flatE q hq.1).1, (h.flatE q' hq.2.1).2, mul_zero, mul_zero]
      · rw [dDn_alike (h.view hH) hq d f (fun e => absurd e hd), h.cE q q' hq trivial trivial d]
  exact { h with psiE := hpsi, phiE := phiOf_alike hpsi }

lemma AlikeLayer.phased_H {P P' : Pml K} (h : AlikeLayer n a s P P') {E E' : VField K} (hE : AlikeOn n a s (fun _ => True) E E') :
    AlikeLayer n a s (P.updatePhiH n E) (P'.updatePhiH n E') := by
  have hpsi : ∀ m, AlikeOn (P.shape n) a s (fun _ => True) (psiHNew n E P m) (psiHNew n E' P' m) := by
    intro m q q' hq _ _ d
    unfold psiHNew
    rw [h.psiH m q q' hq trivial trivial d, h.bH q q' hq trivial trivial d, h.shape]
    cases psiPartner m d with
    | none => rfl
    | some f =>
      dsimp only
      by_cases hd : d = a
      · subst hd
        rw [(h.flatH q hq.1).1, (h.flatH q' hq.2.1).2, mul_zero, mul_zero]
      · rw [dUp_alike (h.view hE) hq d f (fun e => absurd e hd), h.cH q q' hq trivial trivial d]
  exact { h with psiH := hpsi, phiH := phiOf_alike hpsi }

lemma phased_alikeE {bs bs' : List (FBoundary K)} (h : List.Forall₂ (AlikeBoundary n a s) bs bs') {H H' : VField K} (hH : AlikeOn n a s (fun _ => True) H H') :
    List.Forall₂ (AlikeBoundary n a s) (bs.map (FBoundary.updatePhiE n H)) (bs'.map (FBoundary.updatePhiE n H')) := by
  rw [List.forall₂_map_left_iff, List.forall₂_map_right_iff]
  refine h.imp fun b b' hb => ?_
  cases hb with
  | periodic b => exact .periodic b
  | pml P P' hP => exact .pml _ _ (hP.phased_E hH)

lemma phased_alikeH {bs bs' : List (FBoundary K)} (h : List.Forall₂ (AlikeBoundary n a s) bs bs') {E E' : VField K} (hE : AlikeOn n a s (fun _ => True) E E') :
    List.Forall₂ (AlikeBoundary n a s) (bs.map (FBoundary.updatePhiH n E)) (bs'.map (FBoundary.updatePhiH n E')) := by
  rw [List.forall₂_map_left_iff, List.forall₂_map_right_iff]
  refine h.imp fun b b' hb => ?_
  cases hb with
  | periodic b => exact .periodic b
  | pml P P' hP => exact .pml _ _ (hP.phased_H hE)

omit [Field K] in
/-- copying the last electric plane onto the first makes fields agree everywhere that agreed on the other planes -/
lemma periodicE_alike (hn : 2 ≤ n a) {F F' : VField K} (h : AlikeOn n a s (· ≠ 0) F F') : AlikeOn n a s (fun _ => True) (periodicE n a F) (periodicE n a F') := by
  intro p p' hp _ _ c
  have e : ∀ (F : VField K) (p : Pos), p ∈ box n → periodicE n a F p c = F (Function.update p a (if p a = 0 then n a - 1 else p a)) c := by
    intro F p _
    unfold periodicE
    split_ifs
    · rfl
    · rw [Function.update_eq_self]
  rw [e F p hp.1, e F' p' hp.2.1]
  obtain ⟨l1, l2⟩ := hp.lt
  refine h _ _ (hp.update_same (by split_ifs <;> omega) (by split_ifs <;> omega) ?_) ?_ ?_ c
  · have r : ∀ v : ℕ, (if v = 0 then n a - 1 else v) ≡ v [MOD n a - 1] := by
      intro v
      split_ifs with e
      · rw [e]; exact (Nat.modEq_zero_iff_dvd.2 (dvd_refl _))
      · exact Nat.ModEq.refl _
    exact ((r _).add_right s).trans (hp.2.2.2.trans (r _).symm)
  · rw [Function.update_self]; split_ifs <;> omega
  · rw [Function.update_self]; split_ifs <;> omega

omit [Field K] in
lemma periodicH_alike (hn : 2 ≤ n a) {F F' : VField K} (h : AlikeOn n a s (· ≠ n a - 1) F F') : AlikeOn n a s (fun _ => True) (periodicH n a F) (periodicH n a F') := by
  intro p p' hp _ _ c
  have e : ∀ (F : VField K) (p : Pos), p ∈ box n → periodicH n a F p c = F (Function.update p a (if p a = n a - 1 then 0 else p a)) c := by
    intro F p _
    unfold periodicH
    split_ifs
    · rfl
    · rw [Function.update_eq_self]
  rw [e F p hp.1, e F' p' hp.2.1]
  obtain ⟨l1, l2⟩ := hp.lt
  refine h _ _ (hp.update_same (by split_ifs <;> omega) (by split_ifs <;> omega) ?_) ?_ ?_ c
  · have r : ∀ v : ℕ, (if v = n a - 1 then 0 else v) ≡ v [MOD n a - 1] := by
      intro v
      split_ifs with e
      · rw [e]; exact (Nat.modEq_zero_iff_dvd.2 (dvd_refl _)).symm
      · exact Nat.ModEq.refl _
    exact ((r _).add_right s).trans (hp.2.2.2.trans (r _).symm)
  · rw [Function.update_self]; split_ifs <;> omega
  · rw [Function.update_self]; split_ifs <;> omega

/-- any boundary keeps fields alike on the same planes -/
lemma boundaryE_alike {ok : ℕ → Prop} (hok : ∀ v, v ≠ 0 → ok v) (hn : 2 ≤ n a) {co : K} {ie ie' : VField K} (hie : AlikeOn n a s (fun _ => True) ie ie')
    {b b' : FBoundary K} (hb : AlikeBoundary n a s b b') {F F' : VField K} (h : AlikeOn n a s ok F F') :
    AlikeOn n a s ok (b.updateE n co ie F) (b'.updateE n co ie' F') := by
  cases hb with
  | periodic b =>
    by_cases hba : b = a
    · subst hba
      exact (periodicE_alike hn fun p p' hp o1 o2 => h p p' hp (hok _ o1) (hok _ o2)).weaken
    · intro p p' hp o1 o2 c
      show periodicE n b F p c = periodicE n b F' p' c
      unfold periodicE
      rw [hp.2.2.1 b hba]
      have l := mem_box.1 hp.1 b
      split_ifs
      · refine h _ _ (hp.update_other hba (by omega)) ?_ ?_ c
        · rwa [Function.update_of_ne (Ne.symm hba)]
        · rwa [Function.update_of_ne (Ne.symm hba)]
      · exact h p p' hp o1 o2 c
  | pml P P' hP =>
    intro p p' hp o1 o2 c
    show P.updateE n co ie F p c = P'.updateE n co ie' F' p' c
    unfold Pml.updateE
    by_cases hi : P.inside n p
    · obtain ⟨hi', hl⟩ := hP.local hp hi
      rw [if_pos hi, if_pos hi', h p p' hp o1 o2 c, hie p p' hp trivial trivial c, hP.phiE _ _ hl trivial trivial c]
    · rw [if_neg hi, if_neg (mt (hP.inside_iff hp).2 hi), h p p' hp o1 o2 c]

lemma boundaryH_alike {ok : ℕ → Prop} (hok : ∀ v, v ≠ n a - 1 → ok v) (hn : 2 ≤ n a) {co : K} {im im' : VField K} (him : AlikeOn n a s (fun _ => True) im im')
    {b b' : FBoundary K} (hb : AlikeBoundary n a s b b') {F F' : VField K} (h : AlikeOn n a s ok F F') :
    AlikeOn n a s ok (b.updateH n co im F) (b'.updateH n co im' F') := by
  cases hb with
  | periodic b =>
    by_cases hba : b = a
    · subst hba
      exact (periodicH_alike hn fun p p' hp o1 o2 => h p p' hp (hok _ o1) (hok _ o2)).weaken
    · intro p p' hp o1 o2 c
      show periodicH n b F p c = periodicH n b F' p' c
      unfold periodicH
      rw [hp.2.2.1 b hba]
      have l := mem_box.1 hp.1 b
      split_ifs
      · refine h _ _ (hp.update_other hba (by omega)) ?_ ?_ c
        · rwa [Function.update_of_ne (Ne.symm hba)]
        · rwa [Function.update_of_ne (Ne.symm hba)]
      · exact h p p' hp o1 o2 c
  | pml P P' hP =>
    intro p p' hp o1 o2 c
    show P.updateH n co im F p c = P'.updateH n co im' F' p' c
    unfold Pml.updateH
    by_cases hi : P.inside n p
    · obtain ⟨hi', hl⟩ := hP.local hp hi
      rw [if_pos hi, if_pos hi', h p p' hp o1 o2 c, him p p' hp trivial trivial c, hP.phiH _ _ hl trivial trivial c]
    · rw [if_neg hi, if_neg (mt (hP.inside_iff hp).2 hi), h p p' hp o1 o2 c]

lemma boundariesE_keep {ok : ℕ → Prop} (hok : ∀ v, v ≠ 0 → ok v) (hn : 2 ≤ n a) {co : K} {ie ie' : VField K} (hie : AlikeOn n a s (fun _ => True) ie ie')
    {bs bs' : List (FBoundary K)} (hb : List.Forall₂ (AlikeBoundary n a s) bs bs') : ∀ {F F' : VField K}, AlikeOn n a s ok F F' →
    AlikeOn n a s ok (applyBoundariesE n co ie bs F) (applyBoundariesE n co ie' bs' F') := by
  induction hb with
  | nil => exact fun h => h
  | cons hb _ ih => exact fun h => ih (boundaryE_alike hok hn hie hb h)

lemma boundariesH_keep {ok : ℕ → Prop} (hok : ∀ v, v ≠ n a - 1 → ok v) (hn : 2 ≤ n a) {co : K} {im im' : VField K} (him : AlikeOn n a s (fun _ => True) im im')
    {bs bs' : List (FBoundary K)} (hb : List.Forall₂ (AlikeBoundary n a s) bs bs') : ∀ {F F' : VField K}, AlikeOn n a s ok F F' →
    AlikeOn n a s ok (applyBoundariesH n co im bs F) (applyBoundariesH n co im' bs' F') := by
  induction hb with
  | nil => exact fun h => h
  | cons hb _ ih => exact fun h => ih (boundaryH_alike hok hn him hb h)

/-- once the periodic boundary of the axis had its turn the fields are alike everywhere -/
lemma boundariesE_alike (hn : 2 ≤ n a) {co : K} {ie ie' : VField K} (hie : AlikeOn n a s (fun _ => True) ie ie')
    {bs bs' : List (FBoundary K)} (hb : List.Forall₂ (AlikeBoundary n a s) bs bs') : ∀ {F F' : VField K}, FBoundary.periodic a ∈ bs → AlikeOn n a s (· ≠ 0) F F' →
    AlikeOn n a s (fun _ => True) (applyBoundariesE n co ie bs F) (applyBoundariesE n co ie' bs' F') := by
  induction hb with
  | nil => exact fun hm _ => absurd hm List.not_mem_nil
  | @cons b b' l l' hb hl ih =>
    intro F F' hm h
    rcases List.mem_cons.1 hm with e | hm
    · subst e
      cases hb
      exact boundariesE_keep (fun _ _ => trivial) hn hie hl (periodicE_alike hn h)
    · exact ih hm (boundaryE_alike (fun _ h => h) hn hie hb h)

lemma boundariesH_alike (hn : 2 ≤ n a) {co : K} {im im' : VField K} (him : AlikeOn n a s (fun _ => True) im im')
    {bs bs' : List (FBoundary K)} (hb : List.Forall₂ (AlikeBoundary n a s) bs bs') : ∀ {F F' : VField K}, FBoundary.periodic a ∈ bs → AlikeOn n a s (· ≠ n a - 1) F F' →
    AlikeOn n a s (fun _ => True) (applyBoundariesH n co im bs F) (applyBoundariesH n co im' bs' F') := by
  induction hb with
  | nil => exact fun hm _ => absurd hm List.not_mem_nil
  | @cons b b' l l' hb hl ih =>
    intro F F' hm h
    rcases List.mem_cons.1 hm with e | hm
    · subst e
      cases hb
      exact boundariesH_keep (fun _ _ => trivial) hn him hl (periodicH_alike hn h)
    · exact ih hm (boundaryH_alike (fun _ h => h) hn him hb h)

/-! ### Sources and the step -/

lemma sourcesE_alike (t : ℕ) {ss ss' : List (FSource K)} (hs : List.Forall₂ (AlikeSource n a s) ss ss') : ∀ {F F' : VField K}, AlikeOn n a s (fun _ => True) F F' →
    AlikeOn n a s (fun _ => True) (applySourcesE t ss F) (applySourcesE t ss' F') := by
  induction hs with
  | nil => exact fun h => h
  | cons hs _ ih =>
    intro F F' h
    refine ih fun p p' hp _ _ c => ?_
    cases hs with
    | soft d d' hd => exact congrArg₂ _ (h p p' hp trivial trivial c) (hd t p p' hp trivial trivial c)
    | plane w w' e hc v hw =>
      show (if w p = true ∧ c = e then v t else F p c) = if w' p' = true ∧ c = e then v t else F' p' c
      rw [hw p p' hp, h p p' hp trivial trivial c]

omit [Field K] in
lemma sourcesH_alike (t : ℕ) {ss ss' : List (FSource K)} (hs : List.Forall₂ (AlikeSource n a s) ss ss') : ∀ {F F' : VField K}, AlikeOn n a s (fun _ => True) F F' →
    AlikeOn n a s (fun _ => True) (applySourcesH t ss F) (applySourcesH t ss' F') := by
  induction hs with
  | nil => exact fun h => h
  | cons hs _ ih =>
    intro F F' h
    refine ih fun p p' hp _ _ c => ?_
    cases hs with
    | soft d d' hd => exact h p p' hp trivial trivial c
    | plane w w' e hc v hw =>
      show (if w p = true ∧ c = hc then v t else F p c) = if w' p' = true ∧ c = hc then v t else F' p' c
      rw [hw p p' hp, h p p' hp trivial trivial c]

lemma MovedAlong.ringE {g g' : FGrid K} (h : MovedAlong a s g g') (F : VField K) : FBoundary.periodic a ∈ g.boundaries.map (FBoundary.updatePhiE g.n F) :=
  List.mem_map.2 ⟨_, h.ring, rfl⟩

lemma MovedAlong.newE {g g' : FGrid K} (h : MovedAlong a s g g') : AlikeOn g.n a s (fun _ => True) g.newE g'.newE := by
  unfold FGrid.newE FGrid.phasedE
  rw [h.n, h.courant, h.time]
  refine sourcesE_alike g.time h.sources (boundariesE_alike h.size h.invEps (phased_alikeE h.boundaries h.H) (h.ringE _) ?_)
  intro p p' hp o1 o2 c
  unfold bulkE
  rw [h.E p p' hp trivial trivial c, h.absorb p p' hp trivial trivial c, h.invEps p p' hp trivial trivial c, curlH_alike h.H p p' hp o1 o2 c, h.courant]

omit [Field K] in
lemma samples_alike {m : Pos} {F F' : VField K} (hF : AlikeOn m a s (fun _ => True) F F') {cs cs' : List Pos} (h : List.Forall₂ (Further m a s) cs cs') :
    (cs.map fun p => F p) = cs'.map fun p => F' p := by
  induction h with
  | nil => rfl
  | cons hp _ ih =>
    rw [List.map_cons, List.map_cons, ih]
    congr 1
    funext c
    exact hF _ _ hp trivial trivial c

omit [Field K] in
lemma detectE_alike {m : Pos} {F F' : VField K} (hF : AlikeOn m a s (fun _ => True) F F') {d d' : FDetector K} (h : AlikeDetector m a s d d') :
    AlikeDetector m a s (d.detectE F) (d'.detectE F') := by
  refine ⟨h.cells, ?_, h.recH⟩
  unfold FDetector.detectE
  have e := samples_alike hF h.cells
  dsimp only
  rw [h.recE, e]

omit [Field K] in
lemma detectH_alike {m : Pos} {F F' : VField K} (hF : AlikeOn m a s (fun _ => True) F F') {d d' : FDetector K} (h : AlikeDetector m a s d d') :
    AlikeDetector m a s (d.detectH F) (d'.detectH F') := by
  refine ⟨h.cells, h.recE, ?_⟩
  unfold FDetector.detectH
  have e := samples_alike hF h.cells
  dsimp only
  rw [h.recH, e]

lemma MovedAlong.updateE {g g' : FGrid K} (h : MovedAlong a s g g') : MovedAlong a s g.updateE g'.updateE where
  n := h.n
  size := h.size
  courant := h.courant
  time := h.time
  ring := h.ringE _
  invEps := h.invEps
  absorb := h.absorb
  invMu := h.invMu
  E := h.newE
  H := h.H
  boundaries := by
    show List.Forall₂ _ (g.boundaries.map _) (g'.boundaries.map _)
    rw [h.n]
    exact phased_alikeE h.boundaries h.H
  sources := h.sources
  detectors := by
    show List.Forall₂ _ (g.detectors.map _) (g'.detectors.map _)
    rw [List.forall₂_map_left_iff, List.forall₂_map_right_iff]
    exact h.detectors.imp fun d d' hd => detectE_alike h.newE hd

lemma MovedAlong.newH {g g' : FGrid K} (h : MovedAlong a s g g') : AlikeOn g.n a s (fun _ => True) g.newH g'.newH := by
  unfold FGrid.newH FGrid.phasedH
  rw [h.n, h.courant, h.time]
  refine sourcesH_alike g.time h.sources (boundariesH_alike h.size h.invMu (phased_alikeH h.boundaries h.E) (List.mem_map.2 ⟨_, h.ring, rfl⟩) ?_)
  intro p p' hp o1 o2 c
  unfold bulkH
  rw [h.H p p' hp trivial trivial c, h.invMu p p' hp trivial trivial c, h.n, curlE_alike h.E p p' hp o1 o2 c, h.courant]

lemma MovedAlong.updateH {g g' : FGrid K} (h : MovedAlong a s g g') : MovedAlong a s g.updateH g'.updateH where
  n := h.n
  size := h.size
  courant := h.courant
  time := h.time
  ring := List.mem_map.2 ⟨_, h.ring, rfl⟩
  invEps := h.invEps
  absorb := h.absorb
  invMu := h.invMu
  E := h.E
  H := h.newH
  boundaries := by
    show List.Forall₂ _ (g.boundaries.map _) (g'.boundaries.map _)
    rw [h.n]
    exact phased_alikeH h.boundaries h.E
  sources := h.sources
  detectors := by
    show List.Forall₂ _ (g.detectors.map _) (g'.detectors.map _)
    rw [List.forall₂_map_left_iff, List.forall₂_map_right_iff]
    exact h.detectors.imp fun d d' hd => detectH_alike h.newH hd

lemma MovedAlong.step {g g' : FGrid K} (h : MovedAlong a s g g') : MovedAlong a s g.step g'.step :=
  { h.updateE.updateH with time := congrArg (· + 1) h.updateE.updateH.time }

/-- **C170.** A simulation that is moved along a periodic axis with everything in it (sources, materials, layers on the other axes, detectors) does the same `s` cells further, for every number of steps:
fields agree at corresponding cells and the detectors record the same. -/
theorem C170_moved {g g' : FGrid K} (h : MovedAlong a s g g') (k : ℕ) : MovedAlong a s (g.run k) (g'.run k) := by
  induction k with
  | zero => exact h
  | succ k ih => exact ih.step

/-- **C170.** If nothing in a simulation varies along a periodic axis, then no field ever does. -/
theorem C170_uniform {g : FGrid K} (h : MovedAlong a 1 g g) (k : ℕ) (p : Pos) (hp : p ∈ box g.n) (v : ℕ) (hv : v < g.n a) (c : Fin 3) :
    (g.run k).E (Function.update p a v) c = (g.run k).E p c ∧ (g.run k).H (Function.update p a v) c = (g.run k).H p c := by
  have hk := C170_moved h k
  have hn : (g.run k).n = g.n := run_n g k
  have one : ∀ (F : VField K), AlikeOn g.n a 1 (fun _ => True) F F → ∀ w, w < g.n a → F (Function.update p a w) c = F (Function.update p a 0) c := by
    intro F hF w
    have pos := mem_box.1 hp
    have hsz := h.size
    have hb : ∀ u, u < g.n a → Function.update p a u ∈ box g.n := fun u hu => mem_box.2 fun b => by
      by_cases e : b = a
      · subst e; simpa using hu
      · rw [Function.update_of_ne e]; exact pos b
    induction w with
    | zero => exact fun _ => rfl
    | succ w ih =>
      intro hw
      rw [← ih (by omega)]
      refine (hF _ _ ⟨hb w (by omega), hb (w + 1) hw, fun b e => ?_, ?_⟩ trivial trivial c).symm
      · rw [Function.update_of_ne e, Function.update_of_ne e]
      · rw [Function.update_self, Function.update_self]
  have pa := mem_box.1 hp a
  have hE := hk.E
  have hH := hk.H
  rw [hn] at hE hH
  refine ⟨?_, ?_⟩
  · rw [one _ hE v hv, ← one _ hE (p a) pa, Function.update_eq_self]
  · rw [one _ hH v hv, ← one _ hH (p a) pa, Function.update_eq_self]

/-- Specification: the cell `s` planes further along `a`, without going around. -/
def Pos.on (p : Pos) (a : Fin 3) (s : ℕ) : Pos := Function.update p a (p a + s)

/-- A grid with given boundaries, one point source at `q` that plays `w`, and one detector on the cells `cs`; nothing else in it. -/
def probed (n : Pos) (co ε μ : K) (bs : List (FBoundary K)) (w : ℕ → K) (q : Pos) (cs : List Pos) : FGrid K :=
  { FGrid.fresh n co ε μ with boundaries := bs, sources := [.soft fun t => addEz (fun _ _ => 0) q (w t)], detectors := [⟨cs, [], []⟩] }

omit [Field K] in
lemma further_on {p : Pos} (hp : p ∈ box n) (h : p a + s < n a) : Further n a s p (p.on a s) := by
  have pos := mem_box.1 hp
  refine ⟨hp, mem_box.2 fun b => ?_, fun b e => ?_, ?_⟩
  · unfold Pos.on
    by_cases e : b = a
    · subst e; simpa using h
    · rw [Function.update_of_ne e]; exact pos b
  · unfold Pos.on; rw [Function.update_of_ne e]
  · unfold Pos.on; rw [Function.update_self]

/-- a point source that stays off the first and the last plane has moved -/
lemma point_moved {q : Pos} (h0 : 0 < q a) (h1 : q a + s < n a - 1) (w : ℕ → K) :
    AlikeSource n a s (.soft fun t => addEz (fun _ _ => 0) q (w t)) (.soft fun t => addEz (fun _ _ => 0) (q.on a s) (w t)) := by
  refine .soft _ _ fun t p p' hp _ _ c => ?_
  have key : p = q ↔ p' = q.on a s := by
    obtain ⟨l1, l2⟩ := hp.lt
    obtain ⟨-, -, h3, h4⟩ := hp
    constructor
    · rintro rfl
      funext b
      unfold Pos.on
      by_cases e : b = a
      · subst e
        rw [Function.update_self]
        have h4' : (p b + s) % (n b - 1) = p' b % (n b - 1) := h4
        rw [Nat.mod_eq_of_lt h1] at h4'
        by_cases hl : p' b < n b - 1
        · rw [Nat.mod_eq_of_lt hl] at h4'; exact h4'.symm
        · have : p' b = n b - 1 := by omega
          rw [this, Nat.mod_self] at h4'
          omega
      · rw [Function.update_of_ne e]; exact h3 b e
    · rintro rfl
      funext b
      by_cases e : b = a
      · subst e
        have h4' : p b + s ≡ q b + s [MOD n b - 1] := by
          have := h4
          rwa [Pos.on, Function.update_self] at this
        have h5 : p b % (n b - 1) = q b % (n b - 1) := Nat.ModEq.add_right_cancel' s h4'
        rw [Nat.mod_eq_of_lt (show q b < n b - 1 by omega)] at h5
        by_cases hl : p b < n b - 1
        · rwa [Nat.mod_eq_of_lt hl] at h5
        · have : p b = n b - 1 := by omega
          rw [this, Nat.mod_self] at h5
          omega
      · have := h3 b e
        rw [Pos.on, Function.update_of_ne e] at this
        exact this.symm
  unfold addEz
  simp only [key]

end

/-- the layers that the code creates are the same along the other axes -/
lemma layer_moved {n : Pos} {a : Fin 3} (s : ℕ) {axis : Fin 3} (ha : axis ≠ a) (high : Bool) {thick : ℕ} (ht : thick ≤ n axis) (α courant : ℝ) :
    AlikeLayer n a s (mkPml axis high thick α courant) (mkPml axis high thick α courant) := by
  have hs : ∀ (m : Pos) (f : ℝ → ℝ) (pr : ℕ → ℝ), AlikeOn m a s (fun _ => True) (fun q c => f (sigmaField axis pr q c)) fun q c => f (sigmaField axis pr q c) := by
    intro m f pr p p' hp _ _ c
    unfold sigmaField
    dsimp only
    rw [hp.2.2.1 axis ha]
  have hz : ∀ (pr : ℕ → ℝ) (q : Pos), pmlC α courant (sigmaField axis pr q a) = 0 := by
    intro pr q
    rw [sigmaField, if_neg (Ne.symm ha), pmlC, mul_zero, zero_div]
  exact ⟨rfl, rfl, rfl, ha, ht, hs _ (pmlB α courant) (sigmaEProfile high thick), hs _ (pmlC α courant) (sigmaEProfile high thick), hs _ (pmlB α courant) (sigmaHProfile high thick), hs _ (pmlC α courant) (sigmaHProfile high thick), fun q _ => ⟨hz _ q, hz _ q⟩, fun q _ => ⟨hz _ q, hz _ q⟩, fun _ _ _ _ _ _ _ => rfl, fun _ _ _ _ _ _ _ => rfl,
    fun _ _ _ _ _ _ => rfl, fun _ _ _ _ _ _ => rfl⟩

lemma records_alike {m : Pos} {a : Fin 3} {s : ℕ} {ds ds' : List (FDetector ℝ)} (h : List.Forall₂ (AlikeDetector m a s) ds ds') :
    ds.map (fun d => (d.recE, d.recH)) = ds'.map fun d => (d.recE, d.recH) := by
  induction h with
  | nil => rfl
  | cons hd _ ih => rw [List.map_cons, List.map_cons, ih, hd.recE, hd.recH]

/-- the two grids of `C170_place_partial` -/
lemma probed_moved (n : Pos) (a : Fin 3) (hn : 2 ≤ n a) (co ε μ : ℝ) (bs : List (FBoundary ℝ))
    (hb : ∀ b ∈ bs, (∃ d, b = .periodic d) ∨ ∃ axis high thick α, b = .pml (mkPml axis high thick α co) ∧ axis ≠ a ∧ thick ≤ n axis) (hring : .periodic a ∈ bs) (w : ℕ → ℝ) (s : ℕ)
    (q : Pos) (h0 : 0 < q a) (h1 : q a + s < n a - 1) (cs : List Pos) (hcs : ∀ r ∈ cs, r ∈ box n ∧ r a + s < n a) :
    MovedAlong a s (probed n co ε μ bs w q cs) (probed n co ε μ bs w (q.on a s) (cs.map (·.on a s))) where
  n := rfl
  size := hn
  courant := rfl
  time := rfl
  ring := hring
  invEps := fun _ _ _ _ _ _ => rfl
  absorb := fun _ _ _ _ _ _ => rfl
  invMu := fun _ _ _ _ _ _ => rfl
  E := fun _ _ _ _ _ _ => rfl
  H := fun _ _ _ _ _ _ => rfl
  boundaries := by
    show List.Forall₂ _ bs bs
    rw [List.forall₂_same]
    intro b hbm
    rcases hb b hbm with ⟨d, rfl⟩ | ⟨axis, high, thick, α, rfl, h2, h3⟩
    · exact .periodic d
    · exact .pml _ _ (layer_moved s h2 high h3 α co)
  sources := .cons (point_moved h0 h1 w) .nil
  detectors := by
    refine .cons ⟨?_, rfl, rfl⟩ .nil
    show List.Forall₂ _ cs (cs.map _)
    rw [List.forall₂_map_right_iff, List.forall₂_same]
    exact fun r hr => further_on (hcs r hr).1 (hcs r hr).2

/-- **C170, what holds of the code.** In a grid with a periodic axis, absorbing layers on the other axes as the code makes them, a point source and a detector: moving source and detector together along the
periodic axis leaves every recording as it is, while the source keeps off the first and the last plane. Missing: sources on these planes, see `C170_seam_false`. -/
theorem C170_place_partial (n : Pos) (a : Fin 3) (hn : 2 ≤ n a) (co ε μ : ℝ) (bs : List (FBoundary ℝ))
    (hb : ∀ b ∈ bs, (∃ d, b = .periodic d) ∨ ∃ axis high thick α, b = .pml (mkPml axis high thick α co) ∧ axis ≠ a ∧ thick ≤ n axis) (hring : .periodic a ∈ bs) (w : ℕ → ℝ) (s : ℕ)
    (q : Pos) (h0 : 0 < q a) (h1 : q a + s < n a - 1) (cs : List Pos) (hcs : ∀ r ∈ cs, r ∈ box n ∧ r a + s < n a) (k : ℕ) :
    ((probed n co ε μ bs w q cs).run k).detectors.map (fun d => (d.recE, d.recH)) = ((probed n co ε μ bs w (q.on a s) (cs.map (·.on a s))).run k).detectors.map fun d => (d.recE, d.recH) := by
  have h := (C170_moved (probed_moved n a hn co ε μ bs hb hring w s q h0 h1 cs hcs) k).detectors
  exact records_alike h

/-- a ring of three cells (four planes), the pulse 1 emitted once at plane `x`, read at the source after two steps -/
def ringEcho (x : ℕ) : ℚ := ((probed ![4, 1, 1] (1 / 2) 1 1 [.periodic 0] (fun t => if t = 0 then 1 else 0) ![x, 0, 0] []).run 2).E ![x, 0, 0] 2

/-- **C170 fails on the seam.** On a ring all cells are alike, and a source on plane 1 or 2 sees the echo 1/2; but on plane 0 its contribution is overwritten by the copy of the last plane, and on the last plane it
reaches only one of its neighbours. -/
theorem C170_seam_false : ringEcho 1 = 1 / 2 ∧ ringEcho 2 = 1 / 2 ∧ ringEcho 0 = -1 / 4 ∧ ringEcho 3 = 3 / 4 := by
  refine ⟨?_, ?_, ?_, ?_⟩ <;> decide +kernel

/-- a grid with absorbing layers along x and periodic along y, the source moved by two rows -/
example (w : ℕ → ℝ) (k : ℕ) :
    ((probed ![30, 6, 1] (1 / 2) 1 1 [.pml (mkPml 0 false 10 (1 / 10) (1 / 2)), .pml (mkPml 0 true 10 (1 / 10) (1 / 2)), .periodic 1] w ![12, 1, 0] [![14, 0, 0], ![17, 2, 0]]).run k).detectors.map (fun d => (d.recE, d.recH)) =
    ((probed ![30, 6, 1] (1 / 2) 1 1 [.pml (mkPml 0 false 10 (1 / 10) (1 / 2)), .pml (mkPml 0 true 10 (1 / 10) (1 / 2)), .periodic 1] w ![12, 3, 0] [![14, 2, 0], ![17, 4, 0]]).run k).detectors.map fun d => (d.recE, d.recH) := by
  have e : ∀ x y : ℕ, Pos.on ![x, y, 0] 1 2 = ![x, y + 2, 0] := fun x y => by
    funext b
    fin_cases b <;> rfl
  have := C170_place_partial ![30, 6, 1] 1 (by decide) (1 / 2) 1 1 [.pml (mkPml 0 false 10 (1 / 10) (1 / 2)), .pml (mkPml 0 true 10 (1 / 10) (1 / 2)), .periodic 1] (by
    intro b hb
    simp only [List.mem_cons, List.not_mem_nil, or_false] at hb
    rcases hb with rfl | rfl | rfl
    · exact .inr ⟨_, _, _, _, rfl, by decide, by decide⟩
    · exact .inr ⟨_, _, _, _, rfl, by decide, by decide⟩
    · exact .inl ⟨_, rfl⟩) (by simp) w 2 ![12, 1, 0] (by decide) (by decide) [![14, 0, 0], ![17, 2, 0]] (by
    intro r hr
    simp only [List.mem_cons, List.not_mem_nil, or_false] at hr
    rcases hr with rfl | rfl <;> exact ⟨mem_box.2 (by decide), by decide⟩) k
  rw [List.map_cons, List.map_cons, List.map_nil, e, e, e] at this
  exact this

/-- a sheet of current across a ring: nothing varies along y, and no field ever does -/
example (w : ℕ → ℚ) (k v : ℕ) (hv : v < 4) :
    let g : FGrid ℚ := { FGrid.fresh ![5, 4, 1] (1 / 2) 1 1 with boundaries := [.periodic 1], sources := [.soft fun t p c => if p 0 = 2 ∧ c = 2 then w t else 0] }
    (g.run k).E ![3, v, 0] 2 = (g.run k).E ![3, 1, 0] 2 := by
  intro g
  have h : MovedAlong 1 1 g g := ⟨rfl, show 2 ≤ (![5, 4, 1] : Pos) 1 by decide, rfl, rfl, by simp [g], fun _ _ _ _ _ _ => rfl, fun _ _ _ _ _ _ => rfl, fun _ _ _ _ _ _ => rfl, fun _ _ _ _ _ _ => rfl, fun _ _ _ _ _ _ => rfl,
    .cons (.periodic 1) .nil, .cons (.soft _ _ fun t p p' hp _ _ c => by rw [hp.2.2.1 0 (by decide)]) .nil, .nil⟩
  have := (C170_uniform h k ![3, 1, 0] (mem_box.2 (show ∀ b, (![3, 1, 0] : Pos) b < (![5, 4, 1] : Pos) b by decide)) v hv 2).1
  have e : Function.update (![3, 1, 0] : Pos) 1 v = ![3, v, 0] := by
    funext b
    fin_cases b <;> rfl
  rwa [e] at this

end Nidn
