/-
C53: signals travel at most one cell per step.
-/
import Verif.Props.FdtdRun

set_option linter.unusedSectionVars false

namespace Nidn

section
variable {K : Type} [Field K]

/-- cells at distance at least `m` along axis `a` from every plane of the set `A` -/
def farE (a : Fin 3) (A : ℕ → Prop) (m : ℕ) (p : Pos) : Prop := ∀ s, A s → p a + m ≤ s ∨ s + m ≤ p a

/-- the same for magnetic fields, which sit half a cell further up: one more plane below -/
def farH (a : Fin 3) (A : ℕ → Prop) (m : ℕ) (p : Pos) : Prop := ∀ s, A s → p a + m + 1 ≤ s ∨ s + m ≤ p a

/-- `Inserts ok xs ys`: `ys` is `xs` with additional elements, all satisfying `ok` -/
inductive Inserts {α : Type} (ok : α → Prop) : List α → List α → Prop
  | nil : Inserts ok [] []
  | keep (x : α) {xs ys : List α} : Inserts ok xs ys → Inserts ok (x :: xs) (x :: ys)
  | extra (y : α) {xs ys : List α} : ok y → Inserts ok xs ys → Inserts ok xs (y :: ys)

/-- `g'` is `g` with additional sources and absorbing layers acting only on planes of `A` perpendicular to axis `a`; if the axis is periodic, its two end planes count as acting too. -/
structure Extended (a : Fin 3) (A : ℕ → Prop) (g g' : FGrid K) : Prop where
  n : g'.n = g.n
  courant : g'.courant = g.courant
  invEps : g'.invEps = g.invEps
  invMu : g'.invMu = g.invMu
  absorb : g'.absorb = g.absorb
  time : g'.time = g.time
  E : g'.E = g.E
  H : g'.H = g.H
  sources : Inserts (fun s => ∀ p : Pos, ¬ A (p a) → ¬ s.touchesE p ∧ ¬ s.touchesH p) g.sources g'.sources
  bounds : Inserts (fun b => ∃ P, b = .pml P ∧ ∀ p : Pos, ¬ A (p a) → ¬ P.inside g.n p) g.boundaries g'.boundaries
  wrap : ∀ b ∈ g.boundaries, b = .periodic a → A 0 ∧ A (g.n a - 1)

/-! ### the invariant -/

inductive BRel (n : Pos) (a : Fin 3) (A : ℕ → Prop) (e h : ℕ) : FBoundary K → FBoundary K → Prop
  | periodic (c : Fin 3) (hc : c = a → A 0 ∧ A (n a - 1)) : BRel n a A e h (.periodic c) (.periodic c)
  | pml (P : Pml K) (x y : Fin 3 → VField K) (z w : VField K)
      (h1 : ∀ i q d, farE a A e (P.toGlobal n q) → x i q d = P.psiE i q d)
      (h2 : ∀ i q d, farH a A h (P.toGlobal n q) → y i q d = P.psiH i q d)
      (h3 : ∀ q d, farE a A e (P.toGlobal n q) → z q d = P.phiE q d)
      (h4 : ∀ q d, farH a A h (P.toGlobal n q) → w q d = P.phiH q d) :
      BRel n a A e h (.pml P) (.pml { P with psiE := x, psiH := y, phiE := z, phiH := w })

inductive BSim (n : Pos) (a : Fin 3) (A : ℕ → Prop) (e h : ℕ) : List (FBoundary K) → List (FBoundary K) → Prop
  | nil : BSim n a A e h [] []
  | both {b b' : FBoundary K} {bs bs' : List (FBoundary K)} : BRel n a A e h b b' → BSim n a A e h bs bs' → BSim n a A e h (b :: bs) (b' :: bs')
  | extra (P : Pml K) {bs bs' : List (FBoundary K)} : (∀ p : Pos, ¬ A (p a) → ¬ P.inside n p) → BSim n a A e h bs bs' → BSim n a A e h bs (.pml P :: bs')

structure Cone (a : Fin 3) (A : ℕ → Prop) (e h : ℕ) (g g' : FGrid K) : Prop where
  n : g'.n = g.n
  courant : g'.courant = g.courant
  invEps : g'.invEps = g.invEps
  invMu : g'.invMu = g.invMu
  absorb : g'.absorb = g.absorb
  time : g'.time = g.time
  E : ∀ p c, farE a A e p → g'.E p c = g.E p c
  H : ∀ p c, farH a A h p → g'.H p c = g.H p c
  sources : Inserts (fun s => ∀ p : Pos, ¬ A (p a) → ¬ s.touchesE p ∧ ¬ s.touchesH p) g.sources g'.sources
  bounds : BSim g.n a A e h g.boundaries g'.boundaries

variable {a : Fin 3} {A : ℕ → Prop}

lemma farE_active {m : ℕ} {p : Pos} (h : farE a A (m + 1) p) : ¬ A (p a) := fun hA => by
  rcases h _ hA with h | h <;> omega

lemma farH_active {m : ℕ} {p : Pos} (h : farH a A (m + 1) p) : ¬ A (p a) := fun hA => by
  rcases h _ hA with h | h <;> omega

lemma farE_mono {m : ℕ} {p : Pos} (h : farE a A (m + 1) p) : farE a A m p := fun s hs => by
  rcases h s hs with h | h <;> omega

lemma farH_mono {m : ℕ} {p : Pos} (h : farH a A (m + 1) p) : farH a A m p := fun s hs => by
  rcases h s hs with h | h <;> omega

lemma farE_farH {m : ℕ} {p : Pos} (h : farE a A (m + 1) p) : farH a A m p := fun s hs => by
  rcases h s hs with h | h <;> omega

lemma farE_dn {m : ℕ} {p : Pos} (h : farE a A (m + 1) p) (d : Fin 3) : farH a A m (p.dn d) := fun s hs => by
  by_cases hd : a = d
  · subst hd
    rw [Pos.dn_self]
    rcases h s hs with h | h <;> omega
  · rw [Pos.dn_ne p hd]
    exact farE_farH h s hs

lemma farH_farE {m : ℕ} {p : Pos} (h : farH a A m p) : farE a A m p := fun s hs => by
  rcases h s hs with h | h <;> omega

lemma farH_up {m : ℕ} {p : Pos} (h : farH a A m p) (d : Fin 3) : farE a A m (p.up d) := fun s hs => by
  by_cases hd : a = d
  · subst hd
    rw [Pos.up_self]
    rcases h s hs with h | h <;> omega
  · rw [Pos.up_ne p hd]
    exact farH_farE h s hs

lemma toGlobal_up (n : Pos) (P : Pml K) (q : Pos) (d : Fin 3) : P.toGlobal n (q.up d) = (P.toGlobal n q).up d := by
  funext c
  unfold Pml.toGlobal Pos.up
  by_cases h1 : c = P.axis <;> by_cases h2 : c = d
  · subst h2
    rw [← h1]
    simp only [Function.update_self]; omega
  · have h3 : P.axis ≠ d := fun e => h2 (h1.trans e)
    subst h1
    simp only [Function.update_self, Function.update_of_ne h2]
  · subst h2
    simp only [Function.update_self, Function.update_of_ne h1]
  · simp only [Function.update_of_ne h1, Function.update_of_ne h2]

lemma toGlobal_dn (n : Pos) (P : Pml K) (q : Pos) (d : Fin 3) (h : 1 ≤ q d) : P.toGlobal n (q.dn d) = (P.toGlobal n q).dn d := by
  funext c
  unfold Pml.toGlobal Pos.dn
  by_cases h1 : c = P.axis <;> by_cases h2 : c = d
  · subst h2
    rw [← h1]
    simp only [Function.update_self]; omega
  · have h3 : P.axis ≠ d := fun e => h2 (h1.trans e)
    subst h1
    simp only [Function.update_self, Function.update_of_ne h2]
  · subst h2
    simp only [Function.update_self, Function.update_of_ne h1]
  · simp only [Function.update_of_ne h1, Function.update_of_ne h2]

lemma toGlobal_toLocal (n : Pos) (P : Pml K) (p : Pos) (h : P.inside n p) : P.toGlobal n (P.toLocal n p) = p := by
  funext c
  have h1 := h.1
  unfold Pml.toGlobal Pml.toLocal
  by_cases hc : c = P.axis
  · subst hc
    simp only [Function.update_self]; omega
  · simp only [Function.update_of_ne hc]

lemma dDn_agree {F G : VField K} {p : Pos} {d : Fin 3} (c : Fin 3) (h0 : F p c = G p c) (h1 : 1 ≤ p d → F (p.dn d) c = G (p.dn d) c) :
    dDn F d c p = dDn G d c p := by
  unfold dDn
  split_ifs with h
  · rw [h0, h1 h]
  · rfl

lemma dUp_agree {n : Pos} {F G : VField K} {p : Pos} {d : Fin 3} (c : Fin 3) (h0 : F p c = G p c) (h1 : F (p.up d) c = G (p.up d) c) :
    dUp n F d c p = dUp n G d c p := by
  unfold dUp
  rw [h0, h1]

lemma curlH_agree {F G : VField K} {p : Pos} (h0 : ∀ c, F p c = G p c) (h1 : ∀ d c, F (p.dn d) c = G (p.dn d) c) (c : Fin 3) :
    curlH F p c = curlH G p c := by
  have : ∀ d c, dDn F d c p = dDn G d c p := fun d c => dDn_agree c (h0 c) fun _ => h1 d c
  fin_cases c <;> simp only [curlH, this]

lemma curlE_agree {n : Pos} {F G : VField K} {p : Pos} (h0 : ∀ c, F p c = G p c) (h1 : ∀ d c, F (p.up d) c = G (p.up d) c) (c : Fin 3) :
    curlE n F p c = curlE n G p c := by
  have : ∀ d c, dUp n F d c p = dUp n G d c p := fun d c => dUp_agree c (h0 c) (h1 d c)
  fin_cases c <;> simp only [curlE, this]

lemma bsim_phaseE {n : Pos} {m : ℕ} {H H' : VField K} (hH : ∀ p c, farH a A m p → H' p c = H p c) :
    ∀ {bs bs' : List (FBoundary K)}, BSim n a A m m bs bs' →
      BSim n a A (m + 1) m (bs.map (FBoundary.updatePhiE n H)) (bs'.map (FBoundary.updatePhiE n H')) := by
  intro bs bs' h
  induction h with
  | nil => exact .nil
  | both hr _ ih =>
    refine .both ?_ ih
    cases hr with
    | periodic c hc => exact .periodic c hc
    | pml P x y z w h1 h2 h3 h4 =>
      have key : ∀ i q d, farE a A (m + 1) (P.toGlobal n q) →
          psiENew n H' { P with psiE := x, psiH := y, phiE := z, phiH := w } i q d = psiENew n H P i q d := by
        intro i q d hq
        have hd : ∀ f, dDn (P.view n H') d f q = dDn (P.view n H) d f q := fun f =>
          dDn_agree f (hH _ _ (farE_farH hq)) fun h1 => by
            show H' (P.toGlobal n (q.dn d)) f = H (P.toGlobal n (q.dn d)) f
            rw [toGlobal_dn n P q d h1]
            exact hH _ _ (farE_dn hq d)
        have hp := h1 i q d (farE_mono hq)
        unfold psiENew
        cases psiPartner i d with
        | none => show x i q d * _ = _; rw [hp]
        | some f =>
          show x i q d * P.bE q d + dDn (P.view n H') d f q * P.cE q d = _
          rw [hp, hd]
      refine .pml (P.updatePhiE n H) _ _ _ _ key h2 (fun q d hq => ?_) h4
      show phiOf _ q d = phiOf _ q d
      fin_cases d <;> simp only [phiOf, key _ _ _ hq]
  | extra P hP _ ih => exact .extra (P.updatePhiE n H') hP ih

lemma bsim_phaseH {n : Pos} {m : ℕ} {E E' : VField K} (hE : ∀ p c, farE a A (m + 1) p → E' p c = E p c) :
    ∀ {bs bs' : List (FBoundary K)}, BSim n a A (m + 1) m bs bs' →
      BSim n a A (m + 1) (m + 1) (bs.map (FBoundary.updatePhiH n E)) (bs'.map (FBoundary.updatePhiH n E')) := by
  intro bs bs' h
  induction h with
  | nil => exact .nil
  | both hr _ ih =>
    refine .both ?_ ih
    cases hr with
    | periodic c hc => exact .periodic c hc
    | pml P x y z w h1 h2 h3 h4 =>
      have key : ∀ i q d, farH a A (m + 1) (P.toGlobal n q) →
          psiHNew n E' { P with psiE := x, psiH := y, phiE := z, phiH := w } i q d = psiHNew n E P i q d := by
        intro i q d hq
        have hd : ∀ f, dUp (P.shape n) (P.view n E') d f q = dUp (P.shape n) (P.view n E) d f q := fun f =>
          dUp_agree f (hE _ _ (farH_farE hq)) (by
            show E' (P.toGlobal n (q.up d)) f = E (P.toGlobal n (q.up d)) f
            rw [toGlobal_up n P q d]
            exact hE _ _ (farH_up hq d))
        have hp := h2 i q d (farH_mono hq)
        unfold psiHNew
        cases psiPartner i d with
        | none => show y i q d * _ = _; rw [hp]
        | some f =>
          show y i q d * P.bH q d + dUp (P.shape n) (P.view n E') d f q * P.cH q d = _
          rw [hp, hd]
      refine .pml (P.updatePhiH n E) _ _ _ _ h1 key h3 (fun q d hq => ?_)
      show phiOf _ q d = phiOf _ q d
      fin_cases d <;> simp only [phiOf, key _ _ _ hq]
  | extra P hP _ ih => exact .extra (P.updatePhiH n E') hP ih

lemma farE_update {m : ℕ} {p : Pos} (h : farE a A m p) {c : Fin 3} (hc : c ≠ a) (v : ℕ) : farE a A m (Function.update p c v) := by
  intro s hs
  rw [Function.update_of_ne hc.symm]
  exact h s hs

lemma farH_update {m : ℕ} {p : Pos} (h : farH a A m p) {c : Fin 3} (hc : c ≠ a) (v : ℕ) : farH a A m (Function.update p c v) := by
  intro s hs
  rw [Function.update_of_ne hc.symm]
  exact h s hs

lemma bsim_applyE {n : Pos} {m h : ℕ} (co : K) (ie : VField K) {bs bs' : List (FBoundary K)} (hs : BSim n a A (m + 1) h bs bs') :
    ∀ E E' : VField K, (∀ p c, farE a A (m + 1) p → E' p c = E p c) →
      ∀ p c, farE a A (m + 1) p → applyBoundariesE n co ie bs' E' p c = applyBoundariesE n co ie bs E p c := by
  induction hs with
  | nil => intro E E' hE; exact hE
  | both hr _ ih =>
    intro E E' hE
    refine ih _ _ fun p c hp => ?_
    cases hr with
    | periodic b hc =>
      show periodicE n b E' p c = periodicE n b E p c
      unfold periodicE
      split_ifs with h0
      · by_cases hb : b = a
        · subst hb
          exact absurd (h0 ▸ (hc rfl).1) (farE_active hp)
        · exact hE _ _ (farE_update hp hb _)
      · exact hE _ _ hp
    | pml P x y z w h1 h2 h3 h4 =>
      show Pml.updateE n co ie { P with psiE := x, psiH := y, phiE := z, phiH := w } E' p c = P.updateE n co ie E p c
      unfold Pml.updateE
      have hi : ({ P with psiE := x, psiH := y, phiE := z, phiH := w } : Pml K).inside n p ↔ P.inside n p := Iff.rfl
      by_cases hin : P.inside n p
      · rw [if_pos hin, if_pos (hi.mpr hin), hE p c hp]
        show _ + _ * (z (P.toLocal n p) c + _) = _
        rw [h3 _ _ (by rw [toGlobal_toLocal n P p hin]; exact hp)]
      · rw [if_neg hin, if_neg (mt hi.mp hin)]
        exact hE p c hp
  | extra P hP _ ih =>
    intro E E' hE
    refine ih _ _ fun p c hp => ?_
    show Pml.updateE n co ie P E' p c = _
    unfold Pml.updateE
    rw [if_neg (hP p (farE_active hp))]
    exact hE p c hp

lemma bsim_applyH {n : Pos} {m e : ℕ} (co : K) (im : VField K) {bs bs' : List (FBoundary K)} (hs : BSim n a A e (m + 1) bs bs') :
    ∀ H H' : VField K, (∀ p c, farH a A (m + 1) p → H' p c = H p c) →
      ∀ p c, farH a A (m + 1) p → applyBoundariesH n co im bs' H' p c = applyBoundariesH n co im bs H p c := by
  induction hs with
  | nil => intro E E' hE; exact hE
  | both hr _ ih =>
    intro E E' hE
    refine ih _ _ fun p c hp => ?_
    cases hr with
    | periodic b hc =>
      show periodicH n b E' p c = periodicH n b E p c
      unfold periodicH
      split_ifs with h0
      · by_cases hb : b = a
        · subst hb
          exact absurd (h0 ▸ (hc rfl).2) (farH_active hp)
        · exact hE _ _ (farH_update hp hb _)
      · exact hE _ _ hp
    | pml P x y z w h1 h2 h3 h4 =>
      show Pml.updateH n co im { P with psiE := x, psiH := y, phiE := z, phiH := w } E' p c = P.updateH n co im E p c
      unfold Pml.updateH
      have hi : ({ P with psiE := x, psiH := y, phiE := z, phiH := w } : Pml K).inside n p ↔ P.inside n p := Iff.rfl
      by_cases hin : P.inside n p
      · rw [if_pos hin, if_pos (hi.mpr hin), hE p c hp]
        show _ - _ * w (P.toLocal n p) c = _
        rw [h4 _ _ (by rw [toGlobal_toLocal n P p hin]; exact hp)]
      · rw [if_neg hin, if_neg (mt hi.mp hin)]
        exact hE p c hp
  | extra P hP _ ih =>
    intro E E' hE
    refine ih _ _ fun p c hp => ?_
    show Pml.updateH n co im P E' p c = _
    unfold Pml.updateH
    rw [if_neg (hP p (farH_active hp))]
    exact hE p c hp

lemma inserts_applyE {m : ℕ} (t : ℕ) {ss ss' : List (FSource K)}
    (hs : Inserts (fun s => ∀ p : Pos, ¬ A (p a) → ¬ s.touchesE p ∧ ¬ s.touchesH p) ss ss') :
    ∀ E E' : VField K, (∀ p c, farE a A (m + 1) p → E' p c = E p c) →
      ∀ p c, farE a A (m + 1) p → applySourcesE t ss' E' p c = applySourcesE t ss E p c := by
  induction hs with
  | nil => intro E E' hE; exact hE
  | keep s _ ih =>
    intro E E' hE
    refine ih _ _ fun p c hp => ?_
    cases s with
    | soft d => show E' p c + _ = E p c + _; rw [hE p c hp]
    | plane cells ep hpl v =>
      show (if _ then _ else E' p c) = if _ then _ else E p c
      rw [hE p c hp]
  | extra s hok _ ih =>
    intro E E' hE
    refine ih _ _ fun p c hp => ?_
    have := applySourcesE_untouched t p [s] E' (by
      intro s' hs'
      rw [List.mem_singleton] at hs'
      subst hs'
      exact (hok p (farE_active hp)).1)
    have e : s.updateE t E' p = E' p := this
    exact (congrFun e c).trans (hE p c hp)

lemma inserts_applyH {m : ℕ} (t : ℕ) {ss ss' : List (FSource K)}
    (hs : Inserts (fun s => ∀ p : Pos, ¬ A (p a) → ¬ s.touchesE p ∧ ¬ s.touchesH p) ss ss') :
    ∀ H H' : VField K, (∀ p c, farH a A (m + 1) p → H' p c = H p c) →
      ∀ p c, farH a A (m + 1) p → applySourcesH t ss' H' p c = applySourcesH t ss H p c := by
  induction hs with
  | nil => intro E E' hE; exact hE
  | keep s _ ih =>
    intro E E' hE
    refine ih _ _ fun p c hp => ?_
    cases s with
    | soft d => exact hE p c hp
    | plane cells ep hpl v =>
      show (if _ then _ else E' p c) = if _ then _ else E p c
      rw [hE p c hp]
  | extra s hok _ ih =>
    intro E E' hE
    refine ih _ _ fun p c hp => ?_
    have := applySourcesH_untouched t p [s] E' (by
      intro s' hs'
      rw [List.mem_singleton] at hs'
      subst hs'
      exact (hok p (farH_active hp)).2)
    have e : s.updateH t E' p = E' p := this
    exact (congrFun e c).trans (hE p c hp)

lemma cone_updateE {m : ℕ} {g g' : FGrid K} (h : Cone a A m m g g') : Cone a A (m + 1) m g.updateE g'.updateE := by
  have hb := bsim_phaseE h.H h.bounds
  have hb' : BSim g.n a A (m + 1) m g.phasedE g'.phasedE := by
    rw [FGrid.phasedE, FGrid.phasedE, h.n]; exact hb
  refine ⟨h.n, h.courant, h.invEps, h.invMu, h.absorb, h.time, fun p c hp => ?_, h.H, h.sources, hb'⟩
  show g'.newE p c = g.newE p c
  unfold FGrid.newE
  rw [h.n, h.courant, h.invEps, h.time]
  refine inserts_applyE _ h.sources _ _ (bsim_applyE _ _ hb' _ _ fun p c hp => ?_) p c hp
  unfold bulkE
  rw [h.absorb, h.courant, h.invEps, h.E p c (farE_mono hp),
    curlH_agree (fun c => h.H p c (farE_farH hp)) (fun d c => h.H _ c (farE_dn hp d))]

lemma cone_updateH {m : ℕ} {g g' : FGrid K} (h : Cone a A (m + 1) m g g') : Cone a A (m + 1) (m + 1) g.updateH g'.updateH := by
  have hb := bsim_phaseH h.E h.bounds
  have hb' : BSim g.n a A (m + 1) (m + 1) g.phasedH g'.phasedH := by
    rw [FGrid.phasedH, FGrid.phasedH, h.n]; exact hb
  refine ⟨h.n, h.courant, h.invEps, h.invMu, h.absorb, h.time, h.E, fun p c hp => ?_, h.sources, hb'⟩
  show g'.newH p c = g.newH p c
  unfold FGrid.newH
  rw [h.n, h.courant, h.invMu, h.time]
  refine inserts_applyH _ h.sources _ _ (bsim_applyH _ _ hb' _ _ fun p c hp => ?_) p c hp
  unfold bulkH
  rw [h.n, h.courant, h.invMu, h.H p c (farH_mono hp),
    curlE_agree (fun c => h.E p c (farH_farE hp)) (fun d c => h.E _ c (farH_up hp d))]

lemma cone_step {m : ℕ} {g g' : FGrid K} (h : Cone a A m m g g') : Cone a A (m + 1) (m + 1) g.step g'.step := by
  have h1 := cone_updateH (cone_updateE h)
  exact ⟨h1.n, h1.courant, h1.invEps, h1.invMu, h1.absorb, by
    show g'.updateE.updateH.time + 1 = g.updateE.updateH.time + 1
    rw [h1.time], h1.E, h1.H, h1.sources, h1.bounds⟩

lemma cone_start {g g' : FGrid K} (h : Extended a A g g') : Cone a A 0 0 g g' := by
  refine ⟨h.n, h.courant, h.invEps, h.invMu, h.absorb, h.time, fun p c _ => by rw [h.E], fun p c _ => by rw [h.H], h.sources, ?_⟩
  have hw := h.wrap
  have hb := h.bounds
  generalize g.boundaries = bs at hw hb
  generalize g'.boundaries = bs' at hb
  induction hb with
  | nil => exact .nil
  | keep b _ ih =>
    refine .both ?_ (ih fun b' hb' => hw b' (List.mem_cons_of_mem _ hb'))
    cases b with
    | periodic c => exact .periodic c fun hc => hw _ List.mem_cons_self (by rw [hc])
    | pml P => exact .pml P P.psiE P.psiH P.phiE P.phiH (fun _ _ _ _ => rfl) (fun _ _ _ _ => rfl) (fun _ _ _ => rfl) (fun _ _ _ => rfl)
  | extra b hok _ ih =>
    obtain ⟨P, rfl, hP⟩ := hok
    exact .extra P hP (ih hw)

/-- C53: adding sources or absorbing layers on some planes of a grid changes, within `m` steps, only cells less than `m` planes away (electric), respectively also `m` planes below (magnetic).
For every grid, material, other sources and boundaries. -/
theorem C53_cone (g g' : FGrid K) (h : Extended a A g g') (m : ℕ) (p : Pos) (c : Fin 3) :
    ((∀ s, A s → p a + m ≤ s ∨ s + m ≤ p a) → (g'.run m).E p c = (g.run m).E p c) ∧
    ((∀ s, A s → p a + m + 1 ≤ s ∨ s + m ≤ p a) → (g'.run m).H p c = (g.run m).H p c) := by
  have hc : ∀ m, Cone a A m m (g.run m) (g'.run m) := by
    intro m
    induction m with
    | zero => exact cone_start h
    | succ m ih => exact cone_step ih
  exact ⟨fun hp => (hc m).E p c hp, fun hp => (hc m).H p c hp⟩

/-- C53 for one additional soft source confined to plane `s` of axis `a` on a grid that is not periodic along `a`: after `m` steps it has changed nothing at distance `m` or more. -/
theorem C53_source (g : FGrid K) (hg : ∀ b ∈ g.boundaries, b ≠ .periodic a) (d : ℕ → VField K) (s : ℕ)
    (hd : ∀ t p c, p a ≠ s → d t p c = 0) (m : ℕ) (p : Pos) (c : Fin 3) (hp : p a + m ≤ s ∨ s + m ≤ p a) :
    ((g.driven d).run m).E p c = (g.run m).E p c := by
  refine (C53_cone (a := a) (A := fun x => x = s) g (g.driven d)
    ⟨rfl, rfl, rfl, rfl, rfl, rfl, rfl, rfl, ?_, ?_, fun b hb h => absurd h (hg b hb)⟩ m p c).1 fun x hx => by rw [hx]; exact hp
  · show Inserts _ g.sources (g.sources ++ [FSource.soft d])
    induction g.sources with
    | nil =>
      refine .extra _ (fun p hp => ⟨?_, ?_⟩) .nil
      · intro h
        obtain ⟨t, c, h⟩ := h
        exact h (hd t p c hp)
      · intro h; exact h
    | cons x xs ih => exact .keep x ih
  · show Inserts _ g.boundaries g.boundaries
    induction g.boundaries with
    | nil => exact .nil
    | cons x xs ih => exact .keep x ih

/-- C53, dark cells: start with zero fields; every cell further than `m` planes from all sources and absorbing layers is exactly dark after `m` steps. -/
theorem C53_dark (g g' : FGrid K) (hg : Dark g) (h : Extended a A g g') (m : ℕ) (p : Pos) (c : Fin 3)
    (hp : ∀ s, A s → p a + m ≤ s ∨ s + m ≤ p a) : (g'.run m).E p c = 0 := by
  rw [(C53_cone g g' h m p c).1 hp]
  exact (C51_dark_partial g hg m).1 p c

/-- C53, detectors: a detector all of whose cells are at least `k` planes away from all sources and absorbing layers records nothing but zeros in `k` steps. -/
theorem C53_detector (g g' : FGrid K) (hg : Dark g) (h : Extended a A g g') (k : ℕ) (d0 : FDetector K) (hd : d0 ∈ g'.detectors)
    (hfar : ∀ p ∈ d0.cells, ∀ s, A s → p a + k ≤ s ∨ s + k ≤ p a) (h0 : d0.recE = []) :
    ∃ d ∈ (g'.run k).detectors, d.cells = d0.cells ∧ d.recE.length = k ∧ ∀ x ∈ d.recE, ∀ v ∈ x, ∀ c, v c = 0 := by
  refine ⟨⟨d0.cells, d0.recE ++ (List.range k).map (fun i => d0.cells.map fun p => (g'.run (i + 1)).E p),
        d0.recH ++ (List.range k).map (fun i => d0.cells.map fun p => (g'.run (i + 1)).H p)⟩, ?_, rfl, ?_, ?_⟩
  · rw [C56_samples]
    exact List.mem_map.mpr ⟨d0, hd, rfl⟩
  · simp [h0]
  · intro x hx v hv c
    simp only [h0, List.nil_append, List.mem_map, List.mem_range] at hx
    obtain ⟨i, hi, rfl⟩ := hx
    rw [List.mem_map] at hv
    obtain ⟨p, hp, rfl⟩ := hv
    refine C53_dark g g' hg h (i + 1) p c fun s hs => ?_
    rcases hfar p hp s hs with h | h <;> omega

end

/-- a small absorbing layer with rational coefficients, for examples -/
def toyPml : Pml ℚ :=
  ⟨0, false, 1, fun _ _ => 1 / 2, fun _ _ => -1 / 4, fun _ _ => 1 / 2, fun _ _ => -1 / 4, fun _ _ _ => 0, fun _ _ _ => 0, fun _ _ => 0, fun _ _ => 0⟩

def toyBase : FGrid ℚ := { FGrid.fresh ![12, 3, 1] (1 / 2) 1 1 with boundaries := [.periodic 1] }

def toyGrid : FGrid ℚ :=
  { toyBase with
    boundaries := [.pml toyPml, .periodic 1]
    sources := [.soft fun _ p c => if p 0 = 5 ∧ c = 2 then 1 else 0] }

/-- the bound is sharp: plane 8 is dark after 3 steps and lit after 4 -/
example : Dark toyBase ∧ Extended 0 (fun s => s = 0 ∨ s = 5) toyBase toyGrid ∧ (toyGrid.run 3).E ![8, 1, 0] 2 = 0 ∧ (toyGrid.run 4).E ![8, 1, 0] 2 ≠ 0 := by
  refine ⟨⟨fun _ _ => rfl, fun _ _ => rfl, rfl, fun b hb => ⟨1, by simpa [toyBase] using hb⟩⟩,
    ⟨rfl, rfl, rfl, rfl, rfl, rfl, rfl, rfl, ?_, ?_, ?_⟩, by decide +kernel, by decide +kernel⟩
  · refine .extra _ (fun p hp => ⟨?_, fun h => h⟩) .nil
    rintro ⟨t, c, h⟩
    refine h (if_neg fun h' => hp (Or.inr h'.1))
  · refine .extra _ ⟨toyPml, rfl, fun p hp h => hp (Or.inl ?_)⟩ (.keep _ .nil)
    have h2 : p 0 < 0 + 1 := h.2
    omega
  · intro b hb h
    rw [h] at hb
    simp [toyBase] at hb

end Nidn
