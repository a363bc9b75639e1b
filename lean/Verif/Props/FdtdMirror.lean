/-
C172: a mirrored simulation gives the mirrored fields.
-/
import Verif.Props.FdtdAxes
import Verif.Lemmas.FdtdField
import Mathlib.Data.Int.ModEq
import Mathlib.Tactic.FinCases

namespace Nidn

/-- Specification: on the staggered grid the electric component along the axis of the mirror, and the magnetic components across it, sit half a cell further along the axis. -/
def halfE (a c : Fin 3) : Bool := decide (c = a)
def halfH (a c : Fin 3) : Bool := decide (c ≠ a)

/-- Specification: `p'` is the mirror image of `p` along the ring of axis `a`; positions of the two add up to `s`. The first and the last plane of the ring are the same place. `half` is for components half a cell further. -/
structure Opposite (n : Pos) (a : Fin 3) (s : ℤ) (half : Bool) (p p' : Pos) : Prop where
  mem : p ∈ box n
  mem' : p' ∈ box n
  other : ∀ b, b ≠ a → p' b = p b
  sum : (p a : ℤ) + p' a + (if half then 1 else 0) ≡ s [ZMOD (n a : ℤ) - 1]

section
variable {K : Type} [Field K]

/-- Specification: the components that sit half a cell further are the ones that change their sign in the mirror. -/
def mirrorSign (half : Bool) : K := if half then -1 else 1

/-- Specification: `F'` is the mirrored field `F` on the planes `ok`, with the signs `sgn`. -/
def MirrorOn (n : Pos) (a : Fin 3) (s : ℤ) (half : Fin 3 → Bool) (sgn : Bool → K) (ok : ℕ → Prop) (F F' : VField K) : Prop :=
  ∀ c p p', Opposite n a s (half c) p p' → ok (p a) → ok (p' a) → F' p' c = sgn (half c) * F p c

/-- Specification: `g'` is the simulation `g` in a mirror across the periodic axis `a`: materials, fields and additive sources are mirrored, all boundaries are periodic. -/
structure MirroredAlong (a : Fin 3) (s : ℤ) (g g' : FGrid K) : Prop where
  n : g'.n = g.n
  size : 2 ≤ g.n a
  courant : g'.courant = g.courant
  time : g'.time = g.time
  bounds : ∀ b ∈ g.boundaries, ∃ d, b = .periodic d
  same : g'.boundaries = g.boundaries
  ring : FBoundary.periodic a ∈ g.boundaries
  invEps : MirrorOn g.n a s (halfE a) (fun _ => 1) (fun _ => True) g.invEps g'.invEps
  absorb : MirrorOn g.n a s (halfE a) (fun _ => 1) (fun _ => True) g.absorb g'.absorb
  invMu : MirrorOn g.n a s (halfH a) (fun _ => 1) (fun _ => True) g.invMu g'.invMu
  E : MirrorOn g.n a s (halfE a) mirrorSign (fun _ => True) g.E g'.E
  H : MirrorOn g.n a s (halfH a) mirrorSign (fun _ => True) g.H g'.H
  sources : List.Forall₂ (fun x x' => ∃ d d', x = .soft d ∧ x' = .soft d' ∧ ∀ t, MirrorOn g.n a s (halfE a) mirrorSign (fun _ => True) (d t) (d' t)) g.sources g'.sources

variable {n : Pos} {a : Fin 3} {s : ℤ}

lemma Opposite.update_other {half : Bool} {p p' : Pos} (h : Opposite n a s half p p') {b : Fin 3} (hb : b ≠ a) {v : ℕ} (hv : v < n b) :
    Opposite n a s half (Function.update p b v) (Function.update p' b v) := by
  obtain ⟨h1, h2, h3, h4⟩ := h
  refine ⟨?_, ?_, fun c hc => ?_, ?_⟩
  · rw [mem_box] at h1 ⊢
    intro c
    by_cases e : c = b
    · subst e; simpa using hv
    · rw [Function.update_of_ne e]; exact h1 c
  · rw [mem_box] at h2 ⊢
    intro c
    by_cases e : c = b
    · subst e; simpa using hv
    · rw [Function.update_of_ne e]; exact h2 c
  · by_cases e : c = b
    · subst e; simp
    · rw [Function.update_of_ne e, Function.update_of_ne e]; exact h3 c hc
  · rw [Function.update_of_ne hb.symm, Function.update_of_ne hb.symm]; exact h4

lemma Opposite.update_same {half half' : Bool} {p p' : Pos} (h : Opposite n a s half p p') {v v' : ℕ} (hv : v < n a) (hv' : v' < n a)
    (e : (v : ℤ) + v' + (if half' then 1 else 0) ≡ s [ZMOD (n a : ℤ) - 1]) : Opposite n a s half' (Function.update p a v) (Function.update p' a v') := by
  obtain ⟨h1, h2, h3, h4⟩ := h
  refine ⟨?_, ?_, fun c hc => ?_, ?_⟩
  · rw [mem_box] at h1 ⊢
    intro c
    by_cases e : c = a
    · subst e; simpa using hv
    · rw [Function.update_of_ne e]; exact h1 c
  · rw [mem_box] at h2 ⊢
    intro c
    by_cases e : c = a
    · subst e; simpa using hv'
    · rw [Function.update_of_ne e]; exact h2 c
  · rw [Function.update_of_ne hc, Function.update_of_ne hc]; exact h3 c hc
  · simpa using e

/-- the difference along another axis is mirrored like the field -/
lemma dDn_mirror_other {F F' : VField K} {half : Fin 3 → Bool} (h : MirrorOn n a s half mirrorSign (fun _ => True) F F') {d f : Fin 3} (hd : d ≠ a) {p p' : Pos}
    (hp : Opposite n a s (half f) p p') : dDn F' d f p' = mirrorSign (half f) * dDn F d f p := by
  unfold dDn Pos.dn
  rw [hp.other d hd]
  split_ifs with h1
  · have := mem_box.1 hp.mem d
    rw [h f p p' hp trivial trivial, h f _ _ (hp.update_other hd (by omega)) trivial trivial]
    ring
  · rw [mul_zero]

lemma dUp_mirror_other {F F' : VField K} {half : Fin 3 → Bool} (h : MirrorOn n a s half mirrorSign (fun _ => True) F F') {d f : Fin 3} (hd : d ≠ a) {p p' : Pos}
    (hp : Opposite n a s (half f) p p') : dUp n F' d f p' = mirrorSign (half f) * dUp n F d f p := by
  unfold dUp Pos.up
  rw [hp.other d hd]
  split_ifs with h1
  · rw [h f p p' hp trivial trivial, h f _ _ (hp.update_other hd h1) trivial trivial]
    ring
  · rw [mul_zero]

/-- the backward difference along the axis of a component half a cell further keeps its sign -/
lemma dDn_mirror_same {F F' : VField K} {half : Fin 3 → Bool} (h : MirrorOn n a s half mirrorSign (fun _ => True) F F') {f : Fin 3} (hf : half f = true) {p p' : Pos}
    (hp : Opposite n a s false p p') (h0 : p a ≠ 0) (h0' : p' a ≠ 0) : dDn F' a f p' = dDn F a f p := by
  have l := mem_box.1 hp.mem a
  have l' := mem_box.1 hp.mem' a
  have hs := hp.sum
  have e1 : Opposite n a s (half f) (Function.update p a (p a - 1)) p' := by
    have := hp.update_same (half' := half f) (v := p a - 1) (v' := p' a) (by omega) l' ?_
    · rwa [Function.update_eq_self] at this
    · rw [hf, Nat.cast_sub (by omega)]
      convert hs using 1
      simp
      ring
  have e2 : Opposite n a s (half f) p (Function.update p' a (p' a - 1)) := by
    have := hp.update_same (half' := half f) (v := p a) (v' := p' a - 1) l (by omega) ?_
    · rwa [Function.update_eq_self] at this
    · rw [hf, Nat.cast_sub (by omega)]
      convert hs using 1
      simp
      ring
  unfold dDn Pos.dn
  rw [if_pos (by omega), if_pos (by omega), h f _ _ e1 trivial trivial, h f _ _ e2 trivial trivial, hf, mirrorSign]
  simp only [if_true]
  ring

/-- the forward difference along the axis of a component on the planes changes its sign -/
lemma dUp_mirror_same {F F' : VField K} {half : Fin 3 → Bool} (h : MirrorOn n a s half mirrorSign (fun _ => True) F F') {f : Fin 3} (hf : half f = false) {p p' : Pos}
    (hp : Opposite n a s true p p') (h0 : p a ≠ n a - 1) (h0' : p' a ≠ n a - 1) : dUp n F' a f p' = - dUp n F a f p := by
  have l := mem_box.1 hp.mem a
  have l' := mem_box.1 hp.mem' a
  have hs := hp.sum
  have e1 : Opposite n a s (half f) (Function.update p a (p a + 1)) p' := by
    have := hp.update_same (half' := half f) (v := p a + 1) (v' := p' a) (by omega) l' ?_
    · rwa [Function.update_eq_self] at this
    · rw [hf, Nat.cast_add]
      convert hs using 1
      simp
      ring
  have e2 : Opposite n a s (half f) p (Function.update p' a (p' a + 1)) := by
    have := hp.update_same (half' := half f) (v := p a) (v' := p' a + 1) l (by omega) ?_
    · rwa [Function.update_eq_self] at this
    · rw [hf, Nat.cast_add]
      convert hs using 1
      simp
      ring
  unfold dUp Pos.up
  rw [if_pos (by omega), if_pos (by omega), h f _ _ e1 trivial trivial, h f _ _ e2 trivial trivial, hf, mirrorSign]
  simp only [Bool.false_eq_true, if_false]
  ring

lemma half_curl : ∀ (a c d f : Fin 3), tripleSign c d f ≠ 0 → d ≠ a → halfE a c = halfH a f ∧ halfH a c = halfE a f := by
  unfold halfE halfH
  decide +kernel

lemma half_curl_same : ∀ (a c f : Fin 3), tripleSign c a f ≠ 0 → halfE a c = false ∧ halfH a f = true ∧ halfH a c = true ∧ halfE a f = false := by
  unfold halfE halfH
  decide +kernel

lemma curlH_mirror {F F' : VField K} (h : MirrorOn n a s (halfH a) mirrorSign (fun _ => True) F F') : MirrorOn n a s (halfE a) mirrorSign (· ≠ 0) (curlH F) (curlH F') := by
  intro c p p' hp h0 h0'
  rw [curlH_axes_sum, curlH_axes_sum, Finset.mul_sum]
  refine Finset.sum_congr rfl fun d _ => ?_
  rw [Finset.mul_sum]
  refine Finset.sum_congr rfl fun f _ => ?_
  by_cases ht : tripleSign c d f = 0
  · rw [ht, Int.cast_zero, zero_mul, zero_mul, mul_zero]
  by_cases hd : d = a
  · subst hd
    obtain ⟨e1, e2, -, -⟩ := half_curl_same d c f ht
    rw [e1] at hp
    rw [dDn_mirror_same h e2 hp h0 h0', e1, mirrorSign]
    simp
  · obtain ⟨e1, -⟩ := half_curl a c d f ht hd
    rw [e1] at hp
    rw [dDn_mirror_other h hd hp, e1]
    ring

lemma curlE_mirror {F F' : VField K} (h : MirrorOn n a s (halfE a) mirrorSign (fun _ => True) F F') : MirrorOn n a s (halfH a) mirrorSign (· ≠ n a - 1) (curlE n F) (curlE n F') := by
  intro c p p' hp h0 h0'
  rw [curlE_axes_sum, curlE_axes_sum, Finset.mul_sum]
  refine Finset.sum_congr rfl fun d _ => ?_
  rw [Finset.mul_sum]
  refine Finset.sum_congr rfl fun f _ => ?_
  by_cases ht : tripleSign c d f = 0
  · rw [ht, Int.cast_zero, zero_mul, zero_mul, mul_zero]
  by_cases hd : d = a
  · subst hd
    obtain ⟨-, -, e1, e2⟩ := half_curl_same d c f ht
    rw [e1] at hp
    rw [dUp_mirror_same h e2 hp h0 h0', e1, mirrorSign]
    simp
  · obtain ⟨-, e1⟩ := half_curl a c d f ht hd
    rw [e1] at hp
    rw [dUp_mirror_other h hd hp, e1]
    ring

/-! ### Periodic boundaries -/

lemma ring_rep_E {m v : ℕ} (hm : 2 ≤ m) : (((if v = 0 then m - 1 else v : ℕ) : ℤ)) ≡ v [ZMOD (m : ℤ) - 1] := by
  split_ifs with e
  · rw [e, Nat.cast_sub (by omega)]
    exact Int.modEq_zero_iff_dvd.2 (by simp)
  · exact Int.ModEq.refl _

lemma ring_rep_H {m v : ℕ} (hm : 2 ≤ m) : (((if v = m - 1 then 0 else v : ℕ) : ℤ)) ≡ v [ZMOD (m : ℤ) - 1] := by
  split_ifs with e
  · rw [e, Nat.cast_sub (by omega)]
    exact (Int.modEq_zero_iff_dvd.2 (by simp)).symm
  · exact Int.ModEq.refl _

lemma periodicE_mirror (hn : 2 ≤ n a) {F F' : VField K} {half : Fin 3 → Bool} (h : MirrorOn n a s half mirrorSign (· ≠ 0) F F') :
    MirrorOn n a s half mirrorSign (fun _ => True) (periodicE n a F) (periodicE n a F') := by
  intro c p p' hp _ _
  have e : ∀ (F : VField K) (p : Pos), periodicE n a F p c = F (Function.update p a (if p a = 0 then n a - 1 else p a)) c := by
    intro F p
    unfold periodicE
    split_ifs
    · rfl
    · rw [Function.update_eq_self]
  rw [e F p, e F' p']
  have l1 := mem_box.1 hp.mem a
  have l2 := mem_box.1 hp.mem' a
  refine h c _ _ (hp.update_same (by split_ifs <;> omega) (by split_ifs <;> omega) ?_) ?_ ?_
  · exact (((ring_rep_E hn).add (ring_rep_E hn)).add_right _).trans hp.sum
  · rw [Function.update_self]; split_ifs <;> omega
  · rw [Function.update_self]; split_ifs <;> omega

lemma periodicH_mirror (hn : 2 ≤ n a) {F F' : VField K} {half : Fin 3 → Bool} (h : MirrorOn n a s half mirrorSign (· ≠ n a - 1) F F') :
    MirrorOn n a s half mirrorSign (fun _ => True) (periodicH n a F) (periodicH n a F') := by
  intro c p p' hp _ _
  have e : ∀ (F : VField K) (p : Pos), periodicH n a F p c = F (Function.update p a (if p a = n a - 1 then 0 else p a)) c := by
    intro F p
    unfold periodicH
    split_ifs
    · rfl
    · rw [Function.update_eq_self]
  rw [e F p, e F' p']
  have l1 := mem_box.1 hp.mem a
  have l2 := mem_box.1 hp.mem' a
  refine h c _ _ (hp.update_same (by split_ifs <;> omega) (by split_ifs <;> omega) ?_) ?_ ?_
  · exact (((ring_rep_H hn).add (ring_rep_H hn)).add_right _).trans hp.sum
  · rw [Function.update_self]; split_ifs <;> omega
  · rw [Function.update_self]; split_ifs <;> omega

lemma MirrorOn.all {F F' : VField K} {half : Fin 3 → Bool} {sgn : Bool → K} (h : MirrorOn n a s half sgn (fun _ => True) F F') {ok : ℕ → Prop} : MirrorOn n a s half sgn ok F F' :=
  fun c p p' hp _ _ => h c p p' hp trivial trivial

lemma boundaryE_mirror {ok : ℕ → Prop} (hok : ∀ v, v ≠ 0 → ok v) (hn : 2 ≤ n a) {co : K} {ie ie' : VField K} (b : Fin 3) {F F' : VField K} {half : Fin 3 → Bool}
    (h : MirrorOn n a s half mirrorSign ok F F') : MirrorOn n a s half mirrorSign ok ((FBoundary.periodic b).updateE n co ie F) ((FBoundary.periodic b).updateE n co ie' F') := by
  by_cases hba : b = a
  · subst hba
    exact (periodicE_mirror hn fun c p p' hp o1 o2 => h c p p' hp (hok _ o1) (hok _ o2)).all
  · intro c p p' hp o1 o2
    show periodicE n b F' p' c = _ * periodicE n b F p c
    unfold periodicE
    rw [hp.other b hba]
    have l := mem_box.1 hp.mem b
    split_ifs
    · refine h c _ _ (hp.update_other hba (by omega)) ?_ ?_
      · rwa [Function.update_of_ne (Ne.symm hba)]
      · rwa [Function.update_of_ne (Ne.symm hba)]
    · exact h c p p' hp o1 o2

lemma boundaryH_mirror {ok : ℕ → Prop} (hok : ∀ v, v ≠ n a - 1 → ok v) (hn : 2 ≤ n a) {co : K} {im im' : VField K} (b : Fin 3) {F F' : VField K} {half : Fin 3 → Bool}
    (h : MirrorOn n a s half mirrorSign ok F F') : MirrorOn n a s half mirrorSign ok ((FBoundary.periodic b).updateH n co im F) ((FBoundary.periodic b).updateH n co im' F') := by
  by_cases hba : b = a
  · subst hba
    exact (periodicH_mirror hn fun c p p' hp o1 o2 => h c p p' hp (hok _ o1) (hok _ o2)).all
  · intro c p p' hp o1 o2
    show periodicH n b F' p' c = _ * periodicH n b F p c
    unfold periodicH
    rw [hp.other b hba]
    have l := mem_box.1 hp.mem b
    split_ifs
    · refine h c _ _ (hp.update_other hba (by omega)) ?_ ?_
      · rwa [Function.update_of_ne (Ne.symm hba)]
      · rwa [Function.update_of_ne (Ne.symm hba)]
    · exact h c p p' hp o1 o2

lemma boundariesE_mirror (hn : 2 ≤ n a) {co : K} {ie ie' : VField K} {half : Fin 3 → Bool} :
    ∀ (bs : List (FBoundary K)), (∀ b ∈ bs, ∃ d, b = .periodic d) → ∀ {F F' : VField K} {ok : ℕ → Prop}, (∀ v, v ≠ 0 → ok v) → (FBoundary.periodic a ∈ bs ∨ ∀ v, ok v) →
      MirrorOn n a s half mirrorSign ok F F' → MirrorOn n a s half mirrorSign (fun _ => True) (applyBoundariesE n co ie bs F) (applyBoundariesE n co ie' bs F')
  | [], _, _, _, _, _, hr, h => by
    rcases hr with hr | hr
    · cases hr
    · exact fun c p p' hp _ _ => h c p p' hp (hr _) (hr _)
  | b :: bs, hb, F, F', ok, hok, hr, h => by
    obtain ⟨d, rfl⟩ := hb b List.mem_cons_self
    have hbs : ∀ b ∈ bs, ∃ d, b = .periodic d := fun x hx => hb x (List.mem_cons_of_mem _ hx)
    by_cases hda : a = d
    · subst hda
      exact boundariesE_mirror hn bs hbs (ok := fun _ => True) (fun _ _ => trivial) (.inr fun _ => trivial)
        (periodicE_mirror hn fun c p p' hp o1 o2 => h c p p' hp (hok _ o1) (hok _ o2))
    · refine boundariesE_mirror hn bs hbs hok ?_ (boundaryE_mirror hok hn d h)
      refine hr.imp (fun hm => ?_) id
      rcases List.mem_cons.1 hm with e | hm
      · injection e with e; exact absurd e hda
      · exact hm

lemma boundariesH_mirror (hn : 2 ≤ n a) {co : K} {im im' : VField K} {half : Fin 3 → Bool} :
    ∀ (bs : List (FBoundary K)), (∀ b ∈ bs, ∃ d, b = .periodic d) → ∀ {F F' : VField K} {ok : ℕ → Prop}, (∀ v, v ≠ n a - 1 → ok v) → (FBoundary.periodic a ∈ bs ∨ ∀ v, ok v) →
      MirrorOn n a s half mirrorSign ok F F' → MirrorOn n a s half mirrorSign (fun _ => True) (applyBoundariesH n co im bs F) (applyBoundariesH n co im' bs F')
  | [], _, _, _, _, _, hr, h => by
    rcases hr with hr | hr
    · cases hr
    · exact fun c p p' hp _ _ => h c p p' hp (hr _) (hr _)
  | b :: bs, hb, F, F', ok, hok, hr, h => by
    obtain ⟨d, rfl⟩ := hb b List.mem_cons_self
    have hbs : ∀ b ∈ bs, ∃ d, b = .periodic d := fun x hx => hb x (List.mem_cons_of_mem _ hx)
    by_cases hda : a = d
    · subst hda
      exact boundariesH_mirror hn bs hbs (ok := fun _ => True) (fun _ _ => trivial) (.inr fun _ => trivial)
        (periodicH_mirror hn fun c p p' hp o1 o2 => h c p p' hp (hok _ o1) (hok _ o2))
    · refine boundariesH_mirror hn bs hbs hok ?_ (boundaryH_mirror hok hn d h)
      refine hr.imp (fun hm => ?_) id
      rcases List.mem_cons.1 hm with e | hm
      · injection e with e; exact absurd e hda
      · exact hm

/-! ### The step -/

lemma sourcesE_mirror (t : ℕ) {ss ss' : List (FSource K)}
    (hs : List.Forall₂ (fun x x' => ∃ d d', x = .soft d ∧ x' = .soft d' ∧ ∀ t, MirrorOn n a s (halfE a) mirrorSign (fun _ => True) (d t) (d' t)) ss ss') :
    ∀ {F F' : VField K}, MirrorOn n a s (halfE a) mirrorSign (fun _ => True) F F' → MirrorOn n a s (halfE a) mirrorSign (fun _ => True) (applySourcesE t ss F) (applySourcesE t ss' F') := by
  induction hs with
  | nil => exact fun h => h
  | cons hs _ ih =>
    intro F F' h
    obtain ⟨d, d', rfl, rfl, hd⟩ := hs
    refine ih fun c p p' hp _ _ => ?_
    show F' p' c + d' t p' c = _ * (F p c + d t p c)
    rw [h c p p' hp trivial trivial, hd t c p p' hp trivial trivial, mul_add]

lemma sourcesH_mirror (t : ℕ) {ss ss' : List (FSource K)}
    (hs : List.Forall₂ (fun x x' => ∃ d d', x = .soft d ∧ x' = .soft d' ∧ ∀ t, MirrorOn n a s (halfE a) mirrorSign (fun _ => True) (d t) (d' t)) ss ss') :
    ∀ {F F' : VField K}, MirrorOn n a s (halfH a) mirrorSign (fun _ => True) F F' → MirrorOn n a s (halfH a) mirrorSign (fun _ => True) (applySourcesH t ss F) (applySourcesH t ss' F') := by
  induction hs with
  | nil => exact fun h => h
  | cons hs _ ih =>
    intro F F' h
    obtain ⟨d, d', rfl, rfl, hd⟩ := hs
    exact ih h

lemma phased_periodicE (H : VField K) {bs : List (FBoundary K)} (h : ∀ b ∈ bs, ∃ d, b = .periodic d) : bs.map (FBoundary.updatePhiE n H) = bs := by
  refine (List.map_congr_left fun b hb => ?_).trans (List.map_id bs)
  obtain ⟨d, rfl⟩ := h b hb
  rfl

lemma phased_periodicH (E : VField K) {bs : List (FBoundary K)} (h : ∀ b ∈ bs, ∃ d, b = .periodic d) : bs.map (FBoundary.updatePhiH n E) = bs := by
  refine (List.map_congr_left fun b hb => ?_).trans (List.map_id bs)
  obtain ⟨d, rfl⟩ := h b hb
  rfl

lemma MirroredAlong.newE {g g' : FGrid K} (h : MirroredAlong a s g g') : MirrorOn g.n a s (halfE a) mirrorSign (fun _ => True) g.newE g'.newE := by
  unfold FGrid.newE FGrid.phasedE
  rw [h.n, h.courant, h.time, h.same, phased_periodicE _ h.bounds, phased_periodicE _ h.bounds]
  refine sourcesE_mirror g.time h.sources (boundariesE_mirror h.size _ h.bounds (ok := (· ≠ 0)) (fun _ h => h) (.inl h.ring) ?_)
  intro c p p' hp o1 o2
  unfold bulkE
  rw [h.E c p p' hp trivial trivial, h.absorb c p p' hp trivial trivial, h.invEps c p p' hp trivial trivial, curlH_mirror h.H c p p' hp o1 o2, h.courant]
  ring

lemma MirroredAlong.newH {g g' : FGrid K} (h : MirroredAlong a s g g') : MirrorOn g.n a s (halfH a) mirrorSign (fun _ => True) g.newH g'.newH := by
  unfold FGrid.newH FGrid.phasedH
  rw [h.n, h.courant, h.time, h.same, phased_periodicH _ h.bounds, phased_periodicH _ h.bounds]
  refine sourcesH_mirror g.time h.sources (boundariesH_mirror h.size _ h.bounds (ok := (· ≠ g.n a - 1)) (fun _ h => h) (.inl h.ring) ?_)
  intro c p p' hp o1 o2
  unfold bulkH
  rw [h.H c p p' hp trivial trivial, h.invMu c p p' hp trivial trivial, h.n, curlE_mirror h.E c p p' hp o1 o2, h.courant]
  ring

lemma MirroredAlong.updateE {g g' : FGrid K} (h : MirroredAlong a s g g') : MirroredAlong a s g.updateE g'.updateE where
  n := h.n
  size := h.size
  courant := h.courant
  time := h.time
  bounds := by
    show ∀ b ∈ g.boundaries.map _, _
    rw [phased_periodicE _ h.bounds]; exact h.bounds
  same := by
    show g'.boundaries.map _ = g.boundaries.map _
    rw [h.same, phased_periodicE _ h.bounds, phased_periodicE _ h.bounds]
  ring := by
    show _ ∈ g.boundaries.map _
    rw [phased_periodicE _ h.bounds]; exact h.ring
  invEps := h.invEps
  absorb := h.absorb
  invMu := h.invMu
  E := h.newE
  H := h.H
  sources := h.sources

lemma MirroredAlong.updateH {g g' : FGrid K} (h : MirroredAlong a s g g') : MirroredAlong a s g.updateH g'.updateH where
  n := h.n
  size := h.size
  courant := h.courant
  time := h.time
  bounds := by
    show ∀ b ∈ g.boundaries.map _, _
    rw [phased_periodicH _ h.bounds]; exact h.bounds
  same := by
    show g'.boundaries.map _ = g.boundaries.map _
    rw [h.same, phased_periodicH _ h.bounds, phased_periodicH _ h.bounds]
  ring := by
    show _ ∈ g.boundaries.map _
    rw [phased_periodicH _ h.bounds]; exact h.ring
  invEps := h.invEps
  absorb := h.absorb
  invMu := h.invMu
  E := h.E
  H := h.newH
  sources := h.sources

lemma MirroredAlong.step {g g' : FGrid K} (h : MirroredAlong a s g g') : MirroredAlong a s g.step g'.step :=
  { h.updateE.updateH with time := congrArg (· + 1) h.updateE.updateH.time }

/-- **C172.** In a grid with periodic boundaries a mirrored simulation (at any plane or midway between two planes of the ring) gives the mirrored fields after every number of steps, with the signs that electric and magnetic
fields have in a mirror. -/
theorem C172_mirrored_partial {g g' : FGrid K} (h : MirroredAlong a s g g') (k : ℕ) : MirroredAlong a s (g.run k) (g'.run k) := by
  induction k with
  | zero => exact h
  | succ k ih => exact ih.step

/-- Specification: an empty grid with periodic boundaries and an additive source for the component `c` in one cell. -/
def ringSource (n : Pos) (courant eps mu : K) (bs : List (FBoundary K)) (w : ℕ → K) (x : Pos) (c : Fin 3) : FGrid K :=
  { FGrid.fresh n courant eps mu with boundaries := bs, sources := [.soft fun t p d => if p = x ∧ d = c then w t else 0] }

/-- **C172.** Around a source on a ring in a uniform medium the field of its own component is the same `m` cells to the one side and to the other, at every time; the component must lie across the ring, and the source must not
stand on the planes that the boundary copies. -/
theorem C172_sides_partial (n : Pos) (a : Fin 3) (courant eps mu : K) (bs : List (FBoundary K)) (hb : ∀ b ∈ bs, ∃ d, b = .periodic d) (hr : FBoundary.periodic a ∈ bs) (w : ℕ → K) (x : Pos)
    (hx : x ∈ box n) (h0 : x a ≠ 0) (h1 : x a ≠ n a - 1) (c : Fin 3) (hc : c ≠ a) (p p' : Pos) (hp : p ∈ box n) (hp' : p' ∈ box n) (ho : ∀ b, b ≠ a → p' b = p b)
    (hs : (p a : ℤ) - x a ≡ x a - p' a [ZMOD (n a : ℤ) - 1]) (k : ℕ) :
    ((ringSource n courant eps mu bs w x c).run k).E p' c = ((ringSource n courant eps mu bs w x c).run k).E p c := by
  have hxa := mem_box.1 hx a
  have h : MirroredAlong a (2 * x a) (ringSource n courant eps mu bs w x c) (ringSource n courant eps mu bs w x c) := by
    refine ⟨rfl, show 2 ≤ n a by omega, rfl, rfl, hb, rfl, hr, fun c p p' _ _ _ => ?_, fun c p p' _ _ _ => ?_, fun c p p' _ _ _ => ?_, fun c p p' _ _ _ => ?_, fun c p p' _ _ _ => ?_, ?_⟩
    · exact (one_mul _).symm
    · exact (one_mul _).symm
    · exact (one_mul _).symm
    · exact (mul_zero _).symm
    · exact (mul_zero _).symm
    · refine .cons ⟨_, _, rfl, rfl, fun t d q q' hq _ _ => ?_⟩ .nil
      show (if q' = x ∧ d = c then w t else 0) = mirrorSign (halfE a d) * if q = x ∧ d = c then w t else 0
      by_cases hd : d = c
      · subst hd
        have hhalf : halfE a d = false := by simpa [halfE] using hc
        rw [hhalf] at hq ⊢
        have key : q' = x ↔ q = x := by
          have hsum := hq.sum
          have l := mem_box.1 hq.mem a
          have l' := mem_box.1 hq.mem' a
          simp only [Bool.false_eq_true, if_false, add_zero] at hsum
          have hdvd : ((n a : ℤ) - 1) ∣ 2 * x a - (q a + q' a) := hsum.dvd
          have hn : (ringSource n courant eps mu bs w x d).n = n := rfl
          rw [hn] at l l'
          have solve : ∀ u v : ℕ, u = x a → v < n a → ((n a : ℤ) - 1) ∣ 2 * x a - (u + v) → v = x a := by
            intro u v hu hv hd
            rw [hu] at hd
            have e : (2 * (x a : ℤ) - (x a + v)) = x a - v := by ring
            rw [e] at hd
            have hlt : |(x a : ℤ) - v| < (n a : ℤ) - 1 := by rw [abs_lt]; omega
            have := Int.eq_zero_of_abs_lt_dvd hd hlt
            omega
          constructor
          · intro e
            funext b
            by_cases hb : b = a
            · subst hb
              refine solve (q' b) (q b) (congrFun e b) l ?_
              rw [add_comm (q' b : ℤ)]; exact hdvd
            · rw [← hq.other b hb, e]
          · intro e
            funext b
            by_cases hb : b = a
            · subst hb; exact solve (q b) (q' b) (congrFun e b) l' hdvd
            · rw [hq.other b hb, e]
        simp only [key, mirrorSign, Bool.false_eq_true, if_false, one_mul]
      · rw [if_neg fun e => hd e.2, if_neg fun e => hd e.2, mul_zero]
  have hhalf : halfE a c = false := by simpa [halfE] using hc
  have hn : ((ringSource n courant eps mu bs w x c).run k).n = n := run_n _ k
  have := (C172_mirrored_partial h k).E c p p' (by
    rw [hhalf, hn]
    refine ⟨hp, hp', ho, ?_⟩
    simp only [Bool.false_eq_true, if_false, add_zero]
    have e : (p a : ℤ) + p' a = (p a - x a) + (x a + p' a) := by ring
    have e2 : (2 * x a : ℤ) = (x a - p' a) + (x a + p' a) := by ring
    rw [e, e2]
    exact hs.add_right _) trivial trivial
  rw [this, hhalf, mirrorSign]
  simp

end

/-- **C172 is false at the ends of an axis without a periodic boundary.** In a row of three cells with a source in the middle the field at the lower end stays zero for ever, the one at the upper end does not: the lower end acts as
an electric wall, the upper one as a magnetic wall. -/
theorem C172_ends_false (w : ℕ → ℚ) :
    (∀ k, ((ringSource ![3, 1, 1] (1 / 2) 1 1 [] w ![1, 0, 0] 2).run k).E ![0, 0, 0] 2 = 0) ∧
    ((ringSource ![3, 1, 1] (1 / 2 : ℚ) 1 1 [] (fun t => if t = 0 then 1 else 0) ![1, 0, 0] 2).run 2).E ![2, 0, 0] 2 = 1 / 4 := by
  refine ⟨fun k => ?_, by decide +kernel⟩
  induction k with
  | zero => rfl
  | succ k ih =>
    set g := (ringSource ![3, 1, 1] (1 / 2) 1 1 [] w ![1, 0, 0] 2).run k with hg
    have hb : g.boundaries = [] := by
      rw [List.eq_nil_iff_forall_not_mem]
      exact run_boundaries_all (fun _ => False) _ (fun _ _ h => h) (fun _ _ h => h) (fun _ h => absurd h List.not_mem_nil) k
    have hs : g.sources = [.soft fun t p d => if p = ![1, 0, 0] ∧ d = 2 then w t else 0] := run_sources _ k
    show g.newE ![0, 0, 0] 2 = 0
    unfold FGrid.newE FGrid.phasedE
    rw [hb, hs]
    show bulkE g ![0, 0, 0] 2 + (if (![0, 0, 0] : Pos) = ![1, 0, 0] ∧ (2 : Fin 3) = 2 then w g.time else 0) = 0
    rw [if_neg (by decide), add_zero]
    have hcurl : curlH g.H ![0, 0, 0] 2 = 0 := by simp [curlH, dDn]
    unfold bulkE
    rw [ih, hcurl]
    simp

/-- a source for `E_z` on a ring of six cells: the field two cells above it is the one two cells below -/
example (w : ℕ → ℚ) (k : ℕ) :
    ((ringSource ![4, 7, 1] (1 / 2) 2 1 [.periodic 1, .periodic 0] w ![1, 3, 0] 2).run k).E ![2, 5, 0] 2 =
    ((ringSource ![4, 7, 1] (1 / 2) 2 1 [.periodic 1, .periodic 0] w ![1, 3, 0] 2).run k).E ![2, 1, 0] 2 :=
  C172_sides_partial ![4, 7, 1] 1 (1 / 2) 2 1 [.periodic 1, .periodic 0] (by simp) (by simp) w ![1, 3, 0] (mem_box.2 (by decide)) (by decide) (by decide) 2 (by decide) ![2, 1, 0] ![2, 5, 0]
    (mem_box.2 (by decide)) (mem_box.2 (by decide)) (by decide) (by decide) k

end Nidn
