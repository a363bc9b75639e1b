/-
C166: what a source does to a grid does not depend on when and on top of what it is switched on, so every record is the convolution of the signal with the response to a single kick.
-/
import Verif.Props.FdtdRun
import Verif.Props.FdtdPieces
import Verif.Model.FdtdSources

set_option linter.unusedSectionVars false

namespace Nidn

section
variable {K : Type} [Field K]

/-! ### Specification -/

/-- what one more soft source with drive `d` has done to the electric field after `k` steps -/
def addedE (g : FGrid K) (d : ℕ → VField K) (k : ℕ) : VField K := fun p c => ((g.driven d).run k).E p c - (g.run k).E p c

/-- what it has done to the magnetic field -/
def addedH (g : FGrid K) (d : ℕ → VField K) (k : ℕ) : VField K := fun p c => ((g.driven d).run k).H p c - (g.run k).H p c

/-- the drive that starts `m` steps later; silent before -/
def delayedBy (start m : ℕ) (d : ℕ → VField K) : ℕ → VField K := fun t p c => if t < start + m then 0 else d (t - m) p c

/-- a single kick in the step with number `start` -/
def kick (start : ℕ) (v : VField K) : ℕ → VField K := fun t p c => if t = start then v p c else 0

/-- boundaries of the same kind, place, size and coefficients; memories may differ -/
def AlikeB (b b' : FBoundary K) : Prop := (∃ a, b = .periodic a ∧ b' = .periodic a) ∨
  ∃ P P' : Pml K, b = .pml P ∧ b' = .pml P' ∧ P.axis = P'.axis ∧ P.high = P'.high ∧ P.thick = P'.thick ∧ P.bE = P'.bE ∧ P.cE = P'.cE ∧ P.bH = P'.bH ∧ P.cH = P'.cH

/-- sources of the same kind and place; signals may differ -/
def AlikeS (s s' : FSource K) : Prop := (∃ d d', s = .soft d ∧ s' = .soft d') ∨ ∃ cells e h v v', s = .plane cells e h v ∧ s' = .plane cells e h v'

/-- two grids that differ only in fields, memories of the absorbing layers, and signals of the sources -/
structure AlikeG (g g' : FGrid K) : Prop where
  n : g.n = g'.n
  courant : g.courant = g'.courant
  invEps : g.invEps = g'.invEps
  invMu : g.invMu = g'.invMu
  absorb : g.absorb = g'.absorb
  bounds : List.Forall₂ AlikeB g.boundaries g'.boundaries
  srcs : List.Forall₂ AlikeS g.sources g'.sources

/-! ### Sources that can be exchanged -/

lemma step_exchanged (g : FGrid K) (S : List (FSource K)) (hE : ∀ F, applySourcesE g.time S F = applySourcesE g.time g.sources F) (hH : ∀ F, applySourcesH g.time S F = applySourcesH g.time g.sources F) :
    ({ g with sources := S } : FGrid K).step = { g.step with sources := S } := by
  have h1 : ({ g with sources := S } : FGrid K).newE = g.newE := hE _
  have h2 : ({ g with sources := S } : FGrid K).updateE = { g.updateE with sources := S } := by
    unfold FGrid.updateE
    rw [h1]
    rfl
  unfold FGrid.step
  rw [h2]
  have h3 : ({ g.updateE with sources := S } : FGrid K).newH = g.updateE.newH := hH _
  have h4 : ({ g.updateE with sources := S } : FGrid K).updateH = { g.updateE.updateH with sources := S } := by
    unfold FGrid.updateH
    rw [h3]
    rfl
  rw [h4]

lemma applySourcesE_append (t : ℕ) (S : List (FSource K)) (d : ℕ → VField K) (F : VField K) :
    applySourcesE t (S ++ [.soft d]) F = fun p c => applySourcesE t S F p c + d t p c := by
  unfold applySourcesE
  rw [List.foldl_append]
  rfl

lemma applySourcesH_append (t : ℕ) (S : List (FSource K)) (d : ℕ → VField K) (F : VField K) :
    applySourcesH t (S ++ [.soft d]) F = applySourcesH t S F := by
  unfold applySourcesH
  rw [List.foldl_append]
  rfl

lemma run_keeps_sources (g : FGrid K) (k : ℕ) : (g.run k).sources = g.sources := by
  induction k with
  | zero => rfl
  | succ k ih => exact ih

/-- drives that agree during the run -/
lemma driven_congr (g : FGrid K) (d d' : ℕ → VField K) (k : ℕ) (h : ∀ j < k, d (g.time + j) = d' (g.time + j)) :
    (g.driven d).run k = { (g.driven d').run k with sources := g.sources ++ [.soft d] } := by
  induction k with
  | zero => rfl
  | succ k ih =>
    show ((g.driven d).run k).step = _
    rw [ih fun j hj => h j (by omega), step_exchanged]
    · rfl
    · intro F
      have ht : ((g.driven d').run k).time = g.time + k := FGrid.run_time _ _
      rw [run_keeps_sources, ht]
      show applySourcesE _ _ F = applySourcesE _ (g.sources ++ [.soft d']) F
      rw [applySourcesE_append, applySourcesE_append, h k (by omega)]
    · intro F
      rw [run_keeps_sources]
      show applySourcesH _ _ F = applySourcesH _ (g.sources ++ [.soft d']) F
      rw [applySourcesH_append, applySourcesH_append]

/-- a source that is silent during the run -/
lemma driven_silent (g : FGrid K) (d : ℕ → VField K) (k : ℕ) (h : ∀ j < k, d (g.time + j) = fun _ _ => 0) : (g.driven d).run k = (g.run k).driven d := by
  induction k with
  | zero => rfl
  | succ k ih =>
    show ((g.driven d).run k).step = _
    rw [ih fun j hj => h j (by omega)]
    refine step_exchanged (g.run k) _ ?_ ?_
    · intro F
      rw [applySourcesE_append, FGrid.run_time, h k (by omega)]
      funext p c
      exact add_zero _
    · intro F
      rw [applySourcesH_append]

/-! ### Moving the clock -/

/-- the source whose signal comes `m` steps later -/
def FSource.later (m : ℕ) : FSource K → FSource K
  | .soft d => .soft fun t => d (t - m)
  | .plane cells e h v => .plane cells e h fun t => v (t - m)

/-- the grid with its clock and all signals moved by `m` steps -/
def FGrid.moved (g : FGrid K) (m : ℕ) : FGrid K := { g with time := g.time + m, sources := g.sources.map (FSource.later m) }

lemma applySources_later (t m : ℕ) (S : List (FSource K)) (F : VField K) :
    applySourcesE (t + m) (S.map (FSource.later m)) F = applySourcesE t S F ∧ applySourcesH (t + m) (S.map (FSource.later m)) F = applySourcesH t S F := by
  have e : ∀ (s : FSource K) F, (s.later m).updateE (t + m) F = s.updateE t F ∧ (s.later m).updateH (t + m) F = s.updateH t F := by
    intro s F
    cases s with
    | soft d => exact ⟨by dsimp only [FSource.later, FSource.updateE]; rw [Nat.add_sub_cancel], rfl⟩
    | plane cells e h v =>
      constructor
      · dsimp only [FSource.later, FSource.updateE]; rw [Nat.add_sub_cancel]
      · dsimp only [FSource.later, FSource.updateH]; rw [Nat.add_sub_cancel]
  unfold applySourcesE applySourcesH
  rw [List.foldl_map, List.foldl_map]
  constructor
  · congr 1
    funext F s
    exact (e s F).1
  · congr 1
    funext F s
    exact (e s F).2

lemma moved_step (g : FGrid K) (m : ℕ) : (g.moved m).step = g.step.moved m := by
  have h1 : (g.moved m).newE = g.newE := (applySources_later g.time m g.sources _).1
  have h2 : (g.moved m).updateE = g.updateE.moved m := by
    unfold FGrid.updateE
    rw [h1]
    rfl
  unfold FGrid.step
  rw [h2]
  have h3 : (g.updateE.moved m).newH = g.updateE.newH := (applySources_later g.time m g.sources _).2
  have h4 : (g.updateE.moved m).updateH = g.updateE.updateH.moved m := by
    unfold FGrid.updateH
    rw [h3]
    rfl
  rw [h4]
  have e : g.updateE.updateH.time + m + 1 = g.updateE.updateH.time + 1 + m := by omega
  unfold FGrid.moved
  dsimp only
  rw [e]

lemma moved_run (g : FGrid K) (m k : ℕ) : (g.moved m).run k = (g.run k).moved m := by
  induction k with
  | zero => rfl
  | succ k ih =>
    show ((g.moved m).run k).step = _
    rw [ih, moved_step]
    rfl

/-! ### Grids that are alike -/

lemma AlikeB.refl (b : FBoundary K) : AlikeB b b := by
  cases b with
  | periodic a => exact Or.inl ⟨a, rfl, rfl⟩
  | pml P => exact Or.inr ⟨P, P, rfl, rfl, rfl, rfl, rfl, rfl, rfl, rfl, rfl⟩

lemma AlikeS.refl (s : FSource K) : AlikeS s s := by
  cases s with
  | soft d => exact Or.inl ⟨d, d, rfl, rfl⟩
  | plane cells e h v => exact Or.inr ⟨cells, e, h, v, v, rfl, rfl⟩

lemma AlikeB.phased {b b' : FBoundary K} (h : AlikeB b b') (n : Pos) (F G : VField K) : AlikeB ((b.updatePhiE n F).updatePhiH n G) b' := by
  rcases h with ⟨a, rfl, rfl⟩ | ⟨P, P', rfl, rfl, h⟩
  · exact Or.inl ⟨a, rfl, rfl⟩
  · exact Or.inr ⟨_, P', rfl, rfl, h⟩

lemma alike_run (g : FGrid K) (k : ℕ) : List.Forall₂ AlikeB (g.run k).boundaries g.boundaries := by
  induction k with
  | zero => exact List.forall₂_same.2 fun b _ => AlikeB.refl b
  | succ k ih =>
    show List.Forall₂ AlikeB (((g.run k).boundaries.map _).map _) _
    rw [List.map_map, List.forall₂_map_left_iff]
    exact ih.imp fun b b' h => h.phased _ _ _

lemma zip_exists {α β : Type} {R : α → β → Prop} {l : List α} {l' : List β} (h : List.Forall₂ R l l') : ∃ z : List (α × β), z.map Prod.fst = l ∧ z.map Prod.snd = l' ∧ ∀ x ∈ z, R x.1 x.2 := by
  induction h with
  | nil => exact ⟨[], rfl, rfl, by simp⟩
  | cons hr _ ih =>
    obtain ⟨z, h1, h2, h3⟩ := ih
    refine ⟨(_, _) :: z, by rw [List.map_cons, h1], by rw [List.map_cons, h2], ?_⟩
    intro x hx
    rcases List.mem_cons.1 hx with rfl | hx
    · exact hr
    · exact h3 x hx

/-- the effect of a source does not depend on the state of the grid or on the signals of the other sources -/
lemma added_alike {g g' : FGrid K} (h : AlikeG g g') (ht : g.time = g'.time) (d : ℕ → VField K) (k : ℕ) (p : Pos) (c : Fin 3) :
    addedE g d k p c = addedE g' d k p c ∧ addedH g d k p c = addedH g' d k p c := by
  obtain ⟨zb, b1, b2, b3⟩ := zip_exists h.bounds
  obtain ⟨zs, s1, s2, s3⟩ := zip_exists h.srcs
  set w : Fin 4 → K := ![1, -1, -1, 1] with hw
  have hz : ∀ x y : K, ∑ i, w i * ![x, x, y, y] i = 0 := fun x y => by simp [hw, Fin.sum_univ_four]
  have hz1 : ∀ x : K, ∑ i, w i * x = 0 := fun x => by simp [hw, Fin.sum_univ_four]
  have hF : ∀ F G : VField K, Vanish w fun i => (![F, F, G, G] : Fin 4 → VField K) i := by
    intro F G p c
    have := hz (F p c) (G p c)
    simp only [Fin.sum_univ_four] at this ⊢
    exact this
  have comb : Combined (ι := Fin 4) w g ![g.driven d, g.driven fun _ _ _ => 0, g'.driven d, g'.driven fun _ _ _ => 0] := by
    constructor
    · intro i; fin_cases i; exacts [rfl, rfl, h.n.symm, h.n.symm]
    · intro i; fin_cases i; exacts [rfl, rfl, h.courant.symm, h.courant.symm]
    · intro i; fin_cases i; exacts [rfl, rfl, h.invEps.symm, h.invEps.symm]
    · intro i; fin_cases i; exacts [rfl, rfl, h.invMu.symm, h.invMu.symm]
    · intro i; fin_cases i; exacts [rfl, rfl, h.absorb.symm, h.absorb.symm]
    · intro i; fin_cases i; exacts [rfl, rfl, ht.symm, ht.symm]
    · have := hF g.E g'.E
      intro p c
      have := this p c
      simp only [Fin.sum_univ_four] at this ⊢
      exact this
    · have := hF g.H g'.H
      intro p c
      have := this p c
      simp only [Fin.sum_univ_four] at this ⊢
      exact this
    · refine ⟨zb.map fun x => (![x.1, x.1, x.2, x.2] : Fin 4 → FBoundary K), ?_, ?_⟩
      · intro i
        rw [List.map_map]
        fin_cases i
        exacts [b1.symm, b1.symm, b2.symm, b2.symm]
      · intro b hb
        obtain ⟨x, hx, rfl⟩ := List.mem_map.1 hb
        rcases b3 x hx with ⟨a, e1, e2⟩ | ⟨P, P', e1, e2, f1, f2, f3, f4, f5, f6, f7⟩
        · refine Or.inl ⟨a, fun i => ?_⟩
          fin_cases i
          exacts [e1, e1, e2, e2]
        · refine Or.inr ⟨P', ![P, P, P', P'], fun i => ?_, fun i => ?_, ?_, fun m => ?_, fun m => ?_⟩
          · fin_cases i
            exacts [e1, e1, e2, e2]
          · fin_cases i
            exacts [⟨f1, f2, f3, f4, f5, f6, f7⟩, ⟨f1, f2, f3, f4, f5, f6, f7⟩, ⟨rfl, rfl, rfl, rfl, rfl, rfl, rfl⟩, ⟨rfl, rfl, rfl, rfl, rfl, rfl, rfl⟩]
          · have := hz1 1
            simpa using this
          · intro p c
            have := hF (P.psiE m) (P'.psiE m) p c
            simp only [Fin.sum_univ_four] at this ⊢
            exact this
          · intro p c
            have := hF (P.psiH m) (P'.psiH m) p c
            simp only [Fin.sum_univ_four] at this ⊢
            exact this
    · refine ⟨(zs.map fun x => (![x.1, x.1, x.2, x.2] : Fin 4 → FSource K)) ++ [fun i => .soft ((![d, fun _ _ _ => 0, d, fun _ _ _ => 0] : Fin 4 → ℕ → VField K) i)], ?_, ?_⟩
      · intro i
        rw [List.map_append, List.map_map]
        fin_cases i
        · show g.sources ++ [_] = _; rw [← s1]; rfl
        · show g.sources ++ [_] = _; rw [← s1]; rfl
        · show g'.sources ++ [_] = _; rw [← s2]; rfl
        · show g'.sources ++ [_] = _; rw [← s2]; rfl
      · intro s hs
        rcases List.mem_append.1 hs with hs | hs
        · obtain ⟨x, hx, rfl⟩ := List.mem_map.1 hs
          rcases s3 x hx with ⟨d1, d2, e1, e2⟩ | ⟨cells, e, hh, v, v', e1, e2⟩
          · refine Or.inl ⟨![d1, d1, d2, d2], fun i => ?_, fun t p c => ?_⟩
            · fin_cases i
              exacts [e1, e1, e2, e2]
            · have := hz (d1 t p c) (d2 t p c)
              simp only [Fin.sum_univ_four] at this ⊢
              exact this
          · refine Or.inr ⟨cells, e, hh, ![v, v, v', v'], fun i => ?_, fun t => ?_⟩
            · fin_cases i
              exacts [e1, e1, e2, e2]
            · have := hz (v t) (v' t)
              simp only [Fin.sum_univ_four] at this ⊢
              exact this
        · rw [List.mem_singleton.1 hs]
          refine Or.inl ⟨_, fun _ => rfl, fun t p c => ?_⟩
          simp [hw, Fin.sum_univ_four]
  have key := combined_run comb k
  have hE := key.E p c
  have hH := key.H p c
  have sil : ∀ g : FGrid K, ((g.driven fun _ _ _ => 0).run k).E = (g.run k).E ∧ ((g.driven fun _ _ _ => 0).run k).H = (g.run k).H := by
    intro g
    rw [driven_silent g _ k fun _ _ => rfl]
    exact ⟨rfl, rfl⟩
  simp only [Fin.sum_univ_four, hw] at hE hH
  change 1 * ((g.driven d).run k).E p c + -1 * ((g.driven fun _ _ _ => 0).run k).E p c + -1 * ((g'.driven d).run k).E p c + 1 * ((g'.driven fun _ _ _ => 0).run k).E p c = 0 at hE
  change 1 * ((g.driven d).run k).H p c + -1 * ((g.driven fun _ _ _ => 0).run k).H p c + -1 * ((g'.driven d).run k).H p c + 1 * ((g'.driven fun _ _ _ => 0).run k).H p c = 0 at hH
  rw [(sil g).1, (sil g').1] at hE
  rw [(sil g).2, (sil g').2] at hH
  unfold addedE addedH
  exact ⟨by linear_combination hE, by linear_combination hH⟩

/-! ### The claims -/

/-- C166: what a soft source adds to the fields is the same on any two grids of the same construction, whatever the fields, the memories of the absorbing layers and the signals of the other sources (soft or plane). -/
theorem C166_state {g g' : FGrid K} (h : AlikeG g g') (ht : g.time = g'.time) (d : ℕ → VField K) (k : ℕ) (p : Pos) (c : Fin 3) :
    ((g.driven d).run k).E p c - (g.run k).E p c = ((g'.driven d).run k).E p c - (g'.run k).E p c ∧
      ((g.driven d).run k).H p c - (g.run k).H p c = ((g'.driven d).run k).H p c - (g'.run k).H p c := added_alike h ht d k p c

/-- C166: a source switched on `m` steps later does nothing for `m` steps and then the same `m` steps later, on every grid and whatever else happens meanwhile. -/
theorem C166_delay (g : FGrid K) (d : ℕ → VField K) (m k : ℕ) (p : Pos) (c : Fin 3) :
    (k ≤ m → ((g.driven (delayedBy g.time m d)).run k).E p c = (g.run k).E p c ∧ ((g.driven (delayedBy g.time m d)).run k).H p c = (g.run k).H p c) ∧
    ((g.driven (delayedBy g.time m d)).run (m + k)).E p c - (g.run (m + k)).E p c = ((g.driven d).run k).E p c - (g.run k).E p c ∧
    ((g.driven (delayedBy g.time m d)).run (m + k)).H p c - (g.run (m + k)).H p c = ((g.driven d).run k).H p c - (g.run k).H p c := by
  have silent : ∀ k ≤ m, (g.driven (delayedBy g.time m d)).run k = (g.run k).driven (delayedBy g.time m d) := by
    intro k hk
    refine driven_silent g _ k fun j hj => ?_
    funext p c
    unfold delayedBy
    rw [if_pos (by omega)]
  refine ⟨fun hk => ?_, ?_⟩
  · rw [silent k hk]
    exact ⟨rfl, rfl⟩
  · rw [FGrid.run_add, FGrid.run_add, silent m le_rfl, driven_congr (g.run m) (delayedBy g.time m d) (fun t => d (t - m)) k (by
      intro j _
      rw [FGrid.run_time]
      funext p c
      unfold delayedBy
      rw [if_neg (by omega)])]
    have hal : AlikeG (g.run m) (g.moved m) := ⟨run_n g m, run_courant g m, run_invEps g m, run_invMu g m, run_absorb g m, alike_run g m, by
      rw [run_keeps_sources]
      show List.Forall₂ AlikeS _ (g.sources.map _)
      rw [List.forall₂_map_right_iff, List.forall₂_same]
      intro s _
      cases s with
      | soft d => exact Or.inl ⟨_, _, rfl, rfl⟩
      | plane cells e h v => exact Or.inr ⟨cells, e, h, _, _, rfl, rfl⟩⟩
    have key := added_alike hal (FGrid.run_time g m) (fun t => d (t - m)) k p c
    have hm : (g.moved m).driven (fun t => d (t - m)) = (g.driven d).moved m := by
      unfold FGrid.moved FGrid.driven
      rw [List.map_append]
      rfl
    unfold addedE addedH at key
    rw [hm, moved_run, moved_run] at key
    exact key

lemma added_add (g : FGrid K) (d1 d2 : ℕ → VField K) (k : ℕ) (p : Pos) (c : Fin 3) :
    addedE g (fun t p c => d1 t p c + d2 t p c) k p c = addedE g d1 k p c + addedE g d2 k p c ∧ addedH g (fun t p c => d1 t p c + d2 t p c) k p c = addedH g d1 k p c + addedH g d2 k p c := by
  obtain ⟨h1, h2⟩ := C52_superposition g d1 d2 k p c
  have sil : ((g.driven fun _ _ _ => 0).run k).E = (g.run k).E ∧ ((g.driven fun _ _ _ => 0).run k).H = (g.run k).H := by
    rw [driven_silent g _ k fun _ _ => rfl]
    exact ⟨rfl, rfl⟩
  rw [sil.1] at h1
  rw [sil.2] at h2
  unfold addedE addedH
  exact ⟨by linear_combination h1, by linear_combination h2⟩

lemma added_congr (g : FGrid K) (d d' : ℕ → VField K) (k : ℕ) (h : ∀ j < k, d (g.time + j) = d' (g.time + j)) : addedE g d k = addedE g d' k ∧ addedH g d k = addedH g d' k := by
  unfold addedE addedH
  rw [driven_congr g d d' k h]
  exact ⟨rfl, rfl⟩

/-- C166: what a source has added after `k` steps is the sum of what the single kicks of its steps add, each started at the beginning and seen as many steps later as it really was ago. -/
theorem C166_kicks (g : FGrid K) (d : ℕ → VField K) (k : ℕ) (p : Pos) (c : Fin 3) :
    ((g.driven d).run k).E p c - (g.run k).E p c
      = ∑ j ∈ Finset.range k, (((g.driven (kick g.time (d (g.time + j)))).run (k - j)).E p c - (g.run (k - j)).E p c) ∧
    ((g.driven d).run k).H p c - (g.run k).H p c
      = ∑ j ∈ Finset.range k, (((g.driven (kick g.time (d (g.time + j)))).run (k - j)).H p c - (g.run (k - j)).H p c) := by
  have main : ∀ N ≤ k, addedE g (fun t p c => if t < g.time + N then d t p c else 0) k p c = ∑ j ∈ Finset.range N, addedE g (kick g.time (d (g.time + j))) (k - j) p c ∧
      addedH g (fun t p c => if t < g.time + N then d t p c else 0) k p c = ∑ j ∈ Finset.range N, addedH g (kick g.time (d (g.time + j))) (k - j) p c := by
    intro N
    induction N with
    | zero =>
      intro _
      have hz := driven_silent g (fun t p c => if t < g.time + 0 then d t p c else 0) k (by
        intro j _
        funext p c
        rw [if_neg (by omega)])
      simp only [Finset.range_zero, Finset.sum_empty]
      unfold addedE addedH
      rw [hz]
      exact ⟨sub_self _, sub_self _⟩
    | succ N ih =>
      intro hN
      obtain ⟨i1, i2⟩ := ih (by omega)
      obtain ⟨-, d1, d2⟩ := C166_delay g (kick g.time (d (g.time + N))) N (k - N) p c
      rw [Nat.add_sub_cancel' (by omega)] at d1 d2
      have split := added_add g (fun t p c => if t < g.time + N then d t p c else 0) (delayedBy g.time N (kick g.time (d (g.time + N)))) k p c
      have hsum := added_congr g (fun t p c => if t < g.time + (N + 1) then d t p c else 0)
        (fun t p c => (if t < g.time + N then d t p c else 0) + delayedBy g.time N (kick g.time (d (g.time + N))) t p c) k (by
          intro j _
          funext p c
          unfold delayedBy kick
          rcases lt_trichotomy j N with hj | hj | hj
          · rw [if_pos (show g.time + j < g.time + (N + 1) by omega), if_pos (show g.time + j < g.time + N by omega), if_pos (show g.time + j < g.time + N by omega), add_zero]
          · subst hj
            rw [if_pos (show g.time + j < g.time + (j + 1) by omega), if_neg (lt_irrefl _), if_neg (lt_irrefl _), if_pos (show g.time + j - j = g.time by omega), zero_add]
          · rw [if_neg (show ¬ g.time + j < g.time + (N + 1) by omega), if_neg (show ¬ g.time + j < g.time + N by omega), if_neg (show ¬ g.time + j < g.time + N by omega),
              if_neg (show g.time + j - N ≠ g.time by omega), add_zero])
      rw [hsum.1, hsum.2, split.1, split.2, Finset.sum_range_succ, Finset.sum_range_succ, i1, i2]
      exact ⟨congrArg₂ _ rfl d1, congrArg₂ _ rfl d2⟩
  obtain ⟨m1, m2⟩ := main k le_rfl
  have hc := added_congr g d (fun t p c => if t < g.time + k then d t p c else 0) k (by
    intro j hj
    funext p c
    rw [if_pos (by omega)])
  exact ⟨(congrFun (congrFun hc.1 p) c).trans m1, (congrFun (congrFun hc.2 p) c).trans m2⟩

/-- C166: the record of a source of fixed profile is the convolution of its signal with the response to one unit kick. -/
theorem C166_convolution (g : FGrid K) (s : ℕ → K) (u : VField K) (k : ℕ) (p : Pos) (c : Fin 3) :
    ((g.driven fun t p c => s t * u p c).run k).E p c - (g.run k).E p c
      = ∑ j ∈ Finset.range k, s (g.time + j) * (((g.driven (kick g.time u)).run (k - j)).E p c - (g.run (k - j)).E p c) := by
  rw [(C166_kicks g (fun t p c => s t * u p c) k p c).1]
  refine Finset.sum_congr rfl fun j _ => ?_
  have h := (C52_scaling g (kick g.time u) (s (g.time + j)) (k - j) p c).1
  rw [driven_silent g (fun _ _ _ => 0) (k - j) fun _ _ => rfl] at h
  have e : (fun t p c => s (g.time + j) * kick g.time u t p c) = kick g.time (fun p c => s (g.time + j) * u p c) := by
    funext t p c
    unfold kick
    split_ifs <;> ring
  rw [e] at h
  exact h

/-- C166 for the point sources of the package, which add their signal to E_z of one cell. -/
theorem C166_point (g : FGrid K) (s : ℕ → K) (i : Pos) (k : ℕ) (p : Pos) (c : Fin 3) :
    ((g.driven fun t => addEz (fun _ _ => 0) i (s t)).run k).E p c - (g.run k).E p c
      = ∑ j ∈ Finset.range k, s (g.time + j) * (((g.driven (kick g.time (addEz (fun _ _ => 0) i 1))).run (k - j)).E p c - (g.run (k - j)).E p c) := by
  rw [← C166_convolution]
  have e : (fun t => addEz (fun _ _ => (0 : K)) i (s t)) = fun t p c => s t * addEz (fun _ _ => 0) i 1 p c := by
    funext t p c
    unfold addEz
    split_ifs <;> ring
  rw [e]

/-- a grid with a dielectric, a conductor, a periodic boundary, an absorbing layer with a memory, a running plane source and a field: a delayed source does reach a place where there was a field before -/
example : ∃ (g g' : FGrid ℚ) (d : ℕ → VField ℚ), AlikeG g g' ∧ g.time = g'.time ∧ g.E ![1, 0, 0] 2 ≠ g'.E ![1, 0, 0] 2 ∧ g.sources ≠ [] ∧
    ((g.driven (delayedBy g.time 2 d)).run (2 + 2)).E ![2, 1, 0] 2 - (g.run (2 + 2)).E ![2, 1, 0] 2 ≠ 0 := by
  refine ⟨{ FGrid.fresh ![5, 3, 1] (1 / 2) 1 1 with
      invEps := fun p _ => if p 0 = 2 then 1 / 3 else 1
      absorb := fun p _ => if p 0 = 2 then 1 / 5 else 0
      E := fun p _ => p 0
      time := 3
      boundaries := [.periodic 1, .pml ⟨0, true, 2, fun _ _ => 1 / 2, fun _ _ => -1 / 3, fun _ _ => 1 / 2, fun _ _ => -1 / 3, fun _ _ _ => 7, fun _ _ _ => 0, fun _ _ => 0, fun _ _ => 0⟩]
      sources := [.plane (fun p => decide (p 0 = 4)) 2 1 fun t => t] },
    { FGrid.fresh ![5, 3, 1] (1 / 2) 1 1 with
      invEps := fun p _ => if p 0 = 2 then 1 / 3 else 1
      absorb := fun p _ => if p 0 = 2 then 1 / 5 else 0
      time := 3
      boundaries := [.periodic 1, .pml ⟨0, true, 2, fun _ _ => 1 / 2, fun _ _ => -1 / 3, fun _ _ => 1 / 2, fun _ _ => -1 / 3, fun _ _ _ => 0, fun _ _ _ => 0, fun _ _ => 0, fun _ _ => 0⟩]
      sources := [.plane (fun p => decide (p 0 = 4)) 2 1 fun _ => 0] }, fun _ p c => if p 0 = 1 ∧ c = 2 then 1 else 0, ?_, rfl, by decide +kernel, by simp, by decide +kernel⟩
  exact ⟨rfl, rfl, rfl, rfl, rfl, .cons (Or.inl ⟨1, rfl, rfl⟩) (.cons (Or.inr ⟨_, _, rfl, rfl, rfl, rfl, rfl, rfl, rfl, rfl, rfl⟩) .nil),
    .cons (Or.inr ⟨_, _, _, _, _, rfl, rfl⟩) .nil⟩

end

end Nidn
