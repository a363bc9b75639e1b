/-
C163: the FDTD grid treats its axes alike: exchanging the axes of a simulation exchanges the axes of the result.
-/
import Verif.Props.FdtdTorus
import Verif.Props.FdtdSpeed
import Verif.Model.FdtdSources
import Verif.Lemmas.Py
import Mathlib.GroupTheory.Perm.Fin
import Mathlib.GroupTheory.Perm.Sign

namespace Nidn

open Equiv (Perm)

section
variable {K : Type} [Field K]

/-- `1` for rotations of the axes, `-1` for exchanges of two axes -/
def turnSign (K : Type) [Field K] (π : Perm (Fin 3)) : K := ((Perm.sign π : ℤ) : K)

/-- where the cell `p` of the old grid is in the new one: axis `a` becomes axis `π a` -/
def turnPos (π : Perm (Fin 3)) (p : Pos) : Pos := fun a => p (π.symm a)

/-- where the cell `p` of the new grid was in the old one -/
def unturnPos (π : Perm (Fin 3)) (p : Pos) : Pos := fun a => p (π a)

/-- a vector field on the grid with exchanged axes, times a number -/
def turnField (π : Perm (Fin 3)) (s : K) (F : VField K) : VField K := fun p c => s * F (unturnPos π p) (π.symm c)

/-- an absorbing layer on the grid with exchanged axes. The memories of E come from H, those of H from E. -/
def Pml.turn (π : Perm (Fin 3)) (P : Pml K) : Pml K where
  axis := π P.axis
  high := P.high
  thick := P.thick
  bE := turnField π 1 P.bE
  cE := turnField π 1 P.cE
  bH := turnField π 1 P.bH
  cH := turnField π 1 P.cH
  psiE := fun m => turnField π (turnSign K π) (P.psiE (π.symm m))
  psiH := fun m => turnField π 1 (P.psiH (π.symm m))
  phiE := turnField π 1 P.phiE
  phiH := turnField π (turnSign K π) P.phiH

def FBoundary.turn (π : Perm (Fin 3)) : FBoundary K → FBoundary K
  | .periodic a => .periodic (π a)
  | .pml P => .pml (P.turn π)

def FSource.turn (π : Perm (Fin 3)) : FSource K → FSource K
  | .soft drive => .soft fun t => turnField π 1 (drive t)
  | .plane cells e h value => .plane (fun p => cells (unturnPos π p)) (π e) (π h) value

def FDetector.turn (π : Perm (Fin 3)) (d : FDetector K) : FDetector K where
  cells := d.cells.map (turnPos π)
  recE := d.recE.map fun r => r.map fun v c => v (π.symm c)
  recH := d.recH.map fun r => r.map fun v c => turnSign K π * v (π.symm c)

/-- The same simulation with exchanged axes. Electric quantities follow the axes, the magnetic field also changes its sign if the handedness changes. -/
def FGrid.turn (π : Perm (Fin 3)) (g : FGrid K) : FGrid K where
  n := turnPos π g.n
  courant := g.courant
  invEps := turnField π 1 g.invEps
  invMu := turnField π 1 g.invMu
  absorb := turnField π 1 g.absorb
  E := turnField π 1 g.E
  H := turnField π (turnSign K π) g.H
  time := g.time
  boundaries := g.boundaries.map (FBoundary.turn π)
  sources := g.sources.map (FSource.turn π)
  detectors := g.detectors.map (FDetector.turn π)

variable {π : Perm (Fin 3)}

lemma sign_mul_self (π : Perm (Fin 3)) : turnSign K π * turnSign K π = 1 := by
  unfold turnSign
  rcases Int.units_eq_one_or (Perm.sign π) with h | h <;> rw [h] <;> simp

lemma unturn_turn (p : Pos) : unturnPos π (turnPos π p) = p := by
  funext a; simp [unturnPos, turnPos]

lemma unturn_update (p : Pos) (a : Fin 3) (v : ℕ) : unturnPos π (Function.update p (π a) v) = Function.update (unturnPos π p) a v := by
  funext b
  simp only [unturnPos, Function.update_apply, EmbeddingLike.apply_eq_iff_eq]

lemma turn_update (p : Pos) (a : Fin 3) (v : ℕ) : turnPos π (Function.update p a v) = Function.update (turnPos π p) (π a) v := by
  funext b
  simp only [turnPos, Function.update_apply, Equiv.symm_apply_eq]

lemma unturn_up (p : Pos) (a : Fin 3) : unturnPos π (p.up (π a)) = (unturnPos π p).up a := unturn_update p a _

lemma unturn_dn (p : Pos) (a : Fin 3) : unturnPos π (p.dn (π a)) = (unturnPos π p).dn a := unturn_update p a _

lemma dUp_turn (n : Pos) (s : K) (F : VField K) (a c : Fin 3) (p : Pos) :
    dUp (turnPos π n) (turnField π s F) (π a) (π c) p = s * dUp n F a c (unturnPos π p) := by
  have h : turnPos π n (π a) = n a := by simp [turnPos]
  unfold dUp
  rw [h]
  simp only [turnField, unturn_up, Equiv.symm_apply_apply]
  show (if p (π a) + 1 < n a then _ else _) = s * (if p (π a) + 1 < n a then _ else _)
  split
  · ring
  · simp

lemma dDn_turn (s : K) (F : VField K) (a c : Fin 3) (p : Pos) :
    dDn (turnField π s F) (π a) (π c) p = s * dDn F a c (unturnPos π p) := by
  unfold dDn
  simp only [turnField, unturn_dn, Equiv.symm_apply_apply]
  show (if 1 ≤ p (π a) then _ else _) = s * (if 1 ≤ p (π a) then _ else _)
  split
  · ring
  · simp

/-- the sign of the triple `(c, a, b)` -/
def tripleSign : Fin 3 → Fin 3 → Fin 3 → ℤ
  | 0, 1, 2 => 1
  | 1, 2, 0 => 1
  | 2, 0, 1 => 1
  | 0, 2, 1 => -1
  | 1, 0, 2 => -1
  | 2, 1, 0 => -1
  | _, _, _ => 0

lemma tripleSign_turn (π : Perm (Fin 3)) (c a b : Fin 3) : tripleSign (π c) (π a) (π b) = Perm.sign π * tripleSign c a b := by
  revert π c a b
  decide +kernel

lemma curlE_axes_sum (n : Pos) (E : VField K) (p : Pos) (c : Fin 3) : curlE n E p c = ∑ a, ∑ b, (tripleSign c a b : K) * dUp n E a b p := by
  fin_cases c <;> simp [curlE, Fin.sum_univ_three, tripleSign] <;> ring

lemma curlH_axes_sum (H : VField K) (p : Pos) (c : Fin 3) : curlH H p c = ∑ a, ∑ b, (tripleSign c a b : K) * dDn H a b p := by
  fin_cases c <;> simp [curlH, Fin.sum_univ_three, tripleSign] <;> ring

lemma phiOf_axes_sum (psi : Fin 3 → VField K) (q : Pos) (c : Fin 3) : phiOf psi q c = ∑ a, ∑ b, (tripleSign c a b : K) * psi c q a := by
  fin_cases c <;> simp [phiOf, Fin.sum_univ_three, tripleSign] <;> ring

lemma sum_turn (f : Fin 3 → Fin 3 → K) : ∑ a, ∑ b, f a b = ∑ a, ∑ b, f (π a) (π b) := by
  rw [← Equiv.sum_comp π]
  exact Finset.sum_congr rfl fun a _ => (Equiv.sum_comp π _).symm

lemma curlE_turn (n : Pos) (s : K) (E : VField K) : curlE (turnPos π n) (turnField π s E) = turnField π (turnSign K π * s) (curlE n E) := by
  funext p c
  obtain ⟨c, rfl⟩ := π.surjective c
  rw [curlE_axes_sum, sum_turn (π := π)]
  simp only [turnField, Equiv.symm_apply_apply, curlE_axes_sum, dUp_turn, tripleSign_turn, Finset.mul_sum, Int.cast_mul, turnSign]
  refine Finset.sum_congr rfl fun a _ => Finset.sum_congr rfl fun b _ => by ring

lemma curlH_turn (s : K) (H : VField K) : curlH (turnField π s H) = turnField π (turnSign K π * s) (curlH H) := by
  funext p c
  obtain ⟨c, rfl⟩ := π.surjective c
  rw [curlH_axes_sum, sum_turn (π := π)]
  simp only [turnField, Equiv.symm_apply_apply, curlH_axes_sum, dDn_turn, tripleSign_turn, Finset.mul_sum, Int.cast_mul, turnSign]
  refine Finset.sum_congr rfl fun a _ => Finset.sum_congr rfl fun b _ => by ring

lemma phiOf_turn (s : K) (psi : Fin 3 → VField K) :
    phiOf (fun m => turnField π s (psi (π.symm m))) = turnField π (turnSign K π * s) (phiOf psi) := by
  funext p c
  obtain ⟨c, rfl⟩ := π.surjective c
  rw [phiOf_axes_sum, sum_turn (π := π)]
  simp only [turnField, Equiv.symm_apply_apply, phiOf_axes_sum, tripleSign_turn, Finset.mul_sum, Int.cast_mul, turnSign]
  refine Finset.sum_congr rfl fun a _ => Finset.sum_congr rfl fun b _ => by ring

/-! ### boundaries -/

lemma partner_turn (π : Perm (Fin 3)) (m d : Fin 3) : psiPartner (π m) (π d) = (psiPartner m d).map π := by
  revert π m d
  decide +kernel

lemma Pml.offset_turn (n : Pos) (P : Pml K) : (P.turn π).offset (turnPos π n) = P.offset n := by
  simp [Pml.offset, Pml.turn, turnPos]

lemma Pml.shape_turn (n : Pos) (P : Pml K) : (P.turn π).shape (turnPos π n) = turnPos π (P.shape n) := (turn_update _ _ _).symm

lemma Pml.toGlobal_turn (n : Pos) (P : Pml K) (q : Pos) : unturnPos π ((P.turn π).toGlobal (turnPos π n) q) = P.toGlobal n (unturnPos π q) := by
  unfold Pml.toGlobal
  rw [Pml.offset_turn]
  exact unturn_update _ _ _

lemma Pml.toLocal_turn (n : Pos) (P : Pml K) (q : Pos) : unturnPos π ((P.turn π).toLocal (turnPos π n) q) = P.toLocal n (unturnPos π q) := by
  unfold Pml.toLocal
  rw [Pml.offset_turn]
  exact unturn_update _ _ _

lemma Pml.inside_turn (n : Pos) (P : Pml K) (p : Pos) : (P.turn π).inside (turnPos π n) p ↔ P.inside n (unturnPos π p) := by
  unfold Pml.inside
  rw [Pml.offset_turn]
  rfl

lemma Pml.view_turn (n : Pos) (P : Pml K) (s : K) (F : VField K) :
    (P.turn π).view (turnPos π n) (turnField π s F) = turnField π s (P.view n F) := by
  funext q c
  unfold Pml.view turnField
  rw [Pml.toGlobal_turn]

lemma psiENew_turn (n : Pos) (H : VField K) (P : Pml K) :
    psiENew (turnPos π n) (turnField π (turnSign K π) H) (P.turn π) = fun m => turnField π (turnSign K π) (psiENew n H P (π.symm m)) := by
  funext m q d
  obtain ⟨m, rfl⟩ := π.surjective m
  obtain ⟨d, rfl⟩ := π.surjective d
  simp only [psiENew, partner_turn, Pml.view_turn, Equiv.symm_apply_apply, turnField]
  cases psiPartner m d with
  | none => simp only [Option.map_none, Pml.turn, turnField, Equiv.symm_apply_apply]; ring
  | some f =>
    simp only [Option.map_some, Pml.turn, Equiv.symm_apply_apply]
    have := dDn_turn (π := π) (turnSign K π) (P.view n H) d f q
    unfold turnField at this ⊢
    rw [this]
    simp only [Equiv.symm_apply_apply]
    ring

lemma psiHNew_turn (n : Pos) (E : VField K) (P : Pml K) :
    psiHNew (turnPos π n) (turnField π 1 E) (P.turn π) = fun m => turnField π 1 (psiHNew n E P (π.symm m)) := by
  funext m q d
  obtain ⟨m, rfl⟩ := π.surjective m
  obtain ⟨d, rfl⟩ := π.surjective d
  simp only [psiHNew, partner_turn, Pml.view_turn, Pml.shape_turn, Equiv.symm_apply_apply, turnField]
  cases psiPartner m d with
  | none => simp only [Option.map_none, Pml.turn, turnField, Equiv.symm_apply_apply]; ring
  | some f =>
    simp only [Option.map_some, Pml.turn, Equiv.symm_apply_apply]
    have := dUp_turn (π := π) (P.shape n) 1 (P.view n E) d f q
    unfold turnField at this ⊢
    rw [this]
    simp only [Equiv.symm_apply_apply]
    ring

lemma FBoundary.phiE_turn (n : Pos) (H : VField K) (b : FBoundary K) :
    (b.turn π).updatePhiE (turnPos π n) (turnField π (turnSign K π) H) = (b.updatePhiE n H).turn π := by
  cases b with
  | periodic a => rfl
  | pml P =>
    simp only [FBoundary.turn, FBoundary.updatePhiE, Pml.updatePhiE, psiENew_turn, phiOf_turn, sign_mul_self]
    rfl

lemma FBoundary.phiH_turn (n : Pos) (E : VField K) (b : FBoundary K) :
    (b.turn π).updatePhiH (turnPos π n) (turnField π 1 E) = (b.updatePhiH n E).turn π := by
  cases b with
  | periodic a => rfl
  | pml P =>
    simp only [FBoundary.turn, FBoundary.updatePhiH, Pml.updatePhiH, psiHNew_turn, phiOf_turn, mul_one]
    rfl

lemma FBoundary.updateE_turn (n : Pos) (co : K) (ie : VField K) (b : FBoundary K) (E : VField K) :
    (b.turn π).updateE (turnPos π n) co (turnField π 1 ie) (turnField π 1 E) = turnField π 1 (b.updateE n co ie E) := by
  funext p c
  cases b with
  | periodic a =>
    have h : turnPos π n (π a) = n a := by simp [turnPos]
    simp only [FBoundary.turn, FBoundary.updateE, periodicE, turnField, one_mul, h, unturn_update]
    rfl
  | pml P =>
    simp only [FBoundary.turn, FBoundary.updateE, Pml.updateE, Pml.inside_turn, turnField, one_mul]
    split
    · simp only [Pml.turn, turnField, one_mul]
      have := Pml.toLocal_turn (π := π) n P p
      simp only [Pml.turn] at this
      rw [this]
    · rfl

lemma FBoundary.updateH_turn (n : Pos) (co : K) (im : VField K) (b : FBoundary K) (H : VField K) :
    (b.turn π).updateH (turnPos π n) co (turnField π 1 im) (turnField π (turnSign K π) H) = turnField π (turnSign K π) (b.updateH n co im H) := by
  funext p c
  cases b with
  | periodic a =>
    have h : turnPos π n (π a) = n a := by simp [turnPos]
    simp only [FBoundary.turn, FBoundary.updateH, periodicH, turnField, h, unturn_update]
    show (if p (π a) = n a - 1 then _ else _) = _ * (if p (π a) = n a - 1 then _ else _)
    split <;> rfl
  | pml P =>
    simp only [FBoundary.turn, FBoundary.updateH, Pml.updateH, Pml.inside_turn, turnField, one_mul]
    split
    · simp only [Pml.turn, turnField]
      have := Pml.toLocal_turn (π := π) n P p
      simp only [Pml.turn] at this
      rw [this]
      ring
    · rfl

/-! ### sources and detectors -/

lemma FSource.updateE_turn (t : ℕ) (s : FSource K) (E : VField K) :
    (s.turn π).updateE t (turnField π 1 E) = turnField π 1 (s.updateE t E) := by
  funext p c
  cases s with
  | soft d => simp [FSource.turn, FSource.updateE, turnField]
  | plane cells e h v =>
    obtain ⟨c, rfl⟩ := π.surjective c
    simp [FSource.turn, FSource.updateE, turnField]

lemma FSource.updateH_turn (t : ℕ) (s : FSource K) (H : VField K) (hs : Perm.sign π = 1 ∨ ∃ d, s = .soft d) :
    (s.turn π).updateH t (turnField π (turnSign K π) H) = turnField π (turnSign K π) (s.updateH t H) := by
  funext p c
  cases s with
  | soft d => rfl
  | plane cells e h v =>
    obtain hs | ⟨d, hd⟩ := hs
    · obtain ⟨c, rfl⟩ := π.surjective c
      simp [FSource.turn, FSource.updateH, turnField, turnSign, hs]
    · simp at hd

lemma FDetector.detectE_turn (E : VField K) (d : FDetector K) :
    (d.turn π).detectE (turnField π 1 E) = (d.detectE E).turn π := by
  simp only [FDetector.turn, FDetector.detectE, List.map_append, List.map_map, List.map_cons, List.map_nil]
  congr 3
  refine List.map_congr_left fun p _ => ?_
  funext c
  simp [turnField, unturn_turn]

lemma FDetector.detectH_turn (H : VField K) (d : FDetector K) :
    (d.turn π).detectH (turnField π (turnSign K π) H) = (d.detectH H).turn π := by
  simp only [FDetector.turn, FDetector.detectH, List.map_append, List.map_map, List.map_cons, List.map_nil]
  congr 3
  refine List.map_congr_left fun p _ => ?_
  funext c
  simp [turnField, unturn_turn]

/-! ### the step -/

lemma bulkE_turn (g : FGrid K) : bulkE (g.turn π) = turnField π 1 (bulkE g) := by
  funext p c
  unfold bulkE
  simp only [FGrid.turn, curlH_turn, sign_mul_self]
  simp only [turnField, one_mul]

lemma bulkH_turn (g : FGrid K) : bulkH (g.turn π) = turnField π (turnSign K π) (bulkH g) := by
  funext p c
  unfold bulkH
  simp only [FGrid.turn, curlE_turn, mul_one]
  simp only [turnField, one_mul]
  ring

lemma phasedE_turn (g : FGrid K) : (g.turn π).phasedE = g.phasedE.map (FBoundary.turn π) := by
  simp only [FGrid.phasedE, FGrid.turn, List.map_map]
  exact List.map_congr_left fun b _ => FBoundary.phiE_turn g.n g.H b

lemma phasedH_turn (g : FGrid K) : (g.turn π).phasedH = g.phasedH.map (FBoundary.turn π) := by
  simp only [FGrid.phasedH, FGrid.turn, List.map_map]
  exact List.map_congr_left fun b _ => FBoundary.phiH_turn g.n g.E b

lemma boundariesE_turn (n : Pos) (co : K) (ie : VField K) (bs : List (FBoundary K)) (E : VField K) :
    applyBoundariesE (turnPos π n) co (turnField π 1 ie) (bs.map (FBoundary.turn π)) (turnField π 1 E) = turnField π 1 (applyBoundariesE n co ie bs E) := by
  induction bs generalizing E with
  | nil => rfl
  | cons b bs ih =>
    simp only [applyBoundariesE, List.map_cons, List.foldl_cons] at ih ⊢
    rw [FBoundary.updateE_turn]
    exact ih _

lemma boundariesH_turn (n : Pos) (co : K) (im : VField K) (bs : List (FBoundary K)) (H : VField K) :
    applyBoundariesH (turnPos π n) co (turnField π 1 im) (bs.map (FBoundary.turn π)) (turnField π (turnSign K π) H) =
      turnField π (turnSign K π) (applyBoundariesH n co im bs H) := by
  induction bs generalizing H with
  | nil => rfl
  | cons b bs ih =>
    simp only [applyBoundariesH, List.map_cons, List.foldl_cons] at ih ⊢
    rw [FBoundary.updateH_turn]
    exact ih _

lemma sourcesE_turn (t : ℕ) (ss : List (FSource K)) (E : VField K) :
    applySourcesE t (ss.map (FSource.turn π)) (turnField π 1 E) = turnField π 1 (applySourcesE t ss E) := by
  induction ss generalizing E with
  | nil => rfl
  | cons s ss ih =>
    simp only [applySourcesE, List.map_cons, List.foldl_cons] at ih ⊢
    rw [FSource.updateE_turn]
    exact ih _

lemma sourcesH_turn (t : ℕ) (ss : List (FSource K)) (H : VField K) (hs : Perm.sign π = 1 ∨ AllSoft ss) :
    applySourcesH t (ss.map (FSource.turn π)) (turnField π (turnSign K π) H) = turnField π (turnSign K π) (applySourcesH t ss H) := by
  induction ss generalizing H with
  | nil => rfl
  | cons s ss ih =>
    simp only [applySourcesH, List.map_cons, List.foldl_cons] at ih ⊢
    rw [FSource.updateH_turn t s H (hs.imp_right fun h => h s (by simp))]
    exact ih _ (hs.imp_right fun h s' hs' => h s' (List.mem_cons_of_mem _ hs'))

lemma updateE_turn (g : FGrid K) : (g.turn π).updateE = g.updateE.turn π := by
  have hE : (g.turn π).newE = turnField π 1 g.newE := by
    unfold FGrid.newE
    rw [phasedE_turn, bulkE_turn]
    show applySourcesE g.time (g.sources.map (FSource.turn π)) (applyBoundariesE (turnPos π g.n) g.courant (turnField π 1 g.invEps) _ _) = _
    rw [boundariesE_turn, sourcesE_turn]
  unfold FGrid.updateE
  rw [hE, phasedE_turn]
  simp only [FGrid.turn, List.map_map]
  congr 1
  exact List.map_congr_left fun d _ => FDetector.detectE_turn _ d

lemma updateH_turn (g : FGrid K) (hs : Perm.sign π = 1 ∨ AllSoft g.sources) : (g.turn π).updateH = g.updateH.turn π := by
  have hH : (g.turn π).newH = turnField π (turnSign K π) g.newH := by
    unfold FGrid.newH
    rw [phasedH_turn, bulkH_turn]
    show applySourcesH g.time (g.sources.map (FSource.turn π)) (applyBoundariesH (turnPos π g.n) g.courant (turnField π 1 g.invMu) _ _) = _
    rw [boundariesH_turn, sourcesH_turn _ _ _ hs]
  unfold FGrid.updateH
  rw [hH, phasedH_turn]
  simp only [FGrid.turn, List.map_map]
  congr 1
  exact List.map_congr_left fun d _ => FDetector.detectH_turn _ d

/-- C163: exchanging the axes of a simulation - of the cells, the materials, the boundaries, the sources, the detectors and the fields - and then running it is the same as running it and then exchanging the axes of
everything, including the memories of the absorbing layers and the recordings. Rotations of the axes may contain any sources; for exchanges of two axes the sources have to be point and line sources (a plane source sets the
electric and the magnetic field to the same value, which fixes the handedness). -/
theorem C163_axes (π : Perm (Fin 3)) (g : FGrid K) (hs : Perm.sign π = 1 ∨ AllSoft g.sources) (k : ℕ) : (g.turn π).run k = (g.run k).turn π := by
  induction k with
  | zero => rfl
  | succ k ih =>
    have hss : (g.run k).updateE.sources = g.sources := by
      clear ih
      induction k with
      | zero => rfl
      | succ k ih => exact ih
    rw [FGrid.run, FGrid.run, ih, FGrid.step, FGrid.step, updateE_turn, updateH_turn _ (by rwa [hss])]
    rfl

end

/-! ### what a user builds -/

/-- C163: a fresh grid with exchanged axes is a fresh grid. -/
theorem C163_fresh {K : Type} [Field K] (π : Perm (Fin 3)) (n : Pos) (courant ε μ : K) : (FGrid.fresh n courant ε μ).turn π = FGrid.fresh (turnPos π n) courant ε μ := by
  unfold FGrid.fresh FGrid.turn
  congr 1 <;> funext p c <;> simp [turnField]

/-- C163: an absorbing layer on one side is, after the axes are exchanged, the absorbing layer that the code builds on the corresponding side: same thickness, same parameters. -/
theorem C163_layer (π : Perm (Fin 3)) (axis : Fin 3) (high : Bool) (thick : ℕ) (a courant : ℝ) :
    (mkPml axis high thick a courant).turn π = mkPml (π axis) high thick a courant := by
  have h : ∀ (f : ℝ → ℝ) (pr : ℕ → ℝ), turnField π 1 (fun q c => f (sigmaField axis pr q c)) = fun q c => f (sigmaField (π axis) pr q c) := by
    intro f pr
    funext q c
    obtain ⟨c, rfl⟩ := π.surjective c
    simp [turnField, sigmaField, unturnPos]
  unfold mkPml Pml.turn
  simp only [h]
  congr 1 <;> funext <;> simp [turnField]

section
variable {K : Type} [Field K]

lemma addEz_turn {π : Perm (Fin 3)} (hz : π 2 = 2) (E : VField K) (p : Pos) (v : K) :
    turnField π 1 (addEz E p v) = addEz (turnField π 1 E) (turnPos π p) v := by
  funext q c
  obtain ⟨c, rfl⟩ := π.surjective c
  have h1 : unturnPos π q = p ↔ q = turnPos π p := by
    constructor
    · rintro rfl
      funext a
      simp [unturnPos, turnPos]
    · rintro rfl
      exact unturn_turn p
  have h2 : π c = 2 ↔ c = 2 := by
    rw [← hz, EmbeddingLike.apply_eq_iff_eq, hz]
  simp only [turnField, addEz, one_mul, h1, h2, Equiv.symm_apply_apply]

lemma lineUpdateE_turn {π : Perm (Fin 3)} (hz : π 2 = 2) (cells : List Pos) (profile : List K) (w : K) (E : VField K) :
    turnField π 1 (lineUpdateE cells profile w E) = lineUpdateE (cells.map (turnPos π)) profile w (turnField π 1 E) := by
  unfold lineUpdateE
  rw [List.zip_map_left]
  generalize cells.zip (profile.map fun v => v * w) = l
  induction l generalizing E with
  | nil => rfl
  | cons x l ih =>
    simp only [List.foldl_cons, List.map_cons]
    rw [ih, addEz_turn hz]
    rfl

end

/-- the exchange of x and y -/
def swapXY : Perm (Fin 3) := Equiv.swap 0 1

/-- x and y of the index lists exchanged -/
def IndexLists.swapXY (l : IndexLists) : IndexLists := ⟨l.y, l.x, l.z⟩

def swapTriple (t : ℤ × ℤ × ℤ) : ℤ × ℤ × ℤ := (t.2.1, t.1, t.2.2)

lemma triples_swap (l : IndexLists) : l.swapXY.triples = l.triples.map swapTriple := by
  obtain ⟨x, y, z⟩ := l
  simp only [IndexLists.swapXY, IndexLists.triples]
  induction x generalizing y z with
  | nil => cases y <;> simp
  | cons a x ih =>
    cases y with
    | nil => simp
    | cons b y =>
      cases z with
      | nil => simp
      | cons c z =>
        simp only [List.zip_cons_cons, List.map_cons]
        rw [ih]
        rfl

lemma lineSpan_swap (m : ℕ) (n : Pos) (kx ky kz : AxisKey) (l : IndexLists) (h : lineSpan m n kx ky kz = .ok l) :
    lineSpan m (turnPos swapXY n) ky kx kz = .ok l.swapXY := by
  unfold lineSpan at h ⊢
  obtain ⟨bx, h1, h⟩ := bind_ok.1 h
  obtain ⟨b', h2, h⟩ := bind_ok.1 h
  obtain ⟨bz, h3, h⟩ := bind_ok.1 h
  have e0 : turnPos swapXY n 0 = n 1 := rfl
  have e1 : turnPos swapXY n 1 = n 0 := rfl
  have e2 : turnPos swapXY n 2 = n 2 := rfl
  have e3 : linePoints b' bx bz = linePoints bx b' bz := by
    unfold linePoints
    rw [max_comm (b'.2 - b'.1).natAbs]
  rw [e0, e1, e2, h2, ok_bind, h1, ok_bind, h3, ok_bind]
  simp only [e3] at h ⊢
  split at h
  · simp at h
  · rename_i hm
    obtain ⟨xs, i1, h⟩ := bind_ok.1 h
    obtain ⟨ys, i2, h⟩ := bind_ok.1 h
    obtain ⟨zs, i3, h⟩ := bind_ok.1 h
    rw [if_neg hm, i2, ok_bind, i1, ok_bind, i3, ok_bind]
    cases h
    rfl

lemma lineIndices_swap (m : ℕ) (n : Pos) (kx ky kz : AxisKey) (l : IndexLists) (h : lineIndices m n kx ky kz = .ok l) :
    lineIndices m (turnPos swapXY n) ky kx kz = .ok l.swapXY := by
  unfold lineIndices at h ⊢
  split at h
  · rename_i xs ys zs
    split at h
    · simp at h
    · rename_i hl
      cases h
      rw [if_neg (by
        intro h
        rcases h with h | h
        · exact hl (.inl (Ne.symm h))
        · by_cases h' : xs.length = ys.length
          · exact hl (.inr (by rw [← h']; exact h))
          · exact hl (.inl h'))]
      rfl
  · rename_i hn
    have := lineSpan_swap m n kx ky kz l h
    split
    · rename_i xs ys zs
      exact absurd rfl (hn _ _ _ rfl rfl)
    · exact this

lemma torchCell_swap (n : Pos) (t : ℤ × ℤ × ℤ) (p : Pos) (h : torchCell n t = .ok p) : torchCell (turnPos swapXY n) (swapTriple t) = .ok (turnPos swapXY p) := by
  unfold torchCell at h ⊢
  obtain ⟨x, h1, h⟩ := bind_ok.1 h
  obtain ⟨y, h2, h⟩ := bind_ok.1 h
  obtain ⟨z, h3, h⟩ := bind_ok.1 h
  have e0 : turnPos swapXY n 0 = n 1 := rfl
  have e1 : turnPos swapXY n 1 = n 0 := rfl
  have e2 : turnPos swapXY n 2 = n 2 := rfl
  simp only [swapTriple, e0, e1, e2]
  rw [h2, ok_bind, h1, ok_bind, h3, ok_bind]
  cases h
  congr 1
  funext a
  fin_cases a <;> rfl

lemma lineCells_swap (n : Pos) (l : IndexLists) (cs : List Pos) (h : lineCells n l = .ok cs) :
    lineCells (turnPos swapXY n) l.swapXY = .ok (cs.map (turnPos swapXY)) := by
  unfold lineCells at h ⊢
  rw [triples_swap]
  generalize l.triples = ts at h
  induction ts generalizing cs with
  | nil => cases h; rfl
  | cons t ts ih =>
    rw [List.mapM_cons] at h
    obtain ⟨p, h1, h⟩ := bind_ok.1 h
    obtain ⟨ps, h2, h⟩ := bind_ok.1 h
    cases h
    rw [List.map_cons, List.mapM_cons, torchCell_swap n t p h1, ok_bind, ih ps h2, ok_bind]
    rfl

lemma lineProfile_swap (ts : List (ℤ × ℤ × ℤ)) (A : ℝ) : lineProfile (ts.map swapTriple) A = lineProfile ts A := by
  have hd : ∀ p q, tripleDist (swapTriple p) (swapTriple q) = tripleDist p q := fun p q => by
    simp only [tripleDist, swapTriple]; ring
  unfold lineProfile
  rw [List.length_map, List.getElem?_map]
  cases ts[ts.length / 2]? with
  | none => rfl
  | some c => simp only [Option.map_some, List.map_map, Function.comp_def, hd]

/-- C163: `grid[y, x, z] = LineSource(...)` on the grid with x and y exchanged places the source of `grid[x, y, z] = LineSource(...)` with exchanged axes - the same cells with the same profile -, and in every step it adds the
same field with exchanged axes. -/
theorem C163_line_source (n : Pos) (s : SourceSpec) (kx ky kz : AxisKey) (cells : List Pos) (profile : List ℝ) (h : placeLineSource n s kx ky kz = .ok (cells, profile)) :
    placeLineSource (turnPos swapXY n) s ky kx kz = .ok (cells.map (turnPos swapXY), profile) ∧
      ∀ (w : ℝ) (E : VField ℝ), lineUpdateE (cells.map (turnPos swapXY)) profile w (turnField swapXY 1 E) = turnField swapXY 1 (lineUpdateE cells profile w E) := by
  refine ⟨?_, fun w E => (lineUpdateE_turn (by decide) cells profile w E).symm⟩
  unfold placeLineSource at h ⊢
  obtain ⟨l, h1, h⟩ := bind_ok.1 h
  obtain ⟨pr, h2, h⟩ := bind_ok.1 h
  obtain ⟨cs, h3, h⟩ := bind_ok.1 h
  cases h
  rw [show lineSourceIndices (turnPos swapXY n) ky kx kz = .ok l.swapXY from lineIndices_swap 2 n kx ky kz l h1, ok_bind, triples_swap, lineProfile_swap, h2, ok_bind, lineCells_swap n l _ h3, ok_bind]

/-- C163: the same for point sources. -/
theorem C163_point_source (n : Pos) (kx ky kz : AxisKey) (cell : Pos) (h : placePointSource n kx ky kz = .ok cell) :
    placePointSource (turnPos swapXY n) ky kx kz = .ok (turnPos swapXY cell) ∧
      ∀ (v : ℝ) (E : VField ℝ), addEz (turnField swapXY 1 E) (turnPos swapXY cell) v = turnField swapXY 1 (addEz E cell v) := by
  refine ⟨?_, fun v E => (addEz_turn (by decide) E cell v).symm⟩
  unfold placePointSource at h
  split at h
  · exact torchCell_swap n _ _ h
  · simp at h

/-- C163: the same for line detectors. -/
theorem C163_line_detector (n : Pos) (kx ky kz : AxisKey) (l : IndexLists) (cells : List Pos) (h : lineDetectorIndices n kx ky kz = .ok l) (hc : lineCells n l = .ok cells) :
    ∃ l', lineDetectorIndices (turnPos swapXY n) ky kx kz = .ok l' ∧ lineCells (turnPos swapXY n) l' = .ok (cells.map (turnPos swapXY)) :=
  ⟨_, lineIndices_swap 0 n kx ky kz l h, lineCells_swap n l cells hc⟩

/-- one cell with a plane source of polarisation z -/
def planeCell : FGrid ℚ := { FGrid.fresh ![1, 1, 1] (1 / 2) 1 1 with sources := [.plane (fun _ => true) 2 1 fun _ => 1] }

/-- C163 is false for plane sources when two axes are exchanged: after one step the magnetic field has the wrong sign. -/
theorem C163_plane_breaks : ∃ (π : Perm (Fin 3)) (g : FGrid ℚ), (g.turn π).run 1 ≠ (g.run 1).turn π := by
  refine ⟨swapXY, planeCell, fun h => ?_⟩
  have := congrArg (fun g => g.H ![0, 0, 0] 0) h
  revert this
  decide +kernel

/-- Hypotheses of `C163_axes`: an absorbing layer, a periodic side and a source in a grid of 12 x 3 x 1 cells; the field of the exchanged grid is lit. -/
example : AllSoft toyGrid.sources ∧ ((toyGrid.turn swapXY).run 4).E ![1, 8, 0] 2 = (toyGrid.run 4).E ![8, 1, 0] 2 ∧ (toyGrid.run 4).E ![8, 1, 0] 2 ≠ 0 := by
  have hs : AllSoft toyGrid.sources := fun s hs => ⟨_, List.mem_singleton.1 hs⟩
  refine ⟨hs, ?_, by decide +kernel⟩
  rw [C163_axes swapXY toyGrid (.inr hs)]
  decide +kernel

/-- Hypotheses of `C163_line_detector`: a line across a grid. -/
example : ∃ cells, lineDetectorIndices ![5, 4, 1] (.list [2]) (.slice ⟨none, none, none⟩) (.slice ⟨none, none, none⟩) = .ok ⟨[2, 2, 2, 2], [0, 1, 2, 3], [0, 0, 0, 0]⟩ ∧
    lineCells ![5, 4, 1] ⟨[2, 2, 2, 2], [0, 1, 2, 3], [0, 0, 0, 0]⟩ = .ok cells := by
  refine ⟨_, by decide +kernel, rfl⟩

/-- Hypotheses of `C163_line_source`: the same line as a source. -/
example (s : SourceSpec) : ∃ profile, placeLineSource ![5, 4, 1] s (.list [2]) (.slice ⟨none, none, none⟩) (.slice ⟨none, none, none⟩) = .ok ([![2, 0, 0], ![2, 1, 0], ![2, 2, 0], ![2, 3, 0]], profile) := by
  have h1 : lineSourceIndices ![5, 4, 1] (.list [2]) (.slice ⟨none, none, none⟩) (.slice ⟨none, none, none⟩) = .ok ⟨[2, 2, 2, 2], [0, 1, 2, 3], [0, 0, 0, 0]⟩ := by decide +kernel
  have h2 : lineCells ![5, 4, 1] ⟨[2, 2, 2, 2], [0, 1, 2, 3], [0, 0, 0, 0]⟩ = .ok [![2, 0, 0], ![2, 1, 0], ![2, 2, 0], ![2, 3, 0]] := rfl
  have h3 : ∃ pr, lineProfile (IndexLists.triples ⟨[2, 2, 2, 2], [0, 1, 2, 3], [0, 0, 0, 0]⟩) s.amplitude = .ok pr := by
    simp [lineProfile, IndexLists.triples, tripleDist, maxDist]
  obtain ⟨pr, h3⟩ := h3
  refine ⟨pr, ?_⟩
  unfold placeLineSource
  rw [h1, ok_bind, h3, ok_bind, h2, ok_bind]

/-- Hypotheses of `C163_point_source`. -/
example : placePointSource ![5, 4, 1] (.list [2]) (.list [-1]) (.list [0]) = .ok ![2, 3, 0] := rfl

end Nidn
