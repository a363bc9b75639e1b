/-
C165: exchanging source and receiver of an FDTD simulation leaves the recorded signal the same.
-/
import Verif.Lemmas.FdtdSeries
import Verif.Props.FdtdStretch
import Verif.Props.FdtdPieces
import Verif.Model.FdtdSources
import Verif.Props.FdtdStack
import Verif.Props.FdtdObjects

set_option linter.unusedSectionVars false

namespace Nidn

open Finset

/-! ### Specification -/

/-- a layer with the coefficients `PML._calculate_parameters` gives it; its memories are arbitrary -/
def IsLayer (courant : ℝ) (P : Pml ℝ) : Prop := ∃ a, 0 < a ∧ P.bE = (mkPml P.axis P.high P.thick a courant).bE ∧ P.cE = (mkPml P.axis P.high P.thick a courant).cE ∧
  P.bH = (mkPml P.axis P.high P.thick a courant).bH ∧ P.cH = (mkPml P.axis P.high P.thick a courant).cH

/-- A grid with absorbing layers `ls`, placed before the periodic boundaries on the axes `as` (the order of init_fdtd.py); on every other side it just ends. Layers lie on axes that are not periodic,
two layers on the same axis do not overlap (layers on different axes may), and nothing conducts inside a layer. -/
structure LayeredGrid (g : FGrid ℝ) (ls : List (Pml ℝ)) (as : List (Fin 3)) : Prop where
  boundaries : g.boundaries = ls.map FBoundary.pml ++ as.map FBoundary.periodic
  periodic : ∀ a ∈ as, 2 ≤ g.n a
  layer : ∀ P ∈ ls, IsLayer g.courant P
  axis : ∀ P ∈ ls, P.axis ∉ as
  fits : ∀ P ∈ ls, P.thick ≤ g.n P.axis
  apart : ls.Pairwise fun P Q => P.axis = Q.axis → ∀ p, ¬ (layerHas g.n P.axis P.high P.thick p ∧ layerHas g.n Q.axis Q.high Q.thick p)
  clear : ∀ P ∈ ls, ∀ p ∈ box g.n, layerHas g.n P.axis P.high P.thick p → ∀ c, g.absorb p c = 0
  courant : 0 < g.courant

/-- no cell has an infinite permittivity or permeability or the absorption −1 -/
def SoundMedium (g : FGrid ℝ) : Prop := ∀ p ∈ box g.n, ∀ c, g.invEps p c ≠ 0 ∧ g.invMu p c ≠ 0 ∧ 1 + g.absorb p c ≠ 0

/-- A place for a source: a profile that lies outside the layers and off the walls and gives identified planes the same value. -/
structure Profile (g : FGrid ℝ) (ls : List (Pml ℝ)) (as : List (Fin 3)) (u : VField ℝ) : Prop where
  wraps : ∀ p ∈ box g.n, ∀ c, u p c = u ((torusOf g.n as).wrap p) c
  outside : ∀ P ∈ ls, ∀ p, layerHas g.n P.axis P.high P.thick p → ∀ c, u p c = 0
  off : ∀ a, a ∉ as → g.n a ≠ 1 → ∀ p ∈ box g.n, p a = 0 ∨ p a + 1 = g.n a → ∀ c, u p c = 0

/-- the grid with one more soft source: the signal `s` fed through the profile `u` -/
def FGrid.fed (g : FGrid ℝ) (s : ℕ → ℝ) (u : VField ℝ) : FGrid ℝ := { g with sources := .soft (fun t p c => s t * u p c) :: g.sources }

/-- what the additional source has done to the electric field after `k` steps -/
noncomputable def effectE (g : FGrid ℝ) (s : ℕ → ℝ) (u : VField ℝ) (k : ℕ) : VField ℝ := fun p c => ((g.fed s u).run k).E p c - (g.run k).E p c

/-- what it has done to the magnetic field -/
noncomputable def effectH (g : FGrid ℝ) (s : ℕ → ℝ) (u : VField ℝ) (k : ℕ) : VField ℝ := fun p c => ((g.fed s u).run k).H p c - (g.run k).H p c

/-! ### Kernels of the layers -/

/-- kernel of the electric memory of a layer in plane `i` of its axis; nothing in its first plane -/
def layerKernelE (n : Pos) (P : Pml ℝ) (i lag : ℕ) : ℝ :=
  if P.offset n < i ∧ i < P.offset n + P.thick then P.cE (fun _ => i - P.offset n) P.axis * P.bE (fun _ => i - P.offset n) P.axis ^ lag else 0

/-- kernel of the magnetic memory; nothing in its last plane -/
def layerKernelH (n : Pos) (P : Pml ℝ) (i lag : ℕ) : ℝ :=
  if P.offset n ≤ i ∧ i + 1 < P.offset n + P.thick then P.cH (fun _ => i - P.offset n) P.axis * P.bH (fun _ => i - P.offset n) P.axis ^ lag else 0

/-- all layers together -/
def kernelE (n : Pos) (ls : List (Pml ℝ)) (x : Fin 3) (i lag : ℕ) : ℝ :=
  Torus.plainKernel lag + (ls.map fun P => if P.axis = x then layerKernelE n P i lag else 0).sum

def kernelH (n : Pos) (ls : List (Pml ℝ)) (x : Fin 3) (i lag : ℕ) : ℝ :=
  Torus.plainKernel lag + (ls.map fun P => if P.axis = x then layerKernelH n P i lag else 0).sum

lemma convAt_plain (u : ℕ → ℝ) (k : ℕ) : Torus.convAt Torus.plainKernel u k = u k := by
  unfold Torus.convAt Torus.plainKernel
  rw [sum_range_succ, sum_eq_zero fun j hj => by rw [if_neg (by have := mem_range.1 hj; omega), zero_mul]]
  simp

lemma convAt_add (w w' u : ℕ → ℝ) (k : ℕ) : Torus.convAt (fun l => w l + w' l) u k = Torus.convAt w u k + Torus.convAt w' u k := by
  unfold Torus.convAt
  rw [← sum_add_distrib]
  exact sum_congr rfl fun j _ => by ring

lemma convAt_list (l : List (Pml ℝ)) (f : Pml ℝ → ℕ → ℝ) (u : ℕ → ℝ) (k : ℕ) :
    Torus.convAt (fun lag => (l.map fun P => f P lag).sum) u k = (l.map fun P => Torus.convAt (f P) u k).sum := by
  induction l with
  | nil => exact sum_eq_zero fun j _ => zero_mul _
  | cons P l ih =>
    simp only [List.map_cons, List.sum_cons]
    rw [convAt_add, ih]

lemma convAt_kernelE (n : Pos) (ls : List (Pml ℝ)) (x : Fin 3) (i : ℕ) (u : ℕ → ℝ) (k : ℕ) :
    Torus.convAt (kernelE n ls x i) u k = u k + (ls.map fun P => if P.axis = x then Torus.convAt (layerKernelE n P i) u k else 0).sum := by
  unfold kernelE
  rw [convAt_add, convAt_plain, convAt_list ls (fun P lag => if P.axis = x then layerKernelE n P i lag else 0)]
  congr 3
  funext P
  split_ifs
  · rfl
  · exact sum_eq_zero fun j _ => zero_mul _

lemma convAt_kernelH (n : Pos) (ls : List (Pml ℝ)) (x : Fin 3) (i : ℕ) (u : ℕ → ℝ) (k : ℕ) :
    Torus.convAt (kernelH n ls x i) u k = u k + (ls.map fun P => if P.axis = x then Torus.convAt (layerKernelH n P i) u k else 0).sum := by
  unfold kernelH
  rw [convAt_add, convAt_plain, convAt_list ls (fun P lag => if P.axis = x then layerKernelH n P i lag else 0)]
  congr 3
  funext P
  split_ifs
  · rfl
  · exact sum_eq_zero fun j _ => zero_mul _

/-! ### Differences of memories -/

lemma psiE_diff (n : Pos) (Hs Es Hs' Es' : ℕ → VField ℝ) (P : Pml ℝ) (m d f : Fin 3) (hf : psiPartner m d = some f) (q : Pos) (k : ℕ) :
    (P.after n Hs Es k).psiE m q d - (P.after n Hs' Es' k).psiE m q d
      = ∑ j ∈ range k, P.cE q d * P.bE q d ^ (k - 1 - j) * (dDn (P.view n (Hs j)) d f q - dDn (P.view n (Hs' j)) d f q) := by
  induction k with
  | zero => simp only [range_zero, sum_empty]; exact sub_self _
  | succ k ih =>
    show psiENew n (Hs k) (P.after n Hs Es k) m q d - psiENew n (Hs' k) (P.after n Hs' Es' k) m q d = _
    obtain ⟨s1, s2, s3, s4, s5, -⟩ := P.after_shape n Hs Es k
    obtain ⟨t1, t2, t3, t4, t5, -⟩ := P.after_shape n Hs' Es' k
    have hv : (P.after n Hs Es k).view n (Hs k) = P.view n (Hs k) := by
      unfold Pml.view Pml.toGlobal Pml.offset
      rw [s1, s2, s3]
    have hv' : (P.after n Hs' Es' k).view n (Hs' k) = P.view n (Hs' k) := by
      unfold Pml.view Pml.toGlobal Pml.offset
      rw [t1, t2, t3]
    unfold psiENew
    rw [hf]
    dsimp only
    rw [s4, s5, t4, t5, hv, hv', Nat.add_sub_cancel, ← conv_step, ← ih]
    ring

lemma psiH_diff (n : Pos) (Hs Es Hs' Es' : ℕ → VField ℝ) (P : Pml ℝ) (m d f : Fin 3) (hf : psiPartner m d = some f) (q : Pos) (k : ℕ) :
    (P.after n Hs Es k).psiH m q d - (P.after n Hs' Es' k).psiH m q d
      = ∑ j ∈ range k, P.cH q d * P.bH q d ^ (k - 1 - j) * (dUp (P.shape n) (P.view n (Es (j + 1))) d f q - dUp (P.shape n) (P.view n (Es' (j + 1))) d f q) := by
  induction k with
  | zero => simp only [range_zero, sum_empty]; exact sub_self _
  | succ k ih =>
    show psiHNew n (Es (k + 1)) ((P.after n Hs Es k).updatePhiE n (Hs k)) m q d - psiHNew n (Es' (k + 1)) ((P.after n Hs' Es' k).updatePhiE n (Hs' k)) m q d = _
    have aux : ∀ Hs Es : ℕ → VField ℝ, psiHNew n (Es (k + 1)) ((P.after n Hs Es k).updatePhiE n (Hs k)) m q d
        = (P.after n Hs Es k).psiH m q d * P.bH q d + dUp (P.shape n) (P.view n (Es (k + 1))) d f q * P.cH q d := by
      intro Hs Es
      obtain ⟨s1, s2, s3, -, -, s6, s7⟩ := P.after_shape n Hs Es k
      have hv : ((P.after n Hs Es k).updatePhiE n (Hs k)).view n (Es (k + 1)) = P.view n (Es (k + 1)) := by
        unfold Pml.view Pml.toGlobal Pml.offset
        show (fun q => Es (k + 1) (Function.update q (P.after n Hs Es k).axis (q (P.after n Hs Es k).axis + if (P.after n Hs Es k).high = true then n (P.after n Hs Es k).axis - (P.after n Hs Es k).thick else 0))) = _
        rw [s1, s2, s3]
      have hs : ((P.after n Hs Es k).updatePhiE n (Hs k)).shape n = P.shape n := by
        show Function.update n (P.after n Hs Es k).axis (P.after n Hs Es k).thick = _
        rw [s1, s3]
        rfl
      unfold psiHNew
      rw [hf, hv, hs]
      show (P.after n Hs Es k).psiH m q d * (P.after n Hs Es k).bH q d + _ * (P.after n Hs Es k).cH q d = _
      rw [s6, s7]
    rw [aux, aux, Nat.add_sub_cancel, ← conv_step, ← ih]
    ring

/-! ### One layer acting on one cell -/

lemma IsLayer.coeff {courant : ℝ} {P : Pml ℝ} (h : IsLayer courant P) (q : Pos) :
    P.cE q P.axis = P.cE (fun _ => q P.axis) P.axis ∧ P.bE q P.axis = P.bE (fun _ => q P.axis) P.axis ∧ P.cH q P.axis = P.cH (fun _ => q P.axis) P.axis ∧
      P.bH q P.axis = P.bH (fun _ => q P.axis) P.axis := by
  obtain ⟨a, -, h1, h2, h3, h4⟩ := h
  rw [h1, h2, h3, h4]
  exact ⟨rfl, rfl, rfl, rfl⟩

lemma IsLayer.off_axis {courant : ℝ} {P : Pml ℝ} (h : IsLayer courant P) (q : Pos) {d : Fin 3} (hd : d ≠ P.axis) : P.cE q d = 0 ∧ P.cH q d = 0 := by
  obtain ⟨a, -, -, h2, -, h4⟩ := h
  rw [h2, h4]
  constructor
  · show pmlC a courant (if d = P.axis then _ else 0) = 0
    rw [if_neg hd, pmlC_zero]
  · show pmlC a courant (if d = P.axis then _ else 0) = 0
    rw [if_neg hd, pmlC_zero]

/-- the electric memory of a layer in a cell inside it, as a convolution with the history of the derivative -/
lemma memE_cell (n : Pos) {courant : ℝ} {P : Pml ℝ} (hP : IsLayer courant P) (D : ℕ → VField ℝ) (p : Pos) (hin : P.inside n p) (d f : Fin 3) (k : ℕ) :
    ∑ j ∈ range (k + 1), P.cE (P.toLocal n p) d * P.bE (P.toLocal n p) d ^ (k - j) * dDn (P.view n (D j)) d f (P.toLocal n p)
      = if P.axis = d then Torus.convAt (layerKernelE n P (p d)) (fun j => dDn (D j) d f p) k else 0 := by
  split_ifs with hd
  · subst hd
    obtain ⟨c1, c2, -, -⟩ := hP.coeff (P.toLocal n p)
    rw [c1, c2, toLocal_axis]
    unfold Torus.convAt
    refine sum_congr rfl fun j _ => ?_
    unfold layerKernelE
    have hlt := hin.2
    by_cases h : P.offset n < p P.axis
    · rw [if_pos ⟨h, hlt⟩]
      congr 1
      show dDn _ _ _ _ = dDn _ _ _ _
      unfold dDn
      rw [toLocal_axis, if_pos (show 1 ≤ p P.axis - P.offset n by omega), if_pos (show 1 ≤ p P.axis by omega)]
      unfold Pml.view
      rw [stretch_local n P p hin, stretch_dn n P p (by omega)]
      rfl
    · rw [if_neg (fun hh => h hh.1)]
      unfold dDn
      rw [toLocal_axis, if_neg (show ¬ 1 ≤ p P.axis - P.offset n by omega)]
      ring
  · refine sum_eq_zero fun j _ => ?_
    rw [(hP.off_axis (P.toLocal n p) (Ne.symm hd)).1]; ring

/-- the magnetic memory likewise -/
lemma memH_cell (n : Pos) {courant : ℝ} {P : Pml ℝ} (hP : IsLayer courant P) (hfit : P.thick ≤ n P.axis) (D : ℕ → VField ℝ) (p : Pos) (hin : P.inside n p) (d f : Fin 3) (k : ℕ) :
    ∑ j ∈ range (k + 1), P.cH (P.toLocal n p) d * P.bH (P.toLocal n p) d ^ (k - j) * dUp (P.shape n) (P.view n (D j)) d f (P.toLocal n p)
      = if P.axis = d then Torus.convAt (layerKernelH n P (p d)) (fun j => dUp n (D j) d f p) k else 0 := by
  split_ifs with hd
  · subst hd
    obtain ⟨-, -, c3, c4⟩ := hP.coeff (P.toLocal n p)
    rw [c3, c4, toLocal_axis]
    unfold Torus.convAt
    refine sum_congr rfl fun j _ => ?_
    unfold layerKernelH
    have hle := hin.1
    have hsh : P.shape n P.axis = P.thick := by unfold Pml.shape; rw [Function.update_self]
    have hoff : P.offset n + P.thick ≤ n P.axis := by
      unfold Pml.offset
      split_ifs <;> omega
    by_cases h : p P.axis + 1 < P.offset n + P.thick
    · rw [if_pos ⟨hle, h⟩]
      congr 1
      show dUp _ _ _ _ _ = dUp _ _ _ _ _
      unfold dUp
      rw [toLocal_axis, hsh, if_pos (show p P.axis - P.offset n + 1 < P.thick by omega), if_pos (show p P.axis + 1 < n P.axis by omega)]
      unfold Pml.view
      rw [stretch_local n P p hin, stretch_up n P p hin]
      rfl
    · rw [if_neg (fun hh => h hh.2)]
      unfold dUp
      rw [toLocal_axis, hsh, if_neg (show ¬ p P.axis - P.offset n + 1 < P.thick by omega)]
      ring
  · refine sum_eq_zero fun j _ => ?_
    rw [(hP.off_axis (P.toLocal n p) (Ne.symm hd)).2]; ring

lemma convAt_kernel_out {n : Pos} {P : Pml ℝ} {p : Pos} (hout : ¬ P.inside n p) (u : ℕ → ℝ) (k : ℕ) :
    Torus.convAt (layerKernelE n P (p P.axis)) u k = 0 ∧ Torus.convAt (layerKernelH n P (p P.axis)) u k = 0 := by
  unfold Pml.inside at hout
  constructor
  · refine sum_eq_zero fun j _ => ?_
    unfold layerKernelE
    rw [if_neg (fun hh => hout ⟨hh.1.le, hh.2⟩), zero_mul]
  · refine sum_eq_zero fun j _ => ?_
    unfold layerKernelH
    rw [if_neg (fun hh => hout ⟨hh.1, by omega⟩), zero_mul]

/-! ### One step -/

lemma applyLayersE (n : Pos) (co : ℝ) (ie : VField ℝ) : ∀ (ls : List (Pml ℝ)) (E : VField ℝ) (p : Pos) (c : Fin 3),
    applyBoundariesE n co ie (ls.map FBoundary.pml) E p c = E p c + (ls.map fun P => if P.inside n p then co * ie p c * (P.phiE (P.toLocal n p) c + pmlTiny) else 0).sum := by
  intro ls
  induction ls with
  | nil => intro E p c; simp [applyBoundariesE]
  | cons P ls ih =>
    intro E p c
    show applyBoundariesE n co ie (ls.map FBoundary.pml) (P.updateE n co ie E) p c = _
    rw [ih, List.map_cons, List.sum_cons]
    unfold Pml.updateE
    split_ifs <;> ring

lemma applyLayersH (n : Pos) (co : ℝ) (im : VField ℝ) : ∀ (ls : List (Pml ℝ)) (H : VField ℝ) (p : Pos) (c : Fin 3),
    applyBoundariesH n co im (ls.map FBoundary.pml) H p c = H p c - (ls.map fun P => if P.inside n p then co * im p c * P.phiH (P.toLocal n p) c else 0).sum := by
  intro ls
  induction ls with
  | nil => intro H p c; simp [applyBoundariesH]
  | cons P ls ih =>
    intro H p c
    show applyBoundariesH n co im (ls.map FBoundary.pml) (P.updateH n co im H) p c = _
    rw [ih, List.map_cons, List.sum_cons]
    unfold Pml.updateH
    split_ifs <;> ring

variable {g : FGrid ℝ} {ls : List (Pml ℝ)} {as : List (Fin 3)}

/-- the layers after `k` steps of a run -/
noncomputable def layerAt (g : FGrid ℝ) (k : ℕ) (P : Pml ℝ) : Pml ℝ := P.after g.n (fun i => (g.run i).H) (fun i => (g.run i).E) k

lemma layered_run (hb : g.boundaries = ls.map FBoundary.pml ++ as.map FBoundary.periodic) (k : ℕ) :
    (g.run k).boundaries = (ls.map (layerAt g k)).map FBoundary.pml ++ as.map FBoundary.periodic := by
  rw [g.run_boundaries k, hb, List.map_append, List.map_map, List.map_map, List.map_map]
  rfl

lemma layerAt_inside (g : FGrid ℝ) (k : ℕ) (P : Pml ℝ) (p : Pos) : ((layerAt g k P).inside g.n p ↔ P.inside g.n p) ∧ (layerAt g k P).toLocal g.n p = P.toLocal g.n p := by
  obtain ⟨s1, s2, s3, -⟩ := P.after_shape g.n (fun i => (g.run i).H) (fun i => (g.run i).E) k
  unfold layerAt Pml.inside Pml.toLocal Pml.offset
  rw [s1, s2, s3]
  exact ⟨Iff.rfl, rfl⟩

/-- the electric field after one more step -/
lemma mixed_stepE (hb : g.boundaries = ls.map FBoundary.pml ++ as.map FBoundary.periodic) (hn : ∀ a ∈ as, 2 ≤ g.n a) (hs : AllSoft g.sources) (k : ℕ) (p : Pos) (c : Fin 3) :
    (g.run (k + 1)).E p c = (g.run k).E (repE g.n as p) c * ((1 - g.absorb (repE g.n as p) c) / (1 + g.absorb (repE g.n as p) c))
      + g.courant * g.invEps (repE g.n as p) c * curlH (g.run k).H (repE g.n as p) c / (1 + g.absorb (repE g.n as p) c)
      + (ls.map fun P => if P.inside g.n (repE g.n as p) then g.courant * g.invEps (repE g.n as p) c *
          ((layerAt g (k + 1) P).psiE c (P.toLocal g.n (repE g.n as p)) (c + 1) - (layerAt g (k + 1) P).psiE c (P.toLocal g.n (repE g.n as p)) (c + 2) + pmlTiny) else 0).sum
      + totalDrive g.sources (g.time + k) p c := by
  obtain ⟨r1, r2, r3, r4, r5, r6⟩ := g.run_n k
  show applySourcesE (g.run k).time (g.run k).sources (applyBoundariesE (g.run k).n (g.run k).courant (g.run k).invEps (g.run k).phasedE (bulkE (g.run k))) p c = _
  rw [r6, applySoftE _ _ _ _ _ hs, FGrid.run_time, r1, r2, r3]
  have hph : (g.run k).phasedE = (ls.map fun P => (layerAt g k P).updatePhiE g.n (g.run k).H).map FBoundary.pml ++ as.map FBoundary.periodic := by
    unfold FGrid.phasedE
    rw [layered_run hb k, List.map_append, r1, (periodic_phased g.n (g.run k).H as).1, List.map_map, List.map_map, List.map_map]
    rfl
  rw [hph]
  unfold applyBoundariesE
  rw [List.foldl_append]
  have e2 := applyPeriodicE g.n g.courant g.invEps as
    (applyBoundariesE g.n g.courant g.invEps ((ls.map fun P => (layerAt g k P).updatePhiE g.n (g.run k).H).map FBoundary.pml) (bulkE (g.run k))) p hn
  unfold applyBoundariesE at e2
  rw [congrFun e2 c]
  have e1 := applyLayersE g.n g.courant g.invEps (ls.map fun P => (layerAt g k P).updatePhiE g.n (g.run k).H) (bulkE (g.run k)) (repE g.n as p) c
  unfold applyBoundariesE at e1
  rw [e1, List.map_map]
  congr 1
  congr 1
  · unfold bulkE
    rw [r2, r3, r5]
  · congr 1
    refine List.map_congr_left fun P _ => ?_
    obtain ⟨h1, h2⟩ := layerAt_inside g k P (repE g.n as p)
    show (if (layerAt g k P).inside g.n (repE g.n as p) then g.courant * g.invEps (repE g.n as p) c *
      (phiOf (psiENew g.n (g.run k).H (layerAt g k P)) ((layerAt g k P).toLocal g.n (repE g.n as p)) c + pmlTiny) else 0) = _
    rw [h2, phiOf_sum]
    simp only [h1]
    rfl

/-- the magnetic field after one more step -/
lemma mixed_stepH (hb : g.boundaries = ls.map FBoundary.pml ++ as.map FBoundary.periodic) (hn : ∀ a ∈ as, 2 ≤ g.n a) (hs : AllSoft g.sources) (k : ℕ) (p : Pos) (c : Fin 3) :
    (g.run (k + 1)).H p c = (g.run k).H (repH g.n as p) c - g.courant * g.invMu (repH g.n as p) c * curlE g.n (g.run (k + 1)).E (repH g.n as p) c
      - (ls.map fun P => if P.inside g.n (repH g.n as p) then g.courant * g.invMu (repH g.n as p) c *
          ((layerAt g (k + 1) P).psiH c (P.toLocal g.n (repH g.n as p)) (c + 1) - (layerAt g (k + 1) P).psiH c (P.toLocal g.n (repH g.n as p)) (c + 2)) else 0).sum := by
  obtain ⟨r1, r2, r3, r4, r5, r6⟩ := g.run_n k
  show applySourcesH (g.run k).time (g.run k).sources (applyBoundariesH (g.run k).n (g.run k).courant (g.run k).invMu ((g.run k).phasedE.map (FBoundary.updatePhiH (g.run k).n (g.run (k + 1)).E)) (bulkH (g.run k).updateE)) p c = _
  rw [r6, applySoftH _ _ _ hs, r1, r2, r4]
  have hph : (g.run k).phasedE.map (FBoundary.updatePhiH g.n (g.run (k + 1)).E) = (ls.map (layerAt g (k + 1))).map FBoundary.pml ++ as.map FBoundary.periodic := by
    rw [← layered_run hb (k + 1)]
    show _ = (g.run k).phasedE.map (FBoundary.updatePhiH (g.run k).n (g.run (k + 1)).E)
    rw [r1]
  rw [hph]
  unfold applyBoundariesH
  rw [List.foldl_append]
  have e2 := applyPeriodicH g.n g.courant g.invMu as
    (applyBoundariesH g.n g.courant g.invMu ((ls.map (layerAt g (k + 1))).map FBoundary.pml) (bulkH (g.run k).updateE)) p hn
  unfold applyBoundariesH at e2
  rw [congrFun e2 c]
  have e1 := applyLayersH g.n g.courant g.invMu (ls.map (layerAt g (k + 1))) (bulkH (g.run k).updateE) (repH g.n as p) c
  unfold applyBoundariesH at e1
  rw [e1, List.map_map]
  congr 1
  · show (g.run k).H _ c - (g.run k).courant * (g.run k).invMu _ c * curlE (g.run k).n (g.run (k + 1)).E _ c = _
    rw [r1, r2, r4]
  · congr 1
    refine List.map_congr_left fun P _ => ?_
    obtain ⟨h1, h2⟩ := layerAt_inside g (k + 1) P (repH g.n as p)
    have hphi : (layerAt g (k + 1) P).phiH = phiOf (layerAt g (k + 1) P).psiH := rfl
    show (if (layerAt g (k + 1) P).inside g.n (repH g.n as p) then g.courant * g.invMu (repH g.n as p) c *
      (layerAt g (k + 1) P).phiH ((layerAt g (k + 1) P).toLocal g.n (repH g.n as p)) c else 0) = _
    rw [h2, hphi, phiOf_sum]
    simp only [h1]

/-! ### The additional field -/

lemma dDn_sub (F G : VField ℝ) (d f : Fin 3) (p : Pos) : dDn F d f p - dDn G d f p = dDn (fun q c => F q c - G q c) d f p := by
  unfold dDn
  split_ifs <;> ring

lemma dUp_sub (n : Pos) (F G : VField ℝ) (d f : Fin 3) (p : Pos) : dUp n F d f p - dUp n G d f p = dUp n (fun q c => F q c - G q c) d f p := by
  unfold dUp
  split_ifs <;> ring

lemma curlH_two (H : VField ℝ) (p : Pos) (c : Fin 3) : curlH H p c = dDn H (c + 1) (c + 2) p - dDn H (c + 2) (c + 1) p := by
  fin_cases c <;> rfl

lemma curlE_two (n : Pos) (E : VField ℝ) (p : Pos) (c : Fin 3) : curlE n E p c = dUp n E (c + 1) (c + 2) p - dUp n E (c + 2) (c + 1) p := by
  fin_cases c <;> rfl

lemma layers_sum (l : List (Pml ℝ)) (f g h : Pml ℝ → ℝ) (b : ℝ) (H : ∀ P ∈ l, f P - g P = b * h P) : (l.map f).sum - (l.map g).sum = b * (l.map h).sum := by
  induction l with
  | nil => simp
  | cons P l ih =>
    simp only [List.map_cons, List.sum_cons]
    have h1 := H P List.mem_cons_self
    have h2 := ih fun Q hQ => H Q (List.mem_cons_of_mem _ hQ)
    linear_combination h1 + h2

lemma layers_split (l : List (Pml ℝ)) (f g : Pml ℝ → ℝ) : (l.map fun P => f P - g P).sum = (l.map f).sum - (l.map g).sum := by
  have := layers_sum l f g (fun P => f P - g P) 1 fun P _ => (one_mul _).symm
  rw [this, one_mul]

lemma fed_soft (hs : AllSoft g.sources) (s : ℕ → ℝ) (u : VField ℝ) : AllSoft (g.fed s u).sources := by
  intro x hx
  rcases List.mem_cons.1 hx with rfl | hx
  · exact ⟨_, rfl⟩
  · exact hs x hx

lemma fed_drive (s : ℕ → ℝ) (u : VField ℝ) (t : ℕ) (p : Pos) (c : Fin 3) : totalDrive (g.fed s u).sources t p c = s t * u p c + totalDrive g.sources t p c := by
  unfold totalDrive FGrid.fed
  rw [List.map_cons, List.sum_cons]

lemma repE_same {n : Pos} {as : List (Fin 3)} {p : Pos} {d : Fin 3} (hd : d ∉ as) : repE n as p d = p d := by
  unfold repE
  rw [if_neg fun h => hd h.1]

lemma repH_same {n : Pos} {as : List (Fin 3)} {p : Pos} {d : Fin 3} (hd : d ∉ as) : repH n as p d = p d := by
  unfold repH
  rw [if_neg fun h => hd h.1]

lemma repH_of_box {n : Pos} {as : List (Fin 3)} (hn : ∀ a ∈ as, 2 ≤ n a) {p : Pos} (hp : p ∈ box n) : (torusOf n as).wrap p = repH n as p := by
  funext b
  have hbx := mem_box.mp hp b
  rw [wrap_apply]
  by_cases hb : b ∈ as
  · have := hn b hb
    simp only [repH, hb, true_and, if_true]
    split_ifs with h1
    · rw [h1, Nat.mod_self]
    · rw [Nat.mod_eq_of_lt (by omega)]
  · simp [repH, hb]

lemma wrap_cells {n : Pos} {as : List (Fin 3)} (hn : ∀ a ∈ as, 2 ≤ n a) {p : Pos} (hp : p ∈ box n) : (torusOf n as).wrap p ∈ box (torusOf n as).cells := by
  rw [mem_box]
  intro b
  have hb := mem_box.mp hp b
  rw [wrap_apply]
  by_cases hbas : b ∈ as
  · have := hn b hbas
    simp only [Torus.Lattice.cells, torusOf, hbas, decide_true, if_true]
    exact Nat.mod_lt _ (by omega)
  · simpa only [Torus.Lattice.cells, torusOf, hbas, decide_false, if_false, Bool.false_eq_true] using hb

/-- the additional electric field after one more step -/
lemma effectE_step (hL : LayeredGrid g ls as) (hs : AllSoft g.sources) (s : ℕ → ℝ) (u : VField ℝ) (k : ℕ) (p : Pos) (hp : p ∈ box g.n) (c : Fin 3) :
    effectE g s u (k + 1) p c = (1 - g.absorb (repE g.n as p) c) / (1 + g.absorb (repE g.n as p) c) * effectE g s u k (repE g.n as p) c
      + g.courant * g.invEps (repE g.n as p) c / (1 + g.absorb (repE g.n as p) c) *
        (Torus.convAt (kernelE g.n ls (c + 1) (repE g.n as p (c + 1))) (fun j => dDn (effectH g s u j) (c + 1) (c + 2) (repE g.n as p)) k
          - Torus.convAt (kernelE g.n ls (c + 2) (repE g.n as p (c + 2))) (fun j => dDn (effectH g s u j) (c + 2) (c + 1) (repE g.n as p)) k)
      + s (g.time + k) * u p c := by
  have e1 := mixed_stepE (g := g.fed s u) hL.boundaries hL.periodic (fed_soft hs s u) k p c
  have e2 := mixed_stepE (g := g) hL.boundaries hL.periodic hs k p c
  rw [fed_drive] at e1
  unfold effectE
  rw [e1, e2]
  change (_ + _ + (ls.map fun P => if P.inside g.n (repE g.n as p) then g.courant * g.invEps (repE g.n as p) c *
      ((layerAt (g.fed s u) (k + 1) P).psiE c (P.toLocal g.n (repE g.n as p)) (c + 1) - (layerAt (g.fed s u) (k + 1) P).psiE c (P.toLocal g.n (repE g.n as p)) (c + 2) + pmlTiny) else 0).sum + _) - _ = _
  set q := repE g.n as p with hq
  rw [convAt_kernelE, convAt_kernelE]
  have key := layers_sum ls
    (fun P => if P.inside g.n q then g.courant * g.invEps q c * ((layerAt (g.fed s u) (k + 1) P).psiE c (P.toLocal g.n q) (c + 1) - (layerAt (g.fed s u) (k + 1) P).psiE c (P.toLocal g.n q) (c + 2) + pmlTiny) else 0)
    (fun P => if P.inside g.n q then g.courant * g.invEps q c * ((layerAt g (k + 1) P).psiE c (P.toLocal g.n q) (c + 1) - (layerAt g (k + 1) P).psiE c (P.toLocal g.n q) (c + 2) + pmlTiny) else 0)
    (fun P => (if P.axis = c + 1 then Torus.convAt (layerKernelE g.n P (q (c + 1))) (fun j => dDn (effectH g s u j) (c + 1) (c + 2) q) k else 0)
      - (if P.axis = c + 2 then Torus.convAt (layerKernelE g.n P (q (c + 2))) (fun j => dDn (effectH g s u j) (c + 2) (c + 1) q) k else 0))
    (g.courant * g.invEps q c / (1 + g.absorb q c)) ?_
  · rw [layers_split] at key
    have hc := curlH_two ((g.fed s u).run k).H q c
    have hc' := curlH_two (g.run k).H q c
    have hd1 := dDn_sub ((g.fed s u).run k).H (g.run k).H (c + 1) (c + 2) q
    have hd2 := dDn_sub ((g.fed s u).run k).H (g.run k).H (c + 2) (c + 1) q
    show ((g.fed s u).run k).E q c * ((1 - g.absorb q c) / (1 + g.absorb q c)) + g.courant * g.invEps q c * curlH ((g.fed s u).run k).H q c / (1 + g.absorb q c) + _ + (s (g.time + k) * u p c + totalDrive g.sources (g.time + k) p c) - _ = _
    rw [hc, hc']
    change _ = dDn (effectH g s u k) (c + 1) (c + 2) q at hd1
    change _ = dDn (effectH g s u k) (c + 2) (c + 1) q at hd2
    rw [← hd1, ← hd2]
    linear_combination key
  · intro P hP
    have hlayer := hL.layer P hP
    by_cases hin : P.inside g.n q
    · simp only [if_pos hin]
      rw [hL.clear P hP q (repE_box as hp) ((inside_iff g.n P q (hL.fits P hP)).1 hin) c]
      have side : ∀ d f, psiPartner c d = some f → (layerAt (g.fed s u) (k + 1) P).psiE c (P.toLocal g.n q) d - (layerAt g (k + 1) P).psiE c (P.toLocal g.n q) d
          = if P.axis = d then Torus.convAt (layerKernelE g.n P (q d)) (fun j => dDn (effectH g s u j) d f q) k else 0 := by
        intro d f hf
        have h1 := psiE_diff g.n (fun i => ((g.fed s u).run i).H) (fun i => ((g.fed s u).run i).E) (fun i => (g.run i).H) (fun i => (g.run i).E) P c d f hf (P.toLocal g.n q) (k + 1)
        rw [Nat.add_sub_cancel] at h1
        have h2 := memE_cell g.n hlayer (fun j => effectH g s u j) q hin d f k
        refine (h1.trans ?_).trans h2
        refine sum_congr rfl fun j _ => ?_
        rw [dDn_sub]
        rfl
      rw [← side _ _ (psiPartner_up c), ← side _ _ (psiPartner_dn c)]
      ring
    · simp only [if_neg hin]
      have z1 : (if P.axis = c + 1 then Torus.convAt (layerKernelE g.n P (q (c + 1))) (fun j => dDn (effectH g s u j) (c + 1) (c + 2) q) k else 0) = 0 := by
        split_ifs with h
        · rw [← h]; exact (convAt_kernel_out hin _ k).1
        · rfl
      have z2 : (if P.axis = c + 2 then Torus.convAt (layerKernelE g.n P (q (c + 2))) (fun j => dDn (effectH g s u j) (c + 2) (c + 1) q) k else 0) = 0 := by
        split_ifs with h
        · rw [← h]; exact (convAt_kernel_out hin _ k).1
        · rfl
      rw [z1, z2]; ring

/-- the additional magnetic field after one more step -/
lemma effectH_step (hL : LayeredGrid g ls as) (hs : AllSoft g.sources) (s : ℕ → ℝ) (u : VField ℝ) (k : ℕ) (p : Pos) (c : Fin 3) :
    effectH g s u (k + 1) p c = effectH g s u k (repH g.n as p) c - g.courant * g.invMu (repH g.n as p) c *
        (Torus.convAt (kernelH g.n ls (c + 1) (repH g.n as p (c + 1))) (fun j => dUp g.n (effectE g s u j) (c + 1) (c + 2) (repH g.n as p)) (k + 1)
          - Torus.convAt (kernelH g.n ls (c + 2) (repH g.n as p (c + 2))) (fun j => dUp g.n (effectE g s u j) (c + 2) (c + 1) (repH g.n as p)) (k + 1)) := by
  have e1 := mixed_stepH (g := g.fed s u) hL.boundaries hL.periodic (fed_soft hs s u) k p c
  have e2 := mixed_stepH (g := g) hL.boundaries hL.periodic hs k p c
  unfold effectH
  rw [e1, e2]
  change (_ - _ - (ls.map fun P => if P.inside g.n (repH g.n as p) then g.courant * g.invMu (repH g.n as p) c *
      ((layerAt (g.fed s u) (k + 1) P).psiH c (P.toLocal g.n (repH g.n as p)) (c + 1) - (layerAt (g.fed s u) (k + 1) P).psiH c (P.toLocal g.n (repH g.n as p)) (c + 2)) else 0).sum) - _ = _
  set q := repH g.n as p with hq
  rw [convAt_kernelH, convAt_kernelH]
  have key := layers_sum ls
    (fun P => if P.inside g.n q then g.courant * g.invMu q c * ((layerAt (g.fed s u) (k + 1) P).psiH c (P.toLocal g.n q) (c + 1) - (layerAt (g.fed s u) (k + 1) P).psiH c (P.toLocal g.n q) (c + 2)) else 0)
    (fun P => if P.inside g.n q then g.courant * g.invMu q c * ((layerAt g (k + 1) P).psiH c (P.toLocal g.n q) (c + 1) - (layerAt g (k + 1) P).psiH c (P.toLocal g.n q) (c + 2)) else 0)
    (fun P => (if P.axis = c + 1 then Torus.convAt (layerKernelH g.n P (q (c + 1))) (fun j => dUp g.n (effectE g s u j) (c + 1) (c + 2) q) (k + 1) else 0)
      - (if P.axis = c + 2 then Torus.convAt (layerKernelH g.n P (q (c + 2))) (fun j => dUp g.n (effectE g s u j) (c + 2) (c + 1) q) (k + 1) else 0))
    (g.courant * g.invMu q c) ?_
  · rw [layers_split] at key
    have hc := curlE_two g.n ((g.fed s u).run (k + 1)).E q c
    have hc' := curlE_two g.n (g.run (k + 1)).E q c
    have hd1 := dUp_sub g.n ((g.fed s u).run (k + 1)).E (g.run (k + 1)).E (c + 1) (c + 2) q
    have hd2 := dUp_sub g.n ((g.fed s u).run (k + 1)).E (g.run (k + 1)).E (c + 2) (c + 1) q
    show ((g.fed s u).run k).H q c - g.courant * g.invMu q c * curlE g.n ((g.fed s u).run (k + 1)).E q c - _ - _ = _
    rw [hc, hc']
    change _ = dUp g.n (effectE g s u (k + 1)) (c + 1) (c + 2) q at hd1
    change _ = dUp g.n (effectE g s u (k + 1)) (c + 2) (c + 1) q at hd2
    rw [← hd1, ← hd2]
    linear_combination -key
  · intro P hP
    have hlayer := hL.layer P hP
    by_cases hin : P.inside g.n q
    · simp only [if_pos hin]
      have side : ∀ d f, psiPartner c d = some f → (layerAt (g.fed s u) (k + 1) P).psiH c (P.toLocal g.n q) d - (layerAt g (k + 1) P).psiH c (P.toLocal g.n q) d
          = if P.axis = d then Torus.convAt (layerKernelH g.n P (q d)) (fun j => dUp g.n (effectE g s u j) d f q) (k + 1) else 0 := by
        intro d f hf
        have h1 := psiH_diff g.n (fun i => ((g.fed s u).run i).H) (fun i => ((g.fed s u).run i).E) (fun i => (g.run i).H) (fun i => (g.run i).E) P c d f hf (P.toLocal g.n q) (k + 1)
        rw [Nat.add_sub_cancel] at h1
        have h2 := memH_cell g.n hlayer (hL.fits P hP) (fun j => effectE g s u j) q hin d f (k + 1)
        refine (h1.trans ?_).trans h2
        rw [sum_range_succ' _ (k + 1)]
        have h0 : dUp (P.shape g.n) (P.view g.n (effectE g s u 0)) d f (P.toLocal g.n q) = 0 := by
          have : effectE g s u 0 = fun _ _ => 0 := by funext p c; exact sub_self _
          rw [this]
          unfold dUp Pml.view
          split_ifs <;> ring
        rw [h0, mul_zero, add_zero]
        refine sum_congr rfl fun j hj => ?_
        rw [dUp_sub]
        have : k + 1 - (j + 1) = k - j := by omega
        rw [this]
        rfl
      rw [← side _ _ (psiPartner_up c), ← side _ _ (psiPartner_dn c)]
      ring
    · simp only [if_neg hin]
      have z1 : (if P.axis = c + 1 then Torus.convAt (layerKernelH g.n P (q (c + 1))) (fun j => dUp g.n (effectE g s u j) (c + 1) (c + 2) q) (k + 1) else 0) = 0 := by
        split_ifs with h
        · rw [← h]; exact (convAt_kernel_out hin _ _).2
        · rfl
      have z2 : (if P.axis = c + 2 then Torus.convAt (layerKernelH g.n P (q (c + 2))) (fun j => dUp g.n (effectE g s u j) (c + 2) (c + 1) q) (k + 1) else 0) = 0 := by
        split_ifs with h
        · rw [← h]; exact (convAt_kernel_out hin _ _).2
        · rfl
      rw [z1, z2]; ring

/-- the additional field agrees on identified planes -/
lemma effect_wraps (hL : LayeredGrid g ls as) (hs : AllSoft g.sources) (s : ℕ → ℝ) {u : VField ℝ} (hu : ∀ p ∈ box g.n, ∀ c, u p c = u ((torusOf g.n as).wrap p) c) (k : ℕ) :
    ∀ p ∈ box g.n, ∀ c, effectE g s u k p c = effectE g s u k ((torusOf g.n as).wrap p) c ∧ effectH g s u k p c = effectH g s u k ((torusOf g.n as).wrap p) c := by
  intro p hp c
  cases k with
  | zero => exact ⟨(sub_self _).trans (sub_self _).symm, (sub_self _).trans (sub_self _).symm⟩
  | succ k =>
    have hw := once_any (g := g) (as := as) (wrap_cells hL.periodic hp)
    constructor
    · rw [effectE_step hL hs _ _ _ _ hp, effectE_step hL hs s u k ((torusOf g.n as).wrap p) hw.1, repE_wrap hL.periodic hp, hu p hp c]
    · rw [effectH_step hL hs, effectH_step hL hs s u k ((torusOf g.n as).wrap p), ← repH_of_box hL.periodic hw.1, hw.2, repH_of_box hL.periodic hp]

lemma kernel_periodic (hL : LayeredGrid g ls as) {x : Fin 3} (hx : x ∈ as) (i : ℕ) : kernelE g.n ls x i = Torus.plainKernel ∧ kernelH g.n ls x i = Torus.plainKernel := by
  have h : ∀ f : Pml ℝ → ℝ, (ls.map fun P => if P.axis = x then f P else 0).sum = 0 := by
    intro f
    refine List.sum_eq_zero fun y hy => ?_
    obtain ⟨P, hP, rfl⟩ := List.mem_map.1 hy
    exact if_neg fun hh : P.axis = x => hL.axis P hP (hh ▸ hx)
  constructor
  · funext lag
    show _ + _ = _
    rw [h, add_zero]
  · funext lag
    show _ + _ = _
    rw [h, add_zero]

/-- on the lattice of distinct cells the additional field obeys the equations with memory -/
lemma effect_response (hL : LayeredGrid g ls as) (hs : AllSoft g.sources) (s : ℕ → ℝ) {u : VField ℝ} (hu : ∀ p ∈ box g.n, ∀ c, u p c = u ((torusOf g.n as).wrap p) c) :
    Torus.Response (torusOf g.n as) (kernelE g.n ls) (kernelH g.n ls) (fun p c => (1 - g.absorb (repE g.n as p) c) / (1 + g.absorb (repE g.n as p) c))
      (fun p c => g.courant * g.invEps (repE g.n as p) c / (1 + g.absorb (repE g.n as p) c)) (fun p c => g.courant * g.invMu p c) u (fun k => s (g.time + k))
      (effectE g s u) (effectH g s u) where
  startE := fun _ _ => sub_self _
  startH := fun _ _ => sub_self _
  stepE := by
    intro k p hp c
    obtain ⟨hb, hw⟩ := once_any (g := g) (as := as) hp
    have hqb := repE_box as hb
    have hge : ∀ a ∈ as, 1 ≤ repE g.n as p a := fun a ha => by
      have := hL.periodic a ha
      simp only [repE, ha, true_and]
      split_ifs <;> omega
    rw [effectE_step hL hs _ _ _ _ hb]
    have h1 : effectE g s u k (repE g.n as p) c = effectE g s u k p c := by
      rw [(effect_wraps hL hs s hu k _ hqb c).1, wrap_repE, hw]
    have h2 : ∀ d f, (fun j => dDn (effectH g s u j) d f (repE g.n as p)) = fun j => Torus.bwd (torusOf g.n as) (effectH g s u j) d f p := by
      intro d f
      funext j
      rw [bwd_of_dDn hL.periodic (fun q hq c => (effect_wraps hL hs s hu j q hq c).2) hqb hge, wrap_repE, hw]
    have h3 : ∀ d, kernelE g.n ls d (repE g.n as p d) = kernelE g.n ls d (p d) := by
      intro d
      by_cases hd : d ∈ as
      · rw [(kernel_periodic hL hd _).1, (kernel_periodic hL hd _).1]
      · rw [repE_same hd]
    rw [h1, h2, h2, h3, h3]
    rfl
  stepH := by
    intro k p hp c
    obtain ⟨hb, hw⟩ := once_any (g := g) (as := as) hp
    have hq : repH g.n as p = p := by rw [← repH_of_box hL.periodic hb, hw]
    have hlt : ∀ a ∈ as, p a + 1 < g.n a := fun a ha => by
      have h1 := mem_box.mp hp a
      simp only [Torus.Lattice.cells, torusOf, ha, decide_true, if_true] at h1
      omega
    rw [effectH_step hL hs, hq]
    have h2 : ∀ d f, (fun j => dUp g.n (effectE g s u j) d f p) = fun j => Torus.fwd (torusOf g.n as) (effectE g s u j) d f p := by
      intro d f
      funext j
      rw [fwd_of_dUp hL.periodic (fun q hq c => (effect_wraps hL hs s hu j q hq c).1) hb hlt, hw]
    rw [h2, h2]
    rfl

/-! ### The kernels can be inverted -/

lemma IsLayer.strength {courant : ℝ} (hc : 0 < courant) {P : Pml ℝ} (h : IsLayer courant P) (i : ℕ) (hi : i < P.thick) :
    -1 < P.cE (fun _ => i) P.axis ∧ -1 < P.cH (fun _ => i) P.axis := by
  obtain ⟨a, ha, -, h2, -, h4⟩ := h
  rw [h2, h4]
  constructor
  · show -1 < pmlC a courant (sigmaField P.axis (sigmaEProfile P.high P.thick) (fun _ => i) P.axis)
    refine (C49_coefficients a courant _ ha hc ?_).2.2.1
    unfold sigmaField
    rw [if_pos rfl]
    exact sigmaEProfile_nonneg _ _ _ hi
  · show -1 < pmlC a courant (sigmaField P.axis (sigmaHProfile P.high P.thick) (fun _ => i) P.axis)
    refine (C49_coefficients a courant _ ha hc ?_).2.2.1
    unfold sigmaField
    rw [if_pos rfl]
    exact sigmaHProfile_nonneg _ _ _

lemma sum_gt_neg_one (f : Pml ℝ → ℝ) (l : List (Pml ℝ)) (h : ∀ P ∈ l, -1 < f P) (hp : l.Pairwise fun P Q => f P = 0 ∨ f Q = 0) : -1 < (l.map f).sum := by
  induction l with
  | nil => simp
  | cons P l ih =>
    rw [List.map_cons, List.sum_cons]
    obtain ⟨h1, h2⟩ := List.pairwise_cons.1 hp
    by_cases h0 : f P = 0
    · rw [h0, zero_add]
      exact ih (fun Q hQ => h Q (List.mem_cons_of_mem _ hQ)) h2
    · have : (l.map f).sum = 0 := List.sum_eq_zero fun y hy => by
        obtain ⟨Q, hQ, rfl⟩ := List.mem_map.1 hy
        exact (h1 Q hQ).resolve_left h0
      rw [this, add_zero]
      exact h P List.mem_cons_self

lemma kernel_ne_zero (hL : LayeredGrid g ls as) (x : Fin 3) (i : ℕ) : kernelE g.n ls x i 0 ≠ 0 ∧ kernelH g.n ls x i 0 ≠ 0 := by
  have inE : ∀ P, layerKernelE g.n P i 0 ≠ 0 → P.inside g.n (fun _ => i) := by
    intro P h
    unfold layerKernelE at h
    split_ifs at h with hh
    · exact ⟨hh.1.le, hh.2⟩
    · exact absurd rfl h
  have inH : ∀ P, layerKernelH g.n P i 0 ≠ 0 → P.inside g.n (fun _ => i) := by
    intro P h
    unfold layerKernelH at h
    split_ifs at h with hh
    · exact ⟨hh.1, Nat.lt_of_succ_lt hh.2⟩
    · exact absurd rfl h
  have apart : ∀ f : Pml ℝ → ℝ, (∀ P, f P ≠ 0 → P.inside g.n (fun _ => i)) → ls.Pairwise fun P Q => (if P.axis = x then f P else 0) = 0 ∨ (if Q.axis = x then f Q else 0) = 0 := by
    intro f hf
    refine List.Pairwise.imp_of_mem ?_ hL.apart
    intro P Q hP hQ h
    by_contra hcon
    rw [not_or] at hcon
    obtain ⟨c1, c2⟩ := hcon
    have a1 : P.axis = x := by by_contra hh; exact c1 (if_neg hh)
    have a2 : Q.axis = x := by by_contra hh; exact c2 (if_neg hh)
    rw [if_pos a1] at c1
    rw [if_pos a2] at c2
    exact h (a1.trans a2.symm) (fun _ => i) ⟨(inside_iff _ _ _ (hL.fits P hP)).1 (hf P c1), (inside_iff _ _ _ (hL.fits Q hQ)).1 (hf Q c2)⟩
  have one : Torus.plainKernel 0 = 1 := if_pos rfl
  constructor
  · have := sum_gt_neg_one (fun P => if P.axis = x then layerKernelE g.n P i 0 else 0) ls (fun P hP => by
      split_ifs with h
      · unfold layerKernelE
        split_ifs with hh
        · rw [pow_zero, mul_one]
          exact ((hL.layer P hP).strength hL.courant _ (by omega)).1
        · norm_num
      · norm_num) (apart _ inE)
    unfold kernelE
    rw [one]
    intro hh
    linarith
  · have := sum_gt_neg_one (fun P => if P.axis = x then layerKernelH g.n P i 0 else 0) ls (fun P hP => by
      split_ifs with h
      · unfold layerKernelH
        split_ifs with hh
        · rw [pow_zero, mul_one]
          exact ((hL.layer P hP).strength hL.courant _ (by omega)).2
        · norm_num
      · norm_num) (apart _ inH)
    unfold kernelH
    rw [one]
    intro hh
    linarith

lemma kernel_outside (hL : LayeredGrid g ls as) {p : Pos} (h : ∀ P ∈ ls, ¬ layerHas g.n P.axis P.high P.thick p) (x : Fin 3) :
    kernelE g.n ls x (p x) = Torus.plainKernel ∧ kernelH g.n ls x (p x) = Torus.plainKernel := by
  have out : ∀ P ∈ ls, ¬ P.inside g.n p := fun P hP hh => h P hP ((inside_iff _ _ _ (hL.fits P hP)).1 hh)
  constructor
  · funext lag
    unfold kernelE
    rw [List.sum_eq_zero, add_zero]
    intro y hy
    obtain ⟨P, hP, rfl⟩ := List.mem_map.1 hy
    split_ifs with hx
    · unfold layerKernelE
      subst hx
      rw [if_neg fun hh => out P hP ⟨hh.1.le, hh.2⟩]
    · rfl
  · funext lag
    unfold kernelH
    rw [List.sum_eq_zero, add_zero]
    intro y hy
    obtain ⟨P, hP, rfl⟩ := List.mem_map.1 hy
    split_ifs with hx
    · unfold layerKernelH
      subst hx
      rw [if_neg fun hh => out P hP ⟨hh.1, Nat.lt_of_succ_lt hh.2⟩]
    · rfl

/-! ### The claims -/

/-- C165: on a grid with absorbing layers on some sides, periodic boundaries on some axes and walls elsewhere, filled with any material, in any state and with any other sources,
the field that a source of profile `u` adds, summed with the profile `u'` and the weight (1 + absorption)·ε, is the field that a source of profile `u'` with the same signal adds, summed with `u`: after every
number of steps. (`repE`: the values of a periodic plane 0 are the ones computed in the last plane.) -/
theorem C165_reciprocity (hL : LayeredGrid g ls as) (hs : AllSoft g.sources) (hr : SoundMedium g) (s : ℕ → ℝ) {u u' : VField ℝ} (hu : Profile g ls as u) (hu' : Profile g ls as u') (k : ℕ) :
    ∑ p ∈ box (onceCells g as), ∑ c, u p c * ((1 + g.absorb (repE g.n as p) c) / g.invEps (repE g.n as p) c) * (((g.fed s u').run k).E p c - (g.run k).E p c)
      = ∑ p ∈ box (onceCells g as), ∑ c, u' p c * ((1 + g.absorb (repE g.n as p) c) / g.invEps (repE g.n as p) c) * (((g.fed s u).run k).E p c - (g.run k).E p c) := by
  have hco : g.courant ≠ 0 := hL.courant.ne'
  have dark : ∀ {u : VField ℝ}, Profile g ls as u → Torus.DarkE (torusOf g.n as) u := by
    intro u hu a ha h1 p hp
    have hb := (once_any (g := g) (as := as) hp).1
    have ha' : a ∉ as := by simpa [torusOf] using ha
    exact ⟨fun h0 c _ => hu.off a ha' h1 p hb (Or.inl h0) c, fun h0 => hu.off a ha' h1 p hb (Or.inr h0) a⟩
  have key := Torus.response_reciprocal (fun x i => (kernel_ne_zero hL x i).1) (fun x i => (kernel_ne_zero hL x i).2)
    (fun p hp c => div_ne_zero (mul_ne_zero hco (hr _ (repE_box as (once_any (g := g) (as := as) hp).1) c).1) (hr _ (repE_box as (once_any (g := g) (as := as) hp).1) c).2.2)
    (fun p hp c => mul_ne_zero hco (hr p (once_any (g := g) (as := as) hp).1 c).2.1) (dark hu) (dark hu') (by
      intro p hp c h x
      refine kernel_outside hL (fun P hP hh => ?_) x
      rcases h with h | h
      · exact h (hu.outside P hP p hh c)
      · exact h (hu'.outside P hP p hh c)) (effect_response hL hs s hu.wraps) (effect_response hL hs s hu'.wraps) k
  have conv : ∀ x y : VField ℝ, ∑ p ∈ box (onceCells g as), ∑ c, x p c * ((1 + g.absorb (repE g.n as p) c) / g.invEps (repE g.n as p) c) * y p c
      = g.courant * ∑ p ∈ box (torusOf g.n as).cells, ∑ c, x p c / (g.courant * g.invEps (repE g.n as p) c / (1 + g.absorb (repE g.n as p) c)) * y p c := by
    intro x y
    rw [mul_sum]
    refine sum_congr rfl fun p hp => ?_
    rw [mul_sum]
    refine sum_congr rfl fun c _ => ?_
    obtain ⟨h1, -, h2⟩ := hr _ (repE_box as (once_any (g := g) (as := as) hp).1) c
    field_simp
  refine (conv u (effectE g s u' k)).trans ?_
  refine Eq.trans ?_ (conv u' (effectE g s u k)).symm
  rw [key]

/-- A cell in which a point source or a detector can stand: outside every layer and in no border plane. -/
structure Inner (g : FGrid ℝ) (ls : List (Pml ℝ)) (i : Pos) : Prop where
  inside : i ∈ box g.n
  border : ∀ a, g.n a ≠ 1 → i a ≠ 0 ∧ i a + 1 ≠ g.n a
  layers : ∀ P ∈ ls, ¬ layerHas g.n P.axis P.high P.thick i

/-- a point source feeding component `c` of cell `i` -/
def pointProfile (i : Pos) (c : Fin 3) : VField ℝ := fun p d => if p = i ∧ d = c then 1 else 0

lemma Inner.profile (hL : LayeredGrid g ls as) {i : Pos} (hi : Inner g ls i) (c : Fin 3) : Profile g ls as (pointProfile i c) where
  wraps := by
    intro p hp d
    have : p = i ↔ (torusOf g.n as).wrap p = i := by
      constructor
      · rintro rfl
        funext b
        rw [wrap_apply]
        split_ifs with hb
        · have h2 := hL.periodic b hb
          have := (hi.border b (by omega)).2
          have := mem_box.1 hp b
          exact Nat.mod_eq_of_lt (by omega)
        · rfl
      · intro h
        funext b
        have hb' := congrFun h b
        rw [wrap_apply] at hb'
        split_ifs at hb' with hb
        · have h2 := hL.periodic b hb
          have h3 := (hi.border b (by omega)).1
          have h4 := mem_box.1 hp b
          by_cases h5 : p b = g.n b - 1
          · rw [h5, Nat.mod_self] at hb'
            exact absurd hb'.symm h3
          · rwa [Nat.mod_eq_of_lt (by omega)] at hb'
        · exact hb'
    unfold pointProfile
    simp only [this]
  outside := by
    intro P hP p hp d
    unfold pointProfile
    rw [if_neg]
    rintro ⟨rfl, -⟩
    exact hi.layers P hP hp
  off := by
    intro a _ h1 p _ h0 d
    unfold pointProfile
    rw [if_neg]
    rintro ⟨rfl, -⟩
    have := hi.border a h1
    tauto

lemma Inner.once (hL : LayeredGrid g ls as) {i : Pos} (hi : Inner g ls i) : i ∈ box (onceCells g as) ∧ repE g.n as i = i := by
  constructor
  · rw [mem_box]
    intro b
    have h4 := mem_box.1 hi.inside b
    simp only [onceCells, Torus.Lattice.cells, torusOf, decide_eq_true_eq]
    split_ifs with hb
    · have := hL.periodic b hb
      have := (hi.border b (by omega)).2
      omega
    · exact h4
  · funext b
    unfold repE
    split_ifs with hb
    · have := hL.periodic b hb.1
      exact absurd hb.2 (hi.border b (by omega)).1
    · rfl

lemma point_sum {B : Finset Pos} {i : Pos} (hi : i ∈ B) (c : Fin 3) (F : VField ℝ) : ∑ p ∈ B, ∑ d, pointProfile i c p d * F p d = F i c := by
  rw [sum_eq_single_of_mem i hi, sum_eq_single_of_mem c (mem_univ c)]
  · unfold pointProfile; rw [if_pos ⟨rfl, rfl⟩, one_mul]
  · intro d _ hd
    unfold pointProfile; rw [if_neg fun h => hd h.2, zero_mul]
  · intro p _ hp
    refine sum_eq_zero fun d _ => ?_
    unfold pointProfile; rw [if_neg fun h => hp h.1, zero_mul]

/-- C165 for dipoles: component `d` at cell `j` of the field a source in component `c` of cell `i` adds, and component `c` at cell `i` of the field the same signal adds when fed into component `d` of cell `j`. -/
theorem C165_dipoles (hL : LayeredGrid g ls as) (hs : AllSoft g.sources) (hr : SoundMedium g) (s : ℕ → ℝ) {i j : Pos} (hi : Inner g ls i) (hj : Inner g ls j) (c d : Fin 3) (k : ℕ) :
    (1 + g.absorb j d) / g.invEps j d * (((g.fed s (pointProfile i c)).run k).E j d - (g.run k).E j d)
      = (1 + g.absorb i c) / g.invEps i c * (((g.fed s (pointProfile j d)).run k).E i c - (g.run k).E i c) := by
  have key := C165_reciprocity hL hs hr s (hi.profile hL c) (hj.profile hL d) k
  simp only [mul_assoc] at key
  rw [point_sum (hi.once hL).1 c, point_sum (hj.once hL).1 d, (hi.once hL).2, (hj.once hL).2] at key
  exact key.symm

/-- C165 for the point sources of the package (they feed E_z): source and detector exchanged. -/
theorem C165_point (hL : LayeredGrid g ls as) (hs : AllSoft g.sources) (hr : SoundMedium g) (s : ℕ → ℝ) {i j : Pos} (hi : Inner g ls i) (hj : Inner g ls j) (k : ℕ) :
    (1 + g.absorb j 2) / g.invEps j 2 * ((({ g with sources := .soft (fun t => addEz (fun _ _ => 0) i (s t)) :: g.sources } : FGrid ℝ).run k).E j 2 - (g.run k).E j 2)
      = (1 + g.absorb i 2) / g.invEps i 2 * ((({ g with sources := .soft (fun t => addEz (fun _ _ => 0) j (s t)) :: g.sources } : FGrid ℝ).run k).E i 2 - (g.run k).E i 2) := by
  have e : ∀ i : Pos, (fun t => addEz (fun _ _ => (0 : ℝ)) i (s t)) = fun t p c => s t * pointProfile i 2 p c := by
    intro i
    funext t p c
    unfold addEz pointProfile
    split_ifs <;> ring
  rw [e, e]
  exact C165_dipoles hL hs hr s hi hj 2 2 k

/-- In particular a source and a detector in the same material can change places without changing the recorded signal. -/
theorem C165_swap (hL : LayeredGrid g ls as) (hs : AllSoft g.sources) (hr : SoundMedium g) (s : ℕ → ℝ) {i j : Pos} (hi : Inner g ls i) (hj : Inner g ls j)
    (hm : g.invEps i 2 = g.invEps j 2 ∧ g.absorb i 2 = g.absorb j 2) (k : ℕ) :
    (({ g with sources := .soft (fun t => addEz (fun _ _ => 0) i (s t)) :: g.sources } : FGrid ℝ).run k).E j 2 - (g.run k).E j 2
      = (({ g with sources := .soft (fun t => addEz (fun _ _ => 0) j (s t)) :: g.sources } : FGrid ℝ).run k).E i 2 - (g.run k).E i 2 := by
  have key := C165_point hL hs hr s hi hj k
  rw [hm.1, hm.2] at key
  exact mul_left_cancel₀ (div_ne_zero (hr j hj.inside 2).2.2 (hr j hj.inside 2).1) key

/-! ### The grids the solver builds -/

lemma addLayers_sound (g : GridNumbers) (hg : 0 ≤ g.courant ∧ 0 ≤ g.spacing) (N : ℕ) (wl : ℝ) (hw : 0 < wl) : ∀ (L : List ((ℤ × ℤ) × ℂ)) (m : Materials ℝ),
    (∀ e ∈ L, (0 ≤ e.1.1 ∧ e.1.1 ≤ e.1.2 ∧ e.1.2 ≤ N) ∧ 0 < e.2.re ∧ 0 ≤ e.2.im) → (∀ p : Pos, p 1 < 3 → p 2 < 1 → ∀ c, 0 < m.invEps p c ∧ 0 ≤ m.absorb p c) →
    ∃ m', addLayers g ![N, 3, 1] wl m L = .ok m' ∧ ∀ p : Pos, p 1 < 3 → p 2 < 1 → ∀ c, (0 < m'.invEps p c ∧ 0 ≤ m'.absorb p c) ∧
      ((∀ e ∈ L, ¬ inRange e.1 (p 0)) → m'.absorb p c = m.absorb p c) := by
  intro L
  induction L with
  | nil =>
    intro m _ hm
    exact ⟨m, rfl, fun p hy hz c => ⟨hm p hy hz c, fun _ => rfl⟩⟩
  | cons e L ih =>
    intro m hL hm
    obtain ⟨r, eps⟩ := e
    obtain ⟨⟨h0, h1, h2⟩, hre, him⟩ := hL _ (List.mem_cons_self ..)
    change 0 < eps.re at hre
    change 0 ≤ eps.im at him
    obtain ⟨m1, hm1, hout, hin, htop, hab, -⟩ := C54_inside ![N, 3, 1] g.courant g.spacing ETA_0 m ⟨eps.re, some (layerCond wl eps)⟩
      ![sl (some r.1) (some r.2), .slice fullSlice, .slice fullSlice] (layerKey N r h0 h1 h2) rfl
    have hcond : 0 ≤ layerCond wl eps := by
      unfold layerCond SPEED_OF_LIGHT EPS_0
      have := Real.pi_pos
      positivity
    have heta : 0 ≤ ETA_0 := by
      unfold ETA_0 MU_0 SPEED_OF_LIGHT
      have := Real.pi_pos
      positivity
    have hm1' : ∀ p : Pos, p 1 < 3 → p 2 < 1 → ∀ c, 0 < m1.invEps p c ∧ 0 ≤ m1.absorb p c := by
      intro p hy hz c
      by_cases ha : addressed ![N, 3, 1] ![sl (some r.1) (some r.2), .slice fullSlice, .slice fullSlice] p
      · have he : 0 < m1.invEps p c := by
          by_cases ht : topPlane ![N, 3, 1] ![sl (some r.1) (some r.2), .slice fullSlice, .slice fullSlice] c p
          · rw [htop p c ha ht]
            refine (hm _ ?_ ?_ c).1
            · by_cases hc : c = 1
              · subst hc; rw [Function.update_self]; show 3 - 1 < 3; omega
              · rw [Function.update_of_ne (Ne.symm hc)]; exact hy
            · by_cases hc : c = 2
              · subst hc; rw [Function.update_self]; show 1 - 1 < 1; omega
              · rw [Function.update_of_ne (Ne.symm hc)]; exact hz
          · rw [hin p c ha ht]
            exact one_div_pos.2 hre
        refine ⟨he, ?_⟩
        rw [hab _ rfl p c ha]
        have h1 := hg.1
        have h2 := hg.2
        positivity
      · obtain ⟨a, b⟩ := hout p c ha
        rw [a, b]
        exact hm p hy hz c
    obtain ⟨m', hm', H⟩ := ih m1 (fun e he => hL e (List.mem_cons_of_mem _ he)) hm1'
    refine ⟨m', ?_, fun p hy hz c => ⟨(H p hy hz c).1, fun hno => ?_⟩⟩
    · unfold addLayers
      have : addLayer g ![N, 3, 1] wl m r eps = .ok m1 := hm1
      rw [this]
      exact hm'
    · have hnr : ¬ inRange r (p 0) := hno _ (List.mem_cons_self ..)
      rw [(H p hy hz c).2 fun e he => hno e (List.mem_cons_of_mem _ he)]
      exact (hout p c (mt (layer_addressed N r h0 h1 h2 p hy hz).1 hnr)).2

/-- C165 in the simulations of the package: in the grid `init_fdtd` builds for a stack of layers with positive real and non-negative imaginary part of the permittivity (and for free space), between the two absorbing
layers, a signal fed in at `x` and recorded at `x'` is, up to the ratio of the materials at both places, the signal fed in at `x'` and recorded at `x`. `none`: free space. -/
theorem C165_simulation (c : FdtdCfg) (s : ℝ) (h : LineSetup c s) (wl : ℝ) (hwl : 0 < wl) (layers : Option (List ℂ))
    (hlay : ∀ eps, layers = some eps → eps.length = c.thick.length ∧ ∀ e ∈ eps, 0 < e.re ∧ 0 ≤ e.im) :
    ∃ sim, initFdtd c s layers wl = .ok sim ∧ ∀ (x x' : ℕ), pmlCells c s ≤ x → x + pmlCells c s < xSize c s → pmlCells c s ≤ x' → x' + pmlCells c s < xSize c s → ∀ (f : ℕ → ℝ) (k : ℕ),
      (1 + sim.grid.absorb ![x', 1, 0] 2) / sim.grid.invEps ![x', 1, 0] 2 *
        ((({ sim.grid with sources := .soft (fun t => addEz (fun _ _ => 0) ![x, 1, 0] (f t)) :: sim.grid.sources } : FGrid ℝ).run k).E ![x', 1, 0] 2 - (sim.grid.run k).E ![x', 1, 0] 2)
      = (1 + sim.grid.absorb ![x, 1, 0] 2) / sim.grid.invEps ![x, 1, 0] 2 *
        ((({ sim.grid with sources := .soft (fun t => addEz (fun _ _ => 0) ![x', 1, 0] (f t)) :: sim.grid.sources } : FGrid ℝ).run k).E ![x, 1, 0] 2 - (sim.grid.run k).E ![x, 1, 0] 2) := by
  obtain ⟨g, prof, hg, -, -, -, H⟩ := initFdtd_line c s h wl
  have hN := xSize_toNat c s h.geometry
  have hP := h.pml
  obtain ⟨l, hl, hll, hin⟩ : ∃ l : List (ℤ × ℤ), layerRanges c s c.thick.length = .ok l ∧ l.length = c.thick.length ∧
      ∀ r ∈ l, pmlCells c s < r.1 ∧ r.1 ≤ r.2 ∧ r.2 < xSize c s - pmlCells c s := by
    obtain ⟨l, a, b, -, -, -, -, d⟩ := C59_layers_partial c s h.geometry
    exact ⟨l, a, b, fun r hr => ⟨(d r hr).1, (d r hr).2.1, (d r hr).2.2.2⟩⟩
  have hroom : 2 * pmlCells c s < xSize c s := by
    have hpos : 0 < l.length := by rw [hll]; exact List.length_pos_iff.2 h.geometry.layers
    have := hin _ (List.getElem_mem hpos)
    omega
  obtain ⟨hC0, hS0⟩ : 0 < g.courant ∧ 0 ≤ g.spacing := by
    obtain ⟨s', mm, cc, hs', hmm, hcc, hgeq⟩ := gridInit_inv hg
    obtain ⟨-, hmpos, -⟩ := maxCourant_ok hmm
    have hss := h.geometry.scaling
    rw [hgeq]
    cases hcc
    refine ⟨?_, ?_⟩
    · show 0 < 0.99 * mm
      positivity
    · show 0 ≤ UNIT_MAGNITUDE / s
      unfold UNIT_MAGNITUDE
      positivity
  obtain ⟨m, hm, hmat⟩ : ∃ m, addStack c s g ![(xSize c s).toNat, 3, 1] wl ⟨fun _ _ => 1 / 1, fun _ _ => 0⟩ layers = .ok m ∧ ∀ p : Pos, p 1 < 3 → p 2 < 1 → ∀ b, (0 < m.invEps p b ∧ 0 ≤ m.absorb p b) ∧
      ((p 0 : ℤ) < pmlCells c s ∨ xSize c s ≤ p 0 + pmlCells c s → m.absorb p b = 0) := by
    cases layers with
    | none => exact ⟨_, rfl, fun p _ _ b => ⟨⟨by norm_num, le_rfl⟩, fun _ => rfl⟩⟩
    | some eps =>
      obtain ⟨hlen, hpos⟩ := hlay eps rfl
      obtain ⟨m, hm, hh⟩ := addLayers_sound g ⟨hC0.le, hS0⟩ (xSize c s).toNat wl hwl (l.zip eps) ⟨fun _ _ => 1 / 1, fun _ _ => 0⟩ (by
        rintro ⟨r, e⟩ he
        obtain ⟨a, b, d⟩ := hin r (List.of_mem_zip he).1
        refine ⟨?_, hpos e (List.of_mem_zip he).2⟩
        simp only
        omega) (fun p _ _ b => ⟨by norm_num, le_rfl⟩)
      refine ⟨m, ?_, fun p hy hz b => ⟨(hh p hy hz b).1, fun hp => (hh p hy hz b).2 ?_⟩⟩
      · show (layerRanges c s eps.length >>= fun ranges => addLayers g ![(xSize c s).toNat, 3, 1] wl ⟨fun _ _ => 1 / 1, fun _ _ => 0⟩ (ranges.zip eps)) = _
        rw [hlen, hl]
        exact hm
      · rintro ⟨r, e⟩ he hr
        have := hin r (List.of_mem_zip he).1
        unfold inRange at hr
        simp only at hr
        omega
  refine ⟨_, H layers m hm, fun x x' hx1 hx2 hx1' hx2' f k => ?_⟩
  set G := builtGrid c s wl g m prof with hG
  set P := (pmlCells c s).toNat with hPn
  have hn : G.n = ![(xSize c s).toNat, 3, 1] := rfl
  have hLay : LayeredGrid G [mkPml 0 false P 1e-8 g.courant, mkPml 0 true P 1e-8 g.courant] [1] := by
    refine ⟨rfl, ?_, ?_, ?_, ?_, ?_, ?_, hC0⟩
    · intro a ha
      rw [List.mem_singleton.1 ha, hn]
      show 2 ≤ 3
      omega
    · intro Q hQ
      simp only [List.mem_cons, List.not_mem_nil, or_false] at hQ
      rcases hQ with rfl | rfl <;> exact ⟨1e-8, by norm_num, rfl, rfl, rfl, rfl⟩
    · intro Q hQ
      simp only [List.mem_cons, List.not_mem_nil, or_false] at hQ
      rcases hQ with rfl | rfl <;> exact (by decide : (0 : Fin 3) ∉ [(1 : Fin 3)])
    · intro Q hQ
      simp only [List.mem_cons, List.not_mem_nil, or_false] at hQ
      have : P ≤ (xSize c s).toNat := by omega
      rcases hQ with rfl | rfl <;> exact this
    · rw [List.pairwise_pair]
      intro _ p hp
      have h1 : p 0 < P := hp.1
      have h2 : (xSize c s).toNat ≤ p 0 + P := hp.2.1
      omega
    · intro Q hQ p hp hin b
      have hy : p 1 < 3 := mem_box.1 hp 1
      have hz : p 2 < 1 := mem_box.1 hp 2
      refine (hmat p hy hz b).2 ?_
      simp only [List.mem_cons, List.not_mem_nil, or_false] at hQ
      rcases hQ with rfl | rfl
      · have h1 : p 0 < P := hin
        omega
      · have h2 : (xSize c s).toNat ≤ p 0 + P := hin.1
        omega
  have hsound : SoundMedium G := by
    intro p hp b
    have hy : p 1 < 3 := mem_box.1 hp 1
    have hz : p 2 < 1 := mem_box.1 hp 2
    obtain ⟨⟨h1, h2⟩, -⟩ := hmat p hy hz b
    refine ⟨h1.ne', ?_, ?_⟩
    · show (1 : ℝ) / 1 ≠ 0
      norm_num
    · show 1 + m.absorb p b ≠ 0
      positivity
  have inner : ∀ x : ℕ, pmlCells c s ≤ x → x + pmlCells c s < xSize c s → Inner G [mkPml 0 false P 1e-8 g.courant, mkPml 0 true P 1e-8 g.courant] ![x, 1, 0] := by
    intro x h1 h2
    refine ⟨?_, ?_, ?_⟩
    · rw [mem_box]
      intro a
      rw [hn]
      fin_cases a
      · show x < (xSize c s).toNat
        omega
      · show 1 < 3
        omega
      · show 0 < 1
        omega
    · intro a ha
      rw [hn] at ha ⊢
      fin_cases a
      · show x ≠ 0 ∧ x + 1 ≠ (xSize c s).toNat
        omega
      · show 1 ≠ 0 ∧ 1 + 1 ≠ 3
        omega
      · exact absurd rfl ha
    · intro Q hQ hin
      simp only [List.mem_cons, List.not_mem_nil, or_false] at hQ
      rcases hQ with rfl | rfl
      · have h1 : x < P := hin
        omega
      · have h2 : (xSize c s).toNat ≤ x + P := hin.1
        omega
  have hsoft : AllSoft G.sources := by
    intro y hy
    have : y ∈ [_] := hy
    exact ⟨_, List.mem_singleton.1 this⟩
  exact C165_point hLay hsoft hsound f (inner x hx1 hx2) (inner x' hx1' hx2') k

/-- the default config, with the source in front of the stack and the detector behind it -/
example : ∃ c : FdtdCfg, LineSetup c 10 ∧ pmlCells c 10 ≤ (20 : ℕ) ∧ (20 : ℕ) + pmlCells c 10 < xSize c 10 ∧ pmlCells c 10 ≤ (110 : ℕ) ∧ (110 : ℕ) + pmlCells c 10 < xSize c 10 ∧
    ([⟨4, 1⟩, 2, 2, 2, 2, 2, 2, ⟨2, 3⟩] : List ℂ).length = c.thick.length := by
  refine ⟨expandThick (fdtdDefaultWith (3 / 2) 2 [1]), default_setup, ?_⟩
  have e : expandThick (fdtdDefaultWith (3 / 2) 2 [1]) = fdtdDefaultWith (3 / 2) 2 (List.replicate 8 1) := rfl
  have t : ∀ z : ℤ, pyTrunc (z : ℝ) = z := fun z => by unfold pyTrunc; split_ifs <;> simp
  have h1 : pmlCells (expandThick (fdtdDefaultWith (3 / 2) 2 [1])) 10 = 15 := by
    rw [e]
    unfold pmlCells
    rw [show _ * (10 : ℝ) = ((15 : ℤ) : ℝ) by norm_num [fdtdDefaultWith], t]
  have h3 : xSize (expandThick (fdtdDefaultWith (3 / 2) 2 [1])) 10 = 130 := by
    rw [e]
    unfold xSize
    rw [show (10 : ℝ) * _ = ((130 : ℤ) : ℝ) by norm_num [fdtdDefaultWith], t]
  rw [h1, h3]
  exact ⟨by norm_num, by norm_num, by norm_num, by norm_num, rfl⟩

end Nidn
