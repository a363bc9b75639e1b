/-
Model of one FDTD time step: nidn/fdtd/grid.py (`update_E`, `update_H`, `step`, `run`, `reset`),
nidn/fdtd/boundaries.py (periodic boundaries, PML updates), the source and detector hooks of
nidn/fdtd/sources.py and nidn/fdtd/detectors.py.
Domain of the model: all index lists are inside the grid and no PML is thicker than the grid (otherwise torch raises
inside the step); objects only act through the material tensors (their `update_H` hooks are empty and the
`update_E` hooks are never called, grid.py:291-292).
-/
import Verif.Model.FdtdGrid

namespace Nidn

/-- State of one placed PML, nidn/fdtd/boundaries.py:214-396. Positions are local: index 0 on `axis` is the
first plane of the layer. `psiE m q d` is `psi_E{m}[q, d]`. -/
structure Pml (K : Type) where
  axis : Fin 3
  high : Bool
  thick : ℕ
  bE : VField K
  cE : VField K
  bH : VField K
  cH : VField K
  psiE : Fin 3 → VField K
  psiH : Fin 3 → VField K
  phiE : VField K
  phiH : VField K

namespace Pml
variable {K : Type}

/-- first global plane of `loc`: `slice(None, t)` or `slice(-t, None)`, nidn/fdtd/boundaries.py:484, 507, 530, 553, 576, 599 -/
def offset (n : Pos) (P : Pml K) : ℕ := if P.high then n P.axis - P.thick else 0

/-- is the global cell inside `loc`? -/
def inside (n : Pos) (P : Pml K) (p : Pos) : Prop :=
  P.offset n ≤ p P.axis ∧ p P.axis < P.offset n + P.thick

instance (n : Pos) (P : Pml K) (p : Pos) : Decidable (P.inside n p) := by
  unfold inside; infer_instance

/-- global to local index -/
def toLocal (n : Pos) (P : Pml K) (p : Pos) : Pos := Function.update p P.axis (p P.axis - P.offset n)

/-- local to global index -/
def toGlobal (n : Pos) (P : Pml K) (q : Pos) : Pos := Function.update q P.axis (q P.axis + P.offset n)

/-- `self.shape`, nidn/fdtd/boundaries.py:490, 513, 536, 559, 582, 605 -/
def shape (n : Pos) (P : Pml K) : Pos := Function.update n P.axis P.thick

/-- `grid.F[loc]` -/
def view (n : Pos) (P : Pml K) (F : VField K) : VField K := fun q => F (P.toGlobal n q)

end Pml

/-- Which field component the difference along direction `d` is taken of when updating `psi_{m}[..., d]`:
nidn/fdtd/boundaries.py:438-445 and 466-473. `none`: that entry is only damped. -/
def psiPartner : Fin 3 → Fin 3 → Option (Fin 3)
  | 0, 1 => some 2
  | 0, 2 => some 1
  | 1, 2 => some 0
  | 1, 0 => some 2
  | 2, 0 => some 1
  | 2, 1 => some 0
  | _, _ => none

section
variable {K : Type} [Field K]

/-- `psi *= b` followed by the `+=` lines, nidn/fdtd/boundaries.py:429-445 (electric memories, backward differences
of the magnetic field). -/
def psiENew (n : Pos) (H : VField K) (P : Pml K) (m : Fin 3) : VField K := fun q d =>
  match psiPartner m d with
  | some f => P.psiE m q d * P.bE q d + dDn (P.view n H) d f q * P.cE q d
  | none => P.psiE m q d * P.bE q d

/-- nidn/fdtd/boundaries.py:457-473 (magnetic memories, forward differences of the electric field). -/
def psiHNew (n : Pos) (E : VField K) (P : Pml K) (m : Fin 3) : VField K := fun q d =>
  match psiPartner m d with
  | some f => P.psiH m q d * P.bH q d + dUp (P.shape n) (P.view n E) d f q * P.cH q d
  | none => P.psiH m q d * P.bH q d

/-- nidn/fdtd/boundaries.py:447-449 and 475-477. -/
def phiOf (psi : Fin 3 → VField K) : VField K := fun q c =>
  match c with
  | 0 => psi 0 q 1 - psi 0 q 2
  | 1 => psi 1 q 2 - psi 1 q 0
  | 2 => psi 2 q 0 - psi 2 q 1

/-- `PML.update_phi_E`, nidn/fdtd/boundaries.py:423-449. -/
def Pml.updatePhiE (n : Pos) (H : VField K) (P : Pml K) : Pml K :=
  { P with psiE := psiENew n H P, phiE := phiOf (psiENew n H P) }

/-- `PML.update_phi_H`, nidn/fdtd/boundaries.py:451-477. -/
def Pml.updatePhiH (n : Pos) (E : VField K) (P : Pml K) : Pml K :=
  { P with psiH := psiHNew n E P, phiH := phiOf (psiHNew n E P) }

/-- the constant of nidn/fdtd/boundaries.py:404-408 -/
def pmlTiny : K := 1 / 10 ^ 16

/-- `PML.update_E`, nidn/fdtd/boundaries.py:398-409. -/
def Pml.updateE (n : Pos) (courant : K) (invEps : VField K) (P : Pml K) (E : VField K) : VField K := fun p c =>
  if P.inside n p then E p c + courant * invEps p c * (P.phiE (P.toLocal n p) c + pmlTiny) else E p c

/-- `PML.update_H`, nidn/fdtd/boundaries.py:411-421. -/
def Pml.updateH (n : Pos) (courant : K) (invMu : VField K) (P : Pml K) (H : VField K) : VField K := fun p c =>
  if P.inside n p then H p c - courant * invMu p c * P.phiH (P.toLocal n p) c else H p c

/-- A placed boundary. -/
inductive FBoundary (K : Type) where
  | periodic (axis : Fin 3)
  | pml (P : Pml K)

/-- `boundary.update_phi_E()`; empty for periodic boundaries (nidn/fdtd/boundaries.py:79-84). -/
def FBoundary.updatePhiE (n : Pos) (H : VField K) : FBoundary K → FBoundary K
  | .periodic a => .periodic a
  | .pml P => .pml (P.updatePhiE n H)

/-- `boundary.update_phi_H()` (nidn/fdtd/boundaries.py:86-91, 451-477). -/
def FBoundary.updatePhiH (n : Pos) (E : VField K) : FBoundary K → FBoundary K
  | .periodic a => .periodic a
  | .pml P => .pml (P.updatePhiH n E)

/-- `E[0] = E[-1]` on the axis, nidn/fdtd/boundaries.py:177, 190, 203. -/
def periodicE (n : Pos) (a : Fin 3) (E : VField K) : VField K := fun p c =>
  if p a = 0 then E (Function.update p a (n a - 1)) c else E p c

/-- `H[-1] = H[0]` on the axis, nidn/fdtd/boundaries.py:182, 195, 208. -/
def periodicH (n : Pos) (a : Fin 3) (H : VField K) : VField K := fun p c =>
  if p a = n a - 1 then H (Function.update p a 0) c else H p c

/-- `boundary.update_E()` -/
def FBoundary.updateE (n : Pos) (courant : K) (invEps : VField K) (b : FBoundary K) (E : VField K) : VField K :=
  match b with
  | .periodic a => periodicE n a E
  | .pml P => P.updateE n courant invEps E

/-- `boundary.update_H()` -/
def FBoundary.updateH (n : Pos) (courant : K) (invMu : VField K) (b : FBoundary K) (H : VField K) : VField K :=
  match b with
  | .periodic a => periodicH n a H
  | .pml P => P.updateH n courant invMu H

/-- A placed source. `soft`: `PointSource` and `LineSource` add a value depending on the step counter to the electric field
(nidn/fdtd/sources.py:99-122, 294-322; the drive is worked out in Model/FdtdSources.lean). `plane`: `PlaneSource`
overwrites one component of E and one of H in its cells (nidn/fdtd/sources.py:502-512).
`SoftArbitraryPointSource` (nidn/fdtd/sources.py:530) is not modelled. -/
inductive FSource (K : Type) where
  | soft (drive : ℕ → VField K)
  | plane (cells : Pos → Bool) (epol hpol : Fin 3) (value : ℕ → K)

/-- `source.update_E()` -/
def FSource.updateE (t : ℕ) (s : FSource K) (E : VField K) : VField K :=
  match s with
  | .soft drive => fun p c => E p c + drive t p c
  | .plane cells epol _ value => fun p c => if cells p = true ∧ c = epol then value t else E p c

/-- `source.update_H()` -/
def FSource.updateH (t : ℕ) (s : FSource K) (H : VField K) : VField K :=
  match s with
  | .soft _ => H
  | .plane cells _ hpol value => fun p c => if cells p = true ∧ c = hpol then value t else H p c

/-- A placed `LineDetector` (nidn/fdtd/detectors.py:20-139), with its recordings. A `BlockDetector`
(146-280) records the same kind of samples, nested by axis; here flattened. -/
structure FDetector (K : Type) where
  cells : List Pos
  recE : List (List (Fin 3 → K))
  recH : List (List (Fin 3 → K))

/-- `detect_E`, nidn/fdtd/detectors.py:114-118. -/
def FDetector.detectE (E : VField K) (d : FDetector K) : FDetector K :=
  { d with recE := d.recE ++ [d.cells.map fun p => E p] }

/-- `detect_H`, nidn/fdtd/detectors.py:120-124. -/
def FDetector.detectH (H : VField K) (d : FDetector K) : FDetector K :=
  { d with recH := d.recH ++ [d.cells.map fun p => H p] }

/-- The mutable part and the placed things of a `Grid`. -/
structure FGrid (K : Type) where
  n : Pos
  courant : K
  invEps : VField K
  invMu : VField K
  absorb : VField K
  E : VField K
  H : VField K
  time : ℕ
  boundaries : List (FBoundary K)
  sources : List (FSource K)
  detectors : List (FDetector K)

/-- nidn/fdtd/grid.py:282-289: the in-place update of E by the curl of H, with absorption. -/
def bulkE (g : FGrid K) : VField K := fun p c =>
  g.E p c * ((1 - g.absorb p c) / (1 + g.absorb p c))
    + g.courant * g.invEps p c * curlH g.H p c / (1 + g.absorb p c)

/-- nidn/fdtd/grid.py:313-314. -/
def bulkH (g : FGrid K) : VField K := fun p c =>
  g.H p c - g.courant * g.invMu p c * curlE g.n g.E p c

/-- `boundary.update_E()` for every boundary in order, nidn/fdtd/grid.py:295-296 -/
def applyBoundariesE (n : Pos) (courant : K) (invEps : VField K) (bs : List (FBoundary K)) (E : VField K) : VField K :=
  bs.foldl (fun E b => b.updateE n courant invEps E) E

/-- nidn/fdtd/grid.py:321-322 -/
def applyBoundariesH (n : Pos) (courant : K) (invMu : VField K) (bs : List (FBoundary K)) (H : VField K) : VField K :=
  bs.foldl (fun H b => b.updateH n courant invMu H) H

/-- nidn/fdtd/grid.py:299-300 -/
def applySourcesE (t : ℕ) (ss : List (FSource K)) (E : VField K) : VField K :=
  ss.foldl (fun E s => s.updateE t E) E

/-- nidn/fdtd/grid.py:325-326 -/
def applySourcesH (t : ℕ) (ss : List (FSource K)) (H : VField K) : VField K :=
  ss.foldl (fun H s => s.updateH t H) H

/-- the boundaries after `update_phi_E` of all of them, nidn/fdtd/grid.py:280-281 -/
def FGrid.phasedE (g : FGrid K) : List (FBoundary K) := g.boundaries.map (FBoundary.updatePhiE g.n g.H)

/-- the boundaries after `update_phi_H` of all of them, nidn/fdtd/grid.py:310-311 -/
def FGrid.phasedH (g : FGrid K) : List (FBoundary K) := g.boundaries.map (FBoundary.updatePhiH g.n g.E)

/-- the electric field at the end of `update_E` -/
def FGrid.newE (g : FGrid K) : VField K :=
  applySourcesE g.time g.sources (applyBoundariesE g.n g.courant g.invEps g.phasedE (bulkE g))

/-- the magnetic field at the end of `update_H` -/
def FGrid.newH (g : FGrid K) : VField K :=
  applySourcesH g.time g.sources (applyBoundariesH g.n g.courant g.invMu g.phasedH (bulkH g))

/-- `Grid.update_E`, nidn/fdtd/grid.py:276-304. -/
def FGrid.updateE (g : FGrid K) : FGrid K :=
  { g with
    E := g.newE
    boundaries := g.phasedE
    detectors := g.detectors.map (FDetector.detectE g.newE) }

/-- `Grid.update_H`, nidn/fdtd/grid.py:306-330. -/
def FGrid.updateH (g : FGrid K) : FGrid K :=
  { g with
    H := g.newH
    boundaries := g.phasedH
    detectors := g.detectors.map (FDetector.detectH g.newH) }

/-- `Grid.step`, nidn/fdtd/grid.py:268-274. -/
def FGrid.step (g : FGrid K) : FGrid K :=
  { g.updateE.updateH with time := g.updateE.updateH.time + 1 }

/-- the loop of `Grid.run`, nidn/fdtd/grid.py:265-266. -/
def FGrid.run (g : FGrid K) : ℕ → FGrid K
  | 0 => g
  | k + 1 => (g.run k).step

/-- `Grid.reset`, nidn/fdtd/grid.py:332-336 (`*= 0.0` is setting to zero in a field; NaN is not modelled). -/
def FGrid.reset (g : FGrid K) : FGrid K :=
  { g with H := fun p c => g.H p c * 0, E := fun p c => g.E p c * 0, time := g.time * 0 }

/-- A grid straight after `Grid.__init__`, nidn/fdtd/grid.py:134-170, with scalar background materials. -/
def FGrid.fresh (n : Pos) (courant permittivity permeability : K) : FGrid K where
  n := n
  courant := courant
  invEps := fun _ _ => 1 / permittivity
  invMu := fun _ _ => 1 / permeability
  absorb := fun _ _ => 0
  E := fun _ _ => 0
  H := fun _ _ => 0
  time := 0
  boundaries := []
  sources := []
  detectors := []

end

/-! ### PML parameters (need `exp`, hence real numbers) -/

/-- `PML._sigma`, nidn/fdtd/boundaries.py:280-282. -/
noncomputable def pmlSigma (thick : ℕ) (v : ℝ) : ℝ := 40 * v ^ 3 / ((thick : ℝ) + 1) ^ 4

/-- entries of `bd.arange(t - 0.5, -0.5, -1.0)` resp. `bd.arange(0.5, t + 0.5, 1.0)` through `_sigma`:
`_set_sigmaE`, nidn/fdtd/boundaries.py:492-495, 515-518 (and the y, z copies 538, 561, 584, 607). -/
noncomputable def sigmaEProfile (high : Bool) (thick : ℕ) (i : ℕ) : ℝ :=
  if high then pmlSigma thick (0.5 + i) else pmlSigma thick (thick - 0.5 - i)

/-- `bd.arange(t - 1.0, 0, -1.0)` resp. `bd.arange(1.0, t, 1.0)` through `_sigma`, written to `[:-1]`; the last
plane keeps 0: `_set_sigmaH`, nidn/fdtd/boundaries.py:497-500, 520-523 (copies 543, 566, 589, 612). -/
noncomputable def sigmaHProfile (high : Bool) (thick : ℕ) (i : ℕ) : ℝ :=
  if i + 1 < thick then
    (if high then pmlSigma thick (1 + i) else pmlSigma thick (thick - 1 - i))
  else 0

/-- `bE`/`bH`, nidn/fdtd/boundaries.py:384, 391 with `k = 1` (line 238). -/
noncomputable def pmlB (a courant sigma : ℝ) : ℝ := Real.exp (-(sigma / 1 + a) * courant)

/-- `cE`/`cH`, nidn/fdtd/boundaries.py:385-396 with `k = 1`. -/
noncomputable def pmlC (a courant sigma : ℝ) : ℝ :=
  (pmlB a courant sigma - 1) * sigma / (sigma * 1 + a * 1 ^ 2)

/-- `sigmaE`/`sigmaH`: the profile along the own axis in the component of that axis, zero elsewhere,
nidn/fdtd/boundaries.py:494-495. -/
noncomputable def sigmaField (axis : Fin 3) (profile : ℕ → ℝ) : VField ℝ := fun q c =>
  if c = axis then profile (q axis) else 0

/-- `PML._calculate_parameters`, nidn/fdtd/boundaries.py:356-396: all memories zero. -/
noncomputable def mkPml (axis : Fin 3) (high : Bool) (thick : ℕ) (a courant : ℝ) : Pml ℝ where
  axis := axis
  high := high
  thick := thick
  bE := fun q c => pmlB a courant (sigmaField axis (sigmaEProfile high thick) q c)
  cE := fun q c => pmlC a courant (sigmaField axis (sigmaEProfile high thick) q c)
  bH := fun q c => pmlB a courant (sigmaField axis (sigmaHProfile high thick) q c)
  cH := fun q c => pmlC a courant (sigmaField axis (sigmaHProfile high thick) q c)
  psiE := fun _ _ _ => 0
  psiH := fun _ _ _ => 0
  phiE := fun _ _ => 0
  phiH := fun _ _ => 0

end Nidn
