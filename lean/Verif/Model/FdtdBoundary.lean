/-
Model of boundary placement, nidn/fdtd/boundaries.py: `Boundary._register_grid`, `PeriodicBoundary._register_grid`, `PML._register_grid`, `DomainBorderPML`.
Python objects are numbered; the state survives a raised exception, as it does in Python.
-/
import Verif.Model.FdtdGrid

namespace Nidn

/-- The two user-facing boundary classes. -/
inductive BoundaryClass where
  | periodic
  | pml
  deriving DecidableEq

/-- `self.__class__` of a boundary object once `_register_grid` may have changed it: still the user-facing class (whose updates do nothing resp.
fail), one of the three periodic subclasses, or one of the six PML subclasses together with the thickness handed to `_calculate_parameters` (`none`: not called). -/
inductive BoundaryKind where
  | unplaced
  | periodicOn (axis : Fin 3)
  | pmlOn (axis : Fin 3) (high : Bool) (thick : Option ℤ)
  deriving DecidableEq

/-- What boundary placement reads and writes of a grid: the list `grid.boundaries` (object numbers), the names set with `setattr(grid, self.name, …)` together with the attributes every grid has,
the six attributes `_xlow_boundary`, …, `_zhigh_boundary`, and the class of every object. -/
structure BoundaryState where
  boundaries : List ℕ
  attrs : List String
  side : Fin 3 → Bool → Option ℕ
  kind : ℕ → BoundaryKind

/-- `self.x` after `Boundary._handle_slice`: an int or a slice. -/
inductive IntOrSlice where
  | int (i : ℤ)
  | slice (s : PySlice ℤ)

/-- `Boundary._handle_slice`, nidn/fdtd/boundaries.py:62-77. An empty list fails at `s[0]`. -/
def boundarySlice : AxisKey → Except PyErr IntOrSlice
  | .list [] => .error .indexError
  | .list [i] => .ok (.int i)
  | .list _ => .error .valueError
  | .slice s =>
    match s.start, s.stop with
    | some a, some b => if a = b ∨ |a - b| = 1 then .ok (.int a) else .ok (.slice s)
    | _, _ => .ok (.slice s)

/-- `PML._handle_slice`, nidn/fdtd/boundaries.py:349-354. -/
def pmlSlice : AxisKey → Except PyErr (PySlice ℤ)
  | .list _ => .error .valueError
  | .slice s => .ok s

/-- `self.x == 0 or self.x == -1`, nidn/fdtd/boundaries.py:147 (a slice never equals a number). -/
def atEdge : IntOrSlice → Bool
  | .int i => i = 0 ∨ i = -1
  | .slice _ => false

/-- The tests of nidn/fdtd/boundaries.py:290-303 for one axis: `some (high, thickness)` for the low and high side of that axis. -/
def pmlEdge (s : PySlice ℤ) : Option (Bool × ℤ) :=
  match s.start, s.stop with
  | none, some b => if 0 < b then some (false, b) else none
  | some a, some b => if a = 0 ∧ 0 < b then some (false, b) else none
  | some a, none => if a < 0 then some (true, -a) else none
  | none, none => none

/-- `Boundary._register_grid` up to the name check, nidn/fdtd/boundaries.py:46-60: the name is set or the call fails; the append in line 47 has happened before. -/
def registerName (st : BoundaryState) (name : Option String) : Except PyErr BoundaryState :=
  match name with
  | none => .ok st
  | some nm => if nm ∈ st.attrs then .error .valueError else .ok { st with attrs := nm :: st.attrs }

/-- which of the three axis tests succeeds first -/
def firstEdge (x y z : IntOrSlice) : Option (Fin 3) :=
  if atEdge x then some 0 else if atEdge y then some 1 else if atEdge z then some 2 else none

/-- which of the six PML tests succeeds first, nidn/fdtd/boundaries.py:290-343 -/
def firstPmlEdge (x y z : PySlice ℤ) : Option (Fin 3 × Bool × ℤ) :=
  match pmlEdge x with
  | some (h, t) => some (0, h, t)
  | none => match pmlEdge y with
    | some (h, t) => some (1, h, t)
    | none => match pmlEdge z with
      | some (h, t) => some (2, h, t)
      | none => none

/-- set the class of one object -/
def BoundaryState.setKind (st : BoundaryState) (id : ℕ) (k : BoundaryKind) : BoundaryState :=
  { st with kind := Function.update st.kind id k }

/-- `setattr(grid, "_xlow_boundary", self)` and its siblings -/
def BoundaryState.setSide (st : BoundaryState) (a : Fin 3) (h : Bool) (id : ℕ) : BoundaryState :=
  { st with side := fun a' h' => if a' = a ∧ h' = h then some id else st.side a' h' }

/-- `PeriodicBoundary._register_grid` after the base class part, nidn/fdtd/boundaries.py:147-169. -/
def placePeriodic (st : BoundaryState) (id : ℕ) (x y z : IntOrSlice) : BoundaryState × Except PyErr Unit :=
  match firstEdge x y z with
  | none => (st, .error .indexError)
  | some a =>
    if (st.side a false).isSome ∨ (st.side a true).isSome then (st.setKind id (.periodicOn a), .error .attributeError)
    else (((st.setKind id (.periodicOn a)).setSide a false id).setSide a true id, .ok ())

/-- `PML._register_grid` after the base class part, nidn/fdtd/boundaries.py:290-347. -/
def placePml (st : BoundaryState) (id : ℕ) (x y z : PySlice ℤ) : BoundaryState × Except PyErr Unit :=
  match firstPmlEdge x y z with
  | none => (st, .error .indexError)
  | some (a, h, t) =>
    if (st.side a h).isSome then (st.setKind id (.pmlOn a h none), .error .attributeError)
    else ((st.setKind id (.pmlOn a h (some t))).setSide a h id, .ok ())

/-- the three `_handle_slice` calls in order -/
def slices3 {A : Type} (f : AxisKey → Except PyErr A) (x y z : AxisKey) : Except PyErr (A × A × A) := do
  let x' ← f x
  let y' ← f y
  let z' ← f z
  .ok (x', y', z')

/-- line 47: `self.grid.boundaries.append(self)` -/
def BoundaryState.append (st : BoundaryState) (id : ℕ) : BoundaryState := { st with boundaries := st.boundaries ++ [id] }

/-- `boundary._register_grid(grid, x, y, z)`, nidn/fdtd/boundaries.py:31-60, 142-169, 284-347: the state afterwards and the outcome. -/
def registerBoundary (st : BoundaryState) (id : ℕ) (cls : BoundaryClass) (name : Option String) (x y z : AxisKey) :
    BoundaryState × Except PyErr Unit :=
  match cls with
  | .periodic =>
    match slices3 boundarySlice x y z with
    | .error e => (st.append id, .error e)
    | .ok (x', y', z') =>
      match registerName (st.append id) name with
      | .error e => (st.append id, .error e)
      | .ok st' => placePeriodic st' id x' y' z'
  | .pml =>
    match slices3 pmlSlice x y z with
    | .error e => (st.append id, .error e)
    | .ok (x', y', z') =>
      match registerName (st.append id) name with
      | .error e => (st.append id, .error e)
      | .ok st' => placePml st' id x' y' z'

/-- one assignment `grid[x, y, z] = boundary` -/
structure BoundaryPlacement where
  id : ℕ
  cls : BoundaryClass
  name : Option String
  x : AxisKey
  y : AxisKey
  z : AxisKey

/-- a program placing boundaries one after the other; it stops at the first exception -/
def placeAll (st : BoundaryState) : List BoundaryPlacement → BoundaryState × Except PyErr Unit
  | [] => (st, .ok ())
  | b :: bs =>
    match (registerBoundary st b.id b.cls b.name b.x b.y b.z).2 with
    | .error e => ((registerBoundary st b.id b.cls b.name b.x b.y b.z).1, .error e)
    | .ok () => placeAll (registerBoundary st b.id b.cls b.name b.x b.y b.z).1 bs

/-- the state of a new grid whose attributes (E, H, Nx, …) are `attrs` -/
def BoundaryState.fresh (attrs : List String) : BoundaryState := ⟨[], attrs, fun _ _ => none, fun _ => .unplaced⟩

/-- an index slice `a:b` -/
def sl (a b : Option ℤ) : AxisKey := .slice ⟨a, b, none⟩

/-- `DomainBorderPML`, nidn/fdtd/boundaries.py:618-650, creating the objects `id`, …, `id + 5`. -/
def domainBorderPml (n : Pos) (border : ℤ) (id : ℕ) (st : BoundaryState) : BoundaryState × Except PyErr Unit :=
  if (n 0 : ℤ) < border * 2 ∨ (n 1 : ℤ) < border * 2 ∨ (n 2 : ℤ) < border * 2 then (st, .error .indexError)
  else placeAll st
    [⟨id, .pml, none, sl none none, sl none none, sl (some 0) (some border)⟩,
     ⟨id + 1, .pml, none, sl none none, sl none none, sl (some (-border)) none⟩,
     ⟨id + 2, .pml, none, sl (some 0) (some border), sl none none, sl (some border) (some (-border))⟩,
     ⟨id + 3, .pml, none, sl (some (-border)) none, sl none none, sl (some border) (some (-border))⟩,
     ⟨id + 4, .pml, none, sl (some border) (some (-border)), sl (some 0) (some border), sl (some border) (some (-border))⟩,
     ⟨id + 5, .pml, none, sl (some border) (some (-border)), sl (some (-border)) none, sl (some border) (some (-border))⟩]

end Nidn
