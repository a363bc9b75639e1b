/-
Model of the names of components on an FDTD grid and of storing detector readings: the bookkeeping part of the `_register_grid` methods (objects.py, sources.py,
detectors.py, boundaries.py), `Grid.add_*`, `Grid.save_simulation` and `Grid.save_data` (grid.py).

Where a component sits is modelled elsewhere (FdtdGrid, FdtdObjects, FdtdBoundary); here only whether that part raises matters, so it is a parameter.
-/
import Verif.Model.Runs

namespace Nidn

/-- The classes of components that differ in how they register. -/
inductive CompKind
  | object
  | absorbing
  | anisotropic
  | source
  /-- `LineDetector` and `BlockDetector` -/
  | fieldDetector
  | currentDetector
  | boundary
  deriving DecidableEq

/-- A component: which object it is, its class, and the `name` it was made with. -/
structure Comp where
  id : ℕ
  kind : CompKind
  name : Option Str
  deriving DecidableEq

/-- What an attribute of a grid holds. -/
inductive GridAttr
  /-- something the class or `__init__` defines, grid.py:86-170 -/
  | own
  /-- a component -/
  | comp (id : ℕ)
  /-- the text of `save_simulation`, grid.py:436 -/
  | simName
  deriving DecidableEq

/-- The part of a grid's state that concerns names, grid.py:153-170. -/
structure GridNames where
  attr : Str → Option GridAttr
  sources : List Comp
  boundaries : List Comp
  detectors : List Comp
  objects : List Comp
  /-- whether `folder` is set -/
  folder : Bool

/-- `setattr(grid, name, value)` -/
def GridNames.set (g : GridNames) (n : Str) (v : GridAttr) : GridNames := { g with attr := fun m => if m = n then some v else g.attr m }

/-- `self.grid.objects.append(self)` and the like: objects.py:49, sources.py:81, 199, 387, 603, detectors.py:52, 180, 340, boundaries.py:48. -/
def GridNames.append (g : GridNames) (c : Comp) : GridNames :=
  match c.kind with
  | .object | .absorbing | .anisotropic => { g with objects := g.objects ++ [c] }
  | .source => { g with sources := g.sources ++ [c] }
  | .fieldDetector | .currentDetector => { g with detectors := g.detectors ++ [c] }
  | .boundary => { g with boundaries := g.boundaries ++ [c] }

/-- The check of the name and setting it: objects.py:50-56, sources.py:82-88, 200-206, 388-394, 604-610, detectors.py:53-59, 181-187, 341-347, boundaries.py:54-60. -/
def GridNames.bindName (g : GridNames) (c : Comp) : GridNames × Option PyErr :=
  match c.name with
  | none => (g, none)
  | some n => if (g.attr n).isSome then (g, some .valueError) else (g.set n (.comp c.id), none)

/-- `grid[x, y, z] = component`, grid.py:358-375, the bookkeeping of `_register_grid`. `early` is the exception of handling the position for boundaries, which comes before the name
(boundaries.py:49-51), `late` the exception of everything after the name (positions of the other components, objects.py:57-97; classes of boundaries, boundaries.py:147-169, 290-350).
The exception is returned beside the grid because the grid keeps what was done before it. AnisotropicObject: objects.py:224-236. -/
def GridNames.place (g : GridNames) (c : Comp) (early late : Option PyErr) : GridNames × Option PyErr :=
  if c.kind = .anisotropic then (g, some .notImplementedError) else
  match (if c.kind = .boundary then early else none) with
  | some e => (g.append c, some e)
  | none =>
    match (g.append c).bindName c with
    | (g2, some e) => (g2, some e)
    | (g2, none) => (g2, late)

/-- `add_source`, `add_boundary`, `add_detector`, `add_object`, grid.py:338-356: `_register_grid(self)` without a position. Only absorbing objects have default positions (`None`, objects.py:172-174),
which `_handle_slice` rejects with ValueError (objects.py:57, 119) after the object was appended and named; for all others Python raises TypeError for the missing arguments. -/
def GridNames.addComp (g : GridNames) (c : Comp) : GridNames × Option PyErr :=
  match c.kind with
  | .absorbing | .anisotropic => g.place c none (some .valueError)
  | _ => (g, some .typeError)

/-- `full_sim_name` -/
def simNameAttr : Str := ['f', 'u', 'l', 'l', '_', 's', 'i', 'm', '_', 'n', 'a', 'm', 'e']

/-- `save_simulation`, grid.py:407-439: sets `folder` and `full_sim_name`. -/
def GridNames.saveSimulation (g : GridNames) : GridNames := { g.set simNameAttr .simName with folder := true }

/-- `dic[key] = value` of a Python dictionary, in insertion order -/
def dictPut {β : Type} (l : List (Str × β)) (k : Str) (v : β) : List (Str × β) :=
  if k ∈ l.map Prod.fst then l.map fun e => if e.1 = k then (k, v) else e else l ++ [(k, v)]

/-- `" (E)"` -/
def suffixE : Str := [' ', '(', 'E', ')']

/-- `" (H)"` -/
def suffixH : Str := [' ', '(', 'H', ')']

/-- One turn of the loop of `save_data`, grid.py:503-504: `detector.name + " (E)"` is a TypeError for `None`; `detector_values()` of a current detector has the key `I` only, detectors.py:496-498. -/
def saveStep {β : Type} (record : ℕ → β × β) (dic : List (Str × β)) (c : Comp) : Except PyErr (List (Str × β)) :=
  -- the right side of an assignment to an item is evaluated before the key, grid.py:503
  if c.kind = .currentDetector then .error .keyError else
  match c.name with
  | none => .error .typeError
  | some n => .ok (dictPut (dictPut dic (n ++ suffixE) (record c.id).1) (n ++ suffixH) (record c.id).2)

/-- `save_data`, grid.py:490-505: the arrays that are written, with their names. `record` gives what each detector has recorded so far. -/
def GridNames.saveData {β : Type} (g : GridNames) (record : ℕ → β × β) : Except PyErr (List (Str × β)) :=
  if g.folder then g.detectors.foldlM (saveStep record) [] else .error .exception

/-- What a program may do with a grid, as far as names are concerned. -/
inductive GridOp
  | place (c : Comp) (early late : Option PyErr)
  | add (c : Comp)
  | saveSimulation

/-- One such operation and its exception. -/
def GridNames.op (g : GridNames) : GridOp → GridNames × Option PyErr
  | .place c e l => g.place c e l
  | .add c => g.addComp c
  | .saveSimulation => (g.saveSimulation, none)

/-- A program that catches every exception. -/
def GridNames.runOps (g : GridNames) (ops : List GridOp) : GridNames := ops.foldl (fun g o => (g.op o).1) g

end Nidn
