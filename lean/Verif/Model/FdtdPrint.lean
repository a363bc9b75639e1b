/-
Model of printing an FDTD grid: `Grid.__repr__` and `Grid.__str__` (nidn/fdtd/grid.py:377-405), the `__repr__` and `__str__` of the components (boundaries.py:107-128, objects.py:135-156,
sources.py:123-140, 323-340, 507-527, detectors.py:122-134, 263-275, 484-493), and the positions that the `_register_grid` methods store for them.

Simplified: `SoftArbitraryPointSource`, which places a second component, is left out; the texts Python makes of numbers that are not integers (period, amplitude, phase shift, grid spacing,
courant number) are parameters; `repr` of a name is the name between quotes, which is right for names without quotes, backslashes and control characters.
-/
import Verif.Model.FdtdNames
import Verif.Model.FdtdPlane
import Verif.Model.FdtdBoundary

namespace Nidn

/-! ### Texts -/

/-- `str(i)` of an integer -/
def intStr (i : ℤ) : Str := if i < 0 then '-' :: Nat.toDigits 10 i.natAbs else Nat.toDigits 10 i.natAbs

/-- `"None"` -/
def noneStr : Str := ['N', 'o', 'n', 'e']

/-- `str` of an optional integer -/
def optStr : Option ℤ → Str
  | none => noneStr
  | some i => intStr i

/-- `"slice("` -/
def sliceOpen : Str := ['s', 'l', 'i', 'c', 'e', '(']

/-- `str(slice(a, b, c))` of Python -/
def sliceStr (s : PySlice ℤ) : Str := sliceOpen ++ (optStr s.start ++ ([',', ' '] ++ (optStr s.stop ++ ([',', ' '] ++ (optStr s.step ++ [')'])))))

/-- `text.replace(old, new)` of Python for a non-empty `old`: from the left, without overlaps -/
def pyReplace (old new : Str) : Str → Str
  | [] => []
  | c :: cs =>
    if old ≠ [] ∧ old.isPrefixOf (c :: cs) = true then new ++ pyReplace old new (cs.drop (old.length - 1)) else c :: pyReplace old new cs
  termination_by t => t.length
  decreasing_by
    · simp only [List.length_drop, List.length_cons]; omega
    · simp

/-- `_handle_slice(s)` inside `__str__`, after `str(s)`: boundaries.py:113-120, objects.py:141-148 -/
def cleanText (t : Str) : Str := pyReplace noneStr [] (pyReplace [',', ' '] [':'] (pyReplace [')'] [] (pyReplace sliceOpen [] t)))

/-- `str(self.x)` of a boundary or an object -/
def IntOrSlice.str : IntOrSlice → Str
  | .int i => intStr i
  | .slice s => sliceStr s

/-! ### Positions -/

/-- What a component keeps as `self.x`. -/
inductive AxisPos
  /-- point sources, sources.py:95 -/
  | cell (i : ℤ)
  /-- line sources and detectors, sources.py:208, detectors.py:61, 189, 349 -/
  | list (l : List ℤ)
  /-- plane sources, sources.py:396 -/
  | range (a b : ℤ)
  /-- boundaries and objects, boundaries.py:50-52, objects.py:57-59 -/
  | index (k : IntOrSlice)

/-- The classes of components as far as positions and texts differ. -/
inductive PrintClass
  | pointSource | lineSource | planeSource | lineDetector | blockDetector | currentDetector | periodic | pml | object | absorbing | anisotropic
  deriving DecidableEq

/-- how the class registers its name -/
def PrintClass.kind : PrintClass → CompKind
  | .pointSource | .lineSource | .planeSource => .source
  | .lineDetector | .blockDetector => .fieldDetector
  | .currentDetector => .currentDetector
  | .periodic | .pml => .boundary
  | .object => .object
  | .absorbing => .absorbing
  | .anisotropic => .anisotropic

/-- A component as it was made: its class, its `name`, and for sources the texts of the numbers (`args`) and the polarization. -/
structure PrintInfo where
  cls : PrintClass
  name : Option Str
  /-- `period=…, amplitude=…, phase_shift=…, ` of a source, sources.py:124-126 -/
  args : Str
  pol : String

/-- `self.x, self.y, self.z` at once from three lists -/
def IndexLists.axes (l : IndexLists) : Fin 3 → AxisPos := ![.list l.x, .list l.y, .list l.z]

/-- The position of a source or a detector, assigned at once: sources.py:90-95, 208 with 225-292, 396 with 414-500; detectors.py:61-112, 189-240, 349-400. The other classes assign one
axis after the other. -/
def tuplePosition (n : Pos) (i : PrintInfo) (kx ky kz : AxisKey) : Except PyErr (Fin 3 → AxisPos) :=
  match i.cls with
  | .pointSource =>
    match kx, ky, kz with
    | .list [x], .list [y], .list [z] => .ok ![.cell x, .cell y, .cell z]
    | _, _, _ => .error .valueError
  | .lineSource => (lineSourceIndices n kx ky kz).map IndexLists.axes
  | .planeSource => (planePlace n i.pol kx ky kz).map fun l => ![.range l.bx.1 l.bx.2, .range l.bY.1 l.bY.2, .range l.bz.1 l.bz.2]
  | .lineDetector => (lineDetectorIndices n kx ky kz).map IndexLists.axes
  | _ => (blockIndices n kx ky kz).map IndexLists.axes

/-- The position of a boundary or an object along one axis: boundaries.py:62-77, 349-354, objects.py:99-119. -/
def axisPosition (cls : PrintClass) (N : ℕ) (k : AxisKey) : Except PyErr AxisPos :=
  match cls with
  | .periodic => (boundarySlice k).map .index
  | .pml => (pmlSlice k).map fun s => .index (.slice s)
  | _ => (objectSlice N k).map fun r => .index (.slice ⟨some r.start, some r.stop, none⟩)

/-- what is stored for the three axes; `none`: the attribute does not exist -/
abbrev StoredPos := Fin 3 → Option AxisPos

/-- `self.x, self.y, self.z = …` -/
def storeAll (old : StoredPos) : Except PyErr (Fin 3 → AxisPos) → StoredPos × Option PyErr
  | .error e => (old, some e)
  | .ok p => (fun i => some (p i), none)

/-- `self.x = …`, `self.y = …`, `self.z = …` one after the other: boundaries.py:50-52, objects.py:57-59 -/
def storeEach (old : StoredPos) (rx ry rz : Except PyErr AxisPos) : StoredPos × Option PyErr :=
  match rx with
  | .error e => (old, some e)
  | .ok a =>
    match ry with
    | .error e => (![some a, old 1, old 2], some e)
    | .ok b =>
      match rz with
      | .error e => (![some a, some b, old 2], some e)
      | .ok c => (![some a, some b, some c], none)

/-- Storing the position of a component: the new attributes and the exception. -/
def storePosition (n : Pos) (i : PrintInfo) (old : StoredPos) (kx ky kz : AxisKey) : StoredPos × Option PyErr :=
  match i.cls with
  | .periodic | .pml | .object | .absorbing | .anisotropic =>
    storeEach old (axisPosition i.cls (n 0) kx) (axisPosition i.cls (n 1) ky) (axisPosition i.cls (n 2) kz)
  | _ => storeAll old (tuplePosition n i kx ky kz)

/-- A grid with its components: names and lists of Model/FdtdNames.lean, and the stored positions. -/
structure PrintGrid where
  names : GridNames
  pos : ℕ → StoredPos

/-- component `id` -/
def PrintInfo.comp (i : PrintInfo) (id : ℕ) : Comp := ⟨id, i.cls.kind, i.name⟩

/-- setting the position of component `id` -/
def setPos (pos : ℕ → StoredPos) (id : ℕ) (p : StoredPos) : ℕ → StoredPos := fun j => if j = id then p else pos j

/-- `grid[x, y, z] = component` with the keys that `__setitem__` hands over, grid.py:358-375. Boundaries store their position before their name (boundaries.py:50-60), all others after it
(objects.py:50-59, sources.py:82-95, 200-208, 388-396, detectors.py:53-61, 181-189, 341-349). `late` is the exception of what comes after both (profiles, shapes, sides). -/
def PrintGrid.place (n : Pos) (info : ℕ → PrintInfo) (g : PrintGrid) (id : ℕ) (kx ky kz : AxisKey) (late : Option PyErr) : PrintGrid × Option PyErr :=
  let c := (info id).comp id
  let s := storePosition n (info id) (g.pos id) kx ky kz
  if c.kind = .anisotropic then (g, some .notImplementedError)
  else if c.kind = .boundary then
    match s.2 with
    | some e => (⟨(g.names.place c (some e) none).1, setPos g.pos id s.1⟩, some e)
    | none => (⟨(g.names.place c none late).1, setPos g.pos id s.1⟩, (g.names.place c none late).2)
  else
    match (g.names.place c none none).2 with
    | some e => (⟨(g.names.place c none none).1, g.pos⟩, some e)
    | none => (⟨(g.names.place c none none).1, setPos g.pos id s.1⟩, s.2.or late)

/-- one placement of a program -/
structure PrintOp where
  id : ℕ
  kx : AxisKey
  ky : AxisKey
  kz : AxisKey
  late : Option PyErr

/-- one placement of a program -/
def PrintGrid.op (n : Pos) (info : ℕ → PrintInfo) (g : PrintGrid) (o : PrintOp) : PrintGrid × Option PyErr := g.place n info o.id o.kx o.ky o.kz o.late

/-- a program of placements that catches every exception -/
def PrintGrid.runOps (n : Pos) (info : ℕ → PrintInfo) (g : PrintGrid) (ops : List PrintOp) : PrintGrid := ops.foldl (fun g o => (g.op n info o).1) g

/-! ### Printing -/

/-- `self.__class__.__name__`; boundaries do not use it -/
def PrintClass.label : PrintClass → Str
  | .pointSource => "PointSource".toList
  | .lineSource => "LineSource".toList
  | .planeSource => "PlaneSource".toList
  | .lineDetector => "LineDetector".toList
  | .blockDetector => "BlockDetector".toList
  | .currentDetector => "CurrentDetector".toList
  -- the text of boundaries.py:108, whatever the class
  | .periodic | .pml => "PML".toList
  | .object => "Object".toList
  | .absorbing => "AbsorbingObject".toList
  | .anisotropic => "AnisotropicObject".toList

/-- `repr(self.name)` -/
def nameRepr : Option Str → Str
  | none => noneStr
  | some n => ['\''] ++ n ++ ['\'']

/-- `repr(component)`: boundaries.py:107-108, objects.py:135-136, detectors.py:122-123, 263-264, 484-485; sources.py:123-128, 323-328, 507-512 -/
def PrintInfo.repr (i : PrintInfo) : Str :=
  match i.cls with
  | .pointSource | .lineSource => i.cls.label ++ ['('] ++ i.args ++ "name=".toList ++ nameRepr i.name ++ [')']
  | .planeSource => i.cls.label ++ ['('] ++ i.args ++ "name=".toList ++ nameRepr i.name ++ ", polarization=".toList ++ nameRepr (some i.pol.toList) ++ [')']
  | _ => i.cls.label ++ ['('] ++ "name=".toList ++ nameRepr i.name ++ [')']

/-- the text between first and last index -/
def dotsText (a b : ℤ) : Str := '[' :: (intStr a ++ ([',', ' ', '.', '.', '.', ' ', ',', ' '] ++ (intStr b ++ [']'])))

/-- The text of one coordinate: `f"{self.x}"` (sources.py:132), `f"[{self.x[0]}, ... , {self.x[-1]}]"` (sources.py:332, detectors.py:127, 268, 489), `f"[{self.x.start}, ... , {self.x.stop}]"`
(sources.py:516), `_handle_slice(self.x)` (boundaries.py:122, objects.py:150); a missing attribute is an AttributeError. -/
def axisText : Option AxisPos → Except PyErr Str
  | none => .error .attributeError
  | some (.cell i) => .ok (intStr i)
  | some (.list []) => .error .indexError
  | some (.list (a :: l)) => .ok (dotsText a ((a :: l).getLast (by simp)))
  | some (.range a b) => .ok (dotsText a b)
  | some (.index k) => .ok (cleanText k.str)

/-- `"        @ x="` -/
def atX : Str := [' ', ' ', ' ', ' ', ' ', ' ', ' ', ' ', '@', ' ', 'x', '=']

/-- `f"        @ x={x}, y={y}, z={z}"` -/
def locationLine (x y z : Str) : Str := atX ++ (x ++ ([',', ' ', 'y', '='] ++ (y ++ ([',', ' ', 'z', '='] ++ z))))

/-- `"    " + repr(self) + "\n"` -/
def reprLine (r : Str) : Str := [' ', ' ', ' ', ' '] ++ (r ++ ['\n'])

/-- The two lines of a source or a detector, sources.py:130-136, detectors.py:125-131. -/
def plainEntry (r x y z : Str) : Str := reprLine r ++ (locationLine x y z ++ ['\n'])

/-- The two lines of a boundary or an object, boundaries.py:110-128, objects.py:138-156. -/
def slicedEntry (r x y z : Str) : Str :=
  let s := reprLine r ++ pyReplace [':', ','] [','] (locationLine x y z)
  (if s.getLast? = some ':' then s.dropLast else s) ++ ['\n']

/-- `str(component)` -/
def compText (i : PrintInfo) (p : StoredPos) : Except PyErr Str := do
  let x ← axisText (p 0)
  let y ← axisText (p 1)
  let z ← axisText (p 2)
  match i.cls with
  | .periodic | .pml | .object | .absorbing | .anisotropic => .ok (slicedEntry i.repr x y z)
  | _ => .ok (plainEntry i.repr x y z)

/-- One section of `Grid.__str__`: nothing for an empty list, grid.py:389-404. -/
def sectionText (info : ℕ → PrintInfo) (pos : ℕ → StoredPos) (title : Str) (cs : List Comp) : Except PyErr Str :=
  if cs = [] then .ok [] else (cs.mapM fun c => compText (info c.id) (pos c.id)).map fun ts => title ++ ts.flatten

/-- `Grid.__repr__`, grid.py:377-381: `spacing` and `courant` are the formatted numbers. -/
def gridRepr (n : Pos) (spacing courant : Str) : Str :=
  "Grid(shape=(".toList ++ intStr (n 0) ++ [','] ++ intStr (n 1) ++ [','] ++ intStr (n 2) ++ "), grid_spacing=".toList ++ spacing ++ ", courant_number=".toList ++ courant ++ [')']

/-- `Grid.__str__`, grid.py:383-405 -/
def PrintGrid.text (n : Pos) (spacing courant : Str) (info : ℕ → PrintInfo) (g : PrintGrid) : Except PyErr Str := do
  let s ← sectionText info g.pos "\nsources:\n".toList g.names.sources
  let d ← sectionText info g.pos "\ndetectors:\n".toList g.names.detectors
  let b ← sectionText info g.pos "\nboundaries:\n".toList g.names.boundaries
  let o ← sectionText info g.pos "\nobjects:\n".toList g.names.objects
  .ok (gridRepr n spacing courant ++ ['\n'] ++ s ++ d ++ b ++ o)

end Nidn
