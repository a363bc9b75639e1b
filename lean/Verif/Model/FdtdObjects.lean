/-
Model of nidn/fdtd/objects.py: `Object`, `AbsorbingObject`. Permittivity and conductivity are scalars (as everywhere in NIDN); per-cell tensors are in Model/FdtdTensors.lean.
The name check is the one of Model/FdtdBoundary.lean and left out. If a placement fails half way the written part stays in Python; the model only returns the error.
-/
import Verif.Model.FdtdStep

namespace Nidn

/-- the two tensors objects write -/
structure Materials (K : Type) where
  invEps : VField K
  absorb : VField K

/-- `Object(permittivity)` (`cond = none`) or `AbsorbingObject(permittivity, conductivity)`; nidn/fdtd/objects.py:26-35, 162-173. -/
structure ObjectSpec (K : Type) where
  eps : K
  cond : Option K

/-- `slice(start, stop, None)` with both bounds -/
structure AxisRange where
  start : ℤ
  stop : ℤ

/-- nidn/fdtd/objects.py:104-107 -/
def objectStart (N : ℕ) : Option ℤ → ℤ
  | none => 0
  | some a => if a < 0 then N + a else a

/-- nidn/fdtd/objects.py:108-111 -/
def objectStop (N : ℕ) : Option ℤ → ℤ
  | none => N
  | some b => if b < 0 then N + b else b

/-- `Object._handle_slice`, nidn/fdtd/objects.py:91-113. -/
def objectSlice (N : ℕ) : AxisKey → Except PyErr AxisRange
  | .list [i] => .ok ⟨i, i + 1⟩
  | .list _ => .error .indexError
  | .slice s =>
    if s.step = none ∨ s.step = some 1 then
      .ok ⟨objectStart N s.start, objectStop N s.stop⟩
    else .error .indexError

/-- `self.Nx = abs(self.x.stop - self.x.start)`, nidn/fdtd/objects.py:61-63 -/
def AxisRange.size (r : AxisRange) : ℕ := (r.stop - r.start).natAbs

/-- how torch cuts off a slice bound -/
def clampIndex (N : ℕ) (v : ℤ) : ℕ := if v < 0 then (N + v).toNat else min v.toNat N

/-- first index torch selects for the slice -/
def AxisRange.lo (N : ℕ) (r : AxisRange) : ℕ := clampIndex N r.start

/-- one past the last index torch selects -/
def AxisRange.hi (N : ℕ) (r : AxisRange) : ℕ := clampIndex N r.stop

/-- position inside the object's own tensor; an axis of size one is broadcast -/
def AxisRange.loc (N : ℕ) (r : AxisRange) (i : ℕ) : ℕ := if r.size = 1 then 0 else i - r.lo N

section
variable {K : Type} [Field K]

/-- `self.inverse_permittivity` at local position `q`, nidn/fdtd/objects.py:66-85: `1/permittivity`, except that along every axis longer than one the last plane gets, in the component normal to it,
what the grid has in its own last plane. -/
def objectLocal (n : Pos) (inv : VField K) (eps : K) (r : Fin 3 → AxisRange) : VField K := fun q c =>
  if 1 < (r c).size ∧ q c + 1 = (r c).size then inv (fun b => if b = c then n c - 1 else (r b).lo (n b) + q b) c
  else 1 / eps

/-- do the right hand sides of lines 74-85 have the shape of their targets? -/
def bordersFit (n : Pos) (r : Fin 3 → AxisRange) : Bool :=
  decide (∀ c b : Fin 3, b ≠ c → 1 < (r c).size → (r b).hi (n b) - (r b).lo (n b) = (r b).size ∨ (r b).hi (n b) - (r b).lo (n b) = 1)

/-- does `self.inverse_permittivity` have the shape of the cells it is written to in lines 87-89 (size one is broadcast)? -/
def objectFits (n : Pos) (r : Fin 3 → AxisRange) : Bool :=
  decide (∀ b : Fin 3, (r b).hi (n b) - (r b).lo (n b) = (r b).size ∨ (r b).size = 1)

/-- lines 87-89 -/
def writeInv (n : Pos) (inv : VField K) (eps : K) (r : Fin 3 → AxisRange) : VField K := fun p c =>
  if ∀ b : Fin 3, (r b).lo (n b) ≤ p b ∧ p b < (r b).hi (n b) then
    objectLocal n inv eps r (fun b => (r b).loc (n b) (p b)) c
  else inv p c

/-- first and one past the last index of a key used directly to index a tensor: `absorption_factor[x, y, z, :]`, nidn/fdtd/objects.py:202 (one-element lists) -/
def rawLo (N : ℕ) : AxisKey → ℕ
  | .list l => match l with
    | [i] => if i < 0 then (N + i).toNat else i.toNat
    | _ => 0
  | .slice s => match s.start with
    | none => 0
    | some a => clampIndex N a

/-- see `rawLo` -/
def rawHi (N : ℕ) : AxisKey → ℕ
  | .list l => match l with
    | [i] => (if i < 0 then (N + i).toNat else i.toNat) + 1
    | _ => 0
  | .slice s => match s.stop with
    | none => N
    | some b => clampIndex N b

/-- is the key a list? -/
def AxisKey.isList : AxisKey → Bool
  | .list _ => true
  | .slice _ => false

/-- is a single list index inside the axis? otherwise IndexError -/
def rawInRange (N : ℕ) : AxisKey → Bool
  | .list [i] => decide (-(N : ℤ) ≤ i ∧ i < N)
  | _ => true

/-- Does the value of nidn/fdtd/objects.py:202 fit? Sizes must agree (size one is broadcast). With two lists the two axes collapse into one, in front if they are not adjacent, so unless the remaining axis comes
last it must have size one for the leading ones of the value to be dropped. -/
def absorbFits (n : Pos) (k : Fin 3 → AxisKey) (r : Fin 3 → AxisRange) : Bool :=
  decide (∀ b : Fin 3, rawHi (n b) (k b) - rawLo (n b) (k b) = (r b).size ∨ (r b).size = 1)
    && (!((k 1).isList && (k 2).isList) || (k 0).isList || decide ((r 0).size = 1))
    && (!((k 0).isList && (k 2).isList) || (k 1).isList || decide ((r 1).size = 1))

/-- position inside the object's tensor of a cell addressed by the raw key -/
def rawLoc (N : ℕ) (k : AxisKey) (r : AxisRange) (i : ℕ) : ℕ := if r.size = 1 then 0 else i - rawLo N k

/-- nidn/fdtd/objects.py:194-202 with scalar conductivity: `absorption_factor` and where it is written; `scale` is `courant_number`, `spacing`, `eta0`. -/
def writeAbsorb (n : Pos) (courant spacing eta0 : K) (m : Materials K) (eps cond : K) (k : Fin 3 → AxisKey) (r : Fin 3 → AxisRange) : VField K := fun p c =>
  if ∀ b : Fin 3, rawLo (n b) (k b) ≤ p b ∧ p b < rawHi (n b) (k b) then
    1 / 2 * courant * objectLocal n m.invEps eps r (fun b => rawLoc (n b) (k b) (r b) (p b)) c * cond * spacing * eta0
  else m.absorb p c

/-- `grid[x, y, z] = object`: `Object._register_grid`, nidn/fdtd/objects.py:37-89, and `AbsorbingObject._register_grid`, 175-202. -/
def objectPlace (n : Pos) (courant spacing eta0 : K) (m : Materials K) (o : ObjectSpec K) (k : Fin 3 → AxisKey) : Except PyErr (Materials K) := do
  let rx ← objectSlice (n 0) (k 0)
  let ry ← objectSlice (n 1) (k 1)
  let rz ← objectSlice (n 2) (k 2)
  let r : Fin 3 → AxisRange := ![rx, ry, rz]
  if bordersFit n r = false ∨ objectFits n r = false then .error .runtimeError
  else match o.cond with
    | none => .ok ⟨writeInv n m.invEps o.eps r, m.absorb⟩
    | some s =>
      if ∃ b : Fin 3, rawInRange (n b) (k b) = false then .error .indexError
      else if absorbFits n k r = false then .error .runtimeError
      else .ok ⟨writeInv n m.invEps o.eps r, writeAbsorb n courant spacing eta0 m o.eps s k r⟩

end

end Nidn
