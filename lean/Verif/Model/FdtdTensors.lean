/-
Model of nidn/fdtd/objects.py for permittivities and conductivities given as tensors: `Object`, `AbsorbingObject`. Model/FdtdObjects.lean is the special case of numbers (`placeTensors_scalar`).
Tensors with more than four axes are refused (torch accepts some with leading axes of length one), and tensors longer than the object (torch accepts some of them for slices that reach beyond the
grid). If a placement fails half way the written part stays in Python; the model only returns the error.
-/
import Verif.Model.FdtdObjects

namespace Nidn

/-- a torch tensor: lengths of the axes and the value at every list of indices -/
structure TTensor (K : Type) where
  shape : List ℕ
  val : List ℕ → K

/-- what an object holds: `self.permittivity` and, if it is absorbing, `self.conductivity`; nidn/fdtd/objects.py:26-35, 162-173 -/
structure TensorObject (K : Type) where
  eps : TTensor K
  cond : Option (TTensor K)

section
variable {K : Type} [Field K]

/-- a number as tensor without axes -/
def TTensor.num (v : K) : TTensor K := ⟨[], fun _ => v⟩

/-- axes of length one appended behind: `t[..., None]` until there are four, nidn/fdtd/objects.py:188-189 -/
def TTensor.padBack (t : TTensor K) : TTensor K := ⟨t.shape ++ List.replicate (4 - t.shape.length) 1, fun i => t.val (i.take t.shape.length)⟩

/-- axes of length one in front, as torch broadcasts -/
def TTensor.padFront (t : TTensor K) : TTensor K := ⟨List.replicate (4 - t.shape.length) 1 ++ t.shape, fun i => t.val (i.drop (4 - t.shape.length))⟩

/-- `permittivity[:, :, :, None]` for tensors with three axes, nidn/fdtd/objects.py:66-67 -/
def TTensor.addAxis (t : TTensor K) : TTensor K := if t.shape.length = 3 then t.padBack else t

/-- does a tensor of four axes broadcast to these lengths without growing them? -/
def TTensor.fitsTo (t : TTensor K) (N : List ℕ) : Bool := decide (List.Forall₂ (fun d m => d = m ∨ d = 1) t.shape N)

/-- the value a broadcast tensor of four axes has at position `q`, component `c`: index 0 on axes of length one -/
def TTensor.at4 (t : TTensor K) (q : Pos) (c : Fin 3) : K :=
  t.val (List.zipWith (fun d i => if d = 1 then 0 else i) t.shape [q 0, q 1, q 2, c.val])

/-- `bd.ones((Nx, Ny, Nz, 3)) / self.permittivity` and the border planes, nidn/fdtd/objects.py:66-85, at local position `q`; compare `objectLocal` -/
def tensorLocal (n : Pos) (inv : VField K) (eps : VField K) (r : Fin 3 → AxisRange) : VField K := fun q c =>
  if 1 < (r c).size ∧ q c + 1 = (r c).size then inv (fun b => if b = c then n c - 1 else (r b).lo (n b) + q b) c
  else 1 / eps q c

/-- nidn/fdtd/objects.py:87-89; compare `writeInv` -/
def writeInvT (n : Pos) (inv : VField K) (eps : VField K) (r : Fin 3 → AxisRange) : VField K := fun p c =>
  if ∀ b : Fin 3, (r b).lo (n b) ≤ p b ∧ p b < (r b).hi (n b) then
    tensorLocal n inv eps r (fun b => (r b).loc (n b) (p b)) c
  else inv p c

/-- nidn/fdtd/objects.py:194-202; compare `writeAbsorb` -/
def writeAbsorbT (n : Pos) (courant spacing eta0 : K) (m : Materials K) (eps cond : VField K) (k : Fin 3 → AxisKey) (r : Fin 3 → AxisRange) : VField K := fun p c =>
  if ∀ b : Fin 3, rawLo (n b) (k b) ≤ p b ∧ p b < rawHi (n b) (k b) then
    1 / 2 * courant * tensorLocal n m.invEps eps r (fun b => rawLoc (n b) (k b) (r b) (p b)) c * cond (fun b => rawLoc (n b) (k b) (r b) (p b)) c * spacing * eta0
  else m.absorb p c

/-- `torch.broadcast_to(t, N)`, nidn/fdtd/objects.py:190-192: afterwards the tensor has exactly these lengths -/
def TTensor.broadcast (t : TTensor K) (N : List ℕ) : TTensor K := ⟨N, fun i => t.val (List.zipWith (fun d j => if d = 1 then 0 else j) t.shape i)⟩

/-- `grid[x, y, z] = object`: `Object._register_grid`, nidn/fdtd/objects.py:37-89, and `AbsorbingObject._register_grid`, 175-202: the materials of the grid and what the object holds afterwards. -/
def placeTensors (n : Pos) (courant spacing eta0 : K) (m : Materials K) (o : TensorObject K) (k : Fin 3 → AxisKey) : Except PyErr (Materials K × TensorObject K) := do
  let rx ← objectSlice (n 0) (k 0)
  let ry ← objectSlice (n 1) (k 1)
  let rz ← objectSlice (n 2) (k 2)
  let r : Fin 3 → AxisRange := ![rx, ry, rz]
  let N := [rx.size, ry.size, rz.size, 3]
  let e := o.eps.addAxis
  if 4 < e.shape.length ∨ e.padFront.fitsTo N = false then .error .runtimeError
  else if bordersFit n r = false ∨ objectFits n r = false then .error .runtimeError
  else match o.cond with
    | none => .ok (⟨writeInvT n m.invEps e.padFront.at4 r, m.absorb⟩, ⟨e, none⟩)
    | some s =>
      if 4 < s.shape.length ∨ s.padBack.fitsTo N = false then .error .runtimeError
      else if ∃ b : Fin 3, rawInRange (n b) (k b) = false then .error .indexError
      else if absorbFits n k r = false then .error .runtimeError
      else .ok (⟨writeInvT n m.invEps e.padFront.at4 r, writeAbsorbT n courant spacing eta0 m e.padFront.at4 s.padBack.at4 k r⟩, ⟨e, some (s.padBack.broadcast N)⟩)

end

end Nidn
