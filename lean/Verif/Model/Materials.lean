/-
Model of the material database and of the layer builders: nidn/materials/material_collection.py, nidn/trcwa/load_material_data.py,
nidn/materials/find_closest_material.py, nidn/materials/layer_builder.py.
-/
import Verif.Model.Py
import Mathlib.Data.Complex.Basic
import Mathlib.Analysis.Complex.Norm

namespace Nidn

/-- One line of a material table (`Wavelength`, `n`, `k`), materials/data/*.csv. -/
structure MatRow (K : Type) where
  wl : K
  n : K
  k : K
  deriving DecidableEq, Repr

section Numbers
variable {K : Type} [Field K] [LinearOrder K]

/-- `Series.idxmin()` for a default integer index: the position of the first minimum. The loop keeps the best value seen so far (`best` at
`bestIdx`) and replaces it by strictly smaller values only. -/
def idxMinGo : List K → ℕ → K → ℕ → ℕ
  | [], _, _, bestIdx => bestIdx
  | v :: rest, i, best, bestIdx => if v < best then idxMinGo rest (i + 1) v i else idxMinGo rest (i + 1) best bestIdx

/-- `Series.idxmin()`; raises ValueError on an empty series. -/
def idxMin : List K → Except PyErr ℕ
  | [] => .error .valueError
  | v :: rest => .ok (idxMinGo rest 1 v 0)

/-- material_collection.py:100-107 (= load_material_data.py:19-24): the permittivity, as (real, imaginary) part, for one frequency. -/
def epsAt (table : List (MatRow K)) (freq : K) : Except PyErr (K × K) := do
  let wl ← pyDiv 1 freq                                                   -- wl = 1.0 / freq
  let i ← idxMin (table.map fun r => |r.wl - wl|)                         -- .sub(wl).abs().idxmin()
  match table[i]? with
  | none => .error .indexError
  | some e => pure (e.n * e.n - e.k * e.k, 2 * e.n * e.k)

/-- material_collection.py:85-111 `_load_material_data` (and load_material_data.py:5-27): one entry per frequency. -/
def loadMaterialData (table : List (MatRow K)) (freqs : List K) : Except PyErr (List (K × K)) :=
  freqs.mapM (epsAt table)

/-- `name.split(".csv")[0]` on the characters of a base name: everything before the first occurrence of ".csv". -/
def beforeCsv : List Char → List Char
  | [] => []
  | c :: rest => if ['.', 'c', 's', 'v'].isPrefixOf (c :: rest) then [] else c :: beforeCsv rest

/-- material_collection.py:66 the material name of a file: `file.split("/")[-1].split(".csv")[0]` for a base name without slashes. -/
def materialName (base : String) : String := String.ofList (beforeCsv base.toList)

/-- `torch.stack(eps_list).squeeze()`, material_collection.py:82: `eps_list` holds tensors of shape (N_freq, 1); all axes of length one are
dropped. `V` is the type of an entry. -/
inductive EpsMatrix (V : Type)
  | scalar (v : V)
  | vec (vs : List V)
  | mat (rows : List (List V))

/-- The result of `epsilon_matrix[i]`: a zero-axis or a one-axis tensor. -/
inductive EpsEntry (V : Type)
  | scalar (v : V)
  | vec (vs : List V)
  deriving DecidableEq

/-- `torch.stack(rows).squeeze()` for a non-empty list of rows of equal length; `RuntimeError` for an empty list. (A row of length zero cannot
occur: `__init__` rejects an empty frequency list.) -/
def stackSqueeze {V : Type} : List (List V) → Except PyErr (EpsMatrix V)
  | [] => .error .runtimeError
  | [[v]] => .ok (.scalar v)
  | [vs] => .ok (.vec vs)
  | rows => .ok (if rows.all (fun r => r.length = 1) then .vec rows.flatten else .mat rows)

/-- `epsilon_matrix[i]` -/
def EpsMatrix.get {V : Type} : EpsMatrix V → ℕ → Except PyErr (EpsEntry V)
  | .scalar _, _ => .error .indexError
  | .vec vs, i => match vs[i]? with | some v => .ok (.scalar v) | none => .error .indexError
  | .mat rows, i => match rows[i]? with | some r => .ok (.vec r) | none => .error .indexError

/-- The attributes of a `MaterialCollection`, material_collection.py:13-15. -/
structure MatCollection (V : Type) where
  names : List String
  matrix : EpsMatrix V

/-- material_collection.py:69 `to_skip is not None and name in to_skip` -/
def isSkipped : Option (List String) → String → Bool
  | none, _ => false
  | some l, name => l.contains name

/-- material_collection.py:62-79, the loop over the files found by glob: `(base name, table)` in glob order. -/
def loadFiles (toSkip : Option (List String)) (freqs : List K) :
    List (String × List (MatRow K)) → Except PyErr (List String × List (List (K × K)))
  | [] => .ok ([], [])
  | (file, table) :: rest =>
      if isSkipped toSkip (materialName file) then loadFiles toSkip freqs rest      -- lines 69-71
      else do
        let e ← loadMaterialData table freqs                                        -- line 74
        let tail ← loadFiles toSkip freqs rest
        pure (materialName file :: tail.1, e :: tail.2)                             -- line 77

/-- material_collection.py:16-32 and 50-83: construction of a collection. -/
def mkCollection (files : List (String × List (MatRow K))) (toSkip : Option (List String)) (freqs : List K) :
    Except PyErr (MatCollection (K × K)) := do
  if freqs.length = 0 then .error .valueError                              -- lines 27-28
  else
    let r ← loadFiles toSkip freqs files
    let m ← stackSqueeze r.2
    pure ⟨r.1, m⟩

/-- material_collection.py:34-48 `__getitem__` -/
def MatCollection.lookup {V : Type} (c : MatCollection V) (key : String) : Except PyErr (EpsEntry V) :=
  if c.names.contains key then c.matrix.get (c.names.idxOf key) else .error .keyError

/-- How an entry is read at frequency `f` when it is combined with a grid (broadcasting): a zero-axis tensor is used at every frequency. -/
def EpsEntry.at {V : Type} : EpsEntry V → ℕ → Option V
  | .scalar v, _ => some v
  | .vec vs, f => vs[f]?

/-! ### Layer builders -/

/-- `torch.linspace(0, 1, n)[i]` -/
def tick (n i : ℕ) : K := if n = 1 then 0 else (i : K) / ((n : K) - 1)

/-- layer_builder.py:33-46 `build_uniform_layer`; `mat` is the material collection. The result is indexed by x, y. -/
def buildUniform {V : Type} (mat : String → Except PyErr V) (grid : String) : Except PyErr (ℕ → ℕ → V) := do
  let g ← mat grid
  pure fun _ _ => g

/-- layer_builder.py:48-71 `build_squared_layer` -/
def buildSquared {V : Type} (mat : String → Except PyErr V) (nx ny : ℕ) (grid square : String) (a : K) : Except PyErr (ℕ → ℕ → V) := do
  let g ← mat grid
  let s ← mat square
  pure fun i j =>
    let x : K := tick nx i
    let y : K := tick ny j
    if (x > a ∧ x < 1 - a) ∧ (y > a ∧ y < 1 - a) then s else g

/-- layer_builder.py:73-97 `build_circle_layer` -/
def buildCircle {V : Type} (mat : String → Except PyErr V) (nx ny : ℕ) (grid circle : String) (radius xc yc : K) :
    Except PyErr (ℕ → ℕ → V) := do
  let g ← mat grid
  let c ← mat circle
  pure fun i j => if ((tick nx i : K) - xc) ^ 2 + (tick ny j - yc) ^ 2 < radius ^ 2 then c else g

end Numbers

/-! ### Closest material -/

/-- The contract of `torch.min(t, dim)` used at find_closest_material.py:38: the index of *some* minimal entry of a non-empty list (torch does not
promise the first one). -/
structure ArgMin where
  pick : List ℝ → ℕ
  valid : ∀ l : List ℝ, l ≠ [] → ∃ h : pick l < l.length, ∀ v ∈ l, l[pick l] ≤ v

/-- find_closest_material.py:31-37 for one grid cell: `comparisons` averaged over the frequencies, one number per material. `cell f` is the
cell's permittivity at frequency `f`; a material is a function of the frequency index. -/
noncomputable def meanDistance (nf : ℕ) (cell mat : ℕ → ℂ) : ℝ :=
  ((List.range nf).map fun f => ‖cell f - mat f‖).sum / nf

/-- find_closest_material.py:6-40 `_find_closest_material` for one grid cell: (distance, index). -/
noncomputable def findClosest (am : ArgMin) (nf : ℕ) (mats : List (ℕ → ℂ)) (cell : ℕ → ℂ) : Option ℝ × ℕ :=
  let cmp := mats.map (meanDistance nf cell)
  (cmp[am.pick cmp]?, am.pick cmp)

end Nidn
