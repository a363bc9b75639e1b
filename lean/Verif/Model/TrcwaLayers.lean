/-
Model of the layer bookkeeping of the RCWA object (nidn/trcwa/trcwa.py, class TRCWA), of the stack construction in
nidn/trcwa/init_trcwa.py and of the distribution of a permittivity grid to patterned layers (`GridLayer_geteps`).

The numerical work (Fourier transform, eigen problems) is not part of this file: a patterned layer receives "its pattern".
-/
import Verif.Model.Py

namespace Nidn

/-- An entry of `id_list`, trcwa.py:43-46: `[type, No., No. in patterned/uniform(, No. in its family)]`. Type 0 is uniform, 1 grid,
2 Fourier; the fourth component does not exist for uniform layers. -/
structure LayerId where
  type : ℕ
  no : ℕ
  noInKind : ℕ
  noInFamily : Option ℕ
  deriving DecidableEq, Repr

/-- The bookkeeping part of the state of `TRCWA`, trcwa.py:39-67. `E` permittivities, `P` Fourier parameters, `T` thicknesses. -/
structure TrcwaState (E P T : Type) where
  layerN : ℕ := 0
  thicknessList : List T := []
  idList : List LayerId := []
  uniformEpList : List E := []
  uniformN : ℕ := 0
  patternedN : ℕ := 0
  gridLayerN : ℕ := 0
  gridLayerNxyList : List (ℕ × ℕ) := []
  fourierLayerN : ℕ := 0
  fourierLayerParams : List P := []

variable {E P T : Type}

/-- trcwa.py:69-77 `Add_LayerUniform` -/
def TrcwaState.addLayerUniform (s : TrcwaState E P T) (thickness : T) (eps : E) : TrcwaState E P T :=
  { s with
    idList := s.idList ++ [⟨0, s.layerN, s.uniformN, none⟩]
    uniformEpList := s.uniformEpList ++ [eps]
    thicknessList := s.thicknessList ++ [thickness]
    layerN := s.layerN + 1
    uniformN := s.uniformN + 1 }

/-- trcwa.py:79-86 `Add_LayerGrid` -/
def TrcwaState.addLayerGrid (s : TrcwaState E P T) (thickness : T) (nx ny : ℕ) : TrcwaState E P T :=
  { s with
    thicknessList := s.thicknessList ++ [thickness]
    gridLayerNxyList := s.gridLayerNxyList ++ [(nx, ny)]
    idList := s.idList ++ [⟨1, s.layerN, s.patternedN, some s.gridLayerN⟩]
    layerN := s.layerN + 1
    gridLayerN := s.gridLayerN + 1
    patternedN := s.patternedN + 1 }

/-- trcwa.py:88-95 `Add_LayerFourier` -/
def TrcwaState.addLayerFourier (s : TrcwaState E P T) (thickness : T) (params : P) : TrcwaState E P T :=
  { s with
    thicknessList := s.thicknessList ++ [thickness]
    fourierLayerParams := s.fourierLayerParams ++ [params]
    idList := s.idList ++ [⟨2, s.layerN, s.patternedN, some s.fourierLayerN⟩]
    layerN := s.layerN + 1
    patternedN := s.patternedN + 1
    fourierLayerN := s.fourierLayerN + 1 }

/-- One of the three calls. -/
inductive AddOp (E P T : Type)
  | uniform (t : T) (eps : E)
  | grid (t : T) (nx ny : ℕ)
  | fourier (t : T) (params : P)

/-- Performing a call. -/
def TrcwaState.add (s : TrcwaState E P T) : AddOp E P T → TrcwaState E P T
  | .uniform t e => s.addLayerUniform t e
  | .grid t nx ny => s.addLayerGrid t nx ny
  | .fourier t p => s.addLayerFourier t p

/-- A whole sequence of calls on a fresh object. -/
def TrcwaState.build (ops : List (AddOp E P T)) : TrcwaState E P T := ops.foldl TrcwaState.add {}

/-- Reading a layer back the way the class does: thickness by layer number (trcwa.py:744 and 765), permittivity through
`Uniform_ep_list[id_list[i][2]]` (trcwa.py:137-138), grid size and Fourier parameters through the family number `id_list[i][3]`. -/
def TrcwaState.readLayer (s : TrcwaState E P T) (i : ℕ) : Option (AddOp E P T) := do
  let ident ← s.idList[i]?
  let t ← s.thicknessList[ident.no]?
  match ident.type with
  | 0 => return .uniform t (← s.uniformEpList[ident.noInKind]?)
  | 1 => let xy ← s.gridLayerNxyList[← ident.noInFamily]?; return .grid t xy.1 xy.2
  | _ => return .fourier t (← s.fourierLayerParams[← ident.noInFamily]?)

/-! ### Distributing a permittivity grid (init_trcwa.py, `GridLayer_geteps`) -/

/-- A tensor with at most three axes; entries outside the shape are irrelevant. -/
inductive EpsTensor (K : Type)
  | d1 (n : ℕ) (f : ℕ → K)
  | d2 (m n : ℕ) (f : ℕ → ℕ → K)
  | d3 (l m n : ℕ) (f : ℕ → ℕ → ℕ → K)

/-- `t.squeeze(0)`: drops the first axis if it has length one. (A one-axis tensor of length one would become a scalar; this cannot
happen for the two calls in init_trcwa.py:23-24 and is left unchanged here.) -/
def EpsTensor.squeeze0 {K : Type} : EpsTensor K → EpsTensor K
  | .d3 l m n f => if l = 1 then .d2 m n (f 0) else .d3 l m n f
  | .d2 m n f => if m = 1 then .d1 n (f 0) else .d2 m n f
  | .d1 n f => .d1 n f

/-- `len(t)` -/
def EpsTensor.len {K : Type} : EpsTensor K → ℕ
  | .d1 n _ => n
  | .d2 m _ _ => m
  | .d3 l _ _ _ => l

/-- `t[0].ndim` -/
def EpsTensor.ndim0 {K : Type} : EpsTensor K → ℕ
  | .d1 _ _ => 0
  | .d2 _ _ _ => 1
  | .d3 _ _ _ _ => 2

/-- The pattern(s) handed to `Epsilon_fft` for one layer: one for an isotropic layer, three for an "anisotropic" one. -/
inductive Pattern (K : Type)
  | iso (p : ℕ → ℕ → K)
  | aniso (px py pz : ℕ → ℕ → K)

/-- `torch.reshape(v[ptr : ptr + n*m], [n, m])` for a one-axis tensor of length `len`: fails unless the slice has `n*m` entries. -/
def reshapeSlice1 {K : Type} (len : ℕ) (v : ℕ → K) (ptr n m : ℕ) : Except PyErr (ℕ → ℕ → K) :=
  if min len (ptr + n * m) - ptr = n * m then .ok fun p q => v (ptr + (p * m + q)) else .error .runtimeError

/-- `torch.reshape(v[ptr : ptr + n*m], [n, m])` for a two-axis tensor of shape `(rows, cols)`; the slice is along the first axis. -/
def reshapeSlice2 {K : Type} (rows cols : ℕ) (v : ℕ → ℕ → K) (ptr n m : ℕ) : Except PyErr (ℕ → ℕ → K) :=
  if (min rows (ptr + n * m) - ptr) * cols = n * m then
    .ok fun p q => v (ptr + (p * m + q) / cols) ((p * m + q) % cols)
  else .error .runtimeError

/-- trcwa.py:226-241, the choice of `ep_grid` for layer number `i`, with running offset `ptr` and the layer's grid size. (For `i = 0`
python would take index -1; layer 0 is never a grid layer in NIDN, the model reports an error there.) -/
def epGridFor {K : Type} (ep : EpsTensor K) (i ptr nx ny : ℕ) : Except PyErr (Pattern K) :=
  if ep.len = 3 ∧ ep.ndim0 > 0 then                                      -- line 230
    match ep with
    | .d3 _ m n f => do
        let a ← reshapeSlice2 m n (f 0) ptr nx ny
        let b ← reshapeSlice2 m n (f 1) ptr nx ny
        let c ← reshapeSlice2 m n (f 2) ptr nx ny
        pure (.aniso a b c)
    | .d2 _ n f => do
        let a ← reshapeSlice1 n (f 0) ptr nx ny
        let b ← reshapeSlice1 n (f 1) ptr nx ny
        let c ← reshapeSlice1 n (f 2) ptr nx ny
        pure (.aniso a b c)
    | .d1 _ _ => .error .typeError                                       -- excluded by the test
  else
    match ep with
    | .d3 _ _ n f =>                                                     -- line 236
        if 1 ≤ i ∧ i - 1 < n then .ok (.iso fun p q => f p q (i - 1)) else .error .indexError
    | .d2 m n f => Pattern.iso <$> reshapeSlice2 m n f ptr nx ny         -- line 238
    | .d1 n f => Pattern.iso <$> reshapeSlice1 n f ptr nx ny

/-- trcwa.py:214-256 `GridLayer_geteps`: loop over all layers; non-grid layers are skipped. Returns the list of
(layer number, pattern); the first failing reshape aborts. -/
def gridLayerGeteps {K : Type} (s : TrcwaState E P T) (ep : EpsTensor K) : Except PyErr (List (ℕ × Pattern K)) :=
  go s.idList 0 0 0
where
  /-- the loop, with loop index `i`, `ptri` and `ptr` of trcwa.py:220-222 -/
  go : List LayerId → ℕ → ℕ → ℕ → Except PyErr (List (ℕ × Pattern K))
    | [], _, _, _ => .ok []
    | ident :: rest, i, ptri, ptr =>
      if ident.type ≠ 1 then go rest (i + 1) ptri ptr
      else
        match s.gridLayerNxyList[ptri]? with
        | none => .error .indexError
        | some (nx, ny) => do
            let p ← epGridFor ep i ptr nx ny
            let tail ← go rest (i + 1) (ptri + 1) (ptr + nx * ny)
            pure ((ident.no, p) :: tail)

/-- The stack and the patterns produced by `_init_trcwa`. -/
structure TrcwaStack (K T : Type) where
  state : TrcwaState K Unit T
  patterns : List (ℕ × Pattern K)

/-- init_trcwa.py:56-59: the thickness used for material layer `layer`. -/
def layerThickness (perLayer : List T) (layer : ℕ) : Except PyErr T :=
  if perLayer.length = 1 then
    match perLayer[0]? with | some t => .ok t | none => .error .indexError
  else
    match perLayer[layer]? with | some t => .ok t | none => .error .indexError

/-- init_trcwa.py:53-64: the loop that adds the material layers. -/
def addMaterialLayers {K : Type} (nx ny : ℕ) (eps : EpsTensor K) (perLayer : List T) :
    List ℕ → TrcwaState K Unit T → Except PyErr (TrcwaState K Unit T)
  | [], s => .ok s
  | layer :: rest, s => do
      let t ← layerThickness perLayer layer
      if nx > 1 ∨ ny > 1 then
        addMaterialLayers nx ny eps perLayer rest (s.addLayerGrid t nx ny)
      else
        match eps with
        | .d1 n f => if layer < n then addMaterialLayers nx ny eps perLayer rest (s.addLayerUniform t (f layer))
                     else .error .indexError
        | _ => .error .typeError

/-- init_trcwa.py:9-86 `_init_trcwa`: the structural part for an `(nx, ny, nLayers)` grid `f`. `one` is the literal thickness 1.0. -/
def initTrcwa {K : Type} (nx ny nLayers : ℕ) (f : ℕ → ℕ → ℕ → K) (top bottom : K) (perLayer : List T) (one : T) :
    Except PyErr (TrcwaStack K T) := do
  let eps := (EpsTensor.d3 nx ny nLayers f).squeeze0.squeeze0                        -- lines 23-24
  let s0 : TrcwaState K Unit T := TrcwaState.addLayerUniform {} one top              -- 48-50
  let s1 ← addMaterialLayers nx ny eps perLayer (List.range nLayers) s0              -- 53-64
  let s2 := s1.addLayerUniform one bottom                                            -- 67-69
  let pats ← if nx > 1 ∨ ny > 1 then gridLayerGeteps s2 eps else pure []             -- 83-84
  pure ⟨s2, pats⟩

end Nidn
