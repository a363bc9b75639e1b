/-
Model of the queries of nidn/trcwa/trcwa.py on a solved structure: mode amplitudes, fields, permittivity profiles, integrals, powers by
direction and by order; and of the truncation schemes of nidn/trcwa/utils/kbloch.py.
-/
import Verif.Model.Rcwa

namespace Nidn

noncomputable section

section Amplitudes

variable {ι : Type} [Fintype ι] [DecidableEq ι]

/-- trcwa.py:874-889 `TranslateAmplitudes` -/
def translateAmplitudes (L : LayerData ι) (z : ℝ) (a b : ι → ℂ) : (ι → ℂ) × (ι → ℂ) :=
  (fun m => a m * Complex.exp (Complex.I * L.q m * z), fun m => b m * Complex.exp (Complex.I * L.q m * (L.d - z)))

/-- trcwa.py:344-387 `GetAmplitudes_noTranslate` (non-negative layer numbers). -/
def amplitudesNoTranslate (layers : List (LayerData ι)) (k : ℕ) (a0 bN : ι → ℂ) : Except PyErr ((ι → ℂ) × (ι → ℂ)) :=
  if k = 0 then do
    let r ← solveExterior layers a0 bN
    pure (a0, r.2)
  else if k = layers.length - 1 then do
    let r ← solveExterior layers a0 bN
    pure (r.1, bN)
  else solveInterior layers k a0 bN

/-- trcwa.py:389-440 `GetAmplitudes` -/
def getAmplitudes (layers : List (LayerData ι)) (k : ℕ) (z : ℝ) (a0 bN : ι → ℂ) : Except PyErr ((ι → ℂ) × (ι → ℂ)) := do
  let ab ← amplitudesNoTranslate layers k a0 bN
  match layers[k]? with
  | some L => pure (translateAmplitudes L z ab.1 ab.2)
  | none => .error .indexError

end Amplitudes

section Fields

variable {κ : Type} [Fintype κ] [DecidableEq κ]

/-- The entry of `id_list` of one layer together with its permittivity: uniform (`Uniform_ep_list`), grid (`Patterned_epinv_list`,
`Patterned_ep2_list`), Fourier (no data is ever computed for it, trcwa.py:145-148). -/
inductive LayerKind (κ : Type)
  | uniform (ε : ℂ)
  | grid (epinv : Matrix κ κ ℂ) (ep2 : Matrix (κ ⊕ κ) (κ ⊕ κ) ℂ)
  | fourier

/-- Six field components in Fourier space (trcwa.py:491). -/
structure FieldVec (κ : Type) where
  ex : κ → ℂ
  ey : κ → ℂ
  ez : κ → ℂ
  hx : κ → ℂ
  hy : κ → ℂ
  hz : κ → ℂ

/-- trcwa.py:470 `fhxy` -/
def fieldH (L : LayerData (κ ⊕ κ)) (a b : κ ⊕ κ → ℂ) : κ ⊕ κ → ℂ := L.phi.mulVec (a + b)

/-- trcwa.py:475-477 `fexy` -/
def fieldE (ω : ℂ) (L : LayerData (κ ⊕ κ)) (a b : κ ⊕ κ → ℂ) : κ ⊕ κ → ℂ :=
  L.kp.mulVec (L.phi.mulVec fun m => (a m - b m) / ω / L.q m)

/-- trcwa.py:484-490 `fez`: the last step divides by the permittivity or multiplies with `epinv`. A Fourier layer takes the same branch as a
grid layer and finds `None` there; it never gets here because its `q_list` entry is `None` as well (the value below is not used). -/
def applyEpinv (kind : LayerKind κ) (v : κ → ℂ) : κ → ℂ :=
  match kind with
  | .uniform ε => fun i => v i / ε
  | .grid epinv _ => epinv.mulVec v
  | .fourier => v

/-- trcwa.py:461-491, the loop body of `Solve_FieldFourier` for one depth `z`. -/
def fieldFourierAt (ω : ℂ) (kx ky : κ → ℂ) (kind : LayerKind κ) (L : LayerData (κ ⊕ κ)) (a0 b0 : κ ⊕ κ → ℂ) (z : ℝ) : FieldVec κ :=
  let ab := translateAmplitudes L z a0 b0
  let h := fieldH L ab.1 ab.2
  let e := fieldE ω L ab.1 ab.2
  let ey := fun i => -e (.inl i)
  let ex := fun i => e (.inr i)
  let hx := fun i => h (.inl i)
  let hy := fun i => h (.inr i)
  { ex := ex
    ey := ey
    ez := applyEpinv kind fun i => (ky i * hx i - kx i * hy i) / ω
    hx := hx
    hy := hy
    hz := fun i => (kx i * ey i - ky i * ex i) / ω }

/-- trcwa.py:442-492 `Solve_FieldFourier`; `lib` is what the call `torch.isinstance` of line 455 does. -/
def solveFieldFourierWith (lib : Except PyErr Unit) (ω : ℂ) (kx ky : κ → ℂ) (kinds : List (LayerKind κ)) (layers : List (LayerData (κ ⊕ κ)))
    (k : ℕ) (zs : List ℝ) (a0 bN : κ ⊕ κ → ℂ) : Except PyErr (List (FieldVec κ)) := do
  let ab ← amplitudesNoTranslate layers k a0 bN
  lib
  match layers[k]?, kinds[k]? with
  | some L, some kind => pure (zs.map (fieldFourierAt ω kx ky kind L ab.1 ab.2))
  | _, _ => .error .indexError

/-- trcwa.py:442-492 as written: `torch` has no attribute `isinstance`. -/
def solveFieldFourier (ω : ℂ) (kx ky : κ → ℂ) (kinds : List (LayerKind κ)) (layers : List (LayerData (κ ⊕ κ)))
    (k : ℕ) (zs : List ℝ) (a0 bN : κ ⊕ κ → ℂ) : Except PyErr (List (FieldVec κ)) :=
  solveFieldFourierWith (.error .attributeError) ω kx ky kinds layers k zs a0 bN

/-- Result of `Solve_FieldOnGrid` at one depth: real-space components in the order of trcwa.py:525. -/
abbrev GridField := List (List (ℕ → ℕ → ℂ))

/-- trcwa.py:494-529 `Solve_FieldOnGrid`: the very first statement (line 508) calls `torch.isinstance`, the lines behind it are never
reached. -/
def solveFieldOnGrid (_k : ℕ) (_zs : List ℝ) (_nxy : Option (ℕ × ℕ)) : Except PyErr (List GridField) := .error .attributeError

/-- trcwa.py:601-654 `Solve_ZStressTensorIntegral` -/
def stressTensor (ω : ℂ) (kx ky : κ → ℂ) (kinds : List (LayerKind κ)) (layers : List (LayerData (κ ⊕ κ))) (k : ℕ) (a0 bN : κ ⊕ κ → ℂ) :
    Except PyErr (ℝ × ℝ × ℝ) := do
  let eh ← solveFieldFourier ω kx ky kinds layers k [0] a0 bN
  match eh, kinds[k]? with
  | F :: _, some kind =>
    let dz := fun i => (ky i * F.hx i - kx i * F.hy i) / ω
    let dxy : (κ → ℂ) × (κ → ℂ) := match kind with
      | .uniform ε => (fun i => F.ex i * ε, fun i => F.ey i * ε)
      | .grid _ ep2 =>
        let v := ep2.mulVec (Sum.elim (fun i => -F.ey i) F.ex)
        (fun i => v (.inr i), fun i => -v (.inl i))
      | .fourier => (F.ex, F.ey)
    let c := starRingEnd ℂ
    let tx := ∑ i, (F.ex i * c (dz i) + F.hx i * c (F.hz i))
    let ty := ∑ i, (F.ey i * c (dz i) + F.hy i * c (F.hz i))
    let tz := 0.5 * ∑ i, (F.ez i * c (dz i) + F.hz i * c (F.hz i) - F.ey i * c (dxy.2 i) - F.ex i * c (dxy.1 i)
      - (‖F.hx i‖ : ℂ) ^ 2 - (‖F.hy i‖ : ℂ) ^ 2)
    pure (tx.re, ty.re, tz.re)
  | _, _ => .error .indexError

/-- trcwa.py:979-994 `Gmeshgrid`: `torch.tensor` of a list of `N` tensors of length `N` raises ValueError unless they have one element. -/
def gmeshgrid (q : List ℂ) : Except PyErr ((ℕ → ℕ → ℂ) × (ℕ → ℕ → ℂ)) :=
  if q.length ≤ 1 then .ok (fun i _ => q.getD i 0, fun _ j => q.getD j 0) else .error .valueError

/-- trcwa.py:956-957 one entry `Maa[i, j]`; `diag` says whether the entry is on the diagonal, where `shift` is added. -/
def zintA (shift qi qj t : ℂ) (diag : Bool) : ℂ :=
  let qij := qj - (starRingEnd ℂ) qi + (if diag then 1 else 0) * shift
  (Complex.exp (Complex.I * qij * t) - 1) / Complex.I / qij

/-- trcwa.py:960-966 one entry `Mab[i, j]` -/
def zintB (qi qj t : ℂ) : ℂ :=
  (Complex.exp (Complex.I * qj * t) - Complex.exp (-Complex.I * (starRingEnd ℂ) qi * t)) / Complex.I / (qj + (starRingEnd ℂ) qi)

/-- trcwa.py:531-599 `Volume_integral`: after reading the layer it calls `SolveInterior` (line 557), whatever the layer is; nothing behind
that call is reached (`C104_volume_false`), so the remaining lines are not modelled. -/
def volumeIntegral (kinds : List (LayerKind κ)) (layers : List (LayerData (κ ⊕ κ))) (k : ℕ) (a0 bN : κ ⊕ κ → ℂ)
    (rest : (κ ⊕ κ → ℂ) → (κ ⊕ κ → ℂ) → Except PyErr ℂ) : Except PyErr ℂ := do
  match layers[k]?, kinds[k]? with
  | some _, some _ =>
    let ab ← solveInterior layers k a0 bN
    rest ab.1 ab.2
  | _, _ => .error .indexError

/-- fft_funs.py:70-87 `get_ifft`: an order outside the grid fails in line 82 with IndexError; the call `torch.ifft2` of line 86 is the
parameter `lib`. -/
def getIfftWith {n : ℕ} (lib : (ℕ → ℕ → ℂ) → Except PyErr (ℕ → ℕ → ℂ)) (Nx Ny : ℕ) (s : Fin n → ℂ) (G : Fin n → ℤ × ℤ) :
    Except PyErr (ℕ → ℕ → ℂ) := do
  if ∀ i, (wrapIndex Nx (G i).1).isSome ∧ (wrapIndex Ny (G i).2).isSome then
    let s0 : ℕ → ℕ → ℂ := fun x y => ∑ i, if wrapIndex Nx (G i).1 = some x ∧ wrapIndex Ny (G i).2 = some y then s i else 0
    let r ← lib s0
    pure fun x y => r x y / (1 / (Nx : ℂ) / (Ny : ℂ))
  else .error .indexError

/-- fft_funs.py:70-87 as written: `torch` has no attribute `ifft2`. -/
def getIfft {n : ℕ} (Nx Ny : ℕ) (s : Fin n → ℂ) (G : Fin n → ℤ × ℤ) : Except PyErr (ℕ → ℕ → ℂ) :=
  getIfftWith (fun _ => .error .attributeError) Nx Ny s G

/-- trcwa.py:258-289 `Return_eps` (non-negative layer numbers; at least one order). A Fourier layer falls through both branches: `None`. -/
def returnEps {n : ℕ} (kinds : List (LayerKind (Fin (n + 1)))) (G : Fin (n + 1) → ℤ × ℤ) (k Nx Ny : ℕ) (component : String) :
    Except PyErr (Option (ℕ → ℕ → ℂ)) :=
  match kinds[k]? with
  | none => .error .indexError
  | some (.uniform ε) => .ok (some fun _ _ => ε)
  | some (.grid _ ep2) =>
    if component = "zz" then .error .attributeError
    else if component = "xx" then do pure (some (← getIfft Nx Ny (fun j => ep2 (.inl 0) (.inl j)) G))
    else if component = "xy" then do pure (some (← getIfft Nx Ny (fun j => ep2 (.inl 0) (.inr j)) G))
    else if component = "yx" then do pure (some (← getIfft Nx Ny (fun j => ep2 (.inr 0) (.inl j)) G))
    else if component = "yy" then do pure (some (← getIfft Nx Ny (fun j => ep2 (.inr 0) (.inr j)) G))
    else .error .unboundLocalError
  | some .fourier => .ok none

/-- trcwa.py:150-222 `MakeExcitationPlanewave`: the pair `(a0, bN)`; every direction other than the two known ones leaves both at zero. -/
def excitation (direction : String) (θ φ : ℝ) (s p : ℂ) (o : κ) : (κ ⊕ κ → ℂ) × (κ ⊕ κ → ℂ) :=
  if direction = "forward" then (planewave θ φ s p o, 0)
  else if direction = "backward" then (0, planewave θ φ s p o)
  else (0, 0)

/-- What `RT_Solve` returns: one pair of numbers, or one pair per order. -/
inductive RtResult (κ : Type)
  | total (R T : ℝ)
  | orders (R T : κ → ℝ)

/-- trcwa.py:291-342 `RT_Solve(normalize, byorder)` for an arbitrary stored direction. An unknown direction leaves `R` unassigned. -/
def rtSolve (direction : String) (normalize byorder : ℤ) (ω : ℂ) (norm : ℝ) (layers : List (LayerData (κ ⊕ κ))) (a0 bN : κ ⊕ κ → ℂ) :
    Except PyErr (RtResult κ) := do
  let r ← solveExterior layers a0 bN
  match layers.head?, layers.getLast? with
  | some L0, some LN =>
    let f := if normalize = 1 then norm else 1
    if byorder = 0 then
      let bi := (zPoyntingFlux ω L0 a0 r.2).2
      let fe := (zPoyntingFlux ω LN r.1 bN).1
      if direction = "forward" then pure (.total ((-bi).re * f) (fe.re * f))
      else if direction = "backward" then pure (.total (fe.re * f) ((-bi).re * f))
      else .error .unboundLocalError
    else
      let bi := (fluxByOrder ω L0 a0 r.2).2
      let fe := (fluxByOrder ω LN r.1 bN).1
      if direction = "forward" then pure (.orders (fun i => (-bi i).re * f) (fun i => (fe i).re * f))
      else if direction = "backward" then pure (.orders (fun i => (fe i).re * f) (fun i => (-bi i).re * f))
      else .error .unboundLocalError
  | _, _ => .error .indexError

end Fields

/-- The argument `nG` of `Lattice_getG`: a python int or something else. -/
inductive OrderCount
  | int (n : ℕ)
  | other

/-- kbloch.py:58-87 `Gsel_parallelogramic`: the norms of lines 60-62 work, then `torch.sqrt` is called on the python int `nG` (line 64). -/
def gselParallelogramic (_nG : ℕ) (_Lk1 _Lk2 : ℝ × ℝ) : Except PyErr (List (ℤ × ℤ) × ℕ) := .error .typeError

/-- kbloch.py:27-43 `Lattice_getG` -/
def latticeGetG (nG : OrderCount) (Lk1 Lk2 : ℝ × ℝ) (sorted : List (ℤ × ℤ)) (method : ℤ) : Except PyErr (List (ℤ × ℤ) × ℕ) :=
  match nG with
  | .other => .error .assertionError
  | .int n =>
    if method = 0 then gselCircular n Lk1 Lk2 sorted
    else if method = 1 then gselParallelogramic n Lk1 Lk2
    else .error .exception

end

end Nidn
