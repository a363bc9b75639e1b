/-
The forward simulation with the RCWA solver as the user calls it: `get_frequency_points(cfg)` followed by `compute_spectrum(eps_grid, cfg)`, from the entries of the config to the two spectra
(nidn/trcwa/get_frequency_points.py, nidn/utils/compute_spectrum.py, nidn/trcwa/compute_spectrum_trcwa.py, nidn/trcwa/init_trcwa.py, nidn/trcwa/trcwa.py). The parts are those of Units, RcwaDriver, TrcwaLayers, Lattice
and Rcwa; here they are put together. Patterned grids (`Nx > 1` or `Ny > 1`) need an eigensolver; what is computed for one frequency slice of them is a parameter.
-/
import Verif.Model.Config
import Verif.Model.Units
import Verif.Model.RcwaDriver
import Verif.Model.TrcwaLayers
import Verif.Model.Lattice
import Verif.Model.Rcwa

namespace Nidn

noncomputable section

/-- a list of python numbers; `torch.tensor` of anything else in its place is a TypeError -/
def numEntries (v : Val) : Except PyErr (List ℚ) :=
  match v with
  | .list l => l.mapM Val.num
  | _ => .error .typeError

/-- `torch.tensor(cfg.TRCWA_L_grid)`, init_trcwa.py:31: rows of numbers, of equal length. Simplified: other values are a TypeError (also where torch would accept deeper nestings), unequal lengths a ValueError. -/
def tensorRows (v : Val) : Except PyErr (List (List ℚ)) :=
  match v with
  | .list rows => do
    let rs ← rows.mapM numEntries
    if rs.all (fun r => r.length == (rs.headD []).length) then .ok rs else .error .valueError
  | _ => .error .typeError

/-- init_trcwa.py:39-40 and trcwa.py:118: the reciprocal lattice of the first two rows. -/
def rowsReciprocal (rows : List (List ℚ)) : Except PyErr ((ℝ × ℝ) × (ℝ × ℝ)) :=
  match rows with
  | r1 :: r2 :: _ => latticeReciprocate (r1.map fun q : ℚ => (q : ℝ)) (r2.map fun q : ℚ => (q : ℝ))
  | _ => .error .indexError

/-- trcwa.py:119 and kbloch.py:27-43 `Lattice_getG` with the circular truncation: `type(nG) == int` is not true of a bool. `sort` is the order in which `np.argsort` puts the candidates. (A negative order fails in `torch.sqrt`;
validation excludes it.) -/
def cfgOrders (sort : ℕ → ℝ × ℝ → ℝ × ℝ → List (ℤ × ℤ)) (c : Cfg) (Lk : (ℝ × ℝ) × (ℝ × ℝ)) : Except PyErr (List (ℤ × ℤ)) := do
  match ← c.get "TRCWA_NG" with
  | .int z => do
    let r ← gselCircular z.toNat Lk.1 Lk.2 (sort z.toNat Lk.1 Lk.2)
    .ok r.1
  | _ => .error .assertionError

/-- init_trcwa.py:29 and trcwa.py:31: the angular frequency that is used for the target frequency `f`; constants.py:8. -/
def dampedOmega (f : ℝ) : ℂ := 2 * Real.pi * (f * (1 + Complex.I / (2 * 1e5)))

/-- trcwa.py:135-143: the uniform layers as they are read back, front to back. -/
def uniformStack (s : TrcwaState ℂ Unit ℝ) : Except PyErr (List (ℂ × ℝ)) :=
  (List.range s.layerN).mapM fun i =>
    match s.readLayer i with
    | some (.uniform t e) => .ok (e, t)
    | _ => .error .typeError

/-- trcwa.py:97-190 and 291-342 for a stack of uniform layers with the front permittivity `top`, normal incidence and the constants of nidn/trcwa/constants.py:11-15 (an s-polarised wave of amplitude 1). Without any order
`tmp1[0] = 1.0` (trcwa.py:173) is an IndexError. The square root of a negative `top` (trcwa.py:104-115) and the inverse of a permittivity 0 (trcwa.py:138) make the numbers NaN or infinite, reported as `nan`. -/
def uniformRT (top : ℝ) (stack : List (ℂ × ℝ)) (Lk : (ℝ × ℝ) × (ℝ × ℝ)) (sel : List (ℤ × ℤ)) (f : ℝ) : Except PyErr (ℝ × ℝ) :=
  match sel with
  | [] => .error .indexError
  | g :: gs =>
    if top < 0 ∨ ∃ l ∈ stack, l.1 = 0 then .error .nan
    else
      rtForward (dampedOmega f) (rtNormalization top 0)
        (stack.map fun l => uniformLayer (dampedOmega f) (fun i => waveX (dampedOmega f) 0 0 top Lk.1 Lk.2 ((g :: gs).get i))
          (fun i => waveY (dampedOmega f) 0 0 top Lk.1 Lk.2 ((g :: gs).get i)) l.1 l.2)
        (planewave (κ := Fin (g :: gs).length) 0 0 1 0 ⟨0, Nat.succ_pos _⟩) 0

/-- init_trcwa.py:9-86 followed by `RT_Solve(normalize=1)`, compute_spectrum_trcwa.py:43-46, for one frequency slice. Simplified: all thicknesses are read as numbers, also those that are not used. -/
def rcwaPoint (sort : ℕ → ℝ × ℝ → ℝ × ℝ → List (ℤ × ℤ)) (patterned : (ℕ → ℕ → ℕ → Option ℂ) → ℝ → Except PyErr (ℝ × ℝ)) (c : Cfg) (g : Grid4 ℂ)
    (slice : ℕ → ℕ → ℕ → Option ℂ) (f : ℝ) : Except PyErr (ℝ × ℝ) :=
  if 1 < g.sx ∨ 1 < g.sy then patterned slice f
  else do
    let rows ← tensorRows (← c.get "TRCWA_L_grid")                                        -- init_trcwa.py:31
    let top ← (← c.get "TRCWA_TOP_LAYER_EPS").num                                         -- 49
    let thick ← numEntries (← c.get "PER_LAYER_THICKNESS")                                -- 56-59
    let bottom ← (← c.get "TRCWA_BOTTOM_LAYER_EPS").num                                   -- 68
    let st ← initTrcwa g.sx g.sy g.sl (fun x y l => (slice x y l).getD 0) ((top : ℝ) : ℂ) ((bottom : ℝ) : ℂ) (thick.map fun q : ℚ => (q : ℝ)) 1
    let Lk ← rowsReciprocal rows                                                          -- trcwa.py:118
    let sel ← cfgOrders sort c Lk                                                         -- trcwa.py:119
    let stack ← uniformStack st.state
    uniformRT top stack Lk sel f

/-- an integer entry (bools count) as the size it is compared with, compute_spectrum_trcwa.py:32-38; validation has excluded values that are not positive integers -/
def sizeEntry (c : Cfg) (k : String) : Except PyErr ℕ := do
  let q ← (← c.get k).num
  .ok ⌊q⌋.toNat

/-- compute_spectrum_trcwa.py:8-53 on a config; `freqs` are the frequencies stored under `target_frequencies`, if there is such an entry. -/
def cfgTrcwa (sort : ℕ → ℝ × ℝ → ℝ × ℝ → List (ℤ × ℤ)) (patterned : (ℕ → ℕ → ℕ → Option ℂ) → ℝ → Except PyErr (ℝ × ℝ)) (freqs : List ℝ) (g : Grid4 ℂ) (c : Cfg) :
    Except PyErr (List ℝ × List ℝ) := do
  let nx ← sizeEntry c "Nx"
  let ny ← sizeEntry c "Ny"
  let nl ← sizeEntry c "N_layers"
  let nf ← sizeEntry c "N_freq"
  computeSpectrumTrcwa (rcwaPoint sort patterned c g) g ⟨if c.keys.contains "target_frequencies" then some freqs else none, nx, ny, nl, nf⟩

/-- get_frequency_points.py:20-27 on a config: the frequencies it stores under `target_frequencies`. -/
def cfgFrequencyPoints (c : Cfg) : Except PyErr (List ℝ) := do
  let r ← c.get "physical_wavelength_range"
  let a ← (← r.index 0).num
  let b ← (← r.index 1).num
  let n ← sizeEntry c "N_freq"
  match ← c.get "freq_distribution" with
  | .str d => do
    let out ← getFrequencyPoints ⟨a, b, n, d, none⟩
    .ok out.2.1
  | _ => .error .valueError

/-- `get_frequency_points(cfg)` and then `compute_spectrum(eps_grid, cfg)` (compute_spectrum.py:9-27): the first call stores the frequencies in the config that the second one validates and uses. The FDTD solver is a parameter. -/
def forwardSpectrum (fdtd : Cfg → Except PyErr (List ℝ × List ℝ)) (sort : ℕ → ℝ × ℝ → ℝ × ℝ → List (ℤ × ℤ)) (patterned : (ℕ → ℕ → ℕ → Option ℂ) → ℝ → Except PyErr (ℝ × ℝ))
    (c : Cfg) (g : Grid4 ℂ) : Except PyErr (Option (List ℝ × List ℝ)) := do
  let fs ← cfgFrequencyPoints c
  computeSpectrum fdtd (cfgTrcwa sort patterned fs g) (c.set "target_frequencies" .other)

end

end Nidn
