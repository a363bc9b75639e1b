/-
The patterned branch of the forward simulation with the RCWA solver (`Nx > 1` or `Ny > 1`): nidn/trcwa/init_trcwa.py:9-86, `GridLayer_geteps` and `RT_Solve` of nidn/trcwa/trcwa.py, for one frequency slice. The parts are
those of TrcwaLayers, Lattice, Conv and Rcwa; `gridPoint` is what Model/RcwaEntry.lean leaves open as `patterned`. The eigensolver of torch is a parameter.
-/
import Verif.Model.RcwaEntry

namespace Nidn

noncomputable section

/-- `torch.linalg.eig`, trcwa.py:731: eigenvalues and eigenvectors of a matrix -/
abbrev EigSolver := ∀ n : ℕ, Matrix (Fin n ⊕ Fin n) (Fin n ⊕ Fin n) ℂ → (Fin n ⊕ Fin n → ℂ) × Matrix (Fin n ⊕ Fin n) (Fin n ⊕ Fin n) ℂ

/-- the argument of `Epsilon_fft` as arrays of `nx` times `ny` numbers -/
def Pattern.toEps (nx ny : ℕ) : Pattern ℂ → EpsPattern nx ny
  | .iso p => .iso fun a b => p a b
  | .aniso px py pz => .aniso (fun a b => px a b) (fun a b => py a b) fun a b => pz a b

/-- trcwa.py:228 and 243-254: what `GridLayer_geteps` stores for one layer of thickness `d`. -/
def gridLayerData {n : ℕ} (eig : EigSolver) (ω : ℂ) (kx ky : Fin n → ℂ) (G : Fin n → ℤ × ℤ) (nx ny : ℕ) (p : Pattern ℂ) (d : ℝ) : Except PyErr (LayerData (Fin n ⊕ Fin n)) := do
  let (epinv, ep2) ← epsilonFft (1 / nx / ny) (p.toEps nx ny) G
  let (lam, phi) := eig n (eigenMat ep2 (kpPatterned ω epinv kx ky) kx ky)
  .ok (patternedLayer ω kx ky epinv lam phi d)

/-- trcwa.py:97-256 and 291-342 for the stack `s` with the front permittivity `top` and the permittivities `ep` of its grid layers, as `uniformRT` for uniform layers. Simplified: all patterns are cut out before the first is
transformed; NaN and infinite numbers from the surrounding permittivities are reported as `nan` (torch's eigensolver may refuse them before). -/
def gridRT (eig : EigSolver) (top bottom : ℝ) (s : TrcwaState ℂ Unit ℝ) (ep : EpsTensor ℂ) (Lk : (ℝ × ℝ) × (ℝ × ℝ)) (sel : List (ℤ × ℤ)) (f : ℝ) : Except PyErr (ℝ × ℝ) :=
  match sel with
  | [] => .error .indexError                                                              -- 173
  | g :: gs => do
    let pats ← gridLayerGeteps s ep                                                       -- 214-241
    if top < 0 ∨ top = 0 ∨ bottom = 0 then .error .nan
    else do
      let kx : Fin (g :: gs).length → ℂ := fun i => waveX (dampedOmega f) 0 0 top Lk.1 Lk.2 ((g :: gs).get i)
      let ky : Fin (g :: gs).length → ℂ := fun i => waveY (dampedOmega f) 0 0 top Lk.1 Lk.2 ((g :: gs).get i)
      let layers ← (List.range s.layerN).mapM fun i =>
        match s.readLayer i, pats.lookup i with
        | some (.uniform t e), _ => .ok (uniformLayer (dampedOmega f) kx ky e t)          -- 135-143
        | some (.grid t nx ny), some p => gridLayerData eig (dampedOmega f) kx ky (g :: gs).get nx ny p t
        | _, _ => .error .typeError
      rtForward (dampedOmega f) (rtNormalization top 0) layers (planewave (κ := Fin (g :: gs).length) 0 0 1 0 ⟨0, Nat.succ_pos _⟩) 0

/-- init_trcwa.py:9-86 followed by `RT_Solve(normalize=1)`, compute_spectrum_trcwa.py:43-46, for one frequency slice of a grid with several cells per layer. Simplified: all thicknesses are read as numbers, also those that
are not used. -/
def gridPoint (eig : EigSolver) (sort : ℕ → ℝ × ℝ → ℝ × ℝ → List (ℤ × ℤ)) (c : Cfg) (g : Grid4 ℂ) (slice : ℕ → ℕ → ℕ → Option ℂ) (f : ℝ) : Except PyErr (ℝ × ℝ) := do
  let rows ← tensorRows (← c.get "TRCWA_L_grid")                                          -- init_trcwa.py:31
  let top ← (← c.get "TRCWA_TOP_LAYER_EPS").num                                           -- 49
  let thick ← numEntries (← c.get "PER_LAYER_THICKNESS")                                  -- 56-59
  let bottom ← (← c.get "TRCWA_BOTTOM_LAYER_EPS").num                                     -- 68
  let eps := (EpsTensor.d3 g.sx g.sy g.sl fun x y l => (slice x y l).getD 0).squeeze0.squeeze0   -- 23-24
  let s0 : TrcwaState ℂ Unit ℝ := TrcwaState.addLayerUniform {} 1 ((top : ℝ) : ℂ)         -- 48-50
  let s1 ← addMaterialLayers g.sx g.sy eps (thick.map fun q : ℚ => (q : ℝ)) (List.range g.sl) s0 -- 53-64
  let s2 := s1.addLayerUniform 1 ((bottom : ℝ) : ℂ)                                       -- 67-69
  let Lk ← rowsReciprocal rows                                                            -- trcwa.py:118
  let sel ← cfgOrders sort c Lk                                                           -- trcwa.py:119
  gridRT eig top bottom s2 eps Lk sel f

/-- `forwardSpectrum` with both branches: the patterned one reads the config with the stored frequencies. -/
def gridSpectrum (eig : EigSolver) (fdtd : Cfg → Except PyErr (List ℝ × List ℝ)) (sort : ℕ → ℝ × ℝ → ℝ × ℝ → List (ℤ × ℤ)) (c : Cfg) (g : Grid4 ℂ) : Except PyErr (Option (List ℝ × List ℝ)) :=
  forwardSpectrum fdtd sort (gridPoint eig sort (c.set "target_frequencies" .other) g) c g

end

end Nidn
