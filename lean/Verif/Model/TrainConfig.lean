/-
What a training run does to the user's config and which network it trains: nidn/training/run_training.py:20-68 (`_init_training`) and :71-199 as far as the config is concerned; and nidn/utils/print_cfg.py.

Left out: the switch to the GPU (run_training.py:33-34), which works or fails depending on the machine; a step that would produce NaN frequencies is reported as `PyErr.nan` as in Model/Units.

The network object stored under the key `model` is represented by a `BuiltNet` next to the config (`Val.other` in the config itself). A value `None` under `model` counts as absent.
-/
import Verif.Model.ConfigEffects

namespace Nidn

/-- The network object: which class was constructed, with which number of outputs and, for a voxel model, for which grid. -/
structure BuiltNet where
  kind : NetKind
  outFeatures : Val
  grid : List Val

/-- Python `range(v)`: the number of steps (none for a negative argument); anything but an int (or bool) is a TypeError. -/
def rangeLen : Val → Except PyErr ℕ
  | .int z => .ok z.toNat
  | .bool b => .ok (if b then 1 else 0)
  | _ => .error .typeError

/-- A size passed to `torch.empty`: torch takes ints, but neither bools nor floats. -/
def sizeArg : Val → Except PyErr ℤ
  | .int z => .ok z
  | _ => .error .typeError

/-- `nn.Linear(a, b)`: the weights are `torch.empty((b, a))`, which refuses negative sizes. Contract of torch; empty weights are only warned about. -/
def linearSize (a b : ℤ) : Except PyErr Unit := if a < 0 ∨ b < 0 then .error .runtimeError else .ok ()

/-- nidn/training/utils/nerf.py:8-16 the constructor of a layer; `xavier_uniform_` divides by the number of inputs and outputs. -/
def nerfLayer (a b : ℤ) : Except PyErr Unit := do
  linearSize a b                                                                          -- line 10
  if a + b = 0 then .error .zeroDivisionError else .ok ()                                 -- line 15

/-- nidn/training/utils/siren.py:23-43 the constructor of a sine layer. The limits of the weights are `1 / in_features` for the first layer and `sqrt(6 / in_features) / omega_0` otherwise; `uniform_` refuses limits that are
not finite (omega 0) or in the wrong order (negative omega). -/
def sineLayer (isFirst : Bool) (a b : ℤ) (omega : ℚ) : Except PyErr Unit := do
  linearSize a b                                                                          -- line 31
  if a = 0 then .error .zeroDivisionError                                                 -- lines 38, 41
  else if isFirst then .ok ()
  else if omega ≤ 0 then .error .runtimeError                                             -- lines 40-43
  else .ok ()

/-- nerf.py:25-48 `NERF.__init__` with `skip=[4]` (init_network.py:24) -/
def buildNerf (inF out n : ℤ) (hidden : Val) : Except PyErr Unit := do
  nerfLayer inF n                                                                         -- line 39
  let h ← rangeLen hidden                                                                 -- line 41
  forEach (List.range h) fun i => if i = 4 then nerfLayer (n + inF) n else nerfLayer n n  -- lines 42-45
  nerfLayer n out                                                                         -- line 47

/-- siren.py:57-110 `Siren.__init__` with `outermost_linear=True`: the last linear layer gets its weights the way a sine layer does (lines 92-96). -/
def buildSiren (inF out n : ℤ) (hidden : Val) (omega : ℚ) : Except PyErr Unit := do
  sineLayer true inF n omega                                                              -- lines 73-77
  let h ← rangeLen hidden                                                                 -- line 79
  forEach (List.range h) fun _ => sineLayer false n n omega                               -- lines 80-87
  sineLayer false n out omega                                                             -- lines 89-96

/-- init_network.py:19-38 the constructors of the two networks with layers, with the settings they take from the config. -/
def buildLayers (k : NetKind) (c : Cfg) (out : Val) : Except PyErr Unit := do
  let e ← sizeArg (← c.get "encoding_dim")
  let o ← sizeArg out
  let n ← sizeArg (← c.get "n_neurons")
  let h ← c.get "hidden_layers"
  if k = .nerf then buildNerf e o n h
  else
    let omega ← (← c.get "siren_omega").num
    buildSiren e o n h omega

/-- init_network.py:18-47 `init_network`; nidn/training/utils/voxel.py:11-17: a voxel model asserts regression and takes the size of the grid from the config. -/
def initNetwork (c : Cfg) : Except PyErr BuiltNet := do
  let k ← initNetworkKind c
  match k with
  | .voxel => do
    let t ← c.get "type"
    if t.eqStr "regression" then
      let nx ← c.get "Nx"
      let ny ← c.get "Ny"
      let nl ← c.get "N_layers"
      let nf ← c.get "N_freq"
      pure ⟨.voxel, .int 2, [nx, ny, nl, nf]⟩
    else .error .assertionError
  | k => do
    let o ← c.get "out_features"
    buildLayers k c o
    pure ⟨k, o, []⟩

/-- nidn/trcwa/compute_target_frequencies.py:20-35, as far as it can fail: both wavelengths are divided by, the logarithm of a negative frequency is NaN, and other distributions are refused. -/
def prepFrequencies (c : Cfg) : Except PyErr Unit := do
  let r ← c.get "physical_wavelength_range"
  let a ← (← r.index 0).num
  let b ← (← r.index 1).num
  let d ← c.get "freq_distribution"
  if a = 0 ∨ b = 0 then .error .zeroDivisionError                                         -- lines 20-21
  else if d.eqStr "linear" then .ok ()                                                    -- line 26
  else if d.eqStr "log" then if a < 0 ∨ b < 0 then .error .nan else .ok ()                -- line 30
  else .error .valueError                                                                 -- line 33

/-- nidn/utils/fix_random_seeds.py:5-12 `fix_random_seeds`: `torch.manual_seed` takes 64-bit numbers (negative ones as well), `np.random.seed` only 0 to 2^32 - 1. Contracts of torch and numpy. -/
def fixSeeds (v : Val) : Except PyErr Unit := do
  let s ← v.num
  if s < -2 ^ 63 ∨ 2 ^ 64 ≤ s then .error .runtimeError
  else if s < 0 ∨ 2 ^ 32 ≤ s then .error .valueError
  else .ok ()

/-- run_training.py:36-53: the entries written before the network is built; `nMat` is the number of shipped materials. -/
def cfgTrainEntries (nMat : ℕ) (c : Cfg) : Except PyErr Cfg := do
  let c := c.set "target_frequencies" .other                                              -- lines 37-42
  let t ← c.get "type"                                                                    -- line 47
  if t.eqStr "classification" then
    let c := c.set "material_collection" .other                                           -- line 48
    let c := c.set "N_materials" (.int nMat)                                              -- line 49
    pure (c.set "out_features" (.int nMat))                                               -- line 51
  else pure (c.set "out_features" (.int 2))                                               -- line 53

/-- run_training.py:20-68 `_init_training`: `net` is the object under the key `model` before the call. -/
def cfgInitTraining (nMat : ℕ) (c : Cfg) (net : Option BuiltNet) : Except PyErr (Cfg × BuiltNet) := do
  validateConfig c                                                                        -- line 30
  prepFrequencies c                                                                       -- lines 37-42
  let c ← cfgTrainEntries nMat c
  fixSeeds (← c.get "seed")                                                               -- line 56
  match net with
  | some n => pure (c, n)                                                                 -- line 59 skipped
  | none => do
    let n ← initNetwork c                                                                 -- line 60
    pure (c.set "model" .other, n)

/-- run_training.py:71-199: the config after a training run in which `compute_spectrum` (which does not validate, line 112) was called; with the FDTD solver the first call assigns what `cfgAfterFdtd` says, and later
calls assign the same again (`cfgAfterFdtd` is idempotent on its result, see Props/TrainConfig). -/
def cfgAfterTraining (nMat : ℕ) (c : Cfg) (net : Option BuiltNet) : Except PyErr (Cfg × BuiltNet) := do
  let (c, n) ← cfgInitTraining nMat c net                                                 -- line 85
  let c := c.set "results" .other                                                         -- line 87
  let c := c.set "best_model_state_dict" .other                                           -- line 98
  let _ ← rangeLen (← c.get "iterations")                                                 -- line 102
  let s ← c.get "solver"
  if s.eqStr "FDTD" then
    let c ← cfgAfterFdtd c                                                                -- line 111
    pure (c, n)
  else pure (c, n)

/-- How `print_cfg` treats a value: a list or array, a MaterialCollection, a number/bool/string, or another object, whose `__format__` raises TypeError for the format `<15`. -/
inductive PrintKind
  | array
  | materials
  | plain
  | object
  deriving DecidableEq

/-- print_cfg.py:16-22 the branch taken for an entry; runtime objects are recognised by their key (frequencies are an array). -/
def printKind (k : String) : Val → PrintKind
  | .list _ => .array
  | .other => if k = "target_frequencies" then .array else if k = "material_collection" then .materials else .object
  | _ => .plain

/-- What is printed: an entry (key and value) or the end of a line. -/
inductive PrintTok
  | entry (key : String)
  | newline
  deriving DecidableEq

/-- print_cfg.py:15-28: what has been printed, and whether the function returns or raises; the first argument is `idx`. -/
def printItems : ℕ → List (String × PrintKind) → List PrintTok × Except PyErr Unit
  | _, [] => ([.newline], .ok ())                                                         -- line 28
  | _, (k, .array) :: rest => (.newline :: .entry k :: .newline :: (printItems 1 rest).1, (printItems 1 rest).2)        -- lines 16-19, 27
  | idx, (_, .materials) :: rest => (.newline :: (printItems (idx + 1) rest).1, (printItems (idx + 1) rest).2)          -- lines 20-21
  | idx, (k, .plain) :: rest =>                                                           -- lines 22-26
    ((if idx % 3 = 2 then [.entry k, .newline] else [.entry k]) ++ (printItems (idx + 1) rest).1, (printItems (idx + 1) rest).2)
  | _, (_, .object) :: _ => ([], .error .typeError)

/-- print_cfg.py:7-28 `print_cfg` -/
def printCfg (c : Cfg) : List PrintTok × Except PyErr Unit := printItems 0 (c.map fun p => (p.1, printKind p.1 p.2))

end Nidn
