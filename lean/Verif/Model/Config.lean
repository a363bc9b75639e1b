/-
Model of nidn/utils/validate_config.py (all functions), nidn/utils/resources/default_config.toml and the dispatch in
nidn/utils/compute_spectrum.py and nidn/training/model/init_network.py.

Simplifications: numbers are exact rationals (no NaN/inf, although TOML can express them); comparing two python lists with `<`
(possible in Python) is reported as TypeError; values other than int, float, bool, str, list are opaque (`Val.other`).
-/
import Verif.Model.Py
import Mathlib.Algebra.Order.Field.Rat
import Mathlib.Data.Rat.Floor

namespace Nidn

/-- Values that can appear in a config (`toml.load` yields these; `other` is any further python object, e.g. a model or array). -/
inductive Val
  | int (z : ℤ)
  | float (x : ℚ)
  | bool (b : Bool)
  | str (s : String)
  | list (l : List Val)
  | other

/-- A config: the items of the `DotMap` in insertion order. -/
abbrev Cfg := List (String × Val)

namespace Val

/-- `isinstance(v, int)`; python's bool is a subclass of int. -/
def isInt : Val → Bool | int _ => true | bool _ => true | _ => false
/-- `isinstance(v, float)` -/
def isFloat : Val → Bool | float _ => true | _ => false
/-- `isinstance(v, bool)` -/
def isBool : Val → Bool | bool _ => true | _ => false
/-- `isinstance(v, str)` -/
def isStr : Val → Bool | str _ => true | _ => false
/-- `isinstance(v, list)` -/
def isList : Val → Bool | list _ => true | _ => false

/-- Numeric value in arithmetic and comparisons (`True` is 1); anything else is a TypeError. -/
def num : Val → Except PyErr ℚ
  | int z => .ok z
  | float x => .ok x
  | bool b => .ok (if b then 1 else 0)
  | _ => .error .typeError

/-- Python `a < b`. Simplified: Python also compares lists with lists (entry by entry); no setting of an accepted config other than a lattice with lists in place of numbers reaches such a comparison, and the model reports
a TypeError there. -/
def lt : Val → Val → Except PyErr Bool
  | str a, str b => .ok (decide (a < b))
  | a, b => do let x ← a.num; let y ← b.num; pure (decide (x < y))

/-- Python truthiness `bool(v)`. `Val.other` objects are taken to be truthy (python's default). -/
def truthy : Val → Bool
  | int z => decide (z ≠ 0)
  | float x => decide (x ≠ 0)
  | bool b => b
  | str s => !s.isEmpty
  | list l => !l.isEmpty
  | other => true

/-- Python `v[i]` for a literal non-negative index. -/
def index (v : Val) (i : ℕ) : Except PyErr Val :=
  match v with
  | list l => match l[i]? with | some x => .ok x | none => .error .indexError
  | str s => match s.toList[i]? with | some c => .ok (str (String.singleton c)) | none => .error .indexError
  | _ => .error .typeError

/-- Python `all(v)`; not iterable is a TypeError. -/
def all : Val → Except PyErr Bool
  | list l => .ok (l.all truthy)
  | str _ => .ok true            -- characters are non-empty strings
  | _ => .error .typeError

/-- Python `len(v)` -/
def len : Val → Except PyErr ℕ
  | list l => .ok l.length
  | str s => .ok s.length
  | _ => .error .typeError

/-- Python `v == "..."` -/
def eqStr (v : Val) (s : String) : Bool := match v with | str t => t == s | _ => false

end Val

/-- `cfg[key]` / `cfg.key` on a `DotMap(_dynamic=False)` (nidn/utils/load_default_cfg.py:13): a missing key raises. -/
def Cfg.get (c : Cfg) (k : String) : Except PyErr Val :=
  match c.lookup k with | some v => .ok v | none => .error .keyError

/-- `cfg.keys()` -/
def Cfg.keys (c : Cfg) : List String := c.map Prod.fst

/-- `if not cond: raise e` -/
def require (b : Bool) (e : PyErr) : Except PyErr Unit := if b then .ok () else .error e

/-- `for x in xs: body(x)` where the body may raise. -/
def forEach {α : Type*} : List α → (α → Except PyErr Unit) → Except PyErr Unit
  | [], _ => .ok ()
  | x :: xs, f => do f x; forEach xs f

/-- validate_config.py:48-55 -/
def requiredKeys : List String :=
  ["name","seed","eps_oversampling","real_min_eps","real_max_eps","imag_min_eps","imag_max_eps",
   "Nx","Ny","N_layers","physical_wavelength_range","N_freq","model_type","encoding_dim","siren_omega",
   "n_neurons","hidden_layers","learning_rate","iterations","L","absorption_loss","type","use_regularization_loss",
   "reg_loss_weight","add_noise","noise_scale","solver","PER_LAYER_THICKNESS",
   "TRCWA_L_grid","TRCWA_NG","TRCWA_TOP_LAYER_EPS","TRCWA_BOTTOM_LAYER_EPS",
   "FDTD_min_gridpoints_per_unit_magnitude","FDTD_source_type","FDTD_pulse_type","FDTD_pml_thickness",
   "FDTD_source_position","FDTD_free_space_distance","FDTD_niter","FDTD_gridpoints_from_material_to_detector",
   "target_reflectance_spectrum","target_transmittance_spectrum","freq_distribution","use_gpu","avoid_zero_eps"]

/-- validate_config.py:58-59 -/
def optionalKeys : List String :=
  ["target_frequencies","FDTD_grid","model","out_features","results","best_model_state_dict","material_collection",
   "N_materials", "thicknesses","FDTD_grid_scaling"]

/-- validate_config.py:45-67 `_check_for_keys` -/
def checkForKeys (c : Cfg) : Except PyErr Unit := do
  forEach requiredKeys fun k => require (c.keys.contains k) .keyError            -- 61-63
  forEach c.keys fun k =>                                                        -- 65-67
    require (requiredKeys.contains k || optionalKeys.contains k) .keyError

/-- validate_config.py:73-74 -/
def integerKeys : List String :=
  ["Nx","Ny","N_layers","N_freq","encoding_dim","n_neurons","eps_oversampling","seed",
   "TRCWA_NG","FDTD_niter","FDTD_gridpoints_from_material_to_detector","FDTD_min_gridpoints_per_unit_magnitude"]
/-- validate_config.py:75-76 -/
def floatKeys : List String :=
  ["L","real_min_eps","real_max_eps","imag_min_eps","imag_max_eps","siren_omega","noise_scale","reg_loss_weight",
   "TRCWA_TOP_LAYER_EPS","TRCWA_BOTTOM_LAYER_EPS","FDTD_free_space_distance","FDTD_pml_thickness"]
/-- validate_config.py:77 -/
def booleanKeys : List String := ["use_regularization_loss","add_noise","use_gpu","avoid_zero_eps"]
/-- validate_config.py:78 -/
def stringKeys : List String :=
  ["model_type","type","name","freq_distribution","solver","FDTD_source_type","FDTD_pulse_type"]
/-- validate_config.py:79-80 -/
def listKeys : List String :=
  ["PER_LAYER_THICKNESS","TRCWA_L_grid","FDTD_source_position","target_reflectance_spectrum",
   "target_transmittance_spectrum","physical_wavelength_range"]

/-- The repeated body `if not isinstance(cfg[key], ty): raise TypeError`, validate_config.py:83-101. -/
def checkType (c : Cfg) (p : Val → Bool) (k : String) : Except PyErr Unit := do
  let v ← c.get k
  require (p v) .typeError

/-- validate_config.py:70-101 `_check_entry_types` -/
def checkEntryTypes (c : Cfg) : Except PyErr Unit := do
  forEach integerKeys (checkType c Val.isInt)
  forEach floatKeys (checkType c Val.isFloat)
  forEach booleanKeys (checkType c Val.isBool)
  forEach stringKeys (checkType c Val.isStr)
  forEach listKeys (checkType c Val.isList)

/-- nidn/fdtd_integration/constants.py `FDTD_GRID_SCALE = 0.1` -/
def FDTD_GRID_SCALE : ℚ := 1 / 10

/-- The scaling expression of validate_config.py:118-121 and :28-32:
`max(UNIT_MAGNITUDE / (wl0 * FDTD_GRID_SCALE), min_gridpoints)`. -/
def cfgScaling (c : Cfg) : Except PyErr ℚ := do
  let wl ← c.get "physical_wavelength_range"
  let wl0 ← (← wl.index 0).num
  let r ← pyDiv (1 / 1000000 : ℚ) (wl0 * FDTD_GRID_SCALE)
  let g ← (← c.get "FDTD_min_gridpoints_per_unit_magnitude").num
  pure (max r g)

/-- validate_config.py:133-135 -/
def positiveValueKeys : List String :=
  ["L","n_neurons","Nx","Ny","N_layers","N_freq","learning_rate","iterations","eps_oversampling","noise_scale",
   "TRCWA_NG","reg_loss_weight","FDTD_niter","FDTD_free_space_distance","FDTD_pml_thickness",
   "FDTD_gridpoints_from_material_to_detector","FDTD_min_gridpoints_per_unit_magnitude"]

/-- `cfg[a] <= cfg[b]` -/
def leKeys (c : Cfg) (a b : String) : Except PyErr Bool := do
  let x ← (← c.get a).num; let y ← (← c.get b).num; pure (decide (x ≤ y))

/-- `cfg[a] % cfg[b] == 0` on integers (the divisor has been checked to be positive before, line 138). -/
def multipleOf (c : Cfg) (a b : String) : Except PyErr Bool := do
  match ← c.get a, ← c.get b with
  | .int x, .int y => pure (decide (x % y = 0))
  | .bool x, .int y => pure (decide ((if x then 1 else 0) % y = (0 : ℤ)))
  | .int x, .bool y => pure (decide (x % (if y then 1 else 0) = 0))
  | .bool x, .bool y => pure (decide ((if x then 1 else 0) % (if y then 1 else 0) = (0 : ℤ)))
  | _, _ => .error .typeError

/-- validate_config.py:113 `cfg.physical_wavelength_range[0] < cfg.physical_wavelength_range[1]` -/
def wlOrdered (c : Cfg) : Except PyErr Bool := do
  let wl ← c.get "physical_wavelength_range"
  Val.lt (← wl.index 0) (← wl.index 1)

/-- `cfg.TRCWA_L_grid[i][j]` -/
def lGrid (c : Cfg) (i j : ℕ) : Except PyErr Val := do
  let g ← c.get "TRCWA_L_grid"
  (← g.index i).index j

/-- validate_config.py:166-168, one iteration: `if key in cfg.keys() and not (all(cfg[key]) > 0.0): raise`. The comparison is
`bool > 0.0`, i.e. the truth value itself. -/
def checkAllPositive (c : Cfg) (k : String) : Except PyErr Unit :=
  if c.keys.contains k then do
    let b ← (← c.get k).all
    require (decide ((if b then (1 : ℚ) else 0) > 0)) .runtimeError
  else .ok ()

/-- validate_config.py:169-173, one iteration: `if not (all(cfg[key]) >= 0.0): raise`. -/
def checkAllNonneg (c : Cfg) (k : String) : Except PyErr Unit := do
  let b ← (← c.get k).all
  require (decide ((if b then (1 : ℚ) else 0) ≥ 0)) .runtimeError

/-- validate_config.py:139 `if not (cfg[key] > 0): raise RuntimeError` -/
def checkPositive (c : Cfg) (k : String) : Except PyErr Unit := do
  let x ← (← c.get k).num
  require (decide (x > 0)) .runtimeError

/-- validate_config.py:186-190 `len(PER_LAYER_THICKNESS) == cfg.N_layers or ... == 1` -/
def thicknessLenOk (c : Cfg) : Except PyErr Bool := do
  let n ← (← c.get "PER_LAYER_THICKNESS").len
  let l ← (← c.get "N_layers").num
  pure (decide ((n : ℚ) = l) || decide (n = 1))

/-- validate_config.py:104-205 `_check_value_ranges`, checks in code order. -/
def checkValueRanges (c : Cfg) : Except PyErr Unit := do
  require (← leKeys c "real_min_eps" "real_max_eps") .runtimeError                       -- 107
  require (← leKeys c "imag_min_eps" "imag_max_eps") .runtimeError                       -- 110
  require (← wlOrdered c) .runtimeError                                                  -- 113
  let scaling ← cfgScaling c                                                             -- 118
  let free ← (← c.get "FDTD_free_space_distance").num
  let g ← (← c.get "FDTD_gridpoints_from_material_to_detector").num
  require (decide (¬ ((pyInt (scaling * free) : ℚ) < g))) .runtimeError                  -- 122
  forEach positiveValueKeys (checkPositive c)                                            -- 138
  require (← multipleOf c "Nx" "eps_oversampling") .runtimeError                         -- 142
  require (← multipleOf c "Ny" "eps_oversampling") .runtimeError                         -- 144
  let ty ← c.get "type"
  require (ty.eqStr "classification" || ty.eqStr "regression") .runtimeError             -- 147
  require (← Val.lt (← lGrid c 1 0) (← lGrid c 1 1)) .runtimeError                       -- 150
  require (← Val.lt (← lGrid c 0 1) (← lGrid c 0 0)) .runtimeError                       -- 152
  forEach ["TRCWA_L_grid", "PER_LAYER_THICKNESS", "FDTD_grid", "FDTD_source_position"]
    (checkAllPositive c)                                                                 -- 166
  forEach ["target_transmittance_spectrum", "target_reflectance_spectrum"]
    (checkAllNonneg c)                                                                   -- 169
  require (← thicknessLenOk c) .runtimeError                                             -- 186
  let fd ← c.get "freq_distribution"
  require (fd.eqStr "linear" || fd.eqStr "log") .runtimeError                            -- 192
  let sp ← (← c.get "FDTD_source_position").len
  require (decide (sp = 2) || decide (sp = 3)) .runtimeError                             -- 195
  let st ← c.get "FDTD_source_type"
  require (st.eqStr "point" || st.eqStr "line") .runtimeError                            -- 199
  let pt ← c.get "FDTD_pulse_type"
  require (pt.eqStr "ricker" || pt.eqStr "hanning" || pt.eqStr "continuous") .runtimeError -- 202

/-- validate_config.py:22-42 `_check_grid_scale`: only warns, so the result is unit unless the arithmetic raises. `x_start` is
recomputed for every layer (not accumulated), line 34. -/
def checkGridScale (c : Cfg) : Except PyErr Unit := do
  let scaling ← cfgScaling c
  let pml ← (← c.get "FDTD_pml_thickness").num
  let free ← (← c.get "FDTD_free_space_distance").num
  match ← c.get "PER_LAYER_THICKNESS" with
  | .list l => forEach l fun t => do
      let t ← t.num
      let size := pyInt (scaling * (pml + free + t)) - pyInt (scaling * (pml + free))
      let _ ← pyDiv (size : ℚ) scaling
      pure ()
  | _ => .error .typeError

/-- validate_config.py:8-19 `_validate_config` -/
def validateConfig (c : Cfg) : Except PyErr Unit := do
  checkForKeys c
  checkEntryTypes c
  checkValueRanges c
  if (← c.get "solver").eqStr "FDTD" then checkGridScale c

/-- nidn/utils/compute_spectrum.py:9-27. The two solvers are parameters; python returns None when no branch is taken. -/
def computeSpectrum {α : Type} (fdtd trcwa : Cfg → Except PyErr α) (c : Cfg) (validateCfg : Bool := true) :
    Except PyErr (Option α) := do
  if validateCfg then validateConfig c
  let s ← c.get "solver"
  if s.eqStr "FDTD" then some <$> fdtd c
  else if s.eqStr "TRCWA" then some <$> trcwa c
  else pure none

/-- nidn/training/model/init_network.py:10-47: which constructor is called. -/
inductive NetKind | nerf | siren | voxel
  deriving DecidableEq, Repr

/-- nidn/training/model/init_network.py:18-47 `init_network` dispatch. -/
def initNetworkKind (c : Cfg) : Except PyErr NetKind := do
  let m ← c.get "model_type"
  if m.eqStr "nerf" then pure .nerf
  else if m.eqStr "siren" then pure .siren
  else if m.eqStr "voxel" then pure .voxel
  else .error .notImplementedError

/-- nidn/utils/resources/default_config.toml, all 64 lines, in file order. -/
def defaultConfig : Cfg :=
  [("name", .str "example_name"), ("use_gpu", .bool false), ("seed", .int 100), ("model_type", .str "siren"),
   ("iterations", .int 3000), ("learning_rate", .float (8 / 100000)), ("type", .str "regression"),
   ("reg_loss_weight", .float (1 / 20)), ("use_regularization_loss", .bool true),
   ("L", .float 1), ("absorption_loss", .bool false),
   ("n_neurons", .int 100), ("hidden_layers", .int 9), ("encoding_dim", .int 4), ("siren_omega", .float 1),
   ("add_noise", .bool false), ("noise_scale", .float (1 / 1000)), ("eps_oversampling", .int 1),
   ("real_min_eps", .float (-100)), ("real_max_eps", .float 100), ("imag_min_eps", .float 0), ("imag_max_eps", .float 3),
   ("solver", .str "TRCWA"),
   ("Nx", .int 1), ("Ny", .int 1), ("N_layers", .int 8), ("PER_LAYER_THICKNESS", .list [.float 1]),
   ("TRCWA_L_grid", .list [.list [.float (1 / 10), .float 0], .list [.float 0, .float (1 / 10)]]),
   ("TRCWA_NG", .int 11), ("TRCWA_TOP_LAYER_EPS", .float 1), ("TRCWA_BOTTOM_LAYER_EPS", .float 1),
   ("FDTD_source_type", .str "line"), ("FDTD_pulse_type", .str "continuous"), ("FDTD_pml_thickness", .float (3 / 2)),
   ("FDTD_source_position", .list [.float (3 / 2), .float 1]), ("FDTD_free_space_distance", .float 1),
   ("FDTD_niter", .int 200), ("FDTD_gridpoints_from_material_to_detector", .int 2),
   ("FDTD_min_gridpoints_per_unit_magnitude", .int 10),
   ("avoid_zero_eps", .bool true),
   ("target_reflectance_spectrum", .list (List.replicate 10 (.float 0) ++ List.replicate 10 (.float 1))),
   ("target_transmittance_spectrum", .list (List.replicate 20 (.float 0))),
   ("physical_wavelength_range", .list [.float (1 / 1000000), .float (30 / 1000000)]),
   ("freq_distribution", .str "linear"), ("N_freq", .int 20)]

/-- `cfg.key = value` for an existing or new key. -/
def Cfg.set (c : Cfg) (k : String) (v : Val) : Cfg :=
  if c.keys.contains k then c.map (fun p => if p.1 = k then (k, v) else p) else c ++ [(k, v)]

end Nidn
