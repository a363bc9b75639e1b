/-
Vocabulary for the validation properties, independent of the checking functions.
-/
import Verif.Model.Config

namespace Nidn

/-- The value is a python number denoting `x` (a bool counts as 0/1, as in python arithmetic). -/
inductive Denotes : Val → ℚ → Prop
  | int (z : ℤ) : Denotes (.int z) z
  | float (x : ℚ) : Denotes (.float x) x
  | true : Denotes (.bool true) 1
  | false : Denotes (.bool false) 0

/-- Setting `k` is a number and denotes `x`. -/
def SetTo (c : Cfg) (k : String) (x : ℚ) : Prop := ∃ v, c.lookup k = some v ∧ Denotes v x

/-- Setting `k` is one of the given strings. -/
def SetToOneOf (c : Cfg) (k : String) (ss : List String) : Prop := ∃ s ∈ ss, c.lookup k = some (.str s)

/-- The scalar settings documented as positive. -/
def documentedPositive : List String :=
  ["L", "n_neurons", "Nx", "Ny", "N_layers", "N_freq", "learning_rate", "iterations", "eps_oversampling", "noise_scale",
   "TRCWA_NG", "reg_loss_weight", "FDTD_niter", "FDTD_free_space_distance", "FDTD_pml_thickness",
   "FDTD_gridpoints_from_material_to_detector", "FDTD_min_gridpoints_per_unit_magnitude"]

/-- The scalar ranges a user may rely on once validation succeeded (property C07). -/
structure RangesOk (c : Cfg) : Prop where
  real : ∃ a b, SetTo c "real_min_eps" a ∧ SetTo c "real_max_eps" b ∧ a ≤ b
  imag : ∃ a b, SetTo c "imag_min_eps" a ∧ SetTo c "imag_max_eps" b ∧ a ≤ b
  wavelengths : ∃ v w rest a b, c.lookup "physical_wavelength_range" = some (.list (v :: w :: rest)) ∧
    Denotes v a ∧ Denotes w b ∧ a < b
  positive : ∀ k ∈ documentedPositive, ∃ x, SetTo c k x ∧ 0 < x
  oversampling : ∃ nx ny s : ℤ, SetTo c "Nx" nx ∧ SetTo c "Ny" ny ∧ SetTo c "eps_oversampling" s ∧ 0 < s ∧
    s ∣ nx ∧ s ∣ ny
  thickness : ∃ l : List Val, ∃ n : ℤ, c.lookup "PER_LAYER_THICKNESS" = some (.list l) ∧ SetTo c "N_layers" n ∧
    ((l.length : ℤ) = n ∨ l.length = 1)
  type : SetToOneOf c "type" ["classification", "regression"]
  distribution : SetToOneOf c "freq_distribution" ["linear", "log"]
  source : SetToOneOf c "FDTD_source_type" ["point", "line"]
  pulse : SetToOneOf c "FDTD_pulse_type" ["ricker", "hanning", "continuous"]
  sourcePosition : ∃ l : List Val, c.lookup "FDTD_source_position" = some (.list l) ∧ (l.length = 2 ∨ l.length = 3)

end Nidn
