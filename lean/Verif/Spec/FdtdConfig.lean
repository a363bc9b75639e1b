/-
How the FDTD solver's view of a config (Model/FdtdIntegration.lean) relates to the dictionary the user wrote (Model/Config.lean).
-/
import Mathlib.Data.Real.Basic
import Mathlib.Data.List.Forall2
import Verif.Spec.Config
import Verif.Model.FdtdIntegration

namespace Nidn

/-- the list denotes these numbers -/
def DenotesList (l : List Val) (xs : List ℝ) : Prop := List.Forall₂ (fun v (x : ℝ) => ∃ q : ℚ, Denotes v q ∧ x = q) l xs

/-- setting `k` denotes the real number `x` -/
def SetToReal (c : Cfg) (k : String) (x : ℝ) : Prop := ∃ q : ℚ, SetTo c k q ∧ x = q

/-- `f` holds the values the user's config `c` has -/
structure ReadsAs (c : Cfg) (f : FdtdCfg) : Prop where
  wavelengths : ∃ l, c.lookup "physical_wavelength_range" = some (.list l) ∧ ∃ rest, DenotesList l (f.freq.wlMin :: f.freq.wlMax :: rest)
  nFreq : SetTo c "N_freq" f.freq.nFreq
  distribution : c.lookup "freq_distribution" = some (.str f.freq.distribution)
  minGp : SetToReal c "FDTD_min_gridpoints_per_unit_magnitude" f.minGp
  pml : SetToReal c "FDTD_pml_thickness" f.pml
  free : SetToReal c "FDTD_free_space_distance" f.free
  thick : ∃ l, c.lookup "PER_LAYER_THICKNESS" = some (.list l) ∧ DenotesList l f.thick
  nLayers : SetTo c "N_layers" f.nLayers
  gap : SetTo c "FDTD_gridpoints_from_material_to_detector" f.gap
  source : ∃ l, c.lookup "FDTD_source_position" = some (.list l) ∧ DenotesList l f.source
  pulse : c.lookup "FDTD_pulse_type" = some (.str f.pulse)
  sourceType : c.lookup "FDTD_source_type" = some (.str f.sourceType)
  niter : SetTo c "FDTD_niter" f.niter

end Nidn
