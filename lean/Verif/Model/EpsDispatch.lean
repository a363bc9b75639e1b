/-
Which conversion turns a model into a permittivity grid: `model_to_eps_grid`, nidn/training/model/model_to_eps_grid.py:287-301. The two conversions themselves are in Model/EpsGrid.lean and Model/Shapes.lean; here they
are parameters that may fail.
-/
import Verif.Model.Config

namespace Nidn

/-- `model_to_eps_grid`, model_to_eps_grid.py:287-301: the outer `none` is the `None` a python function returns when it ends without `return`. A config without `type` answers with an empty DotMap, which equals no string. -/
def modelToEpsGrid {G W : Type} (classify : Except PyErr (G × W)) (regress : Except PyErr G) (c : Cfg) : Except PyErr (Option (G × Option W)) :=
  let is := fun s => match c.lookup "type" with
    | some t => t.eqStr s
    | none => false
  if is "classification" then classify.map fun r => some (r.1, some r.2)     -- lines 297-298
  else if is "regression" then regress.map fun g => some (g, none)           -- lines 299-301
  else .ok none

/-- `eps, _ = model_to_eps_grid(run_cfg.model, run_cfg)`, nidn/plots/plot_model_grid.py:15, plot_spectra.py:100, plot_model_grid_per_freq.py:18, plot_material_grid.py:27, plot_eps_per_point.py:29: unpacking `None` is a TypeError. -/
def plottedGrid {G W : Type} (classify : Except PyErr (G × W)) (regress : Except PyErr G) (c : Cfg) : Except PyErr G := do
  match ← modelToEpsGrid classify regress c with
  | some r => .ok r.1
  | none => .error .typeError

end Nidn
