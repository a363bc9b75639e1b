/-
Model of `Siren` (nidn/training/utils/siren.py) module by module, with `forward_with_activations`.
Model/Nets.lean has the form with a linear outermost layer in one piece; here both branches of the constructor are kept and the modules stay separate.
Gradients (`requires_grad_`, `retain_grad`) are left out: they do not change values.
-/
import Verif.Model.Nets
import Verif.Model.FdtdPrint

namespace Nidn

/-- the modules in `self.net`, nidn/training/utils/siren.py:72-112; the outermost activation is any module that works entry by entry, with the text of its class -/
inductive SirenModule
  | sine (l : Linear) (omega : ℝ)
  | linear (l : Linear)
  | act (cls : Str) (f : ℝ → ℝ)

/-- `str(layer.__class__)`, nidn/training/utils/siren.py:134, 144 -/
def SirenModule.cls : SirenModule → Str
  | .sine _ _ => "<class 'nidn.training.utils.siren.SineLayer'>".toList
  | .linear _ => "<class 'torch.nn.modules.linear.Linear'>".toList
  | .act c _ => c

/-- calling a module; a `SineLayer` is nidn/training/utils/siren.py:45-46 -/
noncomputable def SirenModule.call : SirenModule → List ℝ → Except PyErr (List ℝ)
  | .sine l w, x => do
    let y ← l.forward x
    .ok (y.map fun v => Real.sin (w * v))
  | .linear l, x => l.forward x
  | .act _ f, x => .ok (x.map f)

/-- `SineLayer.forward_with_intermediate`, nidn/training/utils/siren.py:48-51 -/
noncomputable def sineIntermediate (l : Linear) (w : ℝ) (x : List ℝ) : Except PyErr (List ℝ × List ℝ) := do
  let y ← l.forward x
  let intermediate := y.map fun v => w * v
  .ok (intermediate.map Real.sin, intermediate)

/-- the constructor, nidn/training/utils/siren.py:57-112 -/
def sirenModules (inF hiddenF hidden outF : ℕ) (outermostLinear : Bool) (actCls : Str) (act : ℝ → ℝ) (firstOmega hiddenOmega : ℝ) (w : NetWeights) : List SirenModule :=
  [.sine ⟨inF, hiddenF, w.weight 0, w.bias 0⟩ firstOmega] ++
  (List.range hidden).map (fun i : ℕ => .sine ⟨hiddenF, hiddenF, w.weight (i + 1), w.bias (i + 1)⟩ hiddenOmega) ++
  if outermostLinear then [.linear ⟨hiddenF, outF, w.weight (hidden + 1), w.bias (hidden + 1)⟩, .act actCls act]
  else [.sine ⟨hiddenF, outF, w.weight (hidden + 1), w.bias (hidden + 1)⟩ hiddenOmega]

/-- `Siren.forward`: the modules one after the other, nidn/training/utils/siren.py:114-119 -/
noncomputable def sirenCall : List SirenModule → List ℝ → Except PyErr (List ℝ)
  | [], x => .ok x
  | m :: rest, x => do
    let y ← m.call x
    sirenCall rest y

/-- assignment to an `OrderedDict`: a known key keeps its place and gets the new value -/
def odSet (d : List (Str × List ℝ)) (k : Str) (v : List ℝ) : List (Str × List ℝ) :=
  if k ∈ d.map Prod.fst then d.map fun e => if e.1 = k then (k, v) else e else d ++ [(k, v)]

/-- `"_".join((str(layer.__class__), "%d" % activation_count))`, nidn/training/utils/siren.py:133-135, 144 -/
def actKey (cls : Str) (count : ℕ) : Str := cls ++ '_' :: Nat.toDigits 10 count

/-- the loop of `forward_with_activations`, nidn/training/utils/siren.py:127-145 -/
noncomputable def recordLoop : List SirenModule → ℕ → List ℝ → List (Str × List ℝ) → Except PyErr (List (Str × List ℝ))
  | [], _, _, acts => .ok acts
  | .sine l w :: rest, count, x, acts => do
    let (y, intermed) ← sineIntermediate l w x
    let acts := odSet acts (actKey (SirenModule.sine l w).cls count) intermed
    recordLoop rest (count + 2) y (odSet acts (actKey (SirenModule.sine l w).cls (count + 1)) y)
  | m :: rest, count, x, acts => do
    let y ← m.call x
    recordLoop rest (count + 1) y (odSet acts (actKey m.cls count) y)

/-- `Siren.forward_with_activations`, nidn/training/utils/siren.py:121-147 -/
noncomputable def sirenActivations (ms : List SirenModule) (x : List ℝ) : Except PyErr (List (Str × List ℝ)) := recordLoop ms 0 x [("input".toList, x)]

end Nidn
