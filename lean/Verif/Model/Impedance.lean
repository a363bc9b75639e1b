import Verif.Model.Backend

/-! The impedance routine of nidn/fdtd/fourier.py. -/

namespace Nidn

/-- A recorded array as fourier.py uses it: its shape and its entries in row-major order. -/
abbrev Record := List ℕ × List ℝ

/-- What `FrequencyRoutines` was given, as far as fourier.py:241-259 tells the cases apart. Turning the recorded lists into arrays (and indexing them, line 255) may itself raise. -/
inductive ImpedanceNode where
  | source (voltage current : Except PyErr Record)     -- lines 241-245
  | detectors (voltage current : Except PyErr Record)  -- lines 247-256
  | other                                              -- lines 257-258

/-- fourier.py:241-258: the two arrays. -/
def impedanceRecords : ImpedanceNode → Except PyErr (Record × Record)
  | .source v c => do
    let v ← v
    let c ← c
    return (v, c)
  | .detectors v c => do
    let v ← v
    let c ← c
    return (v, c)
  | .other => .error .valueError

/-- fourier.py:226-291 `impedance`; `reshape`, `fft` and `divide` stand for `torch.reshape`, calling `torch.fft`, and `torch.div` with `out` and `where`. -/
noncomputable def impedanceRoutine (steps : ℕ) (reshape : Record → ℕ → Except PyErr (List ℝ)) (fft : List ℝ → Except PyErr (List ℂ)) (divide : List ℂ → List ℂ → Except PyErr (List ℂ))
    (node : ImpedanceNode) (dt : ℝ) (window : Option (ℝ × ℝ)) (bins res : Option ℝ) : Except PyErr (List ℝ × List ℂ) :=
  if steps = 0 then .ok ([], [])                                             -- lines 238-239
  else do
    let r ← impedanceRecords node
    let len ← (match r.1.1 with                                              -- `input_data.shape[0]`, line 84
      | [] => (.error .indexError : Except PyErr ℕ)
      | n :: _ => .ok n)
    let p ← computePadding len dt window bins res                            -- lines 260-266
    let v ← reshape r.1 steps                                                -- lines 268-270
    let c ← reshape r.2 steps                                                -- line 271
    let v ← bdPad v p.1 "edge"                                               -- line 273
    let c ← bdPad c p.1 "edge"                                               -- line 274
    let vs ← fft v                                                           -- line 276
    let cs ← fft c                                                           -- line 277
    let z ← divide vs cs                                                     -- lines 279-284
    let f ← computeFrequencies v.length dt window                            -- lines 286-290
    return (f.1.dropLast, z.dropLast)

end Nidn
