/-
Model of notebooks/tmm_core.py, lines 31-698: the transfer-matrix reference that notebooks/FDTD_RCWA_TMM_Comparison.ipynb holds against RCWA and
FDTD (coherent part; the partly incoherent part is in Model/TmmInc.lean).

Simplifications: floats are exact; lists and arrays are lists; a thickness is `none` for `inf`; a value that would be NaN or infinite (a division by
zero) ends the model with `PyErr.nan`, while numpy carries the NaN on; only scalar wavelengths and angles and one-dimensional lists are modelled
(the type checks of lines 279-287 accept them). `asin` stands for `sp.arcsin`; nothing but `sin (asin z) = z` is ever assumed of it.
The opacity warning (lines 315-324) is printed only and left out.
-/
import Verif.Model.Py
import Mathlib.Analysis.SpecialFunctions.Trigonometric.Basic
import Mathlib.Analysis.SpecialFunctions.Complex.Circle
import Mathlib.LinearAlgebra.Matrix.Notation
import Mathlib.Data.EReal.Basic
import Mathlib.Analysis.SpecialFunctions.Trigonometric.Arctan

namespace Nidn

noncomputable section

/-- tmm_core.py:31: `EPSILON`, the spacing of floats at 1 -/
def tmmEps : ℝ := 1 / 2 ^ 52

/-- complex division of numpy; a zero divisor gives NaN or infinity -/
def nanDiv (a b : ℂ) : Except PyErr ℂ := if b = 0 then .error .nan else .ok (a / b)

/-- real division of numpy -/
def nanDivR (a b : ℝ) : Except PyErr ℝ := if b = 0 then .error .nan else .ok (a / b)

/-- an `assert` statement -/
def assertTrue (p : Prop) [Decidable p] : Except PyErr Unit := if p then .ok () else .error .assertionError

/-- indexing of a python list or one-dimensional array with an integer: negative indices count from the end -/
def pyNth {α : Type} (l : List α) (i : ℤ) : Except PyErr α :=
  match (if i < 0 then l[(i + l.length).toNat]? else l[i.toNat]?) with
  | some x => if i < -(l.length : ℤ) then .error .indexError else .ok x
  | none => .error .indexError

/-- tmm_core.py:34-45: `make_2x2_array` -/
def make2x2 (a b c d : ℂ) : Matrix (Fin 2) (Fin 2) ℂ := !![a, b; c, d]

/-- tmm_core.py:64-76: the first answer of `is_forward_angle` from `n cos θ` -/
def forwardAnswer (q : ℂ) : Bool := if 100 * tmmEps < |q.im| then decide (0 < q.im) else decide (0 < q.re)

/-- tmm_core.py:48-91: `is_forward_angle` -/
def isForwardAngle (n θ : ℂ) : Except PyErr Bool := do
  assertTrue (0 ≤ n.re * n.im)
  if forwardAnswer (n * Complex.cos θ) then
    assertTrue (-(100 * tmmEps) < (n * Complex.cos θ).im)
    assertTrue (-(100 * tmmEps) < (n * Complex.cos θ).re)
    assertTrue (-(100 * tmmEps) < (n * Complex.cos (starRingEnd ℂ θ)).re)
    pure true
  else
    assertTrue ((n * Complex.cos θ).im < 100 * tmmEps)
    assertTrue ((n * Complex.cos θ).re < 100 * tmmEps)
    assertTrue ((n * Complex.cos (starRingEnd ℂ θ)).re < 100 * tmmEps)
    pure false

/-- the common part of `snell` and `list_snell`: an angle is replaced by its supplement if it is not the forward one (tmm_core.py:103-106, 120-123) -/
def makeForward (n θ : ℂ) : Except PyErr ℂ := do
  if ← isForwardAngle n θ then pure θ else pure (Real.pi - θ)

/-- tmm_core.py:94-106: `snell` -/
def snell (asin : ℂ → ℂ) (n1 n2 th1 : ℂ) : Except PyErr ℂ := do
  let z ← nanDiv (n1 * Complex.sin th1) n2
  makeForward n2 (asin z)

/-- tmm_core.py:109-124: `list_snell`; only the first and the last angle are made forward ones -/
def listSnell (asin : ℂ → ℂ) (n : List ℂ) (th0 : ℂ) : Except PyErr (List ℂ) := do
  let n0 ← pyNth n 0
  let angles ← n.mapM fun m => do
    let z ← nanDiv (n0 * Complex.sin th0) m
    pure (asin z)
  let a0 ← pyNth angles 0
  let first ← makeForward n0 a0
  let angles := angles.set 0 first
  let nN ← pyNth n (-1)
  let aN ← pyNth angles (-1)
  let last ← makeForward nN aN
  pure (angles.set (angles.length - 1) last)

/-- tmm_core.py:127-143: `interface_r` -/
def interfaceR (pol : String) (ni nf thi thf : ℂ) : Except PyErr ℂ :=
  if pol = "s" then nanDiv (ni * Complex.cos thi - nf * Complex.cos thf) (ni * Complex.cos thi + nf * Complex.cos thf)
  else if pol = "p" then nanDiv (nf * Complex.cos thi - ni * Complex.cos thf) (nf * Complex.cos thi + ni * Complex.cos thf)
  else .error .valueError

/-- tmm_core.py:146-162: `interface_t` -/
def interfaceT (pol : String) (ni nf thi thf : ℂ) : Except PyErr ℂ :=
  if pol = "s" then nanDiv (2 * ni * Complex.cos thi) (ni * Complex.cos thi + nf * Complex.cos thf)
  else if pol = "p" then nanDiv (2 * ni * Complex.cos thi) (nf * Complex.cos thi + ni * Complex.cos thf)
  else .error .valueError

/-- tmm_core.py:165-169: `R_from_r` -/
def rFromR (r : ℂ) : ℝ := ‖r‖ ^ 2

/-- tmm_core.py:172-193: `T_from_t` -/
def tFromT (pol : String) (t ni nf thi thf : ℂ) : Except PyErr ℝ :=
  if pol = "s" then do
    let x ← nanDivR (nf * Complex.cos thf).re (ni * Complex.cos thi).re
    pure (‖t ^ 2‖ * x)
  else if pol = "p" then do
    let x ← nanDivR (nf * starRingEnd ℂ (Complex.cos thf)).re (ni * starRingEnd ℂ (Complex.cos thi)).re
    pure (‖t ^ 2‖ * x)
  else .error .valueError

/-- tmm_core.py:196-214: `power_entering_from_r` -/
def powerEnteringFromR (pol : String) (r ni thi : ℂ) : Except PyErr ℝ :=
  if pol = "s" then
    nanDivR (ni * Complex.cos thi * (1 + starRingEnd ℂ r) * (1 - r)).re (ni * Complex.cos thi).re
  else if pol = "p" then
    nanDivR (ni * starRingEnd ℂ (Complex.cos thi) * (1 + r) * (1 - starRingEnd ℂ r)).re (ni * starRingEnd ℂ (Complex.cos thi)).re
  else .error .valueError

/-- tmm_core.py:217-222: `interface_R` -/
def interfaceRPower (pol : String) (ni nf thi thf : ℂ) : Except PyErr ℝ := do
  let r ← interfaceR pol ni nf thi thf
  pure (rFromR r)

/-- tmm_core.py:225-230: `interface_T` -/
def interfaceTPower (pol : String) (ni nf thi thf : ℂ) : Except PyErr ℝ := do
  let t ← interfaceT pol ni nf thi thf
  tFromT pol t ni nf thi thf

/-- tmm_core.py:379-393: the dictionary that `coh_tmm` returns -/
structure TmmData where
  r : ℂ
  t : ℂ
  R : ℝ
  T : ℝ
  powerEntering : ℝ
  vw : List (Fin 2 → ℂ)
  kz : List ℂ
  th : List ℂ
  pol : String
  n : List ℂ
  d : List (Option ℝ)
  th0 : ℂ
  lam : ℂ

/-- tmm_core.py:308-314: the phase of one inner layer; more than 35 of attenuation are cut down to 35 -/
def clampPhase (δ : ℂ) : ℂ := if 35 < δ.im then δ.re + 35 * Complex.I else δ

/-- tmm_core.py:303-314: the phase of layer `i`; an infinite thickness of an inner layer has none -/
def layerPhase (kz : ℂ) (d : Option ℝ) : Except PyErr ℂ :=
  match d with
  | some x => .ok (clampPhase (kz * x))
  | none => .error .nan

/-- tmm_core.py:345-351: the matrix `M_list[i]` -/
def layerMatrix (δ t r : ℂ) : Except PyErr (Matrix (Fin 2) (Fin 2) ℂ) := do
  let u ← nanDiv 1 t
  pure (u • (make2x2 (Complex.exp (-Complex.I * δ)) 0 0 (Complex.exp (Complex.I * δ)) * make2x2 1 r r 1))

/-- tmm_core.py:364-371: `vw_list[i]` for `i ≥ 1`: the product of the matrices of the layers from `i` on, applied to `(t, 0)`; `M` lists the
matrices of the layers 1, 2, ... -/
def vwAt (M : List (Matrix (Fin 2) (Fin 2) ℂ)) (t : ℂ) (i : ℕ) : Fin 2 → ℂ := (M.drop (i - 1)).foldr (fun m v => m.mulVec v) ![t, 0]

/-- tmm_core.py:326-351: phases, interface coefficients and matrices of the stack: `t_list[i, i+1]` and `r_list[i, i+1]` for all interfaces, `M_list[i]` for
all inner layers -/
def stackMatrices (pol : String) (n th kz : List ℂ) (d : List (Option ℝ)) : Except PyErr (List (ℂ × ℂ) × List (Matrix (Fin 2) (Fin 2) ℂ)) := do
  let δ ← (List.range (n.length - 2)).mapM fun i => layerPhase (kz.getD (i + 1) 0) (d.getD (i + 1) none)
  let tr ← (List.range (n.length - 1)).mapM fun i => do
    let t ← interfaceT pol (n.getD i 0) (n.getD (i + 1) 0) (th.getD i 0) (th.getD (i + 1) 0)
    let r ← interfaceR pol (n.getD i 0) (n.getD (i + 1) 0) (th.getD i 0) (th.getD (i + 1) 0)
    pure (t, r)
  let M ← (List.range (n.length - 2)).mapM fun i => layerMatrix (δ.getD i 0) (tr.getD (i + 1) (0, 0)).1 (tr.getD (i + 1) (0, 0)).2
  pure (tr, M)

/-- tmm_core.py:233-393: `coh_tmm` -/
def cohTmm (asin : ℂ → ℂ) (pol : String) (n : List ℂ) (d : List (Option ℝ)) (th0 lam : ℂ) : Except PyErr TmmData := do
  if n.length ≠ d.length then throw .valueError
  let d0 ← pyNth d 0
  let dN ← pyNth d (-1)
  assertTrue (d0 = none ∧ dN = none)
  let n0 ← pyNth n 0
  assertTrue (|(n0 * Complex.sin th0).im| < 100 * tmmEps)
  let fwd ← isForwardAngle n0 th0
  assertTrue (fwd = true)
  let th ← listSnell asin n th0
  let kz ← (n.zip th).mapM fun p => nanDiv (2 * Real.pi * p.1 * Complex.cos p.2) lam
  let trM ← stackMatrices pol n th kz d
  let tr0 ← pyNth trM.1 0
  let u ← nanDiv 1 tr0.1
  let Mt := (u • make2x2 1 tr0.2 tr0.2 1) * trM.2.foldl (· * ·) (make2x2 1 0 0 1)
  let r ← nanDiv (Mt 1 0) (Mt 0 0)
  let t ← nanDiv 1 (Mt 0 0)
  let nN ← pyNth n (-1)
  let thN ← pyNth th (-1)
  let T ← tFromT pol t n0 nN th0 thN
  let pe ← powerEnteringFromR pol r n0 th0
  pure { r := r, t := t, R := rFromR r, T := T, powerEntering := pe,
         vw := 0 :: (List.range (n.length - 1)).map fun i => vwAt trM.2 t (i + 1),
         kz := kz, th := th, pol := pol, n := n, d := d, th0 := th0, lam := lam }

/-- tmm_core.py:396-401: `coh_tmm_reverse` -/
def cohTmmReverse (asin : ℂ → ℂ) (pol : String) (n : List ℂ) (d : List (Option ℝ)) (th0 lam : ℂ) : Except PyErr TmmData := do
  let n0 ← pyNth n 0
  let nN ← pyNth n (-1)
  let thf ← snell asin n0 nN th0
  cohTmm asin pol n.reverse d.reverse thf lam

/-- tmm_core.py:404-415: `ellips`: the ratio of the reflection amplitudes whose arctangent and angle are returned, as `(arctan |rp/rs|, arg (-rp/rs))` -/
def ellips (asin : ℂ → ℂ) (n : List ℂ) (d : List (Option ℝ)) (th0 lam : ℂ) : Except PyErr (ℝ × ℝ) := do
  let s ← cohTmm asin "s" n d th0 lam
  let p ← cohTmm asin "p" n d th0 lam
  let x ← nanDiv p.r s.r
  let y ← nanDiv (-p.r) s.r
  pure (Real.arctan ‖x‖, Complex.arg y)

/-- tmm_core.py:418-427: `unpolarized_RT` -/
def unpolarizedRT (asin : ℂ → ℂ) (n : List ℂ) (d : List (Option ℝ)) (th0 lam : ℂ) : Except PyErr (ℝ × ℝ) := do
  let s ← cohTmm asin "s" n d th0 lam
  let p ← cohTmm asin "p" n d th0 lam
  pure ((s.R + p.R) / 2, (s.T + p.T) / 2)

/-- tmm_core.py:493: what `position_resolved` returns -/
structure PointData where
  poyn : ℝ
  absor : ℝ
  Ex : ℂ
  Ey : ℂ
  Ez : ℂ

/-- `distance <= d_list[layer]` with `inf` (tmm_core.py:459-461) -/
def withinThickness (x : ℝ) : Option ℝ → Prop
  | some d => x ≤ d
  | none => True

/-- tmm_core.py:463-491: Poynting vector, absorption and field from the amplitudes at a point -/
def pointData (pol : String) (n th kz n0 th0 Ef Eb : ℂ) : Except PyErr PointData :=
  if pol = "s" then do
    let poyn ← nanDivR (n * Complex.cos th * starRingEnd ℂ (Ef + Eb) * (Ef - Eb)).re (n0 * Complex.cos th0).re
    let absor ← nanDivR (n * Complex.cos th * kz * (‖Ef + Eb‖ ^ 2 : ℝ)).im (n0 * Complex.cos th0).re
    pure { poyn := poyn, absor := absor, Ex := 0, Ey := Ef + Eb, Ez := 0 }
  else if pol = "p" then do
    let poyn ← nanDivR (n * starRingEnd ℂ (Complex.cos th) * (Ef + Eb) * starRingEnd ℂ (Ef - Eb)).re (n0 * starRingEnd ℂ (Complex.cos th0)).re
    let absor ← nanDivR (n * starRingEnd ℂ (Complex.cos th) * (kz * (‖Ef - Eb‖ ^ 2 : ℝ) - starRingEnd ℂ kz * (‖Ef + Eb‖ ^ 2 : ℝ))).im
      (n0 * starRingEnd ℂ (Complex.cos th0)).re
    pure { poyn := poyn, absor := absor, Ex := (Ef - Eb) * Complex.cos th, Ey := 0, Ez := (-Ef - Eb) * Complex.sin th }
  else .error .unboundLocalError

instance (x : ℝ) (d : Option ℝ) : Decidable (withinThickness x d) := Classical.propDecidable _

/-- tmm_core.py:430-493: `position_resolved` -/
def positionResolved (layer : ℤ) (distance : ℝ) (c : TmmData) : Except PyErr PointData := do
  let vw ← if 0 < layer then pyNth c.vw layer else pure ![1, c.r]
  let kz ← pyNth c.kz layer
  let th ← pyNth c.th layer
  let n ← pyNth c.n layer
  let n0 ← pyNth c.n 0
  let d ← pyNth c.d layer
  assertTrue ((1 ≤ layer ∧ 0 ≤ distance ∧ withinThickness distance d) ∨ (layer = 0 ∧ distance ≤ 0))
  pointData c.pol n th kz n0 c.th0 (vw 0 * Complex.exp (Complex.I * kz * distance)) (vw 1 * Complex.exp (-Complex.I * kz * distance))

/-- tmm_core.py:515-519: the loop of `find_in_structure` from `layer` on -/
def findLoop : List ℝ → ℤ → ℝ → ℤ × ℝ
  | [], layer, x => (layer, x)
  | d :: rest, layer, x => if d ≤ x then findLoop rest (layer + 1) (x - d) else (layer, x)

/-- tmm_core.py:496-519: `find_in_structure` -/
def findInStructure (d : List (Option ℝ)) (x : ℝ) : Except PyErr (ℤ × ℝ) :=
  match d.mapM id with
  | none => .error .valueError
  | some fin => if x < 0 then .ok (-1, x) else .ok (findLoop fin 0 x)

/-- tmm_core.py:522-540: `find_in_structure_with_inf` -/
def findInStructureWithInf (d : List (Option ℝ)) (x : ℝ) : Except PyErr (ℤ × ℝ) :=
  if x < 0 then .ok (0, x)
  else do
    let p ← findInStructure (d.tail.dropLast) x
    pure (p.1 + 1, p.2)

/-- a thickness as an extended real number -/
def thickE : Option ℝ → EReal
  | some x => (x : EReal)
  | none => ⊤

/-- tmm_core.py:554-555: `final_answer[i]` for `i ≥ 1` -/
def startAt (d : List (Option ℝ)) : ℕ → EReal
  | 0 => 0
  | i + 1 => startAt d i + thickE (d.getD (i + 1) none)

/-- tmm_core.py:543-556: `layer_starts` -/
def layerStarts (d : List (Option ℝ)) : Except PyErr (List EReal) :=
  if d.length < 2 then .error .indexError
  else .ok (⊥ :: (List.range (d.length - 1)).map (startAt d))

/-- tmm_core.py:559-573: the fields of an `absorp_analytic_fn` -/
structure AbsorpFn where
  A1 : ℝ
  A2 : ℝ
  A3 : ℂ
  a1 : ℝ
  a3 : ℝ
  d : Option ℝ

/-- tmm_core.py:575-615: `fill_in` -/
def AbsorpFn.fillIn (c : TmmData) (layer : ℤ) : Except PyErr AbsorpFn := do
  let vw ← pyNth c.vw layer
  let kz ← pyNth c.kz layer
  let n ← pyNth c.n layer
  let n0 ← pyNth c.n 0
  let th ← pyNth c.th layer
  let d ← pyNth c.d layer
  if c.pol = "s" then do
    let temp ← nanDivR (n * Complex.cos th * kz).im (n0 * Complex.cos c.th0).re
    pure { A1 := temp * ‖vw 1‖ ^ 2, A2 := temp * ‖vw 0‖ ^ 2, A3 := temp * vw 0 * starRingEnd ℂ (vw 1), a1 := 2 * kz.im, a3 := 2 * kz.re, d := d }
  else do
    let temp ← nanDivR (2 * kz.im * (n * Complex.cos (starRingEnd ℂ th)).re) (n0 * starRingEnd ℂ (Complex.cos c.th0)).re
    let temp3 ← nanDivR (-2 * kz.re * (n * Complex.cos (starRingEnd ℂ th)).im) (n0 * starRingEnd ℂ (Complex.cos c.th0)).re
    pure { A1 := temp * ‖vw 1‖ ^ 2, A2 := temp * ‖vw 0‖ ^ 2, A3 := vw 0 * starRingEnd ℂ (vw 1) * temp3, a1 := 2 * kz.im, a3 := 2 * kz.re, d := d }

/-- tmm_core.py:617-630: `copy` -/
def AbsorpFn.copy (f : AbsorpFn) : AbsorpFn := { A1 := f.A1, A2 := f.A2, A3 := f.A3, a1 := f.a1, a3 := f.a3, d := f.d }

/-- tmm_core.py:632-642: `run` (the value is a complex number) -/
def AbsorpFn.run (f : AbsorpFn) (z : ℝ) : ℂ :=
  f.A1 * Complex.exp (f.a1 * z) + f.A2 * Complex.exp (-f.a1 * z) + f.A3 * Complex.exp (Complex.I * f.a3 * z) +
    starRingEnd ℂ f.A3 * Complex.exp (-Complex.I * f.a3 * z)

/-- tmm_core.py:644-653: `flip` -/
def AbsorpFn.flip (f : AbsorpFn) : Except PyErr AbsorpFn :=
  match f.d with
  | none => .error .nan
  | some d => .ok { f with A1 := f.A2 * Real.exp (-f.a1 * d), A2 := f.A1 * Real.exp (f.a1 * d),
                           A3 := starRingEnd ℂ (f.A3 * Complex.exp (Complex.I * f.a3 * d)) }

/-- tmm_core.py:655-662: `scale` -/
def AbsorpFn.scale (f : AbsorpFn) (x : ℝ) : AbsorpFn := { f with A1 := f.A1 * x, A2 := f.A2 * x, A3 := f.A3 * x }

/-- tmm_core.py:664-673: `add` -/
def AbsorpFn.add (f b : AbsorpFn) : Except PyErr AbsorpFn :=
  if b.a1 ≠ f.a1 ∨ b.a3 ≠ f.a3 then .error .valueError
  else .ok { f with A1 := f.A1 + b.A1, A2 := f.A2 + b.A2, A3 := f.A3 + b.A3 }

/-- tmm_core.py:688-694: `power_entering_each_layer` -/
def powerEntering (c : TmmData) : Except PyErr (List ℝ) :=
  if c.d.length < 2 then .error .indexError
  else (List.range c.d.length).mapM fun i =>
    if i = c.d.length - 1 then .ok c.T else if i = 0 then .ok 1 else if i = 1 then .ok c.powerEntering
    else do
      let p ← positionResolved i 0 c
      pure p.poyn

/-- tmm_core.py:676-698: `absorp_in_each_layer` -/
def absorpInEachLayer (c : TmmData) : Except PyErr (List ℝ) := do
  let p ← powerEntering c
  pure ((List.range p.length).map fun i => if i + 1 < p.length then -(p.getD (i + 1) 0 - p.getD i 0) else p.getD i 0)

end

end Nidn
