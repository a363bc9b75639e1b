/-
Model of notebooks/tmm_core.py, lines 701-1122: the partly incoherent transfer-matrix method.

Simplifications as in Model/Tmm.lean: floats are exact, a thickness is `none` for `inf`, a division by zero (or an infinite thickness where a number is
needed) ends the model with `PyErr.nan`; `nan` entries of the index lists are `none`. Only one-dimensional lists, and real wavelengths (`P_list` is an array of real numbers), are modelled.
List entries that the code reads at positions that always exist are read with a default value here.
-/
import Verif.Model.Tmm

namespace Nidn

noncomputable section

/-- tmm_core.py:752-762: the local variables of the loop of `inc_group_layers` -/
structure IncState where
  incIndex : ℕ
  stackIndex : ℕ
  within : ℕ
  busy : Bool
  ongoingD : List (Option ℝ)
  ongoingN : List ℂ
  stackD : List (List (Option ℝ))
  stackN : List (List ℂ)
  allFromInc : List ℕ
  incFromAll : List (Option ℕ)
  allFromStack : List (List ℕ)
  stackFromAll : List (Option (ℕ × ℕ))
  incFromStack : List ℕ
  stackFromInc : List (Option ℕ)

/-- tmm_core.py:752-762: their values before the loop -/
def IncState.init : IncState :=
  { incIndex := 0, stackIndex := 0, within := 0, busy := false, ongoingD := [], ongoingN := [], stackD := [], stackN := [], allFromInc := [], incFromAll := [],
    allFromStack := [], stackFromAll := [], incFromStack := [], stackFromInc := [] }

/-- `l[-1].append(x)` for a list of lists (tmm_core.py:782, 796) -/
def appendLast (l : List (List ℕ)) (x : ℕ) : List (List ℕ) := l.dropLast ++ [l.getLastD [] ++ [x]]

/-- tmm_core.py:763-800: one turn of the loop of `inc_group_layers`. The first layer is incoherent, so that `i - 1` and `inc_index - 1` are never negative. -/
def IncState.step (n : List ℂ) (d : List (Option ℝ)) (c : List String) (s : IncState) (i : ℕ) : Except PyErr IncState :=
  if c.getD i "" = "c" then
    if ¬ s.busy then
      .ok { s with incFromAll := s.incFromAll ++ [none], busy := true, ongoingD := [none, d.getD i none], ongoingN := [n.getD (i - 1) 0, n.getD i 0],
                   stackFromAll := s.stackFromAll ++ [some (s.stackIndex, 1)], allFromStack := s.allFromStack ++ [[i - 1, i]], incFromStack := s.incFromStack ++ [s.incIndex - 1], within := 1 }
    else
      .ok { s with incFromAll := s.incFromAll ++ [none], ongoingD := s.ongoingD ++ [d.getD i none], ongoingN := s.ongoingN ++ [n.getD i 0], within := s.within + 1,
                   stackFromAll := s.stackFromAll ++ [some (s.stackIndex, s.within + 1)], allFromStack := appendLast s.allFromStack i }
  else if c.getD i "" = "i" then
    if ¬ s.busy then
      .ok { s with stackFromAll := s.stackFromAll ++ [none], incFromAll := s.incFromAll ++ [some s.incIndex], allFromInc := s.allFromInc ++ [i], stackFromInc := s.stackFromInc ++ [none],
                   incIndex := s.incIndex + 1 }
    else
      .ok { s with stackFromAll := s.stackFromAll ++ [none], incFromAll := s.incFromAll ++ [some s.incIndex], allFromInc := s.allFromInc ++ [i], busy := false,
                   stackFromInc := s.stackFromInc ++ [some s.stackIndex], stackD := s.stackD ++ [s.ongoingD ++ [none]], stackN := s.stackN ++ [s.ongoingN ++ [n.getD i 0]],
                   allFromStack := appendLast s.allFromStack i, stackIndex := s.stackIndex + 1, incIndex := s.incIndex + 1 }
  else .error .valueError

/-- tmm_core.py:701-813: `inc_group_layers`; of the last state only the lists are returned -/
def incGroupLayers (n : List ℂ) (d : List (Option ℝ)) (c : List String) : Except PyErr IncState := do
  let d0 ← pyNth d 0
  let dN ← pyNth d (-1)
  if d0 ≠ none ∨ dN ≠ none then .error .valueError else do
  let c0 ← pyNth c 0
  let cN ← pyNth c (-1)
  if c0 ≠ "i" ∨ cN ≠ "i" then .error .valueError else
  if ¬(n.length = d.length ∧ d.length = c.length) then .error .valueError else
  (List.range n.length).foldlM (IncState.step n d c) IncState.init

/-- tmm_core.py:902-913: `P_list[i]` of an inner incoherent layer of thickness `d`; `q` is `n cos θ` -/
def passShare (d : Option ℝ) (q : ℂ) (lam : ℝ) : Except PyErr ℝ :=
  match d with
  | none => .error .nan
  | some x => do
    let e ← nanDivR (-4 * Real.pi * x * q.im) lam
    pure (if Real.exp e < 1e-30 then 1e-30 else Real.exp e)

/-- tmm_core.py:914-957: `R_list[i, i+1]`, `T_list[i, i+1]`, `R_list[i+1, i]` and `T_list[i+1, i]` -/
structure IncInterface where
  R : ℝ
  T : ℝ
  Rb : ℝ
  Tb : ℝ

/-- tmm_core.py:921-957: the interface behind the incoherent layer `k` -/
def incInterface (pol : String) (n th : List ℂ) (g : IncState) (coh bcoh : List TmmData) (k : ℕ) : Except PyErr IncInterface := do
  let i := g.allFromInc.getD k 0
  match g.stackFromInc.getD (k + 1) none with
  | none =>
    let R ← interfaceRPower pol (n.getD i 0) (n.getD (i + 1) 0) (th.getD i 0) (th.getD (i + 1) 0)
    let T ← interfaceTPower pol (n.getD i 0) (n.getD (i + 1) 0) (th.getD i 0) (th.getD (i + 1) 0)
    let Rb ← interfaceRPower pol (n.getD (i + 1) 0) (n.getD i 0) (th.getD (i + 1) 0) (th.getD i 0)
    let Tb ← interfaceTPower pol (n.getD (i + 1) 0) (n.getD i 0) (th.getD (i + 1) 0) (th.getD i 0)
    pure { R := R, T := T, Rb := Rb, Tb := Tb }
  | some j =>
    let c ← pyNth coh j
    let b ← pyNth bcoh j
    pure { R := c.R, T := c.T, Rb := b.R, Tb := b.T }

/-- tmm_core.py:962-973, 978-989: the matrix of an interface, divided by its transmittance -/
def incMatrix (f : IncInterface) : Except PyErr (Matrix (Fin 2) (Fin 2) ℝ) := do
  let u ← nanDivR 1 f.T
  pure (u • !![1, -f.Rb; f.R, f.Tb * f.T - f.Rb * f.R])

/-- tmm_core.py:974-992: `L_list[i]`: the pass through the layer and the interface behind it -/
def incLayerMatrix (P : ℝ) (f : IncInterface) : Except PyErr (Matrix (Fin 2) (Fin 2) ℝ) := do
  let u ← nanDivR 1 P
  let m ← incMatrix f
  pure (!![u, 0; 0, P] * m)

/-- tmm_core.py:996-1005: `VW_list[i]` for `i ≥ 1`; `L` lists the matrices of the layers 1, 2, ... -/
def incVwAt (L : List (Matrix (Fin 2) (Fin 2) ℝ)) (T : ℝ) (i : ℕ) : Fin 2 → ℝ := (L.drop (i - 1)).foldr (fun m v => m.mulVec v) ![T, 0]

/-- tmm_core.py:1042-1052: the dictionary that `inc_tmm` returns, with `P_list` and the interfaces added; `VW_list[0]` is `nan` in the code and never read, here it is 0 -/
structure IncData where
  R : ℝ
  T : ℝ
  vw : List (Fin 2 → ℝ)
  coh : List TmmData
  bcoh : List TmmData
  stackFB : List (ℝ × ℝ)
  entering : List ℝ
  groups : IncState
  passes : List ℝ
  interfaces : List IncInterface

/-- tmm_core.py:1007-1018: `stackFB_list` -/
def incStackFB (g : IncState) (P : List ℝ) (vw : List (Fin 2 → ℝ)) : List (ℝ × ℝ) :=
  g.incFromStack.map fun k => (if k = 0 then 1 else vw.getD k 0 0 * P.getD k 0, vw.getD (k + 1) 0 1)

/-- tmm_core.py:1020-1041: `power_entering_list[i]` for `i ≥ 1` -/
def incEntering (g : IncState) (P : List ℝ) (fs : List IncInterface) (vw : List (Fin 2 → ℝ)) (coh bcoh : List TmmData) (FB : List (ℝ × ℝ)) (i : ℕ) : Except PyErr ℝ :=
  match g.stackFromInc.getD i none with
  | none => do
    let f ← pyNth fs ((i - 1 : ℕ) : ℤ)
    if i = 1 then pure (f.T - vw.getD 1 0 1 * f.Tb)
    else pure (vw.getD (i - 1) 0 0 * P.getD (i - 1) 0 * f.T - vw.getD i 0 1 * f.Tb)
  | some j => do
    let fb ← pyNth FB j
    let c ← pyNth coh j
    let b ← pyNth bcoh j
    pure (fb.1 * c.T - fb.2 * b.powerEntering)

/-- tmm_core.py:816-1052: `inc_tmm` -/
def incTmm (asin : ℂ → ℂ) (pol : String) (n : List ℂ) (d : List (Option ℝ)) (c : List String) (th0 : ℂ) (lam : ℝ) : Except PyErr IncData := do
  let n0 ← pyNth n 0
  if 100 * tmmEps ≤ |(n0 * Complex.sin th0).im| then .error .valueError else do
  let g ← incGroupLayers n d c
  let th ← listSnell asin n th0
  let coh ← (List.range g.allFromStack.length).mapM fun j => cohTmm asin pol (g.stackN.getD j []) (g.stackD.getD j []) (th.getD ((g.allFromStack.getD j []).getD 0 0) 0) lam
  let bcoh ← (List.range g.allFromStack.length).mapM fun j => cohTmmReverse asin pol (g.stackN.getD j []) (g.stackD.getD j []) (th.getD ((g.allFromStack.getD j []).getD 0 0) 0) lam
  let N := g.allFromInc.length
  let P ← (List.range N).mapM fun k =>
    if k = 0 ∨ k + 1 = N then pure 0
    else passShare (d.getD (g.allFromInc.getD k 0) none) (n.getD (g.allFromInc.getD k 0) 0 * Complex.cos (th.getD (g.allFromInc.getD k 0) 0)) lam
  let fs ← (List.range (N - 1)).mapM (incInterface pol n th g coh bcoh)
  let f0 ← pyNth fs 0
  let m0 ← incMatrix f0
  let L ← (List.range (N - 2)).mapM fun k => do
    let f ← pyNth fs ((k + 1 : ℕ) : ℤ)
    incLayerMatrix (P.getD (k + 1) 0) f
  let Lt := L.foldl (· * ·) m0
  let T ← nanDivR 1 (Lt 0 0)
  let R ← nanDivR (Lt 1 0) (Lt 0 0)
  let vw := 0 :: (List.range (N - 1)).map fun i => incVwAt L T (i + 1)
  let FB := incStackFB g P vw
  let pe ← (List.range (N - 1)).mapM fun i => incEntering g P fs vw coh bcoh FB (i + 1)
  pure { R := R, T := T, vw := vw, coh := coh, bcoh := bcoh, stackFB := FB, entering := 1 :: pe, groups := g, passes := P, interfaces := fs }

/-- tmm_core.py:1079-1099: what `inc_absorp_in_each_layer` appends for the incoherent layer `i` and the stack behind it -/
def incAbsorpPart (x : IncData) (i : ℕ) : Except PyErr (List ℝ) :=
  match x.groups.stackFromInc.getD (i + 1) none with
  | none => pure [x.entering.getD i 0 - x.entering.getD (i + 1) 0]
  | some j => do
    let c ← pyNth x.coh j
    let b ← pyNth x.bcoh j
    let fb ← pyNth x.stackFB j
    let ac ← absorpInEachLayer c
    let ab ← absorpInEachLayer b
    pure ((x.entering.getD i 0 - (fb.1 * c.powerEntering - fb.2 * b.T)) ::
      List.zipWith (· + ·) (ac.map (fb.1 * ·)).tail.dropLast (ab.map (fb.2 * ·)).tail.dropLast.reverse)

/-- tmm_core.py:1055-1102: `inc_absorp_in_each_layer` -/
def incAbsorpInEachLayer (x : IncData) : Except PyErr (List ℝ) := do
  let parts ← (List.range (x.entering.length - 1)).mapM (incAbsorpPart x)
  pure (parts.flatten ++ [x.T])

/-- tmm_core.py:1114-1122: what `inc_find_absorp_analytic_fn` does with the stack and the place of a coherent layer -/
def incFindRest (x : IncData) (stack within : ℕ) : Except PyErr AbsorpFn := do
  let c ← pyNth x.coh stack
  let f ← AbsorpFn.fillIn c within
  let fb ← pyNth x.stackFB stack
  let b ← pyNth x.bcoh stack
  let g ← AbsorpFn.fillIn b (-1 - within)
  let g ← (g.scale fb.2).flip
  (f.scale fb.1).add g

/-- `if isnan(j)` (tmm_core.py:1112): the truth value of what `isnan` makes of the entry. It is a single truth value for NaN, but an array of two for a pair, whose truth value is ambiguous
and makes `if` raise ValueError. -/
def isnanEntry : Option (ℕ × ℕ) → Except PyErr Bool
  | none => .ok true
  | some _ => .error .valueError

/-- tmm_core.py:1104-1122: `inc_find_absorp_analytic_fn` -/
def incFindAbsorp (layer : ℤ) (x : IncData) : Except PyErr AbsorpFn := do
  let j ← pyNth x.groups.stackFromAll layer
  if ← isnanEntry j then .error .valueError
  else
    match j with
    | none => .error .typeError
    | some (stack, within) => incFindRest x stack within

end

end Nidn
