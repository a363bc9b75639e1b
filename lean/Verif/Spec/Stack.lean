/-
Independent specification of a layer stack: tangential fields, their continuity at the interfaces, and solutions of the whole stack.
Amplitude convention (shared with the code): in every layer `a` is the forward amplitude at the front face, `b` the backward amplitude at the
back face.
-/
import Verif.Model.Rcwa

namespace Nidn

noncomputable section

variable {ι : Type} [Fintype ι] [DecidableEq ι]

/-- Propagation through the full thickness of a layer. -/
def LayerData.through (L : LayerData ι) (a : ι → ℂ) : ι → ℂ := fun m => Complex.exp (Complex.I * L.q m * L.d) * a m

/-- Tangential magnetic field of forward/backward amplitudes `u`, `v` at a point. -/
def LayerData.hTan (L : LayerData ι) (u v : ι → ℂ) : ι → ℂ := L.phi.mulVec (u + v)

/-- Tangential electric field (times omega) of forward/backward amplitudes `u`, `v` at a point. -/
def LayerData.eTan (L : LayerData ι) (u v : ι → ℂ) : ι → ℂ := L.kp.mulVec (L.phi.mulVec fun m => (u m - v m) / L.q m)

/-- Continuity of the tangential fields at the interface between a layer and the next one. -/
structure Continuous (L L' : LayerData ι) (a b a' b' : ι → ℂ) : Prop where
  h : L.hTan (L.through a) b = L'.hTan a' (L'.through b')
  e : L.eTan (L.through a) b = L'.eTan a' (L'.through b')

/-- `StackSol layers a0 b0 aN bN`: there are amplitudes in all layers, `a0 b0` in the first, `aN bN` in the last one,
with continuous tangential fields at every interface. -/
def StackSol : List (LayerData ι) → (a0 b0 aN bN : ι → ℂ) → Prop
  | [], _, _, _, _ => False
  | [_], a0, b0, aN, bN => aN = a0 ∧ bN = b0
  | L :: L' :: rest, a0, b0, aN, bN =>
    ∃ a' b', Continuous L L' a0 b0 a' b' ∧ StackSol (L' :: rest) a' b' aN bN

/-- A layer whose matrices can be inverted and whose modes have non-zero wave number. -/
structure LayerData.Regular (L : LayerData ι) : Prop where
  phi : IsUnit L.phi.det
  kp : IsUnit L.kp.det
  q : ∀ m, L.q m ≠ 0

end

end Nidn
