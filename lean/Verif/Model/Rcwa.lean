/-
Model of the solver core of nidn/trcwa/trcwa.py: layer eigensystems, scattering matrices, Poynting flux, reflectance and transmittance.
-/
import Verif.Model.Conv
import Verif.Model.Lattice
import Mathlib.Analysis.SpecialFunctions.Pow.Complex
import Mathlib.Data.Matrix.ColumnRowPartitioned

namespace Nidn

noncomputable section

/-- What `q_list`, `phi_list`, `kp_list`, `thickness_list` hold for one layer. -/
structure LayerData (ι : Type) where
  q : ι → ℂ
  phi : Matrix ι ι ℂ
  kp : Matrix ι ι ℂ
  d : ℝ

/-- The four blocks returned by `GetSMatrix`. -/
structure SMat (ι : Type) where
  s11 : Matrix ι ι ℂ
  s12 : Matrix ι ι ℂ
  s21 : Matrix ι ι ℂ
  s22 : Matrix ι ι ℂ

section Eigen

variable {κ : Type} [Fintype κ] [DecidableEq κ]

/-- `torch.sqrt` on complex tensors: principal square root. -/
def csqrt (z : ℂ) : ℂ := z ^ (1 / 2 : ℂ)

/-- trcwa.py:703-704, 733-734 `torch.where(imag(q) < 0, -q, q)` -/
def branchQ (q : ℂ) : ℂ := if q.im < 0 then -q else q

/-- trcwa.py:678/684 `Jk = vstack(diag(-ky), diag(kx))` -/
def jkMat (kx ky : κ → ℂ) : Matrix (κ ⊕ κ) κ ℂ :=
  Matrix.fromRows (Matrix.diagonal fun i => -ky i) (Matrix.diagonal kx)

/-- trcwa.py:657-687 `MakeKPMatrix`, uniform branch (`layer_type == 0`). -/
def kpUniform (ω epinv : ℂ) (kx ky : κ → ℂ) : Matrix (κ ⊕ κ) (κ ⊕ κ) ℂ :=
  ω ^ 2 • (1 : Matrix (κ ⊕ κ) (κ ⊕ κ) ℂ) - epinv • (jkMat kx ky * (jkMat kx ky).transpose)

/-- trcwa.py:657-687 `MakeKPMatrix`, patterned branch. -/
def kpPatterned (ω : ℂ) (epinv : Matrix κ κ ℂ) (kx ky : κ → ℂ) : Matrix (κ ⊕ κ) (κ ⊕ κ) ℂ :=
  ω ^ 2 • (1 : Matrix (κ ⊕ κ) (κ ⊕ κ) ℂ) - jkMat kx ky * epinv * (jkMat kx ky).transpose

/-- trcwa.py:690-709 `SolveLayerEigensystem_uniform`: `q` (the same for both halves; `phi` is the identity). -/
def qUniform (ω ε : ℂ) (kx ky : κ → ℂ) : κ ⊕ κ → ℂ :=
  Sum.elim (fun i => branchQ (csqrt (ε * ω ^ 2 - kx i ^ 2 - ky i ^ 2)))
    (fun i => branchQ (csqrt (ε * ω ^ 2 - kx i ^ 2 - ky i ^ 2)))

/-- trcwa.py:134-142, one uniform layer of `Init_Setup`. For `ε = 0` the code divides by zero (inf/nan); theorems assume `ε ≠ 0`. -/
def uniformLayer (ω : ℂ) (kx ky : κ → ℂ) (ε : ℂ) (d : ℝ) : LayerData (κ ⊕ κ) where
  q := qUniform ω ε kx ky
  phi := 1
  kp := kpUniform ω (1 / ε) kx ky
  d := d

/-- trcwa.py:727-728 `k = vstack(diag(kx), diag(ky))` -/
def kMat (kx ky : κ → ℂ) : Matrix (κ ⊕ κ) κ ℂ := Matrix.fromRows (Matrix.diagonal kx) (Matrix.diagonal ky)

/-- trcwa.py:729 `M = ep2 kp - k k^T` -/
def eigenMat (ep2 kp : Matrix (κ ⊕ κ) (κ ⊕ κ) ℂ) (kx ky : κ → ℂ) : Matrix (κ ⊕ κ) (κ ⊕ κ) ℂ :=
  ep2 * kp - kMat kx ky * (kMat kx ky).transpose

/-- `torch.linalg.eig` (library contract): eigenvalues and a matrix of eigenvectors. -/
def IsEig {ι : Type} [Fintype ι] [DecidableEq ι] (M : Matrix ι ι ℂ) (lam : ι → ℂ) (phi : Matrix ι ι ℂ) : Prop :=
  M * phi = phi * Matrix.diagonal lam

/-- trcwa.py:239-254 + 712-736, one patterned layer; `lam`, `phi` are what `torch.linalg.eig` returns for `eigenMat`. -/
def patternedLayer (ω : ℂ) (kx ky : κ → ℂ) (epinv : Matrix κ κ ℂ) (lam : κ ⊕ κ → ℂ) (phi : Matrix (κ ⊕ κ) (κ ⊕ κ) ℂ) (d : ℝ) :
    LayerData (κ ⊕ κ) where
  q := fun m => branchQ (csqrt (lam m))
  phi := phi
  kp := kpPatterned ω epinv kx ky
  d := d

end Eigen

section SMatrix

variable {ι : Type} [Fintype ι] [DecidableEq ι]

/-- `exp(1j * q * thickness)` as a vector. -/
def LayerData.phase (L : LayerData ι) : ι → ℂ := fun m => Complex.exp (Complex.I * L.q m * L.d)

open Classical in
/-- `1.0 / q`: a zero entry gives inf/nan in the code. -/
def recipVec (q : ι → ℂ) : Except PyErr (ι → ℂ) :=
  if ∀ m, q m ≠ 0 then .ok (fun m => 1 / q m) else .error .nan

/-- trcwa.py:755-759 the start value: identity. -/
def SMat.id : SMat ι := ⟨1, 0, 0, 1⟩

/-- trcwa.py:766-807, the body of the loop of `GetSMatrix` for the interface between layer `l` and `l+1`. -/
def smStep (L L' : LayerData ι) (S : SMat ι) : Except PyErr (SMat ι) := do
  let phiInv ← torchInverse L.phi
  let Q := phiInv * L'.phi
  let kpphiInv ← torchInverse (L.kp * L.phi)
  let qi ← recipVec L'.q
  let P := (Matrix.diagonal L.q * kpphiInv) * ((L'.kp * L'.phi) * Matrix.diagonal qi)
  let T11 := (1 / 2 : ℂ) • (Q + P)
  let T12 := (1 / 2 : ℂ) • (Q - P)
  let d1 := Matrix.diagonal L.phase
  let d2 := Matrix.diagonal L'.phase
  let P1 ← torchInverse (T11 - (d1 * S.s12) * T12)
  let s11 := (P1 * d1) * S.s11
  let s12 := (P1 * (d1 * (S.s12 * T11) - T12)) * d2
  let s21 := S.s21 + S.s22 * (T12 * s11)
  let s22 := S.s22 * (T11 * d2) + S.s22 * (T12 * s12)
  pure ⟨s11, s12, s21, s22⟩

/-- trcwa.py:766-767, one loop iteration with the list accesses. -/
def smIter (layers : List (LayerData ι)) (S : SMat ι) (l : ℕ) : Except PyErr (SMat ι) :=
  match layers[l]?, layers[l + 1]? with
  | some L, some L' => smStep L L' S
  | _, _ => .error .indexError

/-- trcwa.py:739-809 `GetSMatrix` (non-negative indices). -/
def getSMatrix (layers : List (LayerData ι)) (i j : ℕ) : Except PyErr (SMat ι) :=
  match layers with
  | [] => .error .indexError
  | _ :: _ =>
    if i = j then .ok SMat.id
    else if i > j then .error .exception
    else (List.range' i (j - i)).foldlM (smIter layers) SMat.id

/-- trcwa.py:812-835 `SolveExterior` (returns `aN, b0`). With no layers `Nlayer - 1 = -1`, but `q_list[0]` raises first. -/
def solveExterior (layers : List (LayerData ι)) (a0 bN : ι → ℂ) : Except PyErr ((ι → ℂ) × (ι → ℂ)) := do
  let S ← getSMatrix layers 0 (layers.length - 1)
  pure (S.s11.mulVec a0 + S.s12.mulVec bN, S.s21.mulVec a0 + S.s22.mulVec bN)

/-- trcwa.py:838-871 `SolveInterior`; the function called as `torch.inv` in line 865 is the parameter `inv`. -/
def solveInteriorWith (inv : Matrix ι ι ℂ → Except PyErr (Matrix ι ι ℂ)) (layers : List (LayerData ι)) (k : ℕ) (a0 bN : ι → ℂ) :
    Except PyErr ((ι → ℂ) × (ι → ℂ)) := do
  let S ← getSMatrix layers 0 k
  let pS ← getSMatrix layers k (layers.length - 1)
  let tmp ← inv (1 - S.s12 * pS.s21)
  let ai := tmp.mulVec (S.s11.mulVec a0 + S.s12.mulVec (pS.s22.mulVec bN))
  pure (ai, pS.s21.mulVec ai + pS.s22.mulVec bN)

/-- trcwa.py:838-871 as written: `torch` has no attribute `inv`. -/
def solveInterior (layers : List (LayerData ι)) (k : ℕ) (a0 bN : ι → ℂ) : Except PyErr ((ι → ℂ) × (ι → ℂ)) :=
  solveInteriorWith (fun _ => .error .attributeError) layers k a0 bN

end SMatrix

section Flux

variable {κ : Type} [Fintype κ] [DecidableEq κ]

/-- trcwa.py:908 `A = kp phi diag(1/omega/q)`. Zero `omega` or `q` gives inf/nan in the code; theorems assume they are non-zero. -/
def fluxA (ω : ℂ) (L : LayerData (κ ⊕ κ)) : Matrix (κ ⊕ κ) (κ ⊕ κ) ℂ :=
  (L.kp * L.phi) * Matrix.diagonal (fun m => 1 / ω / L.q m)

/-- trcwa.py:916 `diff` -/
def fluxDiff (ω : ℂ) (L : LayerData (κ ⊕ κ)) (a b : κ ⊕ κ → ℂ) (m : κ ⊕ κ) : ℂ :=
  0.5 * ((starRingEnd ℂ) (L.phi.mulVec b m) * (fluxA ω L).mulVec a m
    - (starRingEnd ℂ) ((fluxA ω L).mulVec b m) * L.phi.mulVec a m)

/-- trcwa.py:918 `forward_xy` -/
def forwardXY (ω : ℂ) (L : LayerData (κ ⊕ κ)) (a b : κ ⊕ κ → ℂ) (m : κ ⊕ κ) : ℂ :=
  (((starRingEnd ℂ) ((fluxA ω L).mulVec a m) * L.phi.mulVec a m).re : ℂ) + fluxDiff ω L a b m

/-- trcwa.py:919 `backward_xy` -/
def backwardXY (ω : ℂ) (L : LayerData (κ ⊕ κ)) (a b : κ ⊕ κ → ℂ) (m : κ ⊕ κ) : ℂ :=
  -(((starRingEnd ℂ) ((fluxA ω L).mulVec b m) * L.phi.mulVec b m).re : ℂ) + (starRingEnd ℂ) (fluxDiff ω L a b m)

/-- trcwa.py:892-929 `GetZPoyntingFlux` with `byorder != 0`: one value per order. -/
def fluxByOrder (ω : ℂ) (L : LayerData (κ ⊕ κ)) (a b : κ ⊕ κ → ℂ) : (κ → ℂ) × (κ → ℂ) :=
  (fun i => forwardXY ω L a b (.inl i) + forwardXY ω L a b (.inr i),
   fun i => backwardXY ω L a b (.inl i) + backwardXY ω L a b (.inr i))

/-- trcwa.py:892-929 `GetZPoyntingFlux` with `byorder == 0`. -/
def zPoyntingFlux (ω : ℂ) (L : LayerData (κ ⊕ κ)) (a b : κ ⊕ κ → ℂ) : ℂ × ℂ :=
  (∑ i, (fluxByOrder ω L a b).1 i, ∑ i, (fluxByOrder ω L a b).2 i)

/-- trcwa.py:291-342 `RT_Solve(normalize=1)` for the direction `"forward"`. `norm` is `self.normalization` (line 128). -/
def rtForward (ω : ℂ) (norm : ℝ) (layers : List (LayerData (κ ⊕ κ))) (a0 bN : κ ⊕ κ → ℂ) : Except PyErr (ℝ × ℝ) := do
  let r ← solveExterior layers a0 bN
  match layers.head?, layers.getLast? with
  | some L0, some LN =>
    pure ((-(zPoyntingFlux ω L0 a0 r.2).2).re * norm, ((zPoyntingFlux ω LN r.1 bN).1).re * norm)
  | _, _ => .error .indexError

/-- trcwa.py:150-190 `MakeExcitationPlanewave(..., direction="forward")`: the amplitude vector of the incident wave in order `o`;
`s`, `p` are `s_amp * exp(i s_phase)` and `p_amp * exp(i p_phase)`. -/
def planewave (θ φ : ℝ) (s p : ℂ) (o : κ) : κ ⊕ κ → ℂ :=
  Sum.elim
    (fun i => if i = o then -s * Real.cos θ * Real.cos φ - p * Real.sin φ else 0)
    (fun i => if i = o then -s * Real.cos θ * Real.sin φ + p * Real.cos φ else 0)

/-- trcwa.py:104-109 + kbloch.py:46-55, the transverse wave number `kx` of the order `g` (real positive permittivity `ε0` of the first
uniform layer, `Pscale = 1`). -/
def waveX (ω : ℂ) (θ φ ε0 : ℝ) (Lk1 Lk2 : ℝ × ℝ) (g : ℤ × ℤ) : ℂ :=
  ω * Real.sin θ * Real.cos φ * Real.sqrt ε0 + 2 * Real.pi * (Lk1.1 * g.1 + Lk2.1 * g.2)

/-- trcwa.py:110-115 + kbloch.py:46-55, the transverse wave number `ky` of the order `g`. -/
def waveY (ω : ℂ) (θ φ ε0 : ℝ) (Lk1 Lk2 : ℝ × ℝ) (g : ℤ × ℤ) : ℂ :=
  ω * Real.sin θ * Real.sin φ * Real.sqrt ε0 + 2 * Real.pi * (Lk1.2 * g.1 + Lk2.2 * g.2)

/-- trcwa.py:128 `self.normalization` for a real positive permittivity of the first layer. -/
def rtNormalization (ε0 θ : ℝ) : ℝ := Real.sqrt ε0 / Real.cos θ

end Flux

end

end Nidn
