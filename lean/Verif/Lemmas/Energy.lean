/-
The Poynting flux inside one layer: derivative formula, monotonicity for passive layers, constancy for lossless layers.
-/
import Verif.Spec.Stack
import Mathlib.Analysis.Calculus.Deriv.Star
import Mathlib.Analysis.Calculus.Deriv.Pi
import Mathlib.Analysis.Calculus.MeanValue
import Mathlib.Analysis.SpecialFunctions.ExpDeriv
import Mathlib.LinearAlgebra.Matrix.ConjTranspose
import Mathlib.Tactic.Linarith
import Mathlib.Tactic.Ring
import Mathlib.Tactic.FieldSimp

set_option linter.unusedSectionVars false

namespace Nidn

open Matrix

variable {κ : Type} [Fintype κ] [DecidableEq κ]

/-- Spec: z-component of the time-averaged Poynting vector (twice, per unit cell) of a field with tangential components `e`, `h`. -/
noncomputable def poynting {ι : Type} [Fintype ι] (e h : ι → ℂ) : ℝ := (star e ⬝ᵥ h).re

/-- Poynting flux in layer `L` of forward/backward amplitudes `u`, `v` at a point. -/
noncomputable def layerFlux (ω : ℂ) (L : LayerData (κ ⊕ κ)) (u v : κ ⊕ κ → ℂ) : ℝ :=
  poynting (ω⁻¹ • L.eTan u v) (L.hTan u v)

/-- The discrete Maxwell operator behind a layer: permittivity matrices and real transverse wave vectors. -/
structure MaxwellLayer (ω : ℂ) (kx ky : κ → ℂ) (ep2 : Matrix (κ ⊕ κ) (κ ⊕ κ) ℂ) (epinv : Matrix κ κ ℂ) (L : LayerData (κ ⊕ κ)) : Prop where
  hω : ω ≠ 0
  realx : ∀ i, (kx i).im = 0
  realy : ∀ i, (ky i).im = 0
  kp : L.kp = kpPatterned ω epinv kx ky
  eig : eigenMat ep2 L.kp kx ky * L.phi = L.phi * diagonal fun m => L.q m ^ 2
  q : ∀ m, L.q m ≠ 0

lemma kT_J (kx ky : κ → ℂ) : (kMat kx ky).transpose * jkMat kx ky = 0 := by
  rw [kMat, jkMat, Matrix.transpose_fromRows, Matrix.fromCols_mul_fromRows, Matrix.diagonal_transpose, Matrix.diagonal_transpose,
    Matrix.diagonal_mul_diagonal, Matrix.diagonal_mul_diagonal, Matrix.diagonal_add, ← Matrix.diagonal_zero]
  congr 1; ext i; ring

lemma conjT_real {m n : Type} (M : Matrix m n ℂ) (h : ∀ i j, (M i j).im = 0) : M.conjTranspose = M.transpose := by
  ext i j
  rw [Matrix.conjTranspose_apply, Matrix.transpose_apply]
  exact Complex.conj_eq_iff_im.2 (h _ _)

lemma J_real (kx ky : κ → ℂ) (hx : ∀ i, (kx i).im = 0) (hy : ∀ i, (ky i).im = 0) :
    (jkMat kx ky).conjTranspose = (jkMat kx ky).transpose := by
  apply conjT_real
  intro i j
  rcases i with i | i <;> simp only [jkMat, Matrix.fromRows_apply_inl, Matrix.fromRows_apply_inr, Matrix.diagonal_apply] <;> split <;>
    simp [hx, hy]

lemma k_real (kx ky : κ → ℂ) (hx : ∀ i, (kx i).im = 0) (hy : ∀ i, (ky i).im = 0) :
    (kMat kx ky).conjTranspose = (kMat kx ky).transpose := by
  apply conjT_real
  intro i j
  rcases i with i | i <;> simp only [kMat, Matrix.fromRows_apply_inl, Matrix.fromRows_apply_inr, Matrix.diagonal_apply] <;> split <;>
    simp [hx, hy]

lemma star_dot_adj {m n : Type} [Fintype m] [Fintype n] (M : Matrix m n ℂ) (x : m → ℂ) (y : n → ℂ) :
    star x ⬝ᵥ (M *ᵥ y) = star (M.conjTranspose *ᵥ x) ⬝ᵥ y := by
  rw [Matrix.star_mulVec, Matrix.conjTranspose_conjTranspose, Matrix.dotProduct_mulVec]

lemma star_dot_self {m : Type} [Fintype m] (x : m → ℂ) : star x ⬝ᵥ x = ((∑ i, Complex.normSq (x i) : ℝ) : ℂ) := by
  simp only [dotProduct, Pi.star_apply]
  push_cast
  refine Finset.sum_congr rfl fun i _ => ?_
  rw [Complex.normSq_eq_conj_mul_self]; rfl

/-- sum of squared moduli -/
noncomputable def sqNorm {m : Type} [Fintype m] (x : m → ℂ) : ℝ := ∑ i, Complex.normSq (x i)

lemma sqNorm_nonneg {m : Type} [Fintype m] (x : m → ℂ) : 0 ≤ sqNorm x := Finset.sum_nonneg fun _ _ => Complex.normSq_nonneg _

/-- amplitudes at depth `z` -/
noncomputable def fwdAt (L : LayerData (κ ⊕ κ)) (a : κ ⊕ κ → ℂ) (z : ℝ) : κ ⊕ κ → ℂ := fun m => Complex.exp (Complex.I * L.q m * z) * a m

noncomputable def bwdAt (L : LayerData (κ ⊕ κ)) (b : κ ⊕ κ → ℂ) (z : ℝ) : κ ⊕ κ → ℂ :=
  fun m => Complex.exp (Complex.I * L.q m * (L.d - z)) * b m

lemma hasDerivAt_fwd (L : LayerData (κ ⊕ κ)) (a : κ ⊕ κ → ℂ) (z : ℝ) (m : κ ⊕ κ) :
    HasDerivAt (fun z : ℝ => fwdAt L a z m) (Complex.I * L.q m * fwdAt L a z m) z := by
  have h1 : HasDerivAt (fun z : ℝ => Complex.I * L.q m * (z : ℂ)) (Complex.I * L.q m * 1) z :=
    (Complex.ofRealCLM.hasDerivAt (x := z)).const_mul _
  have := (h1.cexp).mul_const (a m)
  convert! this using 1
  rw [fwdAt]; ring

lemma hasDerivAt_bwd (L : LayerData (κ ⊕ κ)) (b : κ ⊕ κ → ℂ) (z : ℝ) (m : κ ⊕ κ) :
    HasDerivAt (fun z : ℝ => bwdAt L b z m) (-(Complex.I * L.q m * bwdAt L b z m)) z := by
  have h1 : HasDerivAt (fun z : ℝ => Complex.I * L.q m * ((L.d : ℂ) - z)) (Complex.I * L.q m * (0 - 1)) z :=
    ((hasDerivAt_const z (L.d : ℂ)).sub (Complex.ofRealCLM.hasDerivAt (x := z))).const_mul _
  have := (h1.cexp).mul_const (b m)
  convert! this using 1
  rw [bwdAt]; ring

lemma hasDerivAt_mulVec {m n : Type} [Fintype n] (M : Matrix m n ℂ) (f : ℝ → n → ℂ) (f' : n → ℂ) (z : ℝ)
    (h : ∀ j, HasDerivAt (fun z => f z j) (f' j) z) (i : m) : HasDerivAt (fun z => (M *ᵥ f z) i) ((M *ᵥ f') i) z := by
  simp only [Matrix.mulVec, dotProduct]
  exact HasDerivAt.fun_sum fun j _ => (h j).const_mul _

lemma hasDerivAt_poynting {m : Type} [Fintype m] (e h : ℝ → m → ℂ) (e' h' : m → ℂ) (z : ℝ)
    (he : ∀ j, HasDerivAt (fun z => e z j) (e' j) z) (hh : ∀ j, HasDerivAt (fun z => h z j) (h' j) z) :
    HasDerivAt (fun z => poynting (e z) (h z)) ((star e' ⬝ᵥ h z).re + (star (e z) ⬝ᵥ h').re) z := by
  have h1 : HasDerivAt (fun z => star (e z) ⬝ᵥ h z) (star e' ⬝ᵥ h z + star (e z) ⬝ᵥ h') z := by
    simp only [dotProduct, Pi.star_apply, ← Finset.sum_add_distrib]
    exact HasDerivAt.fun_sum fun j _ => ((he j).star).mul (hh j)
  have := (Complex.reCLM.hasFDerivAt (x := star (e z) ⬝ᵥ h z)).comp_hasDerivAt z h1
  rw [Complex.reCLM_apply, Complex.add_re] at this
  exact this

/-- The flux balance inside a layer, with its magnetic field. -/
lemma flux_hasDerivAt_h {ω : ℂ} {kx ky : κ → ℂ} {ep2 : Matrix (κ ⊕ κ) (κ ⊕ κ) ℂ} {epinv : Matrix κ κ ℂ} {L : LayerData (κ ⊕ κ)}
    (hL : MaxwellLayer ω kx ky ep2 epinv L) (a b : κ ⊕ κ → ℂ) (z : ℝ) :
    ∃ (e h : κ ⊕ κ → ℂ) (y t : κ → ℂ), h = L.hTan (fwdAt L a z) (bwdAt L b z) ∧
    HasDerivAt (fun z => layerFlux ω L (fwdAt L a z) (bwdAt L b z))
      (-(ω.im * sqNorm h) + (ω⁻¹ * (star y ⬝ᵥ (epinv *ᵥ y))).im - (ω * (star e ⬝ᵥ (ep2 *ᵥ e))).im - ω.im * sqNorm t) z := by
  set u := fwdAt L a
  set v := bwdAt L b
  -- the derivatives of the fields
  have hH : ∀ j, HasDerivAt (fun z => L.hTan (u z) (v z) j)
      ((L.phi *ᵥ fun m => Complex.I * L.q m * (u z m - v z m)) j) z := by
    intro j
    refine hasDerivAt_mulVec L.phi (fun z => u z + v z) _ z (fun m => ?_) j
    have := (hasDerivAt_fwd L a z m).add (hasDerivAt_bwd L b z m)
    convert! this using 1
    ring
  have hE : ∀ j, HasDerivAt (fun z => (ω⁻¹ • L.eTan (u z) (v z)) j)
      ((ω⁻¹ • (L.kp *ᵥ (L.phi *ᵥ fun m => Complex.I * (u z m + v z m)))) j) z := by
    intro j
    have h0 : ∀ m, HasDerivAt (fun z => (u z m - v z m) / L.q m) (Complex.I * (u z m + v z m)) z := by
      intro m
      have := ((hasDerivAt_fwd L a z m).sub (hasDerivAt_bwd L b z m)).div_const (L.q m)
      convert! this using 1
      have := hL.q m
      field_simp
      ring
    have h1 := hasDerivAt_mulVec L.kp (fun z => L.phi *ᵥ fun m => (u z m - v z m) / L.q m) _ z
      (fun i => hasDerivAt_mulVec L.phi (fun z m => (u z m - v z m) / L.q m) _ z h0 i) j
    exact h1.const_mul ω⁻¹
  set g : κ ⊕ κ → ℂ := L.phi *ᵥ fun m => (u z m - v z m) / L.q m with hg
  set H := L.hTan (u z) (v z) with hHdef
  set E := ω⁻¹ • L.eTan (u z) (v z) with hEdef
  have hEg : E = ω⁻¹ • (L.kp *ᵥ g) := rfl
  have hkg : L.kp *ᵥ g = ω • E := by rw [hEg, smul_smul, mul_inv_cancel₀ hL.hω, one_smul]
  set y := (jkMat kx ky).transpose *ᵥ H with hy
  set t := (kMat kx ky).transpose *ᵥ g with ht
  refine ⟨E, H, y, t, rfl, ?_⟩
  have hd := hasDerivAt_poynting _ _ _ _ z hE hH
  have e1 : (star (ω⁻¹ • (L.kp *ᵥ (L.phi *ᵥ fun m => Complex.I * (u z m + v z m)))) ⬝ᵥ H).re =
      -(ω.im * sqNorm H) + (ω⁻¹ * (star y ⬝ᵥ (epinv *ᵥ y))).im := by
    have h1 : (L.phi *ᵥ fun m => Complex.I * (u z m + v z m)) = Complex.I • H := by
      rw [hHdef, LayerData.hTan, ← Matrix.mulVec_smul]; rfl
    rw [h1, Matrix.mulVec_smul, smul_smul]
    have h2 : star H ⬝ᵥ (L.kp *ᵥ H) = ω ^ 2 * (sqNorm H : ℂ) - star y ⬝ᵥ (epinv *ᵥ y) := by
      rw [hL.kp, kpPatterned, Matrix.sub_mulVec, dotProduct_sub, Matrix.smul_mulVec, Matrix.one_mulVec, dotProduct_smul, star_dot_self,
        ← Matrix.mulVec_mulVec, ← Matrix.mulVec_mulVec, star_dot_adj (jkMat kx ky), J_real kx ky hL.realx hL.realy]
      rfl
    have h3 : star ((ω⁻¹ * Complex.I) • (L.kp *ᵥ H)) ⬝ᵥ H = star ((ω⁻¹ * Complex.I) * (star H ⬝ᵥ (L.kp *ᵥ H))) := by
      rw [star_smul, smul_dotProduct, star_dotProduct, smul_eq_mul, ← star_mul']
    rw [h3, h2]
    have h4 : ω⁻¹ * Complex.I * (ω ^ 2 * (sqNorm H : ℂ) - star y ⬝ᵥ (epinv *ᵥ y)) =
        Complex.I * (ω * (sqNorm H : ℂ)) - Complex.I * (ω⁻¹ * (star y ⬝ᵥ (epinv *ᵥ y))) := by
      have := hL.hω
      field_simp
    rw [h4]
    simp
    ring
  have e2 : (star E ⬝ᵥ (L.phi *ᵥ fun m => Complex.I * L.q m * (u z m - v z m))).re =
      -(ω * (star E ⬝ᵥ (ep2 *ᵥ E))).im - ω.im * sqNorm t := by
    have h1 : (L.phi *ᵥ fun m => Complex.I * L.q m * (u z m - v z m)) =
        Complex.I • (ω • (ep2 *ᵥ E) - kMat kx ky *ᵥ t) := by
      have : (fun m => Complex.I * L.q m * (u z m - v z m)) =
          Complex.I • ((diagonal fun m => L.q m ^ 2) *ᵥ fun m => (u z m - v z m) / L.q m) := by
        ext m
        have := hL.q m
        rw [Pi.smul_apply, Matrix.mulVec_diagonal, smul_eq_mul]
        field_simp
      rw [this, Matrix.mulVec_smul, Matrix.mulVec_mulVec, ← hL.eig, ← Matrix.mulVec_mulVec, ← hg, eigenMat, Matrix.sub_mulVec,
        ← Matrix.mulVec_mulVec, hkg, Matrix.mulVec_smul, ← Matrix.mulVec_mulVec]
    have h2 : (kMat kx ky).transpose *ᵥ E = ω • t := by
      have : (kMat kx ky).transpose * L.kp = ω ^ 2 • (kMat kx ky).transpose := by
        rw [hL.kp, kpPatterned, Matrix.mul_sub, Matrix.mul_smul, Matrix.mul_one, ← Matrix.mul_assoc, ← Matrix.mul_assoc, kT_J,
          Matrix.zero_mul, Matrix.zero_mul, sub_zero]
      rw [hEg, Matrix.mulVec_smul, Matrix.mulVec_mulVec, this, Matrix.smul_mulVec, ← ht, smul_smul]
      congr 1
      have := hL.hω
      field_simp
    rw [h1, dotProduct_smul, dotProduct_sub, dotProduct_smul, star_dot_adj (kMat kx ky), k_real kx ky hL.realx hL.realy, h2, star_smul ω t,
      smul_dotProduct (star ω) (star t), star_dot_self]
    simp [sqNorm]
    ring
  convert! hd using 1
  rw [e1, e2]; ring

/-- The flux balance inside a layer. -/
lemma flux_hasDerivAt {ω : ℂ} {kx ky : κ → ℂ} {ep2 : Matrix (κ ⊕ κ) (κ ⊕ κ) ℂ} {epinv : Matrix κ κ ℂ} {L : LayerData (κ ⊕ κ)}
    (hL : MaxwellLayer ω kx ky ep2 epinv L) (a b : κ ⊕ κ → ℂ) (z : ℝ) :
    ∃ (e h : κ ⊕ κ → ℂ) (y t : κ → ℂ),
    HasDerivAt (fun z => layerFlux ω L (fwdAt L a z) (bwdAt L b z))
      (-(ω.im * sqNorm h) + (ω⁻¹ * (star y ⬝ᵥ (epinv *ᵥ y))).im - (ω * (star e ⬝ᵥ (ep2 *ᵥ e))).im - ω.im * sqNorm t) z := by
  obtain ⟨e, h, y, t, -, hd⟩ := flux_hasDerivAt_h hL a b z
  exact ⟨e, h, y, t, hd⟩

/-- Spec: permittivity matrices that absorb (or conserve) energy at the frequency `ω`. -/
structure PassiveMats (ω : ℂ) (ep2 : Matrix (κ ⊕ κ) (κ ⊕ κ) ℂ) (epinv : Matrix κ κ ℂ) : Prop where
  im : 0 ≤ ω.im
  ep2 : ∀ e : κ ⊕ κ → ℂ, 0 ≤ (ω * (star e ⬝ᵥ (ep2 *ᵥ e))).im
  epinv : ∀ y : κ → ℂ, (ω⁻¹ * (star y ⬝ᵥ (epinv *ᵥ y))).im ≤ 0

/-- Spec: permittivity matrices that conserve energy at the real frequency `ω`. -/
structure LosslessMats (ω : ℂ) (ep2 : Matrix (κ ⊕ κ) (κ ⊕ κ) ℂ) (epinv : Matrix κ κ ℂ) : Prop where
  im : ω.im = 0
  ep2 : ∀ e : κ ⊕ κ → ℂ, (ω * (star e ⬝ᵥ (ep2 *ᵥ e))).im = 0
  epinv : ∀ y : κ → ℂ, (ω⁻¹ * (star y ⬝ᵥ (epinv *ᵥ y))).im = 0

lemma fwdAt_zero (L : LayerData (κ ⊕ κ)) (a : κ ⊕ κ → ℂ) : fwdAt L a 0 = a := by ext m; simp [fwdAt]

lemma fwdAt_d (L : LayerData (κ ⊕ κ)) (a : κ ⊕ κ → ℂ) : fwdAt L a L.d = L.through a := by ext m; simp [fwdAt, LayerData.through]

lemma bwdAt_zero (L : LayerData (κ ⊕ κ)) (b : κ ⊕ κ → ℂ) : bwdAt L b 0 = L.through b := by ext m; simp [bwdAt, LayerData.through]

lemma bwdAt_d (L : LayerData (κ ⊕ κ)) (b : κ ⊕ κ → ℂ) : bwdAt L b L.d = b := by ext m; simp [bwdAt]

variable {ω : ℂ} {kx ky : κ → ℂ} {ep2 : Matrix (κ ⊕ κ) (κ ⊕ κ) ℂ} {epinv : Matrix κ κ ℂ} {L : LayerData (κ ⊕ κ)}

/-- in a passive layer the flux does not grow from the front to the back face -/
lemma flux_le (hL : MaxwellLayer ω kx ky ep2 epinv L) (hp : PassiveMats ω ep2 epinv) (hd : 0 ≤ L.d) (a b : κ ⊕ κ → ℂ) :
    layerFlux ω L (L.through a) b ≤ layerFlux ω L a (L.through b) := by
  have hanti : Antitone fun z => layerFlux ω L (fwdAt L a z) (bwdAt L b z) := by
    apply antitone_of_deriv_nonpos
    · intro z
      obtain ⟨_, _, _, _, h⟩ := flux_hasDerivAt hL a b z
      exact h.differentiableAt
    · intro z
      obtain ⟨e, h, y, t, h'⟩ := flux_hasDerivAt hL a b z
      rw [h'.deriv]
      have h1 := hp.ep2 e
      have h2 := hp.epinv y
      have h3 := mul_nonneg hp.im (sqNorm_nonneg h)
      have h4 := mul_nonneg hp.im (sqNorm_nonneg t)
      linarith
  have := hanti hd
  simpa only [fwdAt_zero, fwdAt_d, bwdAt_zero, bwdAt_d] using this

/-- in a lossless layer the flux is the same at both faces -/
lemma flux_eq (hL : MaxwellLayer ω kx ky ep2 epinv L) (hp : LosslessMats ω ep2 epinv) (a b : κ ⊕ κ → ℂ) :
    layerFlux ω L (L.through a) b = layerFlux ω L a (L.through b) := by
  have hc : ∀ z, layerFlux ω L (fwdAt L a z) (bwdAt L b z) = layerFlux ω L (fwdAt L a 0) (bwdAt L b 0) := by
    intro z
    refine is_const_of_deriv_eq_zero (f := fun z => layerFlux ω L (fwdAt L a z) (bwdAt L b z)) ?_ ?_ z 0
    · intro z
      obtain ⟨_, _, _, _, h⟩ := flux_hasDerivAt hL a b z
      exact h.differentiableAt
    · intro z
      obtain ⟨e, h, y, t, h'⟩ := flux_hasDerivAt hL a b z
      rw [h'.deriv, hp.ep2 e, hp.epinv y, hp.im]
      ring
  have := hc L.d
  simpa only [fwdAt_zero, fwdAt_d, bwdAt_zero, bwdAt_d] using this

/-- continuity of the tangential fields is continuity of the flux -/
lemma flux_continuous {L L' : LayerData (κ ⊕ κ)} {a b a' b' : κ ⊕ κ → ℂ} (h : Continuous L L' a b a' b') :
    layerFlux ω L (L.through a) b = layerFlux ω L' a' (L'.through b') := by
  rw [layerFlux, layerFlux, h.h, h.e]

/-- through a stack of passive layers the flux does not grow -/
lemma stack_flux_le {L0 : LayerData (κ ⊕ κ)} {mids : List (LayerData (κ ⊕ κ))}
    {LN : LayerData (κ ⊕ κ)} {a0 b0 aN bN : κ ⊕ κ → ℂ}
    (hm : ∀ M ∈ mids, ∀ a b, layerFlux ω M (M.through a) b ≤ layerFlux ω M a (M.through b))
    (h : StackSol (L0 :: mids ++ [LN]) a0 b0 aN bN) :
    layerFlux ω LN aN (LN.through bN) ≤ layerFlux ω L0 (L0.through a0) b0 := by
  induction mids generalizing L0 a0 b0 with
  | nil =>
    simp only [List.cons_append, List.nil_append, StackSol] at h
    obtain ⟨a', b', h1, rfl, rfl⟩ := h
    exact (flux_continuous h1).ge
  | cons M mids ih =>
    simp only [List.cons_append] at h ih
    rw [StackSol] at h
    obtain ⟨a', b', h1, h2⟩ := h
    rw [flux_continuous h1]
    exact (ih (fun X hX => hm X (List.mem_cons_of_mem _ hX)) h2).trans (hm M List.mem_cons_self _ _)

/-- through a stack of lossless layers the flux is constant -/
lemma stack_flux_eq {L0 : LayerData (κ ⊕ κ)} {mids : List (LayerData (κ ⊕ κ))}
    {LN : LayerData (κ ⊕ κ)} {a0 b0 aN bN : κ ⊕ κ → ℂ}
    (hm : ∀ M ∈ mids, ∀ a b, layerFlux ω M (M.through a) b = layerFlux ω M a (M.through b))
    (h : StackSol (L0 :: mids ++ [LN]) a0 b0 aN bN) :
    layerFlux ω LN aN (LN.through bN) = layerFlux ω L0 (L0.through a0) b0 := by
  induction mids generalizing L0 a0 b0 with
  | nil =>
    simp only [List.cons_append, List.nil_append, StackSol] at h
    obtain ⟨a', b', h1, rfl, rfl⟩ := h
    exact (flux_continuous h1).symm
  | cons M mids ih =>
    simp only [List.cons_append] at h ih
    rw [StackSol] at h
    obtain ⟨a', b', h1, h2⟩ := h
    rw [flux_continuous h1]
    exact (ih (fun X hX => hm X (List.mem_cons_of_mem _ hX)) h2).trans (hm M List.mem_cons_self _ _)

end Nidn
