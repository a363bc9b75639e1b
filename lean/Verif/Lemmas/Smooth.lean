/-
The answers of the RCWA solver are smooth functions of the permittivities and thicknesses of films.
-/
import Mathlib.Analysis.Calculus.ContDiff.Operations
import Mathlib.Analysis.Complex.RealDeriv
import Mathlib.Analysis.SpecialFunctions.Pow.Deriv
import Mathlib.Analysis.SpecialFunctions.Complex.Analytic
import Mathlib.Analysis.SpecialFunctions.ExpDeriv
import Verif.Props.SMatrix
import Verif.Lemmas.Layers

set_option linter.unusedSectionVars false

namespace Nidn

open Matrix Topology

section

variable {E : Type} [NormedAddCommGroup E] [NormedSpace ℝ E] {k : WithTop ℕ∞} {x0 : E}

/-- every entry of the matrix is smooth -/
def SmoothM {μ ν : Type} (k : WithTop ℕ∞) (x0 : E) (M : E → Matrix μ ν ℂ) : Prop := ∀ i j, ContDiffAt ℝ k (fun x => M x i j) x0

/-- every entry of the vector is smooth -/
def SmoothV {μ : Type} (k : WithTop ℕ∞) (x0 : E) (v : E → μ → ℂ) : Prop := ∀ i, ContDiffAt ℝ k (fun x => v x i) x0

variable {μ ν ξ : Type} [Fintype μ] [Fintype ν] [Fintype ξ] [DecidableEq μ] [DecidableEq ν]

lemma smoothM_const (M : Matrix μ ν ℂ) : SmoothM k x0 (fun _ : E => M) := fun _ _ => contDiffAt_const

lemma smoothM_add {A B : E → Matrix μ ν ℂ} (hA : SmoothM k x0 A) (hB : SmoothM k x0 B) : SmoothM k x0 (fun x => A x + B x) :=
  fun i j => (hA i j).add (hB i j)

lemma smoothM_sub {A B : E → Matrix μ ν ℂ} (hA : SmoothM k x0 A) (hB : SmoothM k x0 B) : SmoothM k x0 (fun x => A x - B x) :=
  fun i j => (hA i j).sub (hB i j)

lemma smoothM_smul {c : E → ℂ} (hc : ContDiffAt ℝ k c x0) {A : E → Matrix μ ν ℂ} (hA : SmoothM k x0 A) : SmoothM k x0 (fun x => c x • A x) :=
  fun i j => hc.mul (hA i j)

lemma smoothM_mul {A : E → Matrix μ ν ℂ} {B : E → Matrix ν ξ ℂ} (hA : SmoothM k x0 A) (hB : SmoothM k x0 B) : SmoothM k x0 (fun x => A x * B x) :=
  fun i j => by
    simp only [Matrix.mul_apply]
    exact ContDiffAt.sum fun l _ => (hA i l).mul (hB l j)

lemma smoothM_diagonal {v : E → μ → ℂ} (hv : SmoothV k x0 v) : SmoothM k x0 (fun x => Matrix.diagonal (v x)) := fun i j => by
  by_cases h : i = j
  · subst h; simpa only [Matrix.diagonal_apply_eq] using hv i
  · simp only [Matrix.diagonal_apply_ne _ h]; exact contDiffAt_const

lemma smoothV_mulVec {A : E → Matrix μ ν ℂ} {v : E → ν → ℂ} (hA : SmoothM k x0 A) (hv : SmoothV k x0 v) : SmoothV k x0 (fun x => A x *ᵥ v x) :=
  fun i => by
    simp only [Matrix.mulVec, dotProduct]
    exact ContDiffAt.sum fun l _ => (hA i l).mul (hv l)

lemma smooth_det {A : E → Matrix μ μ ℂ} (hA : SmoothM k x0 A) : ContDiffAt ℝ k (fun x => (A x).det) x0 := by
  simp only [Matrix.det_apply']
  refine ContDiffAt.sum fun σ _ => contDiffAt_const.mul ?_
  exact contDiffAt_prod fun i _ => hA _ _

lemma smoothM_adjugate {A : E → Matrix μ μ ℂ} (hA : SmoothM k x0 A) : SmoothM k x0 (fun x => (A x).adjugate) := fun i j => by
  simp only [Matrix.adjugate_apply]
  refine smooth_det fun l m => ?_
  by_cases h : l = j
  · subst h; simp only [Matrix.updateRow_self]; exact contDiffAt_const
  · simp only [Matrix.updateRow_ne h]; exact hA l m

lemma smoothM_inv {A : E → Matrix μ μ ℂ} (hA : SmoothM k x0 A) (h : (A x0).det ≠ 0) : SmoothM k x0 (fun x => (A x)⁻¹) := fun i j => by
  simp only [Matrix.inv_def, Ring.inverse_eq_inv', Matrix.smul_apply, smul_eq_mul]
  exact ((smooth_det hA).inv h).mul (smoothM_adjugate hA i j)

/-- an inverse that exists at a point exists around it -/
lemma torchInverse_near {A : E → Matrix μ μ ℂ} (hA : SmoothM k x0 A) {B : Matrix μ μ ℂ} (h : torchInverse (A x0) = .ok B) :
    SmoothM k x0 (fun x => (A x)⁻¹) ∧ ∀ᶠ x in 𝓝 x0, torchInverse (A x) = .ok (A x)⁻¹ := by
  have hu : (A x0).det ≠ 0 := by
    unfold torchInverse at h
    split at h
    · rename_i hu; exact hu.ne_zero
    · simp at h
  refine ⟨smoothM_inv hA hu, ?_⟩
  filter_upwards [(smooth_det hA).continuousAt.eventually_ne hu] with x hx
  rw [torchInverse, if_pos (isUnit_iff_ne_zero.2 hx)]

lemma smooth_div {c : ℂ} {f : E → ℂ} (hf : ContDiffAt ℝ k f x0) (h : f x0 ≠ 0) : ContDiffAt ℝ k (fun x => c / f x) x0 := by
  simp only [div_eq_mul_inv]
  exact contDiffAt_const.mul (hf.inv h)

lemma recipVec_near {v : E → μ → ℂ} (hv : SmoothV k x0 v) (h : ∀ m, v x0 m ≠ 0) :
    SmoothV k x0 (fun x m => 1 / v x m) ∧ ∀ᶠ x in 𝓝 x0, recipVec (v x) = .ok (fun m => 1 / v x m) := by
  refine ⟨fun m => smooth_div (hv m) (h m), ?_⟩
  filter_upwards [Filter.eventually_all.2 fun m => (hv m).continuousAt.eventually_ne (h m)] with x hx
  rw [recipVec, if_pos hx]

/-- a layer that depends smoothly on parameters -/
structure SmoothLayer {ι : Type} (k : WithTop ℕ∞) (x0 : E) (L : E → LayerData ι) : Prop where
  q : SmoothV k x0 fun x => (L x).q
  phi : SmoothM k x0 fun x => (L x).phi
  kp : SmoothM k x0 fun x => (L x).kp
  d : ContDiffAt ℝ k (fun x => (L x).d) x0

structure SmoothS {ι : Type} (k : WithTop ℕ∞) (x0 : E) (S : E → SMat ι) : Prop where
  s11 : SmoothM k x0 fun x => (S x).s11
  s12 : SmoothM k x0 fun x => (S x).s12
  s21 : SmoothM k x0 fun x => (S x).s21
  s22 : SmoothM k x0 fun x => (S x).s22

lemma smooth_phase {L : E → LayerData μ} (h : SmoothLayer k x0 L) : SmoothV k x0 fun x => (L x).phase := fun m => by
  simp only [LayerData.phase]
  exact ((contDiffAt_const.mul (h.q m)).mul (Complex.ofRealCLM.contDiff.contDiffAt.comp x0 h.d)).cexp

/-- one step of the recursion that succeeds at a point succeeds around it, with a smooth result -/
lemma smStep_near {L L' : E → LayerData μ} {S : E → SMat μ} (hL : SmoothLayer k x0 L) (hL' : SmoothLayer k x0 L') (hS : SmoothS k x0 S) {r : SMat μ}
    (h : smStep (L x0) (L' x0) (S x0) = .ok r) :
    ∃ S' : E → SMat μ, S' x0 = r ∧ SmoothS k x0 S' ∧ ∀ᶠ x in 𝓝 x0, smStep (L x) (L' x) (S x) = .ok (S' x) := by
  unfold smStep at h
  obtain ⟨A, hA, h⟩ := bind_ok.1 h
  obtain ⟨B, hB, h⟩ := bind_ok.1 h
  obtain ⟨C, hC, h⟩ := bind_ok.1 h
  obtain ⟨D, hD, h⟩ := bind_ok.1 h
  have hq : ∀ m, (L' x0).q m ≠ 0 := by
    unfold recipVec at hC
    split at hC
    · assumption
    · simp at hC
  obtain ⟨sA, nA⟩ := torchInverse_near hL.phi hA
  obtain ⟨sB, nB⟩ := torchInverse_near (smoothM_mul hL.kp hL.phi) hB
  obtain ⟨sC, nC⟩ := recipVec_near hL'.q hq
  have eA : A = (L x0).phi⁻¹ := by rw [nA.self_of_nhds] at hA; injection hA with hA; exact hA.symm
  have eB : B = ((L x0).kp * (L x0).phi)⁻¹ := by rw [nB.self_of_nhds] at hB; injection hB with hB; exact hB.symm
  have eC : C = fun m => 1 / (L' x0).q m := by rw [nC.self_of_nhds] at hC; injection hC with hC; exact hC.symm
  subst eA eB eC
  have sQ := smoothM_mul sA hL'.phi
  have sP := smoothM_mul (smoothM_mul (smoothM_diagonal hL.q) sB) (smoothM_mul (smoothM_mul hL'.kp hL'.phi) (smoothM_diagonal sC))
  have s11 := smoothM_smul (c := fun _ : E => (1 / 2 : ℂ)) contDiffAt_const (smoothM_add sQ sP)
  have s12 := smoothM_smul (c := fun _ : E => (1 / 2 : ℂ)) contDiffAt_const (smoothM_sub sQ sP)
  have sd1 := smoothM_diagonal (smooth_phase hL)
  have sd2 := smoothM_diagonal (smooth_phase hL')
  obtain ⟨sD, nD⟩ := torchInverse_near (smoothM_sub s11 (smoothM_mul (smoothM_mul sd1 hS.s12) s12)) hD
  have eD := hD
  rw [nD.self_of_nhds] at eD
  injection eD with eD
  have t11 := smoothM_mul (smoothM_mul sD sd1) hS.s11
  have t12 := smoothM_mul (smoothM_mul sD (smoothM_sub (smoothM_mul sd1 (smoothM_mul hS.s12 s11)) s12)) sd2
  have t21 := smoothM_add hS.s21 (smoothM_mul hS.s22 (smoothM_mul s12 t11))
  have t22 := smoothM_add (smoothM_mul hS.s22 (smoothM_mul s11 sd2)) (smoothM_mul hS.s22 (smoothM_mul s12 t12))
  refine ⟨fun x => ⟨_, _, _, _⟩, ?_, ⟨t11, t12, t21, t22⟩, ?_⟩
  · injection h with h
    rw [← h, ← eD]
  · filter_upwards [nA, nB, nC, nD] with x hA hB hC hD
    unfold smStep
    rw [hA, ok_bind, hB, ok_bind, hC, ok_bind]
    exact bind_ok.2 ⟨_, hD, rfl⟩

lemma sLoop_near {S : E → SMat μ} {L : E → LayerData μ} {rest : List (E → LayerData μ)} (hS : SmoothS k x0 S)
    (hL : ∀ F ∈ L :: rest, SmoothLayer k x0 F) {r : SMat μ} (h : sLoop (S x0) (L x0) (rest.map fun F => F x0) = .ok r) :
    ∃ S' : E → SMat μ, S' x0 = r ∧ SmoothS k x0 S' ∧ ∀ᶠ x in 𝓝 x0, sLoop (S x) (L x) (rest.map fun F => F x) = .ok (S' x) := by
  induction rest generalizing S L with
  | nil =>
    injection h with h
    exact ⟨S, h, hS, .of_forall fun x => rfl⟩
  | cons L' rest ih =>
    simp only [List.map_cons, sLoop] at h ⊢
    obtain ⟨A, hA, h⟩ := bind_ok.1 h
    obtain ⟨S1, e1, h1, n1⟩ := smStep_near (hL L (by simp)) (hL L' (by simp)) hS hA
    subst e1
    obtain ⟨S2, e2, h2, n2⟩ := ih h1 (fun F hF => hL F (List.mem_cons_of_mem _ hF)) h
    refine ⟨S2, e2, h2, ?_⟩
    filter_upwards [n1, n2] with x hx1 hx2
    rw [hx1, ok_bind, hx2]

/-- the solver answers around a point where it answers, with smooth amplitudes -/
lemma solveExterior_near {L : E → LayerData μ} {rest : List (E → LayerData μ)} (hL : ∀ F ∈ L :: rest, SmoothLayer k x0 F) (a0 bN : μ → ℂ)
    {r : (μ → ℂ) × (μ → ℂ)} (h : solveExterior ((L :: rest).map fun F => F x0) a0 bN = .ok r) :
    ∃ a b : E → μ → ℂ, (a x0, b x0) = r ∧ SmoothV k x0 a ∧ SmoothV k x0 b ∧
      ∀ᶠ x in 𝓝 x0, solveExterior ((L :: rest).map fun F => F x) a0 bN = .ok (a x, b x) := by
  have hloop : ∀ x, getSMatrix ((L :: rest).map fun F => F x) 0 (((L :: rest).map fun F => F x).length - 1) =
      sLoop SMat.id (L x) (rest.map fun F => F x) := by
    intro x
    rw [getSMatrix_eq _ _ _ (Nat.zero_le _) (by simp)]
    simp only [List.map_cons, List.length_cons, List.length_map, Nat.add_sub_cancel, Nat.sub_zero, List.getElem_cons_zero, Nat.zero_add, List.drop_succ_cons,
      List.drop_zero]
    rw [List.take_of_length_le (by simp)]
  unfold solveExterior at h ⊢
  rw [hloop] at h
  obtain ⟨S, hS, h⟩ := bind_ok.1 h
  obtain ⟨S', e, s, n⟩ := sLoop_near (S := fun _ => SMat.id) ⟨smoothM_const _, smoothM_const _, smoothM_const _, smoothM_const _⟩ hL hS
  subst e
  injection h with h
  have sv : ∀ v : μ → ℂ, SmoothV k x0 fun _ : E => v := fun v m => contDiffAt_const
  refine ⟨fun x => (S' x).s11 *ᵥ a0 + (S' x).s12 *ᵥ bN, fun x => (S' x).s21 *ᵥ a0 + (S' x).s22 *ᵥ bN, h, ?_, ?_, ?_⟩
  · exact fun m => (smoothV_mulVec s.s11 (sv a0) m).add (smoothV_mulVec s.s12 (sv bN) m)
  · exact fun m => (smoothV_mulVec s.s21 (sv a0) m).add (smoothV_mulVec s.s22 (sv bN) m)
  · filter_upwards [n] with x hx
    rw [hloop, hx, ok_bind]
    rfl

/-! ### powers -/

lemma smooth_conj {f : E → ℂ} (hf : ContDiffAt ℝ k f x0) : ContDiffAt ℝ k (fun x => (starRingEnd ℂ) (f x)) x0 :=
  Complex.conjCLE.contDiff.contDiffAt.comp x0 hf

lemma smooth_re {f : E → ℂ} (hf : ContDiffAt ℝ k f x0) : ContDiffAt ℝ k (fun x => (f x).re) x0 :=
  Complex.reCLM.contDiff.contDiffAt.comp x0 hf

lemma smooth_ofReal {f : E → ℝ} (hf : ContDiffAt ℝ k f x0) : ContDiffAt ℝ k (fun x => (f x : ℂ)) x0 :=
  Complex.ofRealCLM.contDiff.contDiffAt.comp x0 hf

variable {κ : Type} [Fintype κ] [DecidableEq κ]

lemma smooth_flux {ω : ℂ} {L : E → LayerData (κ ⊕ κ)} (hL : SmoothLayer k x0 L) (hq : ∀ m, (L x0).q m ≠ 0) {a b : E → κ ⊕ κ → ℂ}
    (ha : SmoothV k x0 a) (hb : SmoothV k x0 b) :
    (∀ i, ContDiffAt ℝ k (fun x => (fluxByOrder ω (L x) (a x) (b x)).1 i) x0) ∧ ∀ i, ContDiffAt ℝ k (fun x => (fluxByOrder ω (L x) (a x) (b x)).2 i) x0 := by
  have hA : SmoothM k x0 fun x => fluxA ω (L x) :=
    smoothM_mul (smoothM_mul hL.kp hL.phi) (smoothM_diagonal fun m => smooth_div (hL.q m) (hq m))
  have Aa := smoothV_mulVec hA ha
  have Ab := smoothV_mulVec hA hb
  have pa := smoothV_mulVec hL.phi ha
  have pb := smoothV_mulVec hL.phi hb
  have hd : ∀ m, ContDiffAt ℝ k (fun x => fluxDiff ω (L x) (a x) (b x) m) x0 := fun m =>
    contDiffAt_const.mul (((smooth_conj (pb m)).mul (Aa m)).sub ((smooth_conj (Ab m)).mul (pa m)))
  have hf : ∀ m, ContDiffAt ℝ k (fun x => forwardXY ω (L x) (a x) (b x) m) x0 := fun m =>
    (smooth_ofReal (smooth_re ((smooth_conj (Aa m)).mul (pa m)))).add (hd m)
  have hb' : ∀ m, ContDiffAt ℝ k (fun x => backwardXY ω (L x) (a x) (b x) m) x0 := fun m =>
    (smooth_ofReal (smooth_re ((smooth_conj (Ab m)).mul (pb m)))).neg.add (smooth_conj (hd m))
  exact ⟨fun i => (hf _).add (hf _), fun i => (hb' _).add (hb' _)⟩

/-- reflectance and transmittance are smooth around a point where the solver answers -/
lemma rtForward_near {ω : ℂ} {norm : ℝ} {L : E → LayerData (κ ⊕ κ)} {rest : List (E → LayerData (κ ⊕ κ))} (hL : ∀ F ∈ L :: rest, SmoothLayer k x0 F)
    (hq : ∀ F ∈ L :: rest, ∀ m, (F x0).q m ≠ 0) (a0 bN : κ ⊕ κ → ℂ) {r : ℝ × ℝ} (h : rtForward ω norm ((L :: rest).map fun F => F x0) a0 bN = .ok r) :
    ∃ R T : E → ℝ, (R x0, T x0) = r ∧ ContDiffAt ℝ k R x0 ∧ ContDiffAt ℝ k T x0 ∧
      ∀ᶠ x in 𝓝 x0, rtForward ω norm ((L :: rest).map fun F => F x) a0 bN = .ok (R x, T x) := by
  unfold rtForward at h ⊢
  obtain ⟨u, hu, h⟩ := bind_ok.1 h
  obtain ⟨a, b, e, ha, hb, n⟩ := solveExterior_near hL a0 bN hu
  subst e
  have hlast : ∀ x, ((L :: rest).map fun F => F x).getLast? = some ((L :: rest).getLast (by simp) x) := by
    intro x
    rw [List.getLast?_map, List.getLast?_eq_some_getLast (by simp)]
    rfl
  have sv : ∀ v : κ ⊕ κ → ℂ, SmoothV k x0 fun _ : E => v := fun v m => contDiffAt_const
  rw [hlast] at h
  injection h with h
  have f1 := smooth_flux (ω := ω) (hL L (by simp)) (hq L (by simp)) (sv a0) hb
  have f2 := smooth_flux (ω := ω) (hL _ (List.getLast_mem (List.cons_ne_nil L rest))) (hq _ (List.getLast_mem (List.cons_ne_nil L rest))) ha (sv bN)
  refine ⟨fun x => (-(zPoyntingFlux ω (L x) a0 (b x)).2).re * norm, fun x => (zPoyntingFlux ω ((L :: rest).getLast (by simp) x) (a x) bN).1.re * norm, h, ?_, ?_, ?_⟩
  · exact (smooth_re (ContDiffAt.sum fun i _ => f1.2 i).neg).mul contDiffAt_const
  · exact (smooth_re (ContDiffAt.sum fun i _ => f2.1 i)).mul contDiffAt_const
  · filter_upwards [n] with x hx
    rw [hx, ok_bind, hlast]
    rfl

/-! ### films -/

/-- the branch of the wave number is smooth off the positive half line -/
lemma branch_form {z : ℂ} (hz : -z ∈ Complex.slitPlane) : branchQ (csqrt z) = Complex.I * csqrt (-z) := by
  have e1 : branchQ (csqrt z) ^ 2 = (Complex.I * csqrt (-z)) ^ 2 := by
    rw [branchQ_sq, csqrt_sq, mul_pow, csqrt_sq, Complex.I_sq]; ring
  have hpos : 0 < (Complex.I * csqrt (-z)).im := by
    rw [Complex.I_mul_im]
    refine lt_of_le_of_ne (csqrt_re_nonneg _) fun h => ?_
    have h2 := csqrt_sq (-z)
    have h3 : csqrt (-z) ^ 2 = ((-(csqrt (-z)).im ^ 2 : ℝ) : ℂ) := by
      apply Complex.ext
      · rw [sq, Complex.mul_re, ← h, Complex.ofReal_re]; ring
      · rw [sq, Complex.mul_im, ← h, Complex.ofReal_im]; ring
    rw [← h2, h3, Complex.ofReal_mem_slitPlane] at hz
    nlinarith [sq_nonneg (csqrt (-z)).im]
  rcases sq_eq_sq_iff_eq_or_eq_neg.1 e1 with h | h
  · exact h
  · have := branchQ_im (csqrt z)
    rw [h, Complex.neg_im] at this
    linarith

lemma smooth_branch {f : E → ℂ} (hf : ContDiffAt ℝ k f x0) (hz : -f x0 ∈ Complex.slitPlane) : ContDiffAt ℝ k (fun x => branchQ (csqrt (f x))) x0 := by
  have h1 : AnalyticAt ℂ (fun z : ℂ => z ^ (1 / 2 : ℂ)) (-f x0) := AnalyticAt.cpow analyticAt_id analyticAt_const hz
  have h3 : ContDiffAt ℝ k (fun x => csqrt (-f x)) x0 := ContDiffAt.comp (g := csqrt) x0 (h1.contDiffAt.restrict_scalars ℝ) hf.neg
  have h2 : ContDiffAt ℝ k (fun x => Complex.I * csqrt (-f x)) x0 := contDiffAt_const.mul h3
  refine h2.congr_of_eventuallyEq ?_
  have := (hf.neg.continuousAt).eventually (Complex.isOpen_slitPlane.mem_nhds hz)
  filter_upwards [this] with x hx
  exact branch_form hx

/-- a film is smooth in its permittivity and thickness where no wave number squared is real and non-negative -/
lemma smooth_uniform {ω : ℂ} {kx ky : κ → ℂ} {ε : E → ℂ} {d : E → ℝ} (hε : ContDiffAt ℝ k ε x0) (hd : ContDiffAt ℝ k d x0) (h0 : ε x0 ≠ 0)
    (hz : ∀ i, -(ε x0 * ω ^ 2 - kx i ^ 2 - ky i ^ 2) ∈ Complex.slitPlane) : SmoothLayer k x0 fun x => uniformLayer ω kx ky (ε x) (d x) := by
  have hq : ∀ i, ContDiffAt ℝ k (fun x => branchQ (csqrt (ε x * ω ^ 2 - kx i ^ 2 - ky i ^ 2))) x0 := fun i =>
    smooth_branch (((hε.mul contDiffAt_const).sub contDiffAt_const).sub contDiffAt_const) (hz i)
  refine ⟨?_, smoothM_const _, ?_, hd⟩
  · rintro (i | i)
    · exact hq i
    · exact hq i
  · exact smoothM_sub (smoothM_const _) (smoothM_smul (smooth_div hε h0) (smoothM_const _))

end

end Nidn
