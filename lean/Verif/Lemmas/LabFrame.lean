/-
The recursion of the RCWA solver written in terms of matrices that do not depend on the choice of eigenvectors, and its smoothness.
-/
import Verif.Lemmas.MatrixRoot
import Verif.Spec.Structure
import Verif.Props.Conv

set_option linter.unusedSectionVars false

namespace Nidn

open Matrix Topology

section

variable {ι : Type} [Fintype ι] [DecidableEq ι]

/-- a layer without its eigenvectors: square root `Q` of the eigenvalue matrix, `K`, and propagation `X` through the layer -/
structure Lab (ι : Type) where
  Q : Matrix ι ι ℂ
  K : Matrix ι ι ℂ
  X : Matrix ι ι ℂ

noncomputable def LayerData.lab (L : LayerData ι) : Lab ι :=
  ⟨L.phi * diagonal L.q * L.phi⁻¹, L.kp, L.phi * diagonal L.phase * L.phi⁻¹⟩

/-- the scattering matrix in terms of fields instead of amplitudes -/
noncomputable def SMat.toLab (S : SMat ι) (φ0 φ : Matrix ι ι ℂ) : SMat ι :=
  ⟨φ * S.s11 * φ0⁻¹, φ * S.s12 * φ⁻¹, φ0 * S.s21 * φ0⁻¹, φ0 * S.s22 * φ⁻¹⟩

/-- one step of the recursion in terms of fields -/
noncomputable def labStep (A B : Lab ι) (S : SMat ι) : Except PyErr (SMat ι) := do
  let KA ← torchInverse A.K
  let QB ← torchInverse B.Q
  let U := A.Q * KA * (B.K * QB)
  let T11 := (1 / 2 : ℂ) • (1 + U)
  let T12 := (1 / 2 : ℂ) • (1 - U)
  let P1 ← torchInverse (T11 - (A.X * S.s12) * T12)
  let s11 := (P1 * A.X) * S.s11
  let s12 := (P1 * (A.X * (S.s12 * T11) - T12)) * B.X
  let s21 := S.s21 + S.s22 * (T12 * s11)
  let s22 := S.s22 * (T11 * B.X) + S.s22 * (T12 * s12)
  pure ⟨s11, s12, s21, s22⟩

noncomputable def labLoop (S : SMat ι) (A : Lab ι) : List (Lab ι) → Except PyErr (SMat ι)
  | [] => .ok S
  | B :: rest => labStep A B S >>= fun S' => labLoop S' B rest

lemma torchInverse_iff {A B : Matrix ι ι ℂ} : torchInverse A = .ok B ↔ IsUnit A.det ∧ B = A⁻¹ := by
  unfold torchInverse
  split
  · rename_i h
    exact ⟨fun e => ⟨h, (Except.ok.inj e).symm⟩, fun e => by rw [e.2]⟩
  · rename_i h
    exact ⟨fun e => by simp at e, fun e => absurd e.1 h⟩

lemma recipVec_iff {q r : ι → ℂ} : recipVec q = .ok r ↔ (∀ m, q m ≠ 0) ∧ r = fun m => 1 / q m := by
  unfold recipVec
  split
  · rename_i h
    exact ⟨fun e => ⟨h, (Except.ok.inj e).symm⟩, fun e => by rw [e.2]⟩
  · rename_i h
    exact ⟨fun e => by simp at e, fun e => absurd e.1 h⟩

lemma conj_det {φ : Matrix ι ι ℂ} (hφ : IsUnit φ.det) (q : ι → ℂ) : (φ * diagonal q * φ⁻¹).det = ∏ m, q m := by
  rw [Matrix.det_mul, Matrix.det_mul, Matrix.det_diagonal, mul_right_comm, ← Matrix.det_mul, Matrix.mul_nonsing_inv _ hφ, Matrix.det_one, one_mul]

/-- the matrices of an interface in both forms -/
lemma lab_interface {L L' : LayerData ι} (h1 : IsUnit L.phi.det) (h2 : IsUnit L'.phi.det) (hq : ∀ m, L'.q m ≠ 0) (X : Matrix ι ι ℂ) :
    (1 / 2 : ℂ) • (1 + L.phi * diagonal L.q * L.phi⁻¹ * L.kp⁻¹ * (L'.kp * (L'.phi * diagonal L'.q * L'.phi⁻¹)⁻¹)) =
      L.phi * ((1 / 2 : ℂ) • (L.phi⁻¹ * L'.phi + (diagonal L.q * (L.kp * L.phi)⁻¹) * ((L'.kp * L'.phi) * diagonal fun m => 1 / L'.q m))) * L'.phi⁻¹ ∧
    (1 / 2 : ℂ) • (1 - L.phi * diagonal L.q * L.phi⁻¹ * L.kp⁻¹ * (L'.kp * (L'.phi * diagonal L'.q * L'.phi⁻¹)⁻¹)) =
      L.phi * ((1 / 2 : ℂ) • (L.phi⁻¹ * L'.phi - (diagonal L.q * (L.kp * L.phi)⁻¹) * ((L'.kp * L'.phi) * diagonal fun m => 1 / L'.q m))) * L'.phi⁻¹ ∧
    ∀ T11 T12 : Matrix ι ι ℂ, L.phi * T11 * L'.phi⁻¹ - L.phi * diagonal L.phase * L.phi⁻¹ * (L.phi * X * L.phi⁻¹) * (L.phi * T12 * L'.phi⁻¹) =
      L.phi * (T11 - diagonal L.phase * X * T12) * L'.phi⁻¹ := by
  have a1 := Matrix.mul_nonsing_inv _ h1
  have a2 := Matrix.nonsing_inv_mul _ h1
  have b1 := Matrix.mul_nonsing_inv _ h2
  have b2 := Matrix.nonsing_inv_mul _ h2
  have hQB : (L'.phi * diagonal L'.q * L'.phi⁻¹)⁻¹ = L'.phi * diagonal (fun m => 1 / L'.q m) * L'.phi⁻¹ := by
    refine Matrix.inv_eq_right_inv ?_
    have : diagonal L'.q * diagonal (fun m => 1 / L'.q m) = 1 := by
      rw [Matrix.diagonal_mul_diagonal, ← Matrix.diagonal_one]
      congr 1; funext m; exact mul_one_div_cancel (hq m)
    calc L'.phi * diagonal L'.q * L'.phi⁻¹ * (L'.phi * diagonal (fun m => 1 / L'.q m) * L'.phi⁻¹)
        = L'.phi * diagonal L'.q * (L'.phi⁻¹ * L'.phi) * diagonal (fun m => 1 / L'.q m) * L'.phi⁻¹ := by simp only [Matrix.mul_assoc]
      _ = L'.phi * (diagonal L'.q * diagonal (fun m => 1 / L'.q m)) * L'.phi⁻¹ := by rw [b2, Matrix.mul_one, Matrix.mul_assoc L'.phi]
      _ = 1 := by rw [this, Matrix.mul_one, b1]
  set P := (diagonal L.q * (L.kp * L.phi)⁻¹) * ((L'.kp * L'.phi) * diagonal fun m => 1 / L'.q m) with hP
  set U := L.phi * diagonal L.q * L.phi⁻¹ * L.kp⁻¹ * (L'.kp * (L'.phi * diagonal L'.q * L'.phi⁻¹)⁻¹) with hU
  have eU : U = L.phi * P * L'.phi⁻¹ := by
    rw [hU, hP, hQB, Matrix.mul_inv_rev]
    simp only [Matrix.mul_assoc]
  have one : (1 : Matrix ι ι ℂ) = L.phi * (L.phi⁻¹ * L'.phi) * L'.phi⁻¹ := by
    rw [← Matrix.mul_assoc, a1, Matrix.one_mul, b1]
  refine ⟨?_, ?_, fun T11 T12 => ?_⟩
  · rw [Matrix.mul_smul, Matrix.smul_mul, Matrix.mul_add, Matrix.add_mul, ← eU, ← one]
  · rw [Matrix.mul_smul, Matrix.smul_mul, Matrix.mul_sub, Matrix.sub_mul, ← eU, ← one]
  · rw [Matrix.mul_sub, Matrix.sub_mul]
    congr 1
    calc L.phi * diagonal L.phase * L.phi⁻¹ * (L.phi * X * L.phi⁻¹) * (L.phi * T12 * L'.phi⁻¹)
        = L.phi * diagonal L.phase * (L.phi⁻¹ * L.phi) * X * (L.phi⁻¹ * L.phi) * T12 * L'.phi⁻¹ := by simp only [Matrix.mul_assoc]
      _ = _ := by rw [a2, Matrix.mul_one, Matrix.mul_one]; simp only [Matrix.mul_assoc]

/-- both recursions take the same step -/
lemma labStep_ok {L L' : LayerData ι} (h1 : IsUnit L.phi.det) (h2 : IsUnit L'.phi.det) {φ0 : Matrix ι ι ℂ} (h0 : IsUnit φ0.det) {S r : SMat ι} :
    labStep L.lab L'.lab (S.toLab φ0 L.phi) = .ok r → ∃ r', smStep L L' S = .ok r' ∧ r = r'.toLab φ0 L'.phi := by
  intro h
  unfold labStep at h
  obtain ⟨KA, hKA, h⟩ := bind_ok.1 h
  obtain ⟨QB, hQB, h⟩ := bind_ok.1 h
  obtain ⟨P1, hP1, h⟩ := bind_ok.1 h
  obtain ⟨uK, rfl⟩ := torchInverse_iff.1 hKA
  obtain ⟨uQ, rfl⟩ := torchInverse_iff.1 hQB
  obtain ⟨uP, rfl⟩ := torchInverse_iff.1 hP1
  injection h with h
  simp only [LayerData.lab] at uK uQ uP h
  have hq : ∀ m, L'.q m ≠ 0 := by
    rw [conj_det h2, isUnit_iff_ne_zero, Finset.prod_ne_zero_iff] at uQ
    exact fun m => uQ m (Finset.mem_univ m)
  have uKphi : IsUnit (L.kp * L.phi).det := by rw [Matrix.det_mul]; exact uK.mul h1
  have a1 := Matrix.mul_nonsing_inv _ h1
  have a2 := Matrix.nonsing_inv_mul _ h1
  have b1 := Matrix.mul_nonsing_inv _ h2
  have b2 := Matrix.nonsing_inv_mul _ h2
  have c1 := Matrix.mul_nonsing_inv _ h0
  have c2 := Matrix.nonsing_inv_mul _ h0
  set P := (diagonal L.q * (L.kp * L.phi)⁻¹) * ((L'.kp * L'.phi) * diagonal fun m => 1 / L'.q m) with hP
  set U := L.phi * diagonal L.q * L.phi⁻¹ * L.kp⁻¹ * (L'.kp * (L'.phi * diagonal L'.q * L'.phi⁻¹)⁻¹) with hU
  set T11 := (1 / 2 : ℂ) • (L.phi⁻¹ * L'.phi + P) with hT11
  set T12 := (1 / 2 : ℂ) • (L.phi⁻¹ * L'.phi - P) with hT12
  obtain ⟨e11, e12, eD⟩ := lab_interface h1 h2 hq S.s12
  rw [← hP, ← hU, ← hT11] at e11
  rw [← hP, ← hU, ← hT12] at e12
  replace eD : (1 / 2 : ℂ) • (1 + U) - L.phi * diagonal L.phase * L.phi⁻¹ * (S.toLab φ0 L.phi).s12 * ((1 / 2 : ℂ) • (1 - U)) =
      L.phi * (T11 - diagonal L.phase * S.s12 * T12) * L'.phi⁻¹ := by rw [e11, e12]; exact eD T11 T12
  set D := T11 - diagonal L.phase * S.s12 * T12 with hD
  rw [eD] at uP h
  have uD : IsUnit D.det := by
    rw [Matrix.det_mul, Matrix.det_mul] at uP
    exact isUnit_of_mul_isUnit_right (isUnit_of_mul_isUnit_left uP)
  have eP : (L.phi * D * L'.phi⁻¹)⁻¹ = L'.phi * D⁻¹ * L.phi⁻¹ := by
    rw [Matrix.mul_inv_rev, Matrix.mul_inv_rev, Matrix.nonsing_inv_nonsing_inv _ h2, Matrix.mul_assoc]
  refine ⟨⟨(D⁻¹ * diagonal L.phase) * S.s11, (D⁻¹ * (diagonal L.phase * (S.s12 * T11) - T12)) * diagonal L'.phase,
    S.s21 + S.s22 * (T12 * ((D⁻¹ * diagonal L.phase) * S.s11)),
    S.s22 * (T11 * diagonal L'.phase) + S.s22 * (T12 * ((D⁻¹ * (diagonal L.phase * (S.s12 * T11) - T12)) * diagonal L'.phase))⟩, ?_, ?_⟩
  · unfold smStep
    rw [torchInverse_iff.2 ⟨h1, rfl⟩, ok_bind, torchInverse_iff.2 ⟨uKphi, rfl⟩, ok_bind, recipVec_iff.2 ⟨hq, rfl⟩, ok_bind]
    exact bind_ok.2 ⟨_, torchInverse_iff.2 ⟨uD, rfl⟩, rfl⟩
  · rw [← h]
    have s11 : (L.phi * D * L'.phi⁻¹)⁻¹ * (L.phi * diagonal L.phase * L.phi⁻¹) * (S.toLab φ0 L.phi).s11 =
        L'.phi * (D⁻¹ * diagonal L.phase * S.s11) * φ0⁻¹ := by
      rw [eP]
      calc L'.phi * D⁻¹ * L.phi⁻¹ * (L.phi * diagonal L.phase * L.phi⁻¹) * (L.phi * S.s11 * φ0⁻¹)
          = L'.phi * D⁻¹ * (L.phi⁻¹ * L.phi) * diagonal L.phase * (L.phi⁻¹ * L.phi) * S.s11 * φ0⁻¹ := by simp only [Matrix.mul_assoc]
        _ = _ := by rw [a2, Matrix.mul_one, Matrix.mul_one]; simp only [Matrix.mul_assoc]
    have s12 : (L.phi * D * L'.phi⁻¹)⁻¹ * (L.phi * diagonal L.phase * L.phi⁻¹ * ((S.toLab φ0 L.phi).s12 * ((1 / 2 : ℂ) • (1 + U))) -
          (1 / 2 : ℂ) • (1 - U)) * (L'.phi * diagonal L'.phase * L'.phi⁻¹) =
        L'.phi * (D⁻¹ * (diagonal L.phase * (S.s12 * T11) - T12) * diagonal L'.phase) * L'.phi⁻¹ := by
      rw [eP, e11, e12]
      have : L.phi * diagonal L.phase * L.phi⁻¹ * (L.phi * S.s12 * L.phi⁻¹ * (L.phi * T11 * L'.phi⁻¹)) - L.phi * T12 * L'.phi⁻¹ =
          L.phi * (diagonal L.phase * (S.s12 * T11) - T12) * L'.phi⁻¹ := by
        rw [Matrix.mul_sub, Matrix.sub_mul]
        congr 1
        calc L.phi * diagonal L.phase * L.phi⁻¹ * (L.phi * S.s12 * L.phi⁻¹ * (L.phi * T11 * L'.phi⁻¹))
            = L.phi * diagonal L.phase * (L.phi⁻¹ * L.phi) * S.s12 * (L.phi⁻¹ * L.phi) * T11 * L'.phi⁻¹ := by simp only [Matrix.mul_assoc]
          _ = _ := by rw [a2, Matrix.mul_one, Matrix.mul_one]; simp only [Matrix.mul_assoc]
      simp only [SMat.toLab]
      rw [this]
      generalize diagonal L.phase * (S.s12 * T11) - T12 = Z
      calc L'.phi * D⁻¹ * L.phi⁻¹ * (L.phi * Z * L'.phi⁻¹) * (L'.phi * diagonal L'.phase * L'.phi⁻¹)
          = L'.phi * D⁻¹ * (L.phi⁻¹ * L.phi) * Z * (L'.phi⁻¹ * L'.phi) * diagonal L'.phase * L'.phi⁻¹ := by simp only [Matrix.mul_assoc]
        _ = _ := by rw [a2, b2, Matrix.mul_one, Matrix.mul_one]; simp only [Matrix.mul_assoc]
    rw [s11, s12]
    set t11 := D⁻¹ * diagonal L.phase * S.s11
    set t12 := D⁻¹ * (diagonal L.phase * (S.s12 * T11) - T12) * diagonal L'.phase
    rw [e11, e12]
    simp only [SMat.toLab]
    congr 1
    · rw [Matrix.mul_add, Matrix.add_mul]
      congr 1
      calc φ0 * S.s22 * L.phi⁻¹ * (L.phi * T12 * L'.phi⁻¹ * (L'.phi * t11 * φ0⁻¹))
          = φ0 * S.s22 * (L.phi⁻¹ * L.phi) * T12 * (L'.phi⁻¹ * L'.phi) * t11 * φ0⁻¹ := by simp only [Matrix.mul_assoc]
        _ = _ := by rw [a2, b2, Matrix.mul_one, Matrix.mul_one]; simp only [Matrix.mul_assoc]
    · rw [Matrix.mul_add, Matrix.add_mul]
      congr 1
      · calc φ0 * S.s22 * L.phi⁻¹ * (L.phi * T11 * L'.phi⁻¹ * (L'.phi * diagonal L'.phase * L'.phi⁻¹))
            = φ0 * S.s22 * (L.phi⁻¹ * L.phi) * T11 * (L'.phi⁻¹ * L'.phi) * diagonal L'.phase * L'.phi⁻¹ := by simp only [Matrix.mul_assoc]
          _ = _ := by rw [a2, b2, Matrix.mul_one, Matrix.mul_one]; simp only [Matrix.mul_assoc]
      · calc φ0 * S.s22 * L.phi⁻¹ * (L.phi * T12 * L'.phi⁻¹ * (L'.phi * t12 * L'.phi⁻¹))
            = φ0 * S.s22 * (L.phi⁻¹ * L.phi) * T12 * (L'.phi⁻¹ * L'.phi) * t12 * L'.phi⁻¹ := by simp only [Matrix.mul_assoc]
          _ = _ := by rw [a2, b2, Matrix.mul_one, Matrix.mul_one]; simp only [Matrix.mul_assoc]

/-- where the solver takes a step, so does the recursion in terms of fields -/
lemma labStep_of {L L' : LayerData ι} (h1 : IsUnit L.phi.det) (h2 : IsUnit L'.phi.det) {φ0 : Matrix ι ι ℂ} (h0 : IsUnit φ0.det) {S r : SMat ι}
    (h : smStep L L' S = .ok r) : labStep L.lab L'.lab (S.toLab φ0 L.phi) = .ok (r.toLab φ0 L'.phi) := by
  have key : ∃ r', labStep L.lab L'.lab (S.toLab φ0 L.phi) = .ok r' := by
    unfold smStep at h
    obtain ⟨A, hA, h⟩ := bind_ok.1 h
    obtain ⟨B, hB, h⟩ := bind_ok.1 h
    obtain ⟨C, hC, h⟩ := bind_ok.1 h
    obtain ⟨D, hD, h⟩ := bind_ok.1 h
    obtain ⟨_, rfl⟩ := torchInverse_iff.1 hA
    obtain ⟨uB, rfl⟩ := torchInverse_iff.1 hB
    obtain ⟨hq, rfl⟩ := recipVec_iff.1 hC
    obtain ⟨uD, rfl⟩ := torchInverse_iff.1 hD
    obtain ⟨e11, e12, eD⟩ := lab_interface h1 h2 hq S.s12
    have uK : IsUnit L.lab.K.det := by
      rw [Matrix.det_mul] at uB
      exact isUnit_of_mul_isUnit_left uB
    have uQ : IsUnit L'.lab.Q.det := by
      rw [LayerData.lab, conj_det h2, isUnit_iff_ne_zero, Finset.prod_ne_zero_iff]
      exact fun m _ => hq m
    unfold labStep
    rw [torchInverse_iff.2 ⟨uK, rfl⟩, ok_bind, torchInverse_iff.2 ⟨uQ, rfl⟩, ok_bind]
    refine ⟨_, bind_ok.2 ⟨_, torchInverse_iff.2 ⟨?_, rfl⟩, rfl⟩⟩
    simp only [LayerData.lab, SMat.toLab]
    rw [e11, e12, eD, Matrix.det_mul, Matrix.det_mul]
    exact (h1.mul uD).mul (Matrix.isUnit_nonsing_inv_det _ h2)
  obtain ⟨r', hr'⟩ := key
  obtain ⟨r'', e1, e2⟩ := labStep_ok h1 h2 h0 hr'
  rw [h] at e1
  injection e1 with e1
  rw [hr', e2, e1]

lemma labLoop_ok {L : LayerData ι} {rest : List (LayerData ι)} (hu : ∀ M ∈ L :: rest, IsUnit M.phi.det) {φ0 : Matrix ι ι ℂ} (h0 : IsUnit φ0.det)
    {S r : SMat ι} (h : labLoop (S.toLab φ0 L.phi) L.lab (rest.map LayerData.lab) = .ok r) :
    ∃ r', sLoop S L rest = .ok r' ∧ r = r'.toLab φ0 ((L :: rest).getLast (by simp)).phi := by
  induction rest generalizing S L with
  | nil =>
    injection h with h
    exact ⟨S, rfl, h.symm⟩
  | cons L' rest ih =>
    simp only [List.map_cons, labLoop] at h
    obtain ⟨S1, h1, h2⟩ := bind_ok.1 h
    obtain ⟨S1', e1, rfl⟩ := labStep_ok (hu L (by simp)) (hu L' (by simp)) h0 h1
    obtain ⟨r', e2, e3⟩ := ih (fun M hM => hu M (List.mem_cons_of_mem _ hM)) h2
    exact ⟨r', by rw [sLoop, e1, ok_bind, e2], e3⟩

lemma labLoop_of {L : LayerData ι} {rest : List (LayerData ι)} (hu : ∀ M ∈ L :: rest, IsUnit M.phi.det) {φ0 : Matrix ι ι ℂ} (h0 : IsUnit φ0.det)
    {S r : SMat ι} (h : sLoop S L rest = .ok r) :
    labLoop (S.toLab φ0 L.phi) L.lab (rest.map LayerData.lab) = .ok (r.toLab φ0 ((L :: rest).getLast (by simp)).phi) := by
  induction rest generalizing S L with
  | nil =>
    injection h with h
    rw [h]; rfl
  | cons L' rest ih =>
    simp only [sLoop] at h
    obtain ⟨S1, h1, h2⟩ := bind_ok.1 h
    simp only [List.map_cons, labLoop]
    rw [labStep_of (hu L (by simp)) (hu L' (by simp)) h0 h1, ok_bind, ih (fun M hM => hu M (List.mem_cons_of_mem _ hM)) h2]
    rfl

/-! ### smooth dependence -/

variable {E : Type} [NormedAddCommGroup E] [NormedSpace ℝ E] {k : WithTop ℕ∞} {x0 : E}

structure SmoothLab (k : WithTop ℕ∞) (x0 : E) (A : E → Lab ι) : Prop where
  Q : SmoothM k x0 fun x => (A x).Q
  K : SmoothM k x0 fun x => (A x).K
  X : SmoothM k x0 fun x => (A x).X

lemma labStep_near {A B : E → Lab ι} {S : E → SMat ι} (hA : SmoothLab k x0 A) (hB : SmoothLab k x0 B) (hS : SmoothS k x0 S) {r : SMat ι}
    (h : labStep (A x0) (B x0) (S x0) = .ok r) :
    ∃ S' : E → SMat ι, S' x0 = r ∧ SmoothS k x0 S' ∧ ∀ᶠ x in 𝓝 x0, labStep (A x) (B x) (S x) = .ok (S' x) := by
  unfold labStep at h
  obtain ⟨KA, hKA, h⟩ := bind_ok.1 h
  obtain ⟨QB, hQB, h⟩ := bind_ok.1 h
  obtain ⟨P1, hP1, h⟩ := bind_ok.1 h
  obtain ⟨sK, nK⟩ := torchInverse_near hA.K hKA
  obtain ⟨sQ, nQ⟩ := torchInverse_near hB.Q hQB
  obtain ⟨_, rfl⟩ := torchInverse_iff.1 hKA
  obtain ⟨_, rfl⟩ := torchInverse_iff.1 hQB
  have sU := smoothM_mul (smoothM_mul hA.Q sK) (smoothM_mul hB.K sQ)
  have s11 := smoothM_smul (c := fun _ : E => (1 / 2 : ℂ)) contDiffAt_const (smoothM_add (smoothM_const 1) sU)
  have s12 := smoothM_smul (c := fun _ : E => (1 / 2 : ℂ)) contDiffAt_const (smoothM_sub (smoothM_const 1) sU)
  obtain ⟨sD, nD⟩ := torchInverse_near (smoothM_sub s11 (smoothM_mul (smoothM_mul hA.X hS.s12) s12)) hP1
  obtain ⟨_, rfl⟩ := torchInverse_iff.1 hP1
  have t11 := smoothM_mul (smoothM_mul sD hA.X) hS.s11
  have t12 := smoothM_mul (smoothM_mul sD (smoothM_sub (smoothM_mul hA.X (smoothM_mul hS.s12 s11)) s12)) hB.X
  have t21 := smoothM_add hS.s21 (smoothM_mul hS.s22 (smoothM_mul s12 t11))
  have t22 := smoothM_add (smoothM_mul hS.s22 (smoothM_mul s11 hB.X)) (smoothM_mul hS.s22 (smoothM_mul s12 t12))
  refine ⟨fun x => ⟨_, _, _, _⟩, ?_, ⟨t11, t12, t21, t22⟩, ?_⟩
  · injection h with h
  · filter_upwards [nK, nQ, nD] with x hK hQ hD
    unfold labStep
    rw [hK, ok_bind, hQ, ok_bind]
    exact bind_ok.2 ⟨_, hD, rfl⟩

lemma labLoop_near {S : E → SMat ι} {A : E → Lab ι} {rest : List (E → Lab ι)} (hS : SmoothS k x0 S) (hA : ∀ F ∈ A :: rest, SmoothLab k x0 F)
    {r : SMat ι} (h : labLoop (S x0) (A x0) (rest.map fun F => F x0) = .ok r) :
    ∃ S' : E → SMat ι, S' x0 = r ∧ SmoothS k x0 S' ∧ ∀ᶠ x in 𝓝 x0, labLoop (S x) (A x) (rest.map fun F => F x) = .ok (S' x) := by
  induction rest generalizing S A with
  | nil =>
    injection h with h
    exact ⟨S, h, hS, .of_forall fun x => rfl⟩
  | cons B rest ih =>
    simp only [List.map_cons, labLoop] at h ⊢
    obtain ⟨S1, h1, h⟩ := bind_ok.1 h
    obtain ⟨S1, rfl, s1, n1⟩ := labStep_near (hA A (by simp)) (hA B (by simp)) hS h1
    obtain ⟨S2, e2, s2, n2⟩ := ih s1 (fun F hF => hA F (List.mem_cons_of_mem _ hF)) h
    refine ⟨S2, e2, s2, ?_⟩
    filter_upwards [n1, n2] with x hx1 hx2
    rw [hx1, ok_bind, hx2]

end

end Nidn
