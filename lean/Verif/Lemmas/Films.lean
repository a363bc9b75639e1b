/-
A stack of uniform layers seen by one polarisation: projections of the amplitudes of one order, and their scalar film problem.
-/
import Verif.Spec.Films
import Verif.Props.Orders

set_option linter.unusedSectionVars false

namespace Nidn

open Matrix

noncomputable section

variable {κ : Type} [Fintype κ] [DecidableEq κ]

/-- component `u x + v y` of an amplitude vector in order `o` -/
def proj (o : κ) (u v : ℂ) (x : κ ⊕ κ → ℂ) : ℂ := u * x (.inl o) + v * x (.inr o)

/-- eigenvalue of the matrix `kp` of a medium on a component -/
def ProjEig (ω : ℂ) (kx ky : κ → ℂ) (o : κ) (u v : ℂ) (lam : ℂ → ℂ) : Prop :=
  ∀ ε x, proj o u v (kpUniform ω (1 / ε) kx ky *ᵥ x) = lam ε * proj o u v x

lemma proj_along {ω : ℂ} {kx ky : κ → ℂ} {o : κ} {K : ℂ} {φ : ℝ} (hkx : kx o = K * Real.cos φ) (hky : ky o = K * Real.sin φ) :
    ProjEig ω kx ky o (Real.cos φ) (Real.sin φ) fun _ => ω ^ 2 := by
  intro ε x
  rw [proj, proj, (kpUniform_mulVec _ _ _ _ _ o).1, (kpUniform_mulVec _ _ _ _ _ o).2, hkx, hky]
  ring

lemma cos_sin_cast (φ : ℝ) : (Real.sin φ : ℂ) ^ 2 + (Real.cos φ : ℂ) ^ 2 = 1 := by exact_mod_cast congrArg Complex.ofReal (Real.sin_sq_add_cos_sq φ)

lemma proj_across {ω : ℂ} {kx ky : κ → ℂ} {o : κ} {K : ℂ} {φ : ℝ} (hkx : kx o = K * Real.cos φ) (hky : ky o = K * Real.sin φ) :
    ProjEig ω kx ky o (-Real.sin φ) (Real.cos φ) fun ε => ω ^ 2 - 1 / ε * K ^ 2 := by
  intro ε x
  have h := cos_sin_cast φ
  rw [proj, proj, (kpUniform_mulVec _ _ _ _ _ o).1, (kpUniform_mulVec _ _ _ _ _ o).2, hkx, hky]
  linear_combination (-(1 / ε * K ^ 2) * (-Real.sin φ * x (.inl o) + Real.cos φ * x (.inr o))) * h

/-- impedance of a medium for a component -/
def projY (ω : ℂ) (kx ky : κ → ℂ) (o : κ) (lam : ℂ → ℂ) (ε : ℂ) : ℂ := lam ε / (ω * qOrd ω ε kx ky o)

lemma proj_h (ω ε : ℂ) (kx ky : κ → ℂ) (d : ℝ) (o : κ) (u v : ℂ) (x y : κ ⊕ κ → ℂ) :
    proj o u v ((uniformLayer ω kx ky ε d).hTan x y) = proj o u v x + proj o u v y := by
  have hphi : (uniformLayer ω kx ky ε d).phi = 1 := rfl
  rw [LayerData.hTan, hphi, Matrix.one_mulVec, proj, proj, proj]
  simp only [Pi.add_apply]; ring

lemma proj_e {ω : ℂ} (hω : ω ≠ 0) {kx ky : κ → ℂ} {o : κ} {u v : ℂ} {lam : ℂ → ℂ} (he : ProjEig ω kx ky o u v lam) (ε : ℂ) (d : ℝ) (x y : κ ⊕ κ → ℂ) :
    proj o u v ((uniformLayer ω kx ky ε d).eTan x y) = ω * (projY ω kx ky o lam ε * (proj o u v x - proj o u v y)) := by
  have hphi : (uniformLayer ω kx ky ε d).phi = 1 := rfl
  have hkp : (uniformLayer ω kx ky ε d).kp = kpUniform ω (1 / ε) kx ky := rfl
  rw [LayerData.eTan, hphi, Matrix.one_mulVec, hkp, he, projY]
  have q1 : (uniformLayer ω kx ky ε d).q (.inl o) = qOrd ω ε kx ky o := rfl
  have q2 : (uniformLayer ω kx ky ε d).q (.inr o) = qOrd ω ε kx ky o := rfl
  simp only [proj, q1, q2]
  by_cases h : qOrd ω ε kx ky o = 0
  · rw [h]; simp
  · field_simp; ring

lemma proj_through (ω ε : ℂ) (kx ky : κ → ℂ) (d : ℝ) (o : κ) (u v : ℂ) (x : κ ⊕ κ → ℂ) :
    proj o u v ((uniformLayer ω kx ky ε d).through x) = Complex.exp (Complex.I * qOrd ω ε kx ky o * d) * proj o u v x := by
  have q1 : (uniformLayer ω kx ky ε d).q (.inl o) = qOrd ω ε kx ky o := rfl
  have q2 : (uniformLayer ω kx ky ε d).q (.inr o) = qOrd ω ε kx ky o := rfl
  have hd : (uniformLayer ω kx ky ε d).d = d := rfl
  simp only [proj, LayerData.through, q1, q2, hd]
  ring

/-- one film: fields at its front from amplitudes, by the characteristic matrix -/
lemma filmFront_wave {y δ : ℂ} (hy : y ≠ 0) (a b : ℂ) :
    filmFront y δ (Complex.exp (Complex.I * δ) * a + b, y * (Complex.exp (Complex.I * δ) * a - b)) =
      (a + Complex.exp (Complex.I * δ) * b, y * (a - Complex.exp (Complex.I * δ) * b)) := by
  have e1 : Complex.exp (Complex.I * δ) = Complex.cos δ + Complex.I * Complex.sin δ := by
    rw [mul_comm, Complex.exp_mul_I]; ring
  have e2 := Complex.sin_sq_add_cos_sq δ
  have hI := Complex.I_sq
  rw [filmFront, e1, Prod.mk.injEq]
  simp only
  generalize Complex.cos δ = c at *
  generalize Complex.sin δ = s at *
  constructor
  · field_simp
    linear_combination a * e2 - (s ^ 2 * a) * hI
  · linear_combination (y * a) * e2 - (y * s ^ 2 * a) * hI

lemma filmFront_smul (y δ t : ℂ) (f : ℂ × ℂ) : filmFront y δ (f.1 * t, f.2 * t) = ((filmFront y δ f).1 * t, (filmFront y δ f).2 * t) := by
  simp only [filmFront, Prod.mk.injEq]; constructor <;> ring

/-- the films of a list of layers -/
def filmsOf (ω : ℂ) (kx ky : κ → ℂ) (o : κ) (lam : ℂ → ℂ) (l : List (ℂ × ℝ)) : List (ℂ × ℂ) :=
  l.map fun e => (projY ω kx ky o lam e.1, qOrd ω e.1 kx ky o * e.2)

/-- fields at the front of the first of a list of layers in front of a half-space, in terms of the transmitted amplitude -/
lemma film_fields {ω : ℂ} (hω : ω ≠ 0) {kx ky : κ → ℂ} {o : κ} {u v : ℂ} {lam : ℂ → ℂ} (he : ProjEig ω kx ky o u v lam) (εN : ℂ) (dN : ℝ)
    (l : List (ℂ × ℝ)) (hy : ∀ e ∈ l, projY ω kx ky o lam e.1 ≠ 0) (L : LayerData (κ ⊕ κ)) (rest : List (LayerData (κ ⊕ κ)))
    (hl : L :: rest = (l ++ [(εN, dN)]).map fun e => uniformLayer ω kx ky e.1 e.2) (a b aN : κ ⊕ κ → ℂ) (h : StackSol (L :: rest) a b aN 0) :
    proj o u v (L.hTan a (L.through b)) = (frontFields (filmsOf ω kx ky o lam l) (projY ω kx ky o lam εN)).1 * proj o u v aN ∧
    proj o u v (L.eTan a (L.through b)) = ω * ((frontFields (filmsOf ω kx ky o lam l) (projY ω kx ky o lam εN)).2 * proj o u v aN) := by
  induction l generalizing L rest a b with
  | nil =>
    simp only [List.nil_append, List.map_cons, List.map_nil, List.cons.injEq] at hl
    obtain ⟨rfl, rfl⟩ := hl
    obtain ⟨rfl, h0⟩ := h
    rw [proj_h, proj_e hω he, proj_through, ← h0]
    simp [filmsOf, frontFields, proj]
  | cons e l ih =>
    simp only [List.cons_append, List.map_cons, List.cons.injEq] at hl
    obtain ⟨rfl, hl⟩ := hl
    cases rest with
    | nil => simp at hl
    | cons L' rest =>
      obtain ⟨a', b', hc, hs⟩ := h
      obtain ⟨i1, i2⟩ := ih (fun e he => hy e (List.mem_cons_of_mem _ he)) L' rest hl a' b' hs
      rw [← hc.h, proj_h, proj_through] at i1
      rw [← hc.e, proj_e hω he, proj_through] at i2
      have i3 := mul_left_cancel₀ hω i2
      have hw := filmFront_wave (δ := qOrd ω e.1 kx ky o * e.2) (hy e (by simp)) (proj o u v a) (proj o u v b)
      rw [← mul_assoc] at hw
      rw [i1, i3, filmFront_smul, Prod.mk.injEq] at hw
      have hf : frontFields (filmsOf ω kx ky o lam (e :: l)) (projY ω kx ky o lam εN) =
          filmFront (projY ω kx ky o lam e.1) (qOrd ω e.1 kx ky o * e.2) (frontFields (filmsOf ω kx ky o lam l) (projY ω kx ky o lam εN)) := rfl
      rw [proj_h, proj_e hω he, proj_through, hf, hw.1, hw.2]
      exact ⟨rfl, rfl⟩

/-- a whole structure: the incident and the reflected amplitude in terms of the transmitted one -/
lemma film_stack {ω : ℂ} (hω : ω ≠ 0) {kx ky : κ → ℂ} {o : κ} {u v : ℂ} {lam : ℂ → ℂ} (he : ProjEig ω kx ky o u v lam) (ε0 : ℂ) (d0 : ℝ) (εN : ℂ) (dN : ℝ)
    (l : List (ℂ × ℝ)) (hy : ∀ e ∈ l, projY ω kx ky o lam e.1 ≠ 0) (a0 b0 aN : κ ⊕ κ → ℂ)
    (h : StackSol (uniformLayer ω kx ky ε0 d0 :: (l ++ [(εN, dN)]).map fun e => uniformLayer ω kx ky e.1 e.2) a0 b0 aN 0) :
    Complex.exp (Complex.I * qOrd ω ε0 kx ky o * d0) * proj o u v a0 + proj o u v b0 =
      (frontFields (filmsOf ω kx ky o lam l) (projY ω kx ky o lam εN)).1 * proj o u v aN ∧
    projY ω kx ky o lam ε0 * (Complex.exp (Complex.I * qOrd ω ε0 kx ky o * d0) * proj o u v a0 - proj o u v b0) =
      (frontFields (filmsOf ω kx ky o lam l) (projY ω kx ky o lam εN)).2 * proj o u v aN := by
  obtain ⟨L, rest, hl⟩ : ∃ L rest, L :: rest = (l ++ [(εN, dN)]).map fun e => uniformLayer ω kx ky e.1 e.2 := by
    cases l with
    | nil => exact ⟨_, _, rfl⟩
    | cons e l => exact ⟨_, _, rfl⟩
  rw [← hl] at h
  obtain ⟨a', b', hc, hs⟩ := h
  obtain ⟨i1, i2⟩ := film_fields hω he εN dN l hy L rest hl a' b' aN hs
  rw [← hc.h, proj_h, proj_through] at i1
  rw [← hc.e, proj_e hω he, proj_through] at i2
  exact ⟨i1, mul_left_cancel₀ hω i2⟩

end

end Nidn
