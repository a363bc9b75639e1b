/-
Property C122 for patterned layers: reflectance and transmittance are smooth functions of the pixels, although eigenvectors are not.
-/
import Verif.Lemmas.LabFrame
import Verif.Props.Smooth
import Verif.Props.Invariance

set_option linter.unusedSectionVars false

namespace Nidn

open Matrix Topology

variable {Nx Ny n : ℕ} {E : Type} [NormedAddCommGroup E] [NormedSpace ℝ E]

/-- No Fourier coefficient of the pattern that the solver uses lies on the edge of the region that its filter drops. -/
def FilterClear (s : Fin Nx → Fin Ny → ℂ) (G : Fin n → ℤ × ℤ) : Prop :=
  ∀ i j, (fourierCoeff s (G i - G j)).re < 1e-14 ∧ (fourierCoeff s (G i - G j)).im < 1e-14 ∨
    1e-14 < (fourierCoeff s (G i - G j)).re ∨ 1e-14 < (fourierCoeff s (G i - G j)).im

/-- A layer that depends smoothly on parameters: its permittivity or every one of its pixels, and its thickness. -/
inductive SmoothSlab (k : WithTop ℕ∞) (x0 : E) (G : Fin n → ℤ × ℤ) : (E → Slab Nx Ny) → Prop
  | uniform (ε : E → ℂ) (d : E → ℝ) (hε : ContDiffAt ℝ k ε x0) (hd : ContDiffAt ℝ k d x0) : SmoothSlab k x0 G fun x => .uniform (ε x) (d x)
  | patterned (s : E → Fin Nx → Fin Ny → ℂ) (d : E → ℝ) (hs : ∀ a b, ContDiffAt ℝ k (fun x => s x a b) x0) (hd : ContDiffAt ℝ k d x0)
      (hf : FilterClear (s x0) G) : SmoothSlab k x0 G fun x => .patterned (s x) (d x)

variable {k : WithTop ℕ∞} {x0 : E} {G : Fin n → ℤ × ℤ} {ω : ℂ} {kx ky : Fin n → ℂ}

lemma smooth_fourier {s : E → Fin Nx → Fin Ny → ℂ} (hs : ∀ a b, ContDiffAt ℝ k (fun x => s x a b) x0) (d : ℤ × ℤ) :
    ContDiffAt ℝ k (fun x => fourierCoeff (s x) d) x0 := by
  unfold fourierCoeff
  refine contDiffAt_const.mul ?_
  exact ContDiffAt.sum fun a _ => ContDiffAt.sum fun b _ => (hs a b).mul contDiffAt_const

lemma smooth_filter {f : E → ℂ} (hf : ContDiffAt ℝ k f x0)
    (h : (f x0).re < 1e-14 ∧ (f x0).im < 1e-14 ∨ 1e-14 < (f x0).re ∨ 1e-14 < (f x0).im) : ContDiffAt ℝ k (fun x => zeroSmall (f x)) x0 := by
  have hc := hf.continuousAt
  have hre : ContinuousAt (fun x => (f x).re) x0 := Complex.continuous_re.continuousAt.comp hc
  have him : ContinuousAt (fun x => (f x).im) x0 := Complex.continuous_im.continuousAt.comp hc
  rcases h with ⟨h1, h2⟩ | h | h
  · refine (contDiffAt_const (c := (0 : ℂ))).congr_of_eventuallyEq ?_
    filter_upwards [hre.eventually_lt continuousAt_const h1, him.eventually_lt continuousAt_const h2] with x a b
    rw [zeroSmall, if_pos ⟨a, b⟩]
  · refine hf.congr_of_eventuallyEq ?_
    filter_upwards [continuousAt_const.eventually_lt hre h] with x a
    rw [zeroSmall, if_neg fun c => lt_asymm c.1 a]
  · refine hf.congr_of_eventuallyEq ?_
    filter_upwards [continuousAt_const.eventually_lt him h] with x a
    rw [zeroSmall, if_neg fun c => lt_asymm c.2 a]

/-- what `Epsilon_fft` returns, the filter included -/
lemma epsilonFft_matrices {s : Fin Nx → Fin Ny → ℂ} {epinv : Matrix (Fin n) (Fin n) ℂ} {ep2 : Matrix (Fin n ⊕ Fin n) (Fin n ⊕ Fin n) ℂ}
    (h : epsilonFft (1 / Nx / Ny) (.iso s) G = .ok (epinv, ep2)) :
    IsUnit (Matrix.of fun i j => fourierCoeff s (G i - G j)).det ∧ epinv = (Matrix.of fun i j => fourierCoeff s (G i - G j))⁻¹ ∧
      ep2 = fromBlocks (Matrix.of fun i j => zeroSmall (fourierCoeff s (G i - G j))) 0 0 (Matrix.of fun i j => zeroSmall (fourierCoeff s (G i - G j))) := by
  simp only [epsilonFft] at h
  rw [bind_ok] at h
  obtain ⟨C, h1, h2⟩ := h
  rw [bind_ok] at h2
  obtain ⟨inv, h3, h4⟩ := h2
  injection h4 with h4
  injection h4 with h5 h6
  have hr : Resolved Nx Ny G := by
    by_contra hn; rw [(C15_entries s G).2 hn] at h1; simp at h1
  obtain ⟨C', h7, h8⟩ := (C15_entries s G).1 hr
  rw [h7] at h1; injection h1 with h1; subst h1
  have e : C' = Matrix.of fun i j => fourierCoeff s (G i - G j) := by ext i j; exact h8 i j
  obtain ⟨u, rfl⟩ := torchInverse_iff.1 h3
  rw [← e]
  refine ⟨u, h5.symm, ?_⟩
  have z0 : zeroSmall 0 = 0 := by simp [zeroSmall]
  rw [← h6, Matrix.fromBlocks_map, Matrix.map_zero _ z0, e]
  rfl

lemma smoothM_blocks {A : E → Matrix (Fin n) (Fin n) ℂ} (hA : SmoothM k x0 A) : SmoothM k x0 fun x => fromBlocks (A x) 0 0 (A x) := by
  rintro (i | i) (j | j)
  · exact hA i j
  · exact contDiffAt_const
  · exact contDiffAt_const
  · exact hA i j

lemma smooth_lab_phase {Q : E → Matrix (Fin n ⊕ Fin n) (Fin n ⊕ Fin n) ℂ} (hQ : SmoothM k x0 Q) {d : E → ℝ} (hd : ContDiffAt ℝ k d x0) :
    SmoothM k x0 fun x => NormedSpace.exp ((Complex.I * (d x : ℂ)) • Q x) :=
  smooth_expm (smoothM_smul (contDiffAt_const.mul (smooth_ofReal hd)) hQ)

lemma lab_phase {L : LayerData (Fin n ⊕ Fin n)} (h : IsUnit L.phi.det) :
    L.phi * diagonal L.phase * L.phi⁻¹ = NormedSpace.exp ((Complex.I * (L.d : ℂ)) • (L.phi * diagonal L.q * L.phi⁻¹)) := by
  rw [show L.phase = fun m => Complex.exp (Complex.I * L.q m * L.d) from rfl, expm_conj h, ← Matrix.smul_mul, ← Matrix.mul_smul, ← Matrix.diagonal_smul]
  congr 4
  funext m
  rw [Pi.smul_apply, smul_eq_mul]; ring

lemma slit_of_im {z : ℂ} (h1 : 0 < (branchQ (csqrt z)).im) : -z ∈ Complex.slitPlane := off_slit fun t ht h => by
  have h2 := branchQ_sq (csqrt z)
  rw [csqrt_sq, h] at h2
  rw [h] at h1
  have h3 := congrArg Complex.im h2
  rw [Complex.ofReal_im, sq, Complex.mul_im] at h3
  have h4 : (branchQ (csqrt (t : ℂ))).re = 0 := by
    have : (branchQ (csqrt (t : ℂ))).im * (branchQ (csqrt (t : ℂ))).re = 0 := by linarith
    exact (mul_eq_zero.1 this).resolve_left h1.ne'
  have h5 := congrArg Complex.re h2
  rw [Complex.ofReal_re, sq, Complex.mul_re, h4] at h5
  nlinarith [mul_pos h1 h1]

/-- around a design, all the layers that the solver may hold agree up to the choice of eigenvectors, and depend smoothly on the parameters -/
lemma slab_near {F : E → Slab Nx Ny} (hF : SmoothSlab k x0 G F) {L0 : LayerData (Fin n ⊕ Fin n)} (hB : Built ω kx ky G (F x0) L0)
    (hq : ∀ m, 0 < (L0.q m).im) :
    ∃ A : E → Lab (Fin n ⊕ Fin n), A x0 = L0.lab ∧ SmoothLab k x0 A ∧
      ∀ᶠ x in 𝓝 x0, ∀ L, Built ω kx ky G (F x) L → L.lab = A x ∧ IsUnit L.phi.det := by
  cases hF with
  | uniform ε d hε hd =>
    cases hB with
    | uniform _ _ h0 =>
      have hz : ∀ i, -(ε x0 * ω ^ 2 - kx i ^ 2 - ky i ^ 2) ∈ Complex.slitPlane := fun i => slit_of_im (hq (.inl i))
      have hs := smooth_uniform (ω := ω) (kx := kx) (ky := ky) hε hd h0 hz
      have key : ∀ x, (uniformLayer ω kx ky (ε x) (d x)).lab =
          ⟨diagonal (uniformLayer ω kx ky (ε x) (d x)).q, (uniformLayer ω kx ky (ε x) (d x)).kp, diagonal (uniformLayer ω kx ky (ε x) (d x)).phase⟩ := by
        intro x
        simp [LayerData.lab, uniformLayer]
      refine ⟨fun x => (uniformLayer ω kx ky (ε x) (d x)).lab, rfl, ?_, .of_forall fun x L hL => ?_⟩
      · simp only [key]
        exact ⟨smoothM_diagonal hs.q, hs.kp, smoothM_diagonal (smooth_phase hs)⟩
      · cases hL
        exact ⟨rfl, by simp [uniformLayer]⟩
  | patterned s d hs hd hf =>
    cases hB with
    | patterned _ _ epinv ep2 h lam phi he hphi =>
      obtain ⟨u, e1, e2⟩ := epsilonFft_matrices h
      set C : E → Matrix (Fin n) (Fin n) ℂ := fun x => Matrix.of fun i j => fourierCoeff (s x) (G i - G j) with hC
      set Z : E → Matrix (Fin n) (Fin n) ℂ := fun x => Matrix.of fun i j => zeroSmall (fourierCoeff (s x) (G i - G j)) with hZ
      have sC : SmoothM k x0 C := fun i j => smooth_fourier hs _
      have sZ : SmoothM k x0 Z := fun i j => smooth_filter (smooth_fourier hs _) (hf i j)
      have sI : SmoothM k x0 fun x => (C x)⁻¹ := smoothM_inv sC u.ne_zero
      have sK : SmoothM k x0 fun x => kpPatterned ω (C x)⁻¹ kx ky :=
        smoothM_sub (smoothM_const _) (smoothM_mul (smoothM_mul (smoothM_const _) sI) (smoothM_const _))
      have sM : SmoothM k x0 fun x => eigenMat (fromBlocks (Z x) 0 0 (Z x)) (kpPatterned ω (C x)⁻¹ kx ky) kx ky :=
        smoothM_sub (smoothM_mul (smoothM_blocks sZ) sK) (smoothM_const _)
      have he' : eigenMat (fromBlocks (Z x0) 0 0 (Z x0)) (kpPatterned ω (C x0)⁻¹ kx ky) kx ky * phi =
          phi * diagonal fun m => (patternedLayer ω kx ky epinv lam phi (d x0)).q m ^ 2 := by
        simp only [patternedLayer, branchQ_sq, csqrt_sq]
        rw [e1, e2] at he
        exact he
      obtain ⟨Q, sQ, nQ⟩ := root_near sM hphi hq he'
      have key : ∀ᶠ x in 𝓝 x0, ∀ L, Built ω kx ky G (.patterned (s x) (d x)) L →
          L.lab = ⟨Q x, kpPatterned ω (C x)⁻¹ kx ky, NormedSpace.exp ((Complex.I * (d x : ℂ)) • Q x)⟩ ∧ IsUnit L.phi.det := by
        filter_upwards [nQ] with x hx L hL
        cases hL with
        | patterned _ _ epinv' ep2' h' lam' phi' he' hphi' =>
          obtain ⟨-, e1', e2'⟩ := epsilonFft_matrices h'
          have eQ := hx phi' (patternedLayer ω kx ky epinv' lam' phi' (d x)).q hphi' (fun m => branchQ_im _) (by
            simp only [patternedLayer, branchQ_sq, csqrt_sq]
            rw [e1', e2'] at he'
            exact he')
          refine ⟨?_, hphi'⟩
          rw [LayerData.lab, lab_phase hphi', show (patternedLayer ω kx ky epinv' lam' phi' (d x)).phi = phi' from rfl, eQ,
            show (patternedLayer ω kx ky epinv' lam' phi' (d x)).kp = kpPatterned ω epinv' kx ky from rfl, e1']
          rfl
      refine ⟨fun x => ⟨Q x, kpPatterned ω (C x)⁻¹ kx ky, NormedSpace.exp ((Complex.I * (d x : ℂ)) • Q x)⟩, ?_, ⟨sQ, sK, smooth_lab_phase sQ hd⟩, key⟩
      exact ((key.self_of_nhds _ (.patterned _ _ epinv ep2 h lam phi he hphi)).1).symm

lemma slabs_near {Fs : List (E → Slab Nx Ny)} (hF : ∀ F ∈ Fs, SmoothSlab k x0 G F) {m0 : List (LayerData (Fin n ⊕ Fin n))}
    (hB : List.Forall₂ (Built ω kx ky G) (Fs.map fun F => F x0) m0) (hq : ∀ M ∈ m0, ∀ m, 0 < (M.q m).im) :
    ∃ As : List (E → Lab (Fin n ⊕ Fin n)), (As.map fun A => A x0) = m0.map LayerData.lab ∧ (∀ A ∈ As, SmoothLab k x0 A) ∧
      ∀ᶠ x in 𝓝 x0, ∀ m, List.Forall₂ (Built ω kx ky G) (Fs.map fun F => F x) m →
        m.map LayerData.lab = (As.map fun A => A x) ∧ ∀ M ∈ m, IsUnit M.phi.det := by
  induction Fs generalizing m0 with
  | nil =>
    cases hB
    refine ⟨[], rfl, by simp, .of_forall fun x m hm => ?_⟩
    cases hm
    simp
  | cons F Fs ih =>
    cases hB with
    | cons h1 h2 =>
      rename_i L0 m0
      obtain ⟨A, a1, a2, a3⟩ := slab_near (hF F (by simp)) h1 (hq L0 (by simp))
      obtain ⟨As, b1, b2, b3⟩ := ih (fun F hF' => hF F (List.mem_cons_of_mem _ hF')) h2 (fun M hM => hq M (List.mem_cons_of_mem _ hM))
      refine ⟨A :: As, by simp [a1, b1], fun B hB => ?_, ?_⟩
      · rcases List.mem_cons.1 hB with rfl | hB
        · exact a2
        · exact b2 B hB
      · filter_upwards [a3, b3] with x hx1 hx2 m hm
        cases hm with
        | cons h3 h4 =>
          rename_i L m
          obtain ⟨c1, c2⟩ := hx1 L h3
          obtain ⟨d1, d2⟩ := hx2 m h4
          refine ⟨by simp [c1, d1], fun M hM => ?_⟩
          rcases List.mem_cons.1 hM with rfl | hM
          · exact c2
          · exact d2 M hM

lemma toLab_one (S : SMat (Fin n ⊕ Fin n)) : S.toLab 1 1 = S := by
  simp [SMat.toLab]

/-- C122 for patterned layers: take a structure of homogeneous and patterned layers whose permittivities, pixels and thicknesses depend smoothly
(`k` times continuously differentiable, for any `k`) on parameters. At a design for which the solver answers, at which every wave decays
(positive imaginary part of all wave numbers) and no Fourier coefficient lies on the edge of the filter, reflectance and transmittance are
`k` times continuously differentiable; around it the solver answers, with these values, whatever eigenvectors the library returns. Nothing is
assumed of the eigenvalues: the answers are smooth also where eigenvalues coincide and the eigenvectors are not. -/
theorem C122_patterned (k : WithTop ℕ∞) (x0 : E) (ω : ℂ) (kx ky : Fin n → ℂ) (G : Fin n → ℤ × ℤ) (ε0 εN : E → ℂ) (d0 dN : E → ℝ)
    (h0 : ContDiffAt ℝ k ε0 x0 ∧ ContDiffAt ℝ k d0 x0 ∧ ε0 x0 ≠ 0) (hN : ContDiffAt ℝ k εN x0 ∧ ContDiffAt ℝ k dN x0 ∧ εN x0 ≠ 0)
    (slabs : List (E → Slab Nx Ny)) (hF : ∀ F ∈ slabs, SmoothSlab k x0 G F) (m0 : List (LayerData (Fin n ⊕ Fin n)))
    (hm0 : List.Forall₂ (Built ω kx ky G) (slabs.map fun F => F x0) m0)
    (hq : ∀ M ∈ uniformLayer ω kx ky (ε0 x0) (d0 x0) :: m0 ++ [uniformLayer ω kx ky (εN x0) (dN x0)], ∀ m, 0 < (M.q m).im)
    (norm : ℝ) (a0 bN : Fin n ⊕ Fin n → ℂ) (r : ℝ × ℝ)
    (h : rtForward ω norm (uniformLayer ω kx ky (ε0 x0) (d0 x0) :: m0 ++ [uniformLayer ω kx ky (εN x0) (dN x0)]) a0 bN = .ok r) :
    ∃ R T : E → ℝ, (R x0, T x0) = r ∧ ContDiffAt ℝ k R x0 ∧ ContDiffAt ℝ k T x0 ∧
      ∀ᶠ x in 𝓝 x0, ∀ m, List.Forall₂ (Built ω kx ky G) (slabs.map fun F => F x) m →
        rtForward ω norm (uniformLayer ω kx ky (ε0 x) (d0 x) :: m ++ [uniformLayer ω kx ky (εN x) (dN x)]) a0 bN = .ok (R x, T x) := by
  -- the whole structure as a list of slabs
  set L0 : E → LayerData (Fin n ⊕ Fin n) := fun x => uniformLayer ω kx ky (ε0 x) (d0 x) with hL0
  set LN : E → LayerData (Fin n ⊕ Fin n) := fun x => uniformLayer ω kx ky (εN x) (dN x) with hLN
  set F0 : E → Slab Nx Ny := fun x => .uniform (ε0 x) (d0 x) with hF0
  set FN : E → Slab Nx Ny := fun x => .uniform (εN x) (dN x) with hFN
  have built : ∀ x, ε0 x ≠ 0 → εN x ≠ 0 → ∀ m, List.Forall₂ (Built ω kx ky G) (slabs.map fun F => F x) m →
      List.Forall₂ (Built ω kx ky G) ((slabs ++ [FN]).map fun F => F x) (m ++ [LN x]) := by
    intro x _ h2 m hm
    rw [List.map_append]
    exact List.rel_append hm (.cons (.uniform _ _ h2) .nil)
  have b0 : ∀ x, ε0 x ≠ 0 → Built ω kx ky G (F0 x) (L0 x) := fun x h => .uniform _ _ h
  obtain ⟨A, a1, a2, a3⟩ := slab_near (k := k) (G := G) (F := F0) (.uniform _ _ h0.1 h0.2.1) (b0 x0 h0.2.2) (hq (L0 x0) (by simp [hL0]))
  obtain ⟨As, b1, b2, b3⟩ := slabs_near (k := k) (Fs := slabs ++ [FN]) (fun F hF' => by
      rcases List.mem_append.1 hF' with h | h
      · exact hF F h
      · rw [List.mem_singleton.1 h]; exact .uniform _ _ hN.1 hN.2.1) (built x0 h0.2.2 hN.2.2 m0 hm0) (fun M hM => hq M (by
        rw [List.cons_append]; exact List.mem_cons_of_mem _ hM))
  have hunit : ∀ M ∈ L0 x0 :: (m0 ++ [LN x0]), IsUnit M.phi.det := by
    intro M hM
    rcases List.mem_cons.1 hM with rfl | hM
    · exact (a3.self_of_nhds _ (b0 x0 h0.2.2)).2
    · exact (b3.self_of_nhds _ (built x0 h0.2.2 hN.2.2 m0 hm0)).2 M hM
  have hloop : ∀ (x : E) (m : List (LayerData (Fin n ⊕ Fin n))), getSMatrix (L0 x :: (m ++ [LN x])) 0 ((L0 x :: (m ++ [LN x])).length - 1) =
      sLoop SMat.id (L0 x) (m ++ [LN x]) := by
    intro x m
    rw [getSMatrix_eq _ _ _ (Nat.zero_le _) (by simp)]
    simp only [List.length_cons, Nat.add_sub_cancel, Nat.sub_zero, List.getElem_cons_zero, Nat.zero_add, List.drop_succ_cons, List.drop_zero]
    rw [List.take_of_length_le (le_refl _)]
  have hlast : ∀ (x : E) (m : List (LayerData (Fin n ⊕ Fin n))) (hne : L0 x :: (m ++ [LN x]) ≠ []), (L0 x :: (m ++ [LN x])).getLast hne = LN x := by
    intro x m hne
    rw [List.getLast_cons (by simp), List.getLast_append_singleton]
  unfold rtForward at h
  obtain ⟨u, hu, h⟩ := bind_ok.1 h
  rw [List.cons_append] at hu h
  unfold solveExterior at hu
  rw [hloop] at hu
  obtain ⟨S0, hS0, hu⟩ := bind_ok.1 hu
  have hlab := labLoop_of hunit (φ0 := 1) (by simp) hS0
  have e1 : ∀ x, (L0 x).phi = 1 := fun _ => rfl
  have eN : ∀ x, (LN x).phi = 1 := fun _ => rfl
  rw [hlast, eN, toLab_one, e1, toLab_one, ← b1, ← a1] at hlab
  obtain ⟨S, s0, sS, nS⟩ := labLoop_near (S := fun _ : E => (SMat.id : SMat (Fin n ⊕ Fin n)))
    ⟨smoothM_const _, smoothM_const _, smoothM_const _, smoothM_const _⟩ (A := A) (rest := As) (fun B hB => by
      rcases List.mem_cons.1 hB with rfl | hB
      · exact a2
      · exact b2 B hB) hlab
  subst s0
  -- amplitudes
  have sv : ∀ v : Fin n ⊕ Fin n → ℂ, SmoothV k x0 fun _ : E => v := fun v m => contDiffAt_const
  set aN : E → Fin n ⊕ Fin n → ℂ := fun x => (S x).s11 *ᵥ a0 + (S x).s12 *ᵥ bN with haN
  set b0' : E → Fin n ⊕ Fin n → ℂ := fun x => (S x).s21 *ᵥ a0 + (S x).s22 *ᵥ bN with hb0
  have saN : SmoothV k x0 aN := fun m => (smoothV_mulVec sS.s11 (sv a0) m).add (smoothV_mulVec sS.s12 (sv bN) m)
  have sb0 : SmoothV k x0 b0' := fun m => (smoothV_mulVec sS.s21 (sv a0) m).add (smoothV_mulVec sS.s22 (sv bN) m)
  -- powers in the outer layers
  have slit : ∀ {ε : E → ℂ} {d : E → ℝ}, (∀ m, 0 < ((uniformLayer ω kx ky (ε x0) (d x0)).q m).im) →
      ∀ i, -(ε x0 * ω ^ 2 - kx i ^ 2 - ky i ^ 2) ∈ Complex.slitPlane := by
    intro ε d hp i
    have h1 : 0 < (branchQ (csqrt (ε x0 * ω ^ 2 - kx i ^ 2 - ky i ^ 2))).im := hp (.inl i)
    exact slit_of_im h1
  have q0 := hq (L0 x0) (by simp [hL0])
  have qN := hq (LN x0) (by simp [hLN])
  have sL0 : SmoothLayer k x0 L0 := smooth_uniform h0.1 h0.2.1 h0.2.2 (slit q0)
  have sLN : SmoothLayer k x0 LN := smooth_uniform hN.1 hN.2.1 hN.2.2 (slit qN)
  have ne : ∀ {q : ℂ}, 0 < q.im → q ≠ 0 := fun h h' => by rw [h'] at h; simp at h
  have f1 := smooth_flux (ω := ω) sL0 (fun m => ne (q0 m)) (sv a0) sb0
  have f2 := smooth_flux (ω := ω) sLN (fun m => ne (qN m)) saN (sv bN)
  have hgl : ∀ (x : E) (m : List (LayerData (Fin n ⊕ Fin n))), (L0 x :: (m ++ [LN x])).getLast? = some (LN x) := by
    intro x m
    rw [List.getLast?_eq_some_getLast (List.cons_ne_nil _ _), hlast]
  refine ⟨fun x => (-(zPoyntingFlux ω (L0 x) a0 (b0' x)).2).re * norm, fun x => (zPoyntingFlux ω (LN x) (aN x) bN).1.re * norm, ?_, ?_, ?_, ?_⟩
  · injection hu with hu
    subst hu
    rw [hgl] at h
    injection h with h
  · exact (smooth_re (ContDiffAt.sum fun i _ => f1.2 i).neg).mul contDiffAt_const
  · exact (smooth_re (ContDiffAt.sum fun i _ => f2.1 i)).mul contDiffAt_const
  · filter_upwards [a3, b3, nS, h0.1.continuousAt.eventually_ne h0.2.2, hN.1.continuousAt.eventually_ne hN.2.2] with x hx1 hx2 hx3 hx4 hx5 m hm
    obtain ⟨c1, c2⟩ := hx1 _ (b0 x hx4)
    obtain ⟨c3, c4⟩ := hx2 _ (built x hx4 hx5 m hm)
    rw [← c1, ← c3] at hx3
    have hx3' : labLoop ((SMat.id : SMat (Fin n ⊕ Fin n)).toLab 1 (L0 x).phi) (L0 x).lab ((m ++ [LN x]).map LayerData.lab) = .ok (S x) := by
      rw [e1, toLab_one]; exact hx3
    obtain ⟨r', e2, e3⟩ := labLoop_ok (fun M hM => by
      rcases List.mem_cons.1 hM with rfl | hM
      · exact c2
      · exact c4 M hM) (by simp) hx3'
    rw [hlast, eN, toLab_one] at e3
    subst e3
    rw [List.cons_append]
    unfold rtForward solveExterior
    rw [hloop, e2, ok_bind]
    rw [show (pure ((S x).s11 *ᵥ a0 + (S x).s12 *ᵥ bN, (S x).s21 *ᵥ a0 + (S x).s22 *ᵥ bN) : Except PyErr _) = .ok (aN x, b0' x) from rfl, ok_bind, hgl]
    rfl

/-! ## damped frequencies -/

/-- every wave of a passive layer decays at a damped frequency -/
lemma solverLayer_decays (hω : 0 < ω.im) (hx : ∀ i, (kx i).im = 0) (hy : ∀ i, (ky i).im = 0) {L : LayerData (Fin n ⊕ Fin n)}
    (hL : SolverLayer ω kx ky G (fun ε => 0 ≤ (ω * ε).im) L) (hphi : IsUnit L.phi.det) (m : Fin n ⊕ Fin n) : 0 < (L.q m).im := by
  have hω0 : ω ≠ 0 := by rintro rfl; simp at hω
  cases hL with
  | uniform ε d hd hε hP =>
    have h := fun i => damped_slit hω hε hP (hx i) (hy i)
    have key : ∀ i, 0 < (branchQ (csqrt (ε * ω ^ 2 - kx i ^ 2 - ky i ^ 2))).im := by
      intro i
      refine lt_of_le_of_ne (branchQ_im _) fun h0 => ?_
      have h2 := branchQ_sq (csqrt (ε * ω ^ 2 - kx i ^ 2 - ky i ^ 2))
      rw [csqrt_sq] at h2
      refine h i ((branchQ (csqrt (ε * ω ^ 2 - kx i ^ 2 - ky i ^ 2))).re ^ 2) (sq_nonneg _) ?_
      refine h2.symm.trans ?_
      have e : branchQ (csqrt (ε * ω ^ 2 - kx i ^ 2 - ky i ^ 2)) = ((branchQ (csqrt (ε * ω ^ 2 - kx i ^ 2 - ky i ^ 2))).re : ℂ) :=
        Complex.ext rfl (by rw [Complex.ofReal_im]; exact h0.symm)
      rw [Complex.ofReal_pow, ← e]
    rcases m with i | i <;> exact key i
  | patterned s hP epinv ep2 h hf lam phi he d hd =>
    obtain ⟨C, hC, hu, rfl, rfl⟩ := epsilonFft_spec h hf
    have key : ∀ x, 0 ≤ (ω * (star x ⬝ᵥ (C *ᵥ x))).im := by
      intro x
      obtain ⟨w, hw, e⟩ := conv_form s G C hC x
      rw [e]
      exact sum_im_nonneg hP hw
    have hp : PassiveMats ω (fromBlocks C 0 0 C) C⁻¹ := by
      refine ⟨hω.le, fun e => ?_, fun y => ?_⟩
      · rw [block_form, mul_add, Complex.add_im]
        exact add_nonneg (key _) (key _)
      · rw [inv_form_im hu]
        exact div_nonpos_of_nonpos_of_nonneg (by linarith [key (C⁻¹ *ᵥ y)]) (Complex.normSq_nonneg _)
    have hq : ∀ m, (patternedLayer ω kx ky C⁻¹ lam phi d).q m ≠ 0 := by
      refine q_ne_zero_damped hω hx hy hp ?_ hphi ?_
      · rw [Matrix.det_fromBlocks_zero₂₁]; exact hu.mul hu
      · simp only [patternedLayer, branchQ_sq, csqrt_sq]; exact he
    exact q_im_pos (patterned_maxwell hω0 hx hy he d hq) hp hω hphi (fun m => branchQ_im _) m

/-- A layer that does not amplify at the frequency, and on which the filter of the solver has no effect. -/
def Slab.Passive (ω : ℂ) (G : Fin n → ℤ × ℤ) : Slab Nx Ny → Prop
  | .uniform ε d => 0 ≤ (ω * ε).im ∧ 0 ≤ d
  | .patterned s d => (∀ a b, 0 ≤ (ω * s a b).im) ∧ 0 ≤ d ∧ ∀ i j, zeroSmall (fourierCoeff s (G i - G j)) = fourierCoeff s (G i - G j)

lemma passive_built {S : Slab Nx Ny} (hS : S.Passive ω G) {L : LayerData (Fin n ⊕ Fin n)} (hB : Built ω kx ky G S L) :
    SolverLayer ω kx ky G (fun ε => 0 ≤ (ω * ε).im) L ∧ IsUnit L.phi.det := by
  cases hB with
  | uniform ε d hε => exact ⟨.uniform ε d hS.2 hε hS.1, by simp [uniformLayer]⟩
  | patterned s d epinv ep2 h lam phi he hphi =>
    refine ⟨.patterned s hS.1 epinv ep2 h (fun C hC => ?_) lam phi he d hS.2.1, hphi⟩
    have hr : Resolved Nx Ny G := by
      by_contra hn; rw [(C15_entries s G).2 hn] at hC; simp at hC
    obtain ⟨C', h7, h8⟩ := (C15_entries s G).1 hr
    rw [h7] at hC
    injection hC with hC
    subst hC
    ext i j
    rw [Matrix.map_apply, h8]
    exact hS.2.2 i j

/-- C122 at damped frequencies, as the driver uses: for every structure of passive homogeneous and patterned layers that the solver can set up,
with real transverse wave numbers (normal incidence), reflectance and transmittance exist and are smooth functions of the design around it.
Excluded: designs with a Fourier coefficient in or at the edge of the region that the filter drops (see `C122_filter_false`). -/
theorem C122_damped (k : WithTop ℕ∞) (x0 : E) (ω : ℂ) (hω : 0 < ω.im) (kx ky : Fin n → ℂ) (hx : ∀ i, (kx i).im = 0) (hy : ∀ i, (ky i).im = 0)
    (G : Fin n → ℤ × ℤ) (ε0 εN : E → ℂ) (d0 dN : E → ℝ)
    (h0 : ContDiffAt ℝ k ε0 x0 ∧ ContDiffAt ℝ k d0 x0 ∧ ε0 x0 ≠ 0 ∧ 0 ≤ (ω * ε0 x0).im ∧ 0 ≤ d0 x0)
    (hN : ContDiffAt ℝ k εN x0 ∧ ContDiffAt ℝ k dN x0 ∧ εN x0 ≠ 0 ∧ 0 ≤ (ω * εN x0).im ∧ 0 ≤ dN x0)
    (slabs : List (E → Slab Nx Ny)) (hF : ∀ F ∈ slabs, SmoothSlab k x0 G F) (hP : ∀ F ∈ slabs, (F x0).Passive ω G)
    (m0 : List (LayerData (Fin n ⊕ Fin n))) (hm0 : List.Forall₂ (Built ω kx ky G) (slabs.map fun F => F x0) m0)
    (norm : ℝ) (a0 bN : Fin n ⊕ Fin n → ℂ) :
    ∃ R T : E → ℝ, ContDiffAt ℝ k R x0 ∧ ContDiffAt ℝ k T x0 ∧
      ∀ᶠ x in 𝓝 x0, ∀ m, List.Forall₂ (Built ω kx ky G) (slabs.map fun F => F x) m →
        rtForward ω norm (uniformLayer ω kx ky (ε0 x) (d0 x) :: m ++ [uniformLayer ω kx ky (εN x) (dN x)]) a0 bN = .ok (R x, T x) := by
  have hmid : ∀ (Fs : List (E → Slab Nx Ny)) (m : List (LayerData (Fin n ⊕ Fin n))), (∀ F ∈ Fs, (F x0).Passive ω G) →
      List.Forall₂ (Built ω kx ky G) (Fs.map fun F => F x0) m → ∀ M ∈ m, SolverLayer ω kx ky G (fun ε => 0 ≤ (ω * ε).im) M ∧ IsUnit M.phi.det := by
    intro Fs
    induction Fs with
    | nil => intro m _ hm M hM; cases hm; simp at hM
    | cons F Fs ih =>
      intro m hp hm M hM
      cases hm with
      | cons h1 h2 =>
        rcases List.mem_cons.1 hM with rfl | hM
        · exact passive_built (hp F (by simp)) h1
        · exact ih _ (fun F hF => hp F (List.mem_cons_of_mem _ hF)) h2 M hM
  have hall : ∀ M ∈ uniformLayer ω kx ky (ε0 x0) (d0 x0) :: m0 ++ [uniformLayer ω kx ky (εN x0) (dN x0)],
      SolverLayer ω kx ky G (fun ε => 0 ≤ (ω * ε).im) M ∧ IsUnit M.phi.det := by
    intro M hM
    simp only [List.cons_append, List.mem_cons, List.mem_append, List.not_mem_nil, or_false] at hM
    rcases hM with rfl | hM | rfl
    · exact ⟨.uniform _ _ h0.2.2.2.2 h0.2.2.1 h0.2.2.2.1, by simp [uniformLayer]⟩
    · exact hmid slabs m0 hP hm0 M hM
    · exact ⟨.uniform _ _ hN.2.2.2.2 hN.2.2.1 hN.2.2.2.1, by simp [uniformLayer]⟩
  obtain ⟨R, T, h⟩ := C113_damped_partial ω hω kx ky hx hy G _ _ m0 hall norm a0 bN
  obtain ⟨R, T, -, hR, hT, hn⟩ := C122_patterned k x0 ω kx ky G ε0 εN d0 dN ⟨h0.1, h0.2.1, h0.2.2.1⟩ ⟨hN.1, hN.2.1, hN.2.2.1⟩ slabs hF m0 hm0
    (fun M hM m => solverLayer_decays hω hx hy (hall M hM).1 (hall M hM).2 m) norm a0 bN _ h
  exact ⟨R, T, hR, hT, hn⟩

end Nidn
