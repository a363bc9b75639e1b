/-
Properties C101 (amplitudes inside the structure), C103 (fields inside the structure), C104 (volume integrals), C105 (permittivity profiles),
C106 (truncation schemes), C109 (the incident wave).
-/
import Verif.Props.Orders
import Verif.Props.Lattice
import Mathlib.Analysis.SpecialFunctions.Integrals.Basic

set_option linter.unusedSectionVars false

namespace Nidn

open Matrix

variable {κ : Type} [Fintype κ] [DecidableEq κ]

/-! ## C101 -/

section C101

variable {ι : Type} [Fintype ι] [DecidableEq ι]

/-- C101, first layer: the amplitudes returned for a depth `z` are those of the solution of the whole stack, the forward wave carried from the
front face to `z`, the backward wave from the back face to `z`. Missing: layers in the middle, where the query fails. -/
theorem C101_front_partial (layers : List (LayerData ι)) (L : LayerData ι) (hL : layers[0]? = some L) (hq : ∀ M ∈ layers, ∀ m, M.q m ≠ 0)
    (z : ℝ) (a0 bN u v : ι → ℂ) (h : getAmplitudes layers 0 z a0 bN = .ok (u, v)) :
    ∃ b0 aN, StackSol layers a0 b0 aN bN ∧ ∀ m, u m = Complex.exp (Complex.I * L.q m * z) * a0 m ∧
      v m = Complex.exp (Complex.I * L.q m * (L.d - z)) * b0 m := by
  unfold getAmplitudes amplitudesNoTranslate at h
  rw [if_pos rfl] at h
  obtain ⟨ab, h1, h2⟩ := bind_ok.1 h
  obtain ⟨r, hr, h3⟩ := bind_ok.1 h1
  injection h3 with h3
  subst h3
  rw [hL] at h2
  simp only at h2
  injection h2 with h2
  injection h2 with h4 h5
  refine ⟨r.2, r.1, (C16_exterior layers hq a0 bN r.1 r.2 r hr).2 ⟨rfl, rfl⟩, fun m => ?_⟩
  rw [← h4, ← h5]
  exact ⟨mul_comm _ _, mul_comm _ _⟩

/-- C101, last layer of at least two. -/
theorem C101_back_partial (layers : List (LayerData ι)) (h2 : 2 ≤ layers.length) (L : LayerData ι) (hL : layers[layers.length - 1]? = some L)
    (hq : ∀ M ∈ layers, ∀ m, M.q m ≠ 0) (z : ℝ) (a0 bN u v : ι → ℂ) (h : getAmplitudes layers (layers.length - 1) z a0 bN = .ok (u, v)) :
    ∃ b0 aN, StackSol layers a0 b0 aN bN ∧ ∀ m, u m = Complex.exp (Complex.I * L.q m * z) * aN m ∧
      v m = Complex.exp (Complex.I * L.q m * (L.d - z)) * bN m := by
  unfold getAmplitudes amplitudesNoTranslate at h
  rw [if_neg (by omega), if_pos rfl] at h
  obtain ⟨ab, h1, h2⟩ := bind_ok.1 h
  obtain ⟨r, hr, h3⟩ := bind_ok.1 h1
  injection h3 with h3
  subst h3
  rw [hL] at h2
  simp only at h2
  injection h2 with h2
  injection h2 with h4 h5
  refine ⟨r.2, r.1, (C16_exterior layers hq a0 bN r.1 r.2 r hr).2 ⟨rfl, rfl⟩, fun m => ?_⟩
  rw [← h4, ← h5]
  exact ⟨mul_comm _ _, mul_comm _ _⟩

/-- C101 is false: for every layer that is neither the first nor the last one the query raises AttributeError (whenever the structure can be
solved at all). -/
theorem C101_inner_false (layers : List (LayerData ι)) (k : ℕ) (h0 : 0 < k) (hk : k < layers.length - 1) (z : ℝ) (a0 bN : ι → ℂ) (A B : SMat ι)
    (hA : getSMatrix layers 0 k = .ok A) (hB : getSMatrix layers k (layers.length - 1) = .ok B) :
    getAmplitudes layers k z a0 bN = .error .attributeError := by
  unfold getAmplitudes amplitudesNoTranslate
  rw [if_neg (by omega), if_neg (by omega), C17_interior_false layers k a0 bN A B hA hB, error_bind]

/-- C101: in a structure of two layers the amplitudes returned for the two sides of the interface belong to the same tangential electric and
magnetic fields. -/
theorem C101_interface_partial (L L' : LayerData ι) (hq : ∀ M ∈ [L, L'], ∀ m, M.q m ≠ 0) (a0 bN u v u' v' : ι → ℂ)
    (h : getAmplitudes [L, L'] 0 L.d a0 bN = .ok (u, v)) (h' : getAmplitudes [L, L'] 1 0 a0 bN = .ok (u', v')) :
    L.hTan u v = L'.hTan u' v' ∧ L.eTan u v = L'.eTan u' v' := by
  obtain ⟨b0, aN, hs, huv⟩ := C101_front_partial [L, L'] L rfl hq L.d a0 bN u v h
  obtain ⟨b0', aN', hs', huv'⟩ := C101_back_partial [L, L'] (by simp) L' rfl hq 0 a0 bN u' v' h'
  obtain ⟨a, b, hc, rfl, rfl⟩ := hs
  obtain ⟨a1, b1, hc', rfl, rfl⟩ := hs'
  unfold getAmplitudes amplitudesNoTranslate at h
  rw [if_pos rfl] at h
  obtain ⟨ab, h1, -⟩ := bind_ok.1 h
  obtain ⟨r, hr, -⟩ := bind_ok.1 h1
  obtain ⟨e1, e2⟩ := (C16_exterior [L, L'] hq a0 _ _ _ r hr).1 ⟨aN, _, hc, rfl, rfl⟩
  obtain ⟨e3, e4⟩ := (C16_exterior [L, L'] hq a0 _ _ _ r hr).1 ⟨aN', _, hc', rfl, rfl⟩
  have hu : u = L.through a0 := by ext m; rw [(huv m).1]; rfl
  have hv : v = b0 := by ext m; rw [(huv m).2, sub_self, mul_zero, Complex.exp_zero, one_mul]
  have hu' : u' = aN' := by ext m; rw [(huv' m).1, Complex.ofReal_zero, mul_zero, Complex.exp_zero, one_mul]
  have hv' : v' = L'.through bN := by ext m; rw [(huv' m).2, Complex.ofReal_zero, sub_zero]; rfl
  rw [hu, hv, hu', hv', e3, ← e1]
  exact ⟨hc.h, hc.e⟩

end C101

lemma flux_const {ω : ℂ} {kx ky : κ → ℂ} {ep2 : Matrix (κ ⊕ κ) (κ ⊕ κ) ℂ} {epinv : Matrix κ κ ℂ} {L : LayerData (κ ⊕ κ)}
    (hL : MaxwellLayer ω kx ky ep2 epinv L) (hp : LosslessMats ω ep2 epinv) (a b : κ ⊕ κ → ℂ) (z z' : ℝ) :
    layerFlux ω L (fwdAt L a z) (bwdAt L b z) = layerFlux ω L (fwdAt L a z') (bwdAt L b z') := by
  refine is_const_of_deriv_eq_zero (f := fun z => layerFlux ω L (fwdAt L a z) (bwdAt L b z)) ?_ ?_ z z'
  · intro z
    obtain ⟨_, _, _, _, h⟩ := flux_hasDerivAt hL a b z
    exact h.differentiableAt
  · intro z
    obtain ⟨e, h, y, t, h'⟩ := flux_hasDerivAt hL a b z
    rw [h'.deriv, hp.ep2 e, hp.epinv y, hp.im]
    ring

/-- C101: behind a structure that ends in a lossless medium the power computed from the amplitudes is the same at every depth, and is the
transmittance that was reported (before normalisation). -/
theorem C101_power_partial (ω εN dN norm : ℝ) (hω : ω ≠ 0) (hε : εN ≠ 0) (kx ky : κ → ℂ) (hx : ∀ i, (kx i).im = 0) (hy : ∀ i, (ky i).im = 0)
    (L0 : LayerData (κ ⊕ κ)) (mids : List (LayerData (κ ⊕ κ))) (layers : List (LayerData (κ ⊕ κ)))
    (hl : layers = L0 :: mids ++ [uniformLayer ω kx ky εN dN]) (hq : ∀ M ∈ layers, ∀ m, M.q m ≠ 0) (a0 u v : κ ⊕ κ → ℂ) (z : ℝ)
    (h : getAmplitudes layers (layers.length - 1) z a0 0 = .ok (u, v)) (R T : ℝ) (hrt : rtForward ω norm layers a0 0 = .ok (R, T)) :
    ((zPoyntingFlux ω (uniformLayer ω kx ky εN dN) u v).1 + (zPoyntingFlux ω (uniformLayer ω kx ky εN dN) u v).2).re * norm = T := by
  have hwc : (ω : ℂ) ≠ 0 := by exact_mod_cast hω
  have hec : (εN : ℂ) ≠ 0 := by exact_mod_cast hε
  have hlast : layers[layers.length - 1]? = some (uniformLayer (ω : ℂ) kx ky εN dN) := by
    rw [← List.getLast?_eq_getElem?, hl]; exact List.getLast?_append_of_ne_nil _ (by simp)
  obtain ⟨b0, aN, hs, huv⟩ := C101_back_partial layers (by rw [hl]; simp) _ hlast hq z a0 0 u v h
  unfold rtForward at hrt
  obtain ⟨r, hr, h2⟩ := bind_ok.1 hrt
  obtain ⟨e1, -⟩ := (C16_exterior layers hq a0 0 aN b0 r hr).1 hs
  have e2 : layers.getLast? = some (uniformLayer (ω : ℂ) kx ky εN dN) := by rw [List.getLast?_eq_getElem?]; exact hlast
  have e3 : layers.head? = some L0 := by rw [hl]; rfl
  rw [e2, e3] at h2
  simp only at h2
  injection h2 with h2
  injection h2 with h3 h4
  have hu : u = fwdAt (uniformLayer ω kx ky εN dN) aN z := by
    ext m; rw [(huv m).1, fwdAt]
  have hv : v = 0 := by ext m; rw [(huv m).2]; simp
  have hb : ∀ z, bwdAt (uniformLayer (ω : ℂ) kx ky εN dN) (0 : κ ⊕ κ → ℂ) z = 0 := by intro z; ext m; simp [bwdAt]
  have hc := flux_const (uniform_maxwell hwc hx hy hec dN (hq _ (by rw [hl]; simp)))
    (uniform_lossless (Complex.ofReal_im ω) (Complex.ofReal_im εN)) aN 0 z 0
  rw [hb, hb, fwdAt_zero] at hc
  rw [zflux_eq_layerFlux, hu, hv, hc, ← h4, ← e1]
  have hz := (C23_one_way (ω : ℂ) (uniformLayer ω kx ky εN dN) aN 0).2.1
  have := zflux_eq_layerFlux (ω : ℂ) (uniformLayer ω kx ky εN dN) aN 0
  rw [hz, add_zero] at this
  rw [this]

/-- Both ends of a vacuum-glass interface can be queried. -/
example : (∃ uv, getAmplitudes [uniformLayer ((1 : ℝ) : ℂ) (kxOf (1 : ℝ) 0 0 1 (1, 0) (0, 1) oneOrder) (kyOf (1 : ℝ) 0 0 1 (1, 0) (0, 1) oneOrder) ((1 : ℝ) : ℂ) 1,
      uniformLayer ((1 : ℝ) : ℂ) (kxOf (1 : ℝ) 0 0 1 (1, 0) (0, 1) oneOrder) (kyOf (1 : ℝ) 0 0 1 (1, 0) (0, 1) oneOrder) ((4 : ℝ) : ℂ) 1] 0 1
      (planewave 0 0 1 0 0) 0 = .ok uv) := by
  obtain ⟨S, hS⟩ := interface_ok (ω := ((1 : ℝ) : ℂ)) (by rw [Complex.ofReal_re]; norm_num) (by rw [Complex.ofReal_im]) one_pos
    (by norm_num : (0 : ℝ) < 4) (kxOf_real 1 0 0 1 (1, 0) (0, 1) oneOrder) (kyOf_real 1 0 0 1 (1, 0) (0, 1) oneOrder) 1 1
    (oneOrder_q one_pos one_pos 1) (oneOrder_q one_pos (by norm_num) 1)
  rw [getAmplitudes, amplitudesNoTranslate, if_pos rfl, solveExterior]
  simp only [List.length_cons, List.length_nil]
  rw [hS, ok_bind]
  exact ⟨_, rfl⟩

/-! ## C103 -/

/-- C103 is false: none of the three field queries ever returns, for any structure, layer, depth and excitation. -/
theorem C103_queries_false (ω : ℂ) (kx ky : κ → ℂ) (kinds : List (LayerKind κ)) (layers : List (LayerData (κ ⊕ κ))) (k : ℕ) (zs : List ℝ)
    (nxy : Option (ℕ × ℕ)) (a0 bN : κ ⊕ κ → ℂ) :
    (∀ F, solveFieldFourier ω kx ky kinds layers k zs a0 bN ≠ .ok F) ∧ solveFieldOnGrid k zs nxy = .error .attributeError ∧
    (∀ T, stressTensor ω kx ky kinds layers k a0 bN ≠ .ok T) := by
  have h1 : ∀ zs F, solveFieldFourier ω kx ky kinds layers k zs a0 bN ≠ .ok F := by
    intro zs F h
    unfold solveFieldFourier solveFieldFourierWith at h
    obtain ⟨ab, -, h⟩ := bind_ok.1 h
    rw [error_bind] at h
    cases h
  refine ⟨h1 zs, rfl, fun T h => ?_⟩
  unfold stressTensor at h
  obtain ⟨F, hF, -⟩ := bind_ok.1 h
  exact h1 [0] F hF

/-- C103: the failure is an AttributeError in every layer of every structure that can be solved. -/
theorem C103_error_false (ω : ℂ) (kx ky : κ → ℂ) (kinds : List (LayerKind κ)) (layers : List (LayerData (κ ⊕ κ))) (k : ℕ) (zs : List ℝ)
    (a0 bN : κ ⊕ κ → ℂ) (A B S : SMat (κ ⊕ κ)) (hA : getSMatrix layers 0 k = .ok A) (hB : getSMatrix layers k (layers.length - 1) = .ok B)
    (hS : getSMatrix layers 0 (layers.length - 1) = .ok S) :
    solveFieldFourier ω kx ky kinds layers k zs a0 bN = .error .attributeError ∧
    stressTensor ω kx ky kinds layers k a0 bN = .error .attributeError := by
  have h1 : ∀ zs, solveFieldFourier ω kx ky kinds layers k zs a0 bN = .error .attributeError := by
    intro zs
    unfold solveFieldFourier solveFieldFourierWith amplitudesNoTranslate
    by_cases h0 : k = 0
    · rw [if_pos h0, solveExterior, hS, ok_bind]; rfl
    · by_cases hN : k = layers.length - 1
      · rw [if_neg h0, if_pos hN, solveExterior, hS, ok_bind]; rfl
      · rw [if_neg h0, if_neg hN, C17_interior_false layers k a0 bN A B hA hB, error_bind]
  refine ⟨h1 zs, ?_⟩
  rw [stressTensor, h1, error_bind]

/-- C103, what is right about it: if the missing library function existed, the query on the uniform first layer would return, depth by depth, a
field that solves Maxwell's equations in that layer and belongs to the solution of the whole structure. Missing: the code as written fails;
layers in the middle would still fail. -/
theorem C103_front_partial (ω : ℂ) (hω : ω ≠ 0) (kx ky : κ → ℂ) (ε : ℂ) (hε : ε ≠ 0) (d : ℝ) (hq : ∀ i, kx i ^ 2 + ky i ^ 2 ≠ ε * ω ^ 2)
    (kinds : List (LayerKind κ)) (rest : List (LayerData (κ ⊕ κ))) (hr : ∀ M ∈ rest, ∀ m, M.q m ≠ 0) (zs : List ℝ) (a0 bN : κ ⊕ κ → ℂ)
    (Fs : List (FieldVec κ))
    (h : solveFieldFourierWith (.ok ()) ω kx ky (.uniform ε :: kinds) (uniformLayer ω kx ky ε d :: rest) 0 zs a0 bN = .ok Fs) :
    ∃ (F : ℝ → FieldVec κ) (b0 aN : κ ⊕ κ → ℂ), Fs = zs.map F ∧
      SolvesMaxwell ω kx ky (ε • (1 : Matrix κ κ ℂ)) (ε • (1 : Matrix κ κ ℂ)) (ε • (1 : Matrix κ κ ℂ)) F ∧
      StackSol (uniformLayer ω kx ky ε d :: rest) a0 b0 aN bN ∧
      F = fieldFourierAt ω kx ky (.uniform ε) (uniformLayer ω kx ky ε d) a0 b0 := by
  unfold solveFieldFourierWith amplitudesNoTranslate at h
  rw [if_pos rfl] at h
  obtain ⟨ab, h1, h⟩ := bind_ok.1 h
  obtain ⟨r, hr1, h3⟩ := bind_ok.1 h1
  injection h3 with h3
  subst h3
  rw [ok_bind] at h
  simp only [List.getElem?_cons_zero] at h
  injection h with h
  refine ⟨_, r.2, r.1, h.symm, C102_uniform ω hω kx ky ε hε d hq a0 r.2, ?_, rfl⟩
  refine (C16_exterior _ (fun M hM m => ?_) a0 bN r.1 r.2 r hr1).2 ⟨rfl, rfl⟩
  rcases List.mem_cons.1 hM with rfl | hM
  · intro hm
    have h2 := (C22_uniform ω ε kx ky d).2
    rcases m with i | i
    · have := (h2 i).1; rw [hm] at this; exact hq i (by linear_combination this)
    · have := (h2 i).2; rw [hm] at this; exact hq i (by linear_combination this)
  · exact hr M hM m

/-! ## C104 -/

/-- C104 is false: a volume integral never returns, whatever the layer, the weights and the excitation. -/
theorem C104_volume_false (kinds : List (LayerKind κ)) (layers : List (LayerData (κ ⊕ κ))) (k : ℕ) (a0 bN : κ ⊕ κ → ℂ)
    (rest : (κ ⊕ κ → ℂ) → (κ ⊕ κ → ℂ) → Except PyErr ℂ) : ∀ v, volumeIntegral kinds layers k a0 bN rest ≠ .ok v := by
  intro v h
  unfold volumeIntegral at h
  split at h
  · obtain ⟨ab, h1, -⟩ := bind_ok.1 h
    unfold solveInterior solveInteriorWith at h1
    obtain ⟨A, -, h1⟩ := bind_ok.1 h1
    obtain ⟨B, -, h1⟩ := bind_ok.1 h1
    simp at h1
  · simp at h

/-- C104: the depth integrals of products of modes also fail on their own, for every structure (there are always at least two modes). -/
theorem C104_mesh_false (q : List ℂ) (h : 2 ≤ q.length) : gmeshgrid q = .error .valueError := by
  rw [gmeshgrid, if_neg (by omega)]

lemma integral_exp_I {c : ℂ} (hc : c ≠ 0) (t : ℝ) :
    ∫ z in (0 : ℝ)..t, Complex.exp (Complex.I * c * z) = (Complex.exp (Complex.I * c * t) - 1) / Complex.I / c := by
  rw [integral_exp_mul_complex (mul_ne_zero Complex.I_ne_zero hc)]
  simp
  field_simp
  rw [Complex.I_sq]; ring

/-- C104, what is right about it: where the formulas divide by something non-zero, the entries of the weight matrix are the depth integrals of
the products of two forward modes and of a forward with a backward mode (off the diagonal, where nothing is added to the denominator). -/
theorem C104_weights_partial (shift qi qj : ℂ) (t : ℝ) :
    (qj ≠ (starRingEnd ℂ) qi → zintA shift qi qj t false =
      ∫ z in (0 : ℝ)..t, (starRingEnd ℂ) (Complex.exp (Complex.I * qi * z)) * Complex.exp (Complex.I * qj * z)) ∧
    (qj + (starRingEnd ℂ) qi ≠ 0 → zintB qi qj t =
      ∫ z in (0 : ℝ)..t, (starRingEnd ℂ) (Complex.exp (Complex.I * qi * z)) * Complex.exp (Complex.I * qj * (t - z))) := by
  have hc : ∀ z : ℝ, (starRingEnd ℂ) (Complex.exp (Complex.I * qi * z)) = Complex.exp (-(Complex.I * (starRingEnd ℂ) qi * z)) := by
    intro z
    rw [← Complex.exp_conj, map_mul, map_mul, Complex.conj_I, Complex.conj_ofReal]
    congr 1; ring
  constructor
  · intro h
    have hd : qj - (starRingEnd ℂ) qi ≠ 0 := sub_ne_zero.2 h
    have e : ∀ z : ℝ, (starRingEnd ℂ) (Complex.exp (Complex.I * qi * z)) * Complex.exp (Complex.I * qj * z) =
        Complex.exp (Complex.I * (qj - (starRingEnd ℂ) qi) * z) := by
      intro z
      rw [hc, ← Complex.exp_add]
      congr 1; ring
    simp only [e]
    rw [integral_exp_I hd]
    simp [zintA]
  · intro h
    have hd : -(qj + (starRingEnd ℂ) qi) ≠ 0 := neg_ne_zero.2 h
    have e : ∀ z : ℝ, (starRingEnd ℂ) (Complex.exp (Complex.I * qi * z)) * Complex.exp (Complex.I * qj * (t - z)) =
        Complex.exp (Complex.I * qj * t) * Complex.exp (Complex.I * (-(qj + (starRingEnd ℂ) qi)) * z) := by
      intro z
      rw [hc, ← Complex.exp_add, ← Complex.exp_add]
      congr 1; ring
    simp only [e]
    rw [intervalIntegral.integral_const_mul, integral_exp_I hd, zintB]
    have h3 : Complex.exp (-Complex.I * (starRingEnd ℂ) qi * t) =
        Complex.exp (Complex.I * qj * t) * Complex.exp (Complex.I * (-(qj + (starRingEnd ℂ) qi)) * t) := by
      rw [← Complex.exp_add]; congr 1; ring
    rw [h3]
    field_simp
    ring

/-- On the diagonal the code adds `shift`: for a real wave number the entry is not the thickness, the integral of `|exp(i q z)|^2`. -/
theorem C104_diagonal_false : ∃ (q : ℂ) (t : ℝ), zintA (1e-12 : ℝ) q q t true ≠
    ∫ z in (0 : ℝ)..t, (starRingEnd ℂ) (Complex.exp (Complex.I * q * z)) * Complex.exp (Complex.I * q * z) := by
  refine ⟨0, 1, fun h => ?_⟩
  have e : ∫ z in (0 : ℝ)..1, (starRingEnd ℂ) (Complex.exp (Complex.I * 0 * z)) * Complex.exp (Complex.I * 0 * z) = 1 := by simp
  rw [e] at h
  simp only [zintA, map_zero, sub_zero, if_true, one_mul, zero_add, Complex.ofReal_one, mul_one] at h
  have h1 : Complex.exp (Complex.I * ((1e-12 : ℝ) : ℂ)) - 1 = Complex.I * ((1e-12 : ℝ) : ℂ) := by
    have hI := Complex.I_ne_zero
    have hs : ((1e-12 : ℝ) : ℂ) ≠ 0 := by exact_mod_cast (by norm_num : (1e-12 : ℝ) ≠ 0)
    rw [div_div, div_eq_one_iff_eq (mul_ne_zero hI hs)] at h
    exact h
  have h2 := congrArg Complex.im h1
  rw [mul_comm Complex.I, Complex.sub_im, Complex.exp_ofReal_mul_I_im, Complex.one_im, sub_zero, Complex.im_ofReal_mul,
    Complex.I_im, mul_one] at h2
  exact absurd h2 (ne_of_lt (Real.sin_lt (by norm_num)))

/-! ## C105 -/

/-- C105, uniform layers: the permittivity profile is the permittivity at every point, whatever grid and component is asked for. -/
theorem C105_uniform_partial {n : ℕ} (kinds : List (LayerKind (Fin (n + 1)))) (G : Fin (n + 1) → ℤ × ℤ) (k Nx Ny : ℕ) (c : String) (ε : ℂ)
    (h : kinds[k]? = some (.uniform ε)) : ∃ f, returnEps kinds G k Nx Ny c = .ok (some f) ∧ ∀ x y, f x y = ε := by
  refine ⟨_, by rw [returnEps, h], fun _ _ => rfl⟩

/-- C105 is false for patterned layers: no component of the profile is ever returned. -/
theorem C105_patterned_false {n : ℕ} (kinds : List (LayerKind (Fin (n + 1)))) (G : Fin (n + 1) → ℤ × ℤ) (k Nx Ny : ℕ) (c : String)
    (epinv : Matrix (Fin (n + 1)) (Fin (n + 1)) ℂ) (ep2 : Matrix (Fin (n + 1) ⊕ Fin (n + 1)) (Fin (n + 1) ⊕ Fin (n + 1)) ℂ)
    (h : kinds[k]? = some (.grid epinv ep2)) :
    returnEps kinds G k Nx Ny c = .error .attributeError ∨ returnEps kinds G k Nx Ny c = .error .indexError ∨
      returnEps kinds G k Nx Ny c = .error .unboundLocalError := by
  have hi : ∀ s, getIfft Nx Ny s G = .error .attributeError ∨ getIfft Nx Ny s G = .error .indexError := by
    intro s
    unfold getIfft getIfftWith
    split_ifs
    · left; rfl
    · right; rfl
  rw [returnEps, h]
  simp only
  split_ifs
  · left; rfl
  · rcases hi (fun j => ep2 (.inl 0) (.inl j)) with e | e <;> rw [e] <;> simp
  · rcases hi (fun j => ep2 (.inl 0) (.inr j)) with e | e <;> rw [e] <;> simp
  · rcases hi (fun j => ep2 (.inr 0) (.inl j)) with e | e <;> rw [e] <;> simp
  · rcases hi (fun j => ep2 (.inr 0) (.inr j)) with e | e <;> rw [e] <;> simp
  · right; right; rfl

/-- C105 is false for Fourier layers as well: nothing is returned, without an error. -/
theorem C105_fourier_false {n : ℕ} (kinds : List (LayerKind (Fin (n + 1)))) (G : Fin (n + 1) → ℤ × ℤ) (k Nx Ny : ℕ) (c : String)
    (h : kinds[k]? = some .fourier) : returnEps kinds G k Nx Ny c = .ok none := by rw [returnEps, h]

/-! ## C106 -/

/-- C106: the default scheme delivers, for every lattice and every positive requested number, whole shells around the central order (C14). -/
theorem C106_circular_partial (nG : ℕ) (hn : 0 < nG) (Lk1 Lk2 : ℝ × ℝ) (hc : cross2 Lk1 Lk2 ≠ 0) (sorted : List (ℤ × ℤ))
    (hs : IsSortOf Lk1 Lk2 (candidates nG Lk1 Lk2) sorted) :
    ∃ sel, latticeGetG (.int nG) Lk1 Lk2 sorted 0 = .ok (sel, sel.length) ∧ sel.length < nG ∧ sel.Nodup ∧
      (∀ g ∈ sel, ∀ h : ℤ × ℤ, lenSq Lk1 Lk2 h ≤ lenSq Lk1 Lk2 g → h ∈ sel) ∧ (sel ≠ [] → sel.head? = some (0, 0)) := by
  obtain ⟨sel, h1, h2, h3, -, h5, -, h7⟩ := C14_whole_shells nG hn Lk1 Lk2 hc sorted hs
  exact ⟨sel, by rw [latticeGetG]; simpa using h1, h2, h3, h5, h7⟩

/-- C106 is false for the second documented scheme: it fails for every lattice and every requested number. -/
theorem C106_parallelogram_false (nG : ℕ) (Lk1 Lk2 : ℝ × ℝ) (sorted : List (ℤ × ℤ)) :
    latticeGetG (.int nG) Lk1 Lk2 sorted 1 = .error .typeError := by
  simp [latticeGetG, gselParallelogramic]

/-- C106: an unknown scheme or a request that is not an int is refused. -/
theorem C106_refused (Lk1 Lk2 : ℝ × ℝ) (sorted : List (ℤ × ℤ)) (method : ℤ) :
    latticeGetG .other Lk1 Lk2 sorted method = .error .assertionError ∧
    (method ≠ 0 → method ≠ 1 → ∀ nG, latticeGetG (.int nG) Lk1 Lk2 sorted method = .error .exception) := by
  refine ⟨rfl, fun h0 h1 nG => ?_⟩
  simp [latticeGetG, h0, h1]

/-! ## C109 -/

/-- Spec: unit vectors of the two polarisations of a wave travelling in the direction (sin θ cos φ, sin θ sin φ, cos θ): perpendicular to the
plane of incidence, and in it. -/
noncomputable def sHat (φ : ℝ) : Fin 3 → ℝ := ![-Real.sin φ, Real.cos φ, 0]
noncomputable def pHat (θ φ : ℝ) : Fin 3 → ℝ := ![Real.cos θ * Real.cos φ, Real.cos θ * Real.sin φ, -Real.sin θ]

/-- C109: the excitation with amplitudes `s` and `p` is, in the front medium of refractive index `n = sqrt ε0`, the plane wave travelling in the
direction given by the two angles whose electric field is `(s sHat + p pHat) / n` and whose magnetic field is `p sHat - s pHat`, at every depth,
for every real frequency; the other orders are empty. Missing: the claim that `s` and `p` are the *electric* amplitudes, which holds for a
vacuum front medium only. -/
theorem C109_wave_partial (ω θ φ ε0 : ℝ) (hω : 0 < ω) (hc : 0 < Real.cos θ) (h0 : 0 < ε0) (Lk1 Lk2 : ℝ × ℝ) {n : ℕ}
    (G : Fin n → ℤ × ℤ) (o : Fin n) (ho : G o = (0, 0)) (d : ℝ) (s p : ℂ) (z : ℝ) (F : FieldVec (Fin n))
    (hF : F = fieldFourierAt ω (kxOf ω θ φ ε0 Lk1 Lk2 G) (kyOf ω θ φ ε0 Lk1 Lk2 G) (.uniform ε0)
      (uniformLayer ω (kxOf ω θ φ ε0 Lk1 Lk2 G) (kyOf ω θ φ ε0 Lk1 Lk2 G) ε0 d) (excitation "forward" θ φ s p o).1 0 z)
    (E H : Fin 3 → ℂ) (hE : E = fun c => Complex.exp (Complex.I * ((Real.sqrt ε0 * ω * Real.cos θ * z : ℝ) : ℂ)) *
      (s * sHat φ c + p * pHat θ φ c) / Real.sqrt ε0)
    (hH : H = fun c => Complex.exp (Complex.I * ((Real.sqrt ε0 * ω * Real.cos θ * z : ℝ) : ℂ)) * (p * sHat φ c - s * pHat θ φ c)) :
    (F.ex o = E 0 ∧ F.ey o = E 1 ∧ F.ez o = E 2 ∧ F.hx o = H 0 ∧ F.hy o = H 1 ∧ F.hz o = H 2) ∧
    ∀ i, i ≠ o → F.ex i = 0 ∧ F.ey i = 0 ∧ F.ez i = 0 ∧ F.hx i = 0 ∧ F.hy i = 0 ∧ F.hz i = 0 := by
  obtain ⟨hkx, hky⟩ := kxOf_order ω θ φ ε0 Lk1 Lk2 ho
  have hqo := qOrd_oblique hω hc h0 φ hkx hky
  set kx := kxOf (ω : ℂ) θ φ ε0 Lk1 Lk2 G with hkxd
  set ky := kyOf (ω : ℂ) θ φ ε0 Lk1 Lk2 G with hkyd
  set L := uniformLayer (ω : ℂ) kx ky ε0 d with hLd
  set w := planewave θ φ s p o with hwd
  have x1 : (excitation "forward" θ φ s p o).1 = w := by simp [excitation, hwd]
  rw [x1] at hF
  set X := Complex.exp (Complex.I * ((Real.sqrt ε0 * ω * Real.cos θ * z : ℝ) : ℂ)) with hX
  have hw := planewave_inOrder (κ := Fin n) θ φ s p o
  rw [← hwd] at hw
  have ha : (translateAmplitudes L z w 0).1 = X • w := by
    rw [translate_fst]
    ext m
    have hm : ∀ i, i = o → Complex.exp (Complex.I * qOrd (ω : ℂ) ε0 kx ky i * z) = X := by
      rintro i rfl
      rw [hqo, hX]; congr 1; push_cast; ring
    rcases m with i | i
    · by_cases hi : i = o
      · simp only [fwdAt, Pi.smul_apply, smul_eq_mul]
        rw [← hm i hi]; rfl
      · simp only [fwdAt, Pi.smul_apply, (hw i hi).1, smul_zero, mul_zero]
    · by_cases hi : i = o
      · simp only [fwdAt, Pi.smul_apply, smul_eq_mul]
        rw [← hm i hi]; rfl
      · simp only [fwdAt, Pi.smul_apply, (hw i hi).2, smul_zero, mul_zero]
  have hb : (translateAmplitudes L z w 0).2 = 0 := by rw [translate_snd]; ext m; simp [bwdAt]
  have hh : fieldH L (X • w) 0 = X • w := by
    have hphi : L.phi = 1 := rfl
    rw [fieldH, hphi, Matrix.one_mulVec, add_zero]
  have he : fieldE (ω : ℂ) L (X • w) 0 = X • (fluxA (ω : ℂ) L *ᵥ w) := by
    rw [fieldE_eq, eTan_eq, Matrix.mulVec_zero, sub_zero, Matrix.mulVec_smul]
  have hF' : F =
    { ex := fun i => X * (fluxA (ω : ℂ) L *ᵥ w) (.inr i)
      ey := fun i => -(X * (fluxA (ω : ℂ) L *ᵥ w) (.inl i))
      ez := fun i => (ky i * (X * w (.inl i)) - kx i * (X * w (.inr i))) / ω / ε0
      hx := fun i => X * w (.inl i)
      hy := fun i => X * w (.inr i)
      hz := fun i => (kx i * -(X * (fluxA (ω : ℂ) L *ᵥ w) (.inl i)) - ky i * (X * (fluxA (ω : ℂ) L *ᵥ w) (.inr i))) / ω } := by
    rw [hF, fieldFourierAt]
    simp only [ha, hb, hh, he, applyEpinv, Pi.smul_apply, smul_eq_mul]
  have hsp := Real.sqrt_pos.2 h0
  have hsc : (Real.sqrt ε0 : ℂ) ≠ 0 := by exact_mod_cast hsp.ne'
  have hwc : (ω : ℂ) ≠ 0 := by exact_mod_cast hω.ne'
  have hcc : (Real.cos θ : ℂ) ≠ 0 := by exact_mod_cast hc.ne'
  have h0c : (ε0 : ℂ) = (Real.sqrt ε0 : ℂ) ^ 2 := by exact_mod_cast congrArg Complex.ofReal (Real.sq_sqrt h0.le).symm
  have t1 : (Real.sin θ : ℂ) ^ 2 = 1 - (Real.cos θ : ℂ) ^ 2 := by
    have := Real.sin_sq_add_cos_sq θ
    have : Real.sin θ ^ 2 = 1 - Real.cos θ ^ 2 := by linarith
    exact_mod_cast congrArg Complex.ofReal this
  have t2 : (Real.sin φ : ℂ) ^ 2 = 1 - (Real.cos φ : ℂ) ^ 2 := by
    have := Real.sin_sq_add_cos_sq φ
    have : Real.sin φ ^ 2 = 1 - Real.cos φ ^ 2 := by linarith
    exact_mod_cast congrArg Complex.ofReal this
  have wl : w (.inl o) = -s * Real.cos θ * Real.cos φ - p * Real.sin φ := by simp [hwd, planewave]
  have wr : w (.inr o) = -s * Real.cos θ * Real.sin φ + p * Real.cos φ := by simp [hwd, planewave]
  have Al : (fluxA (ω : ℂ) L *ᵥ w) (.inl o) = -(s * Real.cos φ + p * Real.cos θ * Real.sin φ) / Real.sqrt ε0 := by
    rw [hLd, (uniformA_apply (ω : ℂ) ε0 kx ky d w o).1, hqo, hkx, hky, wl, wr, h0c]
    simp only [Complex.ofReal_mul]
    generalize (Real.sqrt ε0 : ℂ) = r at *
    generalize (Real.sin θ : ℂ) = sθ at *
    generalize (Real.cos θ : ℂ) = cθ at *
    generalize (Real.sin φ : ℂ) = sφ at *
    generalize (Real.cos φ : ℂ) = cφ at *
    field_simp
    linear_combination (p * sφ * (sφ ^ 2 + cφ ^ 2)) * t1 + (p * sφ * (1 - cθ ^ 2)) * t2
  have Ar : (fluxA (ω : ℂ) L *ᵥ w) (.inr o) = (-s * Real.sin φ + p * Real.cos θ * Real.cos φ) / Real.sqrt ε0 := by
    rw [hLd, (uniformA_apply (ω : ℂ) ε0 kx ky d w o).2, hqo, hkx, hky, wl, wr, h0c]
    simp only [Complex.ofReal_mul]
    generalize (Real.sqrt ε0 : ℂ) = r at *
    generalize (Real.sin θ : ℂ) = sθ at *
    generalize (Real.cos θ : ℂ) = cθ at *
    generalize (Real.sin φ : ℂ) = sφ at *
    generalize (Real.cos φ : ℂ) = cφ at *
    field_simp
    linear_combination -(p * cφ * (sφ ^ 2 + cφ ^ 2)) * t1 - (p * cφ * (1 - cθ ^ 2)) * t2
  have g0 : sHat φ 0 = -Real.sin φ ∧ sHat φ 1 = Real.cos φ ∧ sHat φ 2 = 0 := ⟨rfl, rfl, rfl⟩
  have g1 : pHat θ φ 0 = Real.cos θ * Real.cos φ ∧ pHat θ φ 1 = Real.cos θ * Real.sin φ ∧ pHat θ φ 2 = -Real.sin θ := ⟨rfl, rfl, rfl⟩
  rw [hE, hH]
  constructor
  · rw [hF']
    simp only [Al, Ar, wl, wr, g0, g1, hkx, hky]
    simp only [Complex.ofReal_mul, Complex.ofReal_neg, Complex.ofReal_zero]
    refine ⟨by ring, by ring, ?_, by ring, by ring, ?_⟩
    · rw [h0c]
      field_simp
      linear_combination (-(p * Real.sin θ * X)) * t2
    · field_simp
      linear_combination (s * Real.sin θ * X) * t2
  · intro i hi
    have A0 : (fluxA (ω : ℂ) L *ᵥ w) (.inl i) = 0 ∧ (fluxA (ω : ℂ) L *ᵥ w) (.inr i) = 0 := by
      rw [hLd, (uniformA_apply (ω : ℂ) ε0 kx ky d w i).1, (uniformA_apply (ω : ℂ) ε0 kx ky d w i).2, (hw i hi).1, (hw i hi).2]
      constructor <;> ring
    rw [hF']
    simp only [A0.1, A0.2, (hw i hi).1, (hw i hi).2]
    simp

/-- C109 is false as documented ("the electric field amplitude of the p-polarization"): in a front medium of index two a wave excited with
p-amplitude one at normal incidence has an electric field of one half along x. -/
theorem C109_amplitude_false (ω : ℝ) (hω : 0 < ω) (d : ℝ) :
    (fieldFourierAt (ω : ℂ) (kxOf ω 0 0 4 (1, 0) (0, 1) oneOrder) (kyOf ω 0 0 4 (1, 0) (0, 1) oneOrder) (.uniform (4 : ℝ))
      (uniformLayer (ω : ℂ) (kxOf ω 0 0 4 (1, 0) (0, 1) oneOrder) (kyOf ω 0 0 4 (1, 0) (0, 1) oneOrder) (4 : ℝ) d)
      (excitation "forward" 0 0 0 1 0).1 0 0).ex 0 = 1 / 2 := by
  have h := (C109_wave_partial ω 0 0 4 hω (by simp) (by norm_num) (1, 0) (0, 1) oneOrder 0 rfl d 0 1 0 _ rfl _ _ rfl rfl).1.1
  rw [h]
  have h4 : Real.sqrt 4 = 2 := by rw [show (4 : ℝ) = 2 ^ 2 by norm_num, Real.sqrt_sq (by norm_num)]
  simp [sHat, pHat, h4]

/-- C109, vacuum in front: the amplitudes are the electric ones; at normal incidence with both angles zero p-light is polarised along x and
s-light along y. -/
theorem C109_vacuum (ω : ℝ) (hω : 0 < ω) (d : ℝ) (s p : ℂ) (F : FieldVec (Fin 1))
    (hF : F = fieldFourierAt (ω : ℂ) (kxOf ω 0 0 1 (1, 0) (0, 1) oneOrder) (kyOf ω 0 0 1 (1, 0) (0, 1) oneOrder) (.uniform (1 : ℝ))
      (uniformLayer (ω : ℂ) (kxOf ω 0 0 1 (1, 0) (0, 1) oneOrder) (kyOf ω 0 0 1 (1, 0) (0, 1) oneOrder) (1 : ℝ) d)
      (excitation "forward" 0 0 s p 0).1 0 0) : F.ex 0 = p ∧ F.ey 0 = s ∧ F.ez 0 = 0 := by
  obtain ⟨⟨h1, h2, h3, -⟩, -⟩ := C109_wave_partial ω 0 0 1 hω (by simp) one_pos (1, 0) (0, 1) oneOrder 0 rfl d s p 0 F hF _ _ rfl rfl
  rw [h1, h2, h3]
  simp [sHat, pHat]

end Nidn
