/-
When the scattering-matrix recursion succeeds: source-free solutions of the front parts of a stack, and their absence at damped frequencies.
-/
import Verif.Props.Fresnel
import Mathlib.Topology.Order.MonotoneConvergence
import Mathlib.Analysis.SpecialFunctions.Exp

set_option linter.unusedSectionVars false

namespace Nidn

open Matrix

section Loop

variable {ι : Type} [Fintype ι] [DecidableEq ι]

/-- one step of the recursion succeeds if the two layers meet without a source-free solution -/
lemma smStep_ok {L L' : LayerData ι} (hr : L.Regular) (hq' : ∀ m, L'.q m ≠ 0) (S : SMat ι)
    (hu : ∀ a b b0 x, S.Rel 0 b0 a b → Continuous L L' a b x 0 → x = 0) : ∃ S', smStep L L' S = .ok S' := by
  have hkp : IsUnit (L.kp * L.phi).det := by rw [Matrix.det_mul]; exact hr.kp.mul hr.phi
  rw [smStep, torchInverse_of_isUnit hr.phi, ok_bind, torchInverse_of_isUnit hkp, ok_bind, recipVec_ok hq', ok_bind]
  simp only
  set Q := L.phi⁻¹ * L'.phi with hQ
  set P := diagonal L.q * (L.kp * L.phi)⁻¹ * (L'.kp * L'.phi * diagonal fun m => 1 / L'.q m) with hP
  rw [torchInverse, if_pos, ok_bind]
  · exact ⟨_, rfl⟩
  · refine det_unit_of_inj fun x hx => ?_
    refine hu (S.s12 *ᵥ (((1 / 2 : ℂ) • (Q - P)) *ᵥ x)) (((1 / 2 : ℂ) • (Q - P)) *ᵥ x) (S.s22 *ᵥ (((1 / 2 : ℂ) • (Q - P)) *ᵥ x)) x
      ⟨by rw [Matrix.mulVec_zero, zero_add], by rw [Matrix.mulVec_zero, zero_add]⟩ ?_
    rw [continuous_iff (L' := L') hr.q (Matrix.nonsing_inv_mul _ hr.phi) (Matrix.mul_nonsing_inv _ hr.phi) (Matrix.nonsing_inv_mul _ hkp)
      (Matrix.mul_nonsing_inv _ hkp) hQ hP]
    have h0 : L'.through 0 = 0 := by ext m; simp [LayerData.through]
    rw [h0, Matrix.mulVec_zero, Matrix.mulVec_zero, add_zero, add_zero]
    refine ⟨?_, rfl⟩
    rw [Matrix.sub_mulVec, sub_eq_zero, ← Matrix.mulVec_mulVec, ← Matrix.mulVec_mulVec] at hx
    rw [hx, through_eq]

lemma sLoop_ok (S : SMat ι) (L : LayerData ι) (rest : List (LayerData ι)) (hr : ∀ M ∈ L :: rest, M.Regular)
    (hu : ∀ p, p ≠ [] → p <+: rest → ∀ a b b0 aN, S.Rel 0 b0 a b → StackSol (L :: p) a b aN 0 → aN = 0) : ∃ S', sLoop S L rest = .ok S' := by
  induction rest generalizing S L with
  | nil => exact ⟨S, rfl⟩
  | cons L' rest ih =>
    obtain ⟨S1, h1⟩ := smStep_ok (hr L (by simp)) (hr L' (by simp)).q S fun a b b0 x h hc =>
      hu [L'] (by simp) (List.prefix_cons_inj L' |>.2 (List.nil_prefix)) a b b0 x h ⟨x, 0, hc, rfl, rfl⟩
    rw [sLoop, h1, ok_bind]
    refine ih S1 L' (fun M hM => hr M (List.mem_cons_of_mem _ hM)) fun p hp hpre a' b' b0 aN hrel hsol => ?_
    obtain ⟨a, b, h2, h3⟩ := (smStep_rel (hr L (by simp)).q h1 0 b0 a' b').1 hrel
    exact hu (L' :: p) (by simp) ((List.prefix_cons_inj L').2 hpre) a b b0 aN h2 ⟨a', b', h3, hsol⟩

/-- the recursion succeeds if no front part of the stack has a source-free solution -/
lemma getSMatrix_ok (L : LayerData ι) (rest : List (LayerData ι)) (hr : ∀ M ∈ L :: rest, M.Regular)
    (hu : ∀ p, p ≠ [] → p <+: rest → ∀ b0 aN, StackSol (L :: p) 0 b0 aN 0 → aN = 0) : ∃ S, getSMatrix (L :: rest) 0 rest.length = .ok S := by
  rw [getSMatrix_eq _ _ _ (Nat.zero_le _) (by simp)]
  simp only [List.drop_one, List.tail_cons, Nat.sub_zero, List.take_length, List.getElem_cons_zero, zero_add]
  refine sLoop_ok _ _ _ hr fun p hp hpre a b b0 aN hrel hsol => ?_
  obtain ⟨rfl, rfl⟩ := (id_rel _ _ _ _).1 hrel
  exact hu p hp hpre b0 aN hsol

/-- a successful recursion means that no front part of the stack has a source-free solution -/
lemma getSMatrix_ok_unique (L : LayerData ι) (rest : List (LayerData ι)) (hq : ∀ M ∈ L :: rest, ∀ m, M.q m ≠ 0) {S : SMat ι}
    (h : getSMatrix (L :: rest) 0 rest.length = .ok S) (p : List (LayerData ι)) (hp : p <+: rest) (b0 aN : ι → ℂ)
    (hs : StackSol (L :: p) 0 b0 aN 0) : aN = 0 ∧ b0 = 0 := by
  rw [getSMatrix_eq _ _ _ (Nat.zero_le _) (by simp)] at h
  simp only [List.drop_one, List.tail_cons, Nat.sub_zero, List.take_length, List.getElem_cons_zero, zero_add] at h
  have key : ∀ (S S' : SMat ι) (L : LayerData ι) (rest p : List (LayerData ι)), p <+: rest → sLoop S L rest = .ok S' →
      ∃ S1, sLoop S L p = .ok S1 := by
    intro S S' L rest p
    induction p generalizing S L rest with
    | nil => intro _ _; exact ⟨S, rfl⟩
    | cons M p ih =>
      intro hp h
      obtain ⟨t, rfl⟩ := hp
      rw [List.cons_append, sLoop] at h
      obtain ⟨S2, h2, h3⟩ := bind_ok.1 h
      obtain ⟨S1, h4⟩ := ih S2 M (p ++ t) ⟨t, rfl⟩ h3
      exact ⟨S1, by rw [sLoop, h2, ok_bind, h4]⟩
  obtain ⟨S1, h1⟩ := key _ _ _ _ _ hp h
  have := (sLoop_rel (fun M hM => hq M (by
    rcases List.mem_cons.1 hM with rfl | hM
    · simp
    · exact List.mem_cons_of_mem _ (hp.subset hM))) h1 0 b0 aN 0).2 ⟨0, b0, (id_rel _ _ _ _).2 ⟨rfl, rfl⟩, hs⟩
  obtain ⟨e1, e2⟩ := this
  exact ⟨by rw [e1, Matrix.mulVec_zero, Matrix.mulVec_zero, add_zero], by rw [e2, Matrix.mulVec_zero, Matrix.mulVec_zero, add_zero]⟩

end Loop

section Damped

variable {κ : Type} [Fintype κ] [DecidableEq κ] {ω : ℂ} {kx ky : κ → ℂ} {ep2 : Matrix (κ ⊕ κ) (κ ⊕ κ) ℂ} {epinv : Matrix κ κ ℂ} {L : LayerData (κ ⊕ κ)}

lemma sqNorm_zero {m : Type} [Fintype m] {x : m → ℂ} (h : sqNorm x ≤ 0) : x = 0 := by
  have h0 : sqNorm x = 0 := le_antisymm h (sqNorm_nonneg x)
  rw [sqNorm, Finset.sum_eq_zero_iff_of_nonneg fun _ _ => Complex.normSq_nonneg _] at h0
  ext i
  exact Complex.normSq_eq_zero.1 (h0 i (Finset.mem_univ i))

/-- at a damped frequency the matrix `kp` of a passive layer is invertible -/
lemma kp_unit_damped (hω : 0 < ω.im) (hx : ∀ i, (kx i).im = 0) (hy : ∀ i, (ky i).im = 0) (hp : PassiveMats ω ep2 epinv) :
    IsUnit (kpPatterned ω epinv kx ky).det := by
  have hω0 : ω ≠ 0 := by rintro rfl; simp at hω
  refine det_unit_of_inj fun H hH => ?_
  set y := (jkMat kx ky).transpose *ᵥ H with hydef
  have h2 : star H ⬝ᵥ (kpPatterned ω epinv kx ky *ᵥ H) = ω ^ 2 * (sqNorm H : ℂ) - star y ⬝ᵥ (epinv *ᵥ y) := by
    rw [kpPatterned, Matrix.sub_mulVec, dotProduct_sub, Matrix.smul_mulVec, Matrix.one_mulVec, dotProduct_smul, star_dot_self,
      ← Matrix.mulVec_mulVec, ← Matrix.mulVec_mulVec, star_dot_adj (jkMat kx ky), J_real kx ky hx hy]
    rfl
  rw [hH, dotProduct_zero] at h2
  have h3 : ω * (sqNorm H : ℂ) = ω⁻¹ * (star y ⬝ᵥ (epinv *ᵥ y)) := by
    rw [show star y ⬝ᵥ (epinv *ᵥ y) = ω ^ 2 * (sqNorm H : ℂ) by linear_combination h2]
    field_simp
  have h4 := hp.epinv y
  rw [← h3, Complex.im_mul_ofReal] at h4
  exact sqNorm_zero (by nlinarith [sqNorm_nonneg H])

/-- the flux of a forward wave strictly decreases at a damped frequency -/
lemma flux_decreases (hL : MaxwellLayer ω kx ky ep2 epinv L) (hp : PassiveMats ω ep2 epinv) (hω : 0 < ω.im) (hphi : IsUnit L.phi.det)
    (a : κ ⊕ κ → ℂ) (z : ℝ) : ∃ f', HasDerivAt (fun z => layerFlux ω L (fwdAt L a z) 0) f' z ∧ f' ≤ 0 ∧ (a ≠ 0 → f' < 0) := by
  obtain ⟨e, h, y, t, hh, hd⟩ := flux_hasDerivAt_h hL a 0 z
  have hb : ∀ z, bwdAt L 0 z = 0 := fun z => by ext m; simp [bwdAt]
  simp only [hb] at hd hh
  have h1 := hp.ep2 e
  have h2 := hp.epinv y
  have h3 := mul_nonneg hp.im (sqNorm_nonneg h)
  have h4 := mul_nonneg hp.im (sqNorm_nonneg t)
  refine ⟨_, hd, by linarith, fun ha => ?_⟩
  have h5 : 0 < sqNorm h := by
    by_contra hn
    have h0 := sqNorm_zero (not_lt.1 hn)
    rw [h0, LayerData.hTan, add_zero] at hh
    have := mulVec_cancel (Matrix.nonsing_inv_mul _ hphi) (hh.symm.trans (Matrix.mulVec_zero _).symm)
    apply ha
    ext m
    have := congrFun this m
    simp only [fwdAt, Pi.zero_apply] at this
    exact (mul_eq_zero.1 this).resolve_left (Complex.exp_ne_zero _)
  have := mul_pos hω h5
  linarith

/-- at a damped frequency every mode of a passive layer decays -/
lemma q_im_pos (hL : MaxwellLayer ω kx ky ep2 epinv L) (hp : PassiveMats ω ep2 epinv) (hω : 0 < ω.im) (hphi : IsUnit L.phi.det)
    (hb : ∀ m, 0 ≤ (L.q m).im) (m : κ ⊕ κ) : 0 < (L.q m).im := by
  refine lt_of_le_of_ne (hb m) fun h0 => ?_
  obtain ⟨f', hd, -, hneg⟩ := flux_decreases hL hp hω hphi (Pi.single m 1) 0
  have hconst : (fun z : ℝ => layerFlux ω L (fwdAt L (Pi.single m 1) z) 0) = fun _ => layerFlux ω L (Pi.single m 1) 0 := by
    ext z
    have e : fwdAt L (Pi.single m 1) z = Complex.exp (Complex.I * L.q m * z) • (Pi.single m 1 : κ ⊕ κ → ℂ) := by
      ext m'
      rcases eq_or_ne m' m with rfl | h
      · simp [fwdAt]
      · simp [fwdAt, h]
    have hz : (Complex.I * L.q m * z).re = 0 := by
      rw [Complex.re_mul_ofReal, Complex.I_mul_re, ← h0]; simp
    rw [e, layerFlux_zero, layerFlux_zero, oneWay_smul, normSq_exp, hz]; simp
  rw [hconst] at hd
  have := hd.unique (hasDerivAt_const (0 : ℝ) _)
  have hne : (Pi.single m 1 : κ ⊕ κ → ℂ) ≠ 0 := fun h => by simpa using congrFun h m
  have := hneg hne
  linarith

/-- at a damped frequency a wave leaving through a passive layer carries power -/
lemma flux_pos (hL : MaxwellLayer ω kx ky ep2 epinv L) (hp : PassiveMats ω ep2 epinv) (hω : 0 < ω.im) (hphi : IsUnit L.phi.det)
    (hb : ∀ m, 0 ≤ (L.q m).im) (a : κ ⊕ κ → ℂ) (ha : a ≠ 0) : 0 < layerFlux ω L a 0 := by
  have hanti : StrictAnti fun z => layerFlux ω L (fwdAt L a z) 0 := by
    refine strictAnti_of_deriv_neg fun z => ?_
    obtain ⟨f', hd, -, hneg⟩ := flux_decreases hL hp hω hphi a z
    rw [hd.deriv]; exact hneg ha
  have hlim : Filter.Tendsto (fun z : ℝ => layerFlux ω L (fwdAt L a z) 0) Filter.atTop (nhds 0) := by
    have hu : Filter.Tendsto (fun z : ℝ => fwdAt L a z) Filter.atTop (nhds 0) := by
      rw [tendsto_pi_nhds]
      intro m
      have hq := q_im_pos hL hp hω hphi hb m
      rw [Pi.zero_apply, tendsto_zero_iff_norm_tendsto_zero]
      have e : (fun z : ℝ => ‖fwdAt L a z m‖) = fun z => Real.exp (-((L.q m).im * z)) * ‖a m‖ := by
        ext z
        rw [fwdAt, norm_mul, Complex.norm_exp, Complex.re_mul_ofReal, Complex.I_mul_re]; ring_nf
      rw [e]
      have h1 : Filter.Tendsto (fun z : ℝ => (L.q m).im * z) Filter.atTop Filter.atTop := Filter.tendsto_id.const_mul_atTop hq
      have := (Real.tendsto_exp_neg_atTop_nhds_zero.comp h1).mul_const ‖a m‖
      rw [zero_mul] at this
      exact this
    have hc : _root_.Continuous fun u : κ ⊕ κ → ℂ => layerFlux ω L u 0 := by
      unfold layerFlux poynting LayerData.eTan LayerData.hTan
      simp only [dotProduct, Matrix.mulVec, Pi.star_apply, Pi.smul_apply, Pi.add_apply, Pi.zero_apply]
      fun_prop
    have h0 : layerFlux ω L (0 : κ ⊕ κ → ℂ) 0 = 0 := by
      rw [layerFlux_zero, ← zero_smul ℂ (0 : κ ⊕ κ → ℂ), oneWay_smul]; simp
    have := hc.tendsto 0
    rw [h0] at this
    exact this.comp hu
  have h1 : (0 : ℝ) ≤ layerFlux ω L (fwdAt L a 1) 0 := hanti.antitone.le_of_tendsto hlim 1
  have h2 := hanti (zero_lt_one : (0 : ℝ) < 1)
  simp only [fwdAt_zero] at h2
  linarith

/-- at a damped frequency no mode of a passive layer has wave number zero -/
lemma q_ne_zero_damped (hω : 0 < ω.im) (hx : ∀ i, (kx i).im = 0) (hy : ∀ i, (ky i).im = 0) (hp : PassiveMats ω ep2 epinv) (hep : IsUnit ep2.det)
    {phi : Matrix (κ ⊕ κ) (κ ⊕ κ) ℂ} {q : κ ⊕ κ → ℂ} (hphi : IsUnit phi.det)
    (heig : eigenMat ep2 (kpPatterned ω epinv kx ky) kx ky * phi = phi * diagonal fun m => q m ^ 2) (m : κ ⊕ κ) : q m ≠ 0 := by
  intro h0
  have hω0 : ω ≠ 0 := by rintro rfl; simp at hω
  set v := phi *ᵥ (Pi.single m 1 : κ ⊕ κ → ℂ) with hv
  set E := kpPatterned ω epinv kx ky *ᵥ v with hE
  set t := (kMat kx ky).transpose *ᵥ v with ht
  have h1 : ep2 *ᵥ E = kMat kx ky *ᵥ t := by
    have e1 := congrArg (· *ᵥ (Pi.single m 1 : κ ⊕ κ → ℂ)) heig
    simp only [← Matrix.mulVec_mulVec] at e1
    rw [← hv, Matrix.mulVec_single_one, Matrix.col_diagonal] at e1
    have e2 : (Pi.single m (q m ^ 2) : κ ⊕ κ → ℂ) = 0 := by rw [h0]; simp
    rw [e2, Matrix.mulVec_zero, eigenMat, Matrix.sub_mulVec, ← Matrix.mulVec_mulVec, ← Matrix.mulVec_mulVec, sub_eq_zero] at e1
    exact e1
  have h2 : (kMat kx ky).transpose *ᵥ E = ω ^ 2 • t := by
    have : (kMat kx ky).transpose * kpPatterned ω epinv kx ky = ω ^ 2 • (kMat kx ky).transpose := by
      rw [kpPatterned, Matrix.mul_sub, Matrix.mul_smul, Matrix.mul_one, ← Matrix.mul_assoc, ← Matrix.mul_assoc, kT_J,
        Matrix.zero_mul, Matrix.zero_mul, sub_zero]
    rw [hE, Matrix.mulVec_mulVec, this, Matrix.smul_mulVec, ← ht]
  have h3 := hp.ep2 E
  rw [h1, star_dot_adj (kMat kx ky), k_real kx ky hx hy, h2, star_smul (ω ^ 2) t, smul_dotProduct (star (ω ^ 2)) (star t), star_dot_self] at h3
  have h4 : ω * (star (ω ^ 2) • ((sqNorm t : ℝ) : ℂ)) = ((-(Complex.normSq ω * sqNorm t) : ℝ) : ℂ) * -star ω := by
    rw [smul_eq_mul, star_pow]
    push_cast
    rw [Complex.normSq_eq_conj_mul_self]
    have : star ω = (starRingEnd ℂ) ω := rfl
    rw [this]; ring
  rw [sqNorm] at h4
  rw [h4, Complex.im_ofReal_mul, Complex.neg_im, Complex.star_def, Complex.conj_im, neg_neg, neg_mul] at h3
  have hn := Complex.normSq_pos.2 hω0
  have ht0 : t = 0 := by
    refine sqNorm_zero ?_
    rw [sqNorm]
    by_contra hc
    have := mul_pos (mul_pos hn (not_le.1 hc)) hω
    linarith
  rw [ht0, Matrix.mulVec_zero] at h1
  have hE0 := mulVec_cancel (Matrix.nonsing_inv_mul _ hep) (h1.trans (Matrix.mulVec_zero _).symm)
  have hv0 := mulVec_cancel (Matrix.nonsing_inv_mul _ (kp_unit_damped hω hx hy hp)) (hE0.trans (Matrix.mulVec_zero (kpPatterned ω epinv kx ky)).symm)
  have hs := mulVec_cancel (Matrix.nonsing_inv_mul _ hphi) (hv0.trans (Matrix.mulVec_zero phi).symm)
  simpa using congrFun hs m

/-- a stack of layers that absorb and radiate has no source-free solution -/
lemma no_source_free {L0 : LayerData (κ ⊕ κ)} {p : List (LayerData (κ ⊕ κ))} (hp : p ≠ [])
    (hpos : ∀ M ∈ L0 :: p, ∀ a, 0 ≤ layerFlux ω M a 0 ∧ (a ≠ 0 → 0 < layerFlux ω M a 0))
    (hm : ∀ M ∈ p, ∀ a b, layerFlux ω M (M.through a) b ≤ layerFlux ω M a (M.through b)) {b0 aN : κ ⊕ κ → ℂ}
    (h : StackSol (L0 :: p) 0 b0 aN 0) : aN = 0 := by
  obtain ⟨mids, LN, rfl⟩ : ∃ mids LN, p = mids ++ [LN] := ⟨p.dropLast, p.getLast hp, (List.dropLast_append_getLast hp).symm⟩
  have h1 := stack_flux_le (ω := ω) (fun M hM => hm M (List.mem_append_left _ hM)) h
  rw [through_zero, through_zero] at h1
  have h2 : layerFlux ω L0 0 b0 = -layerFlux ω L0 b0 0 := by
    have e1 : L0.eTan 0 b0 = -L0.eTan b0 0 := by
      rw [LayerData.eTan, LayerData.eTan, ← Matrix.mulVec_neg, ← Matrix.mulVec_neg]
      congr 2; ext m; simp [neg_div]
    have e2 : L0.hTan 0 b0 = L0.hTan b0 0 := by rw [LayerData.hTan, LayerData.hTan, zero_add, add_zero]
    rw [layerFlux, layerFlux, e1, e2, poynting, poynting, smul_neg, star_neg, neg_dotProduct, Complex.neg_re]
  have h3 := (hpos L0 (by simp) b0).1
  by_contra hc
  have := (hpos LN (by simp) aN).2 hc
  linarith

end Damped

end Nidn
