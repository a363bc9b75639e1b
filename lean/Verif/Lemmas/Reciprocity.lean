/-
Lorentz reciprocity of a stack: the bilinear form h'·e − e'·h of a field and of a field with the opposite transverse wave vectors is the same
in front of the stack and behind it, whatever the layers absorb.
-/
import Verif.Lemmas.Relabel
import Verif.Props.Energy
import Verif.Props.Orders

set_option linter.unusedSectionVars false

namespace Nidn

open Matrix

section

variable {ι : Type} [Fintype ι] [DecidableEq ι]

/-- The layer `L'` is the layer `L` for the opposite wave vectors; `S` gives the place of the opposite order. -/
structure Reciprocal (S : ι ≃ ι) (L L' : LayerData ι) : Prop where
  kp : L'.kp.submatrix S S = L.kp.transpose
  eig : ∃ M M' : Matrix ι ι ℂ, M * L.phi = L.phi * diagonal (fun m => L.q m ^ 2) ∧ M' * L'.phi = L'.phi * diagonal (fun m => L'.q m ^ 2) ∧
    (M'.submatrix S S).transpose * L.kp = L.kp * M
  branch : ∀ m n, L'.q m ^ 2 = L.q n ^ 2 → L'.q m = L.q n
  q : ∀ m, L.q m ≠ 0
  q' : ∀ m, L'.q m ≠ 0
  d : L'.d = L.d

/-- overlap of the modes of the two layers -/
noncomputable def overlap (S : ι ≃ ι) (L L' : LayerData ι) : Matrix ι ι ℂ := (L'.phi.submatrix S id).transpose * L.kp * L.phi

/-- only modes with the same wave number overlap -/
lemma overlap_q {S : ι ≃ ι} {L L' : LayerData ι} (h : Reciprocal S L L') (m n : ι) : overlap S L L' m n = 0 ∨ L'.q m = L.q n := by
  obtain ⟨M, M', e1, e2, e3⟩ := h.eig
  have e4 : M'.submatrix S S * L'.phi.submatrix S id = L'.phi.submatrix S id * diagonal (fun m => L'.q m ^ 2) := by
    rw [Matrix.submatrix_mul_equiv, e2]
    ext i j
    simp only [Matrix.submatrix_apply, Matrix.mul_diagonal, id]
  have e5 : diagonal (fun m => L'.q m ^ 2) * overlap S L L' = overlap S L L' * diagonal (fun m => L.q m ^ 2) := by
    have := congrArg Matrix.transpose e4
    rw [Matrix.transpose_mul, Matrix.transpose_mul, Matrix.diagonal_transpose] at this
    unfold overlap
    rw [← Matrix.mul_assoc, ← Matrix.mul_assoc, ← this, Matrix.mul_assoc, Matrix.mul_assoc, ← Matrix.mul_assoc _ L.kp, e3, Matrix.mul_assoc L.kp, e1]
    simp only [Matrix.mul_assoc]
  have e6 := congrFun (congrFun e5 m) n
  rw [Matrix.diagonal_mul, Matrix.mul_diagonal] at e6
  by_cases h0 : overlap S L L' m n = 0
  · exact Or.inl h0
  · right
    refine h.branch m n ?_
    have : (L'.q m ^ 2 - L.q n ^ 2) * overlap S L L' m n = 0 := by linear_combination e6
    rcases mul_eq_zero.1 this with h1 | h1
    · exact sub_eq_zero.1 h1
    · exact absurd h1 h0

/-- the bilinear form of two fields, the second one numbered by the opposite orders -/
def lorentz (S : ι ≃ ι) (h e h' e' : ι → ℂ) : ℂ := (h' ∘ S) ⬝ᵥ e - (e' ∘ S) ⬝ᵥ h

lemma lorentz_modes {S : ι ≃ ι} {L L' : LayerData ι} (h : Reciprocal S L L') (u v u' v' : ι → ℂ) :
    lorentz S (L.hTan u v) (L.eTan u v) (L'.hTan u' v') (L'.eTan u' v') = 2 * ∑ m, ∑ n, overlap S L L' m n / L.q n * (v' m * u n - u' m * v n) := by
  have e1 : (L'.hTan u' v') ∘ S = L'.phi.submatrix S id *ᵥ (u' + v') := by
    ext i; rfl
  have e2 : (L'.eTan u' v') ∘ S = L.kp.transpose *ᵥ (L'.phi.submatrix S id *ᵥ fun m => (u' m - v' m) / L'.q m) := by
    rw [← h.kp]
    ext i
    simp only [LayerData.eTan, Function.comp_apply, Matrix.mulVec, dotProduct, Matrix.submatrix_apply, id]
    exact (Equiv.sum_comp S (fun j => L'.kp (S i) j * ∑ x, L'.phi j x * ((u' x - v' x) / L'.q x))).symm
  have form : ∀ x y : ι → ℂ, (L'.phi.submatrix S id *ᵥ x) ⬝ᵥ (L.kp *ᵥ (L.phi *ᵥ y)) = ∑ m, ∑ n, overlap S L L' m n * (x m * y n) := by
    intro x y
    rw [Matrix.mulVec_mulVec, ← Matrix.vecMul_transpose, ← Matrix.dotProduct_mulVec, Matrix.mulVec_mulVec, ← Matrix.mul_assoc]
    simp only [dotProduct, Matrix.mulVec, Finset.mul_sum]
    refine Finset.sum_congr rfl fun m _ => Finset.sum_congr rfl fun n _ => ?_
    unfold overlap
    ring
  have f1 : ((L'.hTan u' v') ∘ S) ⬝ᵥ L.eTan u v = ∑ m, ∑ n, overlap S L L' m n * ((u' + v') m * ((u n - v n) / L.q n)) := by
    rw [e1, LayerData.eTan, form]
  have f2 : ((L'.eTan u' v') ∘ S) ⬝ᵥ L.hTan u v = ∑ m, ∑ n, overlap S L L' m n * (((u' m - v' m) / L'.q m) * (u + v) n) := by
    rw [e2, LayerData.hTan, ← form, Matrix.mulVec_transpose]
    simp only [Matrix.dotProduct_mulVec]
  unfold lorentz
  rw [f1, f2, Finset.mul_sum, ← Finset.sum_sub_distrib]
  refine Finset.sum_congr rfl fun m _ => ?_
  rw [Finset.mul_sum, ← Finset.sum_sub_distrib]
  refine Finset.sum_congr rfl fun n _ => ?_
  rcases overlap_q h m n with h0 | h0
  · rw [h0]; ring
  · rw [h0, Pi.add_apply, Pi.add_apply]
    have := h.q n
    field_simp
    ring

/-- the form of two fields of a layer: backward amplitudes at the back, forward amplitudes at the front, as in the code -/
noncomputable def layerForm (S : ι ≃ ι) (L L' : LayerData ι) (a b a' b' : ι → ℂ) : ℂ :=
  2 * ∑ m, ∑ n, overlap S L L' m n / L.q n * (Complex.exp (Complex.I * L.q n * L.d) * (b' m * a n - a' m * b n))

lemma layerForm_front {S : ι ≃ ι} {L L' : LayerData ι} (h : Reciprocal S L L') (a b a' b' : ι → ℂ) :
    lorentz S (L.hTan a (L.through b)) (L.eTan a (L.through b)) (L'.hTan a' (L'.through b')) (L'.eTan a' (L'.through b')) = layerForm S L L' a b a' b' := by
  rw [lorentz_modes h, layerForm]
  refine congrArg (2 * ·) (Finset.sum_congr rfl fun m _ => Finset.sum_congr rfl fun n _ => ?_)
  rcases overlap_q h m n with h0 | h0
  · rw [h0]; ring
  · unfold LayerData.through
    rw [h0, h.d]; ring

lemma layerForm_back {S : ι ≃ ι} {L L' : LayerData ι} (h : Reciprocal S L L') (a b a' b' : ι → ℂ) :
    lorentz S (L.hTan (L.through a) b) (L.eTan (L.through a) b) (L'.hTan (L'.through a') b') (L'.eTan (L'.through a') b') = layerForm S L L' a b a' b' := by
  rw [lorentz_modes h, layerForm]
  refine congrArg (2 * ·) (Finset.sum_congr rfl fun m _ => Finset.sum_congr rfl fun n _ => ?_)
  rcases overlap_q h m n with h0 | h0
  · rw [h0]; ring
  · unfold LayerData.through
    rw [h0, h.d]; ring

/-- the form is the same in the first and in the last layer -/
lemma stack_lorentz {S : ι ≃ ι} {l l' : List (LayerData ι)} (hl : List.Forall₂ (Reciprocal S) l l') {a0 b0 aN bN a0' b0' aN' bN' : ι → ℂ}
    (h : StackSol l a0 b0 aN bN) (h' : StackSol l' a0' b0' aN' bN') {L0 L0' LN LN' : LayerData ι} (e0 : l.head? = some L0) (e0' : l'.head? = some L0')
    (eN : l.getLast? = some LN) (eN' : l'.getLast? = some LN') : layerForm S L0 L0' a0 b0 a0' b0' = layerForm S LN LN' aN bN aN' bN' := by
  induction hl generalizing a0 b0 a0' b0' L0 L0' with
  | nil => simp at e0
  | @cons L L' rest rest' hL hrest ih =>
    simp only [List.head?_cons, Option.some.injEq] at e0 e0'
    subst e0 e0'
    cases hrest with
    | nil =>
      obtain ⟨rfl, rfl⟩ := h
      obtain ⟨rfl, rfl⟩ := h'
      simp only [List.getLast?_singleton, Option.some.injEq] at eN eN'
      rw [eN, eN']
    | @cons K K' rest rest' hK hrest =>
      obtain ⟨a, b, hc, hs⟩ := h
      obtain ⟨a', b', hc', hs'⟩ := h'
      rw [← layerForm_back hL, hc.h, hc.e, hc'.h, hc'.e, layerForm_front hK]
      exact ih hs hs' rfl rfl (by rwa [List.getLast?_cons_cons] at eN) (by rwa [List.getLast?_cons_cons] at eN')

end

/-! ### the layers of the solver -/

section

variable {Nx Ny n : ℕ}

lemma neg_mats (σ : Fin n ≃ Fin n) {kx ky kx' ky' : Fin n → ℂ} (hx : ∀ i, kx' (σ i) = -kx i) (hy : ∀ i, ky' (σ i) = -ky i) :
    (jkMat kx' ky').submatrix (Equiv.sumCongr σ σ) σ = -jkMat kx ky ∧ (kMat kx' ky').submatrix (Equiv.sumCongr σ σ) σ = -kMat kx ky := by
  constructor <;> ext (i | i) j <;>
    simp only [jkMat, kMat, Matrix.submatrix_apply, Equiv.sumCongr_apply, Sum.map_inl, Sum.map_inr, Matrix.fromRows_apply_inl,
      Matrix.fromRows_apply_inr, Matrix.diagonal_apply, Matrix.neg_apply, EmbeddingLike.apply_eq_iff_eq] <;>
    split <;> simp [*]

lemma transposed_submatrix {A : Matrix (Fin n ⊕ Fin n) (Fin n) ℂ} {B : Matrix (Fin n) (Fin n) ℂ} (σ : Fin n ≃ Fin n) (S : Fin n ⊕ Fin n ≃ Fin n ⊕ Fin n) :
    (A * B * A.transpose).submatrix S S = A.submatrix S σ * B.submatrix σ σ * (A.submatrix S σ).transpose := by
  rw [Matrix.transpose_submatrix, Matrix.submatrix_mul_equiv, Matrix.submatrix_mul_equiv]

/-- the matrices of a pattern at opposite orders -/
lemma eps_opposite {s : Fin Nx → Fin Ny → ℂ} {G : Fin n → ℤ × ℤ} (σ : Fin n ≃ Fin n) (hG : ∀ i, G (σ i) = -G i)
    {epinv : Matrix (Fin n) (Fin n) ℂ} {ep2 : Matrix (Fin n ⊕ Fin n) (Fin n ⊕ Fin n) ℂ} (h : epsilonFft (1 / Nx / Ny) (.iso s) G = .ok (epinv, ep2)) :
    epinv.submatrix σ σ = epinv.transpose ∧ ep2.submatrix (Equiv.sumCongr σ σ) (Equiv.sumCongr σ σ) = ep2.transpose := by
  obtain ⟨C, hC, hu, rfl, rfl⟩ := epsilonFft_form h
  have hCT : C.submatrix σ σ = C.transpose := by
    ext i j
    rw [Matrix.submatrix_apply, Matrix.transpose_apply, hC, hC, hG, hG, neg_sub_neg]
  constructor
  · rw [← Matrix.inv_submatrix_equiv, hCT, Matrix.transpose_nonsing_inv]
  · ext (i | i) (j | j)
    · exact congrArg zeroSmall (congrFun (congrFun hCT i) j)
    · rfl
    · rfl
    · exact congrArg zeroSmall (congrFun (congrFun hCT i) j)

/-- the layers for opposite wave vectors are related -/
lemma mats_reciprocal (ω : ℂ) (σ : Fin n ≃ Fin n) {kx ky kx' ky' : Fin n → ℂ} (hx : ∀ i, kx' (σ i) = -kx i) (hy : ∀ i, ky' (σ i) = -ky i)
    {epinv : Matrix (Fin n) (Fin n) ℂ} {ep2 : Matrix (Fin n ⊕ Fin n) (Fin n ⊕ Fin n) ℂ} (h1 : epinv.submatrix σ σ = epinv.transpose)
    (h2 : ep2.submatrix (Equiv.sumCongr σ σ) (Equiv.sumCongr σ σ) = ep2.transpose) :
    (kpPatterned ω epinv kx' ky').submatrix (Equiv.sumCongr σ σ) (Equiv.sumCongr σ σ) = (kpPatterned ω epinv kx ky).transpose ∧
    ((eigenMat ep2 (kpPatterned ω epinv kx' ky') kx' ky').submatrix (Equiv.sumCongr σ σ) (Equiv.sumCongr σ σ)).transpose * kpPatterned ω epinv kx ky =
      kpPatterned ω epinv kx ky * eigenMat ep2 (kpPatterned ω epinv kx ky) kx ky := by
  obtain ⟨e1, e2⟩ := neg_mats σ hx hy
  have k1 : (kpPatterned ω epinv kx' ky').submatrix (Equiv.sumCongr σ σ) (Equiv.sumCongr σ σ) = (kpPatterned ω epinv kx ky).transpose := by
    rw [kpPatterned, kpPatterned, Matrix.submatrix_sub, Pi.sub_apply, Pi.sub_apply, transposed_submatrix σ, e1, h1, Matrix.submatrix_smul,
      Pi.smul_apply, Pi.smul_apply, Matrix.submatrix_one_equiv, Matrix.transpose_sub, Matrix.transpose_smul, Matrix.transpose_one,
      Matrix.transpose_mul, Matrix.transpose_mul, Matrix.transpose_transpose, Matrix.transpose_neg, Matrix.neg_mul, Matrix.mul_neg, Matrix.neg_mul,
      neg_neg, Matrix.mul_assoc]
  refine ⟨k1, ?_⟩
  have k2 : (kMat kx' ky' * (kMat kx' ky').transpose).submatrix (Equiv.sumCongr σ σ) (Equiv.sumCongr σ σ) = kMat kx ky * (kMat kx ky).transpose := by
    have := transposed_submatrix (A := kMat kx' ky') (B := 1) σ (Equiv.sumCongr σ σ)
    rw [Matrix.mul_one, e2, Matrix.submatrix_one_equiv, Matrix.mul_one] at this
    rw [this, Matrix.transpose_neg, Matrix.neg_mul, Matrix.mul_neg, neg_neg]
  have k3 : (kMat kx ky).transpose * kpPatterned ω epinv kx ky = ω ^ 2 • (kMat kx ky).transpose := by
    rw [kpPatterned, Matrix.mul_sub, Matrix.mul_smul, Matrix.mul_one, ← Matrix.mul_assoc, ← Matrix.mul_assoc, kT_J, Matrix.zero_mul, Matrix.zero_mul,
      sub_zero]
  have k4 : kpPatterned ω epinv kx ky * kMat kx ky = ω ^ 2 • kMat kx ky := by
    have : (jkMat kx ky).transpose * kMat kx ky = 0 := by
      have := congrArg Matrix.transpose (kT_J kx ky)
      rwa [Matrix.transpose_mul, Matrix.transpose_transpose, Matrix.transpose_zero] at this
    rw [kpPatterned, Matrix.sub_mul, Matrix.smul_mul, Matrix.one_mul, Matrix.mul_assoc, this, Matrix.mul_zero, sub_zero]
  rw [eigenMat, eigenMat, Matrix.submatrix_sub, Pi.sub_apply, Pi.sub_apply, k2, ← Matrix.submatrix_mul_equiv _ _ _ (Equiv.sumCongr σ σ), k1, h2,
    Matrix.transpose_sub, Matrix.transpose_mul, Matrix.transpose_mul, Matrix.transpose_transpose, Matrix.transpose_transpose,
    Matrix.transpose_transpose, Matrix.sub_mul, Matrix.mul_sub, Matrix.mul_assoc, Matrix.mul_assoc (kMat kx ky), k3, ← Matrix.mul_assoc _ (kMat kx ky), k4,
    Matrix.mul_smul, Matrix.smul_mul]

lemma scalar_opposite {ι : Type} [DecidableEq ι] (S : ι ≃ ι) (c : ℂ) : (c • (1 : Matrix ι ι ℂ)).submatrix S S = (c • (1 : Matrix ι ι ℂ)).transpose := by
  rw [Matrix.submatrix_smul, Pi.smul_apply, Pi.smul_apply, Matrix.submatrix_one_equiv, Matrix.transpose_smul, Matrix.transpose_one]

lemma uniform_reciprocal {ω : ℂ} (σ : Fin n ≃ Fin n) {kx ky kx' ky' : Fin n → ℂ} (hx : ∀ i, kx' (σ i) = -kx i) (hy : ∀ i, ky' (σ i) = -ky i)
    {ε : ℂ} (hε : ε ≠ 0) (d : ℝ) (hq : ∀ m, (uniformLayer ω kx ky ε d).q m ≠ 0) :
    Reciprocal (Equiv.sumCongr σ σ) (uniformLayer ω kx ky ε d) (uniformLayer ω kx' ky' ε d) := by
  have m := mats_reciprocal ω σ hx hy (epinv := (1 / ε) • 1) (ep2 := ε • 1) (scalar_opposite σ _) (scalar_opposite _ _)
  refine ⟨?_, ⟨_, _, uniform_eig kx ky hε d, uniform_eig kx' ky' hε d, ?_⟩, ?_, hq, ?_, rfl⟩
  · rw [show (uniformLayer ω kx ky ε d).kp = kpPatterned ω ((1 / ε) • 1) kx ky from kpUniform_eq _ _ _ _,
      show (uniformLayer ω kx' ky' ε d).kp = kpPatterned ω ((1 / ε) • 1) kx' ky' from kpUniform_eq _ _ _ _]
    exact m.1
  · rw [show (uniformLayer ω kx ky ε d).kp = kpPatterned ω ((1 / ε) • 1) kx ky from kpUniform_eq _ _ _ _,
      show (uniformLayer ω kx' ky' ε d).kp = kpPatterned ω ((1 / ε) • 1) kx' ky' from kpUniform_eq _ _ _ _]
    exact m.2
  · rintro (i | i) (j | j) h <;>
      simp only [uniformLayer, qUniform, Sum.elim_inl, Sum.elim_inr, branchQ_sq, csqrt_sq] at h ⊢ <;> rw [h]
  · have : ∀ i, ∃ j, i = σ j := fun i => ⟨σ.symm i, by simp⟩
    rintro (i | i) <;> obtain ⟨j, rfl⟩ := this i <;> have := hq (.inl j) <;>
      simpa only [uniformLayer, qUniform, Sum.elim_inl, Sum.elim_inr, hx, hy, neg_sq] using this

lemma built_reciprocal {ω : ℂ} {G : Fin n → ℤ × ℤ} (σ : Fin n ≃ Fin n) (hG : ∀ i, G (σ i) = -G i) {kx ky kx' ky' : Fin n → ℂ}
    (hx : ∀ i, kx' (σ i) = -kx i) (hy : ∀ i, ky' (σ i) = -ky i) {s : Slab Nx Ny} {L L' : LayerData (Fin n ⊕ Fin n)}
    (hL : Built ω kx ky G s L) (hL' : Built ω kx' ky' G s L') (hq : ∀ m, L.q m ≠ 0) (hq' : ∀ m, L'.q m ≠ 0) :
    Reciprocal (Equiv.sumCongr σ σ) L L' := by
  cases hL with
  | uniform ε d hε => cases hL' with | uniform _ _ _ => exact uniform_reciprocal σ hx hy hε d hq
  | patterned s d epinv ep2 h lam phi he hphi =>
    cases hL' with
    | patterned _ _ epinv' ep2' h' lam' phi' he' hphi' =>
      rw [h] at h'
      injection h' with h'
      injection h' with e1 e2
      subst e1 e2
      obtain ⟨e1, e2⟩ := eps_opposite σ hG h
      obtain ⟨m1, m2⟩ := mats_reciprocal ω σ hx hy e1 e2
      refine ⟨m1, ⟨_, _, ?_, ?_, m2⟩, ?_, hq, hq', rfl⟩
      · rw [show (patternedLayer ω kx ky epinv lam phi d).phi = phi from rfl, he]
        congr 2
        ext m
        rw [show (patternedLayer ω kx ky epinv lam phi d).q m = branchQ (csqrt (lam m)) from rfl, branchQ_sq, csqrt_sq]
      · rw [show (patternedLayer ω kx' ky' epinv lam' phi' d).phi = phi' from rfl, he']
        congr 2
        ext m
        rw [show (patternedLayer ω kx' ky' epinv lam' phi' d).q m = branchQ (csqrt (lam' m)) from rfl, branchQ_sq, csqrt_sq]
      · intro m n hmn
        simp only [patternedLayer, branchQ_sq, csqrt_sq] at hmn ⊢
        rw [hmn]

lemma forall₂_reciprocal {ω : ℂ} {G : Fin n → ℤ × ℤ} (σ : Fin n ≃ Fin n) (hG : ∀ i, G (σ i) = -G i) {kx ky kx' ky' : Fin n → ℂ}
    (hx : ∀ i, kx' (σ i) = -kx i) (hy : ∀ i, ky' (σ i) = -ky i) {slabs : List (Slab Nx Ny)} {m m' : List (LayerData (Fin n ⊕ Fin n))}
    (hm : List.Forall₂ (Built ω kx ky G) slabs m) (hm' : List.Forall₂ (Built ω kx' ky' G) slabs m') (hq : ∀ M ∈ m, ∀ k, M.q k ≠ 0)
    (hq' : ∀ M ∈ m', ∀ k, M.q k ≠ 0) : List.Forall₂ (Reciprocal (Equiv.sumCongr σ σ)) m m' := by
  induction hm generalizing m' with
  | nil => cases hm'; exact .nil
  | cons h _ ih =>
    cases hm' with
    | cons h' hr' =>
      exact .cons (built_reciprocal σ hG hx hy h h' (hq _ (List.mem_cons_self ..)) (hq' _ (List.mem_cons_self ..)))
        (ih hr' (fun M hM => hq M (List.mem_cons_of_mem _ hM)) (fun M hM => hq' M (List.mem_cons_of_mem _ hM)))

/-! ### the outer media -/

/-- components of an amplitude vector in the order `o`, along and across the plane of incidence -/
noncomputable def alongK (φ : ℝ) (o : Fin n) (x : Fin n ⊕ Fin n → ℂ) : ℂ := Real.cos φ * x (.inl o) + Real.sin φ * x (.inr o)
noncomputable def acrossK (φ : ℝ) (o : Fin n) (x : Fin n ⊕ Fin n → ℂ) : ℂ := -Real.sin φ * x (.inl o) + Real.cos φ * x (.inr o)

lemma overlap_uniform (S : Fin n ⊕ Fin n ≃ Fin n ⊕ Fin n) (ω : ℂ) (kx ky kx' ky' : Fin n → ℂ) (ε : ℂ) (d : ℝ) (x z : Fin n ⊕ Fin n → ℂ) :
    ∑ m, ∑ j, overlap S (uniformLayer ω kx ky ε d) (uniformLayer ω kx' ky' ε d) m j * (x m * z j) =
      (x ∘ S) ⬝ᵥ (kpUniform ω (1 / ε) kx ky *ᵥ z) := by
  have h : ∀ i j, overlap S (uniformLayer ω kx ky ε d) (uniformLayer ω kx' ky' ε d) (S i) j = kpUniform ω (1 / ε) kx ky i j := by
    intro i j
    simp only [overlap, uniformLayer, Matrix.mul_one]
    rw [Matrix.mul_apply, Finset.sum_eq_single i]
    · rw [Matrix.transpose_apply, Matrix.submatrix_apply, id, Matrix.one_apply_eq, one_mul]
    · intro b _ hb
      rw [Matrix.transpose_apply, Matrix.submatrix_apply, id, Matrix.one_apply_ne (by simpa using hb), zero_mul]
    · simp
  rw [← Equiv.sum_comp S]
  simp only [h, dotProduct, Matrix.mulVec, Finset.mul_sum, Function.comp_apply]
  exact Finset.sum_congr rfl fun i _ => Finset.sum_congr rfl fun j _ => by ring

/-- the pairing of two amplitude vectors, one of which lives in the order `o`, of an outer medium -/
lemma pairing {ω : ℂ} {θ φ ε0 : ℝ} (h0 : 0 < ε0) (σ : Fin n ≃ Fin n) {o : Fin n} (hσ : σ o = o) {kx ky : Fin n → ℂ}
    (hkx : kx o = ω * Real.sin θ * Real.cos φ * Real.sqrt ε0) (hky : ky o = ω * Real.sin θ * Real.sin φ * Real.sqrt ε0) (d : ℝ)
    {x y : Fin n ⊕ Fin n → ℂ} (hxy : InOrder o x ∨ InOrder o y) :
    (x ∘ Equiv.sumCongr σ σ) ⬝ᵥ (kpUniform ω (1 / ε0) kx ky *ᵥ fun m => Complex.exp (Complex.I * qUniform ω ε0 kx ky m * d) / qUniform ω ε0 kx ky m * y m) =
      Complex.exp (Complex.I * qOrd ω ε0 kx ky o * d) / qOrd ω ε0 kx ky o * ω ^ 2 *
        (alongK φ o x * alongK φ o y + Real.cos θ ^ 2 * (acrossK φ o x * acrossK φ o y)) := by
  have hk : ∀ i, _ := fun i => kpUniform_mulVec ω (1 / ε0) kx ky
    (fun m => Complex.exp (Complex.I * qUniform ω ε0 kx ky m * d) / qUniform ω ε0 kx ky m * y m) i
  have e1 : ∀ i, qUniform ω ε0 kx ky (.inl i) = qOrd ω ε0 kx ky i := fun _ => rfl
  have e2 : ∀ i, qUniform ω ε0 kx ky (.inr i) = qOrd ω ε0 kx ky i := fun _ => rfl
  have hs : ((Real.sqrt ε0 : ℝ) : ℂ) ^ 2 = ε0 := by exact_mod_cast congrArg Complex.ofReal (Real.sq_sqrt h0.le)
  have hne : (ε0 : ℂ) ≠ 0 := Complex.ofReal_ne_zero.2 h0.ne'
  have z : ∀ i, i ≠ o → σ i ≠ o := fun i hi h => hi (σ.injective (h.trans hσ.symm))
  rw [dotProduct, Fintype.sum_sum_type, Finset.sum_eq_single o, Finset.sum_eq_single o]
  · simp only [Function.comp_apply, Equiv.sumCongr_apply, Sum.map_inl, Sum.map_inr, hσ]
    rw [(hk o).1, (hk o).2, e1, e2, hkx, hky]
    unfold alongK acrossK
    have c1 : (Real.sin θ : ℂ) ^ 2 = 1 - Real.cos θ ^ 2 := by exact_mod_cast congrArg Complex.ofReal (Real.sin_sq θ)
    have c2 : (Real.sin φ : ℂ) ^ 2 = 1 - Real.cos φ ^ 2 := by exact_mod_cast congrArg Complex.ofReal (Real.sin_sq φ)
    set E := Complex.exp (Complex.I * qOrd ω ε0 kx ky o * d) / qOrd ω ε0 kx ky o
    set t := (Real.sin θ : ℂ)
    set u := (Real.cos θ : ℂ)
    set v := (Real.sin φ : ℂ)
    set w := (Real.cos φ : ℂ)
    have hr : (1 / (ε0 : ℂ)) * (Real.sqrt ε0 : ℂ) ^ 2 = 1 := by rw [hs]; field_simp
    set r := (Real.sqrt ε0 : ℂ)
    set f := 1 / (ε0 : ℂ)
    linear_combination (E * ω ^ 2 * t ^ 2 * (x (.inl o) * v * (w * y (.inr o) - v * y (.inl o)) - x (.inr o) * w * (w * y (.inr o) - v * y (.inl o)))) * hr +
      (-(E * ω ^ 2 * (w * x (.inr o) - v * x (.inl o)) * (w * y (.inr o) - v * y (.inl o)))) * c1 -
      (E * ω ^ 2 * (x (.inl o) * y (.inl o) + x (.inr o) * y (.inr o))) * c2
  · intro i _ hi
    rcases hxy with h | h
    · simp [(h _ (z i hi)).2]
    · rw [(hk i).2]; simp [(h i hi).1, (h i hi).2]
  · simp
  · intro i _ hi
    rcases hxy with h | h
    · simp [(h _ (z i hi)).1]
    · rw [(hk i).1]; simp [(h i hi).1, (h i hi).2]
  · simp

/-- the form in an outer medium -/
lemma layerForm_outer {ω : ℂ} {θ φ ε0 : ℝ} (h0 : 0 < ε0) (σ : Fin n ≃ Fin n) {o : Fin n} (hσ : σ o = o) {kx ky : Fin n → ℂ} (kx' ky' : Fin n → ℂ)
    (hkx : kx o = ω * Real.sin θ * Real.cos φ * Real.sqrt ε0) (hky : ky o = ω * Real.sin θ * Real.sin φ * Real.sqrt ε0) (d : ℝ)
    {a b a' b' : Fin n ⊕ Fin n → ℂ} (h1 : InOrder o b' ∨ InOrder o a) (h2 : InOrder o a' ∨ InOrder o b) :
    layerForm (Equiv.sumCongr σ σ) (uniformLayer ω kx ky ε0 d) (uniformLayer ω kx' ky' ε0 d) a b a' b' =
      2 * (Complex.exp (Complex.I * qOrd ω ε0 kx ky o * d) / qOrd ω ε0 kx ky o * ω ^ 2) *
        ((alongK φ o b' * alongK φ o a + Real.cos θ ^ 2 * (acrossK φ o b' * acrossK φ o a)) -
          (alongK φ o a' * alongK φ o b + Real.cos θ ^ 2 * (acrossK φ o a' * acrossK φ o b))) := by
  have p1 := pairing h0 σ hσ hkx hky d h1
  have p2 := pairing h0 σ hσ hkx hky d h2
  rw [← overlap_uniform _ ω kx ky kx' ky' ε0 d] at p1 p2
  have : layerForm (Equiv.sumCongr σ σ) (uniformLayer ω kx ky ε0 d) (uniformLayer ω kx' ky' ε0 d) a b a' b' =
      2 * (∑ m, ∑ j, overlap (Equiv.sumCongr σ σ) (uniformLayer ω kx ky ε0 d) (uniformLayer ω kx' ky' ε0 d) m j *
          (b' m * (Complex.exp (Complex.I * qUniform ω ε0 kx ky j * d) / qUniform ω ε0 kx ky j * a j)) -
        ∑ m, ∑ j, overlap (Equiv.sumCongr σ σ) (uniformLayer ω kx ky ε0 d) (uniformLayer ω kx' ky' ε0 d) m j *
          (a' m * (Complex.exp (Complex.I * qUniform ω ε0 kx ky j * d) / qUniform ω ε0 kx ky j * b j))) := by
    rw [layerForm, ← Finset.sum_sub_distrib]
    refine congrArg (2 * ·) (Finset.sum_congr rfl fun m _ => ?_)
    rw [← Finset.sum_sub_distrib]
    refine Finset.sum_congr rfl fun j _ => ?_
    simp only [show (uniformLayer ω kx ky ε0 d).q = qUniform ω ε0 kx ky from rfl, show (uniformLayer ω kx ky ε0 d).d = d from rfl]
    ring
  rw [this, p1, p2]
  ring

/-- wave number of the incident order, at complex frequencies too -/
lemma qOrd_incident {ω : ℂ} (hre : 0 < ω.re) (him : 0 ≤ ω.im) {θ ε0 : ℝ} (hc : 0 < Real.cos θ) (h0 : 0 < ε0) (φ : ℝ) {kx ky : Fin n → ℂ} {o : Fin n}
    (hkx : kx o = ω * Real.sin θ * Real.cos φ * Real.sqrt ε0) (hky : ky o = ω * Real.sin θ * Real.sin φ * Real.sqrt ε0) :
    qOrd ω ε0 kx ky o = ((Real.sqrt ε0 * Real.cos θ : ℝ) : ℂ) * ω := by
  have hs := Real.sqrt_pos.2 h0
  have e1 : ((Real.sqrt ε0 : ℝ) : ℂ) ^ 2 = ε0 := by exact_mod_cast congrArg Complex.ofReal (Real.sq_sqrt h0.le)
  have c1 : (Real.sin θ : ℂ) ^ 2 + Real.cos θ ^ 2 = 1 := by exact_mod_cast congrArg Complex.ofReal (Real.sin_sq_add_cos_sq θ)
  have c2 : (Real.sin φ : ℂ) ^ 2 + Real.cos φ ^ 2 = 1 := by exact_mod_cast congrArg Complex.ofReal (Real.sin_sq_add_cos_sq φ)
  have h1 : (ε0 : ℂ) * ω ^ 2 - kx o ^ 2 - ky o ^ 2 = (((Real.sqrt ε0 * Real.cos θ : ℝ) : ℂ) * ω) ^ 2 := by
    rw [hkx, hky, Complex.ofReal_mul]
    linear_combination -(ω ^ 2) * e1 - ω ^ 2 * (Real.sqrt ε0 : ℂ) ^ 2 * (Real.sin θ : ℂ) ^ 2 * c2 - ω ^ 2 * (Real.sqrt ε0 : ℂ) ^ 2 * c1
  rw [qOrd, h1]
  exact branchQ_csqrt_of_sq _ (by rw [Complex.re_ofReal_mul]; positivity) (by rw [Complex.im_ofReal_mul]; positivity)

/-- the flux matrix of the incident order -/
lemma flux_incident {ω : ℂ} (hre : 0 < ω.re) (him : 0 ≤ ω.im) {θ ε0 : ℝ} (hc : 0 < Real.cos θ) (h0 : 0 < ε0) (φ : ℝ) {kx ky : Fin n → ℂ} {o : Fin n}
    (hkx : kx o = ω * Real.sin θ * Real.cos φ * Real.sqrt ε0) (hky : ky o = ω * Real.sin θ * Real.sin φ * Real.sqrt ε0) :
    ω⁻¹ * (qOrd ω ε0 kx ky o)⁻¹ * (ω ^ 2 - 1 / ε0 * ky o ^ 2) = ((1 - Real.sin θ ^ 2 * Real.sin φ ^ 2) / (Real.sqrt ε0 * Real.cos θ) : ℝ) ∧
    ω⁻¹ * (qOrd ω ε0 kx ky o)⁻¹ * (1 / ε0 * kx o * ky o) = (Real.sin θ ^ 2 * Real.sin φ * Real.cos φ / (Real.sqrt ε0 * Real.cos θ) : ℝ) ∧
    ω⁻¹ * (qOrd ω ε0 kx ky o)⁻¹ * (ω ^ 2 - 1 / ε0 * kx o ^ 2) = ((1 - Real.sin θ ^ 2 * Real.cos φ ^ 2) / (Real.sqrt ε0 * Real.cos θ) : ℝ) := by
  have hω : ω ≠ 0 := fun h => by rw [h] at hre; simp at hre
  have hs : ((Real.sqrt ε0 : ℝ) : ℂ) ≠ 0 := Complex.ofReal_ne_zero.2 (Real.sqrt_pos.2 h0).ne'
  have hc' : ((Real.cos θ : ℝ) : ℂ) ≠ 0 := Complex.ofReal_ne_zero.2 hc.ne'
  have e1 : (ε0 : ℂ) = ((Real.sqrt ε0 : ℝ) : ℂ) ^ 2 := by exact_mod_cast (congrArg Complex.ofReal (Real.sq_sqrt h0.le)).symm
  rw [qOrd_incident hre him hc h0 φ hkx hky, hkx, hky]
  push_cast
  push_cast at hs hc' e1
  rw [e1]
  refine ⟨?_, ?_, ?_⟩ <;> field_simp

lemma realOrder_incident {ω : ℂ} (hre : 0 < ω.re) (him : 0 ≤ ω.im) {θ ε0 : ℝ} (hc : 0 < Real.cos θ) (h0 : 0 < ε0) (φ : ℝ) {kx ky : Fin n → ℂ}
    {o : Fin n} (hkx : kx o = ω * Real.sin θ * Real.cos φ * Real.sqrt ε0) (hky : ky o = ω * Real.sin θ * Real.sin φ * Real.sqrt ε0) :
    RealOrder ω ε0 kx ky o := by
  obtain ⟨f1, f2, f3⟩ := flux_incident hre him hc h0 φ hkx hky
  refine ⟨?_, ?_, ?_⟩
  · rw [f1, Complex.ofReal_im]
  · rw [f2, Complex.ofReal_im]
  · rw [f3, Complex.ofReal_im]

/-- power of a wave in the incident order -/
lemma power_incident {ω : ℂ} (hre : 0 < ω.re) (him : 0 ≤ ω.im) {θ ε0 : ℝ} (hc : 0 < Real.cos θ) (h0 : 0 < ε0) (φ : ℝ) {kx ky : Fin n → ℂ} {o : Fin n}
    (hkx : kx o = ω * Real.sin θ * Real.cos φ * Real.sqrt ε0) (hky : ky o = ω * Real.sin θ * Real.sin φ * Real.sqrt ε0) (d : ℝ)
    (b : Fin n ⊕ Fin n → ℂ) : oneWay ω (uniformLayer ω kx ky ε0 d) (onlyOrder o b) =
      (Complex.normSq (alongK φ o b) + Real.cos θ ^ 2 * Complex.normSq (acrossK φ o b)) / (Real.sqrt ε0 * Real.cos θ) := by
  obtain ⟨f1, f2, f3⟩ := flux_incident hre him hc h0 φ hkx hky
  have c1 := Real.sin_sq θ
  have c2 := Real.sin_sq φ
  rw [oneWay_only, (uniformA_apply' ω ε0 kx ky d b o).1, (uniformA_apply' ω ε0 kx ky d b o).2, f1, f2, f3, alongK, acrossK]
  simp only [Complex.normSq_apply, RCLike.star_def, Complex.mul_re, Complex.conj_re, Complex.conj_im, Complex.add_re, Complex.add_im, Complex.ofReal_re,
    Complex.ofReal_im, Complex.mul_im, zero_mul, sub_zero, add_zero, Complex.neg_re, Complex.neg_im, neg_zero]
  have := Real.sqrt_pos.2 h0
  rw [eq_div_iff (by positivity)]
  field_simp
  set x1 := (b (.inl o)).re
  set x2 := (b (.inl o)).im
  set y1 := (b (.inr o)).re
  set y2 := (b (.inr o)).im
  set v := Real.sin φ
  set w := Real.cos φ
  linear_combination (-((w * y1 - v * x1) ^ 2 + (w * y2 - v * x2) ^ 2)) * c1 - (x1 ^ 2 + x2 ^ 2 + y1 ^ 2 + y2 ^ 2) * c2

end

end Nidn
