/-
Properties C16, C17 and C18: the scattering-matrix algorithm of the RCWA solver.
-/
import Verif.Lemmas.SMatrix
import Mathlib.Tactic.FieldSimp

set_option linter.unusedSectionVars false

namespace Nidn

open Matrix

variable {ι : Type} [Fintype ι] [DecidableEq ι]

/-! ## C16 -/

/-- C16: whenever `GetSMatrix` returns (i.e. its inverses exist) for the layers `i..j`, the amplitudes computed from it are exactly the
solutions of the field-continuity equations at all interfaces: for every incoming pair `a0`, `bN` the outgoing pair is a solution, and
it is the only one. -/
theorem C16_solves (layers : List (LayerData ι)) (i j : ℕ) (hij : i ≤ j) (hj : j < layers.length)
    (hq : ∀ M ∈ slice layers i j, ∀ m, M.q m ≠ 0) (S : SMat ι) (h : getSMatrix layers i j = .ok S) (a0 bN b0 aN : ι → ℂ) :
    StackSol (slice layers i j) a0 b0 aN bN ↔
      (aN = S.s11.mulVec a0 + S.s12.mulVec bN ∧ b0 = S.s21.mulVec a0 + S.s22.mulVec bN) :=
  (getSMatrix_rel hij hj hq h a0 b0 aN bN).symm

/-- C16 for the whole stack, as used for reflectance and transmittance. -/
theorem C16_exterior (layers : List (LayerData ι)) (hq : ∀ M ∈ layers, ∀ m, M.q m ≠ 0) (a0 bN aN b0 : ι → ℂ)
    (r : (ι → ℂ) × (ι → ℂ)) (h : solveExterior layers a0 bN = .ok r) :
    StackSol layers a0 b0 aN bN ↔ (aN = r.1 ∧ b0 = r.2) := by
  unfold solveExterior at h
  rw [bind_ok] at h
  obtain ⟨S, h1, h2⟩ := h
  have hne : layers ≠ [] := by rintro rfl; simp [getSMatrix] at h1
  have hlen := List.length_pos_of_ne_nil hne
  injection h2 with h2
  subst h2
  have := getSMatrix_rel (Nat.zero_le _) (by omega) (by rw [slice_full _ hne]; exact hq) h1 a0 b0 aN bN
  rw [slice_full _ hne] at this
  exact this.symm

/-- C16: the scattering matrix of a single layer is the identity. -/
theorem C16_single (layers : List (LayerData ι)) (i : ℕ) (h : layers ≠ []) : getSMatrix layers i i = .ok ⟨1, 0, 0, 1⟩ := by
  cases layers with
  | nil => exact absurd rfl h
  | cons L rest => simp [getSMatrix, SMat.id]

/-- C16: asking for a start layer behind the end layer is an error. -/
theorem C16_reversed (layers : List (LayerData ι)) (i j : ℕ) (h : layers ≠ []) (hij : j < i) :
    getSMatrix layers i j = .error .exception := by
  cases layers with
  | nil => exact absurd rfl h
  | cons L rest => rw [getSMatrix, if_neg (by omega), if_pos hij]

/-- Two layers of the same material. -/
structure SameMaterial (L L' : LayerData ι) : Prop where
  q : L'.q = L.q
  phi : L'.phi = L.phi
  kp : L'.kp = L.kp

lemma recipVec_ok {q : ι → ℂ} (h : ∀ m, q m ≠ 0) : recipVec q = .ok fun m => 1 / q m := if_pos h

/-- between two layers of the same material the step never fails -/
lemma smStep_same {L L' : LayerData ι} (hs : SameMaterial L L') (hr : L.Regular) (S : SMat ι) :
    smStep L L' S = .ok ⟨diagonal L.phase * S.s11, diagonal L.phase * S.s12 * diagonal L'.phase,
      S.s21, S.s22 * diagonal L'.phase⟩ := by
  have hkp : IsUnit (L.kp * L.phi).det := by rw [Matrix.det_mul]; exact hr.kp.mul hr.phi
  have hq' : ∀ m, L'.q m ≠ 0 := by rw [hs.q]; exact hr.q
  have hQ : L.phi⁻¹ * L'.phi = 1 := by rw [hs.phi, Matrix.nonsing_inv_mul _ hr.phi]
  have hP : diagonal L.q * (L.kp * L.phi)⁻¹ * (L'.kp * L'.phi * diagonal fun m => 1 / L'.q m) = 1 := by
    rw [hs.q, hs.phi, hs.kp, Matrix.mul_assoc, ← Matrix.mul_assoc _ (L.kp * L.phi), Matrix.nonsing_inv_mul _ hkp, Matrix.one_mul,
      Matrix.diagonal_mul_diagonal, ← Matrix.diagonal_one]
    congr 1; ext m; exact mul_one_div_cancel (hr.q m)
  have h1 : (1 / 2 : ℂ) • ((1 : Matrix ι ι ℂ) + 1) = 1 := by module
  simp only [smStep, torchInverse_of_isUnit hr.phi, ok_bind, torchInverse_of_isUnit hkp, recipVec_ok hq', hQ, hP, h1, sub_self, smul_zero,
    Matrix.mul_zero, sub_zero, torchInverse_of_isUnit (by simp : IsUnit (1 : Matrix ι ι ℂ).det), inv_one, Matrix.one_mul,
    Matrix.mul_one, Matrix.zero_mul, add_zero]
  rfl

/-- The hypotheses of C16-C18 are met by every stack built from one regular material, of any length and any thicknesses. -/
lemma getSMatrix_same_ok (L : LayerData ι) (hr : L.Regular) (rest : List (LayerData ι)) (hs : ∀ M ∈ rest, SameMaterial L M) :
    ∃ S, getSMatrix (L :: rest) 0 rest.length = .ok S := by
  rw [getSMatrix_eq _ _ _ (Nat.zero_le _) (by simp)]
  simp only [List.drop_one, List.tail_cons, Nat.sub_zero, List.take_length, List.getElem_cons_zero, zero_add]
  generalize (SMat.id : SMat ι) = S
  induction rest generalizing S L with
  | nil => exact ⟨S, rfl⟩
  | cons L' rest ih =>
    have h0 := hs L' List.mem_cons_self
    rw [sLoop, smStep_same h0 hr]
    exact ih L' ⟨by rw [h0.phi]; exact hr.phi, by rw [h0.kp]; exact hr.kp, by rw [h0.q]; exact hr.q⟩
      (fun M hM => by
        have h1 := hs M (List.mem_cons_of_mem _ hM)
        exact ⟨h1.q.trans h0.q.symm, h1.phi.trans h0.phi.symm, h1.kp.trans h0.kp.symm⟩) _

/-- C16: with valid indices the only failures are singular matrices (RuntimeError) and vanishing wave numbers (nan). -/
theorem C16_failures (layers : List (LayerData ι)) (i j : ℕ) (hij : i ≤ j) (hj : j < layers.length) (e : PyErr)
    (h : getSMatrix layers i j = .error e) : e = .runtimeError ∨ e = .nan := by
  rw [getSMatrix_eq layers i j hij hj] at h
  generalize (SMat.id : SMat ι) = S at h
  generalize (List.take (j - i) (List.drop (i + 1) layers)) = rest at h
  generalize layers[i] = L at h
  induction rest generalizing S L with
  | nil => simp [sLoop] at h
  | cons L' rest ih =>
    rw [sLoop, bind_err] at h
    rcases h with h | ⟨S', -, h⟩
    · have ht : ∀ (M : Matrix ι ι ℂ) e, torchInverse M = .error e → e = .runtimeError := by
        intro M e h; unfold torchInverse at h; split at h
        · simp at h
        · injection h with h; exact h.symm
      have hv : ∀ (q : ι → ℂ) e, recipVec q = .error e → e = .nan := by
        intro M e h; unfold recipVec at h; split at h
        · simp at h
        · injection h with h; exact h.symm
      simp only [smStep, bind_err] at h
      rcases h with h | ⟨_, -, h⟩
      · exact .inl (ht _ _ h)
      rcases h with h | ⟨_, -, h⟩
      · exact .inl (ht _ _ h)
      rcases h with h | ⟨_, -, h⟩
      · exact .inr (hv _ _ h)
      rcases h with h | ⟨_, -, h⟩
      · exact .inl (ht _ _ h)
      · cases h
    · exact ih _ _ h

/-- Non-trivial instance of the hypotheses: an interface between two different media (wave numbers 1 and 2). -/
example : ∃ S, getSMatrix [(⟨fun _ => 1, 1, 1, 1⟩ : LayerData Unit), ⟨fun _ => 2, 1, 1, 3⟩] 0 1 = .ok S := by
  rw [getSMatrix_eq _ _ _ (by omega) (by simp)]
  have h : IsUnit (((1 / 2 : ℂ) • ((1 : Matrix Unit Unit ℂ) + diagonal fun _ => 1 / 2) - diagonal (fun _ => 0)).det) := by
    rw [Matrix.det_unique]; simp
    intro h; norm_num at h
  simp only [Nat.sub_zero, zero_add, List.drop_one, List.tail_cons, List.take_succ_cons, List.take_zero, List.getElem_cons_zero, sLoop, smStep,
    Matrix.mul_one, Matrix.one_mul, torchInverse_of_isUnit (by simp : IsUnit (1 : Matrix Unit Unit ℂ).det), ok_bind, inv_one,
    recipVec_ok (fun _ => two_ne_zero : ∀ _ : Unit, (2 : ℂ) ≠ 0), Matrix.diagonal_one, SMat.id, Matrix.mul_zero, Matrix.zero_mul]
  rw [show (0 : Matrix Unit Unit ℂ) = diagonal (fun _ => 0) from (Matrix.diagonal_zero).symm, torchInverse_of_isUnit h]
  exact ⟨_, rfl⟩

/-! ## C17 -/

lemma stackSol_append (xs : List (LayerData ι)) (L : LayerData ι) (ys : List (LayerData ι)) (a0 b0 aN bN : ι → ℂ) :
    StackSol (xs ++ L :: ys) a0 b0 aN bN ↔ ∃ a b, StackSol (xs ++ [L]) a0 b0 a b ∧ StackSol (L :: ys) a b aN bN := by
  induction xs generalizing a0 b0 with
  | nil =>
    constructor
    · intro h; exact ⟨a0, b0, ⟨rfl, rfl⟩, h⟩
    · rintro ⟨a, b, ⟨rfl, rfl⟩, h⟩; exact h
  | cons X xs ih =>
    cases xs with
    | nil =>
      simp only [List.cons_append, List.nil_append] at ih ⊢
      rw [StackSol]
      simp only [StackSol]
      constructor
      · rintro ⟨a', b', h1, h2⟩; exact ⟨a', b', ⟨a', b', h1, rfl, rfl⟩, h2⟩
      · rintro ⟨a, b, ⟨a', b', h1, rfl, rfl⟩, h2⟩; exact ⟨_, _, h1, h2⟩
    | cons Y xs =>
      simp only [List.cons_append] at ih ⊢
      rw [StackSol]
      simp only [ih]
      constructor
      · rintro ⟨a', b', h1, a, b, h2, h3⟩; exact ⟨a, b, ⟨a', b', h1, h2⟩, h3⟩
      · rintro ⟨a, b, ⟨a', b', h1, h2⟩, h3⟩; exact ⟨a', b', h1, a, b, h2, h3⟩

lemma slice_split (layers : List (LayerData ι)) (i k j : ℕ) (hik : i ≤ k) (hkj : k ≤ j) (hj : j < layers.length) :
    ∃ xs L ys, slice layers i k = xs ++ [L] ∧ slice layers k j = L :: ys ∧ slice layers i j = xs ++ L :: ys := by
  refine ⟨(layers.drop i).take (k - i), layers[k]'(by omega), (layers.drop (k + 1)).take (j - k), ?_, slice_eq _ _ _ hkj hj, ?_⟩
  · rw [slice, show k + 1 - i = (k - i) + 1 by omega, List.take_add_one, List.getElem?_drop, show i + (k - i) = k by omega,
      List.getElem?_eq_getElem (by omega)]
    rfl
  · rw [← slice_eq _ _ _ hkj hj, slice, slice, show j + 1 - i = (k - i) + (j + 1 - k) by omega, List.take_add, List.drop_drop,
      show i + (k - i) = k by omega]

lemma sol_split (layers : List (LayerData ι)) (i k j : ℕ) (hik : i ≤ k) (hkj : k ≤ j) (hj : j < layers.length) (a0 b0 aN bN : ι → ℂ) :
    StackSol (slice layers i j) a0 b0 aN bN ↔
      ∃ a b, StackSol (slice layers i k) a0 b0 a b ∧ StackSol (slice layers k j) a b aN bN := by
  obtain ⟨xs, L, ys, h1, h2, h3⟩ := slice_split layers i k j hik hkj hj
  rw [h1, h2, h3, stackSol_append]

omit [DecidableEq ι] in
lemma matrix_ext_mulVec {M N : Matrix ι ι ℂ} (h : ∀ v, M *ᵥ v = N *ᵥ v) : M = N := by
  classical
  ext i j
  have := congrFun (h (Pi.single j 1)) i
  simpa using this

/-- C17: cutting a stack at any layer `k`, the scattering matrix of the whole is the Redheffer star product of those of the parts. -/
theorem C17_star (layers : List (LayerData ι)) (i k j : ℕ) (hik : i ≤ k) (hkj : k ≤ j) (hj : j < layers.length)
    (hq : ∀ M ∈ layers, ∀ m, M.q m ≠ 0) (A B S : SMat ι)
    (hA : getSMatrix layers i k = .ok A) (hB : getSMatrix layers k j = .ok B) (hS : getSMatrix layers i j = .ok S)
    (W : Matrix ι ι ℂ) (hW : W * (1 - A.s12 * B.s21) = 1) :
    S.s11 = B.s11 * W * A.s11 ∧
    S.s12 = B.s12 + B.s11 * W * A.s12 * B.s22 ∧
    S.s21 = A.s21 + A.s22 * B.s21 * W * A.s11 ∧
    S.s22 = A.s22 * B.s22 + A.s22 * B.s21 * W * A.s12 * B.s22 := by
  have hqs : ∀ i j, ∀ M ∈ slice layers i j, ∀ m, M.q m ≠ 0 := fun i j M hM =>
    hq M (List.mem_of_mem_drop (List.mem_of_mem_take hM))
  have key : ∀ a0 bN : ι → ℂ,
      S.s11 *ᵥ a0 + S.s12 *ᵥ bN = B.s11 *ᵥ (W *ᵥ (A.s11 *ᵥ a0 + A.s12 *ᵥ (B.s22 *ᵥ bN))) + B.s12 *ᵥ bN ∧
      S.s21 *ᵥ a0 + S.s22 *ᵥ bN = A.s21 *ᵥ a0 + A.s22 *ᵥ
        (B.s21 *ᵥ (W *ᵥ (A.s11 *ᵥ a0 + A.s12 *ᵥ (B.s22 *ᵥ bN))) + B.s22 *ᵥ bN) := by
    intro a0 bN
    have hsol := (getSMatrix_rel (hik.trans hkj) hj (hqs _ _) hS a0 (S.s21 *ᵥ a0 + S.s22 *ᵥ bN) (S.s11 *ᵥ a0 + S.s12 *ᵥ bN) bN).1
      ⟨rfl, rfl⟩
    obtain ⟨a, b, h1, h2⟩ := (sol_split layers i k j hik hkj hj _ _ _ _).1 hsol
    obtain ⟨r1, r2⟩ := (getSMatrix_rel hik (by omega) (hqs _ _) hA _ _ _ _).2 h1
    obtain ⟨r3, r4⟩ := (getSMatrix_rel hkj hj (hqs _ _) hB _ _ _ _).2 h2
    have hab : (1 - A.s12 * B.s21) *ᵥ a = A.s11 *ᵥ a0 + A.s12 *ᵥ (B.s22 *ᵥ bN) := by
      rw [Matrix.sub_mulVec, Matrix.one_mulVec, ← Matrix.mulVec_mulVec]
      conv_lhs => lhs; rw [r1]
      rw [r4, Matrix.mulVec_add]; abel
    have ha : a = W *ᵥ (A.s11 *ᵥ a0 + A.s12 *ᵥ (B.s22 *ᵥ bN)) := by
      rw [← hab, Matrix.mulVec_mulVec, hW, Matrix.one_mulVec]
    exact ⟨by rw [r3, ← ha], by rw [r2, ← ha, ← r4]⟩
  refine ⟨matrix_ext_mulVec fun v => ?_, matrix_ext_mulVec fun v => ?_, matrix_ext_mulVec fun v => ?_, matrix_ext_mulVec fun v => ?_⟩
  · have := (key v 0).1
    simpa [Matrix.mulVec_mulVec, Matrix.mul_assoc] using this
  · have := (key 0 v).1
    simp only [Matrix.mulVec_zero, zero_add] at this
    rw [this]
    simp only [Matrix.add_mulVec, Matrix.mulVec_mulVec, Matrix.mul_assoc]
    rw [add_comm]
  · have := (key v 0).2
    simpa [Matrix.mulVec_mulVec, Matrix.mul_assoc, Matrix.add_mulVec] using this
  · have := (key 0 v).2
    simp only [Matrix.mulVec_zero, zero_add] at this
    rw [this]
    simp only [Matrix.add_mulVec, Matrix.mulVec_mulVec, Matrix.mul_assoc, Matrix.mulVec_add]
    rw [add_comm]

/-- C17, interior amplitudes: with a working inverse in place of `torch.inv` the amplitudes reconstructed in layer `k` are consistent with the
exterior solution. Missing: the code as written never returns, see `C17_interior_false`. -/
theorem C17_interior_partial (layers : List (LayerData ι)) (k : ℕ) (hk : k < layers.length) (hq : ∀ M ∈ layers, ∀ m, M.q m ≠ 0)
    (a0 bN : ι → ℂ) (r : (ι → ℂ) × (ι → ℂ)) (hr : solveExterior layers a0 bN = .ok r)
    (s : (ι → ℂ) × (ι → ℂ)) (hs : solveInteriorWith torchInverse layers k a0 bN = .ok s) :
    StackSol (slice layers 0 k) a0 r.2 s.1 s.2 ∧ StackSol (slice layers k (layers.length - 1)) s.1 s.2 r.1 bN := by
  have hqs : ∀ i j, ∀ M ∈ slice layers i j, ∀ m, M.q m ≠ 0 := fun i j M hM =>
    hq M (List.mem_of_mem_drop (List.mem_of_mem_take hM))
  unfold solveInteriorWith at hs
  simp only [bind_ok] at hs
  obtain ⟨A, hA, B, hB, W, hW, h3⟩ := hs
  injection h3 with h3; subst h3
  obtain ⟨-, hW1, hW2⟩ := torchInverse_ok hW
  set a := W *ᵥ (A.s11 *ᵥ a0 + A.s12 *ᵥ (B.s22 *ᵥ bN)) with ha
  have hsol := (C16_exterior layers hq a0 bN r.1 r.2 r hr).2 ⟨rfl, rfl⟩
  have hne : layers ≠ [] := by rintro rfl; simp at hk
  rw [← slice_full layers hne, sol_split layers 0 k _ (by omega) (by omega) (by omega)] at hsol
  obtain ⟨a', b', h1, h2⟩ := hsol
  obtain ⟨r1, r2⟩ := (getSMatrix_rel (by omega) hk (hqs _ _) hA _ _ _ _).2 h1
  obtain ⟨r3, r4⟩ := (getSMatrix_rel (by omega) (by omega) (hqs _ _) hB _ _ _ _).2 h2
  have hab : (1 - A.s12 * B.s21) *ᵥ a' = A.s11 *ᵥ a0 + A.s12 *ᵥ (B.s22 *ᵥ bN) := by
    rw [Matrix.sub_mulVec, Matrix.one_mulVec, ← Matrix.mulVec_mulVec]
    conv_lhs => lhs; rw [r1]
    rw [r4, Matrix.mulVec_add]; abel
  have ha' : a' = a := by rw [ha, ← hab, Matrix.mulVec_mulVec, hW1, Matrix.one_mulVec]
  subst ha'
  rw [← r4]
  exact ⟨h1, h2⟩

/-- C17 is false about interior amplitudes: `SolveInterior` raises AttributeError for every stack whose two parts can be computed. -/
theorem C17_interior_false (layers : List (LayerData ι)) (k : ℕ) (a0 bN : ι → ℂ) (A B : SMat ι)
    (hA : getSMatrix layers 0 k = .ok A) (hB : getSMatrix layers k (layers.length - 1) = .ok B) :
    solveInterior layers k a0 bN = .error .attributeError := by
  simp only [solveInterior, solveInteriorWith, hA, hB, ok_bind, error_bind]

/-! ## C18 -/

/-- Layer `L` cut into two slabs of the same material. -/
structure SplitInto (L L1 L2 : LayerData ι) : Prop where
  m1 : SameMaterial L L1
  m2 : SameMaterial L L2
  d : L1.d + L2.d = L.d

omit [Fintype ι] [DecidableEq ι] in
lemma through_split {L L1 L2 : LayerData ι} (h : SplitInto L L1 L2) (x : ι → ℂ) : L.through x = L1.through (L2.through x) := by
  ext m
  simp only [LayerData.through, h.m1.q, h.m2.q]
  rw [← mul_assoc, ← Complex.exp_add, ← h.d]
  congr 2
  push_cast; ring

omit [Fintype ι] [DecidableEq ι] in
lemma through_comm {L L1 L2 : LayerData ι} (h : SplitInto L L1 L2) (x : ι → ℂ) : L2.through (L1.through x) = L.through x := by
  rw [through_split h]
  ext m
  simp only [LayerData.through]; ring

omit [DecidableEq ι] in
lemma hTan_same {L L' : LayerData ι} (h : SameMaterial L L') (u v : ι → ℂ) : L'.hTan u v = L.hTan u v := by
  simp [LayerData.hTan, h.phi]

omit [DecidableEq ι] in
lemma eTan_same {L L' : LayerData ι} (h : SameMaterial L L') (u v : ι → ℂ) : L'.eTan u v = L.eTan u v := by
  simp [LayerData.eTan, h.phi, h.kp, h.q]

/-- the tangential fields determine the amplitudes -/
lemma tan_inj {L : LayerData ι} (hr : L.Regular) {u v u' v' : ι → ℂ} (hh : L.hTan u v = L.hTan u' v') (he : L.eTan u v = L.eTan u' v') :
    u = u' ∧ v = v' := by
  have h1 := mulVec_cancel (Matrix.nonsing_inv_mul _ hr.phi) hh
  have h2 := mulVec_cancel (Matrix.nonsing_inv_mul _ hr.phi) (mulVec_cancel (Matrix.nonsing_inv_mul _ hr.kp) he)
  have h3 : u - v = u' - v' := by
    ext m
    have := congrFun h2 m
    field_simp [hr.q m] at this
    exact this
  constructor
  · have : (2 : ℂ) • u = (2 : ℂ) • u' := by
      have := congrArg₂ (· + ·) h1 h3
      simp only [add_add_sub_cancel] at this
      rwa [two_smul, two_smul]
    exact smul_right_injective _ two_ne_zero this
  · have : (2 : ℂ) • v = (2 : ℂ) • v' := by
      have := congrArg₂ (· - ·) h1 h3
      simp only [add_sub_sub_cancel] at this
      rwa [two_smul, two_smul]
    exact smul_right_injective _ two_ne_zero this

/-- any tangential fields are realised by amplitudes -/
lemma tan_surj {L : LayerData ι} (hr : L.Regular) (h e : ι → ℂ) : ∃ u v, L.hTan u v = h ∧ L.eTan u v = e := by
  set x := L.phi⁻¹ *ᵥ h
  set y := (fun m => L.q m * (L.phi⁻¹ *ᵥ (L.kp⁻¹ *ᵥ e)) m : ι → ℂ) with hy
  refine ⟨(1 / 2 : ℂ) • (x + y), (1 / 2 : ℂ) • (x - y), ?_, ?_⟩
  · rw [LayerData.hTan, show (1 / 2 : ℂ) • (x + y) + (1 / 2 : ℂ) • (x - y) = x by module, Matrix.mulVec_mulVec,
      Matrix.mul_nonsing_inv _ hr.phi, Matrix.one_mulVec]
  · have : (fun m => (((1 / 2 : ℂ) • (x + y)) m - ((1 / 2 : ℂ) • (x - y)) m) / L.q m) = L.phi⁻¹ *ᵥ (L.kp⁻¹ *ᵥ e) := by
      ext m
      have hq := hr.q m
      simp only [Pi.smul_apply, Pi.add_apply, Pi.sub_apply, smul_eq_mul, hy]
      field_simp; ring
    rw [LayerData.eTan, this, Matrix.mulVec_mulVec (L.kp⁻¹ *ᵥ e) L.phi, Matrix.mul_nonsing_inv _ hr.phi, Matrix.one_mulVec, Matrix.mulVec_mulVec,
      Matrix.mul_nonsing_inv _ hr.kp, Matrix.one_mulVec]

lemma split_front {L L1 L2 : LayerData ι} (h : SplitInto L L1 L2) (hr : L.Regular) (N : LayerData ι) (rest : List (LayerData ι))
    (a b aN bN : ι → ℂ) :
    StackSol (L1 :: L2 :: N :: rest) a b aN bN ↔ ∃ b1, b = L2.through b1 ∧ StackSol (L :: N :: rest) a b1 aN bN := by
  simp only [StackSol]
  have hc : ∀ x y a' b', Continuous L2 N x y a' b' ↔
      (L.hTan (L2.through x) y = N.hTan a' (N.through b') ∧ L.eTan (L2.through x) y = N.eTan a' (N.through b')) := by
    intro x y a' b'
    rw [← hTan_same h.m2, ← eTan_same h.m2]
    exact ⟨fun h => ⟨h.h, h.e⟩, fun h => ⟨h.1, h.2⟩⟩
  constructor
  · rintro ⟨a2, b2, h1, a', b', h2, h3⟩
    have e1 := h1.h
    have e2 := h1.e
    rw [hTan_same h.m1, hTan_same h.m2] at e1
    rw [eTan_same h.m1, eTan_same h.m2] at e2
    obtain ⟨e3, e4⟩ := tan_inj hr e1 e2
    subst e3; subst e4
    rw [hc, through_comm h] at h2
    exact ⟨b2, rfl, a', b', ⟨h2.1, h2.2⟩, h3⟩
  · rintro ⟨b1, rfl, a', b', h1, h2⟩
    refine ⟨L1.through a, b1, ⟨?_, ?_⟩, a', b', ?_, h2⟩
    · rw [hTan_same h.m1, hTan_same h.m2]
    · rw [eTan_same h.m1, eTan_same h.m2]
    · rw [hc, through_comm h]; exact ⟨h1.h, h1.e⟩

lemma split_stack {L L1 L2 : LayerData ι} (h : SplitInto L L1 L2) (hr : L.Regular) (M : LayerData ι) (pre : List (LayerData ι))
    (N : LayerData ι) (rest : List (LayerData ι)) (a b aN bN : ι → ℂ) :
    StackSol (M :: pre ++ L1 :: L2 :: N :: rest) a b aN bN ↔ StackSol (M :: pre ++ L :: N :: rest) a b aN bN := by
  induction pre generalizing M a b with
  | nil =>
    simp only [List.singleton_append]
    rw [StackSol, StackSol]
    simp only [split_front h hr]
    have hcont : ∀ x y, Continuous M L1 a b x (L2.through y) ↔ Continuous M L a b x y := by
      intro x y
      constructor
      · intro hc
        refine ⟨?_, ?_⟩
        · rw [hc.h, hTan_same h.m1, ← through_split h]
        · rw [hc.e, eTan_same h.m1, ← through_split h]
      · intro hc
        refine ⟨?_, ?_⟩
        · rw [hc.h, hTan_same h.m1, ← through_split h]
        · rw [hc.e, eTan_same h.m1, ← through_split h]
    constructor
    · rintro ⟨x, y, h1, b1, rfl, h2⟩; exact ⟨x, b1, (hcont _ _).1 h1, h2⟩
    · rintro ⟨x, y, h1, h2⟩; exact ⟨x, _, (hcont _ _).2 h1, y, rfl, h2⟩
  | cons M' pre ih =>
    simp only [List.cons_append] at ih ⊢
    rw [StackSol, StackSol]
    simp only [ih]

lemma zero_stack {Z : LayerData ι} (hd : Z.d = 0) (hr : Z.Regular) (M : LayerData ι) (pre : List (LayerData ι))
    (N : LayerData ι) (rest : List (LayerData ι)) (a b aN bN : ι → ℂ) :
    StackSol (M :: pre ++ Z :: N :: rest) a b aN bN ↔ StackSol (M :: pre ++ N :: rest) a b aN bN := by
  have ht : ∀ x, Z.through x = x := by intro x; ext m; simp [LayerData.through, hd]
  induction pre generalizing M a b with
  | nil =>
    simp only [List.singleton_append]
    rw [StackSol, StackSol]
    simp only [StackSol]
    constructor
    · rintro ⟨x, y, h1, a', b', h2, h3⟩
      refine ⟨a', b', ⟨?_, ?_⟩, h3⟩
      · rw [h1.h, ← h2.h, ht, ht]
      · rw [h1.e, ← h2.e, ht, ht]
    · rintro ⟨a', b', h1, h2⟩
      obtain ⟨u, v, hu, hv⟩ := tan_surj hr (M.hTan (M.through a) b) (M.eTan (M.through a) b)
      refine ⟨u, v, ⟨?_, ?_⟩, a', b', ⟨?_, ?_⟩, h2⟩
      · rw [ht, hu]
      · rw [ht, hv]
      · rw [ht, hu, h1.h]
      · rw [ht, hv, h1.e]
  | cons M' pre ih =>
    simp only [List.cons_append] at ih ⊢
    rw [StackSol, StackSol]
    simp only [ih]

variable {κ : Type} [Fintype κ] [DecidableEq κ]

/-- two stacks with the same solutions and the same outer layers have the same reflectance and transmittance -/
lemma rt_congr (ω : ℂ) (norm : ℝ) (s t : List (LayerData (κ ⊕ κ))) (hs : ∀ M ∈ s, ∀ m, M.q m ≠ 0) (ht : ∀ M ∈ t, ∀ m, M.q m ≠ 0)
    (hh : s.head? = t.head?) (hl : s.getLast? = t.getLast?) (hsol : ∀ a b aN bN, StackSol s a b aN bN ↔ StackSol t a b aN bN)
    (a0 bN : κ ⊕ κ → ℂ) (r r' : ℝ × ℝ) (h : rtForward ω norm s a0 bN = .ok r) (h' : rtForward ω norm t a0 bN = .ok r') : r = r' := by
  unfold rtForward at h h'
  rw [bind_ok] at h h'
  obtain ⟨x, h1, h2⟩ := h
  obtain ⟨y, h3, h4⟩ := h'
  have e := (C16_exterior t ht a0 bN x.1 x.2 y h3).1 ((hsol _ _ _ _).1 ((C16_exterior s hs a0 bN x.1 x.2 x h1).2 ⟨rfl, rfl⟩))
  have : x = y := Prod.ext e.1 e.2
  subst this
  rw [hh, hl, h4] at h2
  injection h2 with h2
  exact h2.symm

/-- C18: replacing an interior layer by two consecutive layers of the same material whose thicknesses add up leaves reflectance and
transmittance unchanged, for every stack and every real split (whenever both are computed). -/
theorem C18_split_layer (ω : ℂ) (norm : ℝ) (M : LayerData (κ ⊕ κ)) (pre : List (LayerData (κ ⊕ κ))) (L L1 L2 N : LayerData (κ ⊕ κ))
    (post : List (LayerData (κ ⊕ κ))) (h : SplitInto L L1 L2) (hr : L.Regular)
    (hq : ∀ X ∈ M :: pre ++ L :: N :: post, ∀ m, X.q m ≠ 0) (a0 bN : κ ⊕ κ → ℂ) (r r' : ℝ × ℝ)
    (h1 : rtForward ω norm (M :: pre ++ L :: N :: post) a0 bN = .ok r)
    (h2 : rtForward ω norm (M :: pre ++ L1 :: L2 :: N :: post) a0 bN = .ok r') : r = r' := by
  refine rt_congr ω norm _ _ hq ?_ ?_ ?_ (fun a b aN bN => (split_stack h hr M pre N post a b aN bN).symm) a0 bN r r' h1 h2
  · intro X hX
    simp only [List.cons_append, List.mem_cons, List.mem_append] at hX hq
    rcases hX with h0 | h0 | h0 | h0 | h0 | h0
    · exact hq X (.inl h0)
    · exact hq X (.inr (.inl h0))
    · rw [h0, h.m1.q]; exact hq L (.inr (.inr (.inl rfl)))
    · rw [h0, h.m2.q]; exact hq L (.inr (.inr (.inl rfl)))
    · exact hq X (.inr (.inr (.inr (.inl h0))))
    · exact hq X (.inr (.inr (.inr (.inr h0))))
  · simp
  · simp [List.getLast?_append, List.getLast?_cons]

/-- C18: inserting a layer of zero thickness, of any material, leaves reflectance and transmittance unchanged. -/
theorem C18_zero_layer (ω : ℂ) (norm : ℝ) (M : LayerData (κ ⊕ κ)) (pre : List (LayerData (κ ⊕ κ))) (Z N : LayerData (κ ⊕ κ))
    (post : List (LayerData (κ ⊕ κ))) (hd : Z.d = 0) (hr : Z.Regular)
    (hq : ∀ X ∈ M :: pre ++ N :: post, ∀ m, X.q m ≠ 0) (a0 bN : κ ⊕ κ → ℂ) (r r' : ℝ × ℝ)
    (h1 : rtForward ω norm (M :: pre ++ N :: post) a0 bN = .ok r)
    (h2 : rtForward ω norm (M :: pre ++ Z :: N :: post) a0 bN = .ok r') : r = r' := by
  refine rt_congr ω norm _ _ hq ?_ ?_ ?_ (fun a b aN bN => (zero_stack hd hr M pre N post a b aN bN).symm) a0 bN r r' h1 h2
  · intro X hX
    simp only [List.cons_append, List.mem_cons, List.mem_append] at hX hq
    rcases hX with h0 | h0 | h0 | h0 | h0
    · exact hq X (.inl h0)
    · exact hq X (.inr (.inl h0))
    · rw [h0]; exact hr.q
    · exact hq X (.inr (.inr (.inl h0)))
    · exact hq X (.inr (.inr (.inr h0)))
  · simp
  · simp [List.getLast?_append, List.getLast?_cons]

/-- Instance: a stack of one material can always be solved, and so can the stack with one of its layers split. -/
example (ω : ℂ) (L : LayerData (κ ⊕ κ)) (hr : L.Regular) (a0 bN : κ ⊕ κ → ℂ) : ∃ r r',
    rtForward ω 1 ([L] ++ [{L with d := 3}, L]) a0 bN = .ok r ∧
    rtForward ω 1 ([L] ++ [{L with d := 1}, {L with d := 2}, L]) a0 bN = .ok r' := by
  obtain ⟨S, hS⟩ := getSMatrix_same_ok L hr [{L with d := 3}, L] (by intro M hM; simp at hM; rcases hM with h | h <;> subst h <;> exact ⟨rfl, rfl, rfl⟩)
  obtain ⟨S', hS'⟩ := getSMatrix_same_ok L hr [{L with d := 1}, {L with d := 2}, L]
    (by intro M hM; simp at hM; rcases hM with h | h | h <;> subst h <;> exact ⟨rfl, rfl, rfl⟩)
  simp only [rtForward, solveExterior, List.singleton_append]
  simp only [List.length_cons, List.length_nil, Nat.add_sub_cancel] at *
  rw [hS, hS']
  exact ⟨_, _, rfl, rfl⟩

end Nidn
