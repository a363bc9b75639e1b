/-
Lemmas about the scattering-matrix recursion: one step, the loop, the whole stack.
-/
import Verif.Spec.Stack
import Verif.Lemmas.Py
import Mathlib.Tactic.Linarith
import Mathlib.Tactic.Ring
import Mathlib.Tactic.Abel
import Mathlib.Tactic.Module

namespace Nidn

open Matrix

variable {ι : Type} [Fintype ι] [DecidableEq ι]

lemma torchInverse_ok {M N : Matrix ι ι ℂ} (h : torchInverse M = .ok N) : IsUnit M.det ∧ N * M = 1 ∧ M * N = 1 := by
  unfold torchInverse at h
  split at h
  · rename_i hu
    injection h with h; subst h
    exact ⟨hu, Matrix.nonsing_inv_mul _ hu, Matrix.mul_nonsing_inv _ hu⟩
  · simp at h

lemma torchInverse_of_isUnit {M : Matrix ι ι ℂ} (h : IsUnit M.det) : torchInverse M = .ok M⁻¹ := if_pos h

lemma mulVec_cancel {M N : Matrix ι ι ℂ} (h : N * M = 1) {x y : ι → ℂ} (e : M *ᵥ x = M *ᵥ y) : x = y := by
  have := congrArg (N *ᵥ ·) e
  simpa [Matrix.mulVec_mulVec, h] using this

lemma through_eq (L : LayerData ι) (a : ι → ℂ) : L.through a = diagonal L.phase *ᵥ a := by
  ext m; simp [LayerData.through, LayerData.phase, Matrix.mulVec_diagonal]

/-- field continuity in terms of the two transfer matrices of the code -/
lemma continuous_iff {L L' : LayerData ι} {phiInv kpphiInv : Matrix ι ι ℂ} (hq : ∀ m, L.q m ≠ 0)
    (h1 : phiInv * L.phi = 1) (h1' : L.phi * phiInv = 1)
    (h2 : kpphiInv * (L.kp * L.phi) = 1) (h2' : (L.kp * L.phi) * kpphiInv = 1)
    {Q P : Matrix ι ι ℂ} (hQ : Q = phiInv * L'.phi)
    (hP : P = (diagonal L.q * kpphiInv) * ((L'.kp * L'.phi) * diagonal fun m => 1 / L'.q m))
    (a b a' b' : ι → ℂ) :
    Continuous L L' a b a' b' ↔
      L.through a = ((1 / 2 : ℂ) • (Q + P)) *ᵥ a' + ((1 / 2 : ℂ) • (Q - P)) *ᵥ L'.through b' ∧
      b = ((1 / 2 : ℂ) • (Q - P)) *ᵥ a' + ((1 / 2 : ℂ) • (Q + P)) *ᵥ L'.through b' := by
  set u := L.through a
  set v' := L'.through b'
  have hH : L.hTan u b = L'.hTan a' v' ↔ u + b = Q *ᵥ (a' + v') := by
    rw [LayerData.hTan, LayerData.hTan, hQ]
    constructor
    · intro h
      have := congrArg (phiInv *ᵥ ·) h
      simpa [Matrix.mulVec_mulVec, h1] using this
    · intro h
      rw [h, Matrix.mulVec_mulVec, ← Matrix.mul_assoc, h1', Matrix.one_mul]
  have eT : ∀ (M : LayerData ι) (x y : ι → ℂ), M.eTan x y = (M.kp * M.phi) *ᵥ ((diagonal fun m => 1 / M.q m) *ᵥ (x - y)) := by
    intro M x y
    rw [LayerData.eTan, Matrix.mulVec_mulVec]
    congr 1
    ext m
    rw [Matrix.mulVec_diagonal]; simp only [Pi.sub_apply]; ring
  have hqq : (diagonal L.q) * (diagonal fun m => 1 / L.q m) = (1 : Matrix ι ι ℂ) := by
    rw [Matrix.diagonal_mul_diagonal, ← Matrix.diagonal_one]
    congr 1; ext m; exact mul_one_div_cancel (hq m)
  have hqq' : (diagonal fun m => 1 / L.q m) * (diagonal L.q) = (1 : Matrix ι ι ℂ) := by
    rw [Matrix.diagonal_mul_diagonal, ← Matrix.diagonal_one]
    congr 1; ext m; exact one_div_mul_cancel (hq m)
  have hE : L.eTan u b = L'.eTan a' v' ↔ u - b = P *ᵥ (a' - v') := by
    rw [eT, eT]
    constructor
    · intro h
      have := congrArg ((diagonal L.q * kpphiInv) *ᵥ ·) h
      simp only [Matrix.mulVec_mulVec] at this
      rw [hP]
      rw [show diagonal L.q * kpphiInv * (L.kp * L.phi * diagonal fun m => 1 / L.q m) = 1 by
        rw [Matrix.mul_assoc, ← Matrix.mul_assoc kpphiInv, h2, Matrix.one_mul, hqq], Matrix.one_mulVec] at this
      exact this
    · intro h
      rw [h, hP]
      simp only [Matrix.mulVec_mulVec]
      congr 1
      have : L.kp * L.phi * ((diagonal fun m => 1 / L.q m) * (diagonal L.q * kpphiInv)) = 1 := by
        rw [← Matrix.mul_assoc (diagonal _), hqq', Matrix.one_mul, h2']
      calc _ = (L.kp * L.phi * ((diagonal fun m => 1 / L.q m) * (diagonal L.q * kpphiInv))) *
              (L'.kp * L'.phi * diagonal fun m => 1 / L'.q m) := by simp only [Matrix.mul_assoc]
        _ = _ := by rw [this, Matrix.one_mul]
  have hcont : Continuous L L' a b a' b' ↔ (u + b = Q *ᵥ (a' + v') ∧ u - b = P *ᵥ (a' - v')) :=
    ⟨fun h => ⟨hH.1 h.h, hE.1 h.e⟩, fun h => ⟨hH.2 h.1, hE.2 h.2⟩⟩
  rw [hcont]
  simp only [Matrix.smul_mulVec, Matrix.add_mulVec, Matrix.sub_mulVec, Matrix.mulVec_add, Matrix.mulVec_sub]
  constructor
  · rintro ⟨ha, hb⟩
    have hu : u = (1 / 2 : ℂ) • ((u + b) + (u - b)) := by module
    have hv : b = (1 / 2 : ℂ) • ((u + b) - (u - b)) := by module
    rw [ha, hb] at hu hv
    exact ⟨by rw [hu]; module, by rw [hv]; module⟩
  · rintro ⟨ha, hb⟩
    rw [ha, hb]
    constructor <;> module

/-- The relation between outer and inner amplitudes expressed by a scattering matrix. -/
def SMat.Rel (S : SMat ι) (a0 b0 a b : ι → ℂ) : Prop :=
  a = S.s11 *ᵥ a0 + S.s12 *ᵥ b ∧ b0 = S.s21 *ᵥ a0 + S.s22 *ᵥ b

lemma smStep_rel {L L' : LayerData ι} {S S' : SMat ι} (hq : ∀ m, L.q m ≠ 0) (h : smStep L L' S = .ok S')
    (a0 b0 a' b' : ι → ℂ) :
    S'.Rel a0 b0 a' b' ↔ ∃ a b, S.Rel a0 b0 a b ∧ Continuous L L' a b a' b' := by
  unfold smStep at h
  simp only [bind_ok] at h
  obtain ⟨phiInv, h1, kpphiInv, h2, qi, h3, P1, h4, h5⟩ := h
  injection h5 with h5
  obtain ⟨-, h1a, h1b⟩ := torchInverse_ok h1
  obtain ⟨-, h2a, h2b⟩ := torchInverse_ok h2
  obtain ⟨-, h4a, h4b⟩ := torchInverse_ok h4
  have h3' : qi = fun m => 1 / L'.q m := by
    unfold recipVec at h3
    split at h3
    · injection h3 with h3; exact h3.symm
    · simp at h3
  subst h3'
  set Q := phiInv * L'.phi with hQ
  set P := diagonal L.q * kpphiInv * (L'.kp * L'.phi * diagonal fun m => 1 / L'.q m) with hP
  have hc := fun a b => continuous_iff (L' := L') hq h1a h1b h2a h2b hQ hP a b a' b'
  set T11 := (1 / 2 : ℂ) • (Q + P)
  set T12 := (1 / 2 : ℂ) • (Q - P)
  simp only [hc]
  subst h5
  simp only [SMat.Rel]
  simp only [through_eq]
  set d1 := diagonal L.phase
  set d2 := diagonal L'.phase
  -- key: the definition of `a'`
  have key : ∀ v : ι → ℂ, v = T12 *ᵥ a' + T11 *ᵥ (d2 *ᵥ b') →
      (a' = (P1 * d1 * S.s11) *ᵥ a0 + (P1 * (d1 * (S.s12 * T11) - T12) * d2) *ᵥ b' ↔
        d1 *ᵥ (S.s11 *ᵥ a0 + S.s12 *ᵥ v) = T11 *ᵥ a' + T12 *ᵥ (d2 *ᵥ b')) := by
    intro v hv
    have e1 : (P1 * d1 * S.s11) *ᵥ a0 + (P1 * (d1 * (S.s12 * T11) - T12) * d2) *ᵥ b' =
        P1 *ᵥ (d1 *ᵥ (S.s11 *ᵥ a0 + S.s12 *ᵥ v) - (T11 *ᵥ a' + T12 *ᵥ (d2 *ᵥ b')) + (T11 - d1 * S.s12 * T12) *ᵥ a') := by
      rw [hv]
      simp only [← Matrix.mulVec_mulVec, Matrix.sub_mulVec, Matrix.mulVec_add, Matrix.mulVec_sub]
      abel
    have e2 : P1 *ᵥ ((T11 - d1 * S.s12 * T12) *ᵥ a') = a' := by rw [Matrix.mulVec_mulVec, h4a, Matrix.one_mulVec]
    rw [e1, Matrix.mulVec_add, e2]
    constructor
    · intro h
      have h0 : P1 *ᵥ (d1 *ᵥ (S.s11 *ᵥ a0 + S.s12 *ᵥ v) - (T11 *ᵥ a' + T12 *ᵥ (d2 *ᵥ b'))) = P1 *ᵥ 0 := by
        rw [Matrix.mulVec_zero]
        exact (left_eq_add.1 (h.trans (add_comm _ _)))
      exact sub_eq_zero.1 (mulVec_cancel h4b h0)
    · intro h
      rw [h, sub_self, Matrix.mulVec_zero, zero_add]
  have key2 : ∀ v : ι → ℂ, v = T12 *ᵥ a' + T11 *ᵥ (d2 *ᵥ b') →
      a' = (P1 * d1 * S.s11) *ᵥ a0 + (P1 * (d1 * (S.s12 * T11) - T12) * d2) *ᵥ b' →
      (S.s21 + S.s22 * (T12 * (P1 * d1 * S.s11))) *ᵥ a0 +
        (S.s22 * (T11 * d2) + S.s22 * (T12 * (P1 * (d1 * (S.s12 * T11) - T12) * d2))) *ᵥ b' = S.s21 *ᵥ a0 + S.s22 *ᵥ v := by
    intro v hv ha
    have : (S.s21 + S.s22 * (T12 * (P1 * d1 * S.s11))) *ᵥ a0 +
        (S.s22 * (T11 * d2) + S.s22 * (T12 * (P1 * (d1 * (S.s12 * T11) - T12) * d2))) *ᵥ b' =
        S.s21 *ᵥ a0 + S.s22 *ᵥ (T12 *ᵥ ((P1 * d1 * S.s11) *ᵥ a0 + (P1 * (d1 * (S.s12 * T11) - T12) * d2) *ᵥ b')
          + T11 *ᵥ (d2 *ᵥ b')) := by
      simp only [Matrix.add_mulVec, ← Matrix.mulVec_mulVec, Matrix.mulVec_add]
      abel
    rw [this, ← ha, ← hv]
  constructor
  · rintro ⟨ha, hb⟩
    refine ⟨S.s11 *ᵥ a0 + S.s12 *ᵥ (T12 *ᵥ a' + T11 *ᵥ (d2 *ᵥ b')), T12 *ᵥ a' + T11 *ᵥ (d2 *ᵥ b'), ⟨rfl, ?_⟩, ?_, rfl⟩
    · rw [hb, key2 _ rfl ha]
    · exact (key _ rfl).1 ha
  · rintro ⟨a, b, ⟨ha, hb⟩, h5, h6⟩
    rw [ha] at h5
    have ha' := (key b h6).2 h5
    exact ⟨ha', by rw [hb, key2 b h6 ha']⟩

/-- The loop over a list of layers, structurally. -/
noncomputable def sLoop (S : SMat ι) (L : LayerData ι) : List (LayerData ι) → Except PyErr (SMat ι)
  | [] => .ok S
  | L' :: rest => smStep L L' S >>= fun S' => sLoop S' L' rest

lemma sLoop_rel {S S' : SMat ι} {L : LayerData ι} {rest : List (LayerData ι)} (hq : ∀ M ∈ L :: rest, ∀ m, M.q m ≠ 0)
    (h : sLoop S L rest = .ok S') (a0 b0 aN bN : ι → ℂ) :
    S'.Rel a0 b0 aN bN ↔ ∃ a b, S.Rel a0 b0 a b ∧ StackSol (L :: rest) a b aN bN := by
  induction rest generalizing S L with
  | nil =>
    injection h with h; subst h
    constructor
    · intro h; exact ⟨aN, bN, h, rfl, rfl⟩
    · rintro ⟨a, b, h, rfl, rfl⟩; exact h
  | cons L' rest ih =>
    rw [sLoop, bind_ok] at h
    obtain ⟨S1, h1, h2⟩ := h
    rw [ih (fun M hM => hq M (List.mem_cons_of_mem _ hM)) h2]
    constructor
    · rintro ⟨a', b', h3, h4⟩
      obtain ⟨a, b, h5, h6⟩ := (smStep_rel (hq L (List.mem_cons_self)) h1 _ _ _ _).1 h3
      exact ⟨a, b, h5, a', b', h6, h4⟩
    · rintro ⟨a, b, h5, a', b', h6, h4⟩
      exact ⟨a', b', (smStep_rel (hq L (List.mem_cons_self)) h1 _ _ _ _).2 ⟨a, b, h5, h6⟩, h4⟩

lemma foldlM_eq_sLoop (layers : List (LayerData ι)) (n i : ℕ) (S : SMat ι) (L : LayerData ι) (hL : layers[i]? = some L)
    (h : i + n < layers.length) :
    (List.range' i n).foldlM (smIter layers) S = sLoop S L ((layers.drop (i + 1)).take n) := by
  induction n generalizing i S L with
  | zero => rfl
  | succ n ih =>
    have h1 : layers[i + 1]? = some (layers[i + 1]'(by omega)) := List.getElem?_eq_getElem (by omega)
    have h2 : (layers.drop (i + 1)).take (n + 1) = layers[i + 1]'(by omega) :: (layers.drop (i + 2)).take n := by
      rw [List.drop_eq_getElem_cons (by omega), List.take_succ_cons]
    rw [List.range'_succ, List.foldlM_cons, h2, sLoop]
    have h3 : smIter layers S i = smStep L (layers[i + 1]'(by omega)) S := by
      unfold smIter; rw [hL, h1]
    rw [h3]
    congr 1
    ext1 S'
    exact ih (i + 1) S' _ h1 (by omega)

lemma getSMatrix_eq (layers : List (LayerData ι)) (i j : ℕ) (hij : i ≤ j) (hj : j < layers.length) :
    getSMatrix layers i j = sLoop SMat.id (layers[i]'(by omega)) ((layers.drop (i + 1)).take (j - i)) := by
  unfold getSMatrix
  split
  · simp at hj
  · rcases hij.eq_or_lt with rfl | hlt
    · rw [if_pos rfl, Nat.sub_self, List.take_zero]; rfl
    · rw [if_neg hlt.ne, if_neg (by omega)]
      exact foldlM_eq_sLoop _ _ _ _ _ (List.getElem?_eq_getElem _) (by omega)

/-- the layers `i .. j` of a stack -/
def slice (layers : List (LayerData ι)) (i j : ℕ) : List (LayerData ι) := (layers.drop i).take (j + 1 - i)

omit [Fintype ι] [DecidableEq ι] in
lemma slice_eq (layers : List (LayerData ι)) (i j : ℕ) (hij : i ≤ j) (hj : j < layers.length) :
    slice layers i j = layers[i]'(by omega) :: (layers.drop (i + 1)).take (j - i) := by
  rw [slice, List.drop_eq_getElem_cons (by omega), show j + 1 - i = (j - i) + 1 by omega, List.take_succ_cons]

omit [Fintype ι] [DecidableEq ι] in
lemma slice_full (layers : List (LayerData ι)) (h : layers ≠ []) : slice layers 0 (layers.length - 1) = layers := by
  have := List.length_pos_of_ne_nil h
  rw [slice, List.drop_zero, List.take_of_length_le (by omega)]

lemma id_rel (a0 b0 a b : ι → ℂ) : (SMat.id : SMat ι).Rel a0 b0 a b ↔ a = a0 ∧ b0 = b := by
  simp [SMat.Rel, SMat.id]

/-- the scattering matrix characterises the solutions of the stack -/
lemma getSMatrix_rel {layers : List (LayerData ι)} {i j : ℕ} (hij : i ≤ j) (hj : j < layers.length)
    (hq : ∀ M ∈ slice layers i j, ∀ m, M.q m ≠ 0) {S : SMat ι} (h : getSMatrix layers i j = .ok S) (a0 b0 aN bN : ι → ℂ) :
    S.Rel a0 b0 aN bN ↔ StackSol (slice layers i j) a0 b0 aN bN := by
  rw [getSMatrix_eq layers i j hij hj] at h
  rw [slice_eq layers i j hij hj] at hq ⊢
  rw [sLoop_rel hq h]
  simp only [id_rel]
  constructor
  · rintro ⟨a, b, ⟨rfl, rfl⟩, h⟩; exact h
  · intro h; exact ⟨a0, b0, ⟨rfl, rfl⟩, h⟩

end Nidn
