/-
A layer inside a larger one: the retained orders of a small problem are among those of a larger one and do not couple to the rest. The
fields of the small problem, continued by zero, are fields of the larger one, with the same Poynting fluxes.
-/
import Verif.Lemmas.Relabel
import Mathlib.LinearAlgebra.LinearIndependent.Lemmas

set_option linter.unusedSectionVars false

namespace Nidn

open Matrix

variable {ι ι' : Type} [Fintype ι] [DecidableEq ι] [Fintype ι'] [DecidableEq ι']
variable {κ κ' : Type} [Fintype κ] [DecidableEq κ] [Fintype κ'] [DecidableEq κ']

/-- Amplitudes `a` of `L` belong to amplitudes `X a` of `L'`; the fields of `L'` are then those of `L` mapped by `E`. -/
structure Embed (E X : Matrix ι' ι ℂ) (L : LayerData ι) (L' : LayerData ι') : Prop where
  phi : L'.phi * X = E * L.phi
  kp : L'.kp * E = E * L.kp
  q : ∀ m n, X m n ≠ 0 → L'.q m = L.q n
  d : L'.d = L.d

section

variable {E X Y Z : Matrix ι' ι ℂ} {L M : LayerData ι} {L' M' : LayerData ι'}

lemma Embed.hTan (g : Embed E X L L') (u v : ι → ℂ) : L'.hTan (X *ᵥ u) (X *ᵥ v) = E *ᵥ L.hTan u v := by
  rw [LayerData.hTan, LayerData.hTan, ← Matrix.mulVec_add, Matrix.mulVec_mulVec, Matrix.mulVec_mulVec, g.phi]

lemma Embed.div (g : Embed E X L L') (u : ι → ℂ) : (fun m => (X *ᵥ u) m / L'.q m) = X *ᵥ fun n => u n / L.q n := by
  ext m
  simp only [Matrix.mulVec, dotProduct]
  rw [div_eq_mul_inv, Finset.sum_mul]
  refine Finset.sum_congr rfl fun n _ => ?_
  by_cases h : X m n = 0
  · simp [h]
  · rw [g.q m n h, mul_assoc, div_eq_mul_inv]

lemma Embed.through (g : Embed E X L L') (u : ι → ℂ) : L'.through (X *ᵥ u) = X *ᵥ L.through u := by
  ext m
  simp only [Matrix.mulVec, dotProduct, LayerData.through]
  rw [Finset.mul_sum]
  refine Finset.sum_congr rfl fun n _ => ?_
  by_cases h : X m n = 0
  · simp [h]
  · rw [g.q m n h, g.d]
    ring

lemma Embed.half (g : Embed E X L L') (u : ι → ℂ) :
    L'.kp *ᵥ (L'.phi *ᵥ fun m => (X *ᵥ u) m / L'.q m) = E *ᵥ (L.kp *ᵥ (L.phi *ᵥ fun n => u n / L.q n)) := by
  rw [g.div, Matrix.mulVec_mulVec (M := L'.phi) (N := X), g.phi, ← Matrix.mulVec_mulVec, Matrix.mulVec_mulVec, g.kp, ← Matrix.mulVec_mulVec]

lemma Embed.eTan (g : Embed E X L L') (u v : ι → ℂ) : L'.eTan (X *ᵥ u) (X *ᵥ v) = E *ᵥ L.eTan u v := by
  have := g.half (u - v)
  rw [Matrix.mulVec_sub] at this
  exact this

lemma Embed.continuous (g : Embed E X L L') (h : Embed E Y M M') {a b a' b' : ι → ℂ} (k : Continuous L M a b a' b') :
    Continuous L' M' (X *ᵥ a) (X *ᵥ b) (Y *ᵥ a') (Y *ᵥ b') := by
  constructor
  · rw [g.through, h.through, g.hTan, h.hTan, k.h]
  · rw [g.through, h.through, g.eTan, h.eTan, k.e]

/-- whole stacks -/
inductive EmbedStack (E : Matrix ι' ι ℂ) : Matrix ι' ι ℂ → Matrix ι' ι ℂ → List (LayerData ι) → List (LayerData ι') → Prop
  | one {X : Matrix ι' ι ℂ} {L : LayerData ι} {L' : LayerData ι'} (h : Embed E X L L') : EmbedStack E X X [L] [L']
  | cons {X Y Z : Matrix ι' ι ℂ} {L M : LayerData ι} {L' M' : LayerData ι'} {r : List (LayerData ι)} {r' : List (LayerData ι')}
      (h : Embed E X L L') (t : EmbedStack E Y Z (M :: r) (M' :: r')) : EmbedStack E X Z (L :: M :: r) (L' :: M' :: r')

lemma EmbedStack.head {r : List (LayerData ι)} {r' : List (LayerData ι')} (h : EmbedStack E X Z (L :: r) (L' :: r')) : Embed E X L L' := by
  cases h with
  | one h => exact h
  | cons h _ => exact h

lemma EmbedStack.sol {l : List (LayerData ι)} {l' : List (LayerData ι')} (h : EmbedStack E X Z l l') {a0 b0 aN bN : ι → ℂ}
    (s : StackSol l a0 b0 aN bN) : StackSol l' (X *ᵥ a0) (X *ᵥ b0) (Z *ᵥ aN) (Z *ᵥ bN) := by
  induction h generalizing a0 b0 with
  | one h =>
    obtain ⟨rfl, rfl⟩ := s
    exact ⟨rfl, rfl⟩
  | @cons X Y Z L M L' M' r r' h t ih =>
    obtain ⟨a', b', k, s⟩ := s
    exact ⟨Y *ᵥ a', Y *ᵥ b', h.continuous t.head k, ih s⟩

lemma EmbedStack.ends {l : List (LayerData ι)} {l' : List (LayerData ι')} (h : EmbedStack E X Z l l') :
    ∃ L0 L0' LN LN', l.head? = some L0 ∧ l'.head? = some L0' ∧ l.getLast? = some LN ∧ l'.getLast? = some LN' ∧
      Embed E X L0 L0' ∧ Embed E Z LN LN' := by
  induction h with
  | @one X L L' h => exact ⟨L, L', L, L', rfl, rfl, rfl, rfl, h, h⟩
  | @cons X Y Z L M L' M' r r' h t ih =>
    obtain ⟨_, _, LN, LN', _, _, e1, e2, _, k⟩ := ih
    exact ⟨L, L', LN, LN', rfl, rfl, by rw [List.getLast?_cons_cons]; exact e1, by rw [List.getLast?_cons_cons]; exact e2, h, k⟩

lemma EmbedStack.take {l : List (LayerData ι)} {l' : List (LayerData ι')} (h : EmbedStack E X Z l l') (n : ℕ) :
    ∃ Z', EmbedStack E X Z' (l.take (n + 1)) (l'.take (n + 1)) := by
  induction h generalizing n with
  | @one X L L' g => exact ⟨X, by simpa using EmbedStack.one g⟩
  | @cons X Y Z L M L' M' r r' g t ih =>
    cases n with
    | zero => exact ⟨X, by simpa using EmbedStack.one g⟩
    | succ n =>
      obtain ⟨Z', h⟩ := ih n
      simp only [List.take_succ_cons] at h ⊢
      exact ⟨Z', .cons g h⟩

lemma EmbedStack.cons_form {l : List (LayerData ι)} {l' : List (LayerData ι')} (h : EmbedStack E X Z l l') :
    ∃ L L' r r', l = L :: r ∧ l' = L' :: r' ∧ r.length = r'.length := by
  induction h with
  | @one X L L' g => exact ⟨L, L', [], [], rfl, rfl, rfl⟩
  | @cons X Y Z L M L' M' r r' g t ih =>
    obtain ⟨_, _, _, _, e, e', e2⟩ := ih
    refine ⟨L, L', _, _, rfl, rfl, ?_⟩
    rw [e, e']
    simp [e2]

lemma isometry_inj (hE : E.conjTranspose * E = 1) {u v : ι → ℂ} (h : E *ᵥ u = E *ᵥ v) : u = v := by
  have := congrArg (E.conjTranspose *ᵥ ·) h
  simpa only [Matrix.mulVec_mulVec, hE, Matrix.one_mulVec] using this

lemma isometry_dot (hE : E.conjTranspose * E = 1) (x y : ι → ℂ) : star (E *ᵥ x) ⬝ᵥ (E *ᵥ y) = star x ⬝ᵥ y := by
  rw [Matrix.star_mulVec, ← Matrix.dotProduct_mulVec, Matrix.mulVec_mulVec, hE, Matrix.one_mulVec]

lemma Embed.inj (hE : E.conjTranspose * E = 1) (g : Embed E X L L') (hp : IsUnit L.phi.det) {u v : ι → ℂ} (h : X *ᵥ u = X *ᵥ v) : u = v := by
  have := congrArg (L'.phi *ᵥ ·) h
  simp only [Matrix.mulVec_mulVec, g.phi] at this
  rw [← Matrix.mulVec_mulVec, ← Matrix.mulVec_mulVec] at this
  exact (mulVec_inj hp).1 (isometry_inj hE this)

/-- the layers of the small problem are regular when those of the large one are -/
lemma Embed.regular (hE : E.conjTranspose * E = 1) (g : Embed E X L L') (hp : IsUnit L.phi.det) (h : L'.Regular) : L.Regular where
  phi := hp
  kp := by
    rw [← Matrix.isUnit_iff_isUnit_det, ← Matrix.mulVec_injective_iff_isUnit]
    intro u v huv
    replace huv : L.kp *ᵥ u = L.kp *ᵥ v := huv
    refine isometry_inj hE ((mulVec_inj h.kp).1 ?_)
    rw [Matrix.mulVec_mulVec, Matrix.mulVec_mulVec, g.kp, ← Matrix.mulVec_mulVec, huv, Matrix.mulVec_mulVec]
  q := fun m h0 => by
    have hz : X *ᵥ Pi.single m 1 = X *ᵥ 0 := by
      ext i
      rw [Matrix.mulVec_zero, Matrix.mulVec_single_one]
      show X i m = 0
      by_contra hi
      exact h.q i ((g.q i m hi).trans h0)
    have := congrFun (g.inj hE hp hz) m
    simp at this

lemma EmbedStack.regular (hE : E.conjTranspose * E = 1) {l : List (LayerData ι)} {l' : List (LayerData ι')} (h : EmbedStack E X Z l l')
    (hp : ∀ M ∈ l, IsUnit M.phi.det) (hr : ∀ M ∈ l', M.Regular) : ∀ M ∈ l, M.Regular := by
  induction h with
  | one g =>
    intro M hM
    obtain rfl := List.mem_singleton.1 hM
    exact g.regular hE (hp _ (by simp)) (hr _ (by simp))
  | cons g t ih =>
    intro M hM
    rcases List.mem_cons.1 hM with rfl | hM
    · exact g.regular hE (hp _ (by simp)) (hr _ (by simp))
    · exact ih (fun M hM => hp M (List.mem_cons_of_mem _ hM)) (fun M hM => hr M (List.mem_cons_of_mem _ hM)) M hM

/-- if the solver answers for the large problem, it answers for the small one -/
lemma EmbedStack.answers (hE : E.conjTranspose * E = 1) {l : List (LayerData ι)} {l' : List (LayerData ι')} (h : EmbedStack E X Z l l')
    (hp : ∀ M ∈ l, IsUnit M.phi.det) (hr : ∀ M ∈ l', M.Regular) (a0 bN : ι → ℂ) (a0' bN' : ι' → ℂ)
    (hl : ∃ r, solveExterior l' a0' bN' = .ok r) : ∃ r, solveExterior l a0 bN = .ok r := by
  have hr' := h.regular hE hp hr
  obtain ⟨L, L', r, r', rfl, rfl, hlen⟩ := h.cons_form
  rw [C113_modes L' r' hr] at hl
  rw [C113_modes L r hr']
  intro p hpre b0 aN hs
  obtain ⟨Z', g⟩ := h.take p.length
  simp only [List.take_succ_cons] at g
  rw [List.prefix_iff_eq_take.1 hpre] at hs
  have hlen' : p.length ≤ r.length := hpre.length_le
  have := g.sol hs
  rw [Matrix.mulVec_zero, Matrix.mulVec_zero] at this
  obtain ⟨e1, e2⟩ := hl _ (List.take_prefix _ _) _ _ this
  obtain ⟨L0, L0', LN, LN', h1, h2, h3, h4, g0, gN⟩ := g.ends
  have m0 : L0 ∈ L :: r := by
    injection h1 with h1
    rw [← h1]; simp
  have mN : LN ∈ L :: r := by
    have := List.mem_of_getLast? h3
    rcases List.mem_cons.1 this with rfl | hM
    · simp
    · exact List.mem_cons_of_mem _ (List.mem_of_mem_take hM)
  constructor
  · exact gN.inj hE (hp _ mN) (e1.trans (Matrix.mulVec_zero _).symm)
  · exact g0.inj hE (hp _ m0) (e2.trans (Matrix.mulVec_zero _).symm)

end

section

variable {E X Z : Matrix (κ' ⊕ κ') (κ ⊕ κ) ℂ} {L : LayerData (κ ⊕ κ)} {L' : LayerData (κ' ⊕ κ')}

lemma Embed.fluxA (g : Embed E X L L') (ω : ℂ) (u : κ ⊕ κ → ℂ) : Nidn.fluxA ω L' *ᵥ (X *ᵥ u) = E *ᵥ (Nidn.fluxA ω L *ᵥ u) := by
  rw [fluxA_mulVec, fluxA_mulVec, Matrix.mulVec_smul, ← g.half]

lemma Embed.zflux (hE : E.conjTranspose * E = 1) (g : Embed E X L L') (ω : ℂ) (a b : κ ⊕ κ → ℂ) :
    zPoyntingFlux ω L' (X *ᵥ a) (X *ᵥ b) = zPoyntingFlux ω L a b := by
  have hp : ∀ u, L'.phi *ᵥ (X *ᵥ u) = E *ᵥ (L.phi *ᵥ u) := fun u => by
    rw [Matrix.mulVec_mulVec, Matrix.mulVec_mulVec, g.phi]
  rw [zflux_dot, zflux_dot]
  simp only [g.fluxA, hp, isometry_dot hE]

/-- the answer for the large problem is the answer for the small one -/
theorem embed_rt (hE : E.conjTranspose * E = 1) {l : List (LayerData (κ ⊕ κ))} {l' : List (LayerData (κ' ⊕ κ'))} (h : EmbedStack E X Z l l')
    (hp : ∀ M ∈ l, IsUnit M.phi.det) (hr : ∀ M ∈ l', M.Regular) (ω : ℂ) (norm : ℝ) {a0 bN : κ ⊕ κ → ℂ} {r : ℝ × ℝ}
    (h1 : rtForward ω norm l' (X *ᵥ a0) (Z *ᵥ bN) = .ok r) : rtForward ω norm l a0 bN = .ok r := by
  have hr' := h.regular hE hp hr
  obtain ⟨L0, L0', LN, LN', e1, e2, e3, e4, g0, gN⟩ := h.ends
  have hl : ∃ r, rtForward ω norm l a0 bN = .ok r := by
    rw [rtForward_ok_iff _ _ _ _ _ (by rintro rfl; simp at e1)]
    refine h.answers hE hp hr a0 bN _ _ ((rtForward_ok_iff ω norm _ _ _ ?_).1 ⟨r, h1⟩)
    rintro rfl; simp at e2
  obtain ⟨r', h2⟩ := hl
  rw [h2]
  rw [rtForward, bind_ok] at h1 h2
  obtain ⟨x, hx, h1⟩ := h1
  obtain ⟨y, hy, h2⟩ := h2
  rw [e2, e4] at h1
  rw [e1, e3] at h2
  injection h1 with h1
  injection h2 with h2
  have k : StackSol l a0 y.2 y.1 bN := (C16_exterior l (fun M hM => (hr' M hM).q) a0 bN y.1 y.2 y hy).2 ⟨rfl, rfl⟩
  have k' := (C16_exterior l' (fun M hM => (hr M hM).q) _ _ _ _ x hx).1 (h.sol k)
  rw [← h1, ← h2, ← k'.1, ← k'.2, g0.zflux hE, gN.zflux hE]

end

/-! the orders of the small problem among those of the large one -/

/-- the matrix that continues a vector by zero, along an injection of the orders -/
def extMat (e : κ → κ') : Matrix κ' κ ℂ := (1 : Matrix κ' κ' ℂ).submatrix id e

lemma extMat_apply (e : κ → κ') (i : κ') (j : κ) : extMat e i j = if i = e j then 1 else 0 := by
  rw [extMat, Matrix.submatrix_apply, Matrix.one_apply]; rfl

lemma extMat_isometry {e : κ → κ'} (he : Function.Injective e) : (extMat e).conjTranspose * extMat e = 1 := by
  rw [extMat, Matrix.conjTranspose_submatrix, Matrix.conjTranspose_one, ← Matrix.submatrix_mul _ _ _ id _ Function.bijective_id, Matrix.one_mul]
  ext i j
  rw [Matrix.submatrix_apply, Matrix.one_apply, Matrix.one_apply]
  simp [he.eq_iff]

/-- both polarisations -/
lemma extMat_sum (e : κ → κ') : extMat (Sum.map e e) = fromBlocks (extMat e) 0 0 (extMat e) := by
  ext (i | i) (j | j) <;> simp [extMat_apply]

/-- a matrix of the large problem that acts on the orders of the small problem like the matrix of the small one, and does not couple them to
the others -/
structure Inter {a a' b b' : Type} [Fintype a] [DecidableEq a] [Fintype a'] [DecidableEq a'] [Fintype b] [DecidableEq b] [Fintype b']
    [DecidableEq b'] (ea : a → a') (eb : b → b') (A : Matrix a b ℂ) (A' : Matrix a' b' ℂ) : Prop where
  r : A' * extMat eb = extMat ea * A
  l : (extMat ea).transpose * A' = A * (extMat eb).transpose

namespace Inter

variable {a a' b b' c c' : Type} [Fintype a] [DecidableEq a] [Fintype a'] [DecidableEq a'] [Fintype b] [DecidableEq b] [Fintype b']
  [DecidableEq b'] [Fintype c] [DecidableEq c] [Fintype c'] [DecidableEq c'] {ea : a → a'} {eb : b → b'} {ec : c → c'}

lemma mul {A : Matrix a b ℂ} {A' : Matrix a' b' ℂ} {B : Matrix b c ℂ} {B' : Matrix b' c' ℂ} (h : Inter ea eb A A') (k : Inter eb ec B B') :
    Inter ea ec (A * B) (A' * B') where
  r := by rw [Matrix.mul_assoc, k.r, ← Matrix.mul_assoc, h.r, Matrix.mul_assoc]
  l := by rw [← Matrix.mul_assoc, h.l, Matrix.mul_assoc, k.l, Matrix.mul_assoc]

lemma sub {A B : Matrix a b ℂ} {A' B' : Matrix a' b' ℂ} (h : Inter ea eb A A') (k : Inter ea eb B B') : Inter ea eb (A - B) (A' - B') where
  r := by rw [Matrix.sub_mul, Matrix.mul_sub, h.r, k.r]
  l := by rw [Matrix.mul_sub, Matrix.sub_mul, h.l, k.l]

lemma smul (z : ℂ) {A : Matrix a b ℂ} {A' : Matrix a' b' ℂ} (h : Inter ea eb A A') : Inter ea eb (z • A) (z • A') where
  r := by rw [Matrix.smul_mul, Matrix.mul_smul, h.r]
  l := by rw [Matrix.mul_smul, Matrix.smul_mul, h.l]

lemma one : Inter ea ea 1 1 where
  r := by rw [Matrix.one_mul, Matrix.mul_one]
  l := by rw [Matrix.one_mul, Matrix.mul_one]

lemma transpose {A : Matrix a b ℂ} {A' : Matrix a' b' ℂ} (h : Inter ea eb A A') : Inter eb ea A.transpose A'.transpose where
  r := by
    have := congrArg Matrix.transpose h.l
    simpa only [Matrix.transpose_mul, Matrix.transpose_transpose] using this
  l := by
    have := congrArg Matrix.transpose h.r
    simpa only [Matrix.transpose_mul, Matrix.transpose_transpose] using this

/-- entry by entry -/
lemma of_entries {A : Matrix a b ℂ} {A' : Matrix a' b' ℂ} (ha : Function.Injective ea) (hb : Function.Injective eb)
    (block : ∀ i j, A' (ea i) (eb j) = A i j) (right : ∀ i, (∀ k, i ≠ ea k) → ∀ j, A' i (eb j) = 0)
    (left : ∀ j, (∀ k, j ≠ eb k) → ∀ i, A' (ea i) j = 0) : Inter ea eb A A' := by
  constructor
  · ext i j
    rw [Matrix.mul_apply, Matrix.mul_apply]
    simp only [extMat_apply, mul_ite, mul_one, mul_zero, ite_mul, one_mul, zero_mul, Finset.sum_ite_eq', Finset.mem_univ, if_true]
    by_cases hi : ∃ k, i = ea k
    · obtain ⟨k, rfl⟩ := hi
      rw [block]
      simp [ha.eq_iff]
    · rw [right i (fun k hk => hi ⟨k, hk⟩), Finset.sum_eq_zero]
      intro k _
      rw [if_neg (fun hk => hi ⟨k, hk⟩)]
  · ext i j
    rw [Matrix.mul_apply, Matrix.mul_apply]
    simp only [Matrix.transpose_apply, extMat_apply, mul_ite, mul_one, mul_zero, ite_mul, one_mul, zero_mul, Finset.sum_ite_eq', Finset.mem_univ, if_true]
    by_cases hj : ∃ k, j = eb k
    · obtain ⟨k, rfl⟩ := hj
      rw [block]
      simp [hb.eq_iff]
    · rw [left j (fun k hk => hj ⟨k, hk⟩), Finset.sum_eq_zero]
      intro k _
      rw [if_neg (fun hk => hj ⟨k, hk⟩)]

lemma diag {e : a → a'} (he : Function.Injective e) {k : a → ℂ} {k' : a' → ℂ} (h : ∀ i, k' (e i) = k i) : Inter e e (diagonal k) (diagonal k') := by
  refine of_entries he he (fun i j => ?_) (fun i hi j => ?_) (fun j hj i => ?_)
  · rw [Matrix.diagonal_apply, Matrix.diagonal_apply, h]
    simp [he.eq_iff]
  · rw [Matrix.diagonal_apply, if_neg (hi j)]
  · rw [Matrix.diagonal_apply, if_neg fun h => hj i h.symm]

/-- one block above the other -/
lemma rows {A B : Matrix a b ℂ} {A' B' : Matrix a' b' ℂ} (h : Inter ea eb A A') (k : Inter ea eb B B') :
    Inter (Sum.map ea ea) eb (fromRows A B) (fromRows A' B') where
  r := by
    rw [extMat_sum, Matrix.fromRows_mul, Matrix.fromBlocks_mul_fromRows, h.r, k.r]
    simp
  l := by
    rw [extMat_sum, Matrix.fromBlocks_transpose, Matrix.fromBlocks_mul_fromRows, Matrix.fromRows_mul, ← h.l, ← k.l]
    simp

lemma blocks {A : Matrix a b ℂ} {A' : Matrix a' b' ℂ} (h : Inter ea eb A A') :
    Inter (Sum.map ea ea) (Sum.map eb eb) (fromBlocks A 0 0 A) (fromBlocks A' 0 0 A') where
  r := by
    rw [extMat_sum, extMat_sum, Matrix.fromBlocks_multiply, Matrix.fromBlocks_multiply, ← h.r]
    simp
  l := by
    rw [extMat_sum, extMat_sum, Matrix.fromBlocks_transpose, Matrix.fromBlocks_transpose, Matrix.fromBlocks_multiply, Matrix.fromBlocks_multiply, ← h.l]
    simp

/-- the matrix of the small problem can be inverted when that of the large one can -/
lemma isUnit {A : Matrix a a ℂ} {A' : Matrix a' a' ℂ} (he : Function.Injective ea) (h : Inter ea ea A A') (hu : IsUnit A'.det) : IsUnit A.det := by
  rw [← Matrix.isUnit_iff_isUnit_det, ← Matrix.mulVec_injective_iff_isUnit]
  intro u v huv
  replace huv : A *ᵥ u = A *ᵥ v := huv
  refine isometry_inj (extMat_isometry he) ((mulVec_inj hu).1 ?_)
  rw [Matrix.mulVec_mulVec, Matrix.mulVec_mulVec, h.r, ← Matrix.mulVec_mulVec, huv, Matrix.mulVec_mulVec]

lemma inv {A : Matrix a a ℂ} {A' : Matrix a' a' ℂ} (he : Function.Injective ea) (h : Inter ea ea A A') (hu : IsUnit A'.det) : Inter ea ea A⁻¹ A'⁻¹ := by
  have hC := h.isUnit he hu
  constructor
  · have := congrArg (fun B => A'⁻¹ * B * A⁻¹) h.r
    simp only [Matrix.nonsing_inv_mul_cancel_left _ _ hu] at this
    rw [this, Matrix.mul_assoc, Matrix.mul_assoc, Matrix.mul_nonsing_inv _ hC, Matrix.mul_one]
  · have := congrArg (fun B => A⁻¹ * B * A'⁻¹) h.l
    simp only [Matrix.mul_assoc, Matrix.nonsing_inv_mul_cancel_left _ _ hC, Matrix.mul_nonsing_inv _ hu, Matrix.mul_one] at this
    exact this.symm

/-- the matrices of the solver -/
lemma kp {e : κ → κ'} (he : Function.Injective e) {kx ky : κ → ℂ} {kx' ky' : κ' → ℂ} (hx : ∀ i, kx' (e i) = kx i) (hy : ∀ i, ky' (e i) = ky i)
    (ω : ℂ) {C : Matrix κ κ ℂ} {C' : Matrix κ' κ' ℂ} (h : Inter e e C C') :
    Inter (Sum.map e e) (Sum.map e e) (kpPatterned ω C kx ky) (kpPatterned ω C' kx' ky') := by
  have hj : Inter (Sum.map e e) e (jkMat kx ky) (jkMat kx' ky') := rows (diag he fun i => by rw [hy]) (diag he hx)
  exact (one.smul _).sub ((hj.mul h).mul hj.transpose)

lemma eigen {e : κ → κ'} (he : Function.Injective e) {kx ky : κ → ℂ} {kx' ky' : κ' → ℂ} (hx : ∀ i, kx' (e i) = kx i) (hy : ∀ i, ky' (e i) = ky i)
    {C K : Matrix (κ ⊕ κ) (κ ⊕ κ) ℂ} {C' K' : Matrix (κ' ⊕ κ') (κ' ⊕ κ') ℂ} (h : Inter (Sum.map e e) (Sum.map e e) C C')
    (hk : Inter (Sum.map e e) (Sum.map e e) K K') : Inter (Sum.map e e) (Sum.map e e) (eigenMat C K kx ky) (eigenMat C' K' kx' ky') := by
  have hj : Inter (Sum.map e e) e (kMat kx ky) (kMat kx' ky') := rows (diag he hx) (diag he hy)
  exact (h.mul hk).sub (hj.mul hj.transpose)

end Inter

/-- a layer of the small problem inside the layer of the large one, with whatever eigenvectors the library returned for both -/
lemma embed_of {E : Matrix ι' ι ℂ} {M : Matrix ι ι ℂ} {M' : Matrix ι' ι' ℂ} (hM : M' * E = E * M) {L : LayerData ι} {L' : LayerData ι'}
    {lam : ι → ℂ} {lam' : ι' → ℂ} (hL : IsEig M lam L.phi) (hL' : IsEig M' lam' L'.phi) (hq : ∀ m, L.q m = branchQ (csqrt (lam m)))
    (hq' : ∀ m, L'.q m = branchQ (csqrt (lam' m))) (hp' : IsUnit L'.phi.det) (hk : L'.kp * E = E * L.kp) (hd : L'.d = L.d) :
    Embed E (L'.phi⁻¹ * E * L.phi) L L' := by
  have hphi : L'.phi * (L'.phi⁻¹ * E * L.phi) = E * L.phi := by
    rw [Matrix.mul_assoc, Matrix.mul_nonsing_inv_cancel_left _ _ hp']
  refine ⟨hphi, hk, fun m n h => ?_, hd⟩
  set X := L'.phi⁻¹ * E * L.phi with hX
  have key : diagonal lam' * X = X * diagonal lam := by
    have e1 : L'.phi * (diagonal lam' * X) = L'.phi * (X * diagonal lam) := by
      rw [← Matrix.mul_assoc, ← hL', Matrix.mul_assoc, hphi, ← Matrix.mul_assoc, hM, Matrix.mul_assoc, hL, ← Matrix.mul_assoc, ← hphi, Matrix.mul_assoc]
    have := congrArg (L'.phi⁻¹ * ·) e1
    simpa only [Matrix.nonsing_inv_mul_cancel_left _ _ hp'] using this
  have := congrFun (congrFun key m) n
  rw [Matrix.mul_diagonal, Matrix.diagonal_mul] at this
  rw [hq, hq', mul_left_cancel₀ h (by rw [← this]; ring : X m n * lam' m = X m n * lam n)]

lemma embed_of_inter {e : ι → ι'} {M : Matrix ι ι ℂ} {M' : Matrix ι' ι' ℂ} (hM : Inter e e M M') {L : LayerData ι} {L' : LayerData ι'}
    {lam : ι → ℂ} {lam' : ι' → ℂ} (hL : IsEig M lam L.phi) (hL' : IsEig M' lam' L'.phi) (hq : ∀ m, L.q m = branchQ (csqrt (lam m)))
    (hq' : ∀ m, L'.q m = branchQ (csqrt (lam' m))) (hp' : IsUnit L'.phi.det) (hk : Inter e e L.kp L'.kp) (hd : L'.d = L.d) :
    Embed (extMat e) (L'.phi⁻¹ * extMat e * L.phi) L L' :=
  embed_of hM.r hL hL' hq hq' hp' hk.r hd

/-- and the other way round: a layer of the large problem, seen in the orders of the small one only -/
lemma restrict_of_inter {e : ι → ι'} {M : Matrix ι ι ℂ} {M' : Matrix ι' ι' ℂ} (hM : Inter e e M M') {L : LayerData ι} {L' : LayerData ι'}
    {lam : ι → ℂ} {lam' : ι' → ℂ} (hL : IsEig M lam L.phi) (hL' : IsEig M' lam' L'.phi) (hq : ∀ m, L.q m = branchQ (csqrt (lam m)))
    (hq' : ∀ m, L'.q m = branchQ (csqrt (lam' m))) (hp : IsUnit L.phi.det) (hk : Inter e e L.kp L'.kp) (hd : L'.d = L.d) :
    Embed (extMat e).transpose (L.phi⁻¹ * (extMat e).transpose * L'.phi) L' L :=
  embed_of hM.l.symm hL' hL hq' hq hp hk.l.symm hd.symm

/-- eigenvectors of the large problem contain a full set of eigenvectors of the small one -/
lemma eigenvectors_restrict {e : ι → ι'} (he : Function.Injective e) {M : Matrix ι ι ℂ} {M' : Matrix ι' ι' ℂ} (hM : Inter e e M M') {lam' : ι' → ℂ}
    {phi' : Matrix ι' ι' ℂ} (h : IsEig M' lam' phi') (hp : IsUnit phi'.det) : ∃ lam phi, IsEig M lam phi ∧ IsUnit phi.det := by
  set P : Matrix ι ι' ℂ := (extMat e).transpose * phi' with hP
  have hMP : M * P = P * diagonal lam' := by
    rw [hP, ← Matrix.mul_assoc, ← hM.l, Matrix.mul_assoc, h, Matrix.mul_assoc]
  have hspan : Submodule.span ℂ (Set.range P.transpose) = ⊤ := by
    have hs : Function.Surjective P.mulVecLin := by
      intro u
      refine ⟨phi'⁻¹ *ᵥ (extMat e *ᵥ u), ?_⟩
      rw [Matrix.mulVecLin_apply, hP, Matrix.mulVec_mulVec, Matrix.mulVec_mulVec, Matrix.mul_assoc, Matrix.mul_assoc,
        Matrix.mul_nonsing_inv_cancel_left _ _ hp]
      have : (extMat e).transpose = (extMat e).conjTranspose := by
        ext i j
        rw [Matrix.transpose_apply, Matrix.conjTranspose_apply, extMat_apply]
        split <;> simp
      rw [this, extMat_isometry he, Matrix.one_mulVec]
    have := LinearMap.range_eq_top.2 hs
    rwa [Matrix.range_mulVecLin] at this
  obtain ⟨α, f, hf, hsp, hli⟩ := exists_linearIndependent' ℂ (P.transpose : ι' → ι → ℂ)
  rw [hspan] at hsp
  have b := Module.Basis.mk hli hsp.ge
  obtain ⟨g⟩ : Nonempty (ι ≃ α) := ⟨(Pi.basisFun ℂ ι).indexEquiv b⟩
  refine ⟨fun i => lam' (f (g i)), P.submatrix id (f ∘ g), ?_, ?_⟩
  · rw [IsEig]
    ext i j
    have := congrFun (congrFun hMP i) (f (g j))
    rw [Matrix.mul_diagonal] at this ⊢
    rw [Matrix.submatrix_apply, id, Function.comp_apply, ← this, Matrix.mul_apply, Matrix.mul_apply]
    rfl
  · rw [← Matrix.isUnit_iff_isUnit_det, ← Matrix.linearIndependent_cols_iff_isUnit]
    exact hli.comp g g.injective

/-! two groups of orders that do not couple -/

/-- every order of the large problem belongs to exactly one of the groups -/
structure OrderGroups {κ κ₂ κ' : Type} (e : κ → κ') (f : κ₂ → κ') : Prop where
  inj_e : Function.Injective e
  inj_f : Function.Injective f
  disjoint : ∀ i j, e i ≠ f j
  cover : ∀ k, (∃ i, k = e i) ∨ ∃ j, k = f j

lemma OrderGroups.sum {κ κ₂ κ' : Type} {e : κ → κ'} {f : κ₂ → κ'} (g : OrderGroups e f) : OrderGroups (Sum.map e e) (Sum.map f f) where
  inj_e := Function.Injective.sumMap g.inj_e g.inj_e
  inj_f := Function.Injective.sumMap g.inj_f g.inj_f
  disjoint := by
    rintro (i | i) (j | j) <;> simp [g.disjoint]
  cover := by
    rintro (k | k)
    · rcases g.cover k with ⟨i, rfl⟩ | ⟨i, rfl⟩
      · exact .inl ⟨.inl i, rfl⟩
      · exact .inr ⟨.inl i, rfl⟩
    · rcases g.cover k with ⟨i, rfl⟩ | ⟨i, rfl⟩
      · exact .inl ⟨.inr i, rfl⟩
      · exact .inr ⟨.inr i, rfl⟩

section

variable {ι₂ : Type} [Fintype ι₂] [DecidableEq ι₂] {e : ι → ι'} {f : ι₂ → ι'}

lemma extMat_transpose_mulVec (e : ι → ι') (u : ι' → ℂ) (i : ι) : ((extMat e).transpose *ᵥ u) i = u (e i) := by
  simp [Matrix.mulVec, dotProduct, extMat_apply]

/-- a vector that vanishes in both groups is zero -/
lemma OrderGroups.zero (g : OrderGroups e f) {u : ι' → ℂ} (h1 : (extMat e).transpose *ᵥ u = 0) (h2 : (extMat f).transpose *ᵥ u = 0) : u = 0 := by
  ext k
  rcases g.cover k with ⟨i, rfl⟩ | ⟨i, rfl⟩
  · rw [← extMat_transpose_mulVec e u i, h1]; rfl
  · rw [← extMat_transpose_mulVec f u i, h2]; rfl

/-- if the solver answers for both groups, it answers for the large problem -/
lemma groups_answer (g : OrderGroups e f) {l : List (LayerData ι)} {l₂ : List (LayerData ι₂)} {l' : List (LayerData ι')} {Y W : Matrix ι ι' ℂ}
    {Y₂ W₂ : Matrix ι₂ ι' ℂ} (h : EmbedStack (extMat e).transpose Y W l' l) (h₂ : EmbedStack (extMat f).transpose Y₂ W₂ l' l₂)
    (hr : ∀ M ∈ l, M.Regular) (hr₂ : ∀ M ∈ l₂, M.Regular) (hr' : ∀ M ∈ l', M.Regular) (a0 bN : ι → ℂ) (a₂ b₂ : ι₂ → ℂ) (a' b' : ι' → ℂ)
    (hl : ∃ r, solveExterior l a0 bN = .ok r) (hl₂ : ∃ r, solveExterior l₂ a₂ b₂ = .ok r) : ∃ r, solveExterior l' a' b' = .ok r := by
  have inj : ∀ {L' : LayerData ι'} {L : LayerData ι} {L₂ : LayerData ι₂} {Y : Matrix ι ι' ℂ} {Y₂ : Matrix ι₂ ι' ℂ}, L'.Regular →
      Embed (extMat e).transpose Y L' L → Embed (extMat f).transpose Y₂ L' L₂ → ∀ u, Y *ᵥ u = 0 → Y₂ *ᵥ u = 0 → u = 0 := by
    intro L' L L₂ Y Y₂ hL g1 g2 u h1 h2
    have k1 := congrArg (L.phi *ᵥ ·) h1
    have k2 := congrArg (L₂.phi *ᵥ ·) h2
    simp only [Matrix.mulVec_mulVec, g1.phi, Matrix.mulVec_zero] at k1
    simp only [Matrix.mulVec_mulVec, g2.phi, Matrix.mulVec_zero] at k2
    rw [← Matrix.mulVec_mulVec] at k1 k2
    exact (mulVec_inj hL.phi).1 ((g.zero k1 k2).trans (Matrix.mulVec_zero _).symm)
  obtain ⟨L', L, r', r, rfl, rfl, hlen⟩ := h.cons_form
  obtain ⟨L'', L₂, r'', r₂, e1, rfl, hlen₂⟩ := h₂.cons_form
  injection e1 with e1 e2
  subst e1 e2
  rw [C113_modes L r hr] at hl
  rw [C113_modes L₂ r₂ hr₂] at hl₂
  rw [C113_modes L' r' hr']
  intro p hpre b0 aN hs
  obtain ⟨Z1, g1⟩ := h.take p.length
  obtain ⟨Z2, g2⟩ := h₂.take p.length
  simp only [List.take_succ_cons] at g1 g2
  rw [List.prefix_iff_eq_take.1 hpre] at hs
  have s1 := g1.sol hs
  have s2 := g2.sol hs
  rw [Matrix.mulVec_zero, Matrix.mulVec_zero] at s1 s2
  obtain ⟨u1, u2⟩ := hl _ (List.take_prefix _ _) _ _ s1
  obtain ⟨v1, v2⟩ := hl₂ _ (List.take_prefix _ _) _ _ s2
  obtain ⟨A0, _, AN, _, h1, -, h3, -, k0, kN⟩ := g1.ends
  obtain ⟨B0, _, BN, _, j1, -, j3, -, q0, qN⟩ := g2.ends
  rw [h1] at j1
  rw [h3] at j3
  injection j1 with j1
  injection j3 with j3
  subst j1 j3
  have m0 : A0 ∈ L' :: r' := by
    injection h1 with h1
    rw [← h1]; simp
  have mN : AN ∈ L' :: r' := by
    have := List.mem_of_getLast? h3
    rcases List.mem_cons.1 this with rfl | hM
    · simp
    · exact List.mem_cons_of_mem _ (List.mem_of_mem_take hM)
  exact ⟨inj (hr' _ mN) kN qN _ u1 v1, inj (hr' _ m0) k0 q0 _ u2 v2⟩

/-- eigenvectors of both groups make eigenvectors of the large problem -/
lemma eigenvectors_glue (g : OrderGroups e f) {M : Matrix ι ι ℂ} {M₂ : Matrix ι₂ ι₂ ℂ} {M' : Matrix ι' ι' ℂ} (hM : Inter e e M M') (hM₂ : Inter f f M₂ M')
    {lam : ι → ℂ} {phi : Matrix ι ι ℂ} (h : IsEig M lam phi) (hp : IsUnit phi.det) {lam₂ : ι₂ → ℂ} {phi₂ : Matrix ι₂ ι₂ ℂ} (h₂ : IsEig M₂ lam₂ phi₂)
    (hp₂ : IsUnit phi₂.det) : ∃ lam' phi', IsEig M' lam' phi' ∧ IsUnit phi'.det := by
  classical
  obtain ⟨lam', k1, k2⟩ : ∃ lam' : ι' → ℂ, (∀ i, lam' (e i) = lam i) ∧ ∀ j, lam' (f j) = lam₂ j := by
    refine ⟨fun k => if h : ∃ i, k = e i then lam h.choose else if h : ∃ j, k = f j then lam₂ h.choose else 0, fun i => ?_, fun j => ?_⟩
    · have hh : ∃ i', e i = e i' := ⟨i, rfl⟩
      show dite _ _ _ = _
      rw [dif_pos hh]
      exact congrArg lam (g.inj_e hh.choose_spec).symm
    · have hh : ¬ ∃ i, f j = e i := fun ⟨i, hi⟩ => g.disjoint i j hi.symm
      have hh2 : ∃ j', f j = f j' := ⟨j, rfl⟩
      show dite _ _ _ = _
      rw [dif_neg hh, dif_pos hh2]
      exact congrArg lam₂ (g.inj_f hh2.choose_spec).symm
  have d1 := Inter.diag g.inj_e k1
  have d2 := Inter.diag g.inj_f k2
  have t : ∀ {a : Type} [Fintype a] [DecidableEq a] {c : a → ι'}, Function.Injective c → (extMat c).transpose * extMat c = 1 := by
    intro a _ _ c hc
    rw [show (extMat c).transpose = (extMat c).conjTranspose from ?_, extMat_isometry hc]
    ext i j
    rw [Matrix.transpose_apply, Matrix.conjTranspose_apply, extMat_apply]
    split <;> simp
  have o1 : (extMat e).transpose * extMat f = 0 := by
    ext i j
    have := extMat_transpose_mulVec e (fun k => extMat f k j) i
    rw [extMat_apply, if_neg (g.disjoint i j)] at this
    exact this
  have o2 : (extMat f).transpose * extMat e = 0 := by
    ext i j
    have := extMat_transpose_mulVec f (fun k => extMat e k j) i
    rw [extMat_apply, if_neg fun h => g.disjoint j i h.symm] at this
    exact this
  have hsum : extMat e * (extMat e).transpose + extMat f * (extMat f).transpose = 1 := by
    have : ∀ u : ι' → ℂ, (extMat e * (extMat e).transpose + extMat f * (extMat f).transpose) *ᵥ u - u = 0 := by
      intro u
      refine g.zero ?_ ?_
      · rw [Matrix.mulVec_sub, Matrix.mulVec_mulVec, Matrix.mul_add, ← Matrix.mul_assoc, ← Matrix.mul_assoc, t g.inj_e, o1, Matrix.zero_mul, add_zero,
          Matrix.one_mul, sub_self]
      · rw [Matrix.mulVec_sub, Matrix.mulVec_mulVec, Matrix.mul_add, ← Matrix.mul_assoc, ← Matrix.mul_assoc, t g.inj_f, o2, Matrix.zero_mul, zero_add,
          Matrix.one_mul, sub_self]
    refine Matrix.ext_of_mulVec_single fun i => ?_
    rw [Matrix.one_mulVec, ← sub_eq_zero]
    exact this _
  refine ⟨lam', extMat e * phi * (extMat e).transpose + extMat f * phi₂ * (extMat f).transpose, ?_, ?_⟩
  · rw [IsEig] at h h₂ ⊢
    rw [Matrix.mul_add, Matrix.add_mul]
    congr 1
    · rw [← Matrix.mul_assoc, ← Matrix.mul_assoc, hM.r, Matrix.mul_assoc (extMat e), h, Matrix.mul_assoc _ _ (diagonal lam'), d1.l]
      simp only [Matrix.mul_assoc]
    · rw [← Matrix.mul_assoc, ← Matrix.mul_assoc, hM₂.r, Matrix.mul_assoc (extMat f), h₂, Matrix.mul_assoc _ _ (diagonal lam'), d2.l]
      simp only [Matrix.mul_assoc]
  · have : (extMat e * phi * (extMat e).transpose + extMat f * phi₂ * (extMat f).transpose) *
        (extMat e * phi⁻¹ * (extMat e).transpose + extMat f * phi₂⁻¹ * (extMat f).transpose) = 1 := by
      rw [Matrix.add_mul, Matrix.mul_add, Matrix.mul_add]
      have a1 : ∀ {a b c : Type} [Fintype a] [Fintype b] [Fintype c] [DecidableEq a] [DecidableEq b] [DecidableEq c] (A : Matrix ι' a ℂ)
          (B : Matrix a a ℂ) (B' : Matrix a ι' ℂ) (C : Matrix ι' b ℂ) (D : Matrix b b ℂ) (D' : Matrix b ι' ℂ),
          A * B * B' * (C * D * D') = A * B * (B' * C) * D * D' := by
        intros; simp only [Matrix.mul_assoc]
      rw [a1 (c := ι), a1 (c := ι), a1 (c := ι), a1 (c := ι), t g.inj_e, t g.inj_f, o1, o2]
      simp only [Matrix.mul_one, Matrix.mul_zero, Matrix.zero_mul, add_zero, zero_add]
      rw [Matrix.mul_assoc (extMat e), Matrix.mul_nonsing_inv _ hp, Matrix.mul_assoc (extMat f), Matrix.mul_nonsing_inv _ hp₂, Matrix.mul_one,
        Matrix.mul_one, hsum]
    have := congrArg Matrix.det this
    rw [Matrix.det_mul, Matrix.det_one] at this
    exact IsUnit.of_mul_eq_one _ this

end

end Nidn
