/-
Two descriptions of the same layer: the modes may be listed in another basis (`X`), the fields may be written in another basis (`U`), and
all lengths may be scaled (`c`). Such descriptions have corresponding solutions and the same Poynting fluxes.
-/
import Verif.Props.Flux
import Verif.Props.SMatrix
import Verif.Props.Solvable

set_option linter.unusedSectionVars false

namespace Nidn

open Matrix

variable {ι : Type} [Fintype ι] [DecidableEq ι] {κ : Type} [Fintype κ] [DecidableEq κ]

/-- `L'` describes the layer `L`: amplitudes `X a'` of `L` belong to amplitudes `a'` of `L'`, the fields of `L'` are those of `L` in the basis
`U`, and the lengths of `L'` are `c` times those of `L`. -/
structure Gauge (c : ℝ) (U X : Matrix ι ι ℂ) (L L' : LayerData ι) : Prop where
  phi : L'.phi = U * L.phi * X
  kp : (c : ℂ) ^ 2 • (L'.kp * U) = U * L.kp
  q : ∀ m n, X m n ≠ 0 → (c : ℂ) * L'.q n = L.q m
  d : L'.d = c * L.d

lemma Gauge.hTan {c : ℝ} {U X : Matrix ι ι ℂ} {L L' : LayerData ι} (g : Gauge c U X L L') (u v : ι → ℂ) :
    L'.hTan u v = U *ᵥ L.hTan (X *ᵥ u) (X *ᵥ v) := by
  rw [LayerData.hTan, LayerData.hTan, g.phi, ← Matrix.mulVec_add, Matrix.mulVec_mulVec, Matrix.mulVec_mulVec, Matrix.mul_assoc]

lemma Gauge.div {c : ℝ} (hc : c ≠ 0) {U X : Matrix ι ι ℂ} {L L' : LayerData ι} (g : Gauge c U X L L') (u : ι → ℂ) :
    (X *ᵥ fun m => u m / L'.q m) = (c : ℂ) • fun m => (X *ᵥ u) m / L.q m := by
  have hc' : (c : ℂ) ≠ 0 := Complex.ofReal_ne_zero.2 hc
  ext m
  simp only [Matrix.mulVec, dotProduct, Pi.smul_apply, smul_eq_mul]
  rw [div_eq_mul_inv, Finset.sum_mul, Finset.mul_sum]
  refine Finset.sum_congr rfl fun n _ => ?_
  by_cases h : X m n = 0
  · simp [h]
  · rw [← g.q m n h]
    by_cases h0 : L'.q n = 0
    · simp [h0]
    · field_simp

lemma Gauge.through {c : ℝ} {U X : Matrix ι ι ℂ} {L L' : LayerData ι} (g : Gauge c U X L L') (u : ι → ℂ) :
    X *ᵥ L'.through u = L.through (X *ᵥ u) := by
  ext m
  simp only [Matrix.mulVec, dotProduct, LayerData.through]
  rw [Finset.mul_sum]
  refine Finset.sum_congr rfl fun n _ => ?_
  by_cases h : X m n = 0
  · simp [h]
  · rw [← g.q m n h, g.d]
    push_cast
    rw [show Complex.I * (c * L'.q n) * (L.d : ℂ) = Complex.I * L'.q n * (c * L.d) by ring]
    ring

/-- the electric field of one direction -/
lemma Gauge.half {c : ℝ} (hc : c ≠ 0) {U X : Matrix ι ι ℂ} {L L' : LayerData ι} (g : Gauge c U X L L') (u : ι → ℂ) :
    (c : ℂ) • (L'.kp *ᵥ (L'.phi *ᵥ fun m => u m / L'.q m)) = U *ᵥ (L.kp *ᵥ (L.phi *ᵥ fun m => (X *ᵥ u) m / L.q m)) := by
  have h : L'.kp * L'.phi = L'.kp * U * (L.phi * X) := by rw [g.phi]; simp only [Matrix.mul_assoc]
  rw [Matrix.mulVec_mulVec, h, ← Matrix.mulVec_mulVec, ← Matrix.mulVec_mulVec (M := L.phi), g.div hc, Matrix.mulVec_smul, Matrix.mulVec_smul,
    smul_smul, ← sq, ← Matrix.smul_mulVec, g.kp, ← Matrix.mulVec_mulVec]

lemma Gauge.eTan {c : ℝ} (hc : c ≠ 0) {U X : Matrix ι ι ℂ} {L L' : LayerData ι} (g : Gauge c U X L L') (u v : ι → ℂ) :
    (c : ℂ) • L'.eTan u v = U *ᵥ L.eTan (X *ᵥ u) (X *ᵥ v) := by
  have := g.half hc (u - v)
  rw [LayerData.eTan, LayerData.eTan]
  rw [Matrix.mulVec_sub] at this
  exact this

lemma Gauge.continuous {c : ℝ} (hc : c ≠ 0) {U X Y : Matrix ι ι ℂ} (hU : IsUnit U.det) {L M L' M' : LayerData ι} (g : Gauge c U X L L')
    (h : Gauge c U Y M M') {a b a' b' : ι → ℂ} :
    Continuous L' M' a b a' b' ↔ Continuous L M (X *ᵥ a) (X *ᵥ b) (Y *ᵥ a') (Y *ᵥ b') := by
  have hc' : (c : ℂ) ≠ 0 := Complex.ofReal_ne_zero.2 hc
  have inj : Function.Injective fun v : ι → ℂ => U *ᵥ v := Matrix.mulVec_injective_iff_isUnit.2 ((Matrix.isUnit_iff_isUnit_det _).2 hU)
  constructor
  · intro k
    constructor
    · apply inj
      have := k.h
      rw [g.hTan, h.hTan, g.through, h.through] at this
      exact this
    · apply inj
      have : (c : ℂ) • L'.eTan (L'.through a) b = (c : ℂ) • M'.eTan a' (M'.through b') := by rw [k.e]
      rw [g.eTan hc, h.eTan hc, g.through, h.through] at this
      exact this
  · intro k
    constructor
    · rw [g.hTan, h.hTan, g.through, h.through, k.h]
    · have : (c : ℂ) • L'.eTan (L'.through a) b = (c : ℂ) • M'.eTan a' (M'.through b') := by
        rw [g.eTan hc, h.eTan hc, g.through, h.through, k.e]
      exact smul_right_injective _ hc' this

/-- a whole stack in another description: the changes of basis may differ from layer to layer -/
inductive GaugeStack (c : ℝ) (U : Matrix ι ι ℂ) : Matrix ι ι ℂ → Matrix ι ι ℂ → List (LayerData ι) → List (LayerData ι) → Prop
  | one {X : Matrix ι ι ℂ} {L L' : LayerData ι} (h : Gauge c U X L L') (hX : IsUnit X.det) : GaugeStack c U X X [L] [L']
  | cons {X Y Z : Matrix ι ι ℂ} {L L' M M' : LayerData ι} {r r' : List (LayerData ι)} (h : Gauge c U X L L') (hX : IsUnit X.det)
      (t : GaugeStack c U Y Z (M :: r) (M' :: r')) : GaugeStack c U X Z (L :: M :: r) (L' :: M' :: r')

lemma GaugeStack.head {c : ℝ} {U X Z : Matrix ι ι ℂ} {L L' : LayerData ι} {r r' : List (LayerData ι)}
    (h : GaugeStack c U X Z (L :: r) (L' :: r')) : Gauge c U X L L' := by
  cases h with
  | one h _ => exact h
  | cons h _ _ => exact h

lemma mulVec_inj {X : Matrix ι ι ℂ} (hX : IsUnit X.det) {a b : ι → ℂ} : X *ᵥ a = X *ᵥ b ↔ a = b :=
  (Matrix.mulVec_injective_iff_isUnit.2 ((Matrix.isUnit_iff_isUnit_det _).2 hX)).eq_iff

lemma mulVec_surj {X : Matrix ι ι ℂ} (hX : IsUnit X.det) (a : ι → ℂ) : ∃ b, X *ᵥ b = a :=
  ⟨X⁻¹ *ᵥ a, by rw [Matrix.mulVec_mulVec, Matrix.mul_nonsing_inv _ hX, Matrix.one_mulVec]⟩

lemma GaugeStack.sol {c : ℝ} (hc : c ≠ 0) {U X Z : Matrix ι ι ℂ} (hU : IsUnit U.det) {l l' : List (LayerData ι)}
    (h : GaugeStack c U X Z l l') (a0 b0 aN bN : ι → ℂ) :
    StackSol l' a0 b0 aN bN ↔ StackSol l (X *ᵥ a0) (X *ᵥ b0) (Z *ᵥ aN) (Z *ᵥ bN) := by
  induction h generalizing a0 b0 with
  | one h hX => simp only [StackSol, mulVec_inj hX]
  | @cons X Y Z L L' M M' r r' h hX t ih =>
    have hY : IsUnit Y.det := by cases t with
      | one _ h => exact h
      | cons _ h _ => exact h
    constructor
    · rintro ⟨a', b', k, s⟩
      exact ⟨Y *ᵥ a', Y *ᵥ b', (h.continuous hc hU t.head).1 k, (ih a' b').1 s⟩
    · rintro ⟨a', b', k, s⟩
      obtain ⟨a', rfl⟩ := mulVec_surj hY a'
      obtain ⟨b', rfl⟩ := mulVec_surj hY b'
      exact ⟨a', b', (h.continuous hc hU t.head).2 k, (ih a' b').2 s⟩

lemma GaugeStack.units {c : ℝ} {U X Z : Matrix ι ι ℂ} {l l' : List (LayerData ι)} (h : GaugeStack c U X Z l l') :
    IsUnit X.det ∧ IsUnit Z.det := by
  induction h with
  | one _ h => exact ⟨h, h⟩
  | cons _ h _ ih => exact ⟨h, ih.2⟩

lemma GaugeStack.ends {c : ℝ} {U X Z : Matrix ι ι ℂ} {l l' : List (LayerData ι)} (h : GaugeStack c U X Z l l') :
    ∃ L0 L0' LN LN', l.head? = some L0 ∧ l'.head? = some L0' ∧ l.getLast? = some LN ∧ l'.getLast? = some LN' ∧
      Gauge c U X L0 L0' ∧ Gauge c U Z LN LN' := by
  induction h with
  | @one X L L' h _ => exact ⟨L, L', L, L', rfl, rfl, rfl, rfl, h, h⟩
  | @cons X Y Z L L' M M' r r' h _ t ih =>
    obtain ⟨_, _, LN, LN', _, _, e1, e2, _, k⟩ := ih
    exact ⟨L, L', LN, LN', rfl, rfl, by rw [List.getLast?_cons_cons]; exact e1, by rw [List.getLast?_cons_cons]; exact e2, h, k⟩

/-- no zero wave number appears or disappears -/
lemma Gauge.q_ne {c : ℝ} (hc : c ≠ 0) {U X : Matrix ι ι ℂ} (hX : IsUnit X.det) {L L' : LayerData ι} (g : Gauge c U X L L')
    (h : ∀ m, L.q m ≠ 0) (n : ι) : L'.q n ≠ 0 := by
  have hc' : (c : ℂ) ≠ 0 := Complex.ofReal_ne_zero.2 hc
  by_contra h0
  have : ∀ m, X m n = 0 := fun m => by
    by_contra hm
    have := g.q m n hm
    rw [h0, mul_zero] at this
    exact h m this.symm
  exact hX.ne_zero (Matrix.det_eq_zero_of_column_eq_zero n this)

lemma GaugeStack.q_ne {c : ℝ} (hc : c ≠ 0) {U X Z : Matrix ι ι ℂ} {l l' : List (LayerData ι)} (h : GaugeStack c U X Z l l')
    (hq : ∀ M ∈ l, ∀ m, M.q m ≠ 0) : ∀ M ∈ l', ∀ m, M.q m ≠ 0 := by
  induction h with
  | one g hX =>
    intro M hM
    obtain rfl := List.mem_singleton.1 hM
    exact g.q_ne hc hX (hq _ (by simp))
  | cons g hX t ih =>
    intro M hM
    rcases List.mem_cons.1 hM with rfl | hM
    · exact g.q_ne hc hX (hq _ (by simp))
    · exact ih (fun M hM => hq M (List.mem_cons_of_mem _ hM)) M hM

/-! the fluxes -/

lemma Gauge.fluxA {c : ℝ} (hc : c ≠ 0) {U X : Matrix (κ ⊕ κ) (κ ⊕ κ) ℂ} {L L' : LayerData (κ ⊕ κ)} (g : Gauge c U X L L') (ω : ℂ)
    (u : κ ⊕ κ → ℂ) : Nidn.fluxA (ω / c) L' *ᵥ u = U *ᵥ (Nidn.fluxA ω L *ᵥ (X *ᵥ u)) := by
  have hc' : (c : ℂ) ≠ 0 := Complex.ofReal_ne_zero.2 hc
  rw [fluxA_mulVec, fluxA_mulVec, Matrix.mulVec_smul, ← g.half hc, smul_smul]
  congr 1
  rw [inv_div]
  ring

/-- sums over all orders do not change under a unitary change of the basis of the fields -/
lemma unitary_dot {U : Matrix ι ι ℂ} (hU : U.conjTranspose * U = 1) (x y : ι → ℂ) : star (U *ᵥ x) ⬝ᵥ (U *ᵥ y) = star x ⬝ᵥ y := by
  rw [star_dot_adj, Matrix.mulVec_mulVec, hU, Matrix.one_mulVec]

lemma zflux_dot (ω : ℂ) (L : LayerData (κ ⊕ κ)) (a b : κ ⊕ κ → ℂ) :
    zPoyntingFlux ω L a b =
      (((star (Nidn.fluxA ω L *ᵥ a) ⬝ᵥ (L.phi *ᵥ a)).re : ℂ) +
        0.5 * (star (L.phi *ᵥ b) ⬝ᵥ (Nidn.fluxA ω L *ᵥ a) - star (Nidn.fluxA ω L *ᵥ b) ⬝ᵥ (L.phi *ᵥ a)),
      -((star (Nidn.fluxA ω L *ᵥ b) ⬝ᵥ (L.phi *ᵥ b)).re : ℂ) +
        (starRingEnd ℂ) (0.5 * (star (L.phi *ᵥ b) ⬝ᵥ (Nidn.fluxA ω L *ᵥ a) - star (Nidn.fluxA ω L *ᵥ b) ⬝ᵥ (L.phi *ᵥ a)))) := by
  have e : ∀ f : κ ⊕ κ → ℂ, ∑ i, (f (.inl i) + f (.inr i)) = ∑ m, f m := fun f => by
    rw [Fintype.sum_sum_type, Finset.sum_add_distrib]
  have hd : ∑ m, fluxDiff ω L a b m = 0.5 * (star (L.phi *ᵥ b) ⬝ᵥ (Nidn.fluxA ω L *ᵥ a) - star (Nidn.fluxA ω L *ᵥ b) ⬝ᵥ (L.phi *ᵥ a)) := by
    simp only [fluxDiff, dotProduct, Pi.star_apply]
    rw [← Finset.mul_sum, Finset.sum_sub_distrib]
    rfl
  have hr : ∀ x y : κ ⊕ κ → ℂ, ∑ m, ((((starRingEnd ℂ) (x m) * y m).re : ℝ) : ℂ) = ((star x ⬝ᵥ y).re : ℂ) := fun x y => by
    rw [← Complex.ofReal_sum, ← Complex.re_sum]
    rfl
  rw [zPoyntingFlux, fluxByOrder]
  refine Prod.ext ?_ ?_
  · show ∑ i, (forwardXY ω L a b (.inl i) + forwardXY ω L a b (.inr i)) = _
    rw [e]
    show _ = ((star (Nidn.fluxA ω L *ᵥ a) ⬝ᵥ (L.phi *ᵥ a)).re : ℂ) + _
    rw [← hd, ← hr, ← Finset.sum_add_distrib]
    rfl
  · show ∑ i, (backwardXY ω L a b (.inl i) + backwardXY ω L a b (.inr i)) = _
    rw [e]
    show _ = -((star (Nidn.fluxA ω L *ᵥ b) ⬝ᵥ (L.phi *ᵥ b)).re : ℂ) + _
    rw [← hd, ← hr, map_sum, ← Finset.sum_neg_distrib, ← Finset.sum_add_distrib]
    rfl

lemma Gauge.zflux {c : ℝ} (hc : c ≠ 0) {U X : Matrix (κ ⊕ κ) (κ ⊕ κ) ℂ} (hU : U.conjTranspose * U = 1) {L L' : LayerData (κ ⊕ κ)}
    (g : Gauge c U X L L') (ω : ℂ) (a b : κ ⊕ κ → ℂ) : zPoyntingFlux (ω / c) L' a b = zPoyntingFlux ω L (X *ᵥ a) (X *ᵥ b) := by
  have hp : ∀ u, L'.phi *ᵥ u = U *ᵥ (L.phi *ᵥ (X *ᵥ u)) := fun u => by
    rw [g.phi, Matrix.mulVec_mulVec, Matrix.mulVec_mulVec, Matrix.mul_assoc]
  rw [zflux_dot, zflux_dot]
  simp only [g.fluxA hc, hp, unitary_dot hU]

lemma isUnit_of_unitary {U : Matrix ι ι ℂ} (hU : U.conjTranspose * U = 1) : IsUnit U.det := by
  have := congrArg Matrix.det hU
  rw [Matrix.det_mul, Matrix.det_one] at this
  exact IsUnit.of_mul_eq_one_right _ this

/-- two descriptions of the same stack: the same reflectance and transmittance -/
theorem gauge_rt {c : ℝ} (hc : c ≠ 0) {U X Z : Matrix (κ ⊕ κ) (κ ⊕ κ) ℂ} (hU : U.conjTranspose * U = 1) {l l' : List (LayerData (κ ⊕ κ))}
    (h : GaugeStack c U X Z l l') (hq : ∀ M ∈ l, ∀ m, M.q m ≠ 0) (ω : ℂ) (norm : ℝ) {a0 bN : κ ⊕ κ → ℂ} {r r' : ℝ × ℝ}
    (h1 : rtForward ω norm l (X *ᵥ a0) (Z *ᵥ bN) = .ok r) (h2 : rtForward (ω / c) norm l' a0 bN = .ok r') : r' = r := by
  have hU' : IsUnit U.det := isUnit_of_unitary hU
  obtain ⟨L0, L0', LN, LN', e1, e2, e3, e4, g0, gN⟩ := h.ends
  rw [rtForward, bind_ok] at h1 h2
  obtain ⟨x, hx, h1⟩ := h1
  obtain ⟨y, hy, h2⟩ := h2
  rw [e1, e3] at h1
  rw [e2, e4] at h2
  injection h1 with h1
  injection h2 with h2
  have k : StackSol l' a0 y.2 y.1 bN := (C16_exterior l' (h.q_ne hc hq) a0 bN y.1 y.2 y hy).2 ⟨rfl, rfl⟩
  rw [h.sol hc hU', C16_exterior l hq _ _ _ _ x hx] at k
  rw [← h1, ← h2, g0.zflux hc hU, gN.zflux hc hU, k.1, k.2]

lemma Gauge.regular {c : ℝ} (hc : c ≠ 0) {U X : Matrix ι ι ℂ} (hU : IsUnit U.det) (hX : IsUnit X.det) {L L' : LayerData ι}
    (g : Gauge c U X L L') (h : L.Regular) : L'.Regular where
  phi := by rw [g.phi, Matrix.det_mul, Matrix.det_mul]; exact (hU.mul h.phi).mul hX
  kp := by
    have hc' : (c : ℂ) ≠ 0 := Complex.ofReal_ne_zero.2 hc
    have := congrArg Matrix.det g.kp
    rw [Matrix.det_smul, Matrix.det_mul, Matrix.det_mul] at this
    rw [isUnit_iff_ne_zero] at hU ⊢
    intro h0
    rw [h0, zero_mul, mul_zero] at this
    exact mul_ne_zero hU h.kp.ne_zero this.symm
  q := g.q_ne hc hX h.q

lemma GaugeStack.regular {c : ℝ} (hc : c ≠ 0) {U X Z : Matrix ι ι ℂ} (hU : IsUnit U.det) {l l' : List (LayerData ι)}
    (h : GaugeStack c U X Z l l') (hr : ∀ M ∈ l, M.Regular) : ∀ M ∈ l', M.Regular := by
  induction h with
  | one g hX =>
    intro M hM
    obtain rfl := List.mem_singleton.1 hM
    exact g.regular hc hU hX (hr _ (by simp))
  | cons g hX t ih =>
    intro M hM
    rcases List.mem_cons.1 hM with rfl | hM
    · exact g.regular hc hU hX (hr _ (by simp))
    · exact ih (fun M hM => hr M (List.mem_cons_of_mem _ hM)) M hM

lemma GaugeStack.take {c : ℝ} {U X Z : Matrix ι ι ℂ} {l l' : List (LayerData ι)} (h : GaugeStack c U X Z l l') (n : ℕ) :
    ∃ Z', GaugeStack c U X Z' (l.take (n + 1)) (l'.take (n + 1)) := by
  induction h generalizing n with
  | @one X L L' g hX => exact ⟨X, by simpa using GaugeStack.one g hX⟩
  | @cons X Y Z L L' M M' r r' g hX t ih =>
    cases n with
    | zero => exact ⟨X, by simpa using GaugeStack.one g hX⟩
    | succ n =>
      obtain ⟨Z', h⟩ := ih n
      simp only [List.take_succ_cons] at h ⊢
      exact ⟨Z', .cons g hX h⟩

lemma GaugeStack.cons_form {c : ℝ} {U X Z : Matrix ι ι ℂ} {l l' : List (LayerData ι)} (h : GaugeStack c U X Z l l') :
    ∃ L L' r r', l = L :: r ∧ l' = L' :: r' ∧ r.length = r'.length := by
  induction h with
  | @one X L L' g hX => exact ⟨L, L', [], [], rfl, rfl, rfl⟩
  | @cons X Y Z L L' M M' r r' g hX t ih =>
    obtain ⟨_, _, _, _, e, e', e2⟩ := ih
    refine ⟨L, L', _, _, rfl, rfl, ?_⟩
    rw [e, e']
    simp [e2]

/-- the solver answers for one description exactly if it answers for the other -/
lemma GaugeStack.answers {c : ℝ} (hc : c ≠ 0) {U X Z : Matrix ι ι ℂ} (hU : IsUnit U.det) {l l' : List (LayerData ι)}
    (h : GaugeStack c U X Z l l') (hr : ∀ M ∈ l, M.Regular) (a0 bN a0' bN' : ι → ℂ) :
    (∃ r, solveExterior l a0 bN = .ok r) ↔ ∃ r, solveExterior l' a0' bN' = .ok r := by
  obtain ⟨L, L', r, r', rfl, rfl, hlen⟩ := h.cons_form
  rw [C113_modes L r hr, C113_modes L' r' (h.regular hc hU hr)]
  have key : ∀ n, ∀ b0 aN, (StackSol (L' :: r'.take n) 0 b0 aN 0 ↔ ∃ Z', IsUnit Z'.det ∧ IsUnit X.det ∧
      GaugeStack c U X Z' (L :: r.take n) (L' :: r'.take n) ∧ StackSol (L :: r.take n) 0 (X *ᵥ b0) (Z' *ᵥ aN) 0) := by
    intro n b0 aN
    obtain ⟨Z', g⟩ := h.take n
    simp only [List.take_succ_cons] at g
    constructor
    · intro hs
      rw [g.sol hc hU] at hs
      simp only [Matrix.mulVec_zero] at hs
      exact ⟨Z', g.units.2, g.units.1, g, hs⟩
    · rintro ⟨Z', -, -, g, hs⟩
      rw [g.sol hc hU]
      simpa only [Matrix.mulVec_zero] using hs
  constructor
  · intro hu p hp b0 aN hs
    rw [List.prefix_iff_eq_take.1 hp] at hs
    obtain ⟨Z', hZ, hX, -, hs⟩ := (key _ _ _).1 hs
    obtain ⟨e1, e2⟩ := hu _ (List.take_prefix _ _) _ _ hs
    refine ⟨(mulVec_inj hZ).1 ?_, (mulVec_inj hX).1 ?_⟩
    · rw [e1, Matrix.mulVec_zero]
    · rw [e2, Matrix.mulVec_zero]
  · intro hu p hp b0 aN hs
    rw [List.prefix_iff_eq_take.1 hp] at hs
    obtain ⟨Z', g⟩ := h.take p.length
    simp only [List.take_succ_cons] at g
    obtain ⟨b, rfl⟩ := mulVec_surj g.units.1 b0
    obtain ⟨a, rfl⟩ := mulVec_surj g.units.2 aN
    obtain ⟨e1, e2⟩ := hu _ (List.take_prefix _ _) b a ((key _ _ _).2 ⟨Z', g.units.2, g.units.1, g, hs⟩)
    rw [e1, e2, Matrix.mulVec_zero, Matrix.mulVec_zero]
    exact ⟨rfl, rfl⟩

lemma rtForward_ok_iff (ω : ℂ) (norm : ℝ) (l : List (LayerData (κ ⊕ κ))) (a0 bN : κ ⊕ κ → ℂ) (hl : l ≠ []) :
    (∃ r, rtForward ω norm l a0 bN = .ok r) ↔ ∃ r, solveExterior l a0 bN = .ok r := by
  obtain ⟨L, r, rfl⟩ := List.exists_cons_of_ne_nil hl
  constructor
  · rintro ⟨r, h⟩
    rw [rtForward, bind_ok] at h
    obtain ⟨x, h, -⟩ := h
    exact ⟨x, h⟩
  · rintro ⟨x, h⟩
    rw [rtForward, h]
    exact ⟨_, rfl⟩

/-- two descriptions of the same stack: the same answer -/
theorem gauge_rt_iff {c : ℝ} (hc : c ≠ 0) {U X Z : Matrix (κ ⊕ κ) (κ ⊕ κ) ℂ} (hU : U.conjTranspose * U = 1)
    {l l' : List (LayerData (κ ⊕ κ))} (h : GaugeStack c U X Z l l') (hr : ∀ M ∈ l, M.Regular) (ω : ℂ) (norm : ℝ) (a0 bN : κ ⊕ κ → ℂ)
    (r : ℝ × ℝ) : rtForward (ω / c) norm l' a0 bN = .ok r ↔ rtForward ω norm l (X *ᵥ a0) (Z *ᵥ bN) = .ok r := by
  have hl : l ≠ [] ∧ l' ≠ [] := by
    obtain ⟨L, L', r, r', rfl, rfl, -⟩ := h.cons_form
    exact ⟨by simp, by simp⟩
  have key := h.answers hc (isUnit_of_unitary hU) hr (X *ᵥ a0) (Z *ᵥ bN) a0 bN
  rw [← rtForward_ok_iff ω norm l _ _ hl.1, ← rtForward_ok_iff (ω / c) norm l' _ _ hl.2] at key
  constructor
  · intro h1
    obtain ⟨r1, h2⟩ := key.2 ⟨r, h1⟩
    rw [h2, gauge_rt hc hU h (fun M hM => (hr M hM).q) ω norm h2 h1]
  · intro h1
    obtain ⟨r1, h2⟩ := key.1 ⟨r, h1⟩
    rw [h2, gauge_rt hc hU h (fun M hM => (hr M hM).q) ω norm h1 h2]

end Nidn
