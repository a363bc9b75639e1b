/-
C179: the FDTD steps converge to Maxwell's equations. Fields of Maxwell's equations in a periodic medium, sampled on the grid at the start, are followed by the simulation with an error of second order in the cell size.
-/
import Verif.Lemmas.FdtdConverge
import Verif.Spec.MaxwellTime
import Mathlib.Analysis.SpecialFunctions.Trigonometric.Deriv
import Mathlib.Analysis.SpecialFunctions.Trigonometric.Bounds
import Mathlib.Analysis.Calculus.ContDiff.RCLike
import Mathlib.Topology.MetricSpace.ProperSpace

namespace Nidn

section differences

/-- direction of time -/
noncomputable def dirT : ℝ × Place := (1, 0)

/-- direction of axis `a` -/
noncomputable def dirX (a : Fin 3) : ℝ × Place := (0, Pi.single a 1)

variable {F : ℝ × Place → ℝ}

lemma line_x (t : ℝ) (x : Place) (a : Fin 3) (y : ℝ) : (t, Function.update x a y) = (t, Function.update x a 0) + y • dirX a := by
  refine Prod.ext ?_ ?_
  · simp [dirX]
  · funext b
    by_cases hb : b = a
    · subst hb; simp [dirX]
    · simp [dirX, hb]

lemma line_t (τ : ℝ) (x : Place) : (τ, x) = ((0, x) : ℝ × Place) + τ • dirT := by
  refine Prod.ext ?_ ?_ <;> simp [dirT]

lemma hasDeriv_x (hF : ContDiff ℝ 1 F) (t : ℝ) (x : Place) (a : Fin 3) (y : ℝ) :
    HasDerivAt (fun y => F (t, Function.update x a y)) (along (dirX a) F (t, Function.update x a y)) y := by
  have := along_hasDerivAt hF (t, Function.update x a 0) (dirX a) y
  simpa only [← line_x] using this

lemma hasDeriv_t (hF : ContDiff ℝ 1 F) (x : Place) (τ : ℝ) : HasDerivAt (fun τ => F (τ, x)) (along dirT F (τ, x)) τ := by
  have := along_hasDerivAt hF (0, x) dirT τ
  simpa only [← line_t] using this

lemma along_one (hF : ContDiff ℝ 3 F) (v : ℝ × Place) : ContDiff ℝ 2 (along v F) := along_contDiff (n := 3) (m := 2) hF (by norm_num) v
lemma along_two (hF : ContDiff ℝ 3 F) (v : ℝ × Place) : ContDiff ℝ 1 (along v (along v F)) := along_contDiff (n := 2) (m := 1) (along_one hF v) (by norm_num) v
lemma along_three (hF : ContDiff ℝ 3 F) (v : ℝ × Place) : Continuous (along v (along v (along v F))) :=
  (along_contDiff (n := 1) (m := 0) (along_two hF v) (by norm_num) v).continuous

lemma difference_x (hF : ContDiff ℝ 3 F) (t : ℝ) (x : Place) (a : Fin 3) {η M : ℝ} (hη : 0 ≤ η)
    (hM : ∀ y, |y - x a| ≤ η → |along (dirX a) (along (dirX a) (along (dirX a) F)) (t, Function.update x a y)| ≤ M) :
    |F (t, Function.update x a (x a + η)) - F (t, Function.update x a (x a - η)) - 2 * η * partialAt (fun y => F (t, y)) a x| ≤ M / 3 * η ^ 3 := by
  have h1 : ContDiff ℝ 1 F := hF.of_le (by norm_num)
  have h2 : ContDiff ℝ 1 (along (dirX a) F) := (along_one hF _).of_le (by norm_num)
  have h := central_difference (hasDeriv_x h1 t x a) (hasDeriv_x h2 t x a) (hasDeriv_x (along_two hF _) t x a) hη hM
  rw [show partialAt (fun y => F (t, y)) a x = along (dirX a) F (t, Function.update x a (x a)) from (hasDeriv_x h1 t x a (x a)).deriv]
  exact h

lemma difference_t (hF : ContDiff ℝ 3 F) (τ : ℝ) (x : Place) {η M : ℝ} (hη : 0 ≤ η) (hM : ∀ y, |y - τ| ≤ η → |along dirT (along dirT (along dirT F)) (y, x)| ≤ M) :
    |F (τ + η, x) - F (τ - η, x) - 2 * η * deriv (fun τ => F (τ, x)) τ| ≤ M / 3 * η ^ 3 := by
  have h1 : ContDiff ℝ 1 F := hF.of_le (by norm_num)
  have h2 : ContDiff ℝ 1 (along dirT F) := (along_one hF _).of_le (by norm_num)
  have h := central_difference (hasDeriv_t h1 x) (hasDeriv_t h2 x) (hasDeriv_t (along_two hF _) x) hη hM
  rw [(hasDeriv_t h1 x τ).deriv]
  exact h

lemma mean_t (hF : ContDiff ℝ 3 F) (τ : ℝ) (x : Place) {η M : ℝ} (hη : 0 ≤ η) (hM : ∀ y, |y - τ| ≤ η → |along dirT (along dirT F) (y, x)| ≤ M) :
    |F (τ + η, x) + F (τ - η, x) - 2 * F (τ, x)| ≤ M * η ^ 2 :=
  central_mean (hasDeriv_t (hF.of_le (by norm_num)) x) (hasDeriv_t ((along_one hF _).of_le (by norm_num)) x) hη hM

/-- finitely many continuous functions are bounded on a compact set by one number -/
lemma common_bound {ι : Type} [Fintype ι] {V : Type} [TopologicalSpace V] {K : Set V} (hK : IsCompact K) (G : ι → V → ℝ) (hG : ∀ i, Continuous (G i)) :
    ∃ M, 0 ≤ M ∧ ∀ i, ∀ z ∈ K, |G i z| ≤ M := by
  have : ∀ i, ∃ C, ∀ z ∈ K, ‖G i z‖ ≤ C := fun i => hK.exists_bound_of_continuousOn (hG i).continuousOn
  choose C hC using this
  refine ⟨∑ i, |C i|, Finset.sum_nonneg fun _ _ => abs_nonneg _, fun i z hz => ?_⟩
  calc |G i z| ≤ C i := hC i z hz
    _ ≤ |C i| := le_abs_self _
    _ ≤ _ := Finset.single_le_sum (f := fun i => |C i|) (fun _ _ => abs_nonneg _) (Finset.mem_univ i)

end differences

section places

variable {s : ℝ} {p : Pos} {a c d : Fin 3}

lemma third {a c d : Fin 3} (hac : a ≠ c) (hdc : d ≠ c) (had : a ≠ d) (b : Fin 3) (hb : b ≠ a) : (b = d ↔ ¬ b = c) := by
  revert hac hdc had hb; revert a c d b; decide

lemma placeH_plus (hac : a ≠ c) (hdc : d ≠ c) (had : a ≠ d) : placeH s p d = Function.update (placeE s p c) a (placeE s p c a + s / 2) := by
  funext b
  by_cases hb : b = a
  · subst hb
    simp [placeH, placeE, had, hac]; ring
  · rw [Function.update_of_ne hb]
    have := third hac hdc had b hb
    simp only [placeH, placeE]
    by_cases hbd : b = d
    · rw [if_pos hbd, if_neg (this.mp hbd)]
    · rw [if_neg hbd, if_pos (by by_contra h; exact hbd (this.mpr h))]

lemma placeE_minus (hac : a ≠ c) (hdc : d ≠ c) (had : a ≠ d) : placeE s p d = Function.update (placeH s p c) a (placeH s p c a - s / 2) := by
  funext b
  by_cases hb : b = a
  · subst hb
    simp [placeH, placeE, had, hac]; ring
  · rw [Function.update_of_ne hb]
    have := third hac hdc had b hb
    simp only [placeH, placeE]
    by_cases hbd : b = d
    · rw [if_pos hbd, if_neg (this.mp hbd)]
    · rw [if_neg hbd, if_pos (by by_contra h; exact hbd (this.mpr h))]

variable {n : Pos} {as : List (Fin 3)} {ℓ : Fin 3 → ℝ}

lemma Repeats.shift {G : Place → ℝ} (h : Repeats as ℓ G) (ha : a ∈ as) (x : Place) (y : ℝ) : G (Function.update x a (y + ℓ a)) = G (Function.update x a y) := by
  have := h.period a ha (Function.update x a y)
  simpa using this

/-- backward differences of sampled magnetic components are central differences around the place of the electric component -/
lemma bwd_sampled (hn : ∀ a, (a ∈ as ∧ 2 ≤ n a) ∨ (a ∉ as ∧ n a = 1)) (hℓ : ∀ a ∈ as, ((n a : ℝ) - 1) * s = ℓ a) {G : Place → Fin 3 → ℝ} (hG : ∀ c, Repeats as ℓ fun x => G x c)
    (hac : a ≠ c) (hdc : d ≠ c) (had : a ≠ d) (hp : p ∈ box (torusOf n as).cells) :
    Torus.bwd (torusOf n as) (fun p c => G (placeH s p c) c) a d p
      = G (Function.update (placeE s p c) a (placeE s p c a + s / 2)) d - G (Function.update (placeE s p c) a (placeE s p c a - s / 2)) d := by
  rcases hn a with ⟨ha, h2⟩ | ⟨ha, h1⟩
  · rw [Torus.bwd_wraps (by simpa [torusOf] using ha), placeH_plus hac hdc had]
    congr 1
    have hpa := mem_box.mp hp a
    have hpa : p a < n a - 1 := by simpa [Torus.Lattice.cells, torusOf, ha] using hpa
    by_cases h0 : p a = 0
    · have e : (torusOf n as).prev p a = Function.update p a (n a - 2) := by
        simp [Torus.Lattice.prev, torusOf, ha, h0]
      rw [e]
      have e2 : placeH s (Function.update p a (n a - 2)) d = Function.update (placeE s p c) a (placeE s p c a - s / 2 + ℓ a) := by
        have := placeH_plus (s := s) (p := Function.update p a (n a - 2)) hac hdc had
        rw [this]
        funext b
        by_cases hb : b = a
        · subst hb
          simp only [Function.update_self, placeE, if_neg hac, h0, ← hℓ b ha]
          rw [Nat.cast_sub h2]; push_cast; ring
        · simp [Function.update_of_ne hb, placeE]
      rw [e2]
      exact (hG d).shift ha _ _
    · have e : (torusOf n as).prev p a = Function.update p a (p a - 1) := by
        simp [Torus.Lattice.prev, h0]
      rw [e]
      have e2 : placeH s (Function.update p a (p a - 1)) d = Function.update (placeE s p c) a (placeE s p c a - s / 2) := by
        have := placeH_plus (s := s) (p := Function.update p a (p a - 1)) hac hdc had
        rw [this]
        funext b
        by_cases hb : b = a
        · subst hb
          simp only [Function.update_self, placeE, if_neg hac]
          rw [Nat.cast_sub (by omega)]; push_cast; ring
        · simp [Function.update_of_ne hb, placeE]
      rw [e2]
  · rw [Torus.bwd_flat (by simp [torusOf, ha, h1]) _ _ hp, (hG d).flat a ha, (hG d).flat a ha, sub_self]

/-- forward differences of sampled electric components are central differences around the place of the magnetic component -/
lemma fwd_sampled (hn : ∀ a, (a ∈ as ∧ 2 ≤ n a) ∨ (a ∉ as ∧ n a = 1)) (hℓ : ∀ a ∈ as, ((n a : ℝ) - 1) * s = ℓ a) {G : Place → Fin 3 → ℝ} (hG : ∀ c, Repeats as ℓ fun x => G x c)
    (hac : a ≠ c) (hdc : d ≠ c) (had : a ≠ d) (hp : p ∈ box (torusOf n as).cells) :
    Torus.fwd (torusOf n as) (fun p c => G (placeE s p c) c) a d p
      = G (Function.update (placeH s p c) a (placeH s p c a + s / 2)) d - G (Function.update (placeH s p c) a (placeH s p c a - s / 2)) d := by
  rcases hn a with ⟨ha, h2⟩ | ⟨ha, h1⟩
  · rw [Torus.fwd_wraps (by simpa [torusOf] using ha)]
    rw [show G (placeE s p d) d = G (Function.update (placeH s p c) a (placeH s p c a - s / 2)) d by rw [placeE_minus hac hdc had]]
    congr 1
    have hpa := mem_box.mp hp a
    have hpa : p a < n a - 1 := by simpa [Torus.Lattice.cells, torusOf, ha] using hpa
    by_cases h0 : p a + 2 = n a
    · have e : (torusOf n as).next p a = Function.update p a 0 := by
        simp [Torus.Lattice.next, torusOf, ha, h0]
      rw [e]
      have e2 : Function.update (placeH s p c) a (placeH s p c a + s / 2) = Function.update (placeE s (Function.update p a 0) d) a (placeE s (Function.update p a 0) d a + ℓ a) := by
        have := placeE_minus (s := s) (p := Function.update p a 0) hac hdc had
        rw [this]
        funext b
        by_cases hb : b = a
        · subst hb
          have hc : (p b : ℝ) = n b - 2 := by rw [← h0]; push_cast; ring
          simp only [Function.update_self, placeH, if_neg hac, ← hℓ b ha, hc]
          push_cast; ring
        · simp [Function.update_of_ne hb, placeH]
      rw [e2]
      exact ((hG d).period a ha _).symm
    · have e : (torusOf n as).next p a = Function.update p a (p a + 1) := by
        simp [Torus.Lattice.next, torusOf, h0]
      rw [e]
      have e2 : placeE s (Function.update p a (p a + 1)) d = Function.update (placeH s p c) a (placeH s p c a + s / 2) := by
        have := placeE_minus (s := s) (p := Function.update p a (p a + 1)) hac hdc had
        rw [this]
        funext b
        by_cases hb : b = a
        · subst hb
          simp only [Function.update_self, placeH, if_neg hac]
          push_cast; ring
        · simp [Function.update_of_ne hb, placeH]
      rw [e2]
  · rw [Torus.fwd_flat (by simp [torusOf, ha, h1]), (hG d).flat a ha, (hG d).flat a ha, sub_self]

/-- a repeating quantity does not distinguish places that differ by the wrap-around -/
lemma repeats_congr {G : Place → ℝ} (hG : ∀ a ∈ as, ∀ x, G (Function.update x a (x a + ℓ a)) = G x) {x y : Place} (h : ∀ b, x b = y b ∨ (b ∈ as ∧ (x b = y b + ℓ b ∨ y b = x b + ℓ b))) : G x = G y := by
  have step : ∀ (z : Place) (b : Fin 3), (z b = y b ∨ (b ∈ as ∧ (z b = y b + ℓ b ∨ y b = z b + ℓ b))) → G z = G (Function.update z b (y b)) := by
    intro z b hb
    rcases hb with hb | ⟨hba, hb | hb⟩
    · rw [← hb, Function.update_eq_self]
    · have := hG b hba (Function.update z b (y b))
      rw [Function.update_self, ← hb, Function.update_idem, Function.update_eq_self] at this
      exact this
    · have := hG b hba z
      rw [← hb] at this
      exact this.symm
  have e : y = Function.update (Function.update (Function.update x 0 (y 0)) 1 (y 1)) 2 (y 2) := by
    funext b; fin_cases b <;> simp
  rw [step x 0 (h 0), step (Function.update x 0 (y 0)) 1 (by simpa using h 1), step (Function.update (Function.update x 0 (y 0)) 1 (y 1)) 2 (by simpa using h 2), ← e]

end places

section residuals

/-- The grid holds samples of the fields `E`, `H` of Maxwell's equations at the start (the magnetic field half a time step later) and of the materials: periodic boundaries on the axes `as`, with the periods `ℓ`,
a single plane along the other axes, no sources, cells of size `s`. -/
structure SampledGrid (g : FGrid ℝ) (as : List (Fin 3)) (ℓ : Fin 3 → ℝ) (s : ℝ) (invEps invMu sigma : Place → Fin 3 → ℝ) (E H : ℝ → Place → Fin 3 → ℝ) : Prop where
  periodic : AllPeriodic g as
  quiet : g.sources = []
  size : ∀ a ∈ as, ((g.n a : ℝ) - 1) * s = ℓ a
  eps : ∀ p ∈ box g.n, ∀ c, g.invEps p c = invEps (placeE s p c) c
  mu : ∀ p ∈ box g.n, ∀ c, g.invMu p c = invMu (placeH s p c) c
  loss : ∀ p ∈ box g.n, ∀ c, g.absorb p c = g.courant * s / 2 * invEps (placeE s p c) c * sigma (placeE s p c) c
  startE : ∀ p ∈ box g.n, ∀ c, g.E p c = E 0 (placeE s p c) c
  startH : ∀ p ∈ box g.n, ∀ c, g.H p c = H (g.courant * s / 2) (placeH s p c) c

variable {as : List (Fin 3)} {ℓ : Fin 3 → ℝ} {s : ℝ} {ie im sg : Place → Fin 3 → ℝ} {E H : ℝ → Place → Fin 3 → ℝ} {n : Pos}

lemma curl_step {Fx : ℝ × Place → Fin 3 → ℝ} (hF : ∀ c, ContDiff ℝ 3 fun z => Fx z c) (t : ℝ) (x : Place) (c : Fin 3) {M : ℝ} (hs : 0 ≤ s)
    (hM : ∀ a d y, |y - x a| ≤ s / 2 → |along (dirX a) (along (dirX a) (along (dirX a) fun z => Fx z d)) (t, Function.update x a y)| ≤ M) :
    |(Fx (t, Function.update x (c + 1) (x (c + 1) + s / 2)) (c + 2) - Fx (t, Function.update x (c + 1) (x (c + 1) - s / 2)) (c + 2)
      - (Fx (t, Function.update x (c + 2) (x (c + 2) + s / 2)) (c + 1) - Fx (t, Function.update x (c + 2) (x (c + 2) - s / 2)) (c + 1)))
      - s * curlAt (fun y d => Fx (t, y) d) x c| ≤ M / 12 * s ^ 3 := by
  have h1 := difference_x (hF (c + 2)) t x (c + 1) (by linarith : 0 ≤ s / 2) (hM (c + 1) (c + 2))
  have h2 := difference_x (hF (c + 1)) t x (c + 2) (by linarith : 0 ≤ s / 2) (hM (c + 2) (c + 1))
  unfold curlAt
  rw [abs_le] at *
  constructor <;> [nlinarith [h1.1, h1.2, h2.1, h2.2]; nlinarith [h1.1, h1.2, h2.1, h2.2]]

lemma fin3_ne (c : Fin 3) : c + 1 ≠ c ∧ c + 2 ≠ c ∧ c + 1 ≠ c + 2 ∧ c + 2 ≠ c + 1 := by fin_cases c <;> decide

/-- the materials of the torus are samples -/
structure SampledMedium (L : Torus.Lattice) (M : Torus.Medium ℝ) (s : ℝ) (ie im sg : Place → Fin 3 → ℝ) : Prop where
  eps : ∀ p ∈ box L.cells, ∀ c, M.invEps p c = ie (placeE s p c) c
  mu : ∀ p ∈ box L.cells, ∀ c, M.invMu p c = im (placeH s p c) c
  loss : ∀ p ∈ box L.cells, ∀ c, M.loss p c = M.courant * s / 2 * ie (placeE s p c) c * sg (placeE s p c) c
  drive : ∀ t p c, M.drive t p c = 0

set_option maxHeartbeats 1000000 in
lemma residual_E (hn : ∀ a, (a ∈ as ∧ 2 ≤ n a) ∨ (a ∉ as ∧ n a = 1)) (hℓ : ∀ a ∈ as, ((n a : ℝ) - 1) * s = ℓ a) (hX : MaxwellFields ie im sg E H)
    (hH : ∀ t c, Repeats as ℓ fun x => H t x c) {M : Torus.Medium ℝ} (hM : SampledMedium (torusOf n as) M s ie im sg) (hs : 0 < s) (hc0 : 0 < M.courant) (hc1 : M.courant ≤ 1)
    {p : Pos} (hp : p ∈ box (torusOf n as).cells) (c : Fin 3) (hie : 0 < ie (placeE s p c) c ∧ ie (placeE s p c) c ≤ 1) {Sg : ℝ} (hsg : 0 ≤ sg (placeE s p c) c ∧ sg (placeE s p c) c ≤ Sg)
    (t j : ℕ) {M0 : ℝ} (hM0 : 0 ≤ M0)
    (b1 : ∀ a d y, |y - placeE s p c a| ≤ s / 2 →
      |along (dirX a) (along (dirX a) (along (dirX a) fun z : ℝ × Place => H z.1 z.2 d)) ((j + 1 / 2) * (M.courant * s), Function.update (placeE s p c) a y)| ≤ M0)
    (b2 : ∀ y, |y - (j + 1 / 2) * (M.courant * s)| ≤ M.courant * s / 2 → |along dirT (along dirT (along dirT fun z : ℝ × Place => E z.1 z.2 c)) (y, placeE s p c)| ≤ M0)
    (b3 : ∀ y, |y - (j + 1 / 2) * (M.courant * s)| ≤ M.courant * s / 2 → |along dirT (along dirT fun z : ℝ × Place => E z.1 z.2 c) (y, placeE s p c)| ≤ M0) :
    |E ((j + 1) * (M.courant * s)) (placeE s p c) c
      - Torus.stepE (torusOf n as) M t (fun p c => E (j * (M.courant * s)) (placeE s p c) c) (fun p c => H ((j + 1 / 2) * (M.courant * s)) (placeH s p c) c) p c|
      ≤ M0 * (1 + Sg) * (M.courant * s) * s ^ 2 := by
  set δ := M.courant * s with hδ
  set x := placeE s p c with hx
  set τ := ((j : ℝ) + 1 / 2) * δ with hτ
  have hδ0 : 0 < δ := mul_pos hc0 hs
  have hδs : δ ≤ s := by rw [hδ]; nlinarith
  obtain ⟨n1, n2, n3, n4⟩ := fin3_ne c
  have hcurl : Torus.curlBwd (torusOf n as) (fun p c => H τ (placeH s p c) c) p c
      = H τ (Function.update x (c + 1) (x (c + 1) + s / 2)) (c + 2) - H τ (Function.update x (c + 1) (x (c + 1) - s / 2)) (c + 2)
      - (H τ (Function.update x (c + 2) (x (c + 2) + s / 2)) (c + 1) - H τ (Function.update x (c + 2) (x (c + 2) - s / 2)) (c + 1)) := by
    unfold Torus.curlBwd
    rw [bwd_sampled hn hℓ (hH τ) n1 n2 n3 hp, bwd_sampled hn hℓ (hH τ) n2 n1 n4 hp]
  have r3 := curl_step (Fx := fun z d => H z.1 z.2 d) hX.smoothH τ x c hs.le b1
  have e3 : curlAt (fun y d => (fun z : ℝ × Place => fun d => H z.1 z.2 d) (τ, y) d) x c = curlAt (H τ) x c := rfl
  rw [e3] at r3
  simp only at r3
  rw [← hcurl] at r3
  have r1 := difference_t (hX.smoothE c) τ x (by linarith : 0 ≤ δ / 2) b2
  have r2 := mean_t (hX.smoothE c) τ x (by linarith : 0 ≤ δ / 2) b3
  have t1 : τ + δ / 2 = ((j : ℝ) + 1) * δ := by rw [hτ]; ring
  have t2 : τ - δ / 2 = (j : ℝ) * δ := by rw [hτ]; ring
  rw [t1, t2] at r1 r2
  simp only at r1 r2
  rw [hX.ampere τ x c] at r1
  have hl : M.loss p c = δ / 2 * ie x c * sg x c := by rw [hM.loss p hp c]
  have hl0 : 0 ≤ M.loss p c := by rw [hl]; have := hie.1.le; have := hsg.1; positivity
  unfold Torus.stepE
  rw [hM.drive, add_zero, hM.eps p hp c, ← hx]
  set K := Torus.curlBwd (torusOf n as) (fun p c => H τ (placeH s p c) c) p c with hK
  set Ep := E (((j : ℝ) + 1) * δ) x c with hEp
  set Em := E ((j : ℝ) * δ) x c with hEm
  set A := ie x c with hA
  set lo := M.loss p c with hlo
  have key : Ep - ((1 - lo) * Em + M.courant * A * K) / (1 + lo)
      = ((Ep - Em - 2 * (δ / 2) * (A * (curlAt (H τ) x c - sg x c * E τ x c))) + lo * (Ep + Em - 2 * E τ x c) - M.courant * A * (K - s * curlAt (H τ) x c)) / (1 + lo) := by
    rw [eq_div_iff (by linarith), sub_mul, div_mul_cancel₀ _ (by linarith), hl, hδ]
    ring
  rw [key, abs_div, abs_of_pos (by linarith : 0 < 1 + lo), div_le_iff₀ (by linarith)]
  have q1 : |Ep - Em - 2 * (δ / 2) * (A * (curlAt (H τ) x c - sg x c * E τ x c))| ≤ M0 / 24 * δ * s ^ 2 := by
    refine r1.trans ?_
    have : δ ^ 2 ≤ s ^ 2 := pow_le_pow_left₀ hδ0.le hδs 2
    calc M0 / 3 * (δ / 2) ^ 3 = M0 / 24 * δ * δ ^ 2 := by ring
      _ ≤ _ := mul_le_mul_of_nonneg_left this (by positivity)
  have q2 : |lo * (Ep + Em - 2 * E τ x c)| ≤ M0 * Sg / 8 * δ * s ^ 2 := by
    rw [abs_mul, abs_of_nonneg hl0]
    have h1 : lo ≤ δ / 2 * Sg := by
      rw [hl]
      have : A * sg x c ≤ 1 * Sg := mul_le_mul hie.2 hsg.2 hsg.1 zero_le_one
      nlinarith
    have h2 : M0 * (δ / 2) ^ 2 ≤ M0 / 4 * s ^ 2 := by
      have : δ ^ 2 ≤ s ^ 2 := pow_le_pow_left₀ hδ0.le hδs 2
      nlinarith
    have hSg : 0 ≤ Sg := hsg.1.trans hsg.2
    calc _ ≤ (δ / 2 * Sg) * (M0 / 4 * s ^ 2) := mul_le_mul h1 (r2.trans h2) (abs_nonneg _) (by positivity)
      _ = _ := by ring
  have q3 : |M.courant * A * (K - s * curlAt (H τ) x c)| ≤ M0 / 12 * δ * s ^ 2 := by
    rw [abs_mul, abs_of_nonneg (mul_nonneg hc0.le hie.1.le)]
    calc _ ≤ (M.courant * 1) * (M0 / 12 * s ^ 3) := mul_le_mul (mul_le_mul_of_nonneg_left hie.2 hc0.le) r3 (abs_nonneg _) (by linarith)
      _ = _ := by rw [hδ]; ring
  have hSg : 0 ≤ Sg := hsg.1.trans hsg.2
  have tot : M0 / 24 * δ * s ^ 2 + M0 * Sg / 8 * δ * s ^ 2 + M0 / 12 * δ * s ^ 2 ≤ M0 * (1 + Sg) * δ * s ^ 2 := by
    have : 0 ≤ M0 * δ * s ^ 2 := by positivity
    linarith [mul_nonneg this hSg, this]
  have big : 0 ≤ M0 * (1 + Sg) * δ * s ^ 2 * lo := by positivity
  calc _ ≤ |Ep - Em - 2 * (δ / 2) * (A * (curlAt (H τ) x c - sg x c * E τ x c))| + |lo * (Ep + Em - 2 * E τ x c)| + |M.courant * A * (K - s * curlAt (H τ) x c)| :=
        (abs_sub _ _).trans (add_le_add_left (abs_add_le _ _) _)
    _ ≤ M0 * (1 + Sg) * δ * s ^ 2 + M0 * (1 + Sg) * δ * s ^ 2 * lo := by linarith
    _ = _ := by ring

lemma residual_H (hn : ∀ a, (a ∈ as ∧ 2 ≤ n a) ∨ (a ∉ as ∧ n a = 1)) (hℓ : ∀ a ∈ as, ((n a : ℝ) - 1) * s = ℓ a) (hX : MaxwellFields ie im sg E H)
    (hE : ∀ t c, Repeats as ℓ fun x => E t x c) {M : Torus.Medium ℝ} (hM : SampledMedium (torusOf n as) M s ie im sg) (hs : 0 < s) (hc0 : 0 < M.courant) (hc1 : M.courant ≤ 1)
    {p : Pos} (hp : p ∈ box (torusOf n as).cells) (c : Fin 3) (him : 0 < im (placeH s p c) c ∧ im (placeH s p c) c ≤ 1) (j : ℕ) {M0 : ℝ} (hM0 : 0 ≤ M0)
    (b1 : ∀ a d y, |y - placeH s p c a| ≤ s / 2 →
      |along (dirX a) (along (dirX a) (along (dirX a) fun z : ℝ × Place => E z.1 z.2 d)) ((j + 1) * (M.courant * s), Function.update (placeH s p c) a y)| ≤ M0)
    (b2 : ∀ y, |y - (j + 1) * (M.courant * s)| ≤ M.courant * s / 2 → |along dirT (along dirT (along dirT fun z : ℝ × Place => H z.1 z.2 c)) (y, placeH s p c)| ≤ M0) :
    |H ((j + 1 + 1 / 2) * (M.courant * s)) (placeH s p c) c
      - Torus.stepH (torusOf n as) M (fun p c => E ((j + 1) * (M.courant * s)) (placeE s p c) c) (fun p c => H ((j + 1 / 2) * (M.courant * s)) (placeH s p c) c) p c|
      ≤ M0 * (M.courant * s) * s ^ 2 := by
  set δ := M.courant * s with hδ
  set x := placeH s p c with hx
  set τ := ((j : ℝ) + 1) * δ with hτ
  have hδ0 : 0 < δ := mul_pos hc0 hs
  have hδs : δ ≤ s := by rw [hδ]; nlinarith
  obtain ⟨n1, n2, n3, n4⟩ := fin3_ne c
  have hcurl : Torus.curlFwd (torusOf n as) (fun p c => E τ (placeE s p c) c) p c
      = E τ (Function.update x (c + 1) (x (c + 1) + s / 2)) (c + 2) - E τ (Function.update x (c + 1) (x (c + 1) - s / 2)) (c + 2)
      - (E τ (Function.update x (c + 2) (x (c + 2) + s / 2)) (c + 1) - E τ (Function.update x (c + 2) (x (c + 2) - s / 2)) (c + 1)) := by
    unfold Torus.curlFwd
    rw [fwd_sampled hn hℓ (hE τ) n1 n2 n3 hp, fwd_sampled hn hℓ (hE τ) n2 n1 n4 hp]
  have r3 := curl_step (Fx := fun z d => E z.1 z.2 d) hX.smoothE τ x c hs.le b1
  have e3 : curlAt (fun y d => (fun z : ℝ × Place => fun d => E z.1 z.2 d) (τ, y) d) x c = curlAt (E τ) x c := rfl
  rw [e3] at r3
  simp only at r3
  rw [← hcurl] at r3
  have r1 := difference_t (hX.smoothH c) τ x (by linarith : 0 ≤ δ / 2) b2
  have t1 : τ + δ / 2 = ((j : ℝ) + 1 + 1 / 2) * δ := by rw [hτ]; ring
  have t2 : τ - δ / 2 = ((j : ℝ) + 1 / 2) * δ := by rw [hτ]; ring
  rw [t1, t2] at r1
  simp only at r1
  rw [hX.faraday τ x c] at r1
  unfold Torus.stepH
  rw [hM.mu p hp c, ← hx]
  set K := Torus.curlFwd (torusOf n as) (fun p c => E τ (placeE s p c) c) p c with hK
  set Hp := H (((j : ℝ) + 1 + 1 / 2) * δ) x c with hHp
  set Hm := H (((j : ℝ) + 1 / 2) * δ) x c with hHm
  set A := im x c with hA
  have key : Hp - (Hm - M.courant * A * K)
      = (Hp - Hm - 2 * (δ / 2) * -(A * curlAt (E τ) x c)) + M.courant * A * (K - s * curlAt (E τ) x c) := by
    rw [hδ]; ring
  rw [key]
  have q1 : |Hp - Hm - 2 * (δ / 2) * -(A * curlAt (E τ) x c)| ≤ M0 / 24 * δ * s ^ 2 := by
    refine r1.trans ?_
    have : δ ^ 2 ≤ s ^ 2 := pow_le_pow_left₀ hδ0.le hδs 2
    calc M0 / 3 * (δ / 2) ^ 3 = M0 / 24 * δ * δ ^ 2 := by ring
      _ ≤ _ := mul_le_mul_of_nonneg_left this (by positivity)
  have q3 : |M.courant * A * (K - s * curlAt (E τ) x c)| ≤ M0 / 12 * δ * s ^ 2 := by
    rw [abs_mul, abs_of_nonneg (mul_nonneg hc0.le him.1.le)]
    calc _ ≤ (M.courant * 1) * (M0 / 12 * s ^ 3) := mul_le_mul (mul_le_mul_of_nonneg_left him.2 hc0.le) r3 (abs_nonneg _) (by linarith)
      _ = _ := by rw [hδ]; ring
  have : 0 ≤ M0 * δ * s ^ 2 := by positivity
  refine (abs_add_le _ _).trans ?_
  linarith

end residuals

section main

variable {as : List (Fin 3)} {ℓ : Fin 3 → ℝ} {s : ℝ} {ie im sg : Place → Fin 3 → ℝ} {E H : ℝ → Place → Fin 3 → ℝ}

/-- the same place on the torus -/
lemma same_place {n : Pos} (hn : ∀ a, (a ∈ as ∧ 2 ≤ n a) ∨ (a ∉ as ∧ n a = 1)) (hℓ : ∀ a ∈ as, ((n a : ℝ) - 1) * s = ℓ a) {p q : Pos} (h : ∀ b, p b = q b ∨ (b ∈ as ∧ p b = 0 ∧ q b = n b - 1)) (u : Fin 3 → ℝ)
    (b : Fin 3) : s * ((p b : ℝ) + u b) = s * ((q b : ℝ) + u b) ∨ (b ∈ as ∧ (s * ((p b : ℝ) + u b) = s * ((q b : ℝ) + u b) + ℓ b ∨ s * ((q b : ℝ) + u b) = s * ((p b : ℝ) + u b) + ℓ b)) := by
  rcases h b with h | ⟨hb, h1, h2⟩
  · left; rw [h]
  · right
    refine ⟨hb, Or.inr ?_⟩
    have h3 : 1 ≤ n b := by rcases hn b with h | h <;> omega
    rw [h1, h2, ← hℓ b hb, Nat.cast_sub h3]; push_cast; ring

lemma same_sample {n : Pos} (hn : ∀ a, (a ∈ as ∧ 2 ≤ n a) ∨ (a ∉ as ∧ n a = 1)) (hℓ : ∀ a ∈ as, ((n a : ℝ) - 1) * s = ℓ a) {p q : Pos} (h : ∀ b, p b = q b ∨ (b ∈ as ∧ p b = 0 ∧ q b = n b - 1)) {G : Place → ℝ}
    (hG : ∀ a ∈ as, ∀ x, G (Function.update x a (x a + ℓ a)) = G x) (c : Fin 3) : G (placeE s p c) = G (placeE s q c) ∧ G (placeH s p c) = G (placeH s q c) :=
  ⟨repeats_congr hG fun b => same_place hn hℓ h (fun b => if b = c then 1 / 2 else 0) b, repeats_congr hG fun b => same_place hn hℓ h (fun b => if b = c then 0 else 1 / 2) b⟩

lemma wrap_same {n : Pos} {p : Pos} (hp : p ∈ box n) (b : Fin 3) :
    (torusOf n as).wrap p b = p b ∨ (b ∈ as ∧ (torusOf n as).wrap p b = 0 ∧ p b = n b - 1) := by
  have hpb := mem_box.mp hp b
  rw [wrap_apply]
  by_cases hb : b ∈ as
  · rw [if_pos hb]
    by_cases h : p b = n b - 1
    · right; refine ⟨hb, ?_, h⟩; rw [h, Nat.mod_self]
    · left; exact Nat.mod_eq_of_lt (by omega)
  · rw [if_neg hb]; left; trivial

lemma repE_wrapped {n : Pos} {p : Pos} (b : Fin 3) : p b = repE n as p b ∨ (b ∈ as ∧ p b = 0 ∧ repE n as p b = n b - 1) := by
  unfold repE
  by_cases h : b ∈ as ∧ p b = 0
  · right; rw [if_pos h]; exact ⟨h.1, h.2, rfl⟩
  · left; rw [if_neg h]

lemma repE_mem {n : Pos} (hn : ∀ a, (a ∈ as ∧ 2 ≤ n a) ∨ (a ∉ as ∧ n a = 1)) {p : Pos} (hp : p ∈ box n) : repE n as p ∈ box n := by
  rw [mem_box] at *
  intro b
  unfold repE
  split_ifs
  · rcases hn b with h | h <;> omega
  · exact hp b

/-- the places of a torus and their neighbourhood -/
lemma place_range {n : Pos} (hn : ∀ a, (a ∈ as ∧ 2 ≤ n a) ∨ (a ∉ as ∧ n a = 1)) (hℓ : ∀ a ∈ as, ((n a : ℝ) - 1) * s = ℓ a) (hs : 0 < s) {Λ : ℝ} (hΛ : ∀ a ∈ as, ℓ a ≤ Λ) (hsΛ : s ≤ Λ) {p : Pos}
    (hp : p ∈ box (torusOf n as).cells) {u : Fin 3 → ℝ} (hu : ∀ b, 0 ≤ u b ∧ u b ≤ 1 / 2) (b : Fin 3) : 0 ≤ s * ((p b : ℝ) + u b) ∧ s * ((p b : ℝ) + u b) ≤ Λ := by
  obtain ⟨u0, u1⟩ := hu b
  have hpb := mem_box.mp hp b
  refine ⟨by positivity, ?_⟩
  rcases hn b with ⟨hb, h2⟩ | ⟨hb, h1⟩
  · have hpb : p b < n b - 1 := by simpa [Torus.Lattice.cells, torusOf, hb] using hpb
    have : (p b : ℝ) + 1 ≤ (n b : ℝ) - 1 := by
      have h3 : p b + 2 ≤ n b := by omega
      have : ((p b + 2 : ℕ) : ℝ) ≤ n b := by exact_mod_cast h3
      push_cast at this; linarith
    have h4 := hΛ b hb
    rw [← hℓ b hb] at h4
    nlinarith
  · have hpb : p b < 1 := by simpa [Torus.Lattice.cells, torusOf, hb, h1] using hpb
    have : p b = 0 := by omega
    rw [this]; push_cast
    nlinarith

set_option maxHeartbeats 1000000 in
/-- C179: the simulation follows Maxwell's equations with second order. Let `E`, `H` be three times continuously differentiable fields of Maxwell's equations in a medium (permittivity, permeability between 1 and `κ`,
conductivity up to `Sg`) that repeats along the axes `as` (one, two or three of them; nothing depends on the others). For every duration `T` and every Courant number below the limit (`c² D ≤ 1 - θ`) there is a constant `C`
such that on every grid, with cells of any size `s`, that starts with samples of these fields, the root mean square of the errors of all field components is at most `C s²` in every step up to the time `T`. -/
theorem C179_order (hX : MaxwellFields ie im sg E H) (has : as ≠ []) (hE : ∀ t c, Repeats as ℓ fun x => E t x c) (hH : ∀ t c, Repeats as ℓ fun x => H t x c)
    (pie : ∀ a ∈ as, ∀ x, ie (Function.update x a (x a + ℓ a)) = ie x) (psg : ∀ a ∈ as, ∀ x, sg (Function.update x a (x a + ℓ a)) = sg x)
    {κ Sg : ℝ} (hie : ∀ x c, 0 < ie x c ∧ ie x c ≤ 1 ∧ 1 / ie x c ≤ κ) (him : ∀ x c, 0 < im x c ∧ im x c ≤ 1 ∧ 1 / im x c ≤ κ) (hsg : ∀ x c, 0 ≤ sg x c ∧ sg x c ≤ Sg) (T : ℝ) {θ : ℝ} (hθ : 0 < θ) :
    ∃ C, ∀ s, 0 < s → ∀ g : FGrid ℝ, SampledGrid g as ℓ s ie im sg E H → 0 < g.courant → g.courant ^ 2 * ((Finset.univ.filter fun a => a ∈ as).card : ℝ) ≤ 1 - θ → ∀ k : ℕ, k * (g.courant * s) ≤ T →
      fieldSq (onceCells g as) (fun p c => E (k * (g.courant * s)) (placeE s p c) c - (g.run k).E p c)
        + fieldSq (onceCells g as) (fun p c => H ((k + 1 / 2) * (g.courant * s)) (placeH s p c) c - (g.run k).H p c) ≤ (C * s ^ 2) ^ 2 * (box (onceCells g as)).card := by
  obtain ⟨a0, ha0⟩ := List.exists_mem_of_ne_nil as has
  set Λ : ℝ := ∑ a, |ℓ a| with hΛ
  have hΛa : ∀ a, |ℓ a| ≤ Λ := fun a => Finset.single_le_sum (f := fun i => |ℓ i|) (fun _ _ => abs_nonneg _) (Finset.mem_univ a)
  set K : Set (ℝ × Place) := Set.Icc 0 (T + Λ) ×ˢ Set.pi Set.univ fun _ => Set.Icc (-(2 * Λ)) (2 * Λ) with hK
  have cK : IsCompact K := isCompact_Icc.prod (isCompact_univ_pi fun _ => isCompact_Icc)
  obtain ⟨M1, p1, m1⟩ := common_bound cK (fun (i : Fin 3 × Fin 3) => along (dirX i.1) (along (dirX i.1) (along (dirX i.1) fun z : ℝ × Place => H z.1 z.2 i.2))) fun i => along_three (hX.smoothH _) _
  obtain ⟨M2, p2, m2⟩ := common_bound cK (fun (i : Fin 3 × Fin 3) => along (dirX i.1) (along (dirX i.1) (along (dirX i.1) fun z : ℝ × Place => E z.1 z.2 i.2))) fun i => along_three (hX.smoothE _) _
  obtain ⟨M3, p3, m3⟩ := common_bound cK (fun (i : Fin 3) => along dirT (along dirT (along dirT fun z : ℝ × Place => E z.1 z.2 i))) fun i => along_three (hX.smoothE _) _
  obtain ⟨M4, p4, m4⟩ := common_bound cK (fun (i : Fin 3) => along dirT (along dirT (along dirT fun z : ℝ × Place => H z.1 z.2 i))) fun i => along_three (hX.smoothH _) _
  obtain ⟨M5, p5, m5⟩ := common_bound cK (fun (i : Fin 3) => along dirT (along dirT fun z : ℝ × Place => E z.1 z.2 i)) fun i => (along_two (hX.smoothE _) _).continuous
  set M0 := M1 + M2 + M3 + M4 + M5 with hM0
  have pM0 : 0 ≤ M0 := by positivity
  have hSg : 0 ≤ Sg := (hsg 0 0).1.trans (hsg 0 0).2
  have hκ : 1 ≤ κ := by
    obtain ⟨h1, h2, h3⟩ := hie 0 0
    exact le_trans (by rw [le_div_iff₀ h1]; linarith) h3
  refine ⟨Real.sqrt (9000 * κ / θ) * (M0 * (1 + Sg) * T), fun s hs g hg hc0 hc k hk => ?_⟩
  set δ := g.courant * s with hδ
  have hδ0 : 0 < δ := mul_pos hc0 hs
  have hn := hg.periodic.2
  have hℓ := hg.size
  set L := torusOf g.n as with hL
  have hdim : (L.dim : ℝ) = ((Finset.univ.filter fun a => a ∈ as).card : ℝ) := by simp [hL, Torus.Lattice.dim, torusOf]
  rw [← hdim] at hc
  have hdim1 : (1 : ℝ) ≤ L.dim := by
    rw [hdim]
    exact_mod_cast Finset.card_pos.mpr ⟨a0, by simp [ha0]⟩
  have hθ1 : θ ≤ 1 := by nlinarith [sq_nonneg g.courant]
  have hc1 : g.courant ≤ 1 := by nlinarith [sq_nonneg g.courant]
  have hδs : δ ≤ s := by rw [hδ]; nlinarith
  have hsΛ : s ≤ Λ := by
    rcases hn a0 with ⟨-, h2⟩ | ⟨h, -⟩
    · have e := hℓ a0 ha0
      have h3 : (2 : ℝ) ≤ g.n a0 := by exact_mod_cast h2
      have := (le_abs_self (ℓ a0)).trans (hΛa a0)
      rw [← e] at this
      nlinarith
    · exact absurd ha0 h
  have hΛas : ∀ a ∈ as, ℓ a ≤ Λ := fun a _ => (le_abs_self _).trans (hΛa a)
  set M := mediumOf g as with hM
  have hmem : ∀ p, p ∈ box L.cells → p ∈ box g.n := fun p hp => (hg.periodic.once hp).1
  have hrep : ∀ p ∈ box L.cells, ∀ c, ie (placeE s (repE g.n as p) c) c = ie (placeE s p c) c ∧ sg (placeE s (repE g.n as p) c) c = sg (placeE s p c) c := by
    intro p _ c
    have h : ∀ b, p b = repE g.n as p b ∨ (b ∈ as ∧ p b = 0 ∧ repE g.n as p b = g.n b - 1) := fun b => repE_wrapped b
    exact ⟨((same_sample hn hℓ h (G := fun x => ie x c) (fun a ha x => congrFun (pie a ha x) c) c).1).symm,
      ((same_sample hn hℓ h (G := fun x => sg x c) (fun a ha x => congrFun (psg a ha x) c) c).1).symm⟩
  have hMed : SampledMedium L M s ie im sg := by
    refine ⟨fun p hp c => ?_, fun p hp c => ?_, fun p hp c => ?_, fun t p c => ?_⟩
    · show g.invEps (repE g.n as p) c = _
      rw [hg.eps _ (repE_mem hn (hmem p hp)), (hrep p hp c).1]
    · exact hg.mu p (hmem p hp) c
    · show g.absorb (repE g.n as p) c = _
      rw [hg.loss _ (repE_mem hn (hmem p hp)), (hrep p hp c).1, (hrep p hp c).2]; rfl
    · simp [hM, mediumOf, totalDrive, hg.quiet]
  have hDec : Torus.Decent L M κ := by
    refine ⟨fun p hp c => by rw [hMed.eps p hp c]; exact hie _ c, fun p hp c => by rw [hMed.mu p hp c]; exact him _ c, fun p hp c => ?_⟩
    rw [hMed.loss p hp c]
    have := (hie (placeE s p c) c).1.le
    have := (hsg (placeE s p c) c).1
    have : 0 ≤ M.courant := hc0.le
    positivity
  -- the sampled fields
  set e : ℕ → VField ℝ := fun j p c => E (j * δ) (placeE s p c) c with he
  set h : ℕ → VField ℝ := fun j p c => H ((j + 1 / 2) * δ) (placeH s p c) c with hh
  have inK : ∀ {t : ℝ} {x : Place}, 0 ≤ t → t ≤ T + Λ → (∀ b, -(2 * Λ) ≤ x b ∧ x b ≤ 2 * Λ) → (t, x) ∈ K := by
    intro t x h1 h2 h3
    exact ⟨⟨h1, h2⟩, fun b _ => h3 b⟩
  have uE : ∀ c b : Fin 3, 0 ≤ (if b = c then (1 : ℝ) / 2 else 0) ∧ (if b = c then (1 : ℝ) / 2 else 0) ≤ 1 / 2 := by
    intro c b; split_ifs <;> norm_num
  have uH : ∀ c b : Fin 3, 0 ≤ (if b = c then (0 : ℝ) else 1 / 2) ∧ (if b = c then (0 : ℝ) else 1 / 2) ≤ 1 / 2 := by
    intro c b; split_ifs <;> norm_num
  have near : ∀ {x : Place}, (∀ b, 0 ≤ x b ∧ x b ≤ Λ) → ∀ a y, |y - x a| ≤ s / 2 → ∀ b, -(2 * Λ) ≤ Function.update x a y b ∧ Function.update x a y b ≤ 2 * Λ := by
    intro x hx a y hy b
    have := hx b
    by_cases hb : b = a
    · subst hb
      rw [Function.update_self]
      rw [abs_le] at hy
      constructor <;> linarith [hy.1, hy.2]
    · rw [Function.update_of_ne hb]
      constructor <;> linarith
  have B0 : 0 ≤ M0 * (1 + Sg) * δ * s ^ 2 := by positivity
  have acc := Torus.accumulate hg.periodic.closed hDec hκ hc0.le hc1 hθ hθ1 hc hMed.drive e h B0 g.time k ?_ ?_
  · have r := C48_torus g as hg.periodic.1 hg.periodic.two (by rw [hg.quiet]; intro s hs; cases hs) (by intro t p c _; rw [hg.quiet]; rfl) (e 0) (h 0) (fun p hp c => ?_) k
    · have fE : fieldSq (onceCells g as) (fun p c => E (k * δ) (placeE s p c) c - (g.run k).E p c) = fieldSq L.cells (e k - (Torus.run L M g.time (e 0) (h 0) k).1) := by
        refine Finset.sum_congr rfl fun p hpp => Finset.sum_congr rfl fun c _ => ?_
        obtain ⟨hin, hw⟩ := hg.periodic.once hpp
        have a1 := r p (by rw [run_n]; exact hin) c
        rw [run_n, hw] at a1
        simp only [a1.1]; rfl
      have fH : fieldSq (onceCells g as) (fun p c => H ((k + 1 / 2) * δ) (placeH s p c) c - (g.run k).H p c) = fieldSq L.cells (h k - (Torus.run L M g.time (e 0) (h 0) k).2) := by
        refine Finset.sum_congr rfl fun p hpp => Finset.sum_congr rfl fun c _ => ?_
        obtain ⟨hin, hw⟩ := hg.periodic.once hpp
        have a1 := r p (by rw [run_n]; exact hin) c
        rw [run_n, hw] at a1
        simp only [a1.2]; rfl
      rw [fE, fH]
      refine acc.trans ?_
      have hcard : (0:ℝ) ≤ (box L.cells).card := Nat.cast_nonneg _
      refine mul_le_mul_of_nonneg_right ?_ hcard
      have hq : 0 ≤ 9000 * κ / θ := by positivity
      have hkB : k * (M0 * (1 + Sg) * δ * s ^ 2) ≤ M0 * (1 + Sg) * T * s ^ 2 := by
        have : 0 ≤ M0 * (1 + Sg) * s ^ 2 := by positivity
        calc _ = M0 * (1 + Sg) * s ^ 2 * (k * δ) := by ring
          _ ≤ M0 * (1 + Sg) * s ^ 2 * T := mul_le_mul_of_nonneg_left hk this
          _ = _ := by ring
      have hkB0 : 0 ≤ k * (M0 * (1 + Sg) * δ * s ^ 2) := by positivity
      calc _ ≤ 9000 * κ / θ * (M0 * (1 + Sg) * T * s ^ 2) ^ 2 := mul_le_mul_of_nonneg_left (pow_le_pow_left₀ hkB0 hkB 2) hq
        _ = Real.sqrt (9000 * κ / θ) ^ 2 * (M0 * (1 + Sg) * T * s ^ 2) ^ 2 := by rw [Real.sq_sqrt hq]
        _ = _ := by ring
    · obtain ⟨q1, q2⟩ := (same_sample hn hℓ (fun b => wrap_same hp b) (G := fun x => E 0 x c) (hE 0 c).period c)
      obtain ⟨q3, q4⟩ := (same_sample hn hℓ (fun b => wrap_same hp b) (G := fun x => H (δ / 2) x c) (hH (δ / 2) c).period c)
      constructor
      · rw [hg.startE p hp c]
        show _ = E (((0 : ℕ) : ℝ) * δ) _ c
        rw [Nat.cast_zero, zero_mul]; exact q1.symm
      · rw [hg.startH p hp c]
        show _ = H ((((0 : ℕ) : ℝ) + 1 / 2) * δ) _ c
        rw [Nat.cast_zero, show ((0:ℝ) + 1 / 2) * δ = δ / 2 by ring]; exact q4.symm
  · intro j hj p hp c
    have hx := fun b => place_range hn hℓ hs hΛas hsΛ hp (uE c) b
    have hjk : ((j : ℝ) + 1) * δ ≤ T := by
      have : (j : ℝ) + 1 ≤ k := by exact_mod_cast hj
      nlinarith
    have hj0 : (0:ℝ) ≤ j := Nat.cast_nonneg _
    have hx2 : ∀ b, -(2 * Λ) ≤ placeE s p c b ∧ placeE s p c b ≤ 2 * Λ := fun b => by
      have := hx b
      unfold placeE
      constructor <;> linarith
    have tm : ∀ y : ℝ, |y - (j + 1 / 2) * δ| ≤ δ / 2 → 0 ≤ y ∧ y ≤ T + Λ := by
      intro y hy
      rw [abs_le] at hy
      constructor <;> nlinarith [hy.1, hy.2]
    have key := residual_E hn hℓ hX hH hMed hs hc0 hc1 hp c ⟨(hie _ c).1, (hie _ c).2.1⟩ (hsg _ c) (g.time + j) j pM0
      (fun a d y hy => (m1 (a, d) _ (inK (by positivity) (by show ((j : ℝ) + 1 / 2) * δ ≤ T + Λ; nlinarith) (near hx a y hy))).trans (by rw [hM0]; linarith))
      (fun y hy => (m3 c _ (inK (tm y hy).1 (tm y hy).2 hx2)).trans (by rw [hM0]; linarith))
      (fun y hy => (m5 c _ (inK (tm y hy).1 (tm y hy).2 hx2)).trans (by rw [hM0]; linarith))
    rw [he, hh]
    push_cast
    exact key
  · intro j hj p hp c
    have hx := fun b => place_range hn hℓ hs hΛas hsΛ hp (uH c) b
    have hjk : ((j : ℝ) + 1) * δ ≤ T := by
      have : (j : ℝ) + 1 ≤ k := by exact_mod_cast hj
      nlinarith
    have hj0 : (0:ℝ) ≤ j := Nat.cast_nonneg _
    have hx2 : ∀ b, -(2 * Λ) ≤ placeH s p c b ∧ placeH s p c b ≤ 2 * Λ := fun b => by
      have := hx b
      unfold placeH
      constructor <;> linarith
    have tm : ∀ y : ℝ, |y - (j + 1) * δ| ≤ δ / 2 → 0 ≤ y ∧ y ≤ T + Λ := by
      intro y hy
      rw [abs_le] at hy
      constructor <;> nlinarith [hy.1, hy.2]
    have key := residual_H hn hℓ hX hE hMed hs hc0 hc1 hp c ⟨(him _ c).1, (him _ c).2.1⟩ j pM0
      (fun a d y hy => (m2 (a, d) _ (inK (by positivity) (by show ((j : ℝ) + 1) * δ ≤ T + Λ; linarith) (near hx a y hy))).trans (by rw [hM0]; linarith))
      (fun y hy => (m4 c _ (inK (tm y hy).1 (tm y hy).2 hx2)).trans (by rw [hM0]; linarith))
    have le : M0 * δ * s ^ 2 ≤ M0 * (1 + Sg) * δ * s ^ 2 := by
      have : 0 ≤ M0 * δ * s ^ 2 * Sg := by positivity
      linarith
    rw [he, hh]
    push_cast
    exact key.trans le

/-- the number of cells of the torus -/
lemma card_cells {n : Pos} (hn : ∀ a, (a ∈ as ∧ 2 ≤ n a) ∨ (a ∉ as ∧ n a = 1)) (hℓ : ∀ a ∈ as, ((n a : ℝ) - 1) * s = ℓ a) (hs : 0 < s) {Λ : ℝ} (hΛ : ∀ a ∈ as, ℓ a ≤ Λ) (hsΛ : s ≤ Λ) :
    ((box (torusOf n as).cells).card : ℝ) * s ^ 3 ≤ Λ ^ 3 := by
  have hc : (box (torusOf n as).cells).card = (torusOf n as).cells 0 * (torusOf n as).cells 1 * (torusOf n as).cells 2 := by
    rw [box, Fintype.card_piFinset, Fin.prod_univ_three]; simp
  have each : ∀ a, 0 ≤ ((torusOf n as).cells a : ℝ) * s ∧ ((torusOf n as).cells a : ℝ) * s ≤ Λ := by
    intro a
    refine ⟨by positivity, ?_⟩
    rcases hn a with ⟨ha, h2⟩ | ⟨ha, h1⟩
    · have e : (torusOf n as).cells a = n a - 1 := by simp [Torus.Lattice.cells, torusOf, ha]
      rw [e, Nat.cast_sub (by omega), Nat.cast_one, hℓ a ha]
      exact hΛ a ha
    · have e : (torusOf n as).cells a = 1 := by simp [Torus.Lattice.cells, torusOf, ha, h1]
      rw [e]; simpa using hsΛ
  rw [hc]
  push_cast
  calc _ = (((torusOf n as).cells 0 : ℝ) * s) * (((torusOf n as).cells 1 : ℝ) * s) * (((torusOf n as).cells 2 : ℝ) * s) := by ring
    _ ≤ Λ * Λ * Λ := mul_le_mul (mul_le_mul (each 0).2 (each 1).2 (each 1).1 ((each 0).1.trans (each 0).2)) (each 2).2 (each 2).1 (mul_nonneg ((each 0).1.trans (each 0).2) ((each 0).1.trans (each 0).2))
    _ = _ := by ring

/-- C179, every single value: under the same conditions each component of each cell is off by at most `C √s`, so every value converges when the cells shrink. -/
theorem C179_everywhere (hX : MaxwellFields ie im sg E H) (has : as ≠ []) (hE : ∀ t c, Repeats as ℓ fun x => E t x c) (hH : ∀ t c, Repeats as ℓ fun x => H t x c)
    (pie : ∀ a ∈ as, ∀ x, ie (Function.update x a (x a + ℓ a)) = ie x) (psg : ∀ a ∈ as, ∀ x, sg (Function.update x a (x a + ℓ a)) = sg x)
    {κ Sg : ℝ} (hie : ∀ x c, 0 < ie x c ∧ ie x c ≤ 1 ∧ 1 / ie x c ≤ κ) (him : ∀ x c, 0 < im x c ∧ im x c ≤ 1 ∧ 1 / im x c ≤ κ) (hsg : ∀ x c, 0 ≤ sg x c ∧ sg x c ≤ Sg) (T : ℝ) {θ : ℝ} (hθ : 0 < θ) :
    ∃ C, ∀ s, 0 < s → ∀ g : FGrid ℝ, SampledGrid g as ℓ s ie im sg E H → 0 < g.courant → g.courant ^ 2 * ((Finset.univ.filter fun a => a ∈ as).card : ℝ) ≤ 1 - θ → ∀ k : ℕ, k * (g.courant * s) ≤ T →
      ∀ p ∈ box g.n, ∀ c, |E (k * (g.courant * s)) (placeE s p c) c - (g.run k).E p c| ≤ C * Real.sqrt s ∧ |H ((k + 1 / 2) * (g.courant * s)) (placeH s p c) c - (g.run k).H p c| ≤ C * Real.sqrt s := by
  obtain ⟨C, hC⟩ := C179_order hX has hE hH pie psg hie him hsg T hθ
  obtain ⟨a0, ha0⟩ := List.exists_mem_of_ne_nil as has
  set Λ : ℝ := ∑ a, |ℓ a| with hΛ
  have hΛa : ∀ a, |ℓ a| ≤ Λ := fun a => Finset.single_le_sum (f := fun i => |ℓ i|) (fun _ _ => abs_nonneg _) (Finset.mem_univ a)
  have hΛ0 : 0 ≤ Λ := (abs_nonneg _).trans (hΛa 0)
  refine ⟨|C| * Real.sqrt (Λ ^ 3), fun s hs g hg hc0 hc k hk p hp c => ?_⟩
  have main := hC s hs g hg hc0 hc k hk
  set δ := g.courant * s with hδ
  have hn := hg.periodic.2
  have hℓ := hg.size
  have hsΛ : s ≤ Λ := by
    rcases hn a0 with ⟨-, h2⟩ | ⟨h, -⟩
    · have e := hℓ a0 ha0
      have h3 : (2 : ℝ) ≤ g.n a0 := by exact_mod_cast h2
      have := (le_abs_self (ℓ a0)).trans (hΛa a0)
      rw [← e] at this
      nlinarith
    · exact absurd ha0 h
  have card := card_cells hn hℓ hs (fun a _ => (le_abs_self _).trans (hΛa a)) hsΛ
  have agree : PlanesAgree g as := by
    intro q hq d
    have hw : (torusOf g.n as).wrap q ∈ box g.n := by
      rw [mem_box]
      intro b
      have := mem_box.mp hq b
      rcases wrap_same (as := as) hq b with h | ⟨-, h, -⟩ <;> rw [h] <;> omega
    rw [hg.startE q hq, hg.startE _ hw, hg.startH q hq, hg.startH _ hw]
    exact ⟨((same_sample hn hℓ (fun b => wrap_same hq b) (G := fun x => E 0 x d) (hE 0 d).period d).1).symm,
      ((same_sample hn hℓ (fun b => wrap_same hq b) (G := fun x => H (g.courant * s / 2) x d) (hH _ d).period d).2).symm⟩
  have r := C48_torus g as hg.periodic.1 hg.periodic.two (by rw [hg.quiet]; intro s hs; cases hs) (by intro t p c _; rw [hg.quiet]; rfl) g.E g.H agree k
  set q := (torusOf g.n as).wrap p with hq
  have hqc : q ∈ box (torusOf g.n as).cells := by
    rw [mem_box]
    intro b
    have hb := mem_box.mp hp b
    rw [hq, wrap_apply]
    by_cases hba : b ∈ as
    · have : 2 ≤ g.n b := hg.periodic.two b hba
      simp only [if_pos hba, Torus.Lattice.cells, torusOf, hba, decide_true, if_true]
      exact Nat.mod_lt _ (by omega)
    · simp only [if_neg hba, Torus.Lattice.cells, torusOf, hba, decide_false]
      simpa using hb
  obtain ⟨hin, hw⟩ := hg.periodic.once hqc
  have rp := r p (by rw [run_n]; exact hp) c
  have rq := r q (by rw [run_n]; exact hin) c
  rw [run_n] at rp rq
  rw [hw] at rq
  have eE : E (k * δ) (placeE s p c) c = E (k * δ) (placeE s q c) c := ((same_sample hn hℓ (fun b => wrap_same hp b) (G := fun x => E (k * δ) x c) (hE _ c).period c).1).symm
  have eH : H ((k + 1 / 2) * δ) (placeH s p c) c = H ((k + 1 / 2) * δ) (placeH s q c) c :=
    ((same_sample hn hℓ (fun b => wrap_same hp b) (G := fun x => H ((k + 1 / 2) * δ) x c) (hH _ c).period c).2).symm
  have bound : ∀ F : VField ℝ, fieldSq (onceCells g as) F ≤ (C * s ^ 2) ^ 2 * (box (onceCells g as)).card → |F q c| ≤ |C| * Real.sqrt (Λ ^ 3) * Real.sqrt s := by
    intro F hF
    have h1 : F q c ^ 2 ≤ fieldSq (onceCells g as) F := by
      have h2 : F q c ^ 2 ≤ ∑ d, F q d ^ 2 := Finset.single_le_sum (f := fun d => F q d ^ 2) (fun _ _ => sq_nonneg _) (Finset.mem_univ c)
      exact h2.trans (Finset.single_le_sum (f := fun p => ∑ d, F p d ^ 2) (fun _ _ => Finset.sum_nonneg fun _ _ => sq_nonneg _) hqc)
    have h3 : (C * s ^ 2) ^ 2 * ((box (onceCells g as)).card : ℝ) ≤ (|C| * Real.sqrt (Λ ^ 3) * Real.sqrt s) ^ 2 := by
      have e1 : (C * s ^ 2) ^ 2 * ((box (onceCells g as)).card : ℝ) = C ^ 2 * s * (((box (torusOf g.n as).cells).card : ℝ) * s ^ 3) := by
        unfold onceCells; ring
      rw [e1, mul_pow, mul_pow, Real.sq_sqrt hs.le, Real.sq_sqrt (by positivity), sq_abs]
      have : 0 ≤ C ^ 2 * s := by positivity
      nlinarith [mul_le_mul_of_nonneg_left card this]
    exact abs_le_of_sq_le_sq (h1.trans (hF.trans h3)) (by positivity)
  have nE := fieldSq_nonneg (onceCells g as) (fun p c => E (k * δ) (placeE s p c) c - (g.run k).E p c)
  have nH := fieldSq_nonneg (onceCells g as) (fun p c => H ((k + 1 / 2) * δ) (placeH s p c) c - (g.run k).H p c)
  constructor
  · have hb := bound (fun p c => E (k * δ) (placeE s p c) c - (g.run k).E p c) (by linarith)
    have e2 : (g.run k).E p c = (g.run k).E q c := rp.1.trans rq.1.symm
    rw [eE, e2]
    exact hb
  · have hb := bound (fun p c => H ((k + 1 / 2) * δ) (placeH s p c) c - (g.run k).H p c) (by linarith)
    have e2 : (g.run k).H p c = (g.run k).H q c := rp.2.trans rq.2.symm
    rw [eH, e2]
    exact hb

end main

section example_wave

/-- a plane wave in vacuum that runs towards negative x -/
noncomputable def waveField (d : Fin 3) : ℝ → Place → Fin 3 → ℝ := fun t x c => if c = d then Real.sin (2 * Real.pi * (x 0 + t)) else 0

lemma waveField_smooth (d c : Fin 3) : ContDiff ℝ 3 fun z : ℝ × Place => waveField d z.1 z.2 c := by
  unfold waveField
  split_ifs
  · have h0 : ContDiff ℝ 3 fun z : ℝ × Place => z.2 0 := (contDiff_apply ℝ ℝ (0 : Fin 3)).comp contDiff_snd
    exact Real.contDiff_sin.comp (contDiff_const.mul (h0.add contDiff_fst))
  · exact contDiff_const

lemma wave_deriv (u : ℝ) (y : ℝ) : HasDerivAt (fun y => Real.sin (2 * Real.pi * (y + u))) (2 * Real.pi * Real.cos (2 * Real.pi * (y + u))) y := by
  have h : HasDerivAt (fun y => 2 * Real.pi * (y + u)) (2 * Real.pi) y := by
    simpa using ((hasDerivAt_id y).add_const u).const_mul (2 * Real.pi)
  exact h.sin.congr_deriv (mul_comm _ _)

lemma wave_time (d : Fin 3) (t : ℝ) (x : Place) (c : Fin 3) : deriv (fun τ => waveField d τ x c) t = if c = d then 2 * Real.pi * Real.cos (2 * Real.pi * (x 0 + t)) else 0 := by
  unfold waveField
  by_cases h : c = d
  · simp only [if_pos h]
    have := (wave_deriv (x 0) t).deriv
    simpa only [add_comm] using this
  · simp [if_neg h]

lemma wave_partial (d : Fin 3) (t : ℝ) (x : Place) (c a : Fin 3) :
    partialAt (fun y => waveField d t y c) a x = if c = d ∧ a = 0 then 2 * Real.pi * Real.cos (2 * Real.pi * (x 0 + t)) else 0 := by
  unfold partialAt waveField
  by_cases h : c = d
  · by_cases ha : a = 0
    · subst ha
      simp only [if_pos h, Function.update_self, h, and_self, if_true]
      exact (wave_deriv t (x 0)).deriv
    · have : (0 : Fin 3) ≠ a := fun e => ha e.symm
      simp [h, ha, Function.update_of_ne this]
  · simp [h]

lemma wave_maxwell : MaxwellFields (fun _ _ => 1) (fun _ _ => 1) (fun _ _ => 0) (waveField 2) (waveField 1) := by
  refine ⟨waveField_smooth 2, waveField_smooth 1, fun t x c => ?_, fun t x c => ?_⟩
  · rw [wave_time, curlAt, wave_partial, wave_partial]
    fin_cases c <;> simp
  · rw [wave_time, curlAt, wave_partial, wave_partial]
    fin_cases c <;> simp

lemma wave_repeats (d : Fin 3) (t : ℝ) (c : Fin 3) : Repeats [0] (fun _ => 1) fun x => waveField d t x c := by
  constructor
  · intro a ha x
    obtain rfl : a = 0 := by simpa using ha
    unfold waveField
    simp only [Function.update_self]
    rw [show 2 * Real.pi * (x 0 + 1 + t) = 2 * Real.pi * (x 0 + t) + 2 * Real.pi by ring, Real.sin_add_two_pi]
  · intro a ha x y
    have : (0 : Fin 3) ≠ a := by intro e; apply ha; simp [← e]
    unfold waveField
    rw [Function.update_of_ne this]

/-- a grid of `N` cells per wavelength holding this wave -/
noncomputable def waveGrid (N : ℕ) : FGrid ℝ :=
  { FGrid.fresh ![N + 1, 1, 1] (7 / 10) 1 1 with
    boundaries := [0].map FBoundary.periodic
    E := fun p c => waveField 2 0 (placeE (1 / N) p c) c
    H := fun p c => waveField 1 (7 / 10 * (1 / N) / 2) (placeH (1 / N) p c) c }

lemma waveGrid_sampled {N : ℕ} (hN : 1 ≤ N) : SampledGrid (waveGrid N) [0] (fun _ => 1) (1 / N) (fun _ _ => 1) (fun _ _ => 1) (fun _ _ => 0) (waveField 2) (waveField 1) := by
  have hN0 : (N : ℝ) ≠ 0 := by exact_mod_cast (by omega : N ≠ 0)
  refine ⟨⟨rfl, ?_⟩, rfl, ?_, ?_, ?_, ?_, fun _ _ _ => rfl, fun _ _ _ => rfl⟩
  · intro a
    fin_cases a
    · left; refine ⟨by simp, ?_⟩; show 2 ≤ N + 1; omega
    · right; refine ⟨by simp, rfl⟩
    · right; refine ⟨by simp, rfl⟩
  · intro a ha
    obtain rfl : a = 0 := by simpa using ha
    show (((N + 1 : ℕ) : ℝ) - 1) * (1 / N) = 1
    push_cast; field_simp; ring
  · intro p _ c; simp [waveGrid, FGrid.fresh]
  · intro p _ c; simp [waveGrid, FGrid.fresh]
  · intro p _ c; simp [waveGrid, FGrid.fresh]

/-- not vacuous: a plane wave on grids of any number of cells per wavelength; the simulated electric field converges to the wave in every cell -/
example : ∃ C, ∀ N : ℕ, 1 ≤ N → ∀ k : ℕ, (k : ℝ) * (7 / 10 * (1 / N)) ≤ 10 → ∀ i < N + 1,
    |Real.sin (2 * Real.pi * (i / N + k * (7 / 10 * (1 / N)))) - ((waveGrid N).run k).E ![i, 0, 0] 2| ≤ C * Real.sqrt (1 / N) := by
  obtain ⟨C, hC⟩ := C179_everywhere wave_maxwell (as := [0]) (ℓ := fun _ => 1) (by simp) (wave_repeats 2) (wave_repeats 1) (fun _ _ _ => rfl) (fun _ _ _ => rfl) (κ := 1) (Sg := 0)
    (fun _ _ => by norm_num) (fun _ _ => by norm_num) (fun _ _ => by norm_num) 10 (θ := 1 / 2) (by norm_num)
  refine ⟨C, fun N hN k hk i hi => ?_⟩
  have hN0 : (0 : ℝ) < N := by exact_mod_cast hN
  have := (hC (1 / N) (by positivity) (waveGrid N) (waveGrid_sampled hN) (by show (0:ℝ) < 7 / 10; norm_num) (by
    show (7 / 10 : ℝ) ^ 2 * _ ≤ _
    have : (Finset.univ.filter fun a : Fin 3 => a ∈ [(0 : Fin 3)]).card = 1 := by decide
    rw [this]; norm_num) k hk ![i, 0, 0] (by
      rw [mem_box]; intro a; fin_cases a
      · exact hi
      · exact Nat.zero_lt_one
      · exact Nat.zero_lt_one) 2).1
  have e : waveField 2 (k * ((waveGrid N).courant * (1 / N))) (placeE (1 / N) ![i, 0, 0] 2) 2 = Real.sin (2 * Real.pi * (i / N + k * (7 / 10 * (1 / N)))) := by
    have h1 : (waveGrid N).courant = 7 / 10 := rfl
    have h2 : placeE (1 / N) ![i, 0, 0] 2 0 = (i : ℝ) / N := by simp [placeE]; ring
    rw [waveField, if_pos rfl, h1, h2]
  rw [e] at this
  exact this

end example_wave

end Nidn
