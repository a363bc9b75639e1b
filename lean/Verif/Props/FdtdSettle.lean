/-
C180: simulations settle.
-/
import Verif.Props.FdtdLayerStable
import Verif.Props.FdtdFilms
import Verif.Lemmas.LineDecay

namespace Nidn

open Finset

/-! ### A line of cells -/

lemma stretchStrength_neg {a courant s : ℝ} (ha : 0 < a) (hc : 0 < courant) (hs : 0 < s) : stretchStrength a courant s < 0 := by
  unfold stretchStrength stretchDecay
  have h : Real.exp (-(s + a) * courant) < 1 := Real.exp_lt_one_iff.2 (by nlinarith [mul_pos (add_pos hs ha) hc])
  exact div_neg_of_neg_of_pos (mul_neg_of_neg_of_pos (by linarith) hs) (by linarith)

/-- a line of cells between absorbing layers that is driven by an oscillation from step `K` on settles into an oscillation -/
lemma line_settling {N : ℕ} (hN : 2 ≤ N) {a courant κ : ℝ} (ha : 0 < a) (hc : 0 < courant) (hc1 : courant < 1) (ie im A σE σH : ℕ → ℝ)
    (hie : ∀ i < N, 1 / κ ≤ ie i ∧ ie i ≤ 1) (him : ∀ i < N, 1 / κ ≤ im i ∧ im i ≤ 1) (hκ : 0 < κ) (hA : ∀ i < N, 0 ≤ A i) (hE : ∀ i < N, 0 ≤ σE i) (hH : ∀ i < N, 0 ≤ σH i) (hH0 : 0 < σH 0)
    (hAE : ∀ i < N, σE i ≠ 0 → A i = 0) :
    ∃ ρ : ℝ, 0 < ρ ∧ ρ < 1 ∧ ∀ (ω : ℝ) (α β : ℕ → ℝ), α 0 = 0 → β 0 = 0 → ∃ X Y P Q : ℕ → ℝ, ∀ (u v f : ℕ → ℕ → ℝ) (K : ℕ), u 0 0 = 0 → v 0 (N - 1) = 0 → (∀ k, f k 0 = 0) →
      (∀ k : ℕ, K ≤ k → ∀ i < N, f k i = Real.cos (ω * k) * α i + Real.sin (ω * k) * β i) →
      (∀ k : ℕ, ∀ i < N, (1 + A i) * u (k + 1) i = (1 - A i) * u k i + courant * ie i * stretchedAt (stretchDecay a courant (σE i)) (stretchStrength a courant (σE i)) (fun j => lowD (v j) i) k + (1 + A i) * f k i) →
      (∀ k, ∀ i < N, v (k + 1) i = v k i + courant * im i * stretchedAt (stretchDecay a courant (σH i)) (stretchStrength a courant (σH i)) (fun j => upF N (u (j + 1)) i) k) →
      ∃ C, ∀ k : ℕ, K ≤ k → ∀ i < N, |u k i - (Real.cos (ω * k) * X i + Real.sin (ω * k) * Y i)| ≤ C * ρ ^ k ∧ |v k i - (Real.cos (ω * k) * P i + Real.sin (ω * k) * Q i)| ≤ C * ρ ^ k := by
  let L : LinePars := ⟨fun i => courant * ie i, fun i => courant * im i, A, fun i => stretchDecay a courant (σE i), fun i => -stretchStrength a courant (σE i),
    fun i => stretchDecay a courant (σH i), fun i => -stretchStrength a courant (σH i)⟩
  have hq : 0 < 1 / κ := by positivity
  have hL : L.Good N := by
    intro i hi
    refine ⟨mul_pos hc (hq.trans_le (hie i hi).1), mul_pos hc (hq.trans_le (him i hi).1), hA i hi, (layer_memory ha hc (hE i hi)).1, (layer_memory ha hc (hH i hi)).1, fun h => hAE i hi fun h' => h ?_⟩
    show -stretchStrength a courant (σE i) = 0
    rw [h', stretchStrength_zero, neg_zero]
  have hF : L.Fading N := fun i _ => ⟨fun _ => Real.exp_pos _, fun _ => Real.exp_pos _⟩
  have hg : L.gH 0 ≠ 0 := by
    show -stretchStrength a courant (σH 0) ≠ 0
    exact neg_ne_zero.2 (stretchStrength_neg ha hc hH0).ne
  obtain ⟨ρ, h0, h1, h⟩ := LinePars.settles hN hL hF hg hc hc1 fun i hi => ⟨mul_le_of_le_one_right hc.le (hie i hi).2, mul_le_of_le_one_right hc.le (him i hi).2⟩
  refine ⟨ρ, h0, h1, fun ω α β hα hβ => ?_⟩
  obtain ⟨X, Y, -, hXY⟩ := h ω α β hα hβ
  refine ⟨X.E, Y.E, X.H, Y.H, fun u v f K hu0 hv0 hf0 hf hu hv => ?_⟩
  let s : ℕ → LineState := fun k => ⟨u k, v k, fun i => ∑ j ∈ range k, stretchStrength a courant (σE i) * stretchDecay a courant (σE i) ^ (k - 1 - j) * lowD (v j) i,
    fun i => ∑ j ∈ range k, stretchStrength a courant (σH i) * stretchDecay a courant (σH i) ^ (k - 1 - j) * upF N (u (j + 1)) i⟩
  have hm : ∀ k : ℕ, L.Driven N (f k) (s k) (s (k + 1)) := by
    intro k i hi
    have e1 := conv_step (stretchDecay a courant (σE i)) (stretchStrength a courant (σE i)) (fun j => lowD (v j) i) k
    have e2 := conv_step (stretchDecay a courant (σH i)) (stretchStrength a courant (σH i)) (fun j => upF N (u (j + 1)) i) k
    have e3 := hu k i hi
    have e4 := hv k i hi
    unfold stretchedAt at e3 e4
    refine ⟨?_, e3, ?_, e4⟩
    · show ∑ j ∈ range (k + 1), _ * _ ^ (k + 1 - 1 - j) * _ = _ * (∑ j ∈ range k, _) - -_ * _
      rw [Nat.add_sub_cancel, ← e1]
      ring
    · show ∑ j ∈ range (k + 1), _ * _ ^ (k + 1 - 1 - j) * _ = _ * (∑ j ∈ range k, _) - -_ * _
      rw [Nat.add_sub_cancel, ← e2]
      ring
  have h00 : ∀ i, (s 0).ψ i = 0 ∧ (s 0).χ i = 0 := by
    intro i
    constructor <;> simp [s]
  have hset : ∀ k, L.Settled N (s k) := by
    intro k
    induction k with
    | zero => exact ⟨fun i hi => ⟨fun _ => (h00 i).1, fun _ => (h00 i).2⟩, hu0, hv0, (h00 0).1, (h00 (N - 1)).2⟩
    | succ k ih => exact ih.driven (by omega) hL (hf0 k) (hm k)
  refine hXY s K (hset K) fun k hk i hi => ?_
  have := hm k i hi
  rw [hf k hk i hi] at this
  exact this

lemma lineSigmaH_first {n : Pos} {t₁ t₂ : ℕ} (ht : 2 ≤ t₁) (p : Pos) (hp : p 0 = 0) : 0 < lineSigmaH n t₁ t₂ p := by
  have ht' : (2 : ℝ) ≤ t₁ := by exact_mod_cast ht
  unfold lineSigmaH
  rw [if_pos (by omega)]
  unfold magneticSigma
  simp only [hp]
  rw [if_neg (by omega)]
  have : (0 : ℝ) < t₁ - (0 : ℕ) - 1 := by push_cast; linarith
  positivity

/-! ### Specification -/

/-- what the sources of two runs add to the electric field from step `K` on differs by an oscillation of `ω` radians per step -/
def OscillatingApart (g g' : FGrid ℝ) (ω : ℝ) (u v : VField ℝ) (K : ℕ) : Prop := ∀ k : ℕ, K ≤ k → ∀ p c, apartS g g' k p c = Real.cos (ω * k) * u p c + Real.sin (ω * k) * v p c

lemma SameWorld.trans' {w g g' : FGrid ℝ} (h : SameWorld w g) (h' : SameWorld w g') : SameWorld g g' :=
  ⟨h'.n.trans h.n.symm, h'.courant.trans h.courant.symm, h'.invEps.trans h.invEps.symm, h'.invMu.trans h.invMu.symm, h'.absorb.trans h.absorb.symm, h'.time.trans h.time.symm, h'.boundaries.trans h.boundaries.symm⟩

/-- a pair of components across the row -/
lemma Layered.settling {w : FGrid ℝ} {t₁ t₂ : ℕ} {a κ : ℝ} (hroom : t₁ + t₂ ≤ w.n 0) (hcalm : ∀ p c, p 0 < t₁ ∨ w.n 0 ≤ p 0 + t₂ → w.absorb p c = 0) (h1 : OneDim w) (ht : 2 ≤ t₁) (ha : 0 < a) (hc : 0 < w.courant) (hc1 : w.courant < 1)
    (hκ : 0 < κ) (hd : Densities w κ) (hA : ∀ p c, 0 ≤ w.absorb p c) (c f : Fin 3) (hcf : (c = 2 ∧ f = 1) ∨ (c = 1 ∧ f = 2)) :
    ∃ ρ : ℝ, 0 < ρ ∧ ρ < 1 ∧ ∀ (ω : ℝ) (u v : VField ℝ), (∀ p c, p 0 = 0 → u p c = 0 ∧ v p c = 0) → ∃ X Y P Q : ℕ → ℝ, ∀ (g g' : FGrid ℝ) (K : ℕ), SameWorld w g → SameWorld w g' → Layered g t₁ t₂ a [] → Layered g' t₁ t₂ a [] →
      g.E (rowCell 0) c = g'.E (rowCell 0) c → g.H (rowCell (w.n 0 - 1)) f = g'.H (rowCell (w.n 0 - 1)) f → OscillatingApart g g' ω u v K →
      ∃ C, ∀ k : ℕ, K ≤ k → ∀ i < w.n 0, |apartE g g' k (rowCell i) c - (Real.cos (ω * k) * X i + Real.sin (ω * k) * Y i)| ≤ C * ρ ^ k ∧ |apartH g g' k (rowCell i) f - (Real.cos (ω * k) * P i + Real.sin (ω * k) * Q i)| ≤ C * ρ ^ k := by
  obtain ⟨s1, s2⟩ := axisSign_pair c f hcf
  have hcf' : (f = 2 ∧ c = 1) ∨ (f = 1 ∧ c = 2) := by tauto
  obtain ⟨ρ, r0, r1, h⟩ := line_settling (N := w.n 0) (by omega) ha hc hc1 (fun i => w.invEps (rowCell i) c) (fun i => w.invMu (rowCell i) f) (fun i => w.absorb (rowCell i) c) (fun i => lineSigmaE w.n t₁ t₂ (rowCell i)) (fun i => lineSigmaH w.n t₁ t₂ (rowCell i))
    (fun i _ => hd.1 _ _) (fun i _ => hd.2 _ _) hκ (fun i _ => hA _ _) (fun i hi => (lineSigmaE_range _ _ _ _ hi).1) (fun i hi => (lineSigmaH_range _ _ _ _ hi).1) (lineSigmaH_first ht _ rfl) (fun i hi h => hcalm _ _ (by
      unfold lineSigmaE at h
      by_contra h'
      rw [not_or] at h'
      rw [if_neg h'.1, if_neg (by omega)] at h
      exact h rfl))
  refine ⟨ρ, r0, r1, fun ω u v huv => ?_⟩
  obtain ⟨X, Y, P, Q, hXY⟩ := h ω (fun i => u (rowCell i) c) (fun i => v (rowCell i) c) (huv _ _ rfl).1 (huv _ _ rfl).2
  refine ⟨X, Y, fun i => axisSign c 0 f * P i, fun i => axisSign c 0 f * Q i, fun g g' K hw hw' hg hg' hE hH hS => ?_⟩
  have hgg := hw.trans' hw'
  have hA' : ∀ p c, 0 ≤ g.absorb p c := by rw [hw.absorb]; exact hA
  obtain ⟨C, hC⟩ := hXY (fun k i => apartE g g' k (rowCell i) c) (fun k i => axisSign c 0 f * apartH g g' k (rowCell i) f) (fun k i => apartS g g' k (rowCell i) c) K (sub_eq_zero.2 hE)
    (mul_eq_zero_of_right _ (sub_eq_zero.2 hH)) (fun k => sub_eq_zero.2 ((hg.added (.inl (by show 0 < t₁; omega)) _ _).trans (hg'.added (.inl (by show 0 < t₁; omega)) _ _).symm)) (fun k hk i _ => hS k hk _ _)
    (fun k i hi => by
      have h := hg.diffE hg' hgg hA' (rowCell i) (by rw [hw.n]; exact hi) (fun d hd => absurd hd List.not_mem_nil) c k
      rw [hw.n, hw.courant, hw.invEps, hw.absorb] at h
      rw [curl_row _ c f hcf] at h
      · rw [h]
        congr 3
        unfold stretchedLower
        rw [if_pos rfl, ← stretchedAt_smul]
        congr 1
        funext j
        rw [lowerDiff_row]
        unfold lowD
        split_ifs <;> ring
      · intro d f' hd'
        unfold stretchedLower
        rw [if_neg hd', lowerDiff_across _ _ _ hd'])
    (fun k i hi => by
      have h := hg.diffH hg'.toFramed hgg (rowCell i) (by rw [hw.n]; exact h1.cell hi) (fun d hd => absurd hd List.not_mem_nil) f k
      rw [hw.n, hw.courant, hw.invMu] at h
      rw [curl_row _ f c hcf', s2] at h
      · show axisSign c 0 f * apartH g g' (k + 1) (rowCell i) f = axisSign c 0 f * apartH g g' k (rowCell i) f + _
        rw [h]
        unfold stretchedUpper
        rw [if_pos rfl]
        simp only [upperDiff_row]
        linear_combination (w.courant * w.invMu (rowCell i) f * (stretchedAt (stretchDecay a w.courant (lineSigmaH w.n t₁ t₂ (rowCell i))) (stretchStrength a w.courant (lineSigmaH w.n t₁ t₂ (rowCell i)))
          (fun j => upF (w.n 0) (fun i => apartE g g' (j + 1) (rowCell i) c) i) k)) * s1
      · intro d f' hd'
        unfold stretchedUpper
        rw [if_neg hd', upperDiff_across h1 _ _ _ hd'])
  refine ⟨C, fun k hk i hi => ⟨(hC k hk i hi).1, ?_⟩⟩
  have e := (hC k hk i hi).2
  have e1 : |axisSign c 0 f| = 1 := by rw [← sq_eq_sq₀ (abs_nonneg _) zero_le_one, sq_abs, s1, one_pow]
  have e2 : apartH g g' k (rowCell i) f - (Real.cos (ω * k) * (axisSign c 0 f * P i) + Real.sin (ω * k) * (axisSign c 0 f * Q i)) =
      axisSign c 0 f * (axisSign c 0 f * apartH g g' k (rowCell i) f - (Real.cos (ω * k) * P i + Real.sin (ω * k) * Q i)) := by
    linear_combination -(apartH g g' k (rowCell i) f) * s1
  rw [e2, abs_mul, e1, one_mul]
  exact e

/-! ### C180 -/

lemma bound_weaken {C ρ r x : ℝ} {k : ℕ} (hρ : 0 < ρ) (hr : ρ ≤ r) (h : x ≤ C * ρ ^ k) : x ≤ |C| * r ^ k :=
  h.trans (mul_le_mul (le_abs_self C) (pow_le_pow_left₀ hρ.le hr k) (by positivity) (abs_nonneg C))

/-- C180: a row of cells between absorbing layers, the lower one of at least two cells (Courant number below 1, relative permittivities and permeabilities between 1 and κ, any conductivity outside the layers), settles: there is
a rate ρ < 1 such that, if what the sources of two simulations add differs by an oscillation of ω radians per step from some step on, the difference of their fields across the row tends to an oscillation of ω radians per step
like ρᵏ. The oscillation depends on ω and on the drive, not on the fields at the start. -/
theorem C180_settles (w : FGrid ℝ) (t₁ t₂ : ℕ) (a κ : ℝ) (hw : Layered w t₁ t₂ a []) (h1 : OneDim w) (ht : 2 ≤ t₁) (ha : 0 < a) (hc : 0 < w.courant) (hc1 : w.courant < 1) (hκ : 0 < κ) (hd : Densities w κ)
    (hA : ∀ p c, 0 ≤ w.absorb p c) :
    ∃ ρ : ℝ, 0 < ρ ∧ ρ < 1 ∧ ∀ (ω : ℝ) (u v : VField ℝ), (∀ p c, p 0 = 0 → u p c = 0 ∧ v p c = 0) → ∃ X Y P Q : VField ℝ, ∀ (g g' : FGrid ℝ) (K : ℕ), SameWorld w g → SameWorld w g' → Layered g t₁ t₂ a [] → Layered g' t₁ t₂ a [] →
      (∀ p ∈ box w.n, p 0 = 0 → ∀ c, c ≠ 0 → g.E p c = g'.E p c) → (∀ p ∈ box w.n, p 0 + 1 = w.n 0 → ∀ c, c ≠ 0 → g.H p c = g'.H p c) → OscillatingApart g g' ω u v K →
      ∃ C, ∀ k : ℕ, K ≤ k → ∀ p ∈ box w.n, ∀ c, c ≠ 0 →
        |(g.run k).E p c - (g'.run k).E p c - (Real.cos (ω * k) * X p c + Real.sin (ω * k) * Y p c)| ≤ C * ρ ^ k ∧ |(g.run k).H p c - (g'.run k).H p c - (Real.cos (ω * k) * P p c + Real.sin (ω * k) * Q p c)| ≤ C * ρ ^ k := by
  have hroom := hw.room
  have hN : 0 < w.n 0 := by omega
  obtain ⟨ρ, p0, p1, H⟩ := Layered.settling hw.room hw.calm h1 ht ha hc hc1 hκ hd hA 2 1 (.inl ⟨rfl, rfl⟩)
  obtain ⟨ρ', q0, q1, H'⟩ := Layered.settling hw.room hw.calm h1 ht ha hc hc1 hκ hd hA 1 2 (.inr ⟨rfl, rfl⟩)
  refine ⟨max ρ ρ', lt_max_of_lt_left p0, max_lt p1 q1, fun ω u v huv => ?_⟩
  obtain ⟨X, Y, P, Q, h⟩ := H ω u v huv
  obtain ⟨X', Y', P', Q', h'⟩ := H' ω u v huv
  refine ⟨fun p c => if c = 2 then X (p 0) else X' (p 0), fun p c => if c = 2 then Y (p 0) else Y' (p 0), fun p c => if c = 1 then P (p 0) else P' (p 0), fun p c => if c = 1 then Q (p 0) else Q' (p 0),
    fun g g' K w1 w2 hg hg' hE hH hS => ?_⟩
  have hE' := fun c hc => hE (rowCell 0) (mem_box.2 fun d => h1.cell hN d) rfl c hc
  have hH' := fun c hc => hH (rowCell (w.n 0 - 1)) (mem_box.2 fun d => h1.cell (by omega) d) (by show w.n 0 - 1 + 1 = w.n 0; omega) c hc
  obtain ⟨C, hC⟩ := h g g' K w1 w2 hg hg' (hE' 2 (by decide)) (hH' 1 (by decide)) hS
  obtain ⟨C', hC'⟩ := h' g g' K w1 w2 hg hg' (hE' 1 (by decide)) (hH' 2 (by decide)) hS
  refine ⟨max |C| |C'|, fun k hk p hp c hc => ?_⟩
  have hp0 : p = rowCell (p 0) := by
    have h2 := mem_box.1 hp 1
    have h3 := mem_box.1 hp 2
    rw [h1.1] at h2
    rw [h1.2] at h3
    funext d
    fin_cases d
    · rfl
    · show p 1 = 0
      omega
    · show p 2 = 0
      omega
  have hi := mem_box.1 hp 0
  have r0 : 0 ≤ max ρ ρ' ^ k := pow_nonneg (p0.le.trans (le_max_left _ _)) k
  obtain ⟨b1, b2⟩ := hC k hk (p 0) hi
  obtain ⟨b1', b2'⟩ := hC' k hk (p 0) hi
  rw [← hp0] at b1 b2 b1' b2'
  have m1 := fun x (h : x ≤ C * ρ ^ k) => (bound_weaken p0 (le_max_left ρ ρ') h).trans (mul_le_mul_of_nonneg_right (le_max_left |C| |C'|) r0)
  have m2 := fun x (h : x ≤ C' * ρ' ^ k) => (bound_weaken q0 (le_max_right ρ ρ') h).trans (mul_le_mul_of_nonneg_right (le_max_right |C| |C'|) r0)
  fin_cases c
  · exact absurd rfl hc
  · exact ⟨m2 _ b1', m1 _ b2⟩
  · exact ⟨m1 _ b1, m2 _ b2'⟩

/-- C180, pulses: when the sources of two simulations no longer differ, the fields across the row become equal, like ρᵏ. With no sources in one of them: after the end of a pulse the row becomes dark again. -/
theorem C180_forgets (w : FGrid ℝ) (t₁ t₂ : ℕ) (a κ : ℝ) (hw : Layered w t₁ t₂ a []) (h1 : OneDim w) (ht : 2 ≤ t₁) (ha : 0 < a) (hc : 0 < w.courant) (hc1 : w.courant < 1) (hκ : 0 < κ) (hd : Densities w κ)
    (hA : ∀ p c, 0 ≤ w.absorb p c) :
    ∃ ρ : ℝ, 0 < ρ ∧ ρ < 1 ∧ ∀ (g g' : FGrid ℝ) (K : ℕ), SameWorld w g → SameWorld w g' → Layered g t₁ t₂ a [] → Layered g' t₁ t₂ a [] →
      (∀ p ∈ box w.n, p 0 = 0 → ∀ c, c ≠ 0 → g.E p c = g'.E p c) → (∀ p ∈ box w.n, p 0 + 1 = w.n 0 → ∀ c, c ≠ 0 → g.H p c = g'.H p c) →
      (∀ k p c, K ≤ k → addedBy g.sources (w.time + k) p c = addedBy g'.sources (w.time + k) p c) →
      ∃ C, ∀ k : ℕ, K ≤ k → ∀ p ∈ box w.n, ∀ c, c ≠ 0 → |(g.run k).E p c - (g'.run k).E p c| ≤ C * ρ ^ k ∧ |(g.run k).H p c - (g'.run k).H p c| ≤ C * ρ ^ k := by
  obtain ⟨ρ, r0, r1, H⟩ := C180_settles w t₁ t₂ a κ hw h1 ht ha hc hc1 hκ hd hA
  refine ⟨ρ, r0, r1, fun g g' K w1 w2 hg hg' hE hH hS => ?_⟩
  obtain ⟨X, Y, P, Q, h⟩ := H 0 (fun _ _ => 0) (fun _ _ => 0) fun _ _ _ => ⟨rfl, rfl⟩
  obtain ⟨C, hC⟩ := h g g' K w1 w2 hg hg' hE hH fun k hk p c => by
    unfold apartS fieldDiff
    rw [w1.time, hS k p c hk]
    ring
  obtain ⟨C', hC'⟩ := h w w 0 ⟨rfl, rfl, rfl, rfl, rfl, rfl, rfl⟩ ⟨rfl, rfl, rfl, rfl, rfl, rfl, rfl⟩ hw hw (fun _ _ _ _ _ => rfl) (fun _ _ _ _ _ => rfl) fun k _ p c => by
    unfold apartS fieldDiff
    ring
  refine ⟨C + C', fun k hk p hp c hc => ?_⟩
  obtain ⟨b1, b2⟩ := hC k hk p hp c hc
  obtain ⟨b1', b2'⟩ := hC' k (Nat.zero_le k) p hp c hc
  rw [sub_self] at b1' b2'
  rw [add_mul]
  constructor
  · refine le_trans ?_ (add_le_add b1 b1')
    rw [abs_sub_comm 0]
    refine le_trans (le_of_eq ?_) (abs_add_le _ _)
    congr 1
    ring
  · refine le_trans ?_ (add_le_add b2 b2')
    rw [abs_sub_comm 0]
    refine le_trans (le_of_eq ?_) (abs_add_le _ _)
    congr 1
    ring

/-! ### Examples -/

/-- a row with layers of two and one cells (loss parameter 1, Courant number 1/2), driven in cell 5 by an oscillation of one radian per step -/
noncomputable def singingRow : FGrid ℝ := { layeredRow with sources := [.soft fun t p c => if p = rowCell 5 ∧ c = 2 then Real.sin (1 * t) else 0] }

/-- the same row without its source -/
noncomputable def silentRow : FGrid ℝ := { layeredRow with sources := [] }

example : ∃ (X Y P Q : VField ℝ) (C ρ : ℝ), 0 < ρ ∧ ρ < 1 ∧ ∀ k : ℕ, ∀ p ∈ box layeredRow.n, ∀ c, c ≠ 0 →
    |(singingRow.run k).E p c - (silentRow.run k).E p c - (Real.cos (1 * k) * X p c + Real.sin (1 * k) * Y p c)| ≤ C * ρ ^ k ∧
      |(singingRow.run k).H p c - (silentRow.run k).H p c - (Real.cos (1 * k) * P p c + Real.sin (1 * k) * Q p c)| ≤ C * ρ ^ k := by
  have hs : Layered silentRow 2 1 1 [] := ⟨⟨rfl, layeredRow_layered.room, fun s hs => absurd hs List.not_mem_nil⟩, layeredRow_layered.calm⟩
  have hd : Layered singingRow 2 1 1 [] := ⟨⟨rfl, layeredRow_layered.room, fun s hs => ⟨_, List.mem_singleton.1 hs, fun t p c hp => if_neg fun h => by
    obtain ⟨rfl, -⟩ := h
    have hp' : 5 < 2 ∨ 7 ≤ 5 + 1 := hp
    omega⟩⟩, layeredRow_layered.calm⟩
  obtain ⟨ρ, r0, r1, H⟩ := C180_settles silentRow 2 1 1 3 hs ⟨rfl, rfl⟩ le_rfl one_pos (by show (0 : ℝ) < 1 / 2; norm_num) (by show (1 / 2 : ℝ) < 1; norm_num) (by norm_num) layeredRow_densities fun p c => (layeredRow_absorb p c).1
  obtain ⟨X, Y, P, Q, h⟩ := H 1 (fun _ _ => 0) (fun p c => if p = rowCell 5 ∧ c = 2 then 1 else 0) fun p c hp => ⟨rfl, if_neg fun h => by
    rw [h.1] at hp
    exact absurd hp (by decide)⟩
  obtain ⟨C, hC⟩ := h singingRow silentRow 0 ⟨rfl, rfl, rfl, rfl, rfl, rfl, rfl⟩ ⟨rfl, rfl, rfl, rfl, rfl, rfl, rfl⟩ hd hs (fun _ _ _ _ _ => rfl) (fun _ _ _ _ _ => rfl) fun k _ p c => by
    show ((if p = rowCell 5 ∧ c = 2 then Real.sin (1 * ((0 + k : ℕ) : ℝ)) else 0) + 0) - 0 = Real.cos (1 * k) * 0 + Real.sin (1 * k) * (if p = rowCell 5 ∧ c = 2 then 1 else 0)
    rw [zero_add]
    split_ifs <;> ring
  exact ⟨X, Y, P, Q, C, ρ, r0, r1, fun k p hp c hc => hC k (Nat.zero_le k) p hp c hc⟩

end Nidn
