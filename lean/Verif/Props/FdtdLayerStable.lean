/-
C139: one-dimensional simulations that end in absorbing layers are stable.
-/
import Verif.Props.FdtdStretch
import Verif.Props.FdtdEnergy
import Verif.Lemmas.LayerEnergy

namespace Nidn

open Finset

/-! ### Specification -/

/-- A grid with absorbing layers of `t₁` and `t₂` cells (loss parameter `a`, memories empty) at the ends of its first axis, that do not meet. `t₁ = 0` or `t₂ = 0`: no layer there. Every source adds to the
electric field, outside the layers. Beside the layers there may be periodic boundaries. -/
structure Framed (g : FGrid ℝ) (t₁ t₂ : ℕ) (a : ℝ) (across : List (Fin 3)) : Prop where
  layers : g.boundaries = .pml (mkPml 0 false t₁ a g.courant) :: .pml (mkPml 0 true t₂ a g.courant) :: across.map .periodic
  room : t₁ + t₂ ≤ g.n 0
  soft : ∀ s ∈ g.sources, ∃ drive : ℕ → VField ℝ, s = .soft drive ∧ ∀ t p c, p 0 < t₁ ∨ g.n 0 ≤ p 0 + t₂ → drive t p c = 0

/-- and the layers do not conduct -/
structure Layered (g : FGrid ℝ) (t₁ t₂ : ℕ) (a : ℝ) (across : List (Fin 3)) : Prop extends Framed g t₁ t₂ a across where
  calm : ∀ p c, p 0 < t₁ ∨ g.n 0 ≤ p 0 + t₂ → g.absorb p c = 0

/-- what the sources add to the electric field in step `t` -/
def addedBy (l : List (FSource ℝ)) (t : ℕ) : VField ℝ := fun p c =>
  (l.map fun s => match s with
    | .soft drive => drive t p c
    | .plane .. => 0).sum

/-- what a step adds to the electric field of a cell whatever the fields are: the sources, and 10⁻¹⁶ in the layers -/
noncomputable def forcing (g : FGrid ℝ) (t₁ t₂ : ℕ) (k : ℕ) (p : Pos) (c : Fin 3) : ℝ :=
  (if p 0 < t₁ ∨ g.n 0 ≤ p 0 + t₂ then g.courant * g.invEps p c * (1 / 10 ^ 16) else 0) + (1 + g.absorb p c) * addedBy g.sources (g.time + k) p c

/-- conductivity seen by the electric field of plane `p 0`; none in the first plane of the upper layer (C120_entry) -/
noncomputable def lineSigmaE (n : Pos) (t₁ t₂ : ℕ) (p : Pos) : ℝ :=
  if p 0 < t₁ then electricSigma n 0 false t₁ p else if n 0 < p 0 + t₂ then electricSigma n 0 true t₂ p else 0

/-- conductivity seen by the magnetic field -/
noncomputable def lineSigmaH (n : Pos) (t₁ t₂ : ℕ) (p : Pos) : ℝ :=
  if p 0 < t₁ then magneticSigma n 0 false t₁ p else if n 0 ≤ p 0 + t₂ then magneticSigma n 0 true t₂ p else 0

/-! ### One cell -/

lemma stretchStrength_zero (a c : ℝ) : stretchStrength a c 0 = 0 := by
  unfold stretchStrength
  ring

lemma stretchedAt_zero (b : ℝ) (u : ℕ → ℝ) (k : ℕ) : stretchedAt b 0 u k = u k := by
  unfold stretchedAt
  simp

lemma soft_adds (t : ℕ) (l : List (FSource ℝ)) (h : ∀ s ∈ l, ∃ drive, s = .soft drive) (E : VField ℝ) (p : Pos) (c : Fin 3) :
    applySourcesE t l E p c = E p c + addedBy l t p c := by
  unfold applySourcesE addedBy
  induction l generalizing E with
  | nil => simp
  | cons s l ih =>
    obtain ⟨d, rfl⟩ := h s List.mem_cons_self
    rw [List.foldl_cons, List.map_cons, List.sum_cons, ih (fun s hs => h s (List.mem_cons_of_mem _ hs))]
    show E p c + d t p c + _ = E p c + (d t p c + _)
    ring

lemma Framed.added {g : FGrid ℝ} {t₁ t₂ : ℕ} {a : ℝ} {across : List (Fin 3)} (hg : Framed g t₁ t₂ a across) {p : Pos} (hp : p 0 < t₁ ∨ g.n 0 ≤ p 0 + t₂) (t : ℕ) (c : Fin 3) : addedBy g.sources t p c = 0 := by
  unfold addedBy
  refine List.sum_eq_zero fun x hx => ?_
  obtain ⟨s, hs, rfl⟩ := List.mem_map.1 hx
  obtain ⟨d, rfl, hd⟩ := hg.soft s hs
  exact hd t p c hp

lemma Framed.nosource {g : FGrid ℝ} {t₁ t₂ : ℕ} {a : ℝ} {across : List (Fin 3)} (hg : Framed g t₁ t₂ a across) {p : Pos} (hp : p 0 < t₁ ∨ g.n 0 ≤ p 0 + t₂) (c : Fin 3) :
    ∀ s ∈ g.sources, ∀ t (E : VField ℝ), s.updateE t E p c = E p c := by
  intro s hs t E
  obtain ⟨d, rfl, hd⟩ := hg.soft s hs
  show E p c + d t p c = _
  rw [hd t p c hp, add_zero]

lemma Framed.nosourceH {g : FGrid ℝ} {t₁ t₂ : ℕ} {a : ℝ} {across : List (Fin 3)} (hg : Framed g t₁ t₂ a across) (p : Pos) (c : Fin 3) :
    ∀ s ∈ g.sources, ∀ t (H : VField ℝ), s.updateH t H p c = H p c := by
  intro s hs t H
  obtain ⟨d, rfl, -⟩ := hg.soft s hs
  rfl

lemma stretchedLower_zero (b : ℝ) (Hs : ℕ → VField ℝ) (p : Pos) (k : ℕ) (d f : Fin 3) : stretchedLower 0 b 0 Hs p k d f = lowerDiff (Hs k) d f p := by
  unfold stretchedLower
  split_ifs
  · exact stretchedAt_zero _ _ _
  · rfl

lemma stretchedUpper_zero (n : Pos) (b : ℝ) (Es : ℕ → VField ℝ) (p : Pos) (k : ℕ) (d f : Fin 3) : stretchedUpper n 0 b 0 Es p k d f = upperDiff n (Es k) d f p := by
  unfold stretchedUpper
  split_ifs
  · exact stretchedAt_zero _ _ _
  · rfl

/-- the electric field of a cell of a layered grid -/
lemma Framed.cellE {g : FGrid ℝ} {t₁ t₂ : ℕ} {a : ℝ} {across : List (Fin 3)} (hg : Framed g t₁ t₂ a across) (p : Pos) (hp : p 0 < g.n 0) (hx : ∀ d ∈ across, p d ≠ 0) (c : Fin 3) (ha : 0 ≤ g.absorb p c)
    (hcalm : p 0 < t₁ ∨ g.n 0 ≤ p 0 + t₂ → g.absorb p c = 0) (k : ℕ) :
    (1 + g.absorb p c) * (g.run (k + 1)).E p c = (1 - g.absorb p c) * (g.run k).E p c + g.courant * g.invEps p c *
      (∑ d, ∑ f, axisSign c d f * stretchedLower 0 (stretchDecay a g.courant (lineSigmaE g.n t₁ t₂ p)) (stretchStrength a g.courant (lineSigmaE g.n t₁ t₂ p)) (fun j => (g.run j).H) p k d f) + forcing g t₁ t₂ k p c := by
  have hroom := hg.room
  have hrest : ∀ b ∈ across.map (FBoundary.periodic (K := ℝ)), b.sparesE g.n p ∧ ∀ Q, b ≠ .pml Q := by
    intro b hb
    obtain ⟨d, hd, rfl⟩ := List.mem_map.1 hb
    exact ⟨hx d hd, fun Q h => by cases h⟩
  have hsoft : ∀ s ∈ g.sources, ∃ drive, s = FSource.soft drive := fun s hs => by obtain ⟨d, h, -⟩ := hg.soft s hs; exact ⟨d, h⟩
  have h0 : ∀ k, (p 0 < t₁ ∨ g.n 0 ≤ p 0 + t₂) → addedBy g.sources (g.time + k) p c = 0 := fun k h => hg.added h _ c
  unfold forcing
  by_cases h1 : p 0 < t₁
  · have hl : ∀ b ∈ [] ++ (FBoundary.pml (mkPml 0 true t₂ a g.courant) :: across.map FBoundary.periodic), b.sparesE g.n p ∧ ∀ Q, b = .pml Q → Q.thick ≤ g.n Q.axis := by
      intro b hb
      rcases List.mem_cons.1 hb with rfl | hb
      · refine ⟨fun h => ?_, fun Q hQ => ?_⟩
        · have : g.n 0 ≤ p 0 + t₂ := h.1
          omega
        · cases hQ
          show t₂ ≤ g.n 0
          omega
      · exact ⟨(hrest b hb).1, fun Q hQ => absurd hQ ((hrest b hb).2 Q)⟩
    have h := C120_electric_partial g 0 false t₁ a [] _ hg.layers (by omega) p c h1 (fun h => by cases h) (fun Q hQ => (hl _ hQ).2 Q rfl) (fun b hb => (hl b hb).1) (hg.nosource (.inl h1) c) (hcalm (.inl h1)) k
    rw [h, hcalm (.inl h1), if_pos (.inl h1), h0 k (.inl h1)]
    unfold lineSigmaE
    rw [if_pos h1]
    ring
  · have hl : ∀ b ∈ [FBoundary.pml (mkPml 0 false t₁ a g.courant)] ++ across.map FBoundary.periodic, b.sparesE g.n p ∧ ∀ Q, b = .pml Q → Q.thick ≤ g.n Q.axis := by
      intro b hb
      rcases List.mem_cons.1 hb with rfl | hb
      · refine ⟨fun h => h1 h, fun Q hQ => ?_⟩
        cases hQ
        show t₁ ≤ g.n 0
        omega
      · exact ⟨(hrest b hb).1, fun Q hQ => absurd hQ ((hrest b hb).2 Q)⟩
    by_cases h2 : g.n 0 ≤ p 0 + t₂
    · rw [hcalm (.inr h2), if_pos (.inr h2), h0 k (.inr h2)]
      unfold lineSigmaE
      rw [if_neg h1]
      by_cases h3 : p 0 + t₂ = g.n 0
      · have h := (C120_entry g 0 t₂ a _ _ hg.layers (by omega) (by omega) p c h3 (fun Q hQ => (hl _ hQ).2 Q rfl) (fun b hb => (hl b hb).1) (hg.nosource (.inr h2) c) (hcalm (.inr h2)) k).1
        rw [h, if_neg (by omega), stretchStrength_zero]
        simp only [stretchedLower_zero]
        ring
      · have h := C120_electric_partial g 0 true t₂ a _ _ hg.layers (by omega) p c ⟨h2, hp⟩ (fun _ => h3) (fun Q hQ => (hl _ hQ).2 Q rfl) (fun b hb => (hl b hb).1) (hg.nosource (.inr h2) c) (hcalm (.inr h2)) k
        rw [h, if_pos (by omega)]
        ring
    · unfold lineSigmaE
      have h3 : ¬ (p 0 < t₁ ∨ g.n 0 ≤ p 0 + t₂) := fun h => h.elim h1 h2
      rw [if_neg h3, if_neg h1, if_neg (by omega), stretchStrength_zero]
      simp only [stretchedLower_zero]
      rw [← curlH_sum]
      obtain ⟨r1, r2, r3, -, r5, r6⟩ := g.run_n k
      have hE : (g.run (k + 1)).E p c = bulkE (g.run k) p c + addedBy g.sources (g.time + k) p c := by
        show applySourcesE (g.run k).time (g.run k).sources (applyBoundariesE (g.run k).n (g.run k).courant (g.run k).invEps (g.run k).phasedE (bulkE (g.run k))) p c = _
        rw [r6, soft_adds _ _ hsoft, r1, r2, r3, run_time]
        congr 1
        refine boundariesE_at _ _ _ _ _ _ _ fun b hb E => ?_
        unfold FGrid.phasedE at hb
        rw [g.run_boundaries k, List.map_map, r1] at hb
        obtain ⟨b₀, hb₀, rfl⟩ := List.mem_map.1 hb
        refine sparesE_after g.n p _ _ _ _ k _ b₀ ?_ ?_ E c
        · rw [hg.layers] at hb₀
          rcases List.mem_cons.1 hb₀ with rfl | hb₀
          · exact fun h => h1 h
          · rcases List.mem_cons.1 hb₀ with rfl | hb₀
            · exact fun h => h2 h.1
            · exact (hrest _ hb₀).1
        · rw [hg.layers] at hb₀
          intro Q hQ
          rcases List.mem_cons.1 hb₀ with rfl | hb₀
          · cases hQ
            show t₁ ≤ g.n 0
            omega
          · rcases List.mem_cons.1 hb₀ with rfl | hb₀
            · cases hQ
              show t₂ ≤ g.n 0
              omega
            · exact absurd hQ ((hrest _ hb₀).2 Q)
      rw [hE]
      unfold bulkE
      rw [r2, r3, r5]
      have h4 : (1 + g.absorb p c) ≠ 0 := by positivity
      field_simp
      ring

lemma Layered.cellE {g : FGrid ℝ} {t₁ t₂ : ℕ} {a : ℝ} {across : List (Fin 3)} (hg : Layered g t₁ t₂ a across) (ha : ∀ p c, 0 ≤ g.absorb p c) (p : Pos) (hp : p 0 < g.n 0) (hx : ∀ d ∈ across, p d ≠ 0) (c : Fin 3) (k : ℕ) :
    (1 + g.absorb p c) * (g.run (k + 1)).E p c = (1 - g.absorb p c) * (g.run k).E p c + g.courant * g.invEps p c *
      (∑ d, ∑ f, axisSign c d f * stretchedLower 0 (stretchDecay a g.courant (lineSigmaE g.n t₁ t₂ p)) (stretchStrength a g.courant (lineSigmaE g.n t₁ t₂ p)) (fun j => (g.run j).H) p k d f) + forcing g t₁ t₂ k p c :=
  hg.toFramed.cellE p hp hx c (ha p c) (hg.calm p c) k

/-- the magnetic field of a cell of a layered grid -/
lemma Framed.cellH {g : FGrid ℝ} {t₁ t₂ : ℕ} {a : ℝ} {across : List (Fin 3)} (hg : Framed g t₁ t₂ a across) (p : Pos) (hp : ∀ d, p d < g.n d) (hx : ∀ d ∈ across, p d + 1 ≠ g.n d) (c : Fin 3) (k : ℕ) :
    (g.run (k + 1)).H p c = (g.run k).H p c - g.courant * g.invMu p c *
      ∑ d, ∑ f, axisSign c d f * stretchedUpper g.n 0 (stretchDecay a g.courant (lineSigmaH g.n t₁ t₂ p)) (stretchStrength a g.courant (lineSigmaH g.n t₁ t₂ p)) (fun j => (g.run (j + 1)).E) p k d f := by
  have hroom := hg.room
  have hp0 := hp 0
  have hrest : ∀ b ∈ across.map (FBoundary.periodic (K := ℝ)), b.sparesH g.n p ∧ ∀ Q, b ≠ .pml Q := by
    intro b hb
    obtain ⟨d, hd, rfl⟩ := List.mem_map.1 hb
    exact ⟨hx d hd, fun Q h => by cases h⟩
  by_cases h1 : p 0 < t₁
  · have hl : ∀ b ∈ [] ++ (FBoundary.pml (mkPml 0 true t₂ a g.courant) :: across.map FBoundary.periodic), b.sparesH g.n p ∧ ∀ Q, b = .pml Q → Q.thick ≤ g.n Q.axis := by
      intro b hb
      rcases List.mem_cons.1 hb with rfl | hb
      · refine ⟨fun h => ?_, fun Q hQ => ?_⟩
        · have : g.n 0 ≤ p 0 + t₂ := h.1
          omega
        · cases hQ
          show t₂ ≤ g.n 0
          omega
      · exact ⟨(hrest b hb).1, fun Q hQ => absurd hQ ((hrest b hb).2 Q)⟩
    have h := C120_magnetic g 0 false t₁ a [] _ hg.layers (by omega) p c hp h1 (fun Q hQ => (hl _ hQ).2 Q rfl) (fun b hb => (hl b hb).1) (hg.nosourceH p c) k
    rw [h]
    unfold lineSigmaH
    rw [if_pos h1]
  · have hl : ∀ b ∈ [FBoundary.pml (mkPml 0 false t₁ a g.courant)] ++ across.map FBoundary.periodic, b.sparesH g.n p ∧ ∀ Q, b = .pml Q → Q.thick ≤ g.n Q.axis := by
      intro b hb
      rcases List.mem_cons.1 hb with rfl | hb
      · refine ⟨fun h => h1 h, fun Q hQ => ?_⟩
        cases hQ
        show t₁ ≤ g.n 0
        omega
      · exact ⟨(hrest b hb).1, fun Q hQ => absurd hQ ((hrest b hb).2 Q)⟩
    by_cases h2 : g.n 0 ≤ p 0 + t₂
    · have h := C120_magnetic g 0 true t₂ a _ _ hg.layers (by omega) p c hp ⟨h2, hp 0⟩ (fun Q hQ => (hl _ hQ).2 Q rfl) (fun b hb => (hl b hb).1) (hg.nosourceH p c) k
      rw [h]
      unfold lineSigmaH
      rw [if_neg h1, if_pos h2]
    · unfold lineSigmaH
      rw [if_neg h1, if_neg h2, stretchStrength_zero]
      simp only [stretchedUpper_zero]
      rw [← curlE_sum]
      obtain ⟨r1, r2, -, r4, -, r6⟩ := g.run_n k
      show applySourcesH (g.run k).updateE.time (g.run k).sources (applyBoundariesH (g.run k).n (g.run k).courant (g.run k).invMu (g.run k).updateE.phasedH (bulkH (g.run k).updateE)) p c = _
      rw [r6, sourcesH_at _ _ _ _ _ (hg.nosourceH p c), boundariesH_at]
      · unfold bulkH
        show (g.run k).H p c - (g.run k).courant * (g.run k).invMu p c * curlE (g.run k).n (g.run (k + 1)).E p c = _
        rw [r1, r2, r4]
      · intro b hb H
        unfold FGrid.phasedH at hb
        have e : (g.run k).updateE.boundaries = (g.boundaries.map fun b => b.after g.n (fun i => (g.run i).H) (fun i => (g.run i).E) k).map (FBoundary.updatePhiE (g.run k).n (g.run k).H) := by
          show (g.run k).phasedE = _
          unfold FGrid.phasedE
          rw [g.run_boundaries k]
        rw [e, List.map_map, List.map_map] at hb
        obtain ⟨b₀, hb₀, rfl⟩ := List.mem_map.1 hb
        show (FBoundary.updatePhiH (g.run k).n _ (FBoundary.updatePhiE (g.run k).n _ (b₀.after g.n _ _ k))).updateH _ _ _ H p c = _
        rw [r1]
        refine sparesH_after g.n p _ _ _ _ k _ _ b₀ hp ?_ ?_ H c
        · rw [hg.layers] at hb₀
          rcases List.mem_cons.1 hb₀ with rfl | hb₀
          · exact fun h => h1 h
          · rcases List.mem_cons.1 hb₀ with rfl | hb₀
            · exact fun h => h2 h.1
            · exact (hrest _ hb₀).1
        · rw [hg.layers] at hb₀
          intro Q hQ
          rcases List.mem_cons.1 hb₀ with rfl | hb₀
          · cases hQ
            show t₁ ≤ g.n 0
            omega
          · rcases List.mem_cons.1 hb₀ with rfl | hb₀
            · cases hQ
              show t₂ ≤ g.n 0
              omega
            · exact absurd hQ ((hrest _ hb₀).2 Q)

/-! ### A line -/

lemma layer_memory {a courant s : ℝ} (ha : 0 < a) (hc : 0 < courant) (hs : 0 ≤ s) : MemoryOk (stretchDecay a courant s) (-stretchStrength a courant s) ∧
    -stretchStrength a courant s / (1 - -stretchStrength a courant s - stretchDecay a courant s) = s / a := by
  obtain ⟨h1, h2, h3, h4, h5, h6⟩ := C49_coefficients a courant s ha hc hs
  rw [pmlB_eq] at h1 h2 h6
  rw [pmlC_eq] at h3 h4 h5 h6
  constructor
  · rcases eq_or_lt_of_le hs with h | h
    · left
      rw [← h, stretchStrength_zero, neg_zero]
    · right
      have h7 : stretchStrength a courant s ≠ 0 := fun h' => h.ne' (h5.1 h')
      exact ⟨neg_pos.2 (lt_of_le_of_ne h4 h7), h1.le, by linarith⟩
  · have h7 : (1 - stretchDecay a courant s) ≠ 0 := by linarith
    have h8 : s + a ≠ 0 := by positivity
    unfold stretchStrength
    have e : 1 - -((stretchDecay a courant s - 1) * s / (s + a)) - stretchDecay a courant s = (1 - stretchDecay a courant s) * a / (s + a) := by
      field_simp
      ring
    rw [e]
    field_simp
    ring

/-- what bounds the energy of a row -/
noncomputable def rowFactor (a κ courant : ℝ) : ℝ := (1 + 40 / a) / (courant * (1 / κ)) + 1

/-- two sequences of fields on a line of `N` cells that follow the stretched equations, driven by `f`: an energy that controls them -/
lemma line_driven {N : ℕ} (hN : 0 < N) {a courant κ : ℝ} (ha : 0 < a) (hc : 0 < courant) (hc1 : courant < 1) (ie im A σE σH : ℕ → ℝ)
    (hie : ∀ i < N, 1 / κ ≤ ie i ∧ ie i ≤ 1) (him : ∀ i < N, 1 / κ ≤ im i ∧ im i ≤ 1) (hκ : 0 < κ) (hA : ∀ i < N, 0 ≤ A i) (hE : ∀ i < N, 0 ≤ σE i ∧ σE i ≤ 40) (hH : ∀ i < N, 0 ≤ σH i ∧ σH i ≤ 40)
    (hAE : ∀ i < N, σE i ≠ 0 → A i = 0) (u v f : ℕ → ℕ → ℝ) (hu0 : u 0 0 = 0) (hv0 : v 0 (N - 1) = 0) (hf0 : ∀ k, f k 0 = 0)
    (hu : ∀ k, ∀ i < N, (1 + A i) * u (k + 1) i = (1 - A i) * u k i + courant * ie i * stretchedAt (stretchDecay a courant (σE i)) (stretchStrength a courant (σE i)) (fun j => lowD (v j) i) k + (1 + A i) * f k i)
    (hv : ∀ k, ∀ i < N, v (k + 1) i = v k i + courant * im i * stretchedAt (stretchDecay a courant (σH i)) (stretchStrength a courant (σH i)) (fun j => upF N (u (j + 1)) i) k) :
    ∃ W : ℕ → ℝ, (∀ k, (1 / courant - 1) * ∑ i ∈ range N, (u k i ^ 2 + v k i ^ 2) ≤ W k) ∧ W 0 ≤ rowFactor a κ courant * ∑ i ∈ range N, (u 0 i ^ 2 + v 0 i ^ 2) ∧
      ∀ k x, 0 < x → W (k + 1) ≤ (1 + x) * W k + (1 + 1 / x) * (rowFactor a κ courant * ∑ i ∈ range N, f k i ^ 2) := by
  let L : LinePars := ⟨fun i => courant * ie i, fun i => courant * im i, A, fun i => stretchDecay a courant (σE i), fun i => -stretchStrength a courant (σE i),
    fun i => stretchDecay a courant (σH i), fun i => -stretchStrength a courant (σH i)⟩
  let s : ℕ → LineState := fun k => ⟨u k, v k, fun i => ∑ j ∈ range k, stretchStrength a courant (σE i) * stretchDecay a courant (σE i) ^ (k - 1 - j) * lowD (v j) i,
    fun i => ∑ j ∈ range k, stretchStrength a courant (σH i) * stretchDecay a courant (σH i) ^ (k - 1 - j) * upF N (u (j + 1)) i⟩
  have hq : 0 < 1 / κ := by positivity
  have hL : L.Good N := by
    intro i hi
    refine ⟨mul_pos hc (hq.trans_le (hie i hi).1), mul_pos hc (hq.trans_le (him i hi).1), hA i hi, (layer_memory ha hc (hE i hi).1).1, (layer_memory ha hc (hH i hi).1).1, fun h => hAE i hi fun h' => h ?_⟩
    show -stretchStrength a courant (σE i) = 0
    rw [h', stretchStrength_zero, neg_zero]
  have hm : ∀ k, L.Driven N (f k) (s k) (s (k + 1)) := by
    intro k i hi
    have e1 := conv_step (stretchDecay a courant (σE i)) (stretchStrength a courant (σE i)) (fun j => lowD (v j) i) k
    have e2 := conv_step (stretchDecay a courant (σH i)) (stretchStrength a courant (σH i)) (fun j => upF N (u (j + 1)) i) k
    have e3 := hu k i hi
    have e4 := hv k i hi
    unfold stretchedAt at e3 e4
    refine ⟨?_, e3, ?_, e4⟩
    · show ∑ j ∈ range (k + 1), _ * _ ^ (k + 1 - 1 - j) * _ = _ * (∑ j ∈ range k, _) - -_ * _
      rw [Nat.add_sub_cancel, ← e1]
      ring
    · show ∑ j ∈ range (k + 1), _ * _ ^ (k + 1 - 1 - j) * _ = _ * (∑ j ∈ range k, _) - -_ * _
      rw [Nat.add_sub_cancel, ← e2]
      ring
  have h00 : ∀ i < N, (s 0).ψ i = 0 ∧ (s 0).χ i = 0 := by
    intro i _
    constructor <;> simp [s]
  have hpq : ∀ i < N, (courant * (1 / κ) ≤ L.p i ∧ courant * (1 / κ) ≤ L.m i) ∧ L.p i ≤ courant ∧ L.m i ≤ courant := fun i hi =>
    ⟨⟨mul_le_mul_of_nonneg_left (hie i hi).1 hc.le, mul_le_mul_of_nonneg_left (him i hi).1 hc.le⟩, mul_le_of_le_one_right hc.le (hie i hi).2, mul_le_of_le_one_right hc.le (him i hi).2⟩
  have hR : ∀ i < N, L.gE i / (1 - L.gE i - L.bE i) ≤ 40 / a ∧ L.gH i / (1 - L.gH i - L.bH i) ≤ 40 / a := by
    intro i hi
    constructor
    · show -stretchStrength a courant (σE i) / (1 - -stretchStrength a courant (σE i) - stretchDecay a courant (σE i)) ≤ _
      rw [(layer_memory ha hc (hE i hi).1).2]
      exact div_le_div_of_nonneg_right (hE i hi).2 ha.le
    · show -stretchStrength a courant (σH i) / (1 - -stretchStrength a courant (σH i) - stretchDecay a courant (σH i)) ≤ _
      rw [(layer_memory ha hc (hH i hi).1).2]
      exact div_le_div_of_nonneg_right (hH i hi).2 ha.le
  have step := fun k (hk : L.Settled N (s k)) => LinePars.energy_driven hN hL (mul_pos hc hq) (fun i hi => ⟨(hpq i hi).1, (hpq i hi).2.1.trans hc1.le, (hpq i hi).2.2.trans hc1.le⟩) (by positivity : 0 ≤ 40 / a) hR (hf0 k) hk (hm k)
  have hset : ∀ k, L.Settled N (s k) := by
    intro k
    induction k with
    | zero => exact ⟨fun i hi => ⟨fun _ => (h00 i hi).1, fun _ => (h00 i hi).2⟩, hu0, hv0, (h00 0 hN).1, (h00 (N - 1) (by omega)).2⟩
    | succ k ih => exact (step k ih).1
  exact ⟨fun k => L.energy N (s k), fun k => LinePars.energy_ge hL (fun i hi => (hpq i hi).2) (s k), LinePars.energy_le hL (mul_pos hc hq) (fun i hi => (hpq i hi).1) (by positivity) hR (s 0) h00, fun k => (step k (hset k)).2⟩

lemma sigma_range {x : ℝ} {t : ℕ} (h0 : 0 ≤ x) (h1 : x ≤ t) : 0 ≤ 40 * x ^ 3 / ((t : ℝ) + 1) ^ 4 ∧ 40 * x ^ 3 / ((t : ℝ) + 1) ^ 4 ≤ 40 := by
  refine ⟨by positivity, ?_⟩
  rw [div_le_iff₀ (by positivity)]
  have h2 : x ^ 3 ≤ ((t : ℝ) + 1) ^ 3 := pow_le_pow_left₀ h0 (by linarith) 3
  have h3 : ((t : ℝ) + 1) ^ 3 ≤ ((t : ℝ) + 1) ^ 4 := pow_le_pow_right₀ (by linarith [Nat.cast_nonneg (α := ℝ) t]) (by norm_num)
  linarith

lemma lineSigmaE_range (n : Pos) (t₁ t₂ : ℕ) (p : Pos) (hp : p 0 < n 0) : 0 ≤ lineSigmaE n t₁ t₂ p ∧ lineSigmaE n t₁ t₂ p ≤ 40 := by
  have hp' : (p 0 : ℝ) + 1 ≤ n 0 := by exact_mod_cast hp
  unfold lineSigmaE
  split_ifs with h h'
  · have : (p 0 : ℝ) + 1 ≤ t₁ := by exact_mod_cast h
    exact sigma_range (x := (t₁ : ℝ) - p 0 - 1 / 2) (by linarith) (by linarith [Nat.cast_nonneg (α := ℝ) (p 0)])
  · have : (n 0 : ℝ) + 1 ≤ p 0 + t₂ := by exact_mod_cast h'
    exact sigma_range (x := (p 0 : ℝ) - (n 0 - t₂) + 1 / 2) (by linarith) (by linarith)
  · norm_num

lemma lineSigmaH_range (n : Pos) (t₁ t₂ : ℕ) (p : Pos) (hp : p 0 < n 0) : 0 ≤ lineSigmaH n t₁ t₂ p ∧ lineSigmaH n t₁ t₂ p ≤ 40 := by
  have hp' : (p 0 : ℝ) + 1 ≤ n 0 := by exact_mod_cast hp
  unfold lineSigmaH
  by_cases h : p 0 < t₁
  · rw [if_pos h]
    unfold magneticSigma
    simp only
    by_cases h' : p 0 + 1 = t₁
    · rw [if_pos h']; norm_num
    · rw [if_neg h']
      have : (p 0 : ℝ) + 1 ≤ t₁ := by exact_mod_cast h
      exact sigma_range (x := (t₁ : ℝ) - p 0 - 1) (by linarith) (by linarith [Nat.cast_nonneg (α := ℝ) (p 0)])
  · rw [if_neg h]
    by_cases h1 : n 0 ≤ p 0 + t₂
    · rw [if_pos h1]
      unfold magneticSigma
      simp only
      by_cases h' : p 0 + 1 = n 0
      · rw [if_pos h']; norm_num
      · rw [if_neg h']
        have : (n 0 : ℝ) ≤ p 0 + t₂ := by exact_mod_cast h1
        exact sigma_range (x := (p 0 : ℝ) - (n 0 - t₂) + 1) (by linarith) (by linarith)
    · rw [if_neg h1]; norm_num

/-! ### Two runs -/

/-- Two grids of the same cells, materials, boundaries and time step, at the same step: they may differ in their fields, sources and detectors. -/
structure SameWorld (g g' : FGrid ℝ) : Prop where
  n : g'.n = g.n
  courant : g'.courant = g.courant
  invEps : g'.invEps = g.invEps
  invMu : g'.invMu = g.invMu
  absorb : g'.absorb = g.absorb
  time : g'.time = g.time
  boundaries : g'.boundaries = g.boundaries

/-- difference of two fields -/
def fieldDiff (F G : VField ℝ) : VField ℝ := fun p c => F p c - G p c

/-- how far the electric fields of two runs are apart after `k` steps -/
noncomputable def apartE (g g' : FGrid ℝ) (k : ℕ) : VField ℝ := fieldDiff (g.run k).E (g'.run k).E

/-- how far the magnetic fields are apart -/
noncomputable def apartH (g g' : FGrid ℝ) (k : ℕ) : VField ℝ := fieldDiff (g.run k).H (g'.run k).H

/-- how far apart is what the sources add in step `k` -/
noncomputable def apartS (g g' : FGrid ℝ) (k : ℕ) : VField ℝ := fieldDiff (addedBy g.sources (g.time + k)) (addedBy g'.sources (g.time + k))

lemma stretchedLower_diff (b c : ℝ) (U V : ℕ → VField ℝ) (p : Pos) (k : ℕ) (d f : Fin 3) :
    stretchedLower 0 b c (fun j => fieldDiff (U j) (V j)) p k d f = stretchedLower 0 b c U p k d f - stretchedLower 0 b c V p k d f := by
  have e : ∀ j, lowerDiff (fieldDiff (U j) (V j)) d f p = lowerDiff (U j) d f p - lowerDiff (V j) d f p := by
    intro j
    unfold lowerDiff fieldDiff
    split_ifs <;> ring
  unfold stretchedLower stretchedAt
  simp only [e]
  split_ifs
  · simp only [mul_sub, sum_sub_distrib]
    ring
  · rfl

lemma stretchedUpper_diff (n : Pos) (b c : ℝ) (U V : ℕ → VField ℝ) (p : Pos) (k : ℕ) (d f : Fin 3) :
    stretchedUpper n 0 b c (fun j => fieldDiff (U j) (V j)) p k d f = stretchedUpper n 0 b c U p k d f - stretchedUpper n 0 b c V p k d f := by
  have e : ∀ j, upperDiff n (fieldDiff (U j) (V j)) d f p = upperDiff n (U j) d f p - upperDiff n (V j) d f p := by
    intro j
    unfold upperDiff fieldDiff
    split_ifs <;> ring
  unfold stretchedUpper stretchedAt
  simp only [e]
  split_ifs
  · simp only [mul_sub, sum_sub_distrib]
    ring
  · rfl

/-- the difference of two runs: the electric field -/
lemma Framed.diffE {g g' : FGrid ℝ} {t₁ t₂ : ℕ} {a : ℝ} {across : List (Fin 3)} (hg : Framed g t₁ t₂ a across) (hg' : Framed g' t₁ t₂ a across) (hw : SameWorld g g')
    (p : Pos) (hp : p 0 < g.n 0) (hx : ∀ d ∈ across, p d ≠ 0) (c : Fin 3) (ha : 0 ≤ g.absorb p c) (hcalm : p 0 < t₁ ∨ g.n 0 ≤ p 0 + t₂ → g.absorb p c = 0) (k : ℕ) :
    (1 + g.absorb p c) * apartE g g' (k + 1) p c = (1 - g.absorb p c) * apartE g g' k p c + g.courant * g.invEps p c *
      (∑ d, ∑ f, axisSign c d f * stretchedLower 0 (stretchDecay a g.courant (lineSigmaE g.n t₁ t₂ p)) (stretchStrength a g.courant (lineSigmaE g.n t₁ t₂ p)) (apartH g g') p k d f) +
      (1 + g.absorb p c) * apartS g g' k p c := by
  have h1 := hg.cellE p hp hx c ha hcalm k
  have h2 := hg'.cellE p (by rw [hw.n]; exact hp) hx c (by rw [hw.absorb]; exact ha) (by rw [hw.absorb, hw.n]; exact hcalm) k
  unfold forcing at h1 h2
  rw [hw.n, hw.courant, hw.invEps, hw.absorb, hw.time] at h2
  have e : ∀ d f, stretchedLower 0 (stretchDecay a g.courant (lineSigmaE g.n t₁ t₂ p)) (stretchStrength a g.courant (lineSigmaE g.n t₁ t₂ p)) (apartH g g') p k d f = _ := fun d f => stretchedLower_diff _ _ (fun j => (g.run j).H) (fun j => (g'.run j).H) p k d f
  simp only [e, mul_sub, sum_sub_distrib]
  unfold apartE apartS fieldDiff
  linear_combination h1 - h2

lemma Layered.diffE {g g' : FGrid ℝ} {t₁ t₂ : ℕ} {a : ℝ} {across : List (Fin 3)} (hg : Layered g t₁ t₂ a across) (hg' : Layered g' t₁ t₂ a across) (hw : SameWorld g g') (ha : ∀ p c, 0 ≤ g.absorb p c)
    (p : Pos) (hp : p 0 < g.n 0) (hx : ∀ d ∈ across, p d ≠ 0) (c : Fin 3) (k : ℕ) :
    (1 + g.absorb p c) * apartE g g' (k + 1) p c = (1 - g.absorb p c) * apartE g g' k p c + g.courant * g.invEps p c *
      (∑ d, ∑ f, axisSign c d f * stretchedLower 0 (stretchDecay a g.courant (lineSigmaE g.n t₁ t₂ p)) (stretchStrength a g.courant (lineSigmaE g.n t₁ t₂ p)) (apartH g g') p k d f) +
      (1 + g.absorb p c) * apartS g g' k p c :=
  hg.toFramed.diffE hg'.toFramed hw p hp hx c (ha p c) (hg.calm p c) k

/-- the difference of two runs: the magnetic field -/
lemma Framed.diffH {g g' : FGrid ℝ} {t₁ t₂ : ℕ} {a : ℝ} {across : List (Fin 3)} (hg : Framed g t₁ t₂ a across) (hg' : Framed g' t₁ t₂ a across) (hw : SameWorld g g')
    (p : Pos) (hp : ∀ d, p d < g.n d) (hx : ∀ d ∈ across, p d + 1 ≠ g.n d) (c : Fin 3) (k : ℕ) :
    apartH g g' (k + 1) p c = apartH g g' k p c - g.courant * g.invMu p c *
      ∑ d, ∑ f, axisSign c d f * stretchedUpper g.n 0 (stretchDecay a g.courant (lineSigmaH g.n t₁ t₂ p)) (stretchStrength a g.courant (lineSigmaH g.n t₁ t₂ p)) (fun j => apartE g g' (j + 1)) p k d f := by
  have h1 := hg.cellH p hp hx c k
  have h2 := hg'.cellH p (by rw [hw.n]; exact hp) (by rw [hw.n]; exact hx) c k
  rw [hw.n, hw.courant, hw.invMu] at h2
  have e : ∀ d f, stretchedUpper g.n 0 (stretchDecay a g.courant (lineSigmaH g.n t₁ t₂ p)) (stretchStrength a g.courant (lineSigmaH g.n t₁ t₂ p)) (fun j => apartE g g' (j + 1)) p k d f = _ :=
    fun d f => stretchedUpper_diff _ _ _ (fun j => (g.run (j + 1)).E) (fun j => (g'.run (j + 1)).E) p k d f
  simp only [e, mul_sub, sum_sub_distrib]
  unfold apartH fieldDiff
  linear_combination h1 - h2

/-! ### One dimension -/

/-- cell `i` of a row of cells -/
def rowCell (i : ℕ) : Pos := ![i, 0, 0]

lemma oneDim_sum {g : FGrid ℝ} (h : OneDim g) (f : Pos → ℝ) : ∑ p ∈ box g.n, f p = ∑ i ∈ range (g.n 0), f (rowCell i) := by
  refine sum_bij' (fun p _ => p 0) (fun i _ => rowCell i) (fun p hp => mem_range.2 (mem_box.1 hp 0)) (fun i hi => ?_) (fun p hp => ?_) (fun i _ => rfl) (fun p hp => ?_)
  · refine mem_box.2 fun d => ?_
    fin_cases d
    · exact mem_range.1 hi
    · show 0 < g.n 1
      rw [h.1]; norm_num
    · show 0 < g.n 2
      rw [h.2]; norm_num
  · obtain ⟨h1, h2⟩ := h.pos hp
    funext d
    fin_cases d
    · rfl
    · exact h1.symm
    · exact h2.symm
  · obtain ⟨h1, h2⟩ := h.pos hp
    congr 1
    funext d
    fin_cases d
    · rfl
    · exact h1
    · exact h2

lemma rowCell_dn (i : ℕ) : Function.update (rowCell i) 0 (i - 1) = rowCell (i - 1) := by
  funext d
  fin_cases d <;> rfl

lemma rowCell_up (i : ℕ) : Function.update (rowCell i) 0 (i + 1) = rowCell (i + 1) := by
  funext d
  fin_cases d <;> rfl

lemma lowerDiff_row (F : VField ℝ) (f : Fin 3) (i : ℕ) : lowerDiff F 0 f (rowCell i) = lowD (fun i => F (rowCell i) f) i := by
  show (if i = 0 then 0 else F (rowCell i) f - F (Function.update (rowCell i) 0 (i - 1)) f) = _
  rw [rowCell_dn]
  rfl

lemma upperDiff_row (n : Pos) (F : VField ℝ) (f : Fin 3) (i : ℕ) : upperDiff n F 0 f (rowCell i) = upF (n 0) (fun i => F (rowCell i) f) i := by
  show (if n 0 ≤ i + 1 then 0 else F (Function.update (rowCell i) 0 (i + 1)) f - F (rowCell i) f) = _
  rw [rowCell_up]
  rfl

lemma lowerDiff_across (F : VField ℝ) (d f : Fin 3) (hd : d ≠ 0) (i : ℕ) : lowerDiff F d f (rowCell i) = 0 := by
  unfold lowerDiff
  fin_cases d
  · exact absurd rfl hd
  · rfl
  · rfl

lemma upperDiff_across {n : Pos} (h : n 1 = 1 ∧ n 2 = 1) (F : VField ℝ) (d f : Fin 3) (hd : d ≠ 0) (i : ℕ) : upperDiff n F d f (rowCell i) = 0 := by
  unfold upperDiff
  fin_cases d
  · exact absurd rfl hd
  · exact if_pos (by show n 1 ≤ 0 + 1; rw [h.1])
  · exact if_pos (by show n 2 ≤ 0 + 1; rw [h.2])

/-- along a row only the derivative along the row is left: component `c` of the curl is the derivative of component `f` times the sign -/
lemma curl_row (S : Fin 3 → Fin 3 → ℝ) (c f : Fin 3) (hcf : (c = 2 ∧ f = 1) ∨ (c = 1 ∧ f = 2)) (hS : ∀ d f, d ≠ 0 → S d f = 0) : ∑ d, ∑ f, axisSign c d f * S d f = axisSign c 0 f * S 0 f := by
  rw [axisSign_sum]
  rcases hcf with ⟨rfl, rfl⟩ | ⟨rfl, rfl⟩
  · show S 0 1 - S 1 0 = axisSign 2 0 1 * _
    rw [hS 1 0 (by decide)]
    simp [axisSign]
  · show S 2 0 - S 0 2 = axisSign 1 0 2 * _
    rw [hS 2 0 (by decide)]
    simp [axisSign]

lemma axisSign_pair (c f : Fin 3) (hcf : (c = 2 ∧ f = 1) ∨ (c = 1 ∧ f = 2)) : axisSign c 0 f ^ 2 = 1 ∧ axisSign f 0 c = -axisSign c 0 f := by
  rcases hcf with ⟨rfl, rfl⟩ | ⟨rfl, rfl⟩ <;> simp [axisSign]

lemma stretchedAt_smul (b c r : ℝ) (u : ℕ → ℝ) (k : ℕ) : stretchedAt b c (fun j => r * u j) k = r * stretchedAt b c u k := by
  unfold stretchedAt
  rw [mul_add, mul_sum]
  congr 1
  exact sum_congr rfl fun j _ => by ring

lemma stretchedAt_vanish (b c : ℝ) (u : ℕ → ℝ) (h : ∀ j, u j = 0) (k : ℕ) : stretchedAt b c u k = 0 := by
  unfold stretchedAt
  simp [h]

/-- Nothing denser than `κ` times vacuum, and nothing thinner than vacuum. -/
def Densities (g : FGrid ℝ) (κ : ℝ) : Prop := (∀ p c, 1 / κ ≤ g.invEps p c ∧ g.invEps p c ≤ 1) ∧ ∀ p c, 1 / κ ≤ g.invMu p c ∧ g.invMu p c ≤ 1

lemma OneDim.cell {g : FGrid ℝ} (h1 : OneDim g) {i : ℕ} (hi : i < g.n 0) (d : Fin 3) : rowCell i d < g.n d := by
  fin_cases d
  · exact hi
  · show 0 < g.n 1
    rw [h1.1]; norm_num
  · show 0 < g.n 2
    rw [h1.2]; norm_num

/-- the components across the row -/
lemma Layered.transverse {g g' : FGrid ℝ} {t₁ t₂ : ℕ} {a κ : ℝ} (hg : Layered g t₁ t₂ a []) (hg' : Layered g' t₁ t₂ a []) (hw : SameWorld g g') (h1 : OneDim g) (hN : 0 < g.n 0) (ha : 0 < a) (hc : 0 < g.courant) (hc1 : g.courant < 1)
    (hκ : 0 < κ) (hd : Densities g κ) (hA : ∀ p c, 0 ≤ g.absorb p c) (c f : Fin 3) (hcf : (c = 2 ∧ f = 1) ∨ (c = 1 ∧ f = 2)) (hE0 : apartE g g' 0 (rowCell 0) c = 0) (hH0 : apartH g g' 0 (rowCell (g.n 0 - 1)) f = 0)
    (hS0 : ∀ k, apartS g g' k (rowCell 0) c = 0) :
    ∃ W : ℕ → ℝ, (∀ k, (1 / g.courant - 1) * ∑ i ∈ range (g.n 0), (apartE g g' k (rowCell i) c ^ 2 + apartH g g' k (rowCell i) f ^ 2) ≤ W k) ∧
      W 0 ≤ rowFactor a κ g.courant * ∑ i ∈ range (g.n 0), (apartE g g' 0 (rowCell i) c ^ 2 + apartH g g' 0 (rowCell i) f ^ 2) ∧
      ∀ k x, 0 < x → W (k + 1) ≤ (1 + x) * W k + (1 + 1 / x) * (rowFactor a κ g.courant * ∑ i ∈ range (g.n 0), apartS g g' k (rowCell i) c ^ 2) := by
  obtain ⟨s1, s2⟩ := axisSign_pair c f hcf
  have hcf' : (f = 2 ∧ c = 1) ∨ (f = 1 ∧ c = 2) := by tauto
  obtain ⟨W, w1, w2, w3⟩ := line_driven hN ha hc hc1 (fun i => g.invEps (rowCell i) c) (fun i => g.invMu (rowCell i) f) (fun i => g.absorb (rowCell i) c) (fun i => lineSigmaE g.n t₁ t₂ (rowCell i)) (fun i => lineSigmaH g.n t₁ t₂ (rowCell i))
    (fun i _ => hd.1 _ _) (fun i _ => hd.2 _ _) hκ (fun i _ => hA _ _) (fun i hi => lineSigmaE_range _ _ _ _ hi) (fun i hi => lineSigmaH_range _ _ _ _ hi) (fun i hi h => hg.calm _ _ (by
      unfold lineSigmaE at h
      by_contra h'
      rw [not_or] at h'
      rw [if_neg h'.1, if_neg (by omega)] at h
      exact h rfl))
    (fun k i => apartE g g' k (rowCell i) c) (fun k i => axisSign c 0 f * apartH g g' k (rowCell i) f) (fun k i => apartS g g' k (rowCell i) c) hE0 (by show axisSign c 0 f * _ = 0; rw [hH0, mul_zero]) hS0
    (fun k i hi => by
      have h := hg.diffE hg' hw hA (rowCell i) hi (fun d hd => absurd hd List.not_mem_nil) c k
      rw [curl_row _ c f hcf] at h
      · rw [h]
        congr 3
        unfold stretchedLower
        rw [if_pos rfl, ← stretchedAt_smul]
        congr 1
        funext j
        rw [lowerDiff_row]
        unfold lowD
        split_ifs <;> ring
      · intro d f' hd'
        unfold stretchedLower
        rw [if_neg hd', lowerDiff_across _ _ _ hd'])
    (fun k i hi => by
      have h := hg.diffH hg'.toFramed hw (rowCell i) (h1.cell hi) (fun d hd => absurd hd List.not_mem_nil) f k
      rw [curl_row _ f c hcf', s2] at h
      · show axisSign c 0 f * apartH g g' (k + 1) (rowCell i) f = axisSign c 0 f * apartH g g' k (rowCell i) f + _
        rw [h]
        unfold stretchedUpper
        rw [if_pos rfl]
        simp only [upperDiff_row]
        linear_combination (g.courant * g.invMu (rowCell i) f * (stretchedAt (stretchDecay a g.courant (lineSigmaH g.n t₁ t₂ (rowCell i))) (stretchStrength a g.courant (lineSigmaH g.n t₁ t₂ (rowCell i)))
          (fun j => upF (g.n 0) (fun i => apartE g g' (j + 1) (rowCell i) c) i) k)) * s1
      · intro d f' hd'
        unfold stretchedUpper
        rw [if_neg hd', upperDiff_across h1 _ _ _ hd'])
  refine ⟨W, fun k => ?_, ?_, w3⟩
  · have := w1 k
    simp only [mul_pow, s1, one_mul] at this
    exact this
  · simp only [mul_pow, s1, one_mul] at w2
    exact w2

/-- the component along the row -/
lemma Layered.along {g g' : FGrid ℝ} {t₁ t₂ : ℕ} {a : ℝ} (hg : Layered g t₁ t₂ a []) (hg' : Layered g' t₁ t₂ a []) (hw : SameWorld g g') (h1 : OneDim g) (hA : ∀ p c, 0 ≤ g.absorb p c) (i : ℕ) (hi : i < g.n 0) (k : ℕ) :
    (∀ x, 0 < x → apartE g g' (k + 1) (rowCell i) 0 ^ 2 ≤ (1 + x) * apartE g g' k (rowCell i) 0 ^ 2 + (1 + 1 / x) * apartS g g' k (rowCell i) 0 ^ 2) ∧ apartH g g' (k + 1) (rowCell i) 0 = apartH g g' k (rowCell i) 0 := by
  constructor
  · intro x hx
    have h := hg.diffE hg' hw hA (rowCell i) hi (fun d hd => absurd hd List.not_mem_nil) 0 k
    rw [axisSign_sum] at h
    have z : ∀ d f, d ≠ 0 → stretchedLower 0 (stretchDecay a g.courant (lineSigmaE g.n t₁ t₂ (rowCell i))) (stretchStrength a g.courant (lineSigmaE g.n t₁ t₂ (rowCell i))) (apartH g g') (rowCell i) k d f = 0 := by
      intro d f hd
      unfold stretchedLower
      rw [if_neg hd, lowerDiff_across _ _ _ hd]
    rw [z (0 + 1) (0 + 2) (by decide), z (0 + 2) (0 + 1) (by decide)] at h
    have hA' := hA (rowCell i) 0
    generalize apartE g g' (k + 1) (rowCell i) 0 = u at h ⊢
    generalize apartE g g' k (rowCell i) 0 = y at h ⊢
    generalize apartS g g' k (rowCell i) 0 = r at h ⊢
    generalize g.absorb (rowCell i) 0 = A at h hA'
    have e : u = (1 - A) / (1 + A) * y + r := by
      field_simp
      linarith
    have e1 : ((1 - A) / (1 + A)) ^ 2 ≤ 1 := by
      rw [div_pow, div_le_one (by positivity)]
      nlinarith
    generalize (1 - A) / (1 + A) = q at e e1
    have e2 : (1 + x) * (q * y) ^ 2 + (1 + 1 / x) * r ^ 2 - (q * y + r) ^ 2 = 1 / x * (x * (q * y) - r) ^ 2 := by
      field_simp
      ring
    have e3 : 0 ≤ 1 / x * (x * (q * y) - r) ^ 2 := by positivity
    have e4 : (1 + x) * (q * y) ^ 2 ≤ (1 + x) * y ^ 2 := by
      refine mul_le_mul_of_nonneg_left ?_ (by positivity)
      rw [mul_pow]
      exact mul_le_of_le_one_left (sq_nonneg y) e1
    rw [e]
    linarith
  · rw [hg.diffH hg'.toFramed hw (rowCell i) (h1.cell hi) (fun d hd => absurd hd List.not_mem_nil) 0 k, axisSign_sum]
    have z : ∀ d f, d ≠ 0 → stretchedUpper g.n 0 (stretchDecay a g.courant (lineSigmaH g.n t₁ t₂ (rowCell i))) (stretchStrength a g.courant (lineSigmaH g.n t₁ t₂ (rowCell i)))
        (fun j => apartE g g' (j + 1)) (rowCell i) k d f = 0 := by
      intro d f hd
      unfold stretchedUpper
      rw [if_neg hd, upperDiff_across h1 _ _ _ hd]
    rw [z (0 + 1) (0 + 2) (by decide), z (0 + 2) (0 + 1) (by decide)]
    ring

/-! ### C139 -/

/-- sum of the squares of all field components in all cells -/
noncomputable def distanceSq (g g' : FGrid ℝ) (k : ℕ) : ℝ := fieldSq g.n (apartE g g' k) + fieldSq g.n (apartH g g' k)

/-- C139: on a row of cells with absorbing layers at its ends (Courant number below 1, relative permittivities and permeabilities between 1 and κ, any conductivity outside the layers), two simulations are never further apart
than a fixed factor times what they were at the start plus all that their sources added differently since. The factor does not depend on the number of steps. The tangential fields at the outermost planes agree (they are never
updated; true of fresh grids). -/
theorem C139_apart_partial (g g' : FGrid ℝ) (t₁ t₂ : ℕ) (a κ : ℝ) (hg : Layered g t₁ t₂ a []) (hg' : Layered g' t₁ t₂ a []) (hw : SameWorld g g') (h1 : OneDim g) (ha : 0 < a) (hc : 0 < g.courant) (hc1 : g.courant < 1) (hκ : 0 < κ)
    (hd : Densities g κ) (hA : ∀ p c, 0 ≤ g.absorb p c) (hE : ∀ p ∈ box g.n, p 0 = 0 → ∀ c, c ≠ 0 → g.E p c = g'.E p c ∧ ∀ t, addedBy g.sources t p c = addedBy g'.sources t p c)
    (hH : ∀ p ∈ box g.n, p 0 + 1 = g.n 0 → ∀ c, c ≠ 0 → g.H p c = g'.H p c) (k : ℕ) :
    √((1 - g.courant) * distanceSq g g' k) ≤ √(g.courant + κ * (1 + 40 / a)) * (√(distanceSq g g' 0) + ∑ j ∈ range k, √(fieldSq g.n (apartS g g' j))) := by
  have hform : ∀ k, distanceSq g g' k = ∑ i ∈ range (g.n 0), (apartE g g' k (rowCell i) 2 ^ 2 + apartH g g' k (rowCell i) 1 ^ 2) + ∑ i ∈ range (g.n 0), (apartE g g' k (rowCell i) 1 ^ 2 + apartH g g' k (rowCell i) 2 ^ 2) +
      ∑ i ∈ range (g.n 0), (apartE g g' k (rowCell i) 0 ^ 2 + apartH g g' k (rowCell i) 0 ^ 2) := by
    intro k
    unfold distanceSq fieldSq
    simp only [oneDim_sum h1, Fin.sum_univ_three, sum_add_distrib]
    ring
  have hformS : ∀ k, fieldSq g.n (apartS g g' k) = ∑ i ∈ range (g.n 0), apartS g g' k (rowCell i) 2 ^ 2 + ∑ i ∈ range (g.n 0), apartS g g' k (rowCell i) 1 ^ 2 + ∑ i ∈ range (g.n 0), apartS g g' k (rowCell i) 0 ^ 2 := by
    intro k
    unfold fieldSq
    simp only [oneDim_sum h1, Fin.sum_univ_three, sum_add_distrib]
    ring
  rcases Nat.eq_zero_or_pos (g.n 0) with h0 | hN
  · rw [hform k, h0]
    simp only [range_zero, sum_empty, add_zero, mul_zero, Real.sqrt_zero]
    exact mul_nonneg (Real.sqrt_nonneg _) (add_nonneg (Real.sqrt_nonneg _) (sum_nonneg fun _ _ => Real.sqrt_nonneg _))
  have hE' := fun c hc => hE (rowCell 0) (mem_box.2 fun d => h1.cell hN d) rfl c hc
  have hH' := fun c hc => hH (rowCell (g.n 0 - 1)) (mem_box.2 fun d => h1.cell (by omega) d) (by show g.n 0 - 1 + 1 = g.n 0; omega) c hc
  obtain ⟨W₁, u1, u2, u3⟩ := hg.transverse hg' hw h1 hN ha hc hc1 hκ hd hA 2 1 (.inl ⟨rfl, rfl⟩) (sub_eq_zero.2 (hE' 2 (by decide)).1) (sub_eq_zero.2 (hH' 1 (by decide))) fun k => sub_eq_zero.2 ((hE' 2 (by decide)).2 _)
  obtain ⟨W₂, v1, v2, v3⟩ := hg.transverse hg' hw h1 hN ha hc hc1 hκ hd hA 1 2 (.inr ⟨rfl, rfl⟩) (sub_eq_zero.2 (hE' 1 (by decide)).1) (sub_eq_zero.2 (hH' 2 (by decide))) fun k => sub_eq_zero.2 ((hE' 1 (by decide)).2 _)
  set K := rowFactor a κ g.courant with hK
  have hκ1 : 1 ≤ κ := by
    have := (hd.1 (rowCell 0) 0).1.trans (hd.1 (rowCell 0) 0).2
    rwa [div_le_one hκ] at this
  have hKc : g.courant * K = g.courant + κ * (1 + 40 / a) := by
    rw [hK]
    unfold rowFactor
    field_simp
    ring
  have hc' : g.courant * (1 / g.courant - 1) = 1 - g.courant := by field_simp
  have hf : 1 / g.courant - 1 ≤ K := by
    have h3 : 0 < 40 / a := by positivity
    have h2 : κ ≤ κ * (1 + 40 / a) := le_mul_of_one_le_right hκ.le (by linarith)
    refine le_of_mul_le_mul_left ?_ hc
    rw [hc', hKc]
    linarith
  have hK0 : 0 ≤ K := by
    have : 0 ≤ 1 / g.courant - 1 := by
      rw [sub_nonneg, le_div_iff₀ hc]
      linarith
    linarith
  let X : ℕ → ℝ := fun k => ∑ i ∈ range (g.n 0), (apartE g g' k (rowCell i) 0 ^ 2 + apartH g g' k (rowCell i) 0 ^ 2)
  have hX : ∀ k, 0 ≤ X k := fun k => sum_nonneg fun _ _ => by positivity
  have hXs : ∀ k x, 0 < x → X (k + 1) ≤ (1 + x) * X k + (1 + 1 / x) * ∑ i ∈ range (g.n 0), apartS g g' k (rowCell i) 0 ^ 2 := by
    intro k x hx
    show ∑ i ∈ range (g.n 0), _ ≤ (1 + x) * ∑ i ∈ range (g.n 0), _ + _
    rw [mul_sum, mul_sum, ← sum_add_distrib]
    refine sum_le_sum fun i hi => ?_
    obtain ⟨a1, a2⟩ := hg.along hg' hw h1 hA i (mem_range.1 hi) k
    have a1 := a1 x hx
    rw [a2]
    have : 0 ≤ x * apartH g g' k (rowCell i) 0 ^ 2 := by positivity
    linarith
  let W : ℕ → ℝ := fun k => W₁ k + W₂ k + K * X k
  have w1 : ∀ k, (1 / g.courant - 1) * distanceSq g g' k ≤ W k := by
    intro k
    rw [hform k]
    have h3 := mul_le_mul_of_nonneg_right hf (hX k)
    have h4 := u1 k
    have h5 := v1 k
    show _ ≤ W₁ k + W₂ k + K * X k
    show _ * (_ + _ + X k) ≤ _
    linarith
  have hdist : ∀ k, 0 ≤ distanceSq g g' k := fun k => add_nonneg (fieldSq_nonneg _ _) (fieldSq_nonneg _ _)
  have hW0 : ∀ k, 0 ≤ W k := by
    intro k
    refine le_trans (mul_nonneg ?_ (hdist k)) (w1 k)
    rw [sub_nonneg, le_div_iff₀ hc]
    linarith
  have w2 : W 0 ≤ K * distanceSq g g' 0 := by
    rw [hform 0]
    show W₁ 0 + W₂ 0 + K * X 0 ≤ _ * (_ + _ + X 0)
    linarith
  have w3 : ∀ k x, 0 < x → W (k + 1) ≤ (1 + x) * W k + (1 + 1 / x) * (K * fieldSq g.n (apartS g g' k)) := by
    intro k x hx
    rw [hformS k]
    have a1 := u3 k x hx
    have a2 := v3 k x hx
    have a3 := mul_le_mul_of_nonneg_left (hXs k x hx) hK0
    show W₁ (k + 1) + W₂ (k + 1) + K * X (k + 1) ≤ (1 + x) * (W₁ k + W₂ k + K * X k) + _
    linarith
  have main := root_growth hW0 (fun k => mul_nonneg hK0 (fieldSq_nonneg g.n (apartS g g' k))) w3 k
  have r1 : √((1 / g.courant - 1) * distanceSq g g' k) ≤ √(W k) := Real.sqrt_le_sqrt (w1 k)
  have r2 : √(W 0) ≤ √K * √(distanceSq g g' 0) := by
    rw [← Real.sqrt_mul hK0]
    exact Real.sqrt_le_sqrt w2
  have r3 : ∑ j ∈ range k, √(K * fieldSq g.n (apartS g g' j)) = √K * ∑ j ∈ range k, √(fieldSq g.n (apartS g g' j)) := by
    rw [mul_sum]
    exact sum_congr rfl fun j _ => Real.sqrt_mul hK0 _
  have r4 : √((1 - g.courant) * distanceSq g g' k) = √g.courant * √((1 / g.courant - 1) * distanceSq g g' k) := by
    rw [← Real.sqrt_mul hc.le, ← mul_assoc, hc']
  have r5 : √(g.courant + κ * (1 + 40 / a)) = √g.courant * √K := by
    rw [← Real.sqrt_mul hc.le, hKc]
  rw [r4, r5, mul_assoc]
  refine mul_le_mul_of_nonneg_left ?_ (Real.sqrt_nonneg _)
  rw [mul_add, ← r3]
  linarith

/-! ### What one run can reach -/

/-- Two square-summed fields add up no further than their lengths. -/
lemma fieldSq_add (n : Pos) (F G : VField ℝ) : √(fieldSq n fun p c => F p c + G p c) ≤ √(fieldSq n F) + √(fieldSq n G) := by
  refine root_step (fieldSq_nonneg n F) (fieldSq_nonneg n G) fun x hx => ?_
  unfold fieldSq
  simp only [mul_sum]
  rw [← sum_add_distrib]
  refine sum_le_sum fun p _ => ?_
  rw [← sum_add_distrib]
  refine sum_le_sum fun c _ => ?_
  have e : (1 + x) * F p c ^ 2 + (1 + 1 / x) * G p c ^ 2 - (F p c + G p c) ^ 2 = 1 / x * (x * F p c - G p c) ^ 2 := by
    field_simp
    ring
  have e' : 0 ≤ 1 / x * (x * F p c - G p c) ^ 2 := by positivity
  linarith

/-- a field of at most `δ` per component -/
lemma fieldSq_small {g : FGrid ℝ} (h1 : OneDim g) (F : VField ℝ) {δ : ℝ} (hδ : 0 ≤ δ) (h : ∀ p ∈ box g.n, ∀ c, |F p c| ≤ δ) : √(fieldSq g.n F) ≤ √(3 * g.n 0) * δ := by
  have e : fieldSq g.n F ≤ 3 * g.n 0 * δ ^ 2 := by
    unfold fieldSq
    have h2 : ∑ p ∈ box g.n, ∑ c, F p c ^ 2 ≤ ∑ p ∈ box g.n, 3 * δ ^ 2 := by
      refine sum_le_sum fun p hp => ?_
      rw [Fin.sum_univ_three]
      have := fun c => sq_le_sq' (abs_le.1 (h p hp c)).1 (abs_le.1 (h p hp c)).2
      linarith [this 0, this 1, this 2]
    rw [oneDim_sum h1 (fun _ => 3 * δ ^ 2), sum_const, card_range, nsmul_eq_mul] at h2
    linarith
  calc √(fieldSq g.n F) ≤ √(3 * g.n 0 * δ ^ 2) := Real.sqrt_le_sqrt e
    _ = _ := by rw [Real.sqrt_mul (by positivity), Real.sqrt_sq hδ]

/-- The same row of cells, dark, with a source outside the layers that adds there what the steps add in the layers: the field stays uniform. -/
noncomputable def evenly (g : FGrid ℝ) (t₁ t₂ : ℕ) : FGrid ℝ :=
  { g with
    E := fun _ _ => 0
    H := fun _ _ => 0
    sources := [.soft fun t p c => if p 0 < t₁ ∨ g.n 0 ≤ p 0 + t₂ then 0 else g.courant * (1 / 10 ^ 16) * (1 + 2 * g.absorb p c / (1 + g.absorb p c) * (t - g.time : ℕ))] }

lemma evenly_layered {g : FGrid ℝ} {t₁ t₂ : ℕ} {a : ℝ} (hg : Layered g t₁ t₂ a []) : Layered (evenly g t₁ t₂) t₁ t₂ a [] where
  layers := hg.layers
  room := hg.room
  soft := fun _ hs => ⟨_, List.mem_singleton.1 hs, fun _ _ _ h => if_pos h⟩
  calm := hg.calm

lemma evenly_world (g : FGrid ℝ) (t₁ t₂ : ℕ) : SameWorld g (evenly g t₁ t₂) := ⟨rfl, rfl, rfl, rfl, rfl, rfl, rfl⟩

lemma stretchedAt_none (b c : ℝ) (u : ℕ → ℝ) (k : ℕ) (h : ∀ j ≤ k, u j = 0) : stretchedAt b c u k = 0 := by
  unfold stretchedAt
  rw [h k le_rfl, zero_add]
  exact sum_eq_zero fun j hj => by rw [h j (Nat.lt_succ_iff.1 (mem_range.1 hj)), mul_zero]

/-- the field of `evenly` grows by courant·10⁻¹⁶ per step, everywhere -/
lemma evenly_run {g : FGrid ℝ} {t₁ t₂ : ℕ} {a : ℝ} (hg : Layered g t₁ t₂ a []) (h1 : OneDim g) (hA : ∀ p c, 0 ≤ g.absorb p c) (hv : ∀ p c, p 0 < t₁ ∨ g.n 0 ≤ p 0 + t₂ → g.invEps p c = 1) (k : ℕ) :
    ∀ j ≤ k, ∀ i < g.n 0, ∀ c, ((evenly g t₁ t₂).run j).E (rowCell i) c = j * (g.courant * (1 / 10 ^ 16)) ∧ ((evenly g t₁ t₂).run j).H (rowCell i) c = 0 := by
  have he := evenly_layered hg
  induction k with
  | zero =>
    intro j hj i _ c
    obtain rfl : j = 0 := by omega
    exact ⟨by rw [Nat.cast_zero, zero_mul]; rfl, rfl⟩
  | succ k ih =>
    have hE : ∀ i < g.n 0, ∀ c, ((evenly g t₁ t₂).run (k + 1)).E (rowCell i) c = (k + 1 : ℕ) * (g.courant * (1 / 10 ^ 16)) := by
      intro i hi c
      have h := he.cellE hA (rowCell i) hi (fun d hd => absurd hd List.not_mem_nil) c k
      have z : ∀ d f, stretchedLower 0 (stretchDecay a (evenly g t₁ t₂).courant (lineSigmaE (evenly g t₁ t₂).n t₁ t₂ (rowCell i))) (stretchStrength a (evenly g t₁ t₂).courant (lineSigmaE (evenly g t₁ t₂).n t₁ t₂ (rowCell i)))
          (fun j => ((evenly g t₁ t₂).run j).H) (rowCell i) k d f = 0 := by
        intro d f
        unfold stretchedLower
        split_ifs with hd
        · subst hd
          refine stretchedAt_none _ _ _ _ fun j hj => ?_
          rw [lowerDiff_row]
          unfold lowD
          split_ifs
          · rfl
          · show ((evenly g t₁ t₂).run j).H (rowCell i) f - ((evenly g t₁ t₂).run j).H (rowCell (i - 1)) f = 0
            rw [(ih j hj i hi f).2, (ih j hj (i - 1) (by omega) f).2, sub_zero]
        · exact lowerDiff_across _ _ _ hd _
      simp only [z, mul_zero, sum_const_zero, add_zero] at h
      rw [(ih k le_rfl i hi c).1] at h
      have hA' : 1 + g.absorb (rowCell i) c ≠ 0 := by
        have := hA (rowCell i) c
        positivity
      have e : (evenly g t₁ t₂).absorb (rowCell i) c = g.absorb (rowCell i) c := rfl
      rw [e] at h
      have hf : forcing (evenly g t₁ t₂) t₁ t₂ k (rowCell i) c = g.courant * (1 / 10 ^ 16) * (1 + g.absorb (rowCell i) c + 2 * g.absorb (rowCell i) c * k) := by
        unfold forcing
        rw [e]
        show (if rowCell i 0 < t₁ ∨ g.n 0 ≤ rowCell i 0 + t₂ then g.courant * g.invEps (rowCell i) c * (1 / 10 ^ 16) else 0) +
          (1 + g.absorb (rowCell i) c) * ((if rowCell i 0 < t₁ ∨ g.n 0 ≤ rowCell i 0 + t₂ then 0 else
            g.courant * (1 / 10 ^ 16) * (1 + 2 * g.absorb (rowCell i) c / (1 + g.absorb (rowCell i) c) * (g.time + k - g.time : ℕ))) + 0) = _
        split_ifs with hl
        · rw [hv _ _ hl, hg.calm _ _ hl]
          ring
        · rw [Nat.add_sub_cancel_left]
          field_simp
          ring
      rw [hf] at h
      refine mul_left_cancel₀ hA' ?_
      rw [h]
      push_cast
      ring
    intro j hj i hi c
    rcases Nat.lt_or_ge j (k + 1) with hj' | hj'
    · exact ih j (by omega) i hi c
    obtain rfl : j = k + 1 := by omega
    refine ⟨hE i hi c, ?_⟩
    rw [he.cellH (rowCell i) (h1.cell hi) (fun d hd => absurd hd List.not_mem_nil) c k, (ih k le_rfl i hi c).2]
    have z : ∀ d f, stretchedUpper (evenly g t₁ t₂).n 0 (stretchDecay a (evenly g t₁ t₂).courant (lineSigmaH (evenly g t₁ t₂).n t₁ t₂ (rowCell i)))
        (stretchStrength a (evenly g t₁ t₂).courant (lineSigmaH (evenly g t₁ t₂).n t₁ t₂ (rowCell i))) (fun j => ((evenly g t₁ t₂).run (j + 1)).E) (rowCell i) k d f = 0 := by
      intro d f
      unfold stretchedUpper
      split_ifs with hd
      · subst hd
        refine stretchedAt_none _ _ _ _ fun j hj => ?_
        rw [upperDiff_row]
        unfold upF
        split_ifs with hu
        · rfl
        · have hu' : ¬ g.n 0 ≤ i + 1 := hu
          have hq : ∀ i < g.n 0, ((evenly g t₁ t₂).run (j + 1)).E (rowCell i) f = (j + 1 : ℕ) * (g.courant * (1 / 10 ^ 16)) := by
            intro i hi
            rcases Nat.lt_or_ge j k with hjk | hjk
            · exact (ih (j + 1) hjk i hi f).1
            · obtain rfl : j = k := by omega
              exact hE i hi f
          show ((evenly g t₁ t₂).run (j + 1)).E (rowCell (i + 1)) f - ((evenly g t₁ t₂).run (j + 1)).E (rowCell i) f = 0
          rw [hq _ (by omega), hq _ hi, sub_self]
      · exact upperDiff_across h1 _ _ _ hd _
    simp only [z, mul_zero, sum_const_zero, sub_zero]

/-- C139: the fields of one simulation on a row of cells between two absorbing layers of vacuum stay below a fixed factor times the initial fields and all that the sources added, up to the 10⁻¹⁶ that every step adds in the layers:
these contribute at most (1 + √(1−c))·√(3n)·c·10⁻¹⁶·(k + A·k²) in k steps, A being the greatest loss coefficient (0 without conductors). -/
theorem C139_bounded_partial (g : FGrid ℝ) (t₁ t₂ : ℕ) (a κ A : ℝ) (hg : Layered g t₁ t₂ a []) (h1 : OneDim g) (h0 : 0 < t₁) (ha : 0 < a) (hc : 0 < g.courant) (hc1 : g.courant < 1) (hκ : 0 < κ)
    (hd : Densities g κ) (hA : ∀ p c, 0 ≤ g.absorb p c ∧ g.absorb p c ≤ A) (hv : ∀ p c, p 0 < t₁ ∨ g.n 0 ≤ p 0 + t₂ → g.invEps p c = 1) (hE : ∀ p ∈ box g.n, p 0 = 0 → ∀ c, c ≠ 0 → g.E p c = 0)
    (hH : ∀ p ∈ box g.n, p 0 + 1 = g.n 0 → ∀ c, c ≠ 0 → g.H p c = 0) (k : ℕ) :
    √((1 - g.courant) * (fieldSq g.n (g.run k).E + fieldSq g.n (g.run k).H)) ≤
      √(g.courant + κ * (1 + 40 / a)) * (√(fieldSq g.n g.E + fieldSq g.n g.H) + ∑ j ∈ range k, √(fieldSq g.n (addedBy g.sources (g.time + j)))) +
      (√(g.courant + κ * (1 + 40 / a)) + √(1 - g.courant)) * (√(3 * g.n 0) * (g.courant * (1 / 10 ^ 16) * (k + A * k ^ 2))) := by
  set δ := g.courant * (1 / 10 ^ 16) with hδ
  have hδ0 : 0 ≤ δ := by positivity
  have hA0 : 0 ≤ A := (hA (rowCell 0) 0).1.trans (hA (rowCell 0) 0).2
  have hA' := fun p c => (hA p c).1
  have he := evenly_layered hg
  have hnone : ∀ t p c, p 0 = 0 → addedBy (evenly g t₁ t₂).sources t p c = 0 := fun t p c hp => he.added (.inl (by rw [hp]; exact h0)) t c
  have hmain := C139_apart_partial g (evenly g t₁ t₂) t₁ t₂ a κ hg he (evenly_world g t₁ t₂) h1 ha hc hc1 hκ hd hA'
    (fun p hp h c hc => ⟨hE p hp h c hc, fun t => (hg.added (.inl (by rw [h]; exact h0)) t c).trans (hnone t p c h).symm⟩) (fun p hp h c hc => hH p hp h c hc) k
  have hbox : ∀ p ∈ box g.n, p = rowCell (p 0) := by
    intro p hp
    have h2 := mem_box.1 hp 1
    have h3 := mem_box.1 hp 2
    rw [h1.1] at h2
    rw [h1.2] at h3
    funext d
    fin_cases d
    · rfl
    · show p 1 = 0
      omega
    · show p 2 = 0
      omega
  have hrun := fun p (hp : p ∈ box g.n) c => by
    have := evenly_run hg h1 hA' hv k k le_rfl (p 0) (mem_box.1 hp 0) c
    rw [← hbox p hp] at this
    exact this
  -- distance at the start
  have d0 : distanceSq g (evenly g t₁ t₂) 0 = fieldSq g.n g.E + fieldSq g.n g.H := by
    have e1 : apartE g (evenly g t₁ t₂) 0 = g.E := by funext p c; exact sub_zero _
    have e2 : apartH g (evenly g t₁ t₂) 0 = g.H := by funext p c; exact sub_zero _
    unfold distanceSq
    rw [e1, e2]
  -- what the sources add
  have dS : ∀ j, √(fieldSq g.n (apartS g (evenly g t₁ t₂) j)) ≤ √(fieldSq g.n (addedBy g.sources (g.time + j))) + √(3 * g.n 0) * (δ * (1 + 2 * A * j)) := by
    intro j
    have e : apartS g (evenly g t₁ t₂) j = fun p c => addedBy g.sources (g.time + j) p c + -addedBy (evenly g t₁ t₂).sources (g.time + j) p c := by
      funext p c
      exact sub_eq_add_neg _ _
    rw [e]
    refine (fieldSq_add g.n _ _).trans (add_le_add_right (fieldSq_small h1 _ (by positivity) fun p _ c => ?_) _)
    rw [abs_neg]
    show |(if p 0 < t₁ ∨ g.n 0 ≤ p 0 + t₂ then 0 else δ * (1 + 2 * g.absorb p c / (1 + g.absorb p c) * (g.time + j - g.time : ℕ))) + 0| ≤ _
    rw [add_zero, Nat.add_sub_cancel_left]
    obtain ⟨b0, b1⟩ := hA p c
    split_ifs
    · rw [abs_zero]
      positivity
    · rw [abs_of_nonneg (by positivity)]
      refine mul_le_mul_of_nonneg_left ?_ hδ0
      have : 2 * g.absorb p c / (1 + g.absorb p c) ≤ 2 * A := by
        rw [div_le_iff₀ (by positivity)]
        nlinarith
      have := mul_le_mul_of_nonneg_right this (Nat.cast_nonneg (α := ℝ) j)
      linarith
  have hsum : ∑ j ∈ range k, √(fieldSq g.n (apartS g (evenly g t₁ t₂) j)) ≤ ∑ j ∈ range k, √(fieldSq g.n (addedBy g.sources (g.time + j))) + √(3 * g.n 0) * (δ * (k + A * k ^ 2)) := by
    refine (sum_le_sum fun j _ => dS j).trans ?_
    rw [sum_add_distrib]
    refine add_le_add_right ?_ _
    rw [← mul_sum, ← mul_sum]
    refine mul_le_mul_of_nonneg_left (mul_le_mul_of_nonneg_left ?_ hδ0) (Real.sqrt_nonneg _)
    have : ∀ k : ℕ, ∑ j ∈ range k, (1 + 2 * A * (j : ℝ)) ≤ k + A * k ^ 2 := by
      intro k
      induction k with
      | zero => simp
      | succ k ih =>
        rw [sum_range_succ]
        push_cast
        nlinarith
    exact this k
  -- the even field
  have hlast : √(fieldSq g.n (g.run k).E + fieldSq g.n (g.run k).H) ≤ √(distanceSq g (evenly g t₁ t₂) k) + √(3 * g.n 0) * (δ * k) := by
    have hS : fieldSq g.n (fun _ _ => k * δ) ≤ (√(3 * g.n 0) * (δ * k)) ^ 2 := by
      rw [← Real.sqrt_le_sqrt_iff (by positivity), Real.sqrt_sq (by positivity)]
      exact fieldSq_small h1 _ (by positivity) fun p _ c => le_of_eq (by rw [abs_of_nonneg (by positivity), mul_comm])
    have e : √(fieldSq g.n (g.run k).E + fieldSq g.n (g.run k).H) ≤ √(distanceSq g (evenly g t₁ t₂) k) + √(fieldSq g.n (fun _ _ => k * δ)) := by
      refine root_step (add_nonneg (fieldSq_nonneg _ _) (fieldSq_nonneg _ _)) (fieldSq_nonneg _ _) fun x hx => ?_
      unfold distanceSq fieldSq
      rw [← sum_add_distrib, ← sum_add_distrib, mul_sum, mul_sum, ← sum_add_distrib]
      refine sum_le_sum fun p hp => ?_
      rw [← sum_add_distrib, ← sum_add_distrib, mul_sum, mul_sum, ← sum_add_distrib]
      refine sum_le_sum fun c _ => ?_
      obtain ⟨r1, r2⟩ := hrun p hp c
      have q1 : apartE g (evenly g t₁ t₂) k p c = (g.run k).E p c - k * δ := by
        show _ - _ = _
        rw [r1]
      have q2 : apartH g (evenly g t₁ t₂) k p c = (g.run k).H p c := by
        show _ - _ = _
        rw [r2, sub_zero]
      rw [q1, q2]
      generalize (g.run k).E p c = u
      generalize (g.run k).H p c = v
      generalize (k : ℝ) * δ = w
      have e1 : (1 + x) * (u - w) ^ 2 + (1 + 1 / x) * w ^ 2 - u ^ 2 = 1 / x * (x * (u - w) - w) ^ 2 := by
        field_simp
        ring
      have e2 : 0 ≤ 1 / x * (x * (u - w) - w) ^ 2 := by positivity
      have e3 : 0 ≤ x * v ^ 2 := by positivity
      linarith
    refine e.trans (add_le_add_right ?_ _)
    calc √(fieldSq g.n (fun _ _ => k * δ)) ≤ √((√(3 * g.n 0) * (δ * k)) ^ 2) := Real.sqrt_le_sqrt hS
      _ = _ := Real.sqrt_sq (by positivity)
  have hc0 : 0 ≤ 1 - g.courant := by linarith
  rw [d0] at hmain
  rw [Real.sqrt_mul hc0] at hmain ⊢
  have f1 := mul_le_mul_of_nonneg_left hlast (Real.sqrt_nonneg (1 - g.courant))
  have f2 := mul_le_mul_of_nonneg_left hsum (Real.sqrt_nonneg (g.courant + κ * (1 + 40 / a)))
  have f3 : √(1 - g.courant) * (√(3 * g.n 0) * (δ * k)) ≤ √(1 - g.courant) * (√(3 * g.n 0) * (δ * (k + A * k ^ 2))) := by
    refine mul_le_mul_of_nonneg_left (mul_le_mul_of_nonneg_left (mul_le_mul_of_nonneg_left ?_ hδ0) (Real.sqrt_nonneg _)) (Real.sqrt_nonneg _)
    have : 0 ≤ A * (k : ℝ) ^ 2 := by positivity
    linarith
  linarith

/-! ### The hypotheses are met, and the last term is needed -/

/-- seven cells: a layer of two, a conducting and a dense cell, a source, a layer of one -/
noncomputable def layeredRow : FGrid ℝ :=
  { FGrid.fresh ![7, 1, 1] (1 / 2) 1 1 with
    invEps := fun p _ => if p 0 = 4 then 1 / 3 else 1
    absorb := fun p _ => if p 0 = 3 then 2 else 0
    boundaries := [.pml (mkPml 0 false 2 1 (1 / 2)), .pml (mkPml 0 true 1 1 (1 / 2))]
    sources := [.soft fun t p c => if p 0 = 5 ∧ c = 2 then t else 0] }

lemma layeredRow_layered : Layered layeredRow 2 1 1 [] where
  layers := rfl
  room := by decide
  soft := by
    intro s hs
    refine ⟨_, List.mem_singleton.1 hs, fun t p c h => if_neg ?_⟩
    have h : p 0 < 2 ∨ 7 ≤ p 0 + 1 := h
    omega
  calm := by
    intro p c h
    have h : p 0 < 2 ∨ 7 ≤ p 0 + 1 := h
    exact if_neg (by omega)

lemma layeredRow_densities : Densities layeredRow 3 := by
  refine ⟨fun p c => ?_, fun p c => ?_⟩
  · show 1 / 3 ≤ (if p 0 = 4 then (1 / 3 : ℝ) else 1) ∧ (if p 0 = 4 then (1 / 3 : ℝ) else 1) ≤ 1
    split_ifs <;> norm_num
  · show 1 / 3 ≤ (1 / 1 : ℝ) ∧ (1 / 1 : ℝ) ≤ 1
    norm_num

lemma layeredRow_absorb (p : Pos) (c : Fin 3) : 0 ≤ layeredRow.absorb p c ∧ layeredRow.absorb p c ≤ 2 := by
  show 0 ≤ (if p 0 = 3 then (2 : ℝ) else 0) ∧ (if p 0 = 3 then (2 : ℝ) else 0) ≤ 2
  split_ifs <;> norm_num

/-- the fields after k steps of a run whose source adds t in step t -/
example (k : ℕ) : √((1 - 1 / 2) * (fieldSq layeredRow.n (layeredRow.run k).E + fieldSq layeredRow.n (layeredRow.run k).H)) ≤
    √(1 / 2 + 3 * (1 + 40 / 1)) * (√(fieldSq layeredRow.n layeredRow.E + fieldSq layeredRow.n layeredRow.H) + ∑ j ∈ range k, √(fieldSq layeredRow.n (addedBy layeredRow.sources (layeredRow.time + j)))) +
      (√(1 / 2 + 3 * (1 + 40 / 1)) + √(1 - 1 / 2)) * (√(3 * layeredRow.n 0) * (1 / 2 * (1 / 10 ^ 16) * (k + 2 * k ^ 2))) :=
  C139_bounded_partial layeredRow 2 1 1 3 2 layeredRow_layered ⟨rfl, rfl⟩ (by norm_num) one_pos (by show (0 : ℝ) < 1 / 2; norm_num) (by show (1 / 2 : ℝ) < 1; norm_num) (by norm_num) layeredRow_densities layeredRow_absorb
    (fun p c h => by
      have h : p 0 < 2 ∨ 7 ≤ p 0 + 1 := h
      exact if_neg (by omega))
    (fun _ _ _ _ _ => rfl) (fun _ _ _ _ _ => rfl) k

/-- C139 fails without the last term: a dark row with an absorbing layer and no sources ends up beyond every bound, because every step adds 10⁻¹⁶ to every component in the layer. -/
theorem C139_false : ∃ g : FGrid ℝ, Layered g 2 1 1 [] ∧ OneDim g ∧ 0 < g.courant ∧ g.courant < 1 ∧ Densities g 3 ∧ (∀ p c, 0 ≤ g.absorb p c) ∧ g.sources = [] ∧ (∀ p c, g.E p c = 0 ∧ g.H p c = 0) ∧
    ∀ B, ∃ k, B < fieldSq g.n (g.run k).E := by
  have hL : Layered { layeredRow with sources := [] } 2 1 1 [] := ⟨⟨rfl, layeredRow_layered.room, fun s hs => absurd hs List.not_mem_nil⟩, layeredRow_layered.calm⟩
  refine ⟨{ layeredRow with sources := [] }, hL, ⟨rfl, rfl⟩, ?_, ?_, layeredRow_densities, fun p c => (layeredRow_absorb p c).1, rfl, fun _ _ => ⟨rfl, rfl⟩, fun B => ?_⟩
  · show (0 : ℝ) < 1 / 2
    norm_num
  · show (1 / 2 : ℝ) < 1
    norm_num
  set g : FGrid ℝ := { layeredRow with sources := [] } with hgdef
  have hrun : ∀ k : ℕ, (g.run k).E (rowCell 0) 0 = k * (1 / 2 * (1 / 10 ^ 16)) := by
    intro k
    induction k with
    | zero => simp only [Nat.cast_zero, zero_mul]; rfl
    | succ k ih =>
      have h := hL.cellE (fun p c => (layeredRow_absorb p c).1) (rowCell 0) (by decide) (fun d hd => absurd hd List.not_mem_nil) 0 k
      have z : ∀ d f, d ≠ 0 → stretchedLower 0 (stretchDecay 1 g.courant (lineSigmaE g.n 2 1 (rowCell 0))) (stretchStrength 1 g.courant (lineSigmaE g.n 2 1 (rowCell 0))) (fun j => (g.run j).H) (rowCell 0) k d f = 0 := by
        intro d f hd
        unfold stretchedLower
        rw [if_neg hd, lowerDiff_across _ _ _ hd]
      rw [axisSign_sum, z (0 + 1) (0 + 2) (by decide), z (0 + 2) (0 + 1) (by decide), ih] at h
      have ea : g.absorb (rowCell 0) 0 = 0 := layeredRow_layered.calm (rowCell 0) 0 (.inl (by decide))
      have ef : forcing g 2 1 k (rowCell 0) 0 = 1 / 2 * (1 / 10 ^ 16) := by
        unfold forcing
        rw [if_pos (.inl (by decide)), ea]
        show (1 / 2 : ℝ) * (if (0 : ℕ) = 4 then 1 / 3 else 1) * (1 / 10 ^ 16) + (1 + 0) * 0 = _
        norm_num
      rw [ea, ef] at h
      push_cast
      linarith
  obtain ⟨k, hk⟩ := exists_nat_gt ((|B| + 1) / (1 / 2 * (1 / 10 ^ 16)))
  refine ⟨k, ?_⟩
  rw [div_lt_iff₀ (by positivity), ← hrun k] at hk
  have hB : B < (g.run k).E (rowCell 0) 0 ^ 2 := by nlinarith [le_abs_self B, abs_nonneg B]
  have hbox : rowCell 0 ∈ box g.n := mem_box.2 fun d => by fin_cases d <;> decide
  refine hB.trans_le ?_
  unfold fieldSq
  refine le_trans ?_ (single_le_sum (f := fun p => ∑ c, (g.run k).E p c ^ 2) (fun p _ => sum_nonneg fun c _ => sq_nonneg _) hbox)
  exact single_le_sum (f := fun c => (g.run k).E (rowCell 0) c ^ 2) (fun c _ => sq_nonneg _) (mem_univ 0)

end Nidn
