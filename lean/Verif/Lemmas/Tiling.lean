/-
Structures whose retained orders split into groups that do not couple: the Fourier coefficients of repeated patterns, and the slabs of the
small problem inside those of the large one.
-/
import Verif.Lemmas.Embed
import Verif.Lemmas.Pixels
import Mathlib.Logic.Equiv.Fin.Basic

set_option linter.unusedSectionVars false

namespace Nidn

open Matrix

variable {Nx Ny Nx' Ny' n n' : ℕ}

/-- a pattern repeated `p` times along x and `q` times along y -/
def tilePattern (p q : ℕ) (s : Fin Nx → Fin Ny → ℂ) : Fin (p * Nx) → Fin (q * Ny) → ℂ := fun m k => s m.modNat k.modNat

/-- the sum over one axis -/
lemma chi_tile_sum {p N : ℕ} (hp : 0 < p) (hN : 0 < N) (d : ℤ) (f : Fin N → ℂ) :
    ∑ M : Fin (p * N), f M.modNat * chi (p * N) d M = if (p : ℤ) ∣ d then p * ∑ m, f m * chi N (d / p) m else 0 := by
  have hp' : (p : ℂ) ≠ 0 := by exact_mod_cast hp.ne'
  have hN' : (N : ℂ) ≠ 0 := by exact_mod_cast hN.ne'
  have hsplit : ∑ M : Fin (p * N), f M.modNat * chi (p * N) d M =
      (∑ k : Fin p, Complex.exp (-(2 * Real.pi * Complex.I) * ((k : ℕ) * d / p))) *
        ∑ m : Fin N, f m * Complex.exp (-(2 * Real.pi * Complex.I) * ((m : ℕ) * d / (p * N))) := by
    rw [← finProdFinEquiv.sum_comp, Fintype.sum_prod_type, Finset.sum_mul_sum]
    refine Finset.sum_congr rfl fun k _ => Finset.sum_congr rfl fun m _ => ?_
    have h1 : (finProdFinEquiv (k, m)).modNat = m := by
      have := congrArg Prod.snd (finProdFinEquiv.symm_apply_apply (k, m))
      exact this
    rw [h1, chi, mul_left_comm, ← Complex.exp_add]
    congr 2
    have h2 : ((finProdFinEquiv (k, m) : Fin (p * N)) : ℕ) = m + N * k := rfl
    rw [h2]
    push_cast
    field_simp
    ring
  rw [hsplit]
  split
  · rename_i h
    obtain ⟨t, rfl⟩ := h
    have hz : (p : ℤ) ≠ 0 := by exact_mod_cast hp.ne'
    rw [Int.mul_ediv_cancel_left _ hz]
    congr 1
    · rw [Finset.sum_congr rfl (g := fun _ => (1 : ℂ))]
      · simp
      · intro k _
        rw [Complex.exp_eq_one_iff]
        refine ⟨-(k * t), ?_⟩
        push_cast
        field_simp
    · refine Finset.sum_congr rfl fun m _ => ?_
      rw [chi]
      congr 3
      push_cast
      field_simp
  · rename_i h
    have h0 : ∑ k : Fin p, Complex.exp (-(2 * Real.pi * Complex.I) * ((k : ℕ) * d / p)) = 0 := by
      set x := Complex.exp (-(2 * Real.pi * Complex.I) * (d / p)) with hx
      have e : ∀ k : Fin p, Complex.exp (-(2 * Real.pi * Complex.I) * ((k : ℕ) * d / p)) = x ^ (k : ℕ) := by
        intro k; rw [hx, ← Complex.exp_nat_mul]; congr 1; ring
      rw [Finset.sum_congr rfl fun k _ => e k, Fin.sum_univ_eq_sum_range (fun k => x ^ k)]
      have hx1 : x ≠ 1 := by
        intro h1
        rw [hx, Complex.exp_eq_one_iff] at h1
        obtain ⟨t, ht⟩ := h1
        have h2 : (2 * Real.pi * Complex.I : ℂ) ≠ 0 := by simp [Real.pi_ne_zero]
        have h3 : (-(d : ℂ) / p) = t := by
          apply mul_right_cancel₀ h2; rw [← ht]; ring
        rw [div_eq_iff hp'] at h3
        have h4 : -d = t * p := by exact_mod_cast h3
        exact h ⟨-t, by linarith⟩
      rw [geom_sum_eq hx1]
      have : x ^ p = 1 := by
        rw [hx, ← Complex.exp_nat_mul, Complex.exp_eq_one_iff]
        exact ⟨-d, by push_cast; field_simp⟩
      rw [this]; simp
    rw [h0, zero_mul]

/-- the Fourier coefficients of a repeated pattern: only the multiples are there -/
lemma coeff_tile {p q : ℕ} (hp : 0 < p) (hq : 0 < q) (hx : 0 < Nx) (hy : 0 < Ny) (s : Fin Nx → Fin Ny → ℂ) (d : ℤ × ℤ) :
    fourierCoeff (tilePattern p q s) d = if (p : ℤ) ∣ d.1 ∧ (q : ℤ) ∣ d.2 then fourierCoeff s (d.1 / p, d.2 / q) else 0 := by
  have hp' : (p : ℂ) ≠ 0 := by exact_mod_cast hp.ne'
  have hq' : (q : ℂ) ≠ 0 := by exact_mod_cast hq.ne'
  have hx' : (Nx : ℂ) ≠ 0 := by exact_mod_cast hx.ne'
  have hy' : (Ny : ℂ) ≠ 0 := by exact_mod_cast hy.ne'
  have h1 : ∑ m, ∑ k, tilePattern p q s m k * (chi (p * Nx) d.1 m * chi (q * Ny) d.2 k) =
      if (p : ℤ) ∣ d.1 ∧ (q : ℤ) ∣ d.2 then p * q * ∑ m, ∑ k, s m k * (chi Nx (d.1 / p) m * chi Ny (d.2 / q) k) else 0 := by
    have e1 : ∀ m : Fin (p * Nx), ∑ k, tilePattern p q s m k * (chi (p * Nx) d.1 m * chi (q * Ny) d.2 k) =
        (if (q : ℤ) ∣ d.2 then q * ∑ k, s m.modNat k * chi Ny (d.2 / q) k else 0) * chi (p * Nx) d.1 m := by
      intro m
      rw [← chi_tile_sum hq hy d.2 (fun k => s m.modNat k), Finset.sum_mul]
      exact Finset.sum_congr rfl fun k _ => by rw [tilePattern]; ring
    rw [Finset.sum_congr rfl fun m _ => e1 m,
      chi_tile_sum hp hx d.1 (fun m => if (q : ℤ) ∣ d.2 then q * ∑ k, s m k * chi Ny (d.2 / q) k else 0)]
    by_cases hd : (p : ℤ) ∣ d.1
    · by_cases hd2 : (q : ℤ) ∣ d.2
      · rw [if_pos hd, if_pos ⟨hd, hd2⟩, mul_assoc]
        congr 1
        rw [Finset.mul_sum]
        refine Finset.sum_congr rfl fun m _ => ?_
        rw [if_pos hd2, mul_assoc, Finset.sum_mul]
        congr 1
        exact Finset.sum_congr rfl fun k _ => by ring
      · rw [if_pos hd, if_neg (fun h => hd2 h.2)]
        simp [hd2]
    · rw [if_neg hd, if_neg (fun h => hd h.1)]
  rw [coeff_chi, h1]
  split
  · rw [coeff_chi]
    push_cast
    field_simp
  · rw [mul_zero]

/-- The slab `t` of the large problem is the slab `s` of the small one: same film, or patterns whose coefficients agree on the orders of the
small problem and vanish between these and the others. -/
inductive SlabIn (e : Fin n → Fin n') (G : Fin n → ℤ × ℤ) (G' : Fin n' → ℤ × ℤ) : Slab Nx Ny → Slab Nx' Ny' → Prop
  | uniform (ε : ℂ) (d : ℝ) : SlabIn e G G' (.uniform ε d) (.uniform ε d)
  | patterned (s : Fin Nx → Fin Ny → ℂ) (s' : Fin Nx' → Fin Ny' → ℂ) (d : ℝ)
      (block : ∀ i j, fourierCoeff s' (G' (e i) - G' (e j)) = fourierCoeff s (G i - G j))
      (right : ∀ i, (∀ k, i ≠ e k) → ∀ j, fourierCoeff s' (G' i - G' (e j)) = 0)
      (left : ∀ i, (∀ k, i ≠ e k) → ∀ j, fourierCoeff s' (G' (e j) - G' i) = 0) (hr : Resolved Nx' Ny' G' → Resolved Nx Ny G) :
      SlabIn e G G' (.patterned s d) (.patterned s' d)

section

variable {e : Fin n → Fin n'} {G : Fin n → ℤ × ℤ} {G' : Fin n' → ℤ × ℤ} {kx ky : Fin n → ℂ} {kx' ky' : Fin n' → ℂ}

lemma slabIn_mats (he : Function.Injective e) {s : Fin Nx → Fin Ny → ℂ} {s' : Fin Nx' → Fin Ny' → ℂ}
    (block : ∀ i j, fourierCoeff s' (G' (e i) - G' (e j)) = fourierCoeff s (G i - G j))
    (right : ∀ i, (∀ k, i ≠ e k) → ∀ j, fourierCoeff s' (G' i - G' (e j)) = 0)
    (left : ∀ i, (∀ k, i ≠ e k) → ∀ j, fourierCoeff s' (G' (e j) - G' i) = 0)
    {epinv' : Matrix (Fin n') (Fin n') ℂ} {ep2' : Matrix (Fin n' ⊕ Fin n') (Fin n' ⊕ Fin n') ℂ}
    (h' : epsilonFft (1 / Nx' / Ny') (.iso s') G' = .ok (epinv', ep2')) :
    IsUnit (Matrix.of fun i j => fourierCoeff s (G i - G j)).det ∧
      ∀ epinv ep2, epsilonFft (1 / Nx / Ny) (.iso s) G = .ok (epinv, ep2) →
        Inter e e epinv epinv' ∧ Inter (Sum.map e e) (Sum.map e e) ep2 ep2' := by
  have z0 : zeroSmall 0 = 0 := by simp [zeroSmall]
  obtain ⟨C', hC', hu, rfl, rfl⟩ := epsilonFft_form h'
  have hI : Inter e e (Matrix.of fun i j => fourierCoeff s (G i - G j)) C' := by
    refine Inter.of_entries he he (fun i j => ?_) (fun i hi j => ?_) (fun j hj i => ?_)
    · rw [hC', block]; rfl
    · rw [hC', right i hi]
    · rw [hC', left j hj]
  refine ⟨hI.isUnit he hu, fun epinv ep2 h => ?_⟩
  obtain ⟨C, hC, -, rfl, rfl⟩ := epsilonFft_form h
  obtain rfl : C = Matrix.of fun i j => fourierCoeff s (G i - G j) := by
    ext i j
    rw [hC]; rfl
  refine ⟨hI.inv he hu, Inter.blocks ?_⟩
  refine Inter.of_entries he he (fun i j => ?_) (fun i hi j => ?_) (fun j hj i => ?_)
  · rw [Matrix.map_apply, hC', block]; rfl
  · rw [Matrix.map_apply, hC', right i hi, z0]
  · rw [Matrix.map_apply, hC', left j hj, z0]

lemma uniform_embed (he : Function.Injective e) (hx : ∀ i, kx' (e i) = kx i) (hy : ∀ i, ky' (e i) = ky i) (ω ε : ℂ) (d : ℝ) :
    Embed (extMat (Sum.map e e)) (extMat (Sum.map e e)) (uniformLayer ω kx ky ε d) (uniformLayer ω kx' ky' ε d) where
  phi := by simp [uniformLayer]
  kp := by
    rw [show (uniformLayer ω kx ky ε d).kp = kpPatterned ω ((1 / ε) • 1) kx ky from kpUniform_eq _ _ _ _,
      show (uniformLayer ω kx' ky' ε d).kp = kpPatterned ω ((1 / ε) • 1) kx' ky' from kpUniform_eq _ _ _ _]
    exact (Inter.kp he hx hy ω (Inter.one.smul _)).r
  q := by
    intro m k h
    rw [extMat_apply] at h
    split at h
    · rename_i e1
      subst e1
      rcases k with k | k <;> simp [uniformLayer, qUniform, hx, hy]
    · simp at h
  d := rfl

lemma built_embed (he : Function.Injective e) (hx : ∀ i, kx' (e i) = kx i) (hy : ∀ i, ky' (e i) = ky i) {ω : ℂ} {s : Slab Nx Ny}
    {s' : Slab Nx' Ny'} (hs : SlabIn e G G' s s') {L : LayerData (Fin n ⊕ Fin n)} {L' : LayerData (Fin n' ⊕ Fin n')}
    (hL : Built ω kx ky G s L) (hL' : Built ω kx' ky' G' s' L') : ∃ X, Embed (extMat (Sum.map e e)) X L L' := by
  cases hs with
  | uniform ε d =>
    cases hL with
    | uniform _ _ _ =>
      cases hL' with
      | uniform _ _ _ => exact ⟨_, uniform_embed he hx hy ω ε d⟩
  | patterned s s' d block right left hr =>
    cases hL with
    | patterned _ _ epinv ep2 h1 lam phi hE hphi =>
      cases hL' with
      | patterned _ _ epinv' ep2' h2 lam' phi' hE' hphi' =>
        obtain ⟨e1, e2⟩ := (slabIn_mats he block right left h2).2 _ _ h1
        have hk := Inter.kp he hx hy ω e1
        exact ⟨_, embed_of_inter (Inter.eigen he hx hy e2 hk) (L := patternedLayer ω kx ky epinv lam phi d)
          (L' := patternedLayer ω kx' ky' epinv' lam' phi' d) hE hE' (fun _ => rfl) (fun _ => rfl) hphi' hk rfl⟩

/-- the small problem has eigenvectors when the large one has -/
lemma built_restrict (he : Function.Injective e) (hx : ∀ i, kx' (e i) = kx i) (hy : ∀ i, ky' (e i) = ky i) {ω : ℂ} {s : Slab Nx Ny}
    {s' : Slab Nx' Ny'} (hs : SlabIn e G G' s s') {L' : LayerData (Fin n' ⊕ Fin n')} (hL' : Built ω kx' ky' G' s' L') :
    ∃ L, Built ω kx ky G s L := by
  cases hs with
  | uniform ε d =>
    cases hL' with
    | uniform _ _ hε => exact ⟨_, .uniform ε d hε⟩
  | patterned s s' d block right left hr =>
    cases hL' with
    | patterned _ _ epinv' ep2' h2 lam' phi' hE' hphi' =>
      obtain ⟨hu, hI⟩ := slabIn_mats (Nx := Nx) (Ny := Ny) (s := s) he block right left h2
      have hres : Resolved Nx' Ny' G' := by
        by_contra hn
        simp only [epsilonFft] at h2
        rw [(C15_entries s' G').2 hn] at h2
        simp [error_bind] at h2
      obtain ⟨⟨epinv, ep2⟩, h1⟩ := epsilonFft_ok (hr hres) hu
      obtain ⟨e1, e2⟩ := hI _ _ h1
      have hi : Function.Injective (Sum.map e e) := Function.Injective.sumMap he he
      obtain ⟨lam, phi, hE, hphi⟩ := eigenvectors_restrict hi (Inter.eigen he hx hy e2 (Inter.kp he hx hy ω e1)) hE' hphi'
      exact ⟨_, .patterned s d epinv ep2 h1 lam phi hE hphi⟩

lemma built_phi {ω : ℂ} {s : Slab Nx Ny} {L : LayerData (Fin n ⊕ Fin n)} (h : Built ω kx ky G s L) : IsUnit L.phi.det := by
  cases h with
  | uniform ε d _ => simp [uniformLayer]
  | patterned _ _ _ _ _ _ _ _ hphi => exact hphi

lemma embedStack_mk {ι ι' : Type} [Fintype ι] [DecidableEq ι] [Fintype ι'] [DecidableEq ι'] {E X Z : Matrix ι' ι ℂ} {L0 LN : LayerData ι}
    {L0' LN' : LayerData ι'} {m : List (LayerData ι)} {m' : List (LayerData ι')} (h0 : Embed E X L0 L0')
    (hm : List.Forall₂ (fun L L' => ∃ X, Embed E X L L') m m') (hN : Embed E Z LN LN') : EmbedStack E X Z (L0 :: m ++ [LN]) (L0' :: m' ++ [LN']) := by
  induction hm generalizing X L0 L0' with
  | nil => exact .cons h0 (.one hN)
  | cons h _ ih =>
    obtain ⟨Y, hY⟩ := h
    exact .cons h0 (ih hY)

/-- the whole stack of the small problem inside that of the large one -/
lemma stack_in (he : Function.Injective e) (hx : ∀ i, kx' (e i) = kx i) (hy : ∀ i, ky' (e i) = ky i) (ω : ℂ) {slabs : List (Slab Nx Ny)}
    {slabs' : List (Slab Nx' Ny')} (hs : List.Forall₂ (SlabIn e G G') slabs slabs') {m : List (LayerData (Fin n ⊕ Fin n))}
    {m' : List (LayerData (Fin n' ⊕ Fin n'))} (hm : List.Forall₂ (Built ω kx ky G) slabs m) (hm' : List.Forall₂ (Built ω kx' ky' G') slabs' m')
    (ε0 εN : ℂ) (d0 dN : ℝ) : EmbedStack (extMat (Sum.map e e)) (extMat (Sum.map e e)) (extMat (Sum.map e e))
      (uniformLayer ω kx ky ε0 d0 :: m ++ [uniformLayer ω kx ky εN dN]) (uniformLayer ω kx' ky' ε0 d0 :: m' ++ [uniformLayer ω kx' ky' εN dN]) ∧
      ∀ M ∈ uniformLayer ω kx ky ε0 d0 :: m ++ [uniformLayer ω kx ky εN dN], IsUnit M.phi.det := by
  constructor
  · have hg : List.Forall₂ (fun L L' => ∃ X, Embed (extMat (Sum.map e e)) X L L') m m' := by
      induction hs generalizing m m' with
      | nil => cases hm; cases hm'; exact .nil
      | cons k _ ih =>
        cases hm with
        | cons k1 hm =>
          cases hm' with
          | cons k2 hm' => exact .cons (built_embed he hx hy k k1 k2) (ih hm hm')
    exact embedStack_mk (uniform_embed he hx hy ω ε0 d0) hg (uniform_embed he hx hy ω εN dN)
  · intro M hM
    have h1 : ∀ ε d, IsUnit (uniformLayer ω kx ky ε d).phi.det := fun ε d => by simp [uniformLayer]
    rcases List.mem_append.1 hM with hM | hM
    · rcases List.mem_cons.1 hM with rfl | hM
      · exact h1 _ _
      · obtain ⟨i, hi, rfl⟩ := List.getElem_of_mem hM
        have := List.Forall₂.get hm (by rw [hm.length_eq]; exact hi) hi
        exact built_phi this
    · obtain rfl := List.mem_singleton.1 hM
      exact h1 _ _

/-- the main lemma: the large problem gives the answer of the small one -/
lemma in_rt (he : Function.Injective e) (hx : ∀ i, kx' (e i) = kx i) (hy : ∀ i, ky' (e i) = ky i) (ω : ℂ) {slabs : List (Slab Nx Ny)}
    {slabs' : List (Slab Nx' Ny')} (hs : List.Forall₂ (SlabIn e G G') slabs slabs') {m' : List (LayerData (Fin n' ⊕ Fin n'))}
    (hm' : List.Forall₂ (Built ω kx' ky' G') slabs' m') (ε0 εN : ℂ) (d0 dN : ℝ)
    (hr : ∀ M ∈ uniformLayer ω kx' ky' ε0 d0 :: m' ++ [uniformLayer ω kx' ky' εN dN], M.Regular) (norm : ℝ) (θ φ : ℝ) (s p : ℂ) (o : Fin n)
    (r : ℝ × ℝ) (h : rtForward ω norm (uniformLayer ω kx' ky' ε0 d0 :: m' ++ [uniformLayer ω kx' ky' εN dN]) (planewave θ φ s p (e o)) 0 = .ok r) :
    (∃ m, List.Forall₂ (Built ω kx ky G) slabs m) ∧ ∀ m, List.Forall₂ (Built ω kx ky G) slabs m →
      rtForward ω norm (uniformLayer ω kx ky ε0 d0 :: m ++ [uniformLayer ω kx ky εN dN]) (planewave θ φ s p o) 0 = .ok r := by
  constructor
  · clear hr h
    induction hs generalizing m' with
    | nil => exact ⟨[], .nil⟩
    | cons k _ ih =>
      cases hm' with
      | cons k' hm' =>
        obtain ⟨m, hm⟩ := ih hm'
        obtain ⟨L, hL⟩ := built_restrict he hx hy k k'
        exact ⟨L :: m, .cons hL hm⟩
  · intro m hm
    have hi : Function.Injective (Sum.map e e) := Function.Injective.sumMap he he
    have hst := stack_in he hx hy ω hs hm hm' ε0 εN d0 dN
    refine embed_rt (extMat_isometry hi) hst.1 hst.2 hr ω norm ?_
    rw [Matrix.mulVec_zero]
    convert h using 2
    rw [extMat_sum, planewave, planewave, Matrix.fromBlocks_mulVec]
    have key : ∀ z : ℂ, (extMat e *ᵥ fun i => if i = o then z else 0) = fun i => if i = e o then z else 0 := by
      intro z
      ext i
      simp [Matrix.mulVec, dotProduct, extMat_apply]
    ext (i | i)
    · simp only [Sum.elim_inl, Sum.elim_comp_inl, Sum.elim_comp_inr, Matrix.zero_mulVec, add_zero]
      rw [key]
    · simp only [Sum.elim_inr, Sum.elim_comp_inl, Sum.elim_comp_inr, Matrix.zero_mulVec, zero_add]
      rw [key]

lemma uniform_restrict (he : Function.Injective e) (hx : ∀ i, kx' (e i) = kx i) (hy : ∀ i, ky' (e i) = ky i) (ω ε : ℂ) (d : ℝ) :
    Embed (extMat (Sum.map e e)).transpose (extMat (Sum.map e e)).transpose (uniformLayer ω kx' ky' ε d) (uniformLayer ω kx ky ε d) where
  phi := by simp [uniformLayer]
  kp := by
    rw [show (uniformLayer ω kx ky ε d).kp = kpPatterned ω ((1 / ε) • 1) kx ky from kpUniform_eq _ _ _ _,
      show (uniformLayer ω kx' ky' ε d).kp = kpPatterned ω ((1 / ε) • 1) kx' ky' from kpUniform_eq _ _ _ _]
    exact (Inter.kp he hx hy ω (Inter.one.smul _)).l.symm
  q := fun m k h => ((uniform_embed he hx hy ω ε d).q k m h).symm
  d := rfl

lemma built_seen (he : Function.Injective e) (hx : ∀ i, kx' (e i) = kx i) (hy : ∀ i, ky' (e i) = ky i) {ω : ℂ} {s : Slab Nx Ny}
    {s' : Slab Nx' Ny'} (hs : SlabIn e G G' s s') {L : LayerData (Fin n ⊕ Fin n)} {L' : LayerData (Fin n' ⊕ Fin n')}
    (hL : Built ω kx ky G s L) (hL' : Built ω kx' ky' G' s' L') : ∃ Y, Embed (extMat (Sum.map e e)).transpose Y L' L := by
  cases hs with
  | uniform ε d =>
    cases hL with
    | uniform _ _ _ =>
      cases hL' with
      | uniform _ _ _ => exact ⟨_, uniform_restrict he hx hy ω ε d⟩
  | patterned s s' d block right left hr =>
    cases hL with
    | patterned _ _ epinv ep2 h1 lam phi hE hphi =>
      cases hL' with
      | patterned _ _ epinv' ep2' h2 lam' phi' hE' hphi' =>
        obtain ⟨e1, e2⟩ := (slabIn_mats he block right left h2).2 _ _ h1
        have hk := Inter.kp he hx hy ω e1
        exact ⟨_, restrict_of_inter (Inter.eigen he hx hy e2 hk) (L := patternedLayer ω kx ky epinv lam phi d)
          (L' := patternedLayer ω kx' ky' epinv' lam' phi' d) hE hE' (fun _ => rfl) (fun _ => rfl) hphi hk rfl⟩

/-- the whole stack of the large problem, seen in the orders of the small one -/
lemma stack_seen (he : Function.Injective e) (hx : ∀ i, kx' (e i) = kx i) (hy : ∀ i, ky' (e i) = ky i) (ω : ℂ) {slabs : List (Slab Nx Ny)}
    {slabs' : List (Slab Nx' Ny')} (hs : List.Forall₂ (SlabIn e G G') slabs slabs') {m : List (LayerData (Fin n ⊕ Fin n))}
    {m' : List (LayerData (Fin n' ⊕ Fin n'))} (hm : List.Forall₂ (Built ω kx ky G) slabs m) (hm' : List.Forall₂ (Built ω kx' ky' G') slabs' m')
    (ε0 εN : ℂ) (d0 dN : ℝ) : ∃ Y W, EmbedStack (extMat (Sum.map e e)).transpose Y W
      (uniformLayer ω kx' ky' ε0 d0 :: m' ++ [uniformLayer ω kx' ky' εN dN]) (uniformLayer ω kx ky ε0 d0 :: m ++ [uniformLayer ω kx ky εN dN]) := by
  have hg : List.Forall₂ (fun L' L => ∃ Y, Embed (extMat (Sum.map e e)).transpose Y L' L) m' m := by
    induction hs generalizing m m' with
    | nil => cases hm; cases hm'; exact .nil
    | cons k _ ih =>
      cases hm with
      | cons k1 hm =>
        cases hm' with
        | cons k2 hm' => exact .cons (built_seen he hx hy k k1 k2) (ih hm hm')
  exact ⟨_, _, embedStack_mk (uniform_restrict he hx hy ω ε0 d0) hg (uniform_restrict he hx hy ω εN dN)⟩

/-- the layers of the small problem are regular when those of the large one are -/
lemma in_regular (he : Function.Injective e) (hx : ∀ i, kx' (e i) = kx i) (hy : ∀ i, ky' (e i) = ky i) (ω : ℂ) {slabs : List (Slab Nx Ny)}
    {slabs' : List (Slab Nx' Ny')} (hs : List.Forall₂ (SlabIn e G G') slabs slabs') {m : List (LayerData (Fin n ⊕ Fin n))}
    {m' : List (LayerData (Fin n' ⊕ Fin n'))} (hm : List.Forall₂ (Built ω kx ky G) slabs m) (hm' : List.Forall₂ (Built ω kx' ky' G') slabs' m')
    (ε0 εN : ℂ) (d0 dN : ℝ) (hr : ∀ M ∈ uniformLayer ω kx' ky' ε0 d0 :: m' ++ [uniformLayer ω kx' ky' εN dN], M.Regular) :
    ∀ M ∈ uniformLayer ω kx ky ε0 d0 :: m ++ [uniformLayer ω kx ky εN dN], M.Regular := by
  have hst := stack_in he hx hy ω hs hm hm' ε0 εN d0 dN
  exact hst.1.regular (extMat_isometry (Function.Injective.sumMap he he)) hst.2 hr

end

/-- two groups of orders: both problems can be solved when the large one can, and the other way round -/
lemma groups_rt {n₂ : ℕ} {e : Fin n → Fin n'} {f : Fin n₂ → Fin n'} (g : OrderGroups e f) {G : Fin n → ℤ × ℤ} {G₂ : Fin n₂ → ℤ × ℤ}
    {G' : Fin n' → ℤ × ℤ} {kx ky : Fin n → ℂ} {kx₂ ky₂ : Fin n₂ → ℂ} {kx' ky' : Fin n' → ℂ} (hx : ∀ i, kx' (e i) = kx i) (hy : ∀ i, ky' (e i) = ky i)
    (hx₂ : ∀ i, kx' (f i) = kx₂ i) (hy₂ : ∀ i, ky' (f i) = ky₂ i) (ω : ℂ) {slabs : List (Slab Nx Ny)} {slabs' : List (Slab Nx' Ny')}
    {Nx₂ Ny₂ : ℕ} {slabs₂ : List (Slab Nx₂ Ny₂)} (hs : List.Forall₂ (SlabIn e G G') slabs slabs') (hs₂ : List.Forall₂ (SlabIn f G₂ G') slabs₂ slabs')
    {m : List (LayerData (Fin n ⊕ Fin n))} {m₂ : List (LayerData (Fin n₂ ⊕ Fin n₂))} {m' : List (LayerData (Fin n' ⊕ Fin n'))}
    (hm : List.Forall₂ (Built ω kx ky G) slabs m) (hm₂ : List.Forall₂ (Built ω kx₂ ky₂ G₂) slabs₂ m₂)
    (hm' : List.Forall₂ (Built ω kx' ky' G') slabs' m') (ε0 εN : ℂ) (d0 dN : ℝ)
    (hr : ∀ M ∈ uniformLayer ω kx' ky' ε0 d0 :: m' ++ [uniformLayer ω kx' ky' εN dN], M.Regular) (norm : ℝ) (θ φ : ℝ) (s p : ℂ) (o : Fin n)
    (r : ℝ × ℝ) : rtForward ω norm (uniformLayer ω kx' ky' ε0 d0 :: m' ++ [uniformLayer ω kx' ky' εN dN]) (planewave θ φ s p (e o)) 0 = .ok r ↔
      rtForward ω norm (uniformLayer ω kx ky ε0 d0 :: m ++ [uniformLayer ω kx ky εN dN]) (planewave θ φ s p o) 0 = .ok r ∧
      ∃ r₂, rtForward ω norm (uniformLayer ω kx₂ ky₂ ε0 d0 :: m₂ ++ [uniformLayer ω kx₂ ky₂ εN dN]) 0 0 = .ok r₂ := by
  have hrt := fun h => (in_rt g.inj_e hx hy ω hs hm' ε0 εN d0 dN hr norm θ φ s p o r h).2 m hm
  have hre := in_regular g.inj_e hx hy ω hs hm hm' ε0 εN d0 dN hr
  have hrf := in_regular g.inj_f hx₂ hy₂ ω hs₂ hm₂ hm' ε0 εN d0 dN hr
  constructor
  · intro h
    refine ⟨hrt h, ?_⟩
    rw [rtForward_ok_iff _ _ _ _ _ (by simp)]
    have hst := stack_in g.inj_f hx₂ hy₂ ω hs₂ hm₂ hm' ε0 εN d0 dN
    exact hst.1.answers (extMat_isometry (Function.Injective.sumMap g.inj_f g.inj_f)) hst.2 hr 0 0 _ _
      ((rtForward_ok_iff ω norm _ _ _ (by simp)).1 ⟨r, h⟩)
  · rintro ⟨h1, h2⟩
    rw [rtForward_ok_iff _ _ _ _ _ (by simp)] at h2
    obtain ⟨Y, W, k1⟩ := stack_seen g.inj_e hx hy ω hs hm hm' ε0 εN d0 dN
    obtain ⟨Y₂, W₂, k2⟩ := stack_seen g.inj_f hx₂ hy₂ ω hs₂ hm₂ hm' ε0 εN d0 dN
    obtain ⟨r', h'⟩ := (rtForward_ok_iff ω norm _ (planewave θ φ s p (e o)) 0 (by simp)).2
      (groups_answer g.sum k1 k2 hre hrf hr (planewave θ φ s p o) 0 0 0 (planewave θ φ s p (e o)) 0
        ((rtForward_ok_iff ω norm _ _ _ (by simp)).1 ⟨r, h1⟩) h2)
    have := (in_rt g.inj_e hx hy ω hs hm' ε0 εN d0 dN hr norm θ φ s p o r' h').2 m hm
    rw [h1] at this
    injection this with this
    rw [h', this]

/-- eigenvectors for both groups give eigenvectors of the large problem -/
lemma built_glue {n₂ : ℕ} {e : Fin n → Fin n'} {f : Fin n₂ → Fin n'} (g : OrderGroups e f) {G : Fin n → ℤ × ℤ} {G₂ : Fin n₂ → ℤ × ℤ}
    {G' : Fin n' → ℤ × ℤ} {kx ky : Fin n → ℂ} {kx₂ ky₂ : Fin n₂ → ℂ} {kx' ky' : Fin n' → ℂ} (hx : ∀ i, kx' (e i) = kx i) (hy : ∀ i, ky' (e i) = ky i)
    (hx₂ : ∀ i, kx' (f i) = kx₂ i) (hy₂ : ∀ i, ky' (f i) = ky₂ i) {ω : ℂ} {Nx₂ Ny₂ : ℕ} {s : Slab Nx Ny} {s' : Slab Nx' Ny'} {s₂ : Slab Nx₂ Ny₂}
    (hs : SlabIn e G G' s s') (hs₂ : SlabIn f G₂ G' s₂ s') (hres : Resolved Nx' Ny' G') {L : LayerData (Fin n ⊕ Fin n)}
    {L₂ : LayerData (Fin n₂ ⊕ Fin n₂)} (hL : Built ω kx ky G s L) (hL₂ : Built ω kx₂ ky₂ G₂ s₂ L₂) : ∃ L', Built ω kx' ky' G' s' L' := by
  cases hs with
  | uniform ε d =>
    cases hL with
    | uniform _ _ hε => exact ⟨_, .uniform ε d hε⟩
  | patterned s s' d block right left hr =>
    cases hs₂ with
    | patterned s₂ _ _ block₂ right₂ left₂ hr₂ =>
      cases hL with
      | patterned _ _ epinv ep2 h1 lam phi hE hphi =>
        cases hL₂ with
        | patterned _ _ epinv₂ ep2₂ h2 lam₂ phi₂ hE₂ hphi₂ =>
          obtain ⟨C, hC, hu, -, -⟩ := epsilonFft_form h1
          obtain ⟨C₂, hC₂, hu₂, -, -⟩ := epsilonFft_form h2
          have hu' : IsUnit (Matrix.of fun i j => fourierCoeff s' (G' i - G' j)).det := by
            have hI : Inter e e C (Matrix.of fun i j => fourierCoeff s' (G' i - G' j)) :=
              Inter.of_entries g.inj_e g.inj_e (fun i j => by rw [hC, ← block]; rfl) (fun i hi j => right i hi j) (fun j hj i => left j hj i)
            have hI₂ : Inter f f C₂ (Matrix.of fun i j => fourierCoeff s' (G' i - G' j)) :=
              Inter.of_entries g.inj_f g.inj_f (fun i j => by rw [hC₂, ← block₂]; rfl) (fun i hi j => right₂ i hi j) (fun j hj i => left₂ j hj i)
            rw [← Matrix.isUnit_iff_isUnit_det, ← Matrix.mulVec_injective_iff_isUnit]
            intro u v huv
            replace huv : (Matrix.of fun i j => fourierCoeff s' (G' i - G' j)) *ᵥ (u - v) = 0 := by
              rw [Matrix.mulVec_sub]; exact sub_eq_zero.2 huv
            refine sub_eq_zero.1 (g.zero ?_ ?_)
            · have := congrArg ((extMat e).transpose *ᵥ ·) huv
              simp only [Matrix.mulVec_mulVec, hI.l, Matrix.mulVec_zero] at this
              rw [← Matrix.mulVec_mulVec] at this
              exact (mulVec_inj hu).1 (this.trans (Matrix.mulVec_zero _).symm)
            · have := congrArg ((extMat f).transpose *ᵥ ·) huv
              simp only [Matrix.mulVec_mulVec, hI₂.l, Matrix.mulVec_zero] at this
              rw [← Matrix.mulVec_mulVec] at this
              exact (mulVec_inj hu₂).1 (this.trans (Matrix.mulVec_zero _).symm)
          obtain ⟨⟨epinv', ep2'⟩, h'⟩ := epsilonFft_ok hres hu'
          obtain ⟨e1, e2⟩ := (slabIn_mats g.inj_e block right left h').2 _ _ h1
          obtain ⟨e3, e4⟩ := (slabIn_mats g.inj_f block₂ right₂ left₂ h').2 _ _ h2
          obtain ⟨lam', phi', hE', hphi'⟩ := eigenvectors_glue g.sum (Inter.eigen g.inj_e hx hy e2 (Inter.kp g.inj_e hx hy ω e1))
            (Inter.eigen g.inj_f hx₂ hy₂ e4 (Inter.kp g.inj_f hx₂ hy₂ ω e3)) hE hphi hE₂ hphi₂
          exact ⟨_, .patterned s' d epinv' ep2' h' lam' phi' hE' hphi'⟩

/-- a layer of the large problem is regular when it is in both groups -/
lemma groups_regular {n₂ : ℕ} {e : Fin n → Fin n'} {f : Fin n₂ → Fin n'} (g : OrderGroups e f) {Y : Matrix (Fin n ⊕ Fin n) (Fin n' ⊕ Fin n') ℂ}
    {Y₂ : Matrix (Fin n₂ ⊕ Fin n₂) (Fin n' ⊕ Fin n') ℂ} {L : LayerData (Fin n ⊕ Fin n)} {L₂ : LayerData (Fin n₂ ⊕ Fin n₂)}
    {L' : LayerData (Fin n' ⊕ Fin n')} (h : Embed (extMat (Sum.map e e)).transpose Y L' L) (h₂ : Embed (extMat (Sum.map f f)).transpose Y₂ L' L₂)
    (hp : IsUnit L'.phi.det) (hr : L.Regular) (hr₂ : L₂.Regular) : L'.Regular where
  phi := hp
  kp := by
    rw [← Matrix.isUnit_iff_isUnit_det, ← Matrix.mulVec_injective_iff_isUnit]
    intro u v huv
    replace huv : L'.kp *ᵥ (u - v) = 0 := by
      rw [Matrix.mulVec_sub]; exact sub_eq_zero.2 huv
    refine sub_eq_zero.1 (g.sum.zero ?_ ?_)
    · have := congrArg ((extMat (Sum.map e e)).transpose *ᵥ ·) huv
      simp only [Matrix.mulVec_mulVec, ← h.kp, Matrix.mulVec_zero] at this
      rw [← Matrix.mulVec_mulVec] at this
      exact (mulVec_inj hr.kp).1 (this.trans (Matrix.mulVec_zero _).symm)
    · have := congrArg ((extMat (Sum.map f f)).transpose *ᵥ ·) huv
      simp only [Matrix.mulVec_mulVec, ← h₂.kp, Matrix.mulVec_zero] at this
      rw [← Matrix.mulVec_mulVec] at this
      exact (mulVec_inj hr₂.kp).1 (this.trans (Matrix.mulVec_zero _).symm)
  q := fun m h0 => by
    have z : ∀ {a : Type} [Fintype a] [DecidableEq a] {E : Matrix a (Fin n' ⊕ Fin n') ℂ} {Y : Matrix a (Fin n' ⊕ Fin n') ℂ} {L : LayerData a},
        Embed E Y L' L → L.Regular → E *ᵥ (L'.phi *ᵥ Pi.single m 1) = 0 := by
      intro a _ _ E Y L h hr
      have hz : Y *ᵥ Pi.single m 1 = 0 := by
        ext i
        rw [Matrix.mulVec_single_one]
        show Y i m = 0
        by_contra hi
        exact hr.q i ((h.q i m hi).trans h0)
      rw [Matrix.mulVec_mulVec, ← h.phi, ← Matrix.mulVec_mulVec, hz, Matrix.mulVec_zero]
    have h1 := g.sum.zero (z h hr) (z h₂ hr₂)
    have h2 := (mulVec_inj hp).1 (h1.trans (Matrix.mulVec_zero _).symm)
    have := congrFun h2 m
    simp at this

end Nidn
