/-
C162: orders that the structure does not couple to the incident wave have no influence: repeated unit cells, line gratings.
-/
import Verif.Lemmas.Tiling
import Verif.Props.Relabel

set_option linter.unusedSectionVars false

namespace Nidn

open Matrix

variable {Nx Ny n n' : ℕ}

/-- the layer of a unit cell that repeats the old one `p` times along x and `q` times along y -/
def Slab.tile (p q : ℕ) : Slab Nx Ny → Slab (p * Nx) (q * Ny)
  | .uniform ε d => .uniform ε d
  | .patterned s d => .patterned (tilePattern p q s) d

/-- a layer of lines along y: a homogeneous film, or `Nx` pixels across the lines -/
inductive LineSlab (Nx : ℕ)
  | uniform (ε : ℂ) (d : ℝ)
  | lines (g : Fin Nx → ℂ) (d : ℝ)

/-- the same on a grid with `Ny` pixels along the lines -/
def LineSlab.toSlab (Ny : ℕ) : LineSlab Nx → Slab Nx Ny
  | .uniform ε d => .uniform ε d
  | .lines g d => .patterned (fun m _ => g m) d

/-- patterns whose Fourier coefficients vanish between two groups of orders -/
def Uncoupled {n₂ : ℕ} (e : Fin n → Fin n') (f : Fin n₂ → Fin n') (G' : Fin n' → ℤ × ℤ) (slabs : List (Slab Nx Ny)) : Prop :=
  ∀ s d, Slab.patterned s d ∈ slabs → ∀ i j, fourierCoeff s (G' (e i) - G' (f j)) = 0 ∧ fourierCoeff s (G' (f j) - G' (e i)) = 0

lemma uncoupled_in {n₂ : ℕ} {e : Fin n → Fin n'} {f : Fin n₂ → Fin n'} (g : OrderGroups e f) {G' : Fin n' → ℤ × ℤ} {slabs : List (Slab Nx Ny)}
    (h : Uncoupled e f G' slabs) :
    List.Forall₂ (SlabIn e (G' ∘ e) G') slabs slabs ∧ List.Forall₂ (SlabIn f (G' ∘ f) G') slabs slabs := by
  have key : ∀ s ∈ slabs, SlabIn e (G' ∘ e) G' s s ∧ SlabIn f (G' ∘ f) G' s s := by
    intro s hs
    cases s with
    | uniform ε d => exact ⟨.uniform ε d, .uniform ε d⟩
    | patterned s d =>
      have hc := h s d hs
      constructor
      · refine .patterned s s d (fun _ _ => rfl) (fun i hi j => ?_) (fun i hi j => ?_) (fun hr i j => hr _ _)
        · obtain ⟨k, hk⟩ | ⟨k, rfl⟩ := g.cover i
          · exact absurd hk (hi k)
          · exact (hc j k).2
        · obtain ⟨k, hk⟩ | ⟨k, rfl⟩ := g.cover i
          · exact absurd hk (hi k)
          · exact (hc j k).1
      · refine .patterned s s d (fun _ _ => rfl) (fun i hi j => ?_) (fun i hi j => ?_) (fun hr i j => hr _ _)
        · obtain ⟨k, rfl⟩ | ⟨k, hk⟩ := g.cover i
          · exact (hc k j).1
          · exact absurd hk (hi k)
        · obtain ⟨k, rfl⟩ | ⟨k, hk⟩ := g.cover i
          · exact (hc k j).2
          · exact absurd hk (hi k)
  clear h
  induction slabs with
  | nil => exact ⟨.nil, .nil⟩
  | cons s l ih =>
    obtain ⟨i1, i2⟩ := ih fun t ht => key t (List.mem_cons_of_mem _ ht)
    obtain ⟨k1, k2⟩ := key s (by simp)
    exact ⟨.cons k1 i1, .cons k2 i2⟩

/-- C162: when the retained orders split into two groups that no layer couples, a run with all of them gives an answer exactly if the runs
with each group alone do, and for a wave in an order of the first group it is the answer of the run with the first group alone. -/
theorem C162_groups {n₂ : ℕ} (e : Fin n → Fin n') (f : Fin n₂ → Fin n') (g : OrderGroups e f) (ω : ℂ) (kx ky : Fin n' → ℂ)
    (G : Fin n' → ℤ × ℤ) (slabs : List (Slab Nx Ny)) (hc : Uncoupled e f G slabs)
    (m' : List (LayerData (Fin n' ⊕ Fin n'))) (m : List (LayerData (Fin n ⊕ Fin n))) (m₂ : List (LayerData (Fin n₂ ⊕ Fin n₂)))
    (hm' : List.Forall₂ (Built ω kx ky G) slabs m') (hm : List.Forall₂ (Built ω (kx ∘ e) (ky ∘ e) (G ∘ e)) slabs m)
    (hm₂ : List.Forall₂ (Built ω (kx ∘ f) (ky ∘ f) (G ∘ f)) slabs m₂) (ε0 εN : ℂ) (d0 dN : ℝ)
    (hr : ∀ M ∈ uniformLayer ω kx ky ε0 d0 :: m' ++ [uniformLayer ω kx ky εN dN], M.Regular) (norm θ φ : ℝ) (s p : ℂ) (o : Fin n) (r : ℝ × ℝ) :
    rtForward ω norm (uniformLayer ω kx ky ε0 d0 :: m' ++ [uniformLayer ω kx ky εN dN]) (planewave θ φ s p (e o)) 0 = .ok r ↔
      rtForward ω norm (uniformLayer ω (kx ∘ e) (ky ∘ e) ε0 d0 :: m ++ [uniformLayer ω (kx ∘ e) (ky ∘ e) εN dN]) (planewave θ φ s p o) 0 = .ok r ∧
        ∃ r₂, rtForward ω norm (uniformLayer ω (kx ∘ f) (ky ∘ f) ε0 d0 :: m₂ ++ [uniformLayer ω (kx ∘ f) (ky ∘ f) εN dN]) 0 0 = .ok r₂ := by
  obtain ⟨h1, h2⟩ := uncoupled_in g hc
  exact groups_rt g (fun _ => rfl) (fun _ => rfl) (fun _ => rfl) (fun _ => rfl) ω h1 h2 hm hm₂ hm' ε0 εN d0 dN hr norm θ φ s p o r

/-! ## repeated unit cells -/

lemma tile_in {p q : ℕ} (hp : 0 < p) (hq : 0 < q) (hx : 0 < Nx) (hy : 0 < Ny) {e : Fin n → Fin n'} {G : Fin n → ℤ × ℤ} {G' : Fin n' → ℤ × ℤ}
    (hG : ∀ j, G' (e j) = (p * (G j).1, q * (G j).2)) (hall : ∀ i, (p : ℤ) ∣ (G' i).1 → (q : ℤ) ∣ (G' i).2 → ∃ j, i = e j)
    (slabs : List (Slab Nx Ny)) : List.Forall₂ (SlabIn e G G') slabs (slabs.map (Slab.tile p q)) := by
  have hp' : (p : ℤ) ≠ 0 := by exact_mod_cast hp.ne'
  have hq' : (q : ℤ) ≠ 0 := by exact_mod_cast hq.ne'
  induction slabs with
  | nil => exact .nil
  | cons s _ ih =>
    refine .cons ?_ ih
    cases s with
    | uniform ε d => exact .uniform ε d
    | patterned s d =>
      have hn : ∀ i, (∀ k, i ≠ e k) → ¬ ((p : ℤ) ∣ (G' i).1 ∧ (q : ℤ) ∣ (G' i).2) := fun i hi ⟨h1, h2⟩ => by
        obtain ⟨j, hj⟩ := hall i h1 h2
        exact hi j hj
      refine .patterned s _ d (fun i j => ?_) (fun i hi j => ?_) (fun i hi j => ?_) (fun hr i j => ?_)
      · rw [coeff_tile hp hq hx hy, hG, hG]
        have e1 : ((p : ℤ) * (G i).1, (q : ℤ) * (G i).2) - ((p : ℤ) * (G j).1, (q : ℤ) * (G j).2) = (p * (G i - G j).1, q * (G i - G j).2) := by
          ext <;> simp [mul_sub]
        rw [e1, if_pos ⟨⟨_, rfl⟩, ⟨_, rfl⟩⟩, Int.mul_ediv_cancel_left _ hp', Int.mul_ediv_cancel_left _ hq']
      · rw [coeff_tile hp hq hx hy, if_neg]
        rintro ⟨h1, h2⟩
        rw [Prod.fst_sub, hG] at h1
        rw [Prod.snd_sub, hG] at h2
        exact hn i hi ⟨(dvd_sub_left ⟨_, rfl⟩).1 h1, (dvd_sub_left ⟨_, rfl⟩).1 h2⟩
      · rw [coeff_tile hp hq hx hy, if_neg]
        rintro ⟨h1, h2⟩
        rw [Prod.fst_sub, hG] at h1
        rw [Prod.snd_sub, hG] at h2
        exact hn i hi ⟨(dvd_sub_right ⟨_, rfl⟩).1 h1, (dvd_sub_right ⟨_, rfl⟩).1 h2⟩
      · have := hr (e i) (e j)
        rw [hG, hG] at this
        simp only [Prod.fst_sub, Prod.snd_sub, ← mul_sub, abs_mul, Nat.abs_cast] at this ⊢
        push_cast at this
        exact ⟨lt_of_mul_lt_mul_left this.1 (by positivity), lt_of_mul_lt_mul_left this.2 (by positivity)⟩

lemma tile_wave {p q : ℕ} (hp : 0 < p) (hq : 0 < q) (ω : ℂ) (θ φ e0 : ℝ) {a b a' b' : ℝ} {Lk1 Lk2 Lk1' Lk2' : ℝ × ℝ}
    (hL : latticeReciprocate [a, b] [a', b'] = .ok (Lk1, Lk2)) (hL' : latticeReciprocate [p * a, p * b] [q * a', q * b'] = .ok (Lk1', Lk2'))
    (g : ℤ × ℤ) : waveX ω θ φ e0 Lk1' Lk2' (p * g.1, q * g.2) = waveX ω θ φ e0 Lk1 Lk2 g ∧
      waveY ω θ φ e0 Lk1' Lk2' (p * g.1, q * g.2) = waveY ω θ φ e0 Lk1 Lk2 g := by
  have hp' : (p : ℝ) ≠ 0 := by exact_mod_cast hp.ne'
  have hq' : (q : ℝ) ≠ 0 := by exact_mod_cast hq.ne'
  have hpc : (p : ℂ) ≠ 0 := by exact_mod_cast hp.ne'
  have hqc : (q : ℂ) ≠ 0 := by exact_mod_cast hq.ne'
  have hLk : Lk1' = (Lk1.1 / p, Lk1.2 / p) ∧ Lk2' = (Lk2.1 / q, Lk2.2 / q) := by
    simp only [latticeReciprocate] at hL hL'
    split at hL
    · simp at hL
    · rename_i hd
      split at hL'
      · simp at hL'
      · rename_i hd'
        injection hL with hL
        injection hL' with hL'
        injection hL with e1 e2
        injection hL' with e3 e4
        rw [← e1, ← e2, ← e3, ← e4]
        have e : p * a * (q * b') - p * b * (q * a') = p * q * (a * b' - b * a') := by ring
        refine ⟨Prod.ext ?_ ?_, Prod.ext ?_ ?_⟩ <;> simp only [] <;> rw [e] <;> field_simp
  obtain ⟨e1, e2⟩ := hLk
  constructor
  · rw [waveX, waveX, e1, e2]
    push_cast
    field_simp
  · rw [waveY, waveY, e1, e2]
    push_cast
    field_simp

/-- C162: a structure described by a unit cell that contains the true one `p` times along x and `q` times along y gives the same reflectance
and transmittance, if the orders of the larger cell that belong to the true one are exactly those of the run with the true cell. Whenever the
larger run has an answer, the smaller one has eigenvectors and the same answer. -/
theorem C162_supercell (p q : ℕ) (hp : 0 < p) (hq : 0 < q) (hx : 0 < Nx) (hy : 0 < Ny) (ω : ℂ) (θ φ e0 : ℝ) (a b a' b' : ℝ)
    (Lk1 Lk2 Lk1' Lk2' : ℝ × ℝ) (hL : latticeReciprocate [a, b] [a', b'] = .ok (Lk1, Lk2))
    (hL' : latticeReciprocate [p * a, p * b] [q * a', q * b'] = .ok (Lk1', Lk2')) (G : Fin n → ℤ × ℤ) (G' : Fin n' → ℤ × ℤ)
    (hGi : Function.Injective G) (e : Fin n → Fin n') (hG : ∀ j, G' (e j) = (p * (G j).1, q * (G j).2))
    (hall : ∀ i, (p : ℤ) ∣ (G' i).1 → (q : ℤ) ∣ (G' i).2 → ∃ j, i = e j) (slabs : List (Slab Nx Ny)) (kx ky : Fin n → ℂ) (kx' ky' : Fin n' → ℂ)
    (hkx : kx = kxOf ω θ φ e0 Lk1 Lk2 G) (hky : ky = kyOf ω θ φ e0 Lk1 Lk2 G) (hkx' : kx' = kxOf ω θ φ e0 Lk1' Lk2' G')
    (hky' : ky' = kyOf ω θ φ e0 Lk1' Lk2' G') (m' : List (LayerData (Fin n' ⊕ Fin n')))
    (hm' : List.Forall₂ (Built ω kx' ky' G') (slabs.map (Slab.tile p q)) m') (ε0 εN : ℂ) (d0 dN : ℝ)
    (hr : ∀ M ∈ uniformLayer ω kx' ky' ε0 d0 :: m' ++ [uniformLayer ω kx' ky' εN dN], M.Regular) (norm : ℝ) (s t : ℂ) (o : Fin n) (r : ℝ × ℝ)
    (h : rtForward ω norm (uniformLayer ω kx' ky' ε0 d0 :: m' ++ [uniformLayer ω kx' ky' εN dN]) (planewave θ φ s t (e o)) 0 = .ok r) :
    (∃ m, List.Forall₂ (Built ω kx ky G) slabs m) ∧ ∀ m, List.Forall₂ (Built ω kx ky G) slabs m →
      rtForward ω norm (uniformLayer ω kx ky ε0 d0 :: m ++ [uniformLayer ω kx ky εN dN]) (planewave θ φ s t o) 0 = .ok r := by
  have hp' : (p : ℤ) ≠ 0 := by exact_mod_cast hp.ne'
  have hq' : (q : ℤ) ≠ 0 := by exact_mod_cast hq.ne'
  have he : Function.Injective e := by
    intro i j hij
    have h1 := hG i
    rw [hij, hG j] at h1
    injection h1 with h1 h2
    exact hGi (Prod.ext (mul_left_cancel₀ hp' h1).symm (mul_left_cancel₀ hq' h2).symm)
  refine in_rt he (fun i => ?_) (fun i => ?_) ω (tile_in hp hq hx hy hG hall slabs) hm' ε0 εN d0 dN hr norm θ φ s t o r h
  · rw [hkx, hkx', kxOf, kxOf, hG]
    exact (tile_wave hp hq ω θ φ e0 hL hL' (G i)).1
  · rw [hky, hky', kyOf, kyOf, hG]
    exact (tile_wave hp hq ω θ φ e0 hL hL' (G i)).2

/-! ## lines -/

lemma coeff_lines (hy : 0 < Ny) (g : Fin Nx → ℂ) (d : ℤ × ℤ) (hd : |d.2| < Ny) :
    fourierCoeff (fun (m : Fin Nx) (_ : Fin Ny) => g m) d = if d.2 = 0 then fourierCoeff (fun (m : Fin Nx) (_ : Fin 1) => g m) (d.1, 0) else 0 := by
  have hy' : (Ny : ℂ) ≠ 0 := by exact_mod_cast hy.ne'
  have e1 : ∀ m : Fin Nx, ∑ k : Fin Ny, g m * (chi Nx d.1 m * chi Ny d.2 k) = g m * chi Nx d.1 m * ∑ k : Fin Ny, chi Ny d.2 k := by
    intro m
    rw [Finset.mul_sum]
    exact Finset.sum_congr rfl fun k _ => by ring
  rw [coeff_chi, Finset.sum_congr rfl fun m _ => e1 m]
  split
  · rename_i h
    rw [coeff_chi, h]
    simp only [chi, Int.cast_zero, mul_zero, zero_div, Complex.exp_zero, Finset.sum_const, Finset.card_univ, Fintype.card_fin, nsmul_eq_mul, mul_one,
      Nat.cast_one]
    rw [← Finset.sum_mul]
    field_simp
    refine congrArg (· / (Nx : ℂ)) (Finset.sum_congr rfl fun x _ => ?_)
    rw [mul_right_comm]
  · rename_i h
    have : ∑ k : Fin Ny, chi Ny d.2 k = 0 := sum_exp_zero d.2 h hd
    simp [this]

lemma lines_in {Ny' : ℕ} (hy : 0 < Ny) {e : Fin n → Fin n'} {G : Fin n → ℤ × ℤ} {G' : Fin n' → ℤ × ℤ}
    (h0 : ∀ j, (G j).2 = 0) (hG : ∀ j, G' (e j) = G j) (hall : ∀ i, (G' i).2 = 0 → ∃ j, i = e j)
    (slabs : List (LineSlab Nx)) (hres : ∀ g d, LineSlab.lines g d ∈ slabs → ∀ i j, |(G' i - G' j).2| < Ny') :
    List.Forall₂ (SlabIn e G G') (slabs.map (LineSlab.toSlab Ny)) (slabs.map (LineSlab.toSlab Ny')) := by
  induction slabs with
  | nil => exact .nil
  | cons s _ ih =>
    refine .cons ?_ (ih fun g d h => hres g d (List.mem_cons_of_mem _ h))
    cases s with
    | uniform ε d => exact .uniform ε d
    | lines g d =>
      replace hres := hres g d (by simp)
      refine .patterned _ _ d (fun i j => ?_) (fun i hi j => ?_) (fun i hi j => ?_) (fun hr i j => ?_)
      · have hy' : 0 < Ny' := by
          have := hres (e i) (e i)
          rw [sub_self] at this
          exact_mod_cast (abs_nonneg _).trans_lt this
        have z : (G i - G j).2 = 0 := by rw [Prod.snd_sub, h0, h0, sub_zero]
        rw [hG, hG, coeff_lines hy' g _ (by rw [z]; simpa using hy'), coeff_lines hy g _ (by rw [z]; simpa using hy), if_pos z]
      · have hy' : 0 < Ny' := by exact_mod_cast (abs_nonneg _).trans_lt (hres i (e j))
        rw [coeff_lines hy' g _ (hres i (e j)), if_neg]
        rw [Prod.snd_sub, hG, h0, sub_zero]
        intro h
        obtain ⟨k, hk⟩ := hall i h
        exact hi k hk
      · have hlt : |(G' (e j) - G' i).2| < Ny' := by
          have := hres i (e j)
          rwa [Prod.snd_sub, abs_sub_comm] at this
        have hy' : 0 < Ny' := by exact_mod_cast (abs_nonneg _).trans_lt hlt
        rw [coeff_lines hy' g _ hlt, if_neg]
        rw [Prod.snd_sub, hG, h0, zero_sub, neg_eq_zero]
        intro h
        obtain ⟨k, hk⟩ := hall i h
        exact hi k hk
      · have := hr (e i) (e j)
        rw [hG, hG] at this
        refine ⟨this.1, ?_⟩
        rw [Prod.snd_sub, h0, h0, sub_zero]
        simpa using hy

lemma lines_resolved {ω : ℂ} {kx ky : Fin n → ℂ} {G : Fin n → ℤ × ℤ} {slabs : List (LineSlab Nx)} {m : List (LayerData (Fin n ⊕ Fin n))}
    (hm : List.Forall₂ (Built ω kx ky G) (slabs.map (LineSlab.toSlab Ny)) m) (g : Fin Nx → ℂ) (d : ℝ) (h : LineSlab.lines g d ∈ slabs) (i j : Fin n) :
    |(G i - G j).2| < Ny := by
  induction slabs generalizing m with
  | nil => simp at h
  | cons s l ih =>
    rw [List.map_cons] at hm
    cases hm with
    | cons k hm =>
      rcases List.mem_cons.1 h with rfl | h
      · cases k with
        | patterned _ _ _ _ h2 _ _ _ _ =>
          have hres : Resolved Nx Ny G := by
            by_contra hn
            simp only [epsilonFft] at h2
            rw [(C15_entries _ G).2 hn] at h2
            simp [error_bind] at h2
          exact (hres i j).2
      · exact ih hm h

lemma lines_wave (ω : ℂ) (θ φ e0 : ℝ) {a b b' : ℝ} {Lk1 Lk2 Lk1' Lk2' : ℝ × ℝ} (hL : latticeReciprocate [a, 0] [0, b] = .ok (Lk1, Lk2))
    (hL' : latticeReciprocate [a, 0] [0, b'] = .ok (Lk1', Lk2')) (g : ℤ × ℤ) (hg : g.2 = 0) :
    waveX ω θ φ e0 Lk1' Lk2' g = waveX ω θ φ e0 Lk1 Lk2 g ∧ waveY ω θ φ e0 Lk1' Lk2' g = waveY ω θ φ e0 Lk1 Lk2 g := by
  have e : Lk1' = Lk1 := by
    simp only [latticeReciprocate, zero_mul, sub_zero] at hL hL'
    split at hL
    · simp at hL
    · rename_i hd
      split at hL'
      · simp at hL'
      · rename_i hd'
        injection hL with hL
        injection hL' with hL'
        injection hL with e1 e2
        injection hL' with e3 e4
        rw [← e1, ← e3]
        have ha : a ≠ 0 := left_ne_zero_of_mul hd
        have hb : b ≠ 0 := right_ne_zero_of_mul hd
        have hb' : b' ≠ 0 := right_ne_zero_of_mul hd'
        refine Prod.ext ?_ ?_ <;> simp only []
        · field_simp
        · simp
  rw [waveX, waveX, waveY, waveY, e, hg]
  simp

/-- C162: for a structure of lines along y only the orders `(j, 0)` matter. Whenever a run with any number of further orders, any number of
pixels along the lines and any period along the lines has an answer, the run with the orders `(j, 0)` alone and a single pixel along the
lines has eigenvectors and the same answer. -/
theorem C162_lines (ω : ℂ) (θ φ e0 : ℝ) (a b b' : ℝ) (Lk1 Lk2 Lk1' Lk2' : ℝ × ℝ)
    (hL : latticeReciprocate [a, 0] [0, b] = .ok (Lk1, Lk2)) (hL' : latticeReciprocate [a, 0] [0, b'] = .ok (Lk1', Lk2')) (G : Fin n → ℤ × ℤ)
    (G' : Fin n' → ℤ × ℤ) (hGi : Function.Injective G) (h0 : ∀ j, (G j).2 = 0) (e : Fin n → Fin n') (hG : ∀ j, G' (e j) = G j)
    (hall : ∀ i, (G' i).2 = 0 → ∃ j, i = e j) (slabs : List (LineSlab Nx)) (kx ky : Fin n → ℂ) (kx' ky' : Fin n' → ℂ)
    (hkx : kx = kxOf ω θ φ e0 Lk1 Lk2 G) (hky : ky = kyOf ω θ φ e0 Lk1 Lk2 G) (hkx' : kx' = kxOf ω θ φ e0 Lk1' Lk2' G')
    (hky' : ky' = kyOf ω θ φ e0 Lk1' Lk2' G') (m' : List (LayerData (Fin n' ⊕ Fin n')))
    (hm' : List.Forall₂ (Built ω kx' ky' G') (slabs.map (LineSlab.toSlab Ny)) m') (ε0 εN : ℂ) (d0 dN : ℝ)
    (hr : ∀ M ∈ uniformLayer ω kx' ky' ε0 d0 :: m' ++ [uniformLayer ω kx' ky' εN dN], M.Regular) (norm : ℝ) (s p : ℂ) (o : Fin n) (r : ℝ × ℝ)
    (h : rtForward ω norm (uniformLayer ω kx' ky' ε0 d0 :: m' ++ [uniformLayer ω kx' ky' εN dN]) (planewave θ φ s p (e o)) 0 = .ok r) :
    (∃ m, List.Forall₂ (Built ω kx ky G) (slabs.map (LineSlab.toSlab 1)) m) ∧
      ∀ m, List.Forall₂ (Built ω kx ky G) (slabs.map (LineSlab.toSlab 1)) m →
        rtForward ω norm (uniformLayer ω kx ky ε0 d0 :: m ++ [uniformLayer ω kx ky εN dN]) (planewave θ φ s p o) 0 = .ok r := by
  have he : Function.Injective e := by
    intro i j hij
    have h1 := hG i
    rw [hij, hG j] at h1
    exact hGi h1.symm
  refine in_rt he (fun i => ?_) (fun i => ?_) ω (lines_in one_pos h0 hG hall slabs (lines_resolved hm')) hm' ε0 εN d0 dN hr norm θ φ s p o r h
  · rw [hkx, hkx', kxOf, kxOf, hG]
    exact (lines_wave ω θ φ e0 hL hL' (G i) (h0 i)).1
  · rw [hky, hky', kyOf, kyOf, hG]
    exact (lines_wave ω θ φ e0 hL hL' (G i) (h0 i)).2

/-- C162: two runs of the same structure of lines - with different numbers of orders, of pixels along the lines and different periods along
the lines - give the same answer, if they retain the same orders `(j, 0)`. -/
theorem C162_lines_same {n₁ n₂ Ny₁ Ny₂ : ℕ} (ω : ℂ) (θ φ e0 : ℝ) (a b₁ b₂ : ℝ) (Lk1 Lk2 Lk1' Lk2' : ℝ × ℝ)
    (hL : latticeReciprocate [a, 0] [0, b₁] = .ok (Lk1, Lk2)) (hL' : latticeReciprocate [a, 0] [0, b₂] = .ok (Lk1', Lk2')) (G₁ : Fin n₁ → ℤ × ℤ)
    (G₂ : Fin n₂ → ℤ × ℤ) (h₁ : Function.Injective G₁) (h₂ : Function.Injective G₂) (hsame : ∀ j, (∃ i, G₁ i = (j, 0)) ↔ ∃ i, G₂ i = (j, 0))
    (slabs : List (LineSlab Nx)) (kx₁ ky₁ : Fin n₁ → ℂ) (kx₂ ky₂ : Fin n₂ → ℂ) (hkx₁ : kx₁ = kxOf ω θ φ e0 Lk1 Lk2 G₁)
    (hky₁ : ky₁ = kyOf ω θ φ e0 Lk1 Lk2 G₁) (hkx₂ : kx₂ = kxOf ω θ φ e0 Lk1' Lk2' G₂) (hky₂ : ky₂ = kyOf ω θ φ e0 Lk1' Lk2' G₂)
    (m₁ : List (LayerData (Fin n₁ ⊕ Fin n₁))) (m₂ : List (LayerData (Fin n₂ ⊕ Fin n₂)))
    (hm₁ : List.Forall₂ (Built ω kx₁ ky₁ G₁) (slabs.map (LineSlab.toSlab Ny₁)) m₁)
    (hm₂ : List.Forall₂ (Built ω kx₂ ky₂ G₂) (slabs.map (LineSlab.toSlab Ny₂)) m₂) (ε0 εN : ℂ) (d0 dN : ℝ)
    (hr₁ : ∀ M ∈ uniformLayer ω kx₁ ky₁ ε0 d0 :: m₁ ++ [uniformLayer ω kx₁ ky₁ εN dN], M.Regular)
    (hr₂ : ∀ M ∈ uniformLayer ω kx₂ ky₂ ε0 d0 :: m₂ ++ [uniformLayer ω kx₂ ky₂ εN dN], M.Regular) (norm : ℝ) (s p : ℂ) (o₁ : Fin n₁) (o₂ : Fin n₂)
    (ho : G₁ o₁ = G₂ o₂) (hz : (G₁ o₁).2 = 0) (r₁ r₂ : ℝ × ℝ)
    (k₁ : rtForward ω norm (uniformLayer ω kx₁ ky₁ ε0 d0 :: m₁ ++ [uniformLayer ω kx₁ ky₁ εN dN]) (planewave θ φ s p o₁) 0 = .ok r₁)
    (k₂ : rtForward ω norm (uniformLayer ω kx₂ ky₂ ε0 d0 :: m₂ ++ [uniformLayer ω kx₂ ky₂ εN dN]) (planewave θ φ s p o₂) 0 = .ok r₂) : r₁ = r₂ := by
  classical
  obtain ⟨n, ⟨σ⟩⟩ : ∃ n, Nonempty (Fin n ≃ {i // (G₁ i).2 = 0}) := ⟨_, ⟨(Fintype.equivFin _).symm⟩⟩
  let e₁ : Fin n → Fin n₁ := fun j => (σ j).1
  have he₁ : Function.Injective e₁ := Subtype.val_injective.comp σ.injective
  have hex : ∀ j, ∃ i, G₂ i = G₁ (e₁ j) := fun j => by
    have hj : G₁ (e₁ j) = ((G₁ (e₁ j)).1, 0) := Prod.ext rfl (σ j).2
    rw [hj]
    exact (hsame _).1 ⟨e₁ j, hj⟩
  choose e₂ he₂ using hex
  have o : ∃ o, e₁ o = o₁ := ⟨σ.symm ⟨o₁, hz⟩, by simp [e₁]⟩
  obtain ⟨o, rfl⟩ := o
  have oo : o₂ = e₂ o := h₂ (by rw [he₂, ho])
  subst oo
  have a₁ := C162_lines (Ny := Ny₁) ω θ φ e0 a b₁ b₁ Lk1 Lk2 Lk1 Lk2 hL hL (fun j => G₁ (e₁ j)) G₁ (h₁.comp he₁) (fun j => (σ j).2) e₁ (fun _ => rfl)
    (fun i hi => ⟨σ.symm ⟨i, hi⟩, by simp [e₁]⟩) slabs _ _ kx₁ ky₁ rfl rfl hkx₁ hky₁ m₁ hm₁ ε0 εN d0 dN hr₁ norm s p o r₁ k₁
  have a₂ := C162_lines (Ny := Ny₂) ω θ φ e0 a b₁ b₂ Lk1 Lk2 Lk1' Lk2' hL hL' (fun j => G₁ (e₁ j)) G₂ (h₁.comp he₁) (fun j => (σ j).2) e₂
    (fun j => he₂ j) (fun i hi => by
      have hi' : G₂ i = ((G₂ i).1, 0) := Prod.ext rfl hi
      obtain ⟨i₁, h⟩ := (hsame _).2 ⟨i, hi'⟩
      refine ⟨σ.symm ⟨i₁, by rw [h]⟩, h₂ ?_⟩
      rw [he₂]
      simp [e₁, h, ← hi']) slabs _ _ kx₂ ky₂ rfl rfl hkx₂ hky₂ m₂ hm₂ ε0 εN d0 dN hr₂ norm s p o r₂ k₂
  obtain ⟨m, hm⟩ := a₁.1
  have := (a₁.2 m hm).symm.trans (a₂.2 m hm)
  injection this

end Nidn
