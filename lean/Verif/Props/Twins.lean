/-
C196: designs that the solver cannot tell apart.
-/
import Verif.Props.Invariance
import Verif.Props.OversampleExact
import Verif.Props.Fft

namespace Nidn

/-- Spec: the wave of order `d` on the grid. -/
noncomputable def gridWave (Nx Ny : ℕ) (d : ℤ × ℤ) (m : Fin Nx) (k : Fin Ny) : ℝ := Real.cos (2 * Real.pi * ((m : ℕ) * d.1 / Nx + (k : ℕ) * d.2 / Ny))

/-- Spec: the order `d` is, up to the periods of the grid, not a difference of two orders. -/
def HiddenOrder {n : ℕ} (Nx Ny : ℕ) (G : Fin n → ℤ × ℤ) (d : ℤ × ℤ) : Prop :=
  ∀ i j, ¬ ((Nx : ℤ) ∣ (G i - G j).1 - d.1 ∧ (Ny : ℤ) ∣ (G i - G j).2 - d.2)

/-- Spec: two layers that are equal, or of the same thickness with patterns that give the solver the same matrices. -/
def SameMatrices {Nx Ny n : ℕ} (G : Fin n → ℤ × ℤ) (a b : Slab Nx Ny) : Prop :=
  a = b ∨ ∃ s s' d, a = .patterned s d ∧ b = .patterned s' d ∧ epsilonFft (1 / Nx / Ny) (.iso s) G = epsilonFft (1 / Nx / Ny) (.iso s') G

lemma const_coeff {Nx Ny : ℕ} (hx : 0 < Nx) (hy : 0 < Ny) (e : ℂ) (d : ℤ × ℤ) (hd : ¬ ((Nx : ℤ) ∣ d.1 ∧ (Ny : ℤ) ∣ d.2)) : fourierCoeff (fun (_ : Fin Nx) (_ : Fin Ny) => e) d = 0 := by
  have hx' : (0 : ℤ) < Nx := by exact_mod_cast hx
  have hy' : (0 : ℤ) < Ny := by exact_mod_cast hy
  have h := C193_alias hx hy (fun (_ : Fin Nx) (_ : Fin Ny) => e) (d.1 % Nx, d.2 % Ny) (d.1 / Nx) (d.2 / Ny)
  rw [show ((d.1 % Nx, d.2 % Ny).1 + Nx * (d.1 / Nx), (d.1 % Nx, d.2 % Ny).2 + Ny * (d.2 / Ny)) = d from Prod.ext (Int.emod_add_mul_ediv _ _) (Int.emod_add_mul_ediv _ _)] at h
  rw [h, fourierCoeff_const, if_neg]
  · intro h0
    rw [Prod.ext_iff] at h0
    exact hd ⟨Int.dvd_of_emod_eq_zero h0.1, Int.dvd_of_emod_eq_zero h0.2⟩
  · rw [abs_of_nonneg (Int.emod_nonneg _ hx'.ne')]; exact Int.emod_lt_of_pos _ hx'
  · rw [abs_of_nonneg (Int.emod_nonneg _ hy'.ne')]; exact Int.emod_lt_of_pos _ hy'

/-- adding the wave changes the coefficients only at the order of the wave and its opposite -/
lemma gridWave_coeff {Nx Ny : ℕ} (hx : 0 < Nx) (hy : 0 < Ny) (s : Fin Nx → Fin Ny → ℂ) (t : ℂ) (d δ : ℤ × ℤ) (h1 : ¬ ((Nx : ℤ) ∣ δ.1 - d.1 ∧ (Ny : ℤ) ∣ δ.2 - d.2)) (h2 : ¬ ((Nx : ℤ) ∣ δ.1 + d.1 ∧ (Ny : ℤ) ∣ δ.2 + d.2)) :
    fourierCoeff (fun m k => s m k + t * gridWave Nx Ny d m k) δ = fourierCoeff s δ := by
  have e : fourierCoeff (fun m k => s m k + t * gridWave Nx Ny d m k) δ =
      fourierCoeff s δ + t / 2 * fourierCoeff (fun (_ : Fin Nx) (_ : Fin Ny) => 1) (δ - d) + t / 2 * fourierCoeff (fun (_ : Fin Nx) (_ : Fin Ny) => 1) (δ + d) := by
    have hw : ∀ (m : Fin Nx) (k : Fin Ny), (gridWave Nx Ny d m k : ℂ) * Complex.exp (-(2 * Real.pi * Complex.I) * ((m : ℕ) * δ.1 / Nx + (k : ℕ) * δ.2 / Ny)) =
        1 / 2 * Complex.exp (-(2 * Real.pi * Complex.I) * ((m : ℕ) * (δ - d).1 / Nx + (k : ℕ) * (δ - d).2 / Ny)) + 1 / 2 * Complex.exp (-(2 * Real.pi * Complex.I) * ((m : ℕ) * (δ + d).1 / Nx + (k : ℕ) * (δ + d).2 / Ny)) := by
      intro m k
      unfold gridWave
      rw [Complex.ofReal_cos, Complex.cos, div_mul_eq_mul_div, add_mul, ← Complex.exp_add, ← Complex.exp_add]
      rw [← mul_add, one_div, div_eq_inv_mul]
      congr 2
      · congr 1; push_cast [Prod.fst_sub, Prod.snd_sub]; ring
      · congr 1; push_cast [Prod.fst_add, Prod.snd_add]; ring
    have hs : ∑ m : Fin Nx, ∑ k : Fin Ny, (s m k + t * gridWave Nx Ny d m k) * Complex.exp (-(2 * Real.pi * Complex.I) * ((m : ℕ) * δ.1 / Nx + (k : ℕ) * δ.2 / Ny)) =
        ∑ m : Fin Nx, ∑ k : Fin Ny, s m k * Complex.exp (-(2 * Real.pi * Complex.I) * ((m : ℕ) * δ.1 / Nx + (k : ℕ) * δ.2 / Ny)) +
          t / 2 * ∑ m : Fin Nx, ∑ k : Fin Ny, 1 * Complex.exp (-(2 * Real.pi * Complex.I) * ((m : ℕ) * (δ - d).1 / Nx + (k : ℕ) * (δ - d).2 / Ny)) +
          t / 2 * ∑ m : Fin Nx, ∑ k : Fin Ny, 1 * Complex.exp (-(2 * Real.pi * Complex.I) * ((m : ℕ) * (δ + d).1 / Nx + (k : ℕ) * (δ + d).2 / Ny)) := by
      rw [Finset.mul_sum, Finset.mul_sum, ← Finset.sum_add_distrib, ← Finset.sum_add_distrib]
      refine Finset.sum_congr rfl fun m _ => ?_
      rw [Finset.mul_sum, Finset.mul_sum, ← Finset.sum_add_distrib, ← Finset.sum_add_distrib]
      refine Finset.sum_congr rfl fun k _ => ?_
      rw [add_mul, mul_assoc t, hw]
      ring
    unfold fourierCoeff
    rw [hs, mul_add, mul_add, mul_left_comm _ (t / 2), mul_left_comm _ (t / 2)]
  rw [e, const_coeff hx hy 1 _ h1, const_coeff hx hy 1 _ h2]
  ring

lemma HiddenOrder.opposite {Nx Ny n : ℕ} {G : Fin n → ℤ × ℤ} {d : ℤ × ℤ} (hd : HiddenOrder Nx Ny G d) (i j : Fin n) : ¬ ((Nx : ℤ) ∣ (G i - G j).1 + d.1 ∧ (Ny : ℤ) ∣ (G i - G j).2 + d.2) := by
  rintro ⟨a, b⟩
  refine hd j i ⟨?_, ?_⟩
  · have := (dvd_neg (a := (Nx : ℤ))).2 a
    rwa [show -((G i - G j).1 + d.1) = (G j - G i).1 - d.1 by simp only [Prod.fst_sub]; ring] at this
  · have := (dvd_neg (a := (Ny : ℤ))).2 b
    rwa [show -((G i - G j).2 + d.2) = (G j - G i).2 - d.2 by simp only [Prod.snd_sub]; ring] at this

/-- C196: adding any multiple of a hidden wave leaves the matrices of the solver as they are. -/
theorem C196_hidden {Nx Ny n : ℕ} (hx : 0 < Nx) (hy : 0 < Ny) (G : Fin n → ℤ × ℤ) (s : Fin Nx → Fin Ny → ℂ) (d : ℤ × ℤ) (hd : HiddenOrder Nx Ny G d) (t : ℂ) :
    epsilonFft (1 / Nx / Ny) (.iso fun m k => s m k + t * gridWave Nx Ny d m k) G = epsilonFft (1 / Nx / Ny) (.iso s) G := by
  have hc : getConv (1 / Nx / Ny) (fun m k => s m k + t * gridWave Nx Ny d m k) G = getConv (1 / Nx / Ny) s G := by
    by_cases hr : Resolved Nx Ny G
    · obtain ⟨C, h1, h2⟩ := (C15_entries (fun m k => s m k + t * gridWave Nx Ny d m k) G).1 hr
      obtain ⟨C', h1', h2'⟩ := (C15_entries s G).1 hr
      rw [h1, h1']
      congr 1
      ext i j
      rw [h2, h2']
      exact gridWave_coeff hx hy s t d _ (hd i j) (hd.opposite i j)
    · rw [(C15_entries _ G).2 hr, (C15_entries s G).2 hr]
  simp only [epsilonFft, hc]

/-- C196: there is a hidden wave as soon as the pattern has more pixels than there are pairs of orders. -/
theorem C196_exists {Nx Ny n : ℕ} (hx : 0 < Nx) (hy : 0 < Ny) (G : Fin n → ℤ × ℤ) (hn : n * n < Nx * Ny) : ∃ d, HiddenOrder Nx Ny G d := by
  have hx' : (0 : ℤ) < Nx := by exact_mod_cast hx
  have hy' : (0 : ℤ) < Ny := by exact_mod_cast hy
  have low : ∀ (N : ℕ), (0 : ℤ) < N → ∀ z : ℤ, (z % N).toNat < N := fun N h z => by
    have := Int.emod_nonneg z h.ne'
    have := Int.emod_lt_of_pos z h
    omega
  let f : Fin n × Fin n → Fin Nx × Fin Ny := fun p => (⟨_, low Nx hx' (G p.1 - G p.2).1⟩, ⟨_, low Ny hy' (G p.1 - G p.2).2⟩)
  have hf : ¬ Function.Surjective f := by
    intro h
    have := Fintype.card_le_of_surjective f h
    simp at this
    omega
  rw [Function.Surjective] at hf
  push Not at hf
  obtain ⟨⟨a, b⟩, hab⟩ := hf
  refine ⟨((a : ℕ), (b : ℕ)), fun i j h => hab (i, j) ?_⟩
  have same : ∀ (N : ℕ) (c : Fin N) (z : ℤ), (N : ℤ) ∣ z - (c : ℕ) → (z % N).toNat = c := by
    intro N c z hz
    have h1 := (Int.emod_emod_of_dvd z (dvd_refl (N : ℤ)))
    have h2 := Int.emod_eq_emod_iff_emod_sub_eq_zero.2 (Int.emod_eq_zero_of_dvd hz)
    rw [h2, Int.emod_eq_of_lt (by positivity) (by exact_mod_cast c.2)]
    simp
  exact Prod.ext (Fin.ext (same Nx a _ h.1)) (Fin.ext (same Ny b _ h.2))

/-- C196: so every design of real permittivities has twins, as close or as far as one likes, with the same matrices. -/
theorem C196_twins {Nx Ny n : ℕ} (hx : 0 < Nx) (hy : 0 < Ny) (G : Fin n → ℤ × ℤ) (hn : n * n < Nx * Ny) (s : Fin Nx → Fin Ny → ℝ) (τ : ℝ) (hτ : 0 < τ) :
    ∃ s' : Fin Nx → Fin Ny → ℝ, (∀ m k, |s' m k - s m k| ≤ τ) ∧ s' ⟨0, hx⟩ ⟨0, hy⟩ = s ⟨0, hx⟩ ⟨0, hy⟩ + τ ∧
      epsilonFft (1 / Nx / Ny) (.iso fun m k => (s' m k : ℂ)) G = epsilonFft (1 / Nx / Ny) (.iso fun m k => (s m k : ℂ)) G := by
  obtain ⟨d, hd⟩ := C196_exists hx hy G hn
  refine ⟨fun m k => s m k + τ * gridWave Nx Ny d m k, fun m k => ?_, ?_, ?_⟩
  · rw [add_sub_cancel_left, abs_mul, abs_of_pos hτ]
    exact mul_le_of_le_one_right hτ.le (Real.abs_cos_le_one _)
  · simp [gridWave]
  · rw [← C196_hidden hx hy G (fun m k => (s m k : ℂ)) d hd τ]
    congr 2
    funext m k
    push_cast
    rfl

/-- C196: oversampling does not tell them apart either: with every cell repeated `r` times the matrices are still the same. -/
theorem C196_oversampled {Nx Ny n : ℕ} (hx : 0 < Nx) (hy : 0 < Ny) (r : ℕ) (hr : 0 < r) (G : Fin n → ℤ × ℤ) (e e' : ℕ → ℕ → ℕ → ℕ → ℂ) (k l : ℕ) (d : ℤ × ℤ) (hd : HiddenOrder Nx Ny G d) (t : ℂ)
    (he : ∀ (a : Fin Nx) (b : Fin Ny), e' a b k l = e a b k l + t * gridWave Nx Ny d a b) :
    epsilonFft (1 / (Nx * r : ℕ) / (Ny * r : ℕ)) (.iso fun (i : Fin (Nx * r)) (j : Fin (Ny * r)) => repeatXY r e' i j k l) G =
      epsilonFft (1 / (Nx * r : ℕ) / (Ny * r : ℕ)) (.iso fun (i : Fin (Nx * r)) (j : Fin (Ny * r)) => repeatXY r e i j k l) G := by
  have hc : getConv (1 / (Nx * r : ℕ) / (Ny * r : ℕ)) (fun (i : Fin (Nx * r)) (j : Fin (Ny * r)) => repeatXY r e' i j k l) G =
      getConv (1 / (Nx * r : ℕ) / (Ny * r : ℕ)) (fun (i : Fin (Nx * r)) (j : Fin (Ny * r)) => repeatXY r e i j k l) G := by
    by_cases hR : Resolved (Nx * r) (Ny * r) G
    · obtain ⟨C, h1, h2⟩ := (C15_entries (fun (i : Fin (Nx * r)) (j : Fin (Ny * r)) => repeatXY r e' i j k l) G).1 hR
      obtain ⟨C', h1', h2'⟩ := (C15_entries (fun (i : Fin (Nx * r)) (j : Fin (Ny * r)) => repeatXY r e i j k l) G).1 hR
      rw [h1, h1']
      congr 1
      ext i j
      rw [h2, h2', C193_factor e' k l Nx Ny r hx hy hr, C193_factor e k l Nx Ny r hx hy hr]
      congr 1
      simp only [he]
      exact gridWave_coeff hx hy (fun (a : Fin Nx) (b : Fin Ny) => e a b k l) t d _ (hd i j) (hd.opposite i j)
    · rw [(C15_entries _ G).2 hR, (C15_entries _ G).2 hR]
  simp only [epsilonFft, hc]

/-- C196: structures of such twins have the same reflectance and transmittance, for every frequency, angle, polarisation and choice of eigenvectors. -/
theorem C196_solver {Nx Ny n : ℕ} (ω : ℂ) (kx ky : Fin n → ℂ) (G : Fin n → ℤ × ℤ) (slabs slabs' : List (Slab Nx Ny)) (hs : List.Forall₂ (SameMatrices G) slabs slabs')
    (m m' : List (LayerData (Fin n ⊕ Fin n))) (hm : List.Forall₂ (Built ω kx ky G) slabs m) (hm' : List.Forall₂ (Built ω kx ky G) slabs' m')
    (ε0 εN : ℂ) (h0 : ε0 ≠ 0) (hN : εN ≠ 0) (d0 dN : ℝ) (hreg : ∀ M ∈ uniformLayer ω kx ky ε0 d0 :: m' ++ [uniformLayer ω kx ky εN dN], M.Regular) (norm : ℝ) (a0 bN : Fin n ⊕ Fin n → ℂ) (r : ℝ × ℝ) :
    rtForward ω norm (uniformLayer ω kx ky ε0 d0 :: m ++ [uniformLayer ω kx ky εN dN]) a0 bN = .ok r ↔
      rtForward ω norm (uniformLayer ω kx ky ε0 d0 :: m' ++ [uniformLayer ω kx ky εN dN]) a0 bN = .ok r := by
  have key : List.Forall₂ (Built ω kx ky G) slabs m' := by
    clear hm hreg
    induction hs generalizing m' with
    | nil => cases hm'; exact .nil
    | cons h _ ih =>
      cases hm' with
      | cons hh ht =>
        refine .cons ?_ (ih _ ht)
        rcases h with rfl | ⟨s, s', d, rfl, rfl, he⟩
        · exact hh
        · cases hh with
          | patterned _ _ epinv ep2 h lam phi hE hphi => exact .patterned _ d epinv ep2 (he.trans h) lam phi hE hphi
  exact C114_eigenvectors ω kx ky G slabs m' m key hm ε0 εN h0 hN d0 dN hreg norm a0 bN r

/-- a pattern is determined by its coefficients at all orders -/
lemma coeff_determines {Nx Ny : ℕ} (s s' : Fin Nx → Fin Ny → ℂ) (h : ∀ d, fourierCoeff s d = fourierCoeff s' d) : s = s' := by
  let G : Fin (Nx * Ny) → ℤ × ℤ := fun i => (((finProdFinEquiv.symm i).1 : ℕ), ((finProdFinEquiv.symm i).2 : ℕ))
  have hG : Function.Injective G := by
    intro i j hij
    have h1 := congrArg Prod.fst hij
    have h2 := congrArg Prod.snd hij
    simp only [G, Nat.cast_inj] at h1 h2
    exact finProdFinEquiv.symm.injective (Prod.ext (Fin.ext h1) (Fin.ext h2))
  have hr : Resolved Nx Ny G := by
    intro i j
    simp only [G, Prod.fst_sub, Prod.snd_sub, abs_lt]
    have := (finProdFinEquiv.symm i).1.2
    have := (finProdFinEquiv.symm j).1.2
    have := (finProdFinEquiv.symm i).2.2
    have := (finProdFinEquiv.symm j).2.2
    omega
  have ho : OrdersInRange Nx Ny G := by
    intro i
    simp only [G]
    have := (finProdFinEquiv.symm i).1.2
    have := (finProdFinEquiv.symm i).2.2
    omega
  have a := C185_complete G hG hr rfl s _ ((C185_coefficients s G).1 ho)
  have b := C185_complete G hG hr rfl s' _ ((C185_coefficients s' G).1 ho)
  rw [← a, ← b]
  simp only [h]

/-- C196: a hidden wave is also the only way to have twins: if there is none, patterns with the same convolution matrix are equal. -/
theorem C196_unique {Nx Ny n : ℕ} (hx : 0 < Nx) (hy : 0 < Ny) (G : Fin n → ℤ × ℤ) (hG : ¬ ∃ d, HiddenOrder Nx Ny G d) (s s' : Fin Nx → Fin Ny → ℂ) (C : Matrix (Fin n) (Fin n) ℂ)
    (h : getConv (1 / Nx / Ny) s G = .ok C) (h' : getConv (1 / Nx / Ny) s' G = .ok C) : s = s' := by
  have hr : Resolved Nx Ny G := by
    by_contra hr; rw [(C15_entries _ G).2 hr] at h; simp at h
  obtain ⟨M, h1, h2⟩ := (C15_entries s G).1 hr
  obtain ⟨M', h1', h2'⟩ := (C15_entries s' G).1 hr
  rw [h1] at h; injection h with h; subst h
  rw [h1'] at h'; injection h' with h'; subst h'
  refine coeff_determines s s' fun d => ?_
  have hd : ¬ HiddenOrder Nx Ny G d := fun hd => hG ⟨d, hd⟩
  unfold HiddenOrder at hd
  push Not at hd
  obtain ⟨i, j, ⟨a, ha⟩, ⟨b, hb⟩⟩ := hd
  have e : (d.1 + Nx * a, d.2 + Ny * b) = G i - G j := Prod.ext (by rw [← ha]; ring) (by rw [← hb]; ring)
  rw [← C193_alias hx hy s d a b, ← C193_alias hx hy s' d a b, e, ← h2, ← h2']

/-- 3 orders and 4 x 4 pixels: every design has twins. -/
example (s : Fin 4 → Fin 4 → ℝ) (G : Fin 3 → ℤ × ℤ) : ∃ s' : Fin 4 → Fin 4 → ℝ, s' ≠ s ∧ epsilonFft (1 / (4 : ℕ) / (4 : ℕ)) (.iso fun m k => (s' m k : ℂ)) G = epsilonFft (1 / (4 : ℕ) / (4 : ℕ)) (.iso fun m k => (s m k : ℂ)) G := by
  obtain ⟨s', -, h, he⟩ := C196_twins (by norm_num : 0 < 4) (by norm_num : 0 < 4) G (by norm_num) s 1 one_pos
  refine ⟨s', fun h' => ?_, he⟩
  rw [h'] at h
  linarith

/-- the wave of order 2 is hidden from the orders 0 and 1 on four pixels -/
example : HiddenOrder 4 1 twoOrders (2, 0) := by unfold HiddenOrder twoOrders; decide

/-- from the orders 0 and 1 no wave on three pixels is hidden, so these determine the pattern -/
example : ¬ ∃ d, HiddenOrder 3 1 twoOrders d := by
  rintro ⟨d, h⟩
  have h00 := h 0 0
  have h01 := h 0 1
  have h10 := h 1 0
  simp [twoOrders] at h00 h01 h10
  omega

end Nidn
