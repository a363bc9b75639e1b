/-
C185: Fourier coefficients of sampled fields and what a convolution matrix does to them.
-/
import Verif.Model.Fft
import Verif.Props.Conv
import Mathlib.LinearAlgebra.Dimension.Finrank
import Mathlib.LinearAlgebra.FiniteDimensional.Lemmas
import Mathlib.LinearAlgebra.Dimension.Constructions

namespace Nidn

/-- Spec: the field with amplitude `a i` in the diffraction order `G i`, sampled on the grid of the pattern. -/
noncomputable def ordersField {Nx Ny n : ℕ} (G : Fin n → ℤ × ℤ) (a : Fin n → ℂ) : Fin Nx → Fin Ny → ℂ := fun m k =>
  ∑ i, a i * Complex.exp (2 * Real.pi * Complex.I * ((m : ℕ) * (G i).1 / Nx + (k : ℕ) * (G i).2 / Ny))

/-- Spec: every order itself is an index of the grid. -/
def OrdersInRange {n : ℕ} (Nx Ny : ℕ) (G : Fin n → ℤ × ℤ) : Prop := ∀ i, (-(Nx : ℤ) ≤ (G i).1 ∧ (G i).1 < Nx) ∧ (-(Ny : ℤ) ≤ (G i).2 ∧ (G i).2 < Ny)

/-- C185: `get_fft` returns the Fourier coefficients of the field at the given orders; an order outside the grid is an IndexError. -/
theorem C185_coefficients {Nx Ny n : ℕ} (s : Fin Nx → Fin Ny → ℂ) (G : Fin n → ℤ × ℤ) :
    (OrdersInRange Nx Ny G → getFft (1 / Nx / Ny) s G = .ok fun i => fourierCoeff s (G i)) ∧ (¬ OrdersInRange Nx Ny G → getFft (1 / Nx / Ny) s G = .error .indexError) := by
  have hiff : (∀ i, (convEntry (1 / Nx / Ny) s (G i)).isSome) ↔ OrdersInRange Nx Ny G := forall_congr' fun i => convEntry_isSome _ s (G i)
  constructor
  · intro h
    rw [getFft, if_pos (hiff.2 h)]
    congr 1
    funext i
    obtain ⟨z, hz⟩ := Option.isSome_iff_exists.1 (hiff.2 h i)
    rw [hz]
    exact convEntry_eq s _ z hz
  · intro h
    rw [getFft, if_neg (fun h' => h (hiff.1 h'))]

lemma getFft_eq {Nx Ny n : ℕ} {s : Fin Nx → Fin Ny → ℂ} {G : Fin n → ℤ × ℤ} {v : Fin n → ℂ} (h : getFft (1 / Nx / Ny) s G = .ok v) : v = fun i => fourierCoeff s (G i) := by
  by_cases hr : OrdersInRange Nx Ny G
  · rw [(C185_coefficients s G).1 hr] at h
    injection h with h
    exact h.symm
  · rw [(C185_coefficients s G).2 hr] at h
    cases h

/-- the coefficients of the pattern times a field -/
lemma fourierCoeff_product {Nx Ny n : ℕ} (s : Fin Nx → Fin Ny → ℂ) (G : Fin n → ℤ × ℤ) (a : Fin n → ℂ) (d : ℤ × ℤ) :
    fourierCoeff (fun m k => s m k * ordersField G a m k) d = ∑ j, fourierCoeff s (d - G j) * a j := by
  unfold fourierCoeff ordersField
  have e : ∀ j : Fin n, 1 / ((Nx : ℂ) * Ny) * (∑ m : Fin Nx, ∑ k : Fin Ny, s m k *
      Complex.exp (-(2 * Real.pi * Complex.I) * ((m : ℕ) * ((d - G j).1 : ℤ) / Nx + (k : ℕ) * ((d - G j).2 : ℤ) / Ny))) * a j =
      1 / ((Nx : ℂ) * Ny) * ∑ m : Fin Nx, ∑ k : Fin Ny, s m k * (a j * Complex.exp (2 * Real.pi * Complex.I * ((m : ℕ) * (G j).1 / Nx + (k : ℕ) * (G j).2 / Ny))) *
        Complex.exp (-(2 * Real.pi * Complex.I) * ((m : ℕ) * d.1 / Nx + (k : ℕ) * d.2 / Ny)) := by
    intro j
    rw [mul_assoc, Finset.sum_mul]
    congr 1
    refine Finset.sum_congr rfl fun m _ => ?_
    rw [Finset.sum_mul]
    refine Finset.sum_congr rfl fun k _ => ?_
    rw [show s m k * (a j * Complex.exp (2 * Real.pi * Complex.I * ((m : ℕ) * (G j).1 / Nx + (k : ℕ) * (G j).2 / Ny))) * Complex.exp (-(2 * Real.pi * Complex.I) * ((m : ℕ) * d.1 / Nx + (k : ℕ) * d.2 / Ny)) =
      s m k * (Complex.exp (2 * Real.pi * Complex.I * ((m : ℕ) * (G j).1 / Nx + (k : ℕ) * (G j).2 / Ny)) * Complex.exp (-(2 * Real.pi * Complex.I) * ((m : ℕ) * d.1 / Nx + (k : ℕ) * d.2 / Ny))) * a j by ring,
      ← Complex.exp_add]
    congr 3
    simp only [Prod.fst_sub, Prod.snd_sub, Int.cast_sub]
    ring
  rw [Finset.sum_congr rfl (fun j (_ : j ∈ Finset.univ) => e j), ← Finset.mul_sum]
  congr 1
  symm
  rw [Finset.sum_comm]
  refine Finset.sum_congr rfl fun m _ => ?_
  rw [Finset.sum_comm]
  refine Finset.sum_congr rfl fun k _ => ?_
  simp only [Finset.mul_sum, Finset.sum_mul]

/-- C185: the convolution matrix multiplies: applied to the amplitudes of a field it gives the amplitudes (at the same orders) of the pattern times the field. -/
theorem C185_multiplies {Nx Ny n : ℕ} (s : Fin Nx → Fin Ny → ℂ) (G : Fin n → ℤ × ℤ) (C : Matrix (Fin n) (Fin n) ℂ) (a v : Fin n → ℂ)
    (hC : getConv (1 / Nx / Ny) s G = .ok C) (hv : getFft (1 / Nx / Ny) (fun m k => s m k * ordersField G a m k) G = .ok v) : v = C.mulVec a := by
  have hr : Resolved Nx Ny G := by
    by_contra h; rw [(C15_entries s G).2 h] at hC; simp at hC
  obtain ⟨M', h1, h2⟩ := (C15_entries s G).1 hr
  rw [h1] at hC; injection hC with hC; subst hC
  rw [getFft_eq hv]
  funext i
  rw [fourierCoeff_product, Matrix.mulVec, dotProduct]
  exact Finset.sum_congr rfl fun j _ => by rw [h2]

lemma fourierCoeff_ordersField {Nx Ny n : ℕ} (G : Fin n → ℤ × ℤ) (hG : Function.Injective G) (hr : Resolved Nx Ny G) (a : Fin n → ℂ) (i : Fin n) :
    fourierCoeff (ordersField (Nx := Nx) (Ny := Ny) G a) (G i) = a i := by
  have h := fourierCoeff_product (fun (_ : Fin Nx) (_ : Fin Ny) => (1 : ℂ)) G a (G i)
  simp only [one_mul] at h
  have e : (fun m k => ordersField (Nx := Nx) (Ny := Ny) G a m k) = ordersField G a := rfl
  rw [e] at h
  rw [h, Finset.sum_eq_single i]
  · rw [fourierCoeff_const 1 _ (hr i i).1 (hr i i).2]; simp
  · intro j _ hj
    rw [fourierCoeff_const 1 _ (hr i j).1 (hr i j).2, if_neg (fun h => hj (hG (sub_eq_zero.1 h).symm)), zero_mul]
  · intro h; exact absurd (Finset.mem_univ i) h

/-- C185: `get_fft` recovers the amplitudes of a field from its samples, if the orders are distinct and the grid resolves their differences. -/
theorem C185_recovers {Nx Ny n : ℕ} (G : Fin n → ℤ × ℤ) (hG : Function.Injective G) (hr : Resolved Nx Ny G) (a v : Fin n → ℂ)
    (hv : getFft (1 / Nx / Ny) (ordersField (Nx := Nx) (Ny := Ny) G a) G = .ok v) : v = a := by
  rw [getFft_eq hv]
  exact funext fun i => fourierCoeff_ordersField G hG hr a i

/-- C185: as many orders as pixels determine the pattern: the field with the amplitudes `get_fft` returns is the pattern itself. -/
theorem C185_complete {Nx Ny n : ℕ} (G : Fin n → ℤ × ℤ) (hG : Function.Injective G) (hr : Resolved Nx Ny G) (hn : n = Nx * Ny) (s : Fin Nx → Fin Ny → ℂ) (v : Fin n → ℂ)
    (hv : getFft (1 / Nx / Ny) s G = .ok v) : ordersField G v = s := by
  let L : (Fin n → ℂ) →ₗ[ℂ] (Fin Nx → Fin Ny → ℂ) :=
    { toFun := ordersField G
      map_add' := by
        intro a b
        funext m k
        simp only [ordersField, Pi.add_apply, add_mul, Finset.sum_add_distrib]
      map_smul' := by
        intro c a
        funext m k
        simp only [ordersField, Pi.smul_apply, smul_eq_mul, RingHom.id_apply, Finset.mul_sum, mul_assoc] }
  have hinj : Function.Injective L := by
    intro a b hab
    funext i
    have := congrArg (fun f => fourierCoeff f (G i)) hab
    simpa only [L, LinearMap.coe_mk, AddHom.coe_mk, fourierCoeff_ordersField G hG hr] using this
  have hdim : Module.finrank ℂ (Fin n → ℂ) = Module.finrank ℂ (Fin Nx → Fin Ny → ℂ) := by
    rw [Module.finrank_fin_fun, Module.finrank_pi_fintype]
    simp [hn]
  obtain ⟨a, rfl⟩ := (LinearMap.injective_iff_surjective_of_finrank_eq_finrank hdim).1 hinj s
  have := C185_recovers G hG hr a v hv
  rw [this]
  rfl

/-- what a field leaves of the pattern is orthogonal to all fields of the orders -/
lemma remainder_orthogonal {Nx Ny n : ℕ} (G : Fin n → ℤ × ℤ) (hG : Function.Injective G) (hr : Resolved Nx Ny G) (s : Fin Nx → Fin Ny → ℂ) (b : Fin n → ℂ) :
    ∑ m : Fin Nx, ∑ k : Fin Ny, (s m k - ordersField G (fun i => fourierCoeff s (G i)) m k) * (starRingEnd ℂ) (ordersField G b m k) = 0 := by
  rcases Nat.eq_zero_or_pos Nx with h0 | hx
  · subst h0; simp
  rcases Nat.eq_zero_or_pos Ny with h0 | hy
  · subst h0; simp
  have hx' : (Nx : ℂ) ≠ 0 := by exact_mod_cast hx.ne'
  have hy' : (Ny : ℂ) ≠ 0 := by exact_mod_cast hy.ne'
  set r : Fin Nx → Fin Ny → ℂ := fun m k => s m k - ordersField G (fun i => fourierCoeff s (G i)) m k with hrdef
  have hc : ∀ i, fourierCoeff r (G i) = 0 := by
    intro i
    have : fourierCoeff r (G i) = fourierCoeff s (G i) - fourierCoeff (ordersField (Nx := Nx) (Ny := Ny) G (fun i => fourierCoeff s (G i))) (G i) := by
      simp only [fourierCoeff, hrdef, sub_mul, Finset.sum_sub_distrib, mul_sub]
    rw [this, fourierCoeff_ordersField G hG hr, sub_self]
  have hs : ∀ i, ∑ m : Fin Nx, ∑ k : Fin Ny, r m k * Complex.exp (-(2 * Real.pi * Complex.I) * ((m : ℕ) * (G i).1 / Nx + (k : ℕ) * (G i).2 / Ny)) = 0 := by
    intro i
    have := hc i
    unfold fourierCoeff at this
    exact (mul_eq_zero.1 this).resolve_left (one_div_ne_zero (mul_ne_zero hx' hy'))
  have e : ∀ (m : Fin Nx) (k : Fin Ny), r m k * (starRingEnd ℂ) (ordersField G b m k) =
      ∑ i, (starRingEnd ℂ) (b i) * (r m k * Complex.exp (-(2 * Real.pi * Complex.I) * ((m : ℕ) * (G i).1 / Nx + (k : ℕ) * (G i).2 / Ny))) := by
    intro m k
    rw [ordersField, map_sum, Finset.mul_sum]
    refine Finset.sum_congr rfl fun i _ => ?_
    rw [map_mul, ← Complex.exp_conj]
    have : (starRingEnd ℂ) (2 * Real.pi * Complex.I * ((m : ℕ) * (G i).1 / Nx + (k : ℕ) * (G i).2 / Ny)) = -(2 * Real.pi * Complex.I) * ((m : ℕ) * (G i).1 / Nx + (k : ℕ) * (G i).2 / Ny) := by
      simp only [map_mul, map_add, map_div₀, Complex.conj_ofReal, Complex.conj_I, map_natCast, map_intCast, map_ofNat]
      ring
    rw [this]; ring
  rw [Finset.sum_congr rfl fun m (_ : m ∈ Finset.univ) => Finset.sum_congr rfl fun k (_ : k ∈ Finset.univ) => e m k]
  calc _ = ∑ i, (starRingEnd ℂ) (b i) * ∑ m : Fin Nx, ∑ k : Fin Ny, r m k * Complex.exp (-(2 * Real.pi * Complex.I) * ((m : ℕ) * (G i).1 / Nx + (k : ℕ) * (G i).2 / Ny)) := by
        simp only [Finset.mul_sum]
        rw [Finset.sum_comm (s := (Finset.univ : Finset (Fin n)))]
        refine Finset.sum_congr rfl fun m _ => ?_
        rw [Finset.sum_comm]
    _ = 0 := Finset.sum_eq_zero fun i _ => by rw [hs, mul_zero]

/-- C185: with fewer orders the amplitudes `get_fft` returns are the best ones: no other amplitudes have a smaller mean square distance to the pattern. -/
theorem C185_best {Nx Ny n : ℕ} (G : Fin n → ℤ × ℤ) (hG : Function.Injective G) (hr : Resolved Nx Ny G) (s : Fin Nx → Fin Ny → ℂ) (v : Fin n → ℂ)
    (hv : getFft (1 / Nx / Ny) s G = .ok v) (b : Fin n → ℂ) :
    ∑ m : Fin Nx, ∑ k : Fin Ny, ‖s m k - ordersField G v m k‖ ^ 2 ≤ ∑ m : Fin Nx, ∑ k : Fin Ny, ‖s m k - ordersField G b m k‖ ^ 2 := by
  have ev := getFft_eq hv
  subst ev
  set v := fun i => fourierCoeff s (G i) with hvdef
  have hd : ∀ (m : Fin Nx) (k : Fin Ny), ordersField G (v - b) m k = ordersField G v m k - ordersField G b m k := by
    intro m k
    simp only [ordersField, Pi.sub_apply, sub_mul, Finset.sum_sub_distrib]
  have horth := remainder_orthogonal G hG hr s (v - b)
  have hre := congrArg Complex.re horth
  simp only [Complex.re_sum, Complex.zero_re] at hre
  have e : ∀ (m : Fin Nx) (k : Fin Ny), ‖s m k - ordersField G b m k‖ ^ 2 = ‖s m k - ordersField G v m k‖ ^ 2 + ‖ordersField G (v - b) m k‖ ^ 2 +
      2 * ((s m k - ordersField G v m k) * (starRingEnd ℂ) (ordersField G (v - b) m k)).re := by
    intro m k
    have : s m k - ordersField G b m k = (s m k - ordersField G v m k) + ordersField G (v - b) m k := by rw [hd]; ring
    rw [this, ← Complex.normSq_eq_norm_sq, Complex.normSq_add, Complex.normSq_eq_norm_sq, Complex.normSq_eq_norm_sq]
  simp only [e, Finset.sum_add_distrib, ← Finset.mul_sum]
  rw [hre, mul_zero, add_zero]
  have : 0 ≤ ∑ m : Fin Nx, ∑ k : Fin Ny, ‖ordersField G (v - b) m k‖ ^ 2 := Finset.sum_nonneg fun _ _ => Finset.sum_nonneg fun _ _ => sq_nonneg _
  linarith

/-- all hypotheses hold for the two-pixel grating with orders 0 and 1: there are as many orders as pixels, and `get_fft` finds the amplitudes 2 and -1 -/
example : Function.Injective twoOrders ∧ Resolved 2 1 twoOrders ∧ OrdersInRange 2 1 twoOrders ∧ (2 : ℕ) = 2 * 1 ∧
    getFft (1 / (2 : ℕ) / (1 : ℕ)) twoPixel twoOrders = .ok ![2, -1] := by
  have hr : OrdersInRange 2 1 twoOrders := by unfold OrdersInRange twoOrders; decide
  refine ⟨by unfold twoOrders; decide, resolved_twoOrders 2 le_rfl, hr, rfl, ?_⟩
  rw [(C185_coefficients twoPixel twoOrders).1 hr]
  congr 1
  funext i
  fin_cases i
  · simp [fourierCoeff, twoOrders, twoPixel, Fin.sum_univ_two]; norm_num
  · have := exp_neg_pi_I
    simp only [fourierCoeff, twoOrders, twoPixel, Fin.sum_univ_two]
    norm_num at this ⊢
    rw [this]; norm_num

/-- an order the grid does not have -/
example : ¬ OrdersInRange 2 1 (fun _ : Fin 1 => ((2, 0) : ℤ × ℤ)) := by unfold OrdersInRange; decide

end Nidn
