/-
C187: with as many orders as pixels the convolution matrix knows exactly the permittivities of the pattern.
-/
import Verif.Props.ConvHull
import Verif.Props.Fft

namespace Nidn

open Matrix

/-- C187, all orders: with as many orders as pixels the eigenvalues of the convolution matrix are exactly the permittivities of the pattern, so the hull cannot be replaced by anything smaller for all truncations. -/
theorem C187_complete {Nx Ny n : ℕ} (s : Fin Nx → Fin Ny → ℂ) (G : Fin n → ℤ × ℤ) (hG : Function.Injective G) (hi : OrdersInRange Nx Ny G) (hn : n = Nx * Ny) (C : Matrix (Fin n) (Fin n) ℂ)
    (hC : getConv (1 / Nx / Ny) s G = .ok C) (μ : ℂ) : (∃ x : Fin n → ℂ, x ≠ 0 ∧ C *ᵥ x = μ • x) ↔ ∃ m k, s m k = μ := by
  have hr : Resolved Nx Ny G := by
    by_contra h; rw [(C15_entries s G).2 h] at hC; simp at hC
  have hfull : ∀ f : Fin Nx → Fin Ny → ℂ, ordersField G (fun i => fourierCoeff f (G i)) = f := fun f => C185_complete G hG hr hn f _ ((C185_coefficients f G).1 hi)
  have hmul : ∀ x : Fin n → ℂ, C *ᵥ x = fun i => fourierCoeff (fun m k => s m k * ordersField G x m k) (G i) := fun x =>
    (C185_multiplies s G C x _ hC ((C185_coefficients _ G).1 hi)).symm
  have hsmul : ∀ x : Fin n → ℂ, ordersField (Nx := Nx) (Ny := Ny) G (μ • x) = fun m k => μ * ordersField G x m k := by
    intro x
    funext m k
    simp only [ordersField, Pi.smul_apply, smul_eq_mul, Finset.mul_sum, mul_assoc]
  constructor
  · rintro ⟨x, hx, he⟩
    have h1 := congrArg (ordersField (Nx := Nx) (Ny := Ny) G) he
    rw [hmul x, hfull, hsmul] at h1
    by_contra hno
    push Not at hno
    apply hx
    funext i
    rw [← fourierCoeff_ordersField G hG hr x i]
    have hz : ordersField (Nx := Nx) (Ny := Ny) G x = fun _ _ => 0 := by
      funext m k
      have h2 : s m k * ordersField G x m k = μ * ordersField G x m k := congrFun (congrFun h1 m) k
      have h3 : (s m k - μ) * ordersField G x m k = 0 := by rw [sub_mul, h2, sub_self]
      exact (mul_eq_zero.1 h3).resolve_left (sub_ne_zero.2 (hno m k))
    rw [hz]
    simp [fourierCoeff]
  · rintro ⟨m₀, k₀, rfl⟩
    set f : Fin Nx → Fin Ny → ℂ := fun m k => if m = m₀ ∧ k = k₀ then 1 else 0 with hf
    refine ⟨fun i => fourierCoeff f (G i), fun h0 => ?_, ?_⟩
    · have h1 := hfull f
      rw [h0] at h1
      have h2 := congrFun (congrFun h1 m₀) k₀
      simp [ordersField, hf] at h2
    · rw [hmul, hfull]
      funext i
      have : (fun m k => s m k * f m k) = fun m k => s m₀ k₀ * f m k := by
        funext m k
        by_cases h : m = m₀ ∧ k = k₀
        · rw [h.1, h.2]
        · simp [hf, h]
      rw [this, Pi.smul_apply, smul_eq_mul]
      simp only [fourierCoeff, Finset.mul_sum]
      exact Finset.sum_congr rfl fun m _ => Finset.sum_congr rfl fun k _ => by ring

/-- the two-pixel grating has as many orders as pixels -/
example : Function.Injective twoOrders ∧ OrdersInRange 2 1 twoOrders ∧ 2 = 2 * 1 ∧ ∃ C, getConv (1 / (2 : ℕ) / (1 : ℕ)) twoPixel twoOrders = .ok C := by
  obtain ⟨C, h1, -⟩ := (C15_entries twoPixel twoOrders).1 (resolved_twoOrders 2 le_rfl)
  exact ⟨by unfold twoOrders; decide, fun i => by fin_cases i <;> simp [twoOrders], rfl, C, h1⟩

end Nidn
