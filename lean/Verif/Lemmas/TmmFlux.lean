/-
Power flow in the layers of a `coh_tmm` run.
-/
import Verif.Lemmas.Tmm
import Mathlib.Analysis.Calculus.Deriv.Star
import Mathlib.Analysis.Calculus.Deriv.MeanValue
import Mathlib.Analysis.SpecialFunctions.ExpDeriv

namespace Nidn

noncomputable section

/-- power flow of amplitudes, before normalisation -/
def tmmFlux (pol : String) (n th : ℂ) (v : Fin 2 → ℂ) : ℝ := (starRingEnd ℂ (tmmA pol n th * (v 0 + v 1)) * (tmmB pol n th * (v 0 - v 1))).re

lemma joined_flux {pol : String} {n th n' th' : ℂ} {v v' : Fin 2 → ℂ} (h : TmmJoined pol n th n' th' v v') : tmmFlux pol n th v = tmmFlux pol n' th' v' := by
  unfold tmmFlux; rw [h.1, h.2]

lemma flux_forward (pol : String) (n th t : ℂ) : tmmFlux pol n th ![t, 0] = ‖t‖ ^ 2 * tmmP pol n th := by
  unfold tmmFlux tmmA tmmB tmmP
  rw [← Complex.normSq_eq_norm_sq, Complex.normSq_apply]
  by_cases hs : pol = "s"
  · simp only [hs, if_true, Matrix.cons_val_zero, Matrix.cons_val_one, add_zero, sub_zero, one_mul, Complex.mul_re, Complex.mul_im, Complex.conj_re, Complex.conj_im]
    ring
  · simp only [hs, if_false, Matrix.cons_val_zero, Matrix.cons_val_one, add_zero, sub_zero, map_mul, Complex.mul_re, Complex.mul_im, Complex.conj_re, Complex.conj_im]
    ring

/-- amplitudes at depth `z` -/
def atDepth (k : ℂ) (z : ℝ) (v : Fin 2 → ℂ) : Fin 2 → ℂ := atBack (k * z) v

lemma atDepth_zero (k : ℂ) (v : Fin 2 → ℂ) : atDepth k 0 v = v := by
  funext i
  fin_cases i <;> simp [atDepth, atBack]

/-- the losses per length at a point -/
def tmmLoss (G k : ℂ) (v : Fin 2 → ℂ) : ℝ := (G * k).im * ‖v 0 + v 1‖ ^ 2 - (G * starRingEnd ℂ k).im * ‖v 0 - v 1‖ ^ 2

lemma atDepth_deriv (k : ℂ) (v : Fin 2 → ℂ) (z : ℝ) :
    HasDerivAt (fun x : ℝ => atDepth k x v 0 + atDepth k x v 1) (Complex.I * k * (atDepth k z v 0 - atDepth k z v 1)) z ∧
    HasDerivAt (fun x : ℝ => atDepth k x v 0 - atDepth k x v 1) (Complex.I * k * (atDepth k z v 0 + atDepth k z v 1)) z := by
  have hz : HasDerivAt (fun x : ℝ => (x : ℂ)) 1 z := by simpa using (hasDerivAt_id z).ofReal_comp
  have h0 : HasDerivAt (fun x : ℝ => atDepth k x v 0) (Complex.I * k * atDepth k z v 0) z := by
    have e : (fun x : ℝ => atDepth k x v 0) = fun x : ℝ => v 0 * Complex.exp (Complex.I * k * x) := by
      funext x; simp [atDepth, atBack, mul_assoc]
    rw [e]
    refine (((hz.const_mul (Complex.I * k)).cexp).const_mul (v 0)).congr_deriv ?_
    simp only [atDepth, atBack, Matrix.cons_val_zero, mul_assoc]
    ring
  have h1 : HasDerivAt (fun x : ℝ => atDepth k x v 1) (-(Complex.I * k * atDepth k z v 1)) z := by
    have e : (fun x : ℝ => atDepth k x v 1) = fun x : ℝ => v 1 * Complex.exp (-Complex.I * k * x) := by
      funext x; simp [atDepth, atBack, mul_assoc]
    rw [e]
    refine (((hz.const_mul (-Complex.I * k)).cexp).const_mul (v 1)).congr_deriv ?_
    simp only [atDepth, atBack, Matrix.cons_val_one, mul_assoc, Matrix.cons_val_zero]
    ring
  constructor
  · exact (h0.add h1).congr_deriv (by ring)
  · exact (h0.sub h1).congr_deriv (by ring)

/-- the power flow decreases at the rate of the losses -/
lemma flux_deriv (pol : String) (n th k : ℂ) (v : Fin 2 → ℂ) (z : ℝ) :
    HasDerivAt (fun x : ℝ => tmmFlux pol n th (atDepth k x v)) (-tmmLoss (starRingEnd ℂ (tmmA pol n th) * tmmB pol n th) k (atDepth k z v)) z := by
  obtain ⟨hE, hD⟩ := atDepth_deriv k v z
  have h1 := (hE.const_mul (tmmA pol n th)).star
  have h2 := h1.mul (hD.const_mul (tmmB pol n th))
  have h3 := Complex.reCLM.hasFDerivAt.comp_hasDerivAt z h2
  refine h3.congr_deriv ?_
  simp only [tmmLoss, Complex.reCLM_apply, starRingEnd_apply, ← Complex.normSq_eq_norm_sq, Complex.normSq_apply]
  generalize tmmA pol n th = A
  generalize tmmB pol n th = B
  generalize atDepth k z v 0 = p
  generalize atDepth k z v 1 = q
  simp only [Complex.star_def, map_mul, map_add, map_sub, Complex.mul_re, Complex.mul_im, Complex.add_re, Complex.add_im, Complex.sub_re, Complex.sub_im, Complex.conj_re, Complex.conj_im,
    Complex.I_re, Complex.I_im]
  ring

lemma tmmFlux_drop {pol : String} {n th k : ℂ} (h : ∀ v, 0 ≤ tmmLoss (starRingEnd ℂ (tmmA pol n th) * tmmB pol n th) k v) (v : Fin 2 → ℂ) {x : ℝ} (hx : 0 ≤ x) :
    tmmFlux pol n th (atBack (k * x) v) ≤ tmmFlux pol n th v := by
  have hd := fun z => flux_deriv pol n th k v z
  have ha : Antitone fun x : ℝ => tmmFlux pol n th (atDepth k x v) := by
    apply antitone_of_deriv_nonpos
    · intro z; exact (hd z).differentiableAt
    · intro z; rw [(hd z).deriv]; exact neg_nonpos.2 (h _)
  have := ha hx
  simp only [atDepth_zero] at this
  exact this

lemma flux_keep {pol : String} {n th k : ℂ} (h : ∀ v, tmmLoss (starRingEnd ℂ (tmmA pol n th) * tmmB pol n th) k v = 0) (v : Fin 2 → ℂ) (x : ℝ) :
    tmmFlux pol n th (atBack (k * x) v) = tmmFlux pol n th v := by
  have hd := fun z => flux_deriv pol n th k v z
  have := is_const_of_deriv_eq_zero (fun z => (hd z).differentiableAt) (fun z => by rw [(hd z).deriv, h, neg_zero]) x 0
  simp only [atDepth_zero] at this
  exact this

/-- the losses of a layer with index `n` and real horizontal wave number `s` -/
lemma loss_layer {pol : String} (hp : pol = "s" ∨ pol = "p") {n th : ℂ} {s lam : ℝ} (hn : n ≠ 0) (hs : n * Complex.sin th = s) (v : Fin 2 → ℂ) :
    tmmLoss (starRingEnd ℂ (tmmA pol n th) * tmmB pol n th) (2 * Real.pi * n * Complex.cos th / lam) v =
      2 * Real.pi / lam * (n ^ 2).im * (if pol = "s" then ‖v 0 + v 1‖ ^ 2 else ‖Complex.cos th‖ ^ 2 * ‖v 0 - v 1‖ ^ 2 + s ^ 2 / ‖n‖ ^ 2 * ‖v 0 + v 1‖ ^ 2) := by
  have hsq : (n * Complex.cos th) ^ 2 = n ^ 2 - s ^ 2 := by rw [← hs]; linear_combination n ^ 2 * Complex.sin_sq_add_cos_sq th
  set κ : ℝ := 2 * Real.pi / lam with hκ
  have hk : 2 * (Real.pi : ℂ) * n * Complex.cos th / lam = κ * (n * Complex.cos th) := by rw [hκ]; push_cast; ring
  rw [hk]
  unfold tmmLoss
  generalize ‖v 0 + v 1‖ ^ 2 = P
  generalize ‖v 0 - v 1‖ ^ 2 = Q
  have hn2 : Complex.normSq n ≠ 0 := by simpa using hn
  rcases hp with rfl | rfl
  · simp only [tmmA, tmmB, if_true, map_one, one_mul]
    have e1 : (n * Complex.cos th * (κ * (n * Complex.cos th))).im = κ * (n ^ 2).im := by
      rw [show n * Complex.cos th * (κ * (n * Complex.cos th)) = κ * (n * Complex.cos th) ^ 2 by ring, hsq, ← Complex.ofReal_pow, Complex.im_ofReal_mul, Complex.sub_im, Complex.ofReal_im, sub_zero]
    have e2 : (n * Complex.cos th * starRingEnd ℂ (κ * (n * Complex.cos th))).im = 0 := by
      rw [map_mul, Complex.conj_ofReal, show n * Complex.cos th * (κ * starRingEnd ℂ (n * Complex.cos th)) = κ * (n * Complex.cos th * starRingEnd ℂ (n * Complex.cos th)) by ring,
        Complex.mul_conj, ← Complex.ofReal_mul, Complex.ofReal_im]
    rw [e1, e2]; ring
  · simp only [tmmA, tmmB, if_neg (show ¬("p" = "s") by decide)]
    rw [← Complex.normSq_eq_norm_sq, ← Complex.normSq_eq_norm_sq]
    have e1 : (starRingEnd ℂ n * Complex.cos th * (κ * (n * Complex.cos th))).im = κ * (s ^ 2 / Complex.normSq n * (n ^ 2).im) := by
      have h1 : starRingEnd ℂ n * Complex.cos th * (κ * (n * Complex.cos th)) = κ * (starRingEnd ℂ n * ((n * Complex.cos th) ^ 2 / n)) := by field_simp
      have h2 : starRingEnd ℂ n * ((n ^ 2 - s ^ 2) / n) = (Complex.normSq n : ℂ) - ((s ^ 2 / Complex.normSq n : ℝ) : ℂ) * starRingEnd ℂ (n ^ 2) := by
        have : (Complex.normSq n : ℂ) ≠ 0 := by exact_mod_cast hn2
        push_cast
        rw [map_pow]
        rw [← Complex.mul_conj] at this ⊢
        have : starRingEnd ℂ n ≠ 0 := right_ne_zero_of_mul this
        field_simp
      rw [h1, hsq, h2, Complex.im_ofReal_mul, Complex.sub_im, Complex.ofReal_im, Complex.im_ofReal_mul, Complex.conj_im]
      ring
    have e2 : (starRingEnd ℂ n * Complex.cos th * starRingEnd ℂ (κ * (n * Complex.cos th))).im = -(κ * (Complex.normSq (Complex.cos th) * (n ^ 2).im)) := by
      have h1 : starRingEnd ℂ n * Complex.cos th * starRingEnd ℂ (κ * (n * Complex.cos th)) = ((κ * Complex.normSq (Complex.cos th) : ℝ) : ℂ) * starRingEnd ℂ (n ^ 2) := by
        push_cast
        rw [← Complex.mul_conj, map_mul, map_mul, map_pow, Complex.conj_ofReal]
        ring
      rw [h1, Complex.im_ofReal_mul, Complex.conj_im]
      ring
    rw [e1, e2]
    ring

end

end Nidn
