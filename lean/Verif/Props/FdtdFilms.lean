/-
Property C124: what the FDTD grid settles into behind a stack of layers. The stationary states of the grid are those of a stack of films with the grid's
own refractive indices.
-/
import Verif.Spec.Films
import Verif.Props.FdtdSpeed
import Verif.Props.FdtdTorus
import Verif.Props.FdtdCurl
import Mathlib.Analysis.SpecialFunctions.Trigonometric.Complex
import Mathlib.Tactic.FieldSimp
import Mathlib.Topology.Algebra.Monoid
import Mathlib.Tactic.LinearCombination

open Filter Topology

namespace Nidn

noncomputable section

/-! ### films made of cells -/

/-- tangential fields (magnetic, electric) half way between the cells `x` and `x + 1` of a stationary wave -/
def halfway (u : ℕ → ℂ) (x : ℕ) : ℂ × ℂ := ((u (x + 1) - u x) / (2 * Complex.I), (u x + u (x + 1)) / 2)

/-- impedance of the waves in a medium in which the phase advances by `κ` per cell -/
def gridImpedance (κ : ℂ) : ℂ := Complex.cos (κ / 2) / Complex.sin (κ / 2)

/-- fields in front of a list of films from those behind them -/
def throughFilms : List (ℂ × ℂ) → ℂ × ℂ → ℂ × ℂ
  | [], f => f
  | (y, δ) :: films, f => filmFront y δ (throughFilms films f)

lemma frontFields_eq (films : List (ℂ × ℂ)) (yN : ℂ) : frontFields films yN = throughFilms films (1, yN) := by
  induction films with
  | nil => rfl
  | cons yd films ih => obtain ⟨y, δ⟩ := yd; rw [frontFields, throughFilms, ih]

lemma throughFilms_append (a b : List (ℂ × ℂ)) (f : ℂ × ℂ) : throughFilms (a ++ b) f = throughFilms a (throughFilms b f) := by
  induction a with
  | nil => rfl
  | cons yd a ih => obtain ⟨y, δ⟩ := yd; rw [List.cons_append, throughFilms, throughFilms, ih]

lemma gridFront_smul (y δ c : ℂ) (f : ℂ × ℂ) : filmFront y δ (c * f.1, c * f.2) = (c * (filmFront y δ f).1, c * (filmFront y δ f).2) := by
  simp only [filmFront, Prod.mk.injEq]
  constructor <;> ring

lemma throughFilms_smul (films : List (ℂ × ℂ)) (c : ℂ) (f : ℂ × ℂ) :
    throughFilms films (c * f.1, c * f.2) = (c * (throughFilms films f).1, c * (throughFilms films f).2) := by
  induction films with
  | nil => rfl
  | cons yd films ih => obtain ⟨y, δ⟩ := yd; rw [throughFilms, throughFilms, ih, gridFront_smul]

lemma filmFront_add (y a b : ℂ) (hy : y ≠ 0) (f : ℂ × ℂ) : filmFront y a (filmFront y b f) = filmFront y (a + b) f := by
  have hI := Complex.I_sq
  simp only [filmFront, Prod.mk.injEq, Complex.cos_add, Complex.sin_add]
  constructor
  · field_simp
    linear_combination (Complex.sin a * Complex.sin b * f.1 * y) * hI
  · field_simp
    linear_combination (Complex.sin a * Complex.sin b * f.2) * hI

/-- equal cells in a row make one film -/
lemma through_replicate (y κ : ℂ) (hy : y ≠ 0) (d : ℕ) (f : ℂ × ℂ) : throughFilms (List.replicate d (y, κ)) f = filmFront y (d * κ) f := by
  induction d with
  | zero => simp [throughFilms, filmFront]
  | succ d ih =>
    rw [List.replicate_succ, throughFilms, ih, filmFront_add _ _ _ hy]
    congr 1
    push_cast
    ring

/-- a cell of a stationary wave is a film -/
lemma cell_film {u : ℕ → ℂ} {x : ℕ} {κ : ℂ} (hs : Complex.sin (κ / 2) ≠ 0) (hc : Complex.cos (κ / 2) ≠ 0)
    (h : u (x + 2) - 2 * u (x + 1) + u x = -4 * Complex.sin (κ / 2) ^ 2 * u (x + 1)) :
    halfway u x = filmFront (gridImpedance κ) κ (halfway u (x + 1)) := by
  have hI : Complex.I ≠ 0 := Complex.I_ne_zero
  have hI2 := Complex.I_sq
  have e1 : Complex.cos κ = 1 - 2 * Complex.sin (κ / 2) ^ 2 := by
    rw [show κ = 2 * (κ / 2) by ring, Complex.cos_two_mul, Complex.cos_sq']
    rw [show 2 * (κ / 2) / 2 = κ / 2 by ring]
    ring
  have e2 : Complex.sin κ = 2 * Complex.sin (κ / 2) * Complex.cos (κ / 2) := by
    rw [← Complex.sin_two_mul]; congr 1; ring
  have hcc : Complex.cos (κ / 2) ^ 2 = 1 - Complex.sin (κ / 2) ^ 2 := Complex.cos_sq' _
  simp only [halfway, filmFront, gridImpedance, Prod.mk.injEq, e1, e2]
  set S := Complex.sin (κ / 2)
  set C := Complex.cos (κ / 2)
  have h' : u (x + 1 + 1) = (2 - 4 * S ^ 2) * u (x + 1) - u x := by linear_combination h
  rw [h']
  constructor
  · field_simp
    linear_combination (2 * S ^ 2 * ((2 - 4 * S ^ 2) * u (x + 1) - u x + u (x + 1))) * hI2
  · field_simp
    linear_combination (2 * ((2 - 4 * S ^ 2) * u (x + 1) - u x - u (x + 1))) * hcc

/-- `u` is a stationary wave on the cells `lo < x < hi` of a line whose cell `x` has the phase advance `κ x` -/
def Stationary (κ u : ℕ → ℂ) (lo hi : ℕ) : Prop :=
  ∀ x, lo < x → x < hi → u (x + 1) - 2 * u x + u (x - 1) = -4 * Complex.sin (κ x / 2) ^ 2 * u x

/-- the cells `a, a + 1, …` of layers of given phase advances and numbers of cells -/
def laidOut (κ : ℕ → ℂ) : ℕ → List (ℂ × ℕ) → Prop
  | _, [] => True
  | a, (k, d) :: layers => (∀ x, a ≤ x → x < a + d → κ x = k) ∧ laidOut κ (a + d) layers

/-- total number of cells of some layers -/
def layerCells : List (ℂ × ℕ) → ℕ
  | [] => 0
  | (_, d) :: layers => d + layerCells layers

/-- the films the grid makes of some layers -/
def gridFilms (layers : List (ℂ × ℕ)) : List (ℂ × ℂ) := layers.map fun l => (gridImpedance l.1, l.2 * l.1)

/-- a wave number of the grid that is neither static nor at the limit of resolution -/
def WaveResolved (κ : ℂ) : Prop := Complex.sin (κ / 2) ≠ 0 ∧ Complex.cos (κ / 2) ≠ 0

lemma WaveResolved.impedance {κ : ℂ} (h : WaveResolved κ) : gridImpedance κ ≠ 0 := div_ne_zero h.2 h.1

lemma through_layer {κ u : ℕ → ℂ} {lo hi : ℕ} (hu : Stationary κ u lo hi) {k : ℂ} (hk : WaveResolved k) (d a : ℕ) (ha : lo < a) (hd : a + d ≤ hi)
    (hκ : ∀ x, a ≤ x → x < a + d → κ x = k) : halfway u (a - 1) = filmFront (gridImpedance k) (d * k) (halfway u (a + d - 1)) := by
  rw [← through_replicate _ _ hk.impedance]
  induction d generalizing a with
  | zero => rfl
  | succ d ih =>
    rw [List.replicate_succ, throughFilms, show a + (d + 1) - 1 = a + 1 + d - 1 by omega,
      ← ih (a + 1) (by omega) (by omega) fun x h1 h2 => hκ x (by omega) (by omega)]
    obtain ⟨b, rfl⟩ : ∃ b, a = b + 1 := ⟨a - 1, by omega⟩
    have h := hu (b + 1) ha (by omega)
    rw [hκ (b + 1) le_rfl (by omega)] at h
    exact cell_film hk.1 hk.2 h

lemma through_layers {κ u : ℕ → ℂ} {lo hi : ℕ} (hu : Stationary κ u lo hi) (layers : List (ℂ × ℕ)) (hk : ∀ l ∈ layers, WaveResolved l.1) (a : ℕ) (ha : lo < a)
    (hd : a + layerCells layers ≤ hi) (hκ : laidOut κ a layers) :
    halfway u (a - 1) = throughFilms (gridFilms layers) (halfway u (a + layerCells layers - 1)) := by
  induction layers generalizing a with
  | nil => rfl
  | cons l layers ih =>
    obtain ⟨k, d⟩ := l
    rw [layerCells] at hd
    rw [gridFilms, List.map_cons, throughFilms, ← gridFilms, layerCells, ← add_assoc,
      ← ih (fun l hl => hk l (List.mem_cons_of_mem _ hl)) (a + d) (by omega) (by omega) hκ.2]
    exact through_layer hu (hk _ List.mem_cons_self) d a ha (by omega) hκ.1

/-- Reflection and transmission of a stack of layers on a line of cells: a stationary wave that consists of an incident wave `A` and a reflected wave `B` in
the two cells in front of the stack and of an outgoing wave `C` in the two cells behind it has the powers of the film formulas. -/
lemma stack_films {κ u : ℕ → ℂ} {lo hi : ℕ} (hu : Stationary κ u lo hi) (layers : List (ℂ × ℕ)) (hk : ∀ l ∈ layers, WaveResolved l.1) (a : ℕ) (ha : lo < a)
    (hd : a + layerCells layers ≤ hi) (hκ : laidOut κ a layers) {k0 : ℝ} (hk0 : WaveResolved k0) {A B C : ℂ} (hA : A ≠ 0)
    (hin : ∀ x, x = a - 1 ∨ x = a → u x = A * Complex.exp (Complex.I * k0 * x) + B * Complex.exp (-(Complex.I * k0 * x)))
    (hout : ∀ x, x = a + layerCells layers - 1 ∨ x = a + layerCells layers → u x = C * Complex.exp (Complex.I * k0 * x)) :
    Complex.normSq (B / A) = filmsR (gridImpedance k0).re (gridFilms layers) (gridImpedance k0) ∧
      Complex.normSq (C / A) = filmsT (gridImpedance k0).re (gridFilms layers) (gridImpedance k0) := by
  have hthrough := through_layers hu layers hk a ha hd hκ
  set b := a + layerCells layers with hb
  have hb0 : 1 ≤ b := by omega
  have hI : Complex.I ≠ 0 := Complex.I_ne_zero
  have hI2 := Complex.I_sq
  set S := Complex.sin ((k0 : ℂ) / 2) with hS
  set D := Complex.cos ((k0 : ℂ) / 2) with hD
  have hS0 : S ≠ 0 := hk0.1
  have hD0 : D ≠ 0 := hk0.2
  -- exponentials half a cell away
  set p := Complex.exp (Complex.I * (k0 / 2)) with hp
  set m := Complex.exp (-(Complex.I * (k0 / 2))) with hm
  have hpm : p * m = 1 := by rw [hp, hm, ← Complex.exp_add]; simp
  have hp1 : p = D + S * Complex.I := by rw [hp, mul_comm, Complex.exp_mul_I]
  have hm1 : m = D - S * Complex.I := by
    rw [hm, show -(Complex.I * ((k0 : ℂ) / 2)) = (-(k0 / 2)) * Complex.I by ring, Complex.exp_mul_I, Complex.cos_neg, Complex.sin_neg]
    ring
  -- the wave behind the stack
  have hback : halfway u (b - 1) = (C * Complex.exp (Complex.I * k0 * ((b : ℂ) - 1 / 2)) * S * 1, C * Complex.exp (Complex.I * k0 * ((b : ℂ) - 1 / 2)) * S * gridImpedance k0) := by
    set q := Complex.exp (Complex.I * k0 * ((b : ℂ) - 1 / 2))
    have e1 : u (b - 1) = C * (q * m) := by
      rw [hout _ (Or.inl rfl), ← Complex.exp_add, Nat.cast_sub hb0]
      congr 2; push_cast; ring
    have e2 : u (b - 1 + 1) = C * (q * p) := by
      rw [Nat.sub_add_cancel hb0, hout _ (Or.inr rfl), ← Complex.exp_add]
      congr 2; ring
    simp only [halfway, Prod.mk.injEq, e1, e2, hp1, hm1, gridImpedance, ← hS, ← hD]
    constructor
    · field_simp; ring
    · field_simp; ring
  -- the waves in front of it
  have hfront : halfway u (a - 1) = (S * (A * Complex.exp (Complex.I * k0 * ((a : ℂ) - 1 / 2)) - B * Complex.exp (-(Complex.I * k0 * ((a : ℂ) - 1 / 2)))),
      D * (A * Complex.exp (Complex.I * k0 * ((a : ℂ) - 1 / 2)) + B * Complex.exp (-(Complex.I * k0 * ((a : ℂ) - 1 / 2))))) := by
    have ha0 : 1 ≤ a := by omega
    set q := Complex.exp (Complex.I * k0 * ((a : ℂ) - 1 / 2))
    set q' := Complex.exp (-(Complex.I * k0 * ((a : ℂ) - 1 / 2)))
    have e1 : u (a - 1) = A * (q * m) + B * (q' * p) := by
      rw [hin _ (Or.inl rfl), ← Complex.exp_add, ← Complex.exp_add, Nat.cast_sub ha0]
      congr 3 <;> push_cast <;> ring
    have e2 : u (a - 1 + 1) = A * (q * p) + B * (q' * m) := by
      rw [Nat.sub_add_cancel ha0, hin _ (Or.inr rfl), ← Complex.exp_add, ← Complex.exp_add]
      congr 3 <;> ring
    simp only [halfway, Prod.mk.injEq, e1, e2, hp1, hm1]
    constructor
    · field_simp; ring
    · ring
  have hunit : ∀ z : ℝ, Complex.normSq (Complex.exp (Complex.I * z)) = 1 ∧ Complex.normSq (Complex.exp (-(Complex.I * z))) = 1 := by
    intro z
    have h1 : Complex.normSq (Complex.exp (Complex.I * z)) = 1 := by rw [mul_comm, Complex.normSq_eq_norm_sq, Complex.norm_exp_ofReal_mul_I]; norm_num
    refine ⟨h1, ?_⟩
    rw [show -(Complex.I * (z : ℂ)) = Complex.I * ((-z : ℝ) : ℂ) by push_cast; ring, mul_comm, Complex.normSq_eq_norm_sq, Complex.norm_exp_ofReal_mul_I]
    norm_num
  have hqa := hunit (k0 * (a - 1 / 2))
  have hqb := hunit (k0 * (b - 1 / 2))
  have ea : Complex.I * ((k0 * (a - 1 / 2) : ℝ) : ℂ) = Complex.I * k0 * ((a : ℂ) - 1 / 2) := by push_cast; ring
  have eb : Complex.I * ((k0 * (b - 1 / 2) : ℝ) : ℂ) = Complex.I * k0 * ((b : ℂ) - 1 / 2) := by push_cast; ring
  rw [ea] at hqa
  rw [eb] at hqb
  set q := Complex.exp (Complex.I * k0 * ((a : ℂ) - 1 / 2)) with hq
  set q' := Complex.exp (-(Complex.I * k0 * ((a : ℂ) - 1 / 2))) with hq'
  set w := Complex.exp (Complex.I * k0 * ((b : ℂ) - 1 / 2)) with hw
  have hy : gridImpedance k0 = D / S := rfl
  have hyre : ((gridImpedance k0).re : ℂ) = gridImpedance k0 := by
    have : gridImpedance k0 = ((Real.cos (k0 / 2) / Real.sin (k0 / 2) : ℝ) : ℂ) := by
      rw [gridImpedance]; push_cast; rfl
    rw [this, Complex.ofReal_re]
  have key := throughFilms_smul (gridFilms layers) (C * w * S) (1, gridImpedance k0)
  rw [hback] at hthrough
  rw [hthrough, key, ← frontFields_eq] at hfront
  set F := frontFields (gridFilms layers) (gridImpedance k0) with hF
  simp only [Prod.mk.injEq] at hfront
  obtain ⟨hf1, hf2⟩ := hfront
  have hSD : S * (D / S) = D := by field_simp
  have hf1' : C * w * F.1 = A * q - B * q' := mul_left_cancel₀ hS0 (by linear_combination hf1)
  have hden : C * w * S * filmsDen (gridImpedance k0) (gridFilms layers) (gridImpedance k0) = 2 * D * (A * q) := by
    rw [filmsDen, ← hF, hy]
    linear_combination (C * w * F.1) * hSD + D * hf1' + hf2
  have hnum : C * w * S * ((gridImpedance k0) * F.1 - F.2) = -(2 * D * (B * q')) := by
    rw [hy]
    linear_combination (C * w * F.1) * hSD + D * hf1' - hf2
  have hq0 : q ≠ 0 := Complex.exp_ne_zero _
  have hne : C * w * S * filmsDen (gridImpedance k0) (gridFilms layers) (gridImpedance k0) ≠ 0 := by
    rw [hden]; exact mul_ne_zero (mul_ne_zero two_ne_zero hD0) (mul_ne_zero hA hq0)
  have hcws : C * w * S ≠ 0 := left_ne_zero_of_mul hne
  have hden0 := right_ne_zero_of_mul hne
  constructor
  · rw [filmsR, hyre, ← hF]
    have : (gridImpedance k0 * F.1 - F.2) / filmsDen (gridImpedance k0) (gridFilms layers) (gridImpedance k0) = -(B / A) * (q' / q) := by
      rw [div_eq_iff hden0]
      apply mul_left_cancel₀ hcws
      rw [hnum]
      have : -(B / A) * (q' / q) * (2 * D * (A * q)) = -(2 * D * (B * q')) := by field_simp
      rw [← this, ← hden]; ring
    rw [this, Complex.normSq_mul, Complex.normSq_neg, Complex.normSq_div q', hqa.1, hqa.2]
    ring
  · rw [filmsT, hyre]
    have h1 := congrArg Complex.normSq hden
    simp only [Complex.normSq_mul, hqa.1, hqb.1] at h1
    have hDn : Complex.normSq (filmsDen (gridImpedance k0) (gridFilms layers) (gridImpedance k0)) ≠ 0 := by
      rwa [Ne, Complex.normSq_eq_zero]
    have hSn : Complex.normSq S ≠ 0 := by rwa [Ne, Complex.normSq_eq_zero]
    have hAn : Complex.normSq A ≠ 0 := by rwa [Ne, Complex.normSq_eq_zero]
    have hyn : (gridImpedance k0).re * (gridImpedance k0).re = Complex.normSq D / Complex.normSq S := by
      rw [← Complex.normSq_div, ← hy, ← hyre, Complex.normSq_ofReal, Complex.ofReal_re]
    rw [Complex.normSq_div, show 4 * (gridImpedance k0).re * (gridImpedance k0).re = 4 * (Complex.normSq D / Complex.normSq S) by rw [mul_assoc, hyn]]
    have h2 : Complex.normSq 2 = 4 := by norm_num [Complex.normSq_apply]
    rw [h2] at h1
    field_simp
    linear_combination h1

/-! ### the grid in a window -/

/-- One periodic boundary along y; everything else leaves the planes `lo ≤ x ≤ hi` alone. -/
def WindowBounds (n : Pos) (lo hi : ℕ) (bs : List (FBoundary ℝ)) : Prop :=
  ∃ l r, bs = l ++ .periodic 1 :: r ∧ ∀ b ∈ l ++ r, ∀ p : Pos, lo ≤ p 0 → p 0 ≤ hi → ¬ b.touchesE n p ∧ ¬ b.touchesH n p

/-- A grid of one cell in z that is periodic in y, with no absorbing layer and no source on the planes `lo ≤ x ≤ hi`; the medium there depends on x only:
inverse permittivity `ie x`, absorption factor `f x`, inverse permeability `im`. -/
structure LineWindow (g : FGrid ℝ) (lo hi : ℕ) (ie f : ℕ → ℝ) (im : ℝ) : Prop where
  wide : 2 ≤ g.n 1
  flat : g.n 2 = 1
  inside : hi < g.n 0
  bounds : WindowBounds g.n lo hi g.boundaries
  sources : ∀ s ∈ g.sources, ∀ p : Pos, lo ≤ p 0 → p 0 ≤ hi → ¬ s.touchesE p ∧ ¬ s.touchesH p
  eps : ∀ x y, lo ≤ x → x ≤ hi → y < g.n 1 → g.invEps ![x, y, 0] 2 = ie x
  absorb : ∀ x y, lo ≤ x → x ≤ hi → y < g.n 1 → g.absorb ![x, y, 0] 2 = f x
  mu : ∀ x y, lo ≤ x → x ≤ hi → y < g.n 1 → g.invMu ![x, y, 0] 1 = im

variable {g : FGrid ℝ} {lo hi : ℕ} {ie f : ℕ → ℝ} {im : ℝ}

lemma WindowBounds.map {n : Pos} {bs : List (FBoundary ℝ)} (h : WindowBounds n lo hi bs) (F : FBoundary ℝ → FBoundary ℝ) (hp : ∀ a, F (.periodic a) = .periodic a)
    (hF : ∀ b p, ((F b).touchesE n p ↔ b.touchesE n p) ∧ ((F b).touchesH n p ↔ b.touchesH n p)) : WindowBounds n lo hi (bs.map F) := by
  obtain ⟨l, r, rfl, h⟩ := h
  refine ⟨l.map F, r.map F, by rw [List.map_append, List.map_cons, hp], fun b hb p h1 h2 => ?_⟩
  rw [← List.map_append] at hb
  obtain ⟨b', hb', rfl⟩ := List.mem_map.1 hb
  rw [(hF b' p).1, (hF b' p).2]
  exact h b' hb' p h1 h2

lemma LineWindow.phasedE (h : LineWindow g lo hi ie f im) : WindowBounds g.n lo hi g.phasedE :=
  h.bounds.map _ (fun _ => rfl) fun b _ => ⟨FBoundary.touchesE_phiE _ _ _ b, FBoundary.touchesH_phiE _ _ _ b⟩

lemma LineWindow.updateE (h : LineWindow g lo hi ie f im) : LineWindow g.updateE lo hi ie f im :=
  ⟨h.wide, h.flat, h.inside, h.phasedE, h.sources, h.eps, h.absorb, h.mu⟩

lemma LineWindow.phasedH (h : LineWindow g lo hi ie f im) : WindowBounds g.n lo hi g.phasedH :=
  h.bounds.map _ (fun _ => rfl) fun b _ => ⟨FBoundary.touchesE_phiH _ _ _ b, FBoundary.touchesH_phiH _ _ _ b⟩

lemma LineWindow.step (h : LineWindow g lo hi ie f im) : LineWindow g.step lo hi ie f im :=
  ⟨h.wide, h.flat, h.inside, h.updateE.phasedH, h.sources, h.eps, h.absorb, h.mu⟩

lemma LineWindow.run (h : LineWindow g lo hi ie f im) (k : ℕ) : LineWindow (g.run k) lo hi ie f im := by
  induction k with
  | zero => exact h
  | succ k ih => exact ih.step

lemma windowE {n : Pos} {co : ℝ} {iv : VField ℝ} {bs : List (FBoundary ℝ)} (h : WindowBounds n lo hi bs) (E : VField ℝ) (p : Pos) (h1 : lo ≤ p 0) (h2 : p 0 ≤ hi) :
    applyBoundariesE n co iv bs E p = if p 1 = 0 then E (Function.update p 1 (n 1 - 1)) else E p := by
  obtain ⟨l, r, rfl, h⟩ := h
  rw [applyBoundariesE, List.foldl_append, List.foldl_cons, ← applyBoundariesE, ← applyBoundariesE,
    applyBoundariesE_untouched _ _ _ _ _ _ fun b hb => (h b (List.mem_append_right _ hb) p h1 h2).1]
  funext c
  show periodicE n 1 _ p c = _
  rw [periodicE]
  by_cases hp : p 1 = 0
  · rw [if_pos hp, if_pos hp, applyBoundariesE_untouched _ _ _ _ _ _ fun b hb => (h b (List.mem_append_left _ hb) _ (by simpa using h1) (by simpa using h2)).1]
  · rw [if_neg hp, if_neg hp, applyBoundariesE_untouched _ _ _ _ _ _ fun b hb => (h b (List.mem_append_left _ hb) p h1 h2).1]

lemma windowH {n : Pos} {co : ℝ} {iv : VField ℝ} {bs : List (FBoundary ℝ)} (h : WindowBounds n lo hi bs) (H : VField ℝ) (p : Pos) (h1 : lo ≤ p 0) (h2 : p 0 ≤ hi) :
    applyBoundariesH n co iv bs H p = if p 1 = n 1 - 1 then H (Function.update p 1 0) else H p := by
  obtain ⟨l, r, rfl, h⟩ := h
  rw [applyBoundariesH, List.foldl_append, List.foldl_cons, ← applyBoundariesH, ← applyBoundariesH,
    applyBoundariesH_untouched _ _ _ _ _ _ fun b hb => (h b (List.mem_append_right _ hb) p h1 h2).2]
  funext c
  show periodicH n 1 _ p c = _
  rw [periodicH]
  by_cases hp : p 1 = n 1 - 1
  · rw [if_pos hp, if_pos hp, applyBoundariesH_untouched _ _ _ _ _ _ fun b hb => (h b (List.mem_append_left _ hb) _ (by simpa using h1) (by simpa using h2)).2]
  · rw [if_neg hp, if_neg hp, applyBoundariesH_untouched _ _ _ _ _ _ fun b hb => (h b (List.mem_append_left _ hb) p h1 h2).2]

lemma row_update (x y y' : ℕ) : Function.update ![x, y, 0] 1 y' = (![x, y', 0] : Pos) := by
  funext a; fin_cases a <;> simp

lemma newE_row (h : LineWindow g lo hi ie f im) {x : ℕ} (h1 : lo ≤ x) (h2 : x ≤ hi) (y : ℕ) (c : Fin 3) :
    g.newE ![x, y, 0] c = if y = 0 then bulkE g ![x, g.n 1 - 1, 0] c else bulkE g ![x, y, 0] c := by
  rw [FGrid.newE, applySourcesE_untouched _ _ _ _ fun s hs => (h.sources s hs _ h1 h2).1, windowE h.phasedE _ _ h1 h2, row_update]
  show (if y = 0 then _ else _ : Fin 3 → ℝ) c = _
  split_ifs <;> rfl

lemma newH_row (h : LineWindow g lo hi ie f im) {x : ℕ} (h1 : lo ≤ x) (h2 : x ≤ hi) (y : ℕ) (c : Fin 3) :
    g.newH ![x, y, 0] c = if y = g.n 1 - 1 then bulkH g ![x, 0, 0] c else bulkH g ![x, y, 0] c := by
  rw [FGrid.newH, applySourcesH_untouched _ _ _ _ fun s hs => (h.sources s hs _ h1 h2).2, windowH h.phasedH _ _ h1 h2, row_update]
  show (if y = g.n 1 - 1 then _ else _ : Fin 3 → ℝ) c = _
  split_ifs <;> rfl

/-- the two copies of the periodic plane agree, in the planes of the window -/
def Copied (g : FGrid ℝ) (lo hi : ℕ) : Prop :=
  ∀ x, lo ≤ x → x ≤ hi → ∀ c, g.E ![x, 0, 0] c = g.E ![x, g.n 1 - 1, 0] c ∧ g.H ![x, 0, 0] c = g.H ![x, g.n 1 - 1, 0] c

lemma LineWindow.copied (h : LineWindow g lo hi ie f im) : Copied g.step lo hi := by
  intro x h1 h2 c
  have hw := h.wide
  constructor
  · show g.newE _ c = g.newE ![x, g.n 1 - 1, 0] c
    rw [newE_row h h1 h2, newE_row h h1 h2, if_pos rfl, if_neg (by omega)]
  · show g.updateE.newH _ c = g.updateE.newH ![x, g.n 1 - 1, 0] c
    rw [newH_row h.updateE h1 h2, newH_row h.updateE h1 h2]
    show (if 0 = g.n 1 - 1 then _ else _) = if g.n 1 - 1 = g.n 1 - 1 then _ else _
    rw [if_pos rfl, if_neg (by omega)]

/-- the electric field along z, summed over the cells of a plane (the periodic plane counted once) -/
def rowE (g : FGrid ℝ) (x : ℕ) : ℝ := ∑ y ∈ Finset.Icc 1 (g.n 1 - 1), g.E ![x, y, 0] 2

/-- the magnetic field along y, summed over the cells of a plane -/
def rowH (g : FGrid ℝ) (x : ℕ) : ℝ := ∑ y ∈ Finset.Icc 1 (g.n 1 - 1), g.H ![x, y, 0] 1

lemma row_up (x y : ℕ) : Pos.up ![x, y, 0] 0 = ![x + 1, y, 0] := by
  funext a; fin_cases a <;> simp [Pos.up]

lemma row_dn (x y : ℕ) : Pos.dn ![x, y, 0] 0 = ![x - 1, y, 0] := by
  funext a; fin_cases a <;> simp [Pos.dn]

lemma row_dn1 (x y : ℕ) : Pos.dn ![x, y, 0] 1 = ![x, y - 1, 0] := by
  funext a; fin_cases a <;> simp [Pos.dn]

lemma rowE_step (h : LineWindow g lo hi ie f im) (hc : Copied g lo hi) {x : ℕ} (h1 : lo < x) (h2 : x ≤ hi) (hf : 1 + f x ≠ 0) :
    (1 + f x) * rowE g.step x = (1 - f x) * rowE g x + g.courant * ie x * (rowH g x - rowH g (x - 1)) := by
  have hw := h.wide
  have e : ∀ y ∈ Finset.Icc 1 (g.n 1 - 1), (1 + f x) * g.step.E ![x, y, 0] 2 = (1 - f x) * g.E ![x, y, 0] 2 +
      g.courant * ie x * (g.H ![x, y, 0] 1 - g.H ![x - 1, y, 0] 1) - g.courant * ie x * (g.H ![x, y, 0] 0 - g.H ![x, y - 1, 0] 0) := by
    intro y hy
    rw [Finset.mem_Icc] at hy
    show (1 + f x) * g.newE _ 2 = _
    rw [newE_row h h1.le h2, if_neg (by omega), bulkE, h.absorb x y h1.le h2 (by omega), h.eps x y h1.le h2 (by omega)]
    have hcurl : curlH g.H ![x, y, 0] 2 = (g.H ![x, y, 0] 1 - g.H ![x - 1, y, 0] 1) - (g.H ![x, y, 0] 0 - g.H ![x, y - 1, 0] 0) := by
      show dDn g.H 0 1 _ - dDn g.H 1 0 _ = _
      rw [dDn_pos _ _ (show 1 ≤ x by omega), dDn_pos _ _ (show 1 ≤ y by omega), row_dn, row_dn1]
    rw [hcurl]
    field_simp
    ring
  have htel : ∑ y ∈ Finset.Icc 1 (g.n 1 - 1), (g.H ![x, y, 0] 0 - g.H ![x, y - 1, 0] 0) = 0 := by
    have : Finset.Icc 1 (g.n 1 - 1) = Finset.Ico (0 + 1) ((g.n 1 - 1) + 1) := by ext y; rw [Finset.mem_Icc, Finset.mem_Ico]; omega
    rw [this, ← Finset.sum_Ico_add' (fun y => g.H ![x, y, 0] 0 - g.H ![x, y - 1, 0] 0) 0 (g.n 1 - 1) 1, ← Finset.range_eq_Ico]
    simp only [Nat.add_sub_cancel]
    rw [Finset.sum_range_sub (fun y => g.H ![x, y, 0] 0), (hc x h1.le h2 0).2, sub_self]
  rw [rowE, Finset.mul_sum, show g.step.n = g.n from rfl, Finset.sum_congr rfl e, Finset.sum_sub_distrib, Finset.sum_add_distrib, ← Finset.mul_sum, ← Finset.mul_sum, ← Finset.mul_sum,
    htel, Finset.sum_sub_distrib, rowE, rowH, rowH]
  ring

lemma rowH_step (h : LineWindow g lo hi ie f im) (hc : Copied g lo hi) {x : ℕ} (h1 : lo ≤ x) (h2 : x < hi) :
    rowH g.step x = rowH g x + g.courant * im * (rowE g.step (x + 1) - rowE g.step x) := by
  have hw := h.wide
  have hc' := h.copied
  have b : ∀ y, y < g.n 1 → bulkH g.updateE ![x, y, 0] 1 = g.H ![x, y, 0] 1 + g.courant * im * (g.step.E ![x + 1, y, 0] 2 - g.step.E ![x, y, 0] 2) := by
    intro y hy
    show g.H _ 1 - g.courant * g.invMu _ 1 * curlE g.n g.newE _ 1 = _
    have hcurl : curlE g.n g.newE ![x, y, 0] 1 = -(g.newE ![x + 1, y, 0] 2 - g.newE ![x, y, 0] 2) := by
      show dUp g.n g.newE 2 0 _ - dUp g.n g.newE 0 2 _ = _
      have hin := h.inside
      have hfl := h.flat
      rw [dUp_pos (a := 0) _ _ (show x + 1 < g.n 0 by omega), row_up, dUp, if_neg (by show ¬ 0 + 1 < g.n 2; omega)]
      ring
    rw [h.mu x y h1 h2.le hy, hcurl]
    show _ = _ + _ * (g.newE _ 2 - g.newE _ 2)
    ring
  have e : ∀ y ∈ Finset.Icc 1 (g.n 1 - 1), g.step.H ![x, y, 0] 1 = g.H ![x, y, 0] 1 + g.courant * im * (g.step.E ![x + 1, y, 0] 2 - g.step.E ![x, y, 0] 2) := by
    intro y hy
    rw [Finset.mem_Icc] at hy
    show g.updateE.newH _ 1 = _
    rw [newH_row h.updateE h1 h2.le]
    show (if y = g.n 1 - 1 then _ else _) = _
    by_cases hy' : y = g.n 1 - 1
    · rw [if_pos hy', b 0 (by omega), (hc x h1 h2.le 1).2, (hc' x h1 h2.le 2).1, (hc' (x + 1) (by omega) (by omega) 2).1, hy']
      rfl
    · rw [if_neg hy', b y (by omega)]
  rw [rowH, show g.step.n = g.n from rfl, Finset.sum_congr rfl e, Finset.sum_add_distrib, ← Finset.mul_sum, Finset.sum_sub_distrib, rowH, rowE, rowE]
  rfl

/-- the wave equation of the rows -/
lemma row_wave (h : LineWindow g lo hi ie f im) (hc : Copied g lo hi) {x : ℕ} (h1 : lo < x) (h2 : x < hi) (hf : 1 + f x ≠ 0) :
    (1 + f x) * rowE (g.run 2) x - 2 * rowE (g.run 1) x + (1 - f x) * rowE g x =
      g.courant ^ 2 * ie x * im * (rowE (g.run 1) (x + 1) - 2 * rowE (g.run 1) x + rowE (g.run 1) (x - 1)) := by
  have a1 := rowE_step h hc h1 h2.le hf
  have a2 := rowE_step h.step h.copied h1 h2.le hf
  have b1 := rowH_step h hc (x := x) h1.le h2
  have b2 := rowH_step h hc (x := x - 1) (by omega) (by omega)
  rw [show x - 1 + 1 = x by omega] at b2
  rw [b1, b2, show g.step.courant = g.courant from rfl] at a2
  show (1 + f x) * rowE g.step.step x - 2 * rowE g.step x + (1 - f x) * rowE g x = g.courant ^ 2 * ie x * im * (rowE g.step (x + 1) - 2 * rowE g.step x + rowE g.step (x - 1))
  linear_combination a2 - a1

lemma two_phases {Z : ℂ} {Ω : ℝ} (hΩ : Real.sin Ω ≠ 0) (j : ℕ) (h1 : (Z * Complex.exp (-(Complex.I * Ω * j))).re = 0)
    (h2 : (Z * Complex.exp (-(Complex.I * Ω * (j + 1 : ℕ)))).re = 0) : Z = 0 := by
  set W := Z * Complex.exp (-(Complex.I * Ω * j)) with hW
  have e : Z * Complex.exp (-(Complex.I * Ω * (j + 1 : ℕ))) = W * Complex.exp (((-Ω : ℝ) : ℂ) * Complex.I) := by
    rw [hW, mul_assoc Z, ← Complex.exp_add]
    congr 2
    push_cast
    ring
  have h3 : (Complex.exp (((-Ω : ℝ) : ℂ) * Complex.I)).im = -Real.sin Ω := by rw [Complex.exp_ofReal_mul_I_im, Real.sin_neg]
  rw [e, Complex.mul_re, h1, h3] at h2
  have h4 : W.im = 0 := by
    have : W.im * Real.sin Ω = 0 := by linarith
    exact (mul_eq_zero.mp this).resolve_right hΩ
  have hW0 : W = 0 := Complex.ext h1 h4
  exact (mul_eq_zero.mp (hW ▸ hW0)).resolve_right (Complex.exp_ne_zero _)

/-- what is left of the wave equation of one row for an oscillation with a static part -/
lemma wave_residual {Ω fx c : ℝ} {x : ℕ} (u : ℕ → ℂ) (v : ℕ → ℝ) (L : ℕ → ℕ → ℝ) (j : ℕ) (hL : ∀ i ≤ 2, ∀ y, x ≤ y + 1 → y ≤ x + 1 → L (j + i) y = v y + (u y * Complex.exp (-(Complex.I * Ω * (j + i : ℕ)))).re)
    (hwv : (1 + fx) * L (j + 2) x - 2 * L (j + 1) x + (1 - fx) * L j x = c * (L (j + 1) (x + 1) - 2 * L (j + 1) x + L (j + 1) (x - 1))) :
    ((-4 * (Real.sin (Ω / 2) * (Real.sin (Ω / 2) + Complex.I * fx * Real.cos (Ω / 2))) * u x - c * (u (x + 1) - 2 * u x + u (x - 1))) * Complex.exp (-(Complex.I * Ω * (j + 1 : ℕ)))).re =
      c * (v (x + 1) - 2 * v x + v (x - 1)) := by
  rw [hL 2 le_rfl x (by omega) (by omega), hL 1 (by norm_num) x (by omega) (by omega), show L j x = L (j + 0) x from rfl, hL 0 (by norm_num) x (by omega) (by omega),
    hL 1 (by norm_num) (x + 1) (by omega) (by omega), hL 1 (by norm_num) (x - 1) (by omega) (by omega)] at hwv
  rw [add_zero] at hwv
  set F : ℂ := -4 * (Real.sin (Ω / 2) * (Real.sin (Ω / 2) + Complex.I * fx * Real.cos (Ω / 2))) with hF
  set q := Complex.exp (-(Complex.I * Ω * (j + 1 : ℕ))) with hq
  have e2 : Complex.exp (-(Complex.I * Ω * (j + 2 : ℕ))) = q * (Complex.cos Ω - Complex.sin Ω * Complex.I) := by
    rw [show Complex.cos Ω - Complex.sin Ω * Complex.I = Complex.exp (-(Ω : ℂ) * Complex.I) by
      rw [Complex.exp_mul_I, Complex.cos_neg, Complex.sin_neg]; ring, hq, ← Complex.exp_add]
    congr 1
    push_cast
    ring
  have e0 : Complex.exp (-(Complex.I * Ω * j)) = q * (Complex.cos Ω + Complex.sin Ω * Complex.I) := by
    rw [← Complex.exp_mul_I, hq, ← Complex.exp_add]
    congr 1
    push_cast
    ring
  rw [e2, e0] at hwv
  have hre : ∀ (r : ℝ) (z : ℂ), r * z.re = ((r : ℂ) * z).re := fun r z => by rw [Complex.re_ofReal_mul]
  have hF' : F = (1 + fx : ℝ) * (Complex.cos Ω - Complex.sin Ω * Complex.I) - 2 + (1 - fx : ℝ) * (Complex.cos Ω + Complex.sin Ω * Complex.I) := by
    have c1 : Complex.cos Ω = 1 - 2 * Complex.sin (Ω / 2) ^ 2 := by
      rw [show (Ω : ℂ) = 2 * (Ω / 2) by ring, Complex.cos_two_mul, Complex.cos_sq', show 2 * ((Ω : ℂ) / 2) / 2 = Ω / 2 by ring]
      ring
    have c2 : Complex.sin Ω = 2 * Complex.sin (Ω / 2) * Complex.cos (Ω / 2) := by
      rw [← Complex.sin_two_mul]; congr 1; ring
    rw [hF, c1, c2]
    push_cast
    ring
  rw [hF']
  have : ((((1 + fx : ℝ) * (Complex.cos Ω - Complex.sin Ω * Complex.I) - 2 + (1 - fx : ℝ) * (Complex.cos Ω + Complex.sin Ω * Complex.I)) * u x -
      ((c : ℝ) : ℂ) * (u (x + 1) - 2 * u x + u (x - 1))) * q) =
      ((1 + fx : ℝ) : ℂ) * (u x * (q * (Complex.cos Ω - Complex.sin Ω * Complex.I))) - ((2 : ℝ) : ℂ) * (u x * q) +
      ((1 - fx : ℝ) : ℂ) * (u x * (q * (Complex.cos Ω + Complex.sin Ω * Complex.I))) -
      (((c : ℝ) : ℂ) * (u (x + 1) * q) - ((c * 2 : ℝ) : ℂ) * (u x * q) + ((c : ℝ) : ℂ) * (u (x - 1) * q)) := by
    push_cast
    ring
  rw [this, Complex.sub_re, Complex.add_re, Complex.sub_re, Complex.add_re, Complex.sub_re, ← hre, ← hre, ← hre, ← hre, ← hre, ← hre]
  linarith

lemma three_phases {Z : ℂ} {Ω K : ℝ} (hΩ : Real.sin Ω ≠ 0) (h : ∀ j ≤ 2, (Z * Complex.exp (-(Complex.I * Ω * (j + 1 : ℕ)))).re = K) : Z = 0 := by
  have e : ∀ (t : ℂ) (m n : ℕ), Complex.exp (-(Complex.I * t * (m + n : ℕ))) = Complex.exp (-(Complex.I * t * m)) * Complex.exp (-(Complex.I * t * n)) := fun t m n => by
    rw [← Complex.exp_add]; congr 1; push_cast; ring
  have h0 := h 0 (by norm_num)
  have h1 := h 1 (by norm_num)
  have h2 := h 2 le_rfl
  set W := Z * Complex.exp (-(Complex.I * Ω * (0 + 1 : ℕ))) with hW
  have hE : Complex.exp (-(Complex.I * Ω * (1 : ℕ))) = Complex.exp (((-Ω : ℝ) : ℂ) * Complex.I) := by congr 1; push_cast; ring
  have c1 : (Complex.exp (((-Ω : ℝ) : ℂ) * Complex.I)).re = Real.cos Ω := by rw [Complex.exp_ofReal_mul_I_re, Real.cos_neg]
  have c2 : (Complex.exp (((-Ω : ℝ) : ℂ) * Complex.I)).im = -Real.sin Ω := by rw [Complex.exp_ofReal_mul_I_im, Real.sin_neg]
  rw [show 1 + 1 = 0 + 1 + 1 from rfl, e, ← mul_assoc, ← hW, hE, Complex.mul_re, c1, c2] at h1
  rw [show 2 + 1 = (0 + 1 + 1) + 1 from rfl, e, e _ (0 + 1) 1, ← mul_assoc, ← mul_assoc, ← hW, hE, Complex.mul_re (W * _), Complex.mul_re W, Complex.mul_im W, c1, c2] at h2
  have hcs := Real.sin_sq_add_cos_sq Ω
  have hcos : Real.cos Ω ≠ 1 := fun hc => hΩ (by rw [hc] at hcs; nlinarith)
  have hcos' : Real.cos Ω ≠ -1 := fun hc => hΩ (by rw [hc] at hcs; nlinarith)
  -- the middle value vanishes
  have m0 : K * (2 * Real.cos Ω - 2) = 0 := by
    have : W.re = K := h0
    rw [this] at h1 h2
    linear_combination -(2 * Real.cos Ω) * h1 + h2 + K * hcs
  have hK : K = 0 := (mul_eq_zero.1 m0).resolve_right fun hz => hcos (by linarith)
  have hre : W.re = 0 := h0.trans hK
  have him : W.im = 0 := by
    rw [hre, hK] at h1
    have : W.im * Real.sin Ω = 0 := by linarith
    exact (mul_eq_zero.1 this).resolve_right hΩ
  exact (mul_eq_zero.1 (hW ▸ Complex.ext hre him : Z * Complex.exp (-(Complex.I * Ω * (0 + 1 : ℕ))) = 0)).resolve_right (Complex.exp_ne_zero _)

/-- the wave equation holds for the limits of the rows -/
lemma wave_limit (h : LineWindow g lo hi ie f im) (hf : ∀ x, lo < x → x < hi → 1 + f x ≠ 0) (τ : ℕ → ℕ) (hk : ∀ n, 1 ≤ τ n) (L : ℕ → ℕ → ℝ) (j : ℕ)
    (hosc : ∀ i ≤ 2, ∀ x, lo ≤ x → x ≤ hi → Tendsto (fun n => rowE (g.run (τ n + (j + i))) x) atTop (𝓝 (L (j + i) x))) {x : ℕ} (h1 : lo < x) (h2 : x < hi) :
    (1 + f x) * L (j + 2) x - 2 * L (j + 1) x + (1 - f x) * L j x = g.courant ^ 2 * ie x * im * (L (j + 1) (x + 1) - 2 * L (j + 1) x + L (j + 1) (x - 1)) := by
  have hw : ∀ n j, Copied (g.run (τ n + j)) lo hi := fun n j => by
    obtain ⟨m, hm⟩ : ∃ m, τ n = m + 1 := ⟨τ n - 1, by have := hk n; omega⟩
    rw [hm, show m + 1 + j = (m + j) + 1 by ring]
    exact (h.run (m + j)).copied
  have hwn : ∀ n, (1 + f x) * rowE (g.run (τ n + (j + 2))) x - 2 * rowE (g.run (τ n + (j + 1))) x + (1 - f x) * rowE (g.run (τ n + j)) x =
      g.courant ^ 2 * ie x * im * (rowE (g.run (τ n + (j + 1))) (x + 1) - 2 * rowE (g.run (τ n + (j + 1))) x + rowE (g.run (τ n + (j + 1))) (x - 1)) := by
    intro n
    have hwv := row_wave (h.run (τ n + j)) (hw n j) h1 h2 (hf x h1 h2)
    have e : ∀ i, (g.run (τ n + j)).run i = g.run (τ n + (j + i)) := fun i => by
      rw [← add_assoc]
      clear hwv
      induction i with
      | zero => rfl
      | succ i ih => rw [FGrid.run, ih]; rfl
    rwa [e 2, e 1, run_courant] at hwv
  exact tendsto_nhds_unique
    ((((hosc 2 le_rfl x h1.le h2.le).const_mul (1 + f x)).sub ((hosc 1 (by norm_num) x h1.le h2.le).const_mul 2)).add ((hosc 0 (by norm_num) x h1.le h2.le).const_mul (1 - f x)))
    (((((hosc 1 (by norm_num) (x + 1) (by omega) (by omega)).sub ((hosc 1 (by norm_num) x h1.le h2.le).const_mul 2)).add
      (hosc 1 (by norm_num) (x - 1) (by omega) (by omega))).const_mul (g.courant ^ 2 * ie x * im)).congr fun n => (hwn n).symm)

lemma stationary_residual {co Ω iex fx : ℝ} {κ : ℂ} {u : ℕ → ℂ} {x : ℕ} (hs : co ≠ 0) (him : im ≠ 0) (hie : iex ≠ 0)
    (hκ : Complex.sin (κ / 2) ^ 2 = Real.sin (Ω / 2) * (Real.sin (Ω / 2) + Complex.I * fx * Real.cos (Ω / 2)) / (co ^ 2 * iex * im))
    (hZ : -4 * (Real.sin (Ω / 2) * (Real.sin (Ω / 2) + Complex.I * fx * Real.cos (Ω / 2))) * u x - ((co ^ 2 * iex * im : ℝ) : ℂ) * (u (x + 1) - 2 * u x + u (x - 1)) = 0) :
    u (x + 1) - 2 * u x + u (x - 1) = -4 * Complex.sin (κ / 2) ^ 2 * u x := by
  have hc0 : ((co ^ 2 * iex * im : ℝ) : ℂ) ≠ 0 := Complex.ofReal_ne_zero.2 (mul_ne_zero (mul_ne_zero (pow_ne_zero 2 hs) hie) him)
  have hk2 : -4 * Complex.sin (κ / 2) ^ 2 = -4 * (Real.sin (Ω / 2) * (Real.sin (Ω / 2) + Complex.I * fx * Real.cos (Ω / 2))) / ((co ^ 2 * iex * im : ℝ) : ℂ) := by
    rw [hκ]
    push_cast
    ring
  rw [hk2]
  field_simp
  linear_combination -hZ

/-- C124, settling: if at some times `τ n` and the four steps after each of them the row sums of the electric field in a window without sources and absorbing layers tend to an oscillation with
`Ω` radians per step about a static field, `v x + Re (u x exp (-i Ω j))`, then the complex amplitudes `u` are a stationary wave of the line of cells whose phase advances `κ x` belong to the
complex permittivity `(1 + i f x cot (Ω/2)) / ie x`. -/
theorem C124_settling (h : LineWindow g lo hi ie f im) {Ω : ℝ} (hΩ : Real.sin Ω ≠ 0) (hs : g.courant ≠ 0) (him : im ≠ 0)
    (hie : ∀ x, lo < x → x < hi → ie x ≠ 0) (hf : ∀ x, lo < x → x < hi → 1 + f x ≠ 0) (κ : ℕ → ℂ)
    (hκ : ∀ x, lo < x → x < hi → Complex.sin (κ x / 2) ^ 2 =
      Real.sin (Ω / 2) * (Real.sin (Ω / 2) + Complex.I * f x * Real.cos (Ω / 2)) / (g.courant ^ 2 * ie x * im)) (u : ℕ → ℂ) (v : ℕ → ℝ) (τ : ℕ → ℕ) (hk : ∀ n, 1 ≤ τ n)
    (hosc : ∀ j ≤ 4, ∀ x, lo ≤ x → x ≤ hi → Tendsto (fun n => rowE (g.run (τ n + j)) x) atTop (𝓝 (v x + (u x * Complex.exp (-(Complex.I * Ω * j))).re))) :
    Stationary κ u lo hi := by
  intro x h1 h2
  refine stationary_residual hs him (hie x h1 h2) (hκ x h1 h2) (three_phases (K := g.courant ^ 2 * ie x * im * (v (x + 1) - 2 * v x + v (x - 1))) hΩ fun j hj => ?_)
  exact wave_residual u v (fun i y => v y + (u y * Complex.exp (-(Complex.I * Ω * i))).re) j (fun i hi y _ _ => rfl)
    (wave_limit h hf τ hk (fun i y => v y + (u y * Complex.exp (-(Complex.I * Ω * i))).re) j (fun i hi => hosc (j + i) (by omega)) h1 h2)

/-- C124, stationary states: if during four consecutive steps the row sums of the electric field in a window without sources and absorbing layers oscillate with
`Ω` radians per step, `Re (u x exp (-i Ω j))`, then the complex amplitudes `u` are a stationary wave of the line of cells whose phase advances `κ x` belong to the
complex permittivity `(1 + i f x cot (Ω/2)) / ie x`. -/
theorem C124_stationary (h : LineWindow g lo hi ie f im) {Ω : ℝ} (hΩ : Real.sin Ω ≠ 0) (hs : g.courant ≠ 0) (him : im ≠ 0)
    (hie : ∀ x, lo < x → x < hi → ie x ≠ 0) (hf : ∀ x, lo < x → x < hi → 1 + f x ≠ 0) (κ : ℕ → ℂ)
    (hκ : ∀ x, lo < x → x < hi → Complex.sin (κ x / 2) ^ 2 =
      Real.sin (Ω / 2) * (Real.sin (Ω / 2) + Complex.I * f x * Real.cos (Ω / 2)) / (g.courant ^ 2 * ie x * im)) (u : ℕ → ℂ) (k : ℕ) (hk : 1 ≤ k)
    (hosc : ∀ j ≤ 3, ∀ x, lo ≤ x → x ≤ hi → rowE (g.run (k + j)) x = (u x * Complex.exp (-(Complex.I * Ω * j))).re) :
    Stationary κ u lo hi := by
  intro x h1 h2
  have key : ∀ j ≤ 1, ((-4 * (Real.sin (Ω / 2) * (Real.sin (Ω / 2) + Complex.I * f x * Real.cos (Ω / 2))) * u x - ((g.courant ^ 2 * ie x * im : ℝ) : ℂ) * (u (x + 1) - 2 * u x + u (x - 1))) *
      Complex.exp (-(Complex.I * Ω * (j + 1 : ℕ)))).re = 0 := by
    intro j hj
    have := wave_residual (c := g.courant ^ 2 * ie x * im) (fx := f x) u (fun _ => 0) (fun i y => (u y * Complex.exp (-(Complex.I * Ω * i))).re) (x := x) j (fun i hi y _ _ => (zero_add _).symm)
      (wave_limit h hf (fun _ => k) (fun _ => hk) (fun i y => (u y * Complex.exp (-(Complex.I * Ω * i))).re) j (fun i hi y h1 h2 => by
        rw [← hosc (j + i) (by omega) y h1 h2]
        exact tendsto_const_nhds) h1 h2)
    rw [this]
    ring
  exact stationary_residual hs him (hie x h1 h2) (hκ x h1 h2) (two_phases hΩ 1 (key 0 (by norm_num)) (key 1 le_rfl))

/-! ### films -/

lemma through_scale (c : ℂ) (hc : c ≠ 0) (films : List (ℂ × ℂ)) (f : ℂ × ℂ) :
    throughFilms (films.map fun yd => (c * yd.1, yd.2)) (f.1, c * f.2) = ((throughFilms films f).1, c * (throughFilms films f).2) := by
  induction films with
  | nil => rfl
  | cons yd films ih =>
    obtain ⟨y, δ⟩ := yd
    rw [List.map_cons, throughFilms, ih, throughFilms]
    simp only [filmFront, Prod.mk.injEq]
    refine ⟨?_, by ring⟩
    rw [show Complex.I * Complex.sin δ / (c * y) * (c * (throughFilms films f).2) = Complex.I * Complex.sin δ / y * (throughFilms films f).2 by
      rw [div_mul_eq_div_div]; field_simp]

/-- the film formulas depend on the ratios of the impedances only -/
lemma films_scale (c : ℝ) (hc : 0 < c) (y0 : ℝ) (films : List (ℂ × ℂ)) (yN : ℂ) :
    filmsR (c * y0) (films.map fun yd => (c * yd.1, yd.2)) (c * yN) = filmsR y0 films yN ∧
      filmsT (c * y0) (films.map fun yd => (c * yd.1, yd.2)) (c * yN) = filmsT y0 films yN := by
  have hc0 : (c : ℂ) ≠ 0 := Complex.ofReal_ne_zero.2 hc.ne'
  have e : frontFields (films.map fun yd => ((c : ℂ) * yd.1, yd.2)) (c * yN) = ((frontFields films yN).1, c * (frontFields films yN).2) := by
    rw [frontFields_eq, frontFields_eq, ← through_scale c hc0]
  have hden : filmsDen ((c * y0 : ℝ) : ℂ) (films.map fun yd => ((c : ℂ) * yd.1, yd.2)) (c * yN) = c * filmsDen y0 films yN := by
    rw [filmsDen, e, filmsDen]
    push_cast
    ring
  constructor
  · rw [filmsR, filmsR, hden, e]
    congr 1
    rw [show ((c * y0 : ℝ) : ℂ) * (frontFields films yN).1 - c * (frontFields films yN).2 = c * (y0 * (frontFields films yN).1 - (frontFields films yN).2) by
      push_cast; ring, mul_div_mul_left _ _ hc0]
  · rw [filmsT, filmsT, hden, Complex.normSq_mul, Complex.normSq_ofReal, Complex.re_ofReal_mul]
    field_simp

/-- A layer on the grid: refractive index, phase advance per cell and number of cells. -/
structure GridLayer where
  index : ℂ
  advance : ℂ
  cells : ℕ

/-- The layer's index belongs to the permittivity and loss of the medium at the frequency `Ω`, its phase advance to the index by the discrete dispersion relation. -/
def GridLayer.Fits (l : GridLayer) (courant Ω ie f im : ℝ) : Prop :=
  l.index ^ 2 = (1 + Complex.I * f * (Real.cos (Ω / 2) / Real.sin (Ω / 2))) / (ie * im) ∧
    Complex.sin (l.advance / 2) = Real.sin (Ω / 2) / courant * l.index ∧ WaveResolved l.advance

/-- the layers fill the line from cell `a` on -/
def Filled (courant Ω : ℝ) (ie f : ℕ → ℝ) (im : ℝ) : ℕ → List GridLayer → Prop
  | _, [] => True
  | a, l :: ls => (∀ x, a ≤ x → x < a + l.cells → l.Fits courant Ω (ie x) (f x) im) ∧ Filled courant Ω ie f im (a + l.cells) ls

/-- number of cells of all layers -/
def totalCells (ls : List GridLayer) : ℕ := (ls.map GridLayer.cells).sum

/-- The films that the grid simulates: impedance `cos (κ/2) / n` instead of `1 / n`, and the phase `κ` per cell. -/
def simulatedFilms (ls : List GridLayer) : List (ℂ × ℂ) := ls.map fun l => (Complex.cos (l.advance / 2) / l.index, l.cells * l.advance)

/-- the phase advance of cell `x` in a stack that starts at `a` -/
def advanceAt : ℕ → List GridLayer → ℕ → ℂ
  | _, [], _ => 0
  | a, l :: ls, x => if x < a + l.cells then l.advance else advanceAt (a + l.cells) ls x

lemma layerCells_total (ls : List GridLayer) : layerCells (ls.map fun l => (l.advance, l.cells)) = totalCells ls := by
  induction ls with
  | nil => rfl
  | cons l ls ih => rw [List.map_cons, layerCells, ih, totalCells, totalCells, List.map_cons, List.sum_cons]

lemma laidOut_advance (κ : ℕ → ℂ) (ls : List GridLayer) (a : ℕ) (h : ∀ x, a ≤ x → x < a + totalCells ls → κ x = advanceAt a ls x) :
    laidOut κ a (ls.map fun l => (l.advance, l.cells)) := by
  induction ls generalizing a with
  | nil => trivial
  | cons l ls ih =>
    have ht : totalCells (l :: ls) = l.cells + totalCells ls := by rw [totalCells, totalCells, List.map_cons, List.sum_cons]
    rw [ht] at h
    refine ⟨fun x h1 h2 => ?_, ih _ fun x h1 h2 => ?_⟩
    · rw [h x h1 (by omega), advanceAt, if_pos h2]
    · rw [h x (by omega) (by omega), advanceAt, if_neg (by omega)]

lemma filled_advance {co Ω : ℝ} (ls : List GridLayer) (a : ℕ) (h : Filled co Ω ie f im a ls) (x : ℕ) (h1 : a ≤ x) (h2 : x < a + totalCells ls) :
    ∃ l ∈ ls, advanceAt a ls x = l.advance ∧ l.Fits co Ω (ie x) (f x) im := by
  induction ls generalizing a with
  | nil => simp [totalCells] at h2; omega
  | cons l ls ih =>
    have ht : totalCells (l :: ls) = l.cells + totalCells ls := by rw [totalCells, totalCells, List.map_cons, List.sum_cons]
    by_cases hx : x < a + l.cells
    · exact ⟨l, List.mem_cons_self, by rw [advanceAt, if_pos hx], h.1 x h1 hx⟩
    · obtain ⟨l', hl', e1, e2⟩ := ih (a + l.cells) h.2 (by omega) (by omega)
      exact ⟨l', List.mem_cons_of_mem _ hl', by rw [advanceAt, if_neg hx, e1], e2⟩

lemma GridLayer.Fits.dispersion {l : GridLayer} {co Ω ie f im : ℝ} (h : l.Fits co Ω ie f im) (hΩ : Real.sin (Ω / 2) ≠ 0) :
    Complex.sin (l.advance / 2) ^ 2 = Real.sin (Ω / 2) * (Real.sin (Ω / 2) + Complex.I * f * Real.cos (Ω / 2)) / (co ^ 2 * ie * im) := by
  have hS : (Real.sin (Ω / 2) : ℂ) ≠ 0 := Complex.ofReal_ne_zero.2 hΩ
  rw [h.2.1, mul_pow, h.1]
  field_simp

lemma filled_fits {co Ω : ℝ} (ls : List GridLayer) (a : ℕ) (h : Filled co Ω ie f im a ls) (hres : ∀ l ∈ ls, 1 ≤ l.cells) :
    ∀ l ∈ ls, WaveResolved l.advance ∧ Complex.sin (l.advance / 2) = Real.sin (Ω / 2) / co * l.index := by
  intro l hl
  induction ls generalizing a with
  | nil => simp at hl
  | cons l' ls ih =>
    rcases List.mem_cons.1 hl with rfl | hl'
    · have := h.1 a le_rfl (by have := hres l List.mem_cons_self; omega)
      exact ⟨this.2.2, this.2.1⟩
    · exact ih (a + l'.cells) h.2 (fun l hl => hres l (List.mem_cons_of_mem _ hl)) hl'

/-- reflectance and transmittance of a stationary wave -/
lemma films_of_stationary {Ω : ℝ} (hΩ2 : 0 < Real.sin (Ω / 2)) (hs : 0 < g.courant) (a : ℕ) (ha : lo + 1 < a) (ls : List GridLayer)
    (hls : Filled g.courant Ω ie f im a ls) (hres : ∀ l ∈ ls, 1 ≤ l.cells) {n0 k0 : ℝ} (hk0 : WaveResolved k0)
    (hk : Complex.sin ((k0 : ℂ) / 2) = Real.sin (Ω / 2) / g.courant * n0) (u : ℕ → ℂ)
    (hst : ∀ κ : ℕ → ℂ, (∀ x, a - 1 < x → x < a + totalCells ls → Complex.sin (κ x / 2) ^ 2 =
      Real.sin (Ω / 2) * (Real.sin (Ω / 2) + Complex.I * f x * Real.cos (Ω / 2)) / (g.courant ^ 2 * ie x * im)) → Stationary κ u (a - 1) (a + totalCells ls)) {A B C : ℂ} (hA : A ≠ 0)
    (hin : ∀ x, x = a - 1 ∨ x = a → u x = A * Complex.exp (Complex.I * k0 * x) + B * Complex.exp (-(Complex.I * k0 * x)))
    (hout : ∀ x, x = a + totalCells ls - 1 ∨ x = a + totalCells ls → u x = C * Complex.exp (Complex.I * k0 * x)) :
    Complex.normSq (B / A) = filmsR (Real.cos (k0 / 2) / n0) (simulatedFilms ls) (Real.cos (k0 / 2) / n0) ∧
      Complex.normSq (C / A) = filmsT (Real.cos (k0 / 2) / n0) (simulatedFilms ls) (Real.cos (k0 / 2) / n0) := by
  have hS : (Real.sin (Ω / 2) : ℂ) ≠ 0 := Complex.ofReal_ne_zero.2 hΩ2.ne'
  have hco : (g.courant : ℂ) ≠ 0 := Complex.ofReal_ne_zero.2 hs.ne'
  have hst := hst (advanceAt a ls) (fun x h1 h2 => by
      obtain ⟨l, -, e1, e2⟩ := filled_advance ls a hls x (by omega) (by omega)
      rw [e1, e2.dispersion hΩ2.ne'])
  have hfit := filled_fits ls a hls hres
  have key := stack_films hst (ls.map fun l => (l.advance, l.cells)) (fun l hl => by
      obtain ⟨l', hl', rfl⟩ := List.mem_map.1 hl
      exact (hfit l' hl').1) a (by omega) (by rw [layerCells_total]) (laidOut_advance _ ls a fun x h1 h2 => rfl) hk0 hA hin (by rwa [layerCells_total])
  -- the common factor of all impedances
  set c : ℝ := g.courant / Real.sin (Ω / 2) with hcd
  have hc : 0 < c := div_pos hs hΩ2
  have himp : ∀ n κ : ℂ, Complex.sin (κ / 2) ≠ 0 → Complex.sin (κ / 2) = Real.sin (Ω / 2) / g.courant * n → gridImpedance κ = c * (Complex.cos (κ / 2) / n) := by
    intro n κ h0 e
    have hn : n ≠ 0 := by rintro rfl; exact h0 (by rw [e, mul_zero])
    rw [gridImpedance, e, hcd]
    push_cast
    field_simp
  have h0 : gridImpedance k0 = ((c * (Real.cos (k0 / 2) / n0) : ℝ) : ℂ) := by
    rw [himp n0 k0 hk0.1 hk]
    push_cast
    rfl
  have hfilms : gridFilms (ls.map fun l => (l.advance, l.cells)) = (simulatedFilms ls).map fun yd => ((c : ℂ) * yd.1, yd.2) := by
    rw [gridFilms, simulatedFilms, List.map_map, List.map_map]
    refine List.map_congr_left fun l hl => ?_
    simp only [Function.comp_apply]
    rw [himp l.index l.advance (hfit l hl).1.1 (hfit l hl).2]
  rw [h0, hfilms, Complex.ofReal_re, Complex.ofReal_mul] at key
  obtain ⟨e1, e2⟩ := films_scale c hc (Real.cos (k0 / 2) / n0) (simulatedFilms ls) ((Real.cos (k0 / 2) / n0 : ℝ) : ℂ)
  rw [e1, e2] at key
  convert key using 3 <;> push_cast <;> rfl

/-- C124: the reflectance and transmittance of every state that the FDTD grid settles into are those of a stack of films. In a window without sources and absorbing
layers, periodic in y, let the layers `ls` fill the cells from `a` on, in a medium of index `n0` and phase advance `k0`. If at some times `τ n` and the four steps after each of them the row
sums of the electric field tend to an oscillation with `Ω` radians per step about a static field, with amplitudes `A exp (i k0 x) + B exp (-i k0 x)` in the two cells in front of the stack and
`C exp (i k0 x)` in the two cells behind it, then `|B/A|²` and `|C/A|²` are the film formulas for the impedances `cos (κ/2) / n` and the phases `κ` per cell. -/
theorem C124_films_settling (h : LineWindow g lo hi ie f im) {Ω : ℝ} (hΩ : Real.sin Ω ≠ 0) (hΩ2 : 0 < Real.sin (Ω / 2)) (hs : 0 < g.courant) (him : im ≠ 0) (a : ℕ) (ha : lo + 1 < a)
    (ls : List GridLayer) (hb : a + totalCells ls < hi) (hie : ∀ x, lo < x → x < hi → ie x ≠ 0) (hf : ∀ x, lo < x → x < hi → 1 + f x ≠ 0)
    (hls : Filled g.courant Ω ie f im a ls) (hres : ∀ l ∈ ls, 1 ≤ l.cells) {n0 k0 : ℝ} (hk0 : WaveResolved k0)
    (hk : Complex.sin ((k0 : ℂ) / 2) = Real.sin (Ω / 2) / g.courant * n0) (u : ℕ → ℂ) (v : ℕ → ℝ) (τ : ℕ → ℕ) (hk1 : ∀ n, 1 ≤ τ n)
    (hosc : ∀ j ≤ 4, ∀ x, lo ≤ x → x ≤ hi → Tendsto (fun n => rowE (g.run (τ n + j)) x) atTop (𝓝 (v x + (u x * Complex.exp (-(Complex.I * Ω * j))).re))) {A B C : ℂ} (hA : A ≠ 0)
    (hin : ∀ x, x = a - 1 ∨ x = a → u x = A * Complex.exp (Complex.I * k0 * x) + B * Complex.exp (-(Complex.I * k0 * x)))
    (hout : ∀ x, x = a + totalCells ls - 1 ∨ x = a + totalCells ls → u x = C * Complex.exp (Complex.I * k0 * x)) :
    Complex.normSq (B / A) = filmsR (Real.cos (k0 / 2) / n0) (simulatedFilms ls) (Real.cos (k0 / 2) / n0) ∧
      Complex.normSq (C / A) = filmsT (Real.cos (k0 / 2) / n0) (simulatedFilms ls) (Real.cos (k0 / 2) / n0) := by
  -- restrict the window to the stack
  have h' : LineWindow g (a - 1) (a + totalCells ls) ie f im := by
    obtain ⟨l, r, e, hlr⟩ := h.bounds
    exact ⟨h.wide, h.flat, by have := h.inside; omega, ⟨l, r, e, fun b hb' p h1 h2 => hlr b hb' p (by omega) (by omega)⟩,
      fun s hs' p h1 h2 => h.sources s hs' p (by omega) (by omega), fun x y h1 h2 => h.eps x y (by omega) (by omega),
      fun x y h1 h2 => h.absorb x y (by omega) (by omega), fun x y h1 h2 => h.mu x y (by omega) (by omega)⟩
  exact films_of_stationary hΩ2 hs a ha ls hls hres hk0 hk u (fun κ hκ => C124_settling h' hΩ hs.ne' him (fun x h1 h2 => hie x (by omega) (by omega))
    (fun x h1 h2 => hf x (by omega) (by omega)) κ hκ u v τ hk1 fun j hj x h1 h2 => hosc j hj x (by omega) (by omega)) hA hin hout

/-- C124: the reflectance and transmittance of every stationary state of the FDTD grid are those of a stack of films. In a window without sources and absorbing
layers, periodic in y, let the layers `ls` fill the cells from `a` on, in a medium of index `n0` and phase advance `k0`. If during four consecutive steps the row
sums of the electric field oscillate with `Ω` radians per step, with amplitudes `A exp (i k0 x) + B exp (-i k0 x)` in the two cells in front of the stack and
`C exp (i k0 x)` in the two cells behind it, then `|B/A|²` and `|C/A|²` are the film formulas for the impedances `cos (κ/2) / n` and the phases `κ` per cell. -/
theorem C124_films (h : LineWindow g lo hi ie f im) {Ω : ℝ} (hΩ : Real.sin Ω ≠ 0) (hΩ2 : 0 < Real.sin (Ω / 2)) (hs : 0 < g.courant) (him : im ≠ 0) (a : ℕ) (ha : lo + 1 < a)
    (ls : List GridLayer) (hb : a + totalCells ls < hi) (hie : ∀ x, lo < x → x < hi → ie x ≠ 0) (hf : ∀ x, lo < x → x < hi → 1 + f x ≠ 0)
    (hls : Filled g.courant Ω ie f im a ls) (hres : ∀ l ∈ ls, 1 ≤ l.cells) {n0 k0 : ℝ} (hk0 : WaveResolved k0)
    (hk : Complex.sin ((k0 : ℂ) / 2) = Real.sin (Ω / 2) / g.courant * n0) (u : ℕ → ℂ) (k : ℕ) (hk1 : 1 ≤ k)
    (hosc : ∀ j ≤ 3, ∀ x, lo ≤ x → x ≤ hi → rowE (g.run (k + j)) x = (u x * Complex.exp (-(Complex.I * Ω * j))).re) {A B C : ℂ} (hA : A ≠ 0)
    (hin : ∀ x, x = a - 1 ∨ x = a → u x = A * Complex.exp (Complex.I * k0 * x) + B * Complex.exp (-(Complex.I * k0 * x)))
    (hout : ∀ x, x = a + totalCells ls - 1 ∨ x = a + totalCells ls → u x = C * Complex.exp (Complex.I * k0 * x)) :
    Complex.normSq (B / A) = filmsR (Real.cos (k0 / 2) / n0) (simulatedFilms ls) (Real.cos (k0 / 2) / n0) ∧
      Complex.normSq (C / A) = filmsT (Real.cos (k0 / 2) / n0) (simulatedFilms ls) (Real.cos (k0 / 2) / n0) := by
  -- restrict the window to the stack
  have h' : LineWindow g (a - 1) (a + totalCells ls) ie f im := by
    obtain ⟨l, r, e, hlr⟩ := h.bounds
    exact ⟨h.wide, h.flat, by have := h.inside; omega, ⟨l, r, e, fun b hb' p h1 h2 => hlr b hb' p (by omega) (by omega)⟩,
      fun s hs' p h1 h2 => h.sources s hs' p (by omega) (by omega), fun x y h1 h2 => h.eps x y (by omega) (by omega),
      fun x y h1 h2 => h.absorb x y (by omega) (by omega), fun x y h1 h2 => h.mu x y (by omega) (by omega)⟩
  exact films_of_stationary hΩ2 hs a ha ls hls hres hk0 hk u (fun κ hκ => C124_stationary h' hΩ hs.ne' him (fun x h1 h2 => hie x (by omega) (by omega))
    (fun x h1 h2 => hf x (by omega) (by omega)) κ hκ u k hk1 fun j hj x h1 h2 => hosc j hj x (by omega) (by omega)) hA hin hout

/-! ### stationary states exist -/

/-- C124, converse: a stationary wave of the line of cells, laid on the grid, stays one. If the row sums of the electric field are `Re (u x)` and those of the
magnetic field, half a step later, are `Re (v x exp (-i Ω/2))` with `v = i courant im (u (x+1) - u x) / (2 sin (Ω/2))`, then after `j` steps the electric field is
`Re (u x exp (-i Ω j))` on every plane that is more than `j` planes away from the ends of the window. -/
theorem C124_persists (h : LineWindow g lo hi ie f im) (hc : Copied g lo hi) {Ω : ℝ} (hΩ : Real.sin (Ω / 2) ≠ 0) (hs : g.courant ≠ 0) (him : im ≠ 0)
    (hie : ∀ x, lo < x → x < hi → ie x ≠ 0) (hf : ∀ x, lo < x → x < hi → 1 + f x ≠ 0) (κ : ℕ → ℂ)
    (hκ : ∀ x, lo < x → x < hi → Complex.sin (κ x / 2) ^ 2 =
      Real.sin (Ω / 2) * (Real.sin (Ω / 2) + Complex.I * f x * Real.cos (Ω / 2)) / (g.courant ^ 2 * ie x * im)) (u : ℕ → ℂ) (hu : Stationary κ u lo hi)
    (hE : ∀ x, lo ≤ x → x ≤ hi → rowE g x = (u x).re)
    (hH : ∀ x, lo ≤ x → x < hi → rowH g x = (Complex.I * g.courant * im * (u (x + 1) - u x) / (2 * Real.sin (Ω / 2)) * Complex.exp (-(Complex.I * Ω / 2))).re) (j : ℕ) :
    ∀ x, lo + j ≤ x → x + j ≤ hi → rowE (g.run j) x = (u x * Complex.exp (-(Complex.I * Ω * j))).re := by
  set S : ℂ := (Real.sin (Ω / 2) : ℂ) with hS
  set D : ℂ := (Real.cos (Ω / 2) : ℂ) with hD
  set q : ℂ := Complex.exp (-(Complex.I * Ω / 2)) with hq
  have hS0 : S ≠ 0 := Complex.ofReal_ne_zero.2 hΩ
  have hco0 : (g.courant : ℂ) ≠ 0 := Complex.ofReal_ne_zero.2 hs
  have him0 : (im : ℂ) ≠ 0 := Complex.ofReal_ne_zero.2 him
  have hI2 := Complex.I_sq
  have hq1 : q = D - S * Complex.I := by
    rw [hq, show -(Complex.I * (Ω : ℂ) / 2) = (-(Ω / 2 : ℝ) : ℂ) * Complex.I by push_cast; ring, Complex.exp_mul_I, Complex.cos_neg, Complex.sin_neg, ← Complex.ofReal_cos,
      ← Complex.ofReal_sin]
    ring
  have hDS : D ^ 2 + S ^ 2 = 1 := by
    rw [hS, hD]
    exact_mod_cast Real.cos_sq_add_sin_sq (Ω / 2)
  have hstep : ∀ j : ℕ, Complex.exp (-(Complex.I * Ω * (j + 1 : ℕ))) = Complex.exp (-(Complex.I * Ω * j)) * q ^ 2 := by
    intro j
    rw [hq, ← Complex.exp_nat_mul, ← Complex.exp_add]
    congr 1
    push_cast
    ring
  set v : ℕ → ℂ := fun x => Complex.I * g.courant * im * (u (x + 1) - u x) / (2 * S) with hv
  have hcour : ∀ m, (g.run m).courant = g.courant := run_courant g
  have hcopied : ∀ m, Copied (g.run m) lo hi := by
    intro m
    cases m with
    | zero => exact hc
    | succ m => exact (h.run m).copied
  have key : ∀ j : ℕ, (∀ x, lo + j ≤ x → x + j ≤ hi → rowE (g.run j) x = (u x * Complex.exp (-(Complex.I * Ω * j))).re) ∧
      ∀ x, lo + j ≤ x → x + j < hi → rowH (g.run j) x = (v x * q * Complex.exp (-(Complex.I * Ω * j))).re := by
    intro j
    induction j with
    | zero =>
      refine ⟨fun x h1 h2 => ?_, fun x h1 h2 => ?_⟩
      · rw [FGrid.run, hE x (by omega) (by omega)]; simp
      · rw [FGrid.run, hH x (by omega) (by omega)]; simp [hv]
    | succ j ih =>
      set w := Complex.exp (-(Complex.I * Ω * j)) with hw
      have hEj : ∀ x, lo + (j + 1) ≤ x → x + (j + 1) ≤ hi → rowE (g.run (j + 1)) x = (u x * (w * q ^ 2)).re := by
        intro x h1 h2
        have hst := hu x (by omega) (by omega)
        have hfx := hf x (by omega) (by omega)
        have hie0 : (ie x : ℂ) ≠ 0 := Complex.ofReal_ne_zero.2 (hie x (by omega) (by omega))
        have e := rowE_step (h.run j) (hcopied j) (x := x) (by omega) (by omega) hfx
        rw [hcour, ih.1 x (by omega) (by omega), ih.2 x (by omega) (by omega), ih.2 (x - 1) (by omega) (by omega)] at e
        have hmain : (1 - f x : ℝ) * (u x * w) + (g.courant * ie x : ℝ) * (v x * q * w - v (x - 1) * q * w) = (1 + f x : ℝ) * (u x * (w * q ^ 2)) := by
          have hvv : v x - v (x - 1) = Complex.I * g.courant * im * (u (x + 1) - 2 * u x + u (x - 1)) / (2 * S) := by
            simp only [hv, show x - 1 + 1 = x by omega]
            ring
          have hA : (g.courant * ie x : ℝ) * (v x * q * w - v (x - 1) * q * w) = -2 * Complex.I * (S + Complex.I * f x * D) * q * w * u x := by
            rw [show v x * q * w - v (x - 1) * q * w = (v x - v (x - 1)) * q * w by ring, hvv, hst, hκ x (by omega) (by omega)]
            push_cast
            field_simp
            ring
          rw [hA, hq1]
          push_cast
          linear_combination (-(u x * w * (1 - f x))) * hDS + (u x * w * (-2 * D * f x * (D - S * Complex.I) - (1 + f x) * S ^ 2 + 2 * S ^ 2)) * hI2
        have hre := congrArg Complex.re hmain
        rw [Complex.add_re, Complex.re_ofReal_mul, Complex.re_ofReal_mul, Complex.re_ofReal_mul, Complex.sub_re] at hre
        rw [hre] at e
        exact mul_left_cancel₀ hfx e
      refine ⟨fun x h1 h2 => by rw [hEj x h1 h2, hstep], fun x h1 h2 => ?_⟩
      have e := rowH_step (h.run j) (hcopied j) (x := x) (by omega) (by omega)
      rw [hcour, show (g.run j).step = g.run (j + 1) from rfl, ih.2 x (by omega) (by omega), hEj x h1 (by omega), hEj (x + 1) (by omega) (by omega)] at e
      rw [e, hstep, ← hw, ← Complex.sub_re, ← Complex.re_ofReal_mul, ← Complex.add_re]
      congr 1
      have hqS : Complex.I + 2 * S * q = Complex.I * q ^ 2 := by
        rw [hq1]
        linear_combination -Complex.I * hDS + (2 * D * S - S ^ 2 * Complex.I) * hI2
      simp only [hv]
      rw [show Complex.I * g.courant * im * (u (x + 1) - u x) / (2 * S) * q * (w * q ^ 2) = g.courant * im * (u (x + 1) - u x) / (2 * S) * q * w * (Complex.I * q ^ 2) by ring, ← hqS]
      push_cast
      field_simp
  exact (key j).1

/-! ### the power balance of stationary states -/

/-- power flux of the wave between the planes `x` and `x + 1` -/
def waveFlux (u : ℕ → ℂ) (x : ℕ) : ℝ := (starRingEnd ℂ (u x) * u (x + 1)).im

lemma flux_drop {κ u : ℕ → ℂ} (hu : Stationary κ u lo hi) {x : ℕ} (h1 : lo < x) (h2 : x < hi) :
    waveFlux u x = waveFlux u (x - 1) - 4 * (Complex.sin (κ x / 2) ^ 2).im * Complex.normSq (u x) := by
  have e := hu x h1 h2
  have e2 : u (x + 1) = (2 - 4 * Complex.sin (κ x / 2) ^ 2) * u x - u (x - 1) := by linear_combination e
  rw [waveFlux, waveFlux, show x - 1 + 1 = x by omega, e2]
  generalize Complex.sin (κ x / 2) ^ 2 = s
  simp only [Complex.mul_im, Complex.mul_re, Complex.sub_im, Complex.sub_re, Complex.conj_re, Complex.conj_im, Complex.normSq_apply, Complex.re_ofNat, Complex.im_ofNat]
  ring

lemma flux_waves {k0 : ℝ} {A B : ℂ} {u : ℕ → ℂ} {x : ℕ}
    (h : ∀ y, y = x ∨ y = x + 1 → u y = A * Complex.exp (Complex.I * k0 * y) + B * Complex.exp (-(Complex.I * k0 * y))) :
    waveFlux u x = (Complex.normSq A - Complex.normSq B) * Real.sin k0 := by
  have e : ∀ y : ℕ, Complex.exp (Complex.I * k0 * y) = Real.cos (k0 * y) + Real.sin (k0 * y) * Complex.I ∧
      Complex.exp (-(Complex.I * k0 * y)) = Real.cos (k0 * y) - Real.sin (k0 * y) * Complex.I := by
    intro y
    constructor
    · rw [show Complex.I * k0 * y = ((k0 * y : ℝ) : ℂ) * Complex.I by push_cast; ring, Complex.exp_mul_I, Complex.ofReal_cos, Complex.ofReal_sin]
    · rw [show -(Complex.I * k0 * y) = (-(k0 * y : ℝ) : ℂ) * Complex.I by push_cast; ring, Complex.exp_mul_I, Complex.cos_neg, Complex.sin_neg, Complex.ofReal_cos, Complex.ofReal_sin]
      ring
  rw [waveFlux, h x (Or.inl rfl), h (x + 1) (Or.inr rfl), (e x).1, (e x).2, (e (x + 1)).1, (e (x + 1)).2,
    show k0 * (x + 1 : ℕ) = k0 * x + k0 by push_cast; ring, Real.cos_add, Real.sin_add]
  have hcs := Real.cos_sq_add_sin_sq (k0 * x)
  simp only [Complex.mul_im, Complex.mul_re, Complex.add_im, Complex.add_re, Complex.sub_im, Complex.sub_re, Complex.conj_re, Complex.conj_im, Complex.normSq_apply, Complex.ofReal_re,
    Complex.ofReal_im, Complex.I_re, Complex.I_im]
  linear_combination ((A.re * A.re + A.im * A.im) - (B.re * B.re + B.im * B.im)) * Real.sin k0 * hcs

/-- C124, power: in media without gain the reflected and the transmitted wave of a stationary state of the grid carry at most the power of the incident wave, in media
without loss exactly that power. -/
theorem C124_power (h : LineWindow g lo hi ie f im) {Ω : ℝ} (hΩ0 : 0 < Ω) (hΩ1 : Ω < Real.pi) (hs : 0 < g.courant) (him : 0 < im)
    (hie : ∀ x, lo < x → x < hi → 0 < ie x) (hf : ∀ x, lo < x → x < hi → 0 ≤ f x) (u : ℕ → ℂ) (k : ℕ) (hk : 1 ≤ k)
    (hosc : ∀ j ≤ 3, ∀ x, lo ≤ x → x ≤ hi → rowE (g.run (k + j)) x = (u x * Complex.exp (-(Complex.I * Ω * j))).re) {k0 : ℝ} (hk0 : 0 < k0) (hk1 : k0 < Real.pi)
    {A B C : ℂ} (a b : ℕ) (ha : lo < a) (hab : a ≤ b) (hb : b ≤ hi)
    (hin : ∀ x, x = a - 1 ∨ x = a → u x = A * Complex.exp (Complex.I * k0 * x) + B * Complex.exp (-(Complex.I * k0 * x)))
    (hout : ∀ x, x = b - 1 ∨ x = b → u x = C * Complex.exp (Complex.I * k0 * x)) :
    Complex.normSq B + Complex.normSq C ≤ Complex.normSq A ∧ ((∀ x, a ≤ x → x < b → f x = 0) → Complex.normSq B + Complex.normSq C = Complex.normSq A) := by
  have hSin : 0 < Real.sin (Ω / 2) := Real.sin_pos_of_pos_of_lt_pi (by linarith) (by linarith)
  have hCos : 0 < Real.cos (Ω / 2) := Real.cos_pos_of_mem_Ioo ⟨by linarith, by linarith⟩
  have hS : 0 < Real.sin k0 := Real.sin_pos_of_pos_of_lt_pi hk0 hk1
  -- some phase advance for every cell
  have hex : ∀ z : ℂ, ∃ κ : ℂ, Complex.sin (κ / 2) ^ 2 = z := by
    intro z
    obtain ⟨r, hr⟩ : ∃ r : ℂ, r ^ 2 = z := ⟨_, Complex.cpow_nat_inv_pow z two_ne_zero⟩
    obtain ⟨t, ht⟩ := Complex.sin_surjective r
    exact ⟨2 * t, by rw [mul_div_cancel_left₀ _ (two_ne_zero), ht, hr]⟩
  choose κ hκ using fun x => hex (Real.sin (Ω / 2) * (Real.sin (Ω / 2) + Complex.I * f x * Real.cos (Ω / 2)) / (g.courant ^ 2 * ie x * im))
  have hst := C124_stationary h (Real.sin_pos_of_pos_of_lt_pi hΩ0 hΩ1).ne' hs.ne' him.ne' (fun x h1 h2 => (hie x h1 h2).ne')
    (fun x h1 h2 => by have := hf x h1 h2; positivity) κ (fun x _ _ => hκ x) u k hk hosc
  have him2 : ∀ x, (Complex.sin (κ x / 2) ^ 2).im = Real.sin (Ω / 2) * (f x * Real.cos (Ω / 2)) / (g.courant ^ 2 * ie x * im) := by
    intro x
    have : (Real.sin (Ω / 2) * (Real.sin (Ω / 2) + Complex.I * f x * Real.cos (Ω / 2)) / (g.courant ^ 2 * ie x * im) : ℂ) =
        ((Real.sin (Ω / 2) * Real.sin (Ω / 2) / (g.courant ^ 2 * ie x * im) : ℝ) : ℂ) +
          ((Real.sin (Ω / 2) * (f x * Real.cos (Ω / 2)) / (g.courant ^ 2 * ie x * im) : ℝ) : ℂ) * Complex.I := by push_cast; ring
    rw [hκ x, this, Complex.add_im, Complex.ofReal_im, zero_add, Complex.im_ofReal_mul, Complex.I_im, mul_one]
  have hfa := flux_waves (u := u) (x := a - 1) (k0 := k0) (A := A) (B := B) fun y hy => hin y (by omega)
  have hfb := flux_waves (u := u) (x := b - 1) (k0 := k0) (A := C) (B := 0) fun y hy => by rw [hout y (by omega), zero_mul, add_zero]
  have hmono : ∀ m, a + m ≤ b → waveFlux u (a + m - 1) ≤ waveFlux u (a - 1) ∧ ((∀ x, a ≤ x → x < b → f x = 0) → waveFlux u (a + m - 1) = waveFlux u (a - 1)) := by
    intro m
    induction m with
    | zero => exact fun _ => ⟨le_rfl, fun _ => rfl⟩
    | succ m ih =>
      intro hm
      have hd := flux_drop hst (x := a + m) (by omega) (by omega)
      rw [him2] at hd
      obtain ⟨i1, i2⟩ := ih (by omega)
      rw [show a + (m + 1) - 1 = a + m by omega, hd]
      have hp : 0 ≤ 4 * (Real.sin (Ω / 2) * (f (a + m) * Real.cos (Ω / 2)) / (g.courant ^ 2 * ie (a + m) * im)) * Complex.normSq (u (a + m)) := by
        have := hf (a + m) (by omega) (by omega)
        have := hie (a + m) (by omega) (by omega)
        have := Complex.normSq_nonneg (u (a + m))
        positivity
      refine ⟨by linarith, fun h0 => ?_⟩
      rw [h0 (a + m) (by omega) (by omega), i2 h0]
      simp
  obtain ⟨m1, m2⟩ := hmono (b - a) (by omega)
  rw [show a + (b - a) - 1 = b - 1 by omega, hfa, hfb, Complex.normSq_zero, sub_zero] at m1 m2
  refine ⟨?_, fun h0 => ?_⟩
  · have := le_of_mul_le_mul_right m1 hS
    linarith
  · have := mul_right_cancel₀ hS.ne' (m2 h0)
    linarith

/-! ### grids that carry a given stationary state -/

/-- a grid of `N` by 3 by 1 cells, periodic along y, with the given line of media, on which the stationary wave `u` is laid -/
def laidGrid (N : ℕ) (co Ω : ℝ) (ie f : ℕ → ℝ) (im : ℝ) (u : ℕ → ℂ) : FGrid ℝ where
  n := ![N, 3, 1]
  courant := co
  invEps := fun p _ => ie (p 0)
  invMu := fun _ _ => im
  absorb := fun p _ => f (p 0)
  E := fun p c => if c = 2 then (u (p 0)).re / 2 else 0
  H := fun p c => if c = 1 then (Complex.I * co * im * (u (p 0 + 1) - u (p 0)) / (2 * Real.sin (Ω / 2)) * Complex.exp (-(Complex.I * Ω / 2))).re / 2 else 0
  time := 0
  boundaries := [.periodic 1]
  sources := []
  detectors := []

lemma laid_window (N : ℕ) (hN : 1 ≤ N) (co Ω : ℝ) (ie f : ℕ → ℝ) (im : ℝ) (u : ℕ → ℂ) : LineWindow (laidGrid N co Ω ie f im u) 0 (N - 1) ie f im :=
  ⟨show 2 ≤ 3 by norm_num, rfl, show N - 1 < N by omega, ⟨[], [], rfl, fun b hb => by simp at hb⟩, fun s hs => by simp [laidGrid] at hs,
    fun _ _ _ _ _ => rfl, fun _ _ _ _ _ => rfl, fun _ _ _ _ _ => rfl⟩

/-- C124, existence: every stationary wave of every line of media is carried by a grid, step after step; so the hypotheses of `C124_films` and `C124_power` can be
met for every stack of layers. -/
theorem C124_exists {co im Ω : ℝ} (hco : co ≠ 0) (him : im ≠ 0) (hΩ : Real.sin (Ω / 2) ≠ 0) (N : ℕ) (hN : 1 ≤ N) (ie f : ℕ → ℝ) (hie : ∀ x, ie x ≠ 0) (hf : ∀ x, 1 + f x ≠ 0) (κ : ℕ → ℂ)
    (hκ : ∀ x, Complex.sin (κ x / 2) ^ 2 = Real.sin (Ω / 2) * (Real.sin (Ω / 2) + Complex.I * f x * Real.cos (Ω / 2)) / (co ^ 2 * ie x * im)) (u : ℕ → ℂ)
    (hu : Stationary κ u 0 (N - 1)) :
    ∃ g : FGrid ℝ, g.courant = co ∧ LineWindow g 0 (N - 1) ie f im ∧
      ∀ j x, j ≤ x → x + j ≤ N - 1 → rowE (g.run j) x = (u x * Complex.exp (-(Complex.I * Ω * j))).re := by
  refine ⟨laidGrid N co Ω ie f im u, rfl, laid_window N hN co Ω ie f im u, fun j x h1 h2 => ?_⟩
  refine C124_persists (laid_window N hN co Ω ie f im u) (fun x _ _ c => ⟨rfl, rfl⟩) hΩ hco him (fun x _ _ => hie x) (fun x _ _ => hf x) κ (fun x _ _ => hκ x) u hu
    (fun x _ _ => ?_) (fun x _ _ => ?_) j x (by omega) h2
  · show ∑ y ∈ Finset.Icc 1 2, (u x).re / 2 = _
    rw [Finset.sum_const, show (Finset.Icc 1 2).card = 2 from rfl]
    simp
    ring
  · show ∑ y ∈ Finset.Icc 1 2, (Complex.I * co * im * (u (x + 1) - u x) / (2 * Real.sin (Ω / 2)) * Complex.exp (-(Complex.I * Ω / 2))).re / 2 =
      (Complex.I * co * im * (u (x + 1) - u x) / (2 * Real.sin (Ω / 2)) * Complex.exp (-(Complex.I * Ω / 2))).re
    rw [Finset.sum_const, show (Finset.Icc 1 2).card = 2 from rfl, nsmul_eq_mul]
    push_cast
    rw [mul_div_cancel₀ _ (two_ne_zero)]

/-! ### an example: one cell of index `√2` -/

/-- phase factor of one cell at six cells per wavelength -/
def sixth : ℂ := ⟨1 / 2, √3 / 2⟩

lemma sixth_exp (x : ℕ) : Complex.exp (Complex.I * (Real.pi / 3 : ℝ) * x) = sixth ^ x ∧ Complex.exp (-(Complex.I * (Real.pi / 3 : ℝ) * x)) = (1 - sixth) ^ x := by
  have e1 : Complex.exp (Complex.I * (Real.pi / 3 : ℝ)) = sixth := by
    rw [mul_comm, Complex.exp_mul_I, ← Complex.ofReal_cos, ← Complex.ofReal_sin, Real.cos_pi_div_three, Real.sin_pi_div_three]
    apply Complex.ext <;> simp [sixth]
  have e2 : Complex.exp (-(Complex.I * (Real.pi / 3 : ℝ))) = 1 - sixth := by
    rw [show -(Complex.I * ((Real.pi / 3 : ℝ) : ℂ)) = ((-(Real.pi / 3) : ℝ) : ℂ) * Complex.I by push_cast; ring, Complex.exp_mul_I, ← Complex.ofReal_cos, ← Complex.ofReal_sin,
      Real.cos_neg, Real.sin_neg, Real.cos_pi_div_three, Real.sin_pi_div_three]
    apply Complex.ext <;> simp only [sixth] <;> norm_num
  constructor
  · rw [← e1, ← Complex.exp_nat_mul]; congr 1; ring
  · rw [← e2, ← Complex.exp_nat_mul]; congr 1; ring

lemma sixth_sq : sixth ^ 2 = sixth - 1 := by
  have h := Real.mul_self_sqrt (show (0 : ℝ) ≤ 3 by norm_num)
  apply Complex.ext
  · simp only [sixth, pow_two, Complex.mul_re, Complex.sub_re, Complex.one_re]; linear_combination (-1 / 4) * h
  · simp only [sixth, pow_two, Complex.mul_im, Complex.sub_im, Complex.one_im]; ring

/-- incident and reflected amplitude of the example, for a transmitted amplitude of one -/
def exA : ℂ := ⟨1, -(√3 / 3)⟩
def exB : ℂ := ⟨0, √3 / 3⟩

/-- the stationary wave of the example -/
def exWave (x : ℕ) : ℂ := if x < 6 then exA * sixth ^ x + exB * (1 - sixth) ^ x else sixth ^ x

def exAdvance (x : ℕ) : ℂ := if x = 6 then (Real.pi / 2 : ℝ) else (Real.pi / 3 : ℝ)

lemma exAdvance_sq (x : ℕ) : Complex.sin (exAdvance x / 2) ^ 2 = if x = 6 then 1 / 2 else 1 / 4 := by
  rw [exAdvance]
  split_ifs
  · rw [show ((Real.pi / 2 : ℝ) : ℂ) / 2 = ((Real.pi / 4 : ℝ) : ℂ) by push_cast; ring, ← Complex.ofReal_sin, Real.sin_pi_div_four, ← Complex.ofReal_pow, div_pow, Real.sq_sqrt (by norm_num)]
    norm_num
  · rw [show ((Real.pi / 3 : ℝ) : ℂ) / 2 = ((Real.pi / 6 : ℝ) : ℂ) by push_cast; ring, ← Complex.ofReal_sin, Real.sin_pi_div_six]
    norm_num

lemma exWave_front {x : ℕ} (h : x ≤ 6) : exWave x = exA * sixth ^ x + exB * (1 - sixth) ^ x := by
  rw [exWave]
  split_ifs with hx
  · rfl
  · obtain rfl : x = 6 := by omega
    have e6 : sixth ^ 6 = 1 := by linear_combination (sixth ^ 4 + sixth ^ 3 - sixth - 1) * sixth_sq
    have e6' : (1 - sixth) ^ 6 = 1 := by
      have e2 : (1 - sixth) ^ 2 = -sixth := by linear_combination sixth_sq
      rw [show (1 - sixth) ^ 6 = ((1 - sixth) ^ 2) ^ 3 by ring, e2]
      linear_combination (-sixth - 1) * sixth_sq
    rw [e6, e6']
    apply Complex.ext <;> simp [exA, exB]

lemma exWave_stationary (hi : ℕ) : Stationary exAdvance exWave 0 hi := by
  intro x h1 _
  rw [exAdvance_sq]
  obtain ⟨m, rfl⟩ : ∃ m, x = m + 1 := ⟨x - 1, by omega⟩
  rw [Nat.add_sub_cancel]
  by_cases h6 : m + 1 = 6
  · obtain rfl : m = 5 := by omega
    rw [if_pos rfl, exWave_front (x := 5) (by norm_num), exWave, if_neg (by norm_num), exWave, if_neg (by norm_num)]
    have e5 : sixth ^ 5 = 1 - sixth := by linear_combination (sixth ^ 3 + sixth ^ 2 - 1) * sixth_sq
    have e7 : sixth ^ 7 = sixth := by linear_combination (sixth ^ 5 + sixth ^ 4 - sixth ^ 2 - sixth) * sixth_sq
    have e5' : (1 - sixth) ^ 5 = sixth := by
      have e2 : (1 - sixth) ^ 2 = -sixth := by linear_combination sixth_sq
      rw [show (1 - sixth) ^ 5 = ((1 - sixth) ^ 2) ^ 2 * (1 - sixth) by ring, e2]
      linear_combination (-sixth) * sixth_sq
    rw [show 5 + 1 + 1 = 7 from rfl, e5, e7, e5']
    have h := Real.mul_self_sqrt (show (0 : ℝ) ≤ 3 by norm_num)
    have hz : sixth + exA * (1 - sixth) + exB * sixth = 0 := by
      apply Complex.ext
      · simp only [sixth, exA, exB, Complex.add_re, Complex.mul_re, Complex.sub_re, Complex.one_re, Complex.sub_im, Complex.one_im, Complex.zero_re]; linear_combination (-1 / 3) * h
      · simp only [sixth, exA, exB, Complex.add_im, Complex.mul_im, Complex.sub_re, Complex.one_re, Complex.sub_im, Complex.one_im, Complex.zero_im]; ring
    linear_combination hz
  · rw [if_neg h6]
    by_cases hm : m + 1 < 6
    · rw [exWave_front (x := m + 1 + 1) (by omega), exWave_front (x := m + 1) (by omega), exWave_front (x := m) (by omega)]
      simp only [pow_succ]
      linear_combination (exA * sixth ^ m + exB * (1 - sixth) ^ m) * sixth_sq
    · simp only [exWave]
      rw [if_neg (by omega), if_neg (by omega), if_neg (by omega)]
      simp only [pow_succ]
      linear_combination sixth ^ m * sixth_sq

/-- one cell of relative permittivity 2 in vacuum at six cells per wavelength: a grid carries the stationary state, and a quarter of the power is reflected -/
example : ∃ g : FGrid ℝ, ∃ Ω : ℝ, LineWindow g 4 8 (fun x => if x = 6 then 1 / 2 else 1) 0 1 ∧ g.courant = 1 / 2 ∧ Real.sin (Ω / 2) = 1 / 4 ∧ Real.sin Ω ≠ 0 ∧
    Filled g.courant Ω (fun x => if x = 6 then 1 / 2 else 1) 0 1 6 [⟨√2, Real.pi / 2, 1⟩] ∧
    Complex.sin (((Real.pi / 3 : ℝ) : ℂ) / 2) = Real.sin (Ω / 2) / g.courant * (1 : ℝ) ∧ WaveResolved (Real.pi / 3 : ℝ) ∧
    (∀ j ≤ 3, ∀ x, 4 ≤ x → x ≤ 8 → rowE (g.run (1 + j)) x = (exWave x * Complex.exp (-(Complex.I * Ω * j))).re) ∧ exA ≠ 0 ∧
    (∀ x, x = 5 ∨ x = 6 → exWave x = exA * Complex.exp (Complex.I * (Real.pi / 3 : ℝ) * x) + exB * Complex.exp (-(Complex.I * (Real.pi / 3 : ℝ) * x))) ∧
    (∀ x, x = 6 ∨ x = 7 → exWave x = 1 * Complex.exp (Complex.I * (Real.pi / 3 : ℝ) * x)) ∧ Complex.normSq (exB / exA) = 1 / 4 ∧ Complex.normSq (1 / exA) = 3 / 4 := by
  set Ω : ℝ := 2 * Real.arcsin (1 / 4) with hΩ
  have h1 : Real.sin (Ω / 2) = 1 / 4 := by
    rw [hΩ, mul_div_cancel_left₀ _ (two_ne_zero), Real.sin_arcsin (by norm_num) (by norm_num)]
  have hc : 0 < Real.cos (Ω / 2) := by
    rw [hΩ, mul_div_cancel_left₀ _ (two_ne_zero), Real.cos_arcsin]
    exact Real.sqrt_pos.2 (by norm_num)
  have h2 : Real.sin Ω ≠ 0 := by
    rw [show Ω = 2 * (Ω / 2) by ring, Real.sin_two_mul, h1]
    positivity
  have hA : Complex.normSq exA = 4 / 3 := by
    have h := Real.mul_self_sqrt (show (0 : ℝ) ≤ 3 by norm_num)
    rw [exA, Complex.normSq_mk]
    linear_combination (1 / 9) * h
  have hB : Complex.normSq exB = 1 / 3 := by
    have h := Real.mul_self_sqrt (show (0 : ℝ) ≤ 3 by norm_num)
    rw [exB, Complex.normSq_mk]
    linear_combination (1 / 9) * h
  obtain ⟨g, hg, hw, hrun⟩ := C124_exists (co := 1 / 2) (im := 1) (Ω := Ω) (by norm_num) (by norm_num) (by rw [h1]; norm_num) 13 (by norm_num)
    (fun x => if x = 6 then 1 / 2 else 1) 0 (fun x => by split_ifs <;> norm_num) (fun x => by norm_num) exAdvance
    (fun x => by
      rw [exAdvance_sq, h1]
      simp only [Pi.zero_apply]
      split_ifs <;> push_cast <;> ring)
    (fun x => exWave x * Complex.exp (Complex.I * Ω))
    (fun x a b => by linear_combination Complex.exp (Complex.I * Ω) * exWave_stationary 12 x a b)
  have h' : LineWindow g 4 8 (fun x => if x = 6 then 1 / 2 else 1) 0 1 := by
    obtain ⟨l, r, e, hlr⟩ := hw.bounds
    exact ⟨hw.wide, hw.flat, by have := hw.inside; omega, ⟨l, r, e, fun b hb' p h1 h2 => hlr b hb' p (by omega) (by omega)⟩,
      fun s hs' p h1 h2 => hw.sources s hs' p (by omega) (by omega), fun x y h1 h2 => hw.eps x y (by omega) (by omega),
      fun x y h1 h2 => hw.absorb x y (by omega) (by omega), fun x y h1 h2 => hw.mu x y (by omega) (by omega)⟩
  have h4 : Complex.sin (((Real.pi / 2 : ℝ) : ℂ) / 2) = ((√2 / 2 : ℝ) : ℂ) ∧ Complex.cos (((Real.pi / 2 : ℝ) : ℂ) / 2) = ((√2 / 2 : ℝ) : ℂ) := by
    rw [show ((Real.pi / 2 : ℝ) : ℂ) / 2 = ((Real.pi / 4 : ℝ) : ℂ) by push_cast; ring, ← Complex.ofReal_sin, ← Complex.ofReal_cos, Real.sin_pi_div_four, Real.cos_pi_div_four]
    exact ⟨rfl, rfl⟩
  have h6 : Complex.sin (((Real.pi / 3 : ℝ) : ℂ) / 2) = ((1 / 2 : ℝ) : ℂ) ∧ Complex.cos (((Real.pi / 3 : ℝ) : ℂ) / 2) = ((√3 / 2 : ℝ) : ℂ) := by
    rw [show ((Real.pi / 3 : ℝ) : ℂ) / 2 = ((Real.pi / 6 : ℝ) : ℂ) by push_cast; ring, ← Complex.ofReal_sin, ← Complex.ofReal_cos, Real.sin_pi_div_six, Real.cos_pi_div_six]
    exact ⟨rfl, rfl⟩
  refine ⟨g, Ω, h', hg, h1, h2, ⟨fun x a b => ⟨?_, ?_, ?_⟩, trivial⟩, ?_, ?_, fun j hj x a b => ?_, ?_, ?_, ?_, ?_, ?_⟩
  · obtain rfl : x = 6 := by
      have : x < 6 + 1 := b
      omega
    beta_reduce
    rw [if_pos rfl]
    show ((√2 : ℝ) : ℂ) ^ 2 = _
    rw [← Complex.ofReal_pow, Real.sq_sqrt (by norm_num)]
    simp only [Pi.zero_apply]
    push_cast
    ring
  · rw [h1, hg]
    show Complex.sin ((Real.pi / 2 : ℂ) / 2) = _ * ((√2 : ℝ) : ℂ)
    have := h4.1
    push_cast at this ⊢
    rw [this]
    ring
  · have := h4
    push_cast at this
    exact ⟨by rw [this.1]; simp, by rw [this.2]; simp⟩
  · rw [h6.1, h1, hg]
    push_cast
    ring
  · exact ⟨by rw [h6.1]; norm_num, by rw [h6.2]; simp⟩
  · rw [hrun (1 + j) x (by omega) (by omega), mul_assoc, ← Complex.exp_add]
    congr 3
    push_cast
    ring
  · intro h0
    rw [h0, Complex.normSq_zero] at hA
    norm_num at hA
  · intro x hx
    rw [(sixth_exp x).1, (sixth_exp x).2, exWave_front (by omega)]
  · intro x hx
    rw [(sixth_exp x).1, one_mul, exWave, if_neg (by omega)]
  · rw [Complex.normSq_div, hA, hB]; norm_num
  · rw [Complex.normSq_div, hA, Complex.normSq_one]; norm_num

end

end Nidn
