/-
Property C124, refinement of the grid: the film stacks that the FDTD grid simulates tend to the physical stack, so that both solvers of NIDN agree in the limit.
-/
import Verif.Props.FdtdFilms
import Verif.Props.Films
import Mathlib.Analysis.SpecialFunctions.Trigonometric.Bounds
import Mathlib.Analysis.SpecialFunctions.Trigonometric.Deriv
import Mathlib.Analysis.SpecialFunctions.Pow.Continuity

namespace Nidn

open Filter Topology

noncomputable section

/-! ### continuity of the film formulas -/

lemma frontFields_tendsto {ι α : Type} {l : Filter α} (L : List ι) {y δ : ι → α → ℂ} {y' δ' : ι → ℂ} (hy : ∀ i ∈ L, Tendsto (y i) l (𝓝 (y' i)))
    (hδ : ∀ i ∈ L, Tendsto (δ i) l (𝓝 (δ' i))) (h0 : ∀ i ∈ L, y' i ≠ 0) {yN : α → ℂ} {yN' : ℂ} (hN : Tendsto yN l (𝓝 yN')) :
    Tendsto (fun a => (frontFields (L.map fun i => (y i a, δ i a)) (yN a)).1) l (𝓝 (frontFields (L.map fun i => (y' i, δ' i)) yN').1) ∧
      Tendsto (fun a => (frontFields (L.map fun i => (y i a, δ i a)) (yN a)).2) l (𝓝 (frontFields (L.map fun i => (y' i, δ' i)) yN').2) := by
  induction L with
  | nil => exact ⟨tendsto_const_nhds, hN⟩
  | cons i L ih =>
    obtain ⟨a1, a2⟩ := ih (fun i hi => hy i (List.mem_cons_of_mem _ hi)) (fun i hi => hδ i (List.mem_cons_of_mem _ hi)) (fun i hi => h0 i (List.mem_cons_of_mem _ hi))
    have b1 := hy i List.mem_cons_self
    have b2 := hδ i List.mem_cons_self
    have bc := (Complex.continuous_cos.tendsto _).comp b2
    have bs := (Complex.continuous_sin.tendsto _).comp b2
    constructor
    · exact (bc.mul a1).sub (((tendsto_const_nhds.mul bs).div b1 (h0 i List.mem_cons_self)).mul a2)
    · exact (bc.mul a2).sub (((tendsto_const_nhds.mul b1).mul bs).mul a1)

lemma films_tendsto {ι α : Type} {l : Filter α} (L : List ι) {y δ : ι → α → ℂ} {y' δ' : ι → ℂ} (hy : ∀ i ∈ L, Tendsto (y i) l (𝓝 (y' i)))
    (hδ : ∀ i ∈ L, Tendsto (δ i) l (𝓝 (δ' i))) (h0 : ∀ i ∈ L, y' i ≠ 0) {yN : α → ℂ} {yN' : ℂ} (hN : Tendsto yN l (𝓝 yN')) {y0 : α → ℝ} {y0' : ℝ} (hy0 : Tendsto y0 l (𝓝 y0'))
    (hD : filmsDen y0' (L.map fun i => (y' i, δ' i)) yN' ≠ 0) :
    Tendsto (fun a => filmsR (y0 a) (L.map fun i => (y i a, δ i a)) (yN a)) l (𝓝 (filmsR y0' (L.map fun i => (y' i, δ' i)) yN')) ∧
      Tendsto (fun a => filmsT (y0 a) (L.map fun i => (y i a, δ i a)) (yN a)) l (𝓝 (filmsT y0' (L.map fun i => (y' i, δ' i)) yN')) := by
  obtain ⟨a1, a2⟩ := frontFields_tendsto L hy hδ h0 hN
  have c0 : Tendsto (fun a => ((y0 a : ℝ) : ℂ)) l (𝓝 (y0' : ℂ)) := (Complex.continuous_ofReal.tendsto _).comp hy0
  have hden := (c0.mul a1).add a2
  constructor
  · exact (Complex.continuous_normSq.tendsto _).comp (((c0.mul a1).sub a2).div hden hD)
  · refine ((tendsto_const_nhds.mul hy0).mul ((Complex.continuous_re.tendsto _).comp hN)).div ((Complex.continuous_normSq.tendsto _).comp hden) ?_
    rwa [Ne, Complex.normSq_eq_zero]

/-! ### the dispersion relation for short steps -/

lemma sin_quot {α : Type} {l : Filter α} {z : α → ℂ} (hz : Tendsto z l (𝓝 0)) (h0 : ∀ᶠ a in l, z a ≠ 0) : Tendsto (fun a => Complex.sin (z a) / z a) l (𝓝 1) := by
  have h := (Complex.hasDerivAt_sin 0)
  rw [Complex.cos_zero, hasDerivAt_iff_tendsto_slope] at h
  have h2 := h.comp (tendsto_nhdsWithin_iff.2 ⟨hz, h0⟩)
  refine h2.congr fun a => ?_
  rw [Function.comp_apply, slope_def_field, Complex.sin_zero, sub_zero, sub_zero]

lemma norm_le_sin {w : ℂ} (hw : ‖w‖ ≤ 1) : ‖w‖ ≤ 2 * ‖Complex.sin w‖ := by
  have h := Complex.sin_bound hw
  have h1 : ‖w‖ ≤ ‖Complex.sin w‖ + ‖Complex.sin w - (w - w ^ 3 / 6)‖ + ‖w ^ 3 / 6‖ := by
    calc ‖w‖ = ‖Complex.sin w - (Complex.sin w - (w - w ^ 3 / 6)) + w ^ 3 / 6‖ := by ring_nf
      _ ≤ ‖Complex.sin w - (Complex.sin w - (w - w ^ 3 / 6))‖ + ‖w ^ 3 / 6‖ := norm_add_le _ _
      _ ≤ _ := by gcongr; exact norm_sub_le _ _
  have h2 : ‖w ^ 3 / 6‖ = ‖w‖ ^ 3 / 6 := by rw [norm_div, norm_pow]; norm_num
  have h0 := norm_nonneg w
  have h3 : ‖w‖ ^ 3 ≤ ‖w‖ := by nlinarith [mul_nonneg h0 h0]
  have h5 : ‖w‖ ^ 5 ≤ ‖w‖ := by
    calc ‖w‖ ^ 5 = ‖w‖ ^ 4 * ‖w‖ := by ring
      _ ≤ 1 * ‖w‖ := by gcongr; exact pow_le_one₀ h0 hw
      _ = ‖w‖ := one_mul _
  linarith

/-- A layer of the physical stack: permittivity, conductivity (in units in which the absorption per cell is `courant σ Δ / (2 ε)`) and thickness. -/
structure PhysLayer where
  eps : ℝ
  sigma : ℝ
  thickness : ℝ

/-- The layer's refractive index at the wave number `K` of the vacuum: `n² = ε + i σ / K`. -/
def PhysLayer.index (s : PhysLayer) (K : ℝ) : ℂ := ((s.eps : ℂ) + Complex.I * s.sigma / K) ^ (2⁻¹ : ℂ)

lemma PhysLayer.index_sq (s : PhysLayer) (K : ℝ) : s.index K ^ 2 = (s.eps : ℂ) + Complex.I * s.sigma / K := by
  rw [PhysLayer.index]
  exact Complex.cpow_nat_inv_pow _ two_ne_zero

/-- What a layer of the grid with spacing `Δ` must satisfy to represent the physical layer: the dispersion relation, a whole number of cells, the forward root
of the index, and less than two radians per cell. -/
structure StandsFor (co K Δ : ℝ) (l : GridLayer) (s : PhysLayer) : Prop where
  fits : l.Fits co (co * K * Δ) (1 / s.eps) (co * s.sigma * Δ / (2 * s.eps)) 1
  cells : l.cells * Δ = s.thickness
  forward : 0 < l.index.re
  short : ‖l.advance / 2‖ ≤ 1

variable {K co : ℝ} {Δ : ℕ → ℝ}

lemma half_step (hΔ0 : Tendsto Δ atTop (𝓝 0)) (c : ℝ) : Tendsto (fun m => c * Δ m) atTop (𝓝 0) := by
  have := hΔ0.const_mul c
  rwa [mul_zero] at this

lemma index_tendsto (hK : 0 < K) (hco : 0 < co) (hΔ : ∀ m, 0 < Δ m) (hΔ0 : Tendsto Δ atTop (𝓝 0)) {s : PhysLayer} (hs : 0 < s.eps) {l : ℕ → GridLayer}
    (h : ∀ m, StandsFor co K (Δ m) (l m) s) : Tendsto (fun m => (l m).index) atTop (𝓝 (s.index K)) := by
  have hKc : (K : ℂ) ≠ 0 := Complex.ofReal_ne_zero.2 hK.ne'
  have hcoc : (co : ℂ) ≠ 0 := Complex.ofReal_ne_zero.2 hco.ne'
  have hec : (s.eps : ℂ) ≠ 0 := Complex.ofReal_ne_zero.2 hs.ne'
  set z : ℕ → ℂ := fun m => ((co * K * Δ m / 2 : ℝ) : ℂ) with hz
  have hz0 : Tendsto z atTop (𝓝 0) := by
    have := (Complex.continuous_ofReal.tendsto 0).comp (half_step hΔ0 (co * K / 2))
    refine this.congr fun m => ?_
    simp only [hz, Function.comp_apply]
    congr 1
    ring
  have hzne : ∀ m, z m ≠ 0 := fun m => Complex.ofReal_ne_zero.2 (by have := hΔ m; positivity)
  have hq := sin_quot hz0 (Eventually.of_forall hzne)
  have hc := (Complex.continuous_cos.tendsto 0).comp hz0
  rw [Complex.cos_zero] at hc
  have hlim := ((hc.div hq one_ne_zero).const_mul (Complex.I * s.sigma / K)).const_add (s.eps : ℂ)
  rw [div_one, mul_one] at hlim
  have hsq : Tendsto (fun m => (l m).index ^ 2) atTop (𝓝 ((s.eps : ℂ) + Complex.I * s.sigma / K)) := by
    refine hlim.congr fun m => ?_
    have hΔc : (Δ m : ℂ) ≠ 0 := Complex.ofReal_ne_zero.2 (hΔ m).ne'
    rw [(h m).fits.1, Complex.ofReal_cos, Complex.ofReal_sin]
    show _ + _ * (Complex.cos (z m) / (Complex.sin (z m) / z m)) = (1 + Complex.I * _ * (Complex.cos (z m) / Complex.sin (z m))) / _
    rw [div_div_eq_mul_div, show (z m : ℂ) = co * K * Δ m / 2 by simp only [hz]; push_cast; ring]
    push_cast
    field_simp
  have hslit : ((s.eps : ℂ) + Complex.I * s.sigma / K) ∈ Complex.slitPlane := by
    left
    have : ((s.eps : ℂ) + Complex.I * s.sigma / K) = ((s.eps : ℝ) : ℂ) + ((s.sigma / K : ℝ) : ℂ) * Complex.I := by push_cast; ring
    rw [this, Complex.add_re, Complex.ofReal_re, Complex.re_ofReal_mul, Complex.I_re, mul_zero, add_zero]
    exact hs
  have hcp := (continuousAt_cpow_const (b := (2⁻¹ : ℂ)) hslit).tendsto.comp hsq
  refine hcp.congr fun m => ?_
  rw [Function.comp_apply, Complex.sq_cpow_two_inv (h m).forward]

lemma advance_zero (hΔ0 : Tendsto Δ atTop (𝓝 0)) {n κ : ℕ → ℂ} {n' : ℂ} (hn : Tendsto n atTop (𝓝 n'))
    (hκ : ∀ m, Complex.sin (κ m / 2) = Real.sin (co * K * Δ m / 2) / co * n m) (hs : ∀ m, ‖κ m / 2‖ ≤ 1) : Tendsto (fun m => κ m / 2) atTop (𝓝 0) := by
  have h1 : Tendsto (fun m => ((Real.sin (co * K * Δ m / 2) : ℝ) : ℂ) / co * n m) atTop (𝓝 0) := by
    have h2 : Tendsto (fun m => co * K * Δ m / 2) atTop (𝓝 0) := by
      refine (half_step hΔ0 (co * K / 2)).congr fun m => by ring
    have h3 := (Complex.continuous_ofReal.tendsto _).comp ((Real.continuous_sin.tendsto 0).comp h2)
    have h4 := (h3.div_const (co : ℂ)).mul hn
    simp only [Real.sin_zero, Complex.ofReal_zero, zero_div, zero_mul] at h4
    exact h4
  have h2 := (tendsto_zero_iff_norm_tendsto_zero.1 h1).const_mul 2
  rw [mul_zero] at h2
  refine squeeze_zero_norm (fun m => ?_) h2
  rw [← hκ m]
  exact norm_le_sin (hs m)

lemma phase_tendsto (hK : 0 < K) (hco : 0 < co) (hΔ : ∀ m, 0 < Δ m) (hΔ0 : Tendsto Δ atTop (𝓝 0)) {n κ : ℕ → ℂ} {n' : ℂ} (hn : Tendsto n atTop (𝓝 n'))
    (hκ : ∀ m, Complex.sin (κ m / 2) = Real.sin (co * K * Δ m / 2) / co * n m) (hs : ∀ m, ‖κ m / 2‖ ≤ 1) (hne : ∀ m, Complex.sin (κ m / 2) ≠ 0) :
    Tendsto (fun m => κ m / Δ m) atTop (𝓝 (K * n')) := by
  have hcoc : (co : ℂ) ≠ 0 := Complex.ofReal_ne_zero.2 hco.ne'
  have hKc : (K : ℂ) ≠ 0 := Complex.ofReal_ne_zero.2 hK.ne'
  have hκ0 := advance_zero hΔ0 hn hκ hs
  have hκne : ∀ m, κ m / 2 ≠ 0 := fun m h => hne m (by rw [h, Complex.sin_zero])
  have q1 := sin_quot hκ0 (Eventually.of_forall hκne)
  set z : ℕ → ℂ := fun m => ((co * K * Δ m / 2 : ℝ) : ℂ) with hz
  have hz0 : Tendsto z atTop (𝓝 0) := by
    have := (Complex.continuous_ofReal.tendsto 0).comp (half_step hΔ0 (co * K / 2))
    refine this.congr fun m => ?_
    simp only [hz, Function.comp_apply]
    congr 1
    ring
  have hzne : ∀ m, z m ≠ 0 := fun m => Complex.ofReal_ne_zero.2 (by have := hΔ m; positivity)
  have q2 := sin_quot hz0 (Eventually.of_forall hzne)
  have h := ((q2.mul hn).div q1 one_ne_zero).const_mul (K : ℂ)
  rw [one_mul, div_one] at h
  refine h.congr fun m => ?_
  have hΔc : (Δ m : ℂ) ≠ 0 := Complex.ofReal_ne_zero.2 (hΔ m).ne'
  have h0 := hne m
  have h1 := hκne m
  have h2 : κ m ≠ 0 := fun h => h1 (by rw [h, zero_div])
  have e : Complex.sin (z m) = co * Complex.sin (κ m / 2) / n m := by
    have hn0 : n m ≠ 0 := by rintro h; exact h0 (by rw [hκ m, h, mul_zero])
    rw [hκ m, ← Complex.ofReal_sin]
    field_simp
  have hn0 : n m ≠ 0 := by rintro h; exact h0 (by rw [hκ m, h, mul_zero])
  simp only [Pi.div_apply]
  rw [e, show (z m : ℂ) = co * K * Δ m / 2 by simp only [hz]; push_cast; ring]
  field_simp

/-- C124, refinement: as the spacing of the grid goes to zero, with the layers represented by whole numbers of cells and the time step by the Courant number, the
film stacks that the grid simulates have reflectances and transmittances that tend to those of the physical stack. -/
theorem C124_converges (hK : 0 < K) (hco : 0 < co) (hΔ : ∀ m, 0 < Δ m) (hΔ0 : Tendsto Δ atTop (𝓝 0)) (stack : List PhysLayer) (hs : ∀ s ∈ stack, 0 < s.eps)
    (layer : PhysLayer → ℕ → GridLayer) (hl : ∀ s ∈ stack, ∀ m, StandsFor co K (Δ m) (layer s m) s)
    (k0 : ℕ → ℝ) (hk0 : ∀ m, Complex.sin ((k0 m : ℂ) / 2) = Real.sin (co * K * Δ m / 2) / co * (1 : ℝ)) (hk1 : ∀ m, |k0 m / 2| ≤ 1)
    (hD : filmsDen (1 : ℝ) (stack.map fun s => (1 / s.index K, K * s.index K * s.thickness)) 1 ≠ 0) :
    Tendsto (fun m => filmsR (Real.cos (k0 m / 2) / (1 : ℝ)) (simulatedFilms (stack.map fun s => layer s m)) (Real.cos (k0 m / 2) / (1 : ℝ))) atTop
        (𝓝 (filmsR 1 (stack.map fun s => (1 / s.index K, K * s.index K * s.thickness)) 1)) ∧
      Tendsto (fun m => filmsT (Real.cos (k0 m / 2) / (1 : ℝ)) (simulatedFilms (stack.map fun s => layer s m)) (Real.cos (k0 m / 2) / (1 : ℝ))) atTop
        (𝓝 (filmsT 1 (stack.map fun s => (1 / s.index K, K * s.index K * s.thickness)) 1)) := by
  have hidx0 : ∀ s ∈ stack, s.index K ≠ 0 := by
    intro s h h0
    have e := s.index_sq K
    rw [h0] at e
    have e2 := congrArg Complex.re e
    rw [show (s.eps : ℂ) + Complex.I * s.sigma / K = ((s.eps : ℝ) : ℂ) + ((s.sigma / K : ℝ) : ℂ) * Complex.I by push_cast; ring, Complex.add_re, Complex.ofReal_re,
      Complex.re_ofReal_mul, Complex.I_re, mul_zero, add_zero] at e2
    have := hs s h
    simp at e2
    linarith
  have hi : ∀ s ∈ stack, Tendsto (fun m => (layer s m).index) atTop (𝓝 (s.index K)) := fun s h => index_tendsto hK hco hΔ hΔ0 (hs s h) (hl s h)
  have hdisp : ∀ s ∈ stack, ∀ m, Complex.sin ((layer s m).advance / 2) = Real.sin (co * K * Δ m / 2) / co * (layer s m).index := fun s h m => (hl s h m).fits.2.1
  have ha : ∀ s ∈ stack, Tendsto (fun m => (layer s m).advance / 2) atTop (𝓝 0) := fun s h => advance_zero hΔ0 (hi s h) (hdisp s h) fun m => (hl s h m).short
  have hk : Tendsto (fun m => ((k0 m : ℂ) / 2)) atTop (𝓝 0) := advance_zero hΔ0 (n := fun _ => ((1 : ℝ) : ℂ)) tendsto_const_nhds hk0
    fun m => by rw [show (k0 m : ℂ) / 2 = ((k0 m / 2 : ℝ) : ℂ) by push_cast; ring, Complex.norm_real]; exact hk1 m
  have hy0 : Tendsto (fun m => Real.cos (k0 m / 2) / (1 : ℝ)) atTop (𝓝 1) := by
    have h1 := (Complex.continuous_re.tendsto _).comp hk
    have h2 : Tendsto (fun m => k0 m / 2) atTop (𝓝 0) := by
      refine h1.congr fun m => ?_
      rw [Function.comp_apply, show (k0 m : ℂ) / 2 = ((k0 m / 2 : ℝ) : ℂ) by push_cast; ring, Complex.ofReal_re]
    have h3 := ((Real.continuous_cos.tendsto 0).comp h2).div_const 1
    rw [Real.cos_zero, div_one] at h3
    exact h3
  have hyN : Tendsto (fun m => ((Real.cos (k0 m / 2) : ℂ) / ((1 : ℝ) : ℂ))) atTop (𝓝 1) := by
    have := (Complex.continuous_ofReal.tendsto _).comp hy0
    refine this.congr fun m => ?_
    simp
  have key := films_tendsto (l := atTop) stack (y := fun s m => Complex.cos ((layer s m).advance / 2) / (layer s m).index) (δ := fun s m => (layer s m).cells * (layer s m).advance)
    (y' := fun s => 1 / s.index K) (δ' := fun s => K * s.index K * s.thickness)
    (fun s h => by
      have := ((Complex.continuous_cos.tendsto 0).comp (ha s h)).div (hi s h) (hidx0 s h)
      rwa [Complex.cos_zero] at this)
    (fun s h => by
      have := (phase_tendsto hK hco hΔ hΔ0 (hi s h) (hdisp s h) (fun m => (hl s h m).short) fun m => ((hl s h m).fits.2.2).1).mul_const (s.thickness : ℂ)
      refine this.congr fun m => ?_
      have hΔc : (Δ m : ℂ) ≠ 0 := Complex.ofReal_ne_zero.2 (hΔ m).ne'
      rw [← (hl s h m).cells]
      push_cast
      field_simp)
    (fun s h => one_div_ne_zero (hidx0 s h)) hyN hy0 hD
  simp only [simulatedFilms, List.map_map]
  exact key

/-- A stationary state of an FDTD grid behind a source: some grid with the Courant number `co` holds the layers `ls` in vacuum, and during four consecutive steps the
fields oscillate with `Ω` radians per step, with the amplitudes `A`, `B`, `C` of the incident, reflected and transmitted wave. -/
def SettledFilms (co Ω : ℝ) (ls : List GridLayer) (k0 : ℝ) (A B C : ℂ) : Prop :=
  ∃ (g : FGrid ℝ) (lo hi : ℕ) (ie f : ℕ → ℝ) (a k : ℕ) (u : ℕ → ℂ), g.courant = co ∧ LineWindow g lo hi ie f 1 ∧ lo + 1 < a ∧ a + totalCells ls < hi ∧
    (∀ x, lo < x → x < hi → ie x ≠ 0) ∧ (∀ x, lo < x → x < hi → 1 + f x ≠ 0) ∧ Filled co Ω ie f 1 a ls ∧ 1 ≤ k ∧
    (∀ j ≤ 3, ∀ x, lo ≤ x → x ≤ hi → rowE (g.run (k + j)) x = (u x * Complex.exp (-(Complex.I * Ω * j))).re) ∧
    (∀ x, x = a - 1 ∨ x = a → u x = A * Complex.exp (Complex.I * k0 * x) + B * Complex.exp (-(Complex.I * k0 * x))) ∧
    ∀ x, x = a + totalCells ls - 1 ∨ x = a + totalCells ls → u x = C * Complex.exp (Complex.I * k0 * x)

/-- C124, the two solvers: take a stack of homogeneous layers in vacuum, lossless or conducting, and refine the FDTD grid. If the grids settle into stationary states,
then the reflected and transmitted power of these states tend to the reflectance and transmittance that the RCWA solver returns for the same stack at normal incidence,
whatever its truncation order, lattice and the azimuth. -/
theorem C124_agrees {n : ℕ} (hK : 0 < K) (hco : 0 < co) (hΔ : ∀ m, 0 < Δ m) (hΔ0 : Tendsto Δ atTop (𝓝 0)) (hstep : ∀ m, co * K * Δ m < Real.pi) (stack : List PhysLayer)
    (hs : ∀ s ∈ stack, 0 < s.eps) (hd : ∀ s ∈ stack, 0 < s.thickness) (layer : PhysLayer → ℕ → GridLayer) (hl : ∀ s ∈ stack, ∀ m, StandsFor co K (Δ m) (layer s m) s)
    (k0 : ℕ → ℝ) (hk0 : ∀ m, Complex.sin ((k0 m : ℂ) / 2) = Real.sin (co * K * Δ m / 2) / co * (1 : ℝ)) (hk1 : ∀ m, |k0 m / 2| ≤ 1)
    (A B C : ℕ → ℂ) (hA : ∀ m, A m ≠ 0) (hst : ∀ m, SettledFilms co (co * K * Δ m) (stack.map fun s => layer s m) (k0 m) (A m) (B m) (C m))
    -- the RCWA solver on the same stack
    (φ : ℝ) (Lk1 Lk2 : ℝ × ℝ) (G : Fin n → ℤ × ℤ) (o : Fin n) (ho : G o = (0, 0)) (d0 dN : ℝ) (kx ky : Fin n → ℂ) (hkx : kx = kxOf K 0 φ 1 Lk1 Lk2 G)
    (hky : ky = kyOf K 0 φ 1 Lk1 Lk2 G) (layers : List (LayerData (Fin n ⊕ Fin n)))
    (hlay : layers = uniformLayer K kx ky 1 d0 :: (stack.map (fun s : PhysLayer => (((s.eps : ℂ) + Complex.I * s.sigma / K : ℂ), s.thickness)) ++ [((1 : ℂ), dN)]).map fun e : ℂ × ℝ => uniformLayer K kx ky e.1 e.2)
    (hq : ∀ M ∈ layers, ∀ m, M.q m ≠ 0) (R T : ℝ) (h : rtForward K (rtNormalization 1 0) layers (planewave 0 φ 1 0 o) 0 = .ok (R, T)) :
    Tendsto (fun m => Complex.normSq (B m / A m)) atTop (𝓝 R) ∧ Tendsto (fun m => Complex.normSq (C m / A m)) atTop (𝓝 T) := by
  have hne : ∀ s ∈ stack, (s.eps : ℂ) + Complex.I * s.sigma / K ≠ 0 := by
    intro s h e
    have e2 := congrArg Complex.re e
    rw [show (s.eps : ℂ) + Complex.I * s.sigma / K = ((s.eps : ℝ) : ℂ) + ((s.sigma / K : ℝ) : ℂ) * Complex.I by push_cast; ring, Complex.add_re, Complex.ofReal_re,
      Complex.re_ofReal_mul, Complex.I_re, mul_zero, add_zero] at e2
    have := hs s h
    simp at e2
    linarith
  obtain ⟨hD, -, eR, eT⟩ := C112_films K 0 φ 1 hK (by rw [Real.cos_zero]; exact one_pos) one_pos Lk1 Lk2 G o ho d0
    (stack.map fun s => ((s.eps : ℂ) + Complex.I * s.sigma / K, s.thickness, s.index K))
    (fun m hm => by
      obtain ⟨s, hs', rfl⟩ := List.mem_map.1 hm
      refine ⟨hne s hs', ?_⟩
      rw [Real.sin_zero]
      have := s.index_sq K
      push_cast
      rw [this]
      ring)
    1 dN 1 one_ne_zero (by rw [Real.sin_zero]; push_cast; ring) (Or.inr ⟨Complex.one_im, by rw [Complex.one_re]; exact one_pos⟩) kx ky hkx hky layers
    (by rw [hlay, List.map_map]; rfl) hq 1 0 R T h
  have hmap : ((stack.map fun s => ((s.eps : ℂ) + Complex.I * s.sigma / K, s.thickness, s.index K)).map fun m => (1 / m.2.2, (K : ℂ) * m.2.2 * m.2.1)) =
      stack.map fun s => (1 / s.index K, (K : ℂ) * s.index K * s.thickness) := by rw [List.map_map]; rfl
  rw [hmap, Real.sqrt_one, Real.cos_zero, mul_one, div_one, div_one] at hD eR eT
  rw [Complex.normSq_one, Complex.normSq_zero, one_mul, zero_mul, add_zero] at eR eT
  obtain ⟨c1, c2⟩ := C124_converges hK hco hΔ hΔ0 stack hs layer hl k0 hk0 hk1 hD
  rw [← eR] at c1
  rw [← eT] at c2
  have key : ∀ m, Complex.normSq (B m / A m) = filmsR (Real.cos (k0 m / 2) / (1 : ℝ)) (simulatedFilms (stack.map fun s => layer s m)) (Real.cos (k0 m / 2) / (1 : ℝ)) ∧
      Complex.normSq (C m / A m) = filmsT (Real.cos (k0 m / 2) / (1 : ℝ)) (simulatedFilms (stack.map fun s => layer s m)) (Real.cos (k0 m / 2) / (1 : ℝ)) := by
    intro m
    obtain ⟨g, lo, hi, ie, f, a, k, u, rfl, hw, ha, hb, hie, hf, hfill, hk, hosc, hin, hout⟩ := hst m
    have hpos : 0 < g.courant * K * Δ m := mul_pos (mul_pos hco hK) (hΔ m)
    have hlt := hstep m
    have hS : 0 < Real.sin (g.courant * K * Δ m / 2) := Real.sin_pos_of_pos_of_lt_pi (by linarith) (by linarith)
    have hres : WaveResolved (k0 m) := by
      have e : (k0 m : ℂ) / 2 = ((k0 m / 2 : ℝ) : ℂ) := by push_cast; ring
      have hp := Real.pi_gt_three
      have habs := abs_le.1 (hk1 m)
      refine ⟨?_, ?_⟩
      · rw [hk0 m]
        exact mul_ne_zero (div_ne_zero (Complex.ofReal_ne_zero.2 hS.ne') (Complex.ofReal_ne_zero.2 hco.ne')) (by norm_num)
      · rw [e, ← Complex.ofReal_cos]
        exact Complex.ofReal_ne_zero.2 (Real.cos_pos_of_mem_Ioo ⟨by linarith, by linarith⟩).ne'
    refine C124_films hw (Real.sin_pos_of_pos_of_lt_pi hpos hlt).ne' hS hco one_ne_zero a ha _ hb hie hf hfill (fun l hl' => ?_) hres (hk0 m) u k hk hosc (hA m) hin hout
    obtain ⟨s, hs', rfl⟩ := List.mem_map.1 hl'
    by_contra hc
    have h0 : (layer s m).cells = 0 := by omega
    have e := (hl s hs' m).cells
    rw [h0] at e
    have := hd s hs'
    simp at e
    linarith
  exact ⟨c1.congr fun m => (key m).1.symm, c2.congr fun m => (key m).2.symm⟩

/-! ### every passive stack has a settled state -/

lemma filled_congr {Ω : ℝ} {ie f ie' f' : ℕ → ℝ} (ls : List GridLayer) (a : ℕ) (h : ∀ x, a ≤ x → ie x = ie' x ∧ f x = f' x) (hf : Filled co Ω ie f 1 a ls) :
    Filled co Ω ie' f' 1 a ls := by
  induction ls generalizing a with
  | nil => trivial
  | cons l ls ih => exact ⟨fun x h1 h2 => by rw [← (h x h1).1, ← (h x h1).2]; exact hf.1 x h1 h2, ih _ (fun x hx => h x (by omega)) hf.2⟩

lemma filled_exists {Ω : ℝ} (ls : List GridLayer) (hls : ∀ l ∈ ls, ∃ e s : ℝ, 0 < e ∧ 0 ≤ s ∧ l.Fits co Ω e s 1) (a : ℕ) :
    ∃ ie f : ℕ → ℝ, (∀ x, 0 < ie x ∧ 0 ≤ f x) ∧ (∀ x, a + totalCells ls ≤ x → ie x = 1 ∧ f x = 0) ∧ Filled co Ω ie f 1 a ls := by
  induction ls generalizing a with
  | nil => exact ⟨fun _ => 1, fun _ => 0, fun _ => ⟨one_pos, le_rfl⟩, fun _ _ => ⟨rfl, rfl⟩, trivial⟩
  | cons l ls ih =>
    obtain ⟨ie, f, hp, hv, hf⟩ := ih (fun l hl => hls l (List.mem_cons_of_mem _ hl)) (a + l.cells)
    obtain ⟨e, s, he, hs, hfit⟩ := hls l List.mem_cons_self
    refine ⟨fun x => if x < a + l.cells then e else ie x, fun x => if x < a + l.cells then s else f x, fun x => ?_, fun x hx => ?_, fun x _ h2 => ?_,
      filled_congr ls _ (fun x hx => ?_) hf⟩
    · beta_reduce
      split_ifs
      exacts [⟨he, hs⟩, hp x]
    · have ht : totalCells (l :: ls) = l.cells + totalCells ls := by rw [totalCells, totalCells, List.map_cons, List.sum_cons]
      beta_reduce
      rw [if_neg (by omega), if_neg (by omega)]
      exact hv x (by omega)
    · beta_reduce
      rw [if_pos h2, if_pos h2]
      exact hfit
    · rw [if_neg (by omega), if_neg (by omega)]; exact ⟨rfl, rfl⟩

/-- the wave behind the stack, continued through it to the front -/
lemma continue_wave (κ v : ℕ → ℂ) (b : ℕ) (hv : ∀ x, b ≤ x → v (x + 1) - 2 * v x + v (x - 1) = -4 * Complex.sin (κ x / 2) ^ 2 * v x) (hb : 1 ≤ b) :
    ∃ u : ℕ → ℂ, (∀ x, b - 1 ≤ x → u x = v x) ∧ ∀ x, 0 < x → u (x + 1) - 2 * u x + u (x - 1) = -4 * Complex.sin (κ x / 2) ^ 2 * u x := by
  have key : ∀ d, d ≤ b - 1 → ∃ u : ℕ → ℂ, (∀ x, b - 1 ≤ x → u x = v x) ∧ ∀ x, b - 1 - d < x → u (x + 1) - 2 * u x + u (x - 1) = -4 * Complex.sin (κ x / 2) ^ 2 * u x := by
    intro d
    induction d with
    | zero => exact fun _ => ⟨v, fun _ _ => rfl, fun x hx => hv x (by omega)⟩
    | succ d ih =>
      intro hd
      obtain ⟨u, h1, h2⟩ := ih (by omega)
      set t := b - 1 - d with ht
      refine ⟨Function.update u (t - 1) ((2 - 4 * Complex.sin (κ t / 2) ^ 2) * u t - u (t + 1)), fun x hx => ?_, fun x hx => ?_⟩
      · rw [Function.update_of_ne (by omega), h1 x hx]
      · rw [Function.update_of_ne (show x + 1 ≠ t - 1 by omega), Function.update_of_ne (show x ≠ t - 1 by omega)]
        by_cases hxt : x = t
        · subst hxt
          rw [Function.update_self]
          ring
        · rw [Function.update_of_ne (show x - 1 ≠ t - 1 by omega)]
          exact h2 x (by omega)
  obtain ⟨u, h1, h2⟩ := key (b - 1) le_rfl
  exact ⟨u, h1, fun x hx => h2 x (by omega)⟩

lemma two_waves {k0 : ℝ} (hk : Real.sin k0 ≠ 0) (p q : ℂ) (a : ℕ) (ha : 1 ≤ a) :
    ∃ A B : ℂ, p = A * Complex.exp (Complex.I * k0 * (a - 1 : ℕ)) + B * Complex.exp (-(Complex.I * k0 * (a - 1 : ℕ))) ∧
      q = A * Complex.exp (Complex.I * k0 * a) + B * Complex.exp (-(Complex.I * k0 * a)) := by
  set e := Complex.exp (Complex.I * k0 * (a - 1 : ℕ)) with he
  set e' := Complex.exp (-(Complex.I * k0 * (a - 1 : ℕ))) with he'
  set w := Complex.exp (Complex.I * k0) with hw
  set w' := Complex.exp (-(Complex.I * k0)) with hw'
  have hee : e * e' = 1 := by rw [he, he', ← Complex.exp_add]; simp
  have hww : w * w' = 1 := by rw [hw, hw', ← Complex.exp_add]; simp
  have e1 : Complex.exp (Complex.I * k0 * a) = e * w := by
    rw [he, hw, ← Complex.exp_add]
    congr 1
    rw [Nat.cast_sub ha]
    push_cast
    ring
  have e2 : Complex.exp (-(Complex.I * k0 * a)) = e' * w' := by
    rw [he', hw', ← Complex.exp_add]
    congr 1
    rw [Nat.cast_sub ha]
    push_cast
    ring
  have hd : w - w' = 2 * Complex.I * Real.sin k0 := by
    rw [hw, hw', mul_comm, Complex.exp_mul_I, ← neg_mul, Complex.exp_mul_I, Complex.ofReal_sin, Complex.cos_neg, Complex.sin_neg]
    ring
  have hd0 : w - w' ≠ 0 := by
    rw [hd]
    exact mul_ne_zero (mul_ne_zero two_ne_zero Complex.I_ne_zero) (Complex.ofReal_ne_zero.2 hk)
  rw [e1, e2]
  refine ⟨(q - p * w') * e' / (w - w'), (p * w - q) * e / (w - w'), ?_, ?_⟩
  · field_simp
    linear_combination (-(p * (w - w'))) * hee
  · field_simp
    linear_combination (-(q * (w - w'))) * hee

/-- C124, settled states: for every stack of passive layers on the grid, in vacuum, there is a grid that carries a settled state of it with a non-zero incident wave. So
the hypotheses of `C124_agrees` about the FDTD grid can be met for every stack. -/
theorem C124_settles {Ω : ℝ} (hco : 0 < co) (hΩ0 : 0 < Ω) (hΩ1 : Ω < Real.pi) (ls : List GridLayer)
    (hls : ∀ l ∈ ls, ∃ e s : ℝ, 0 < e ∧ 0 ≤ s ∧ l.Fits co Ω e s 1) {k0 : ℝ} (hk0 : 0 < k0) (hk1 : k0 < Real.pi)
    (hk : Complex.sin ((k0 : ℂ) / 2) = Real.sin (Ω / 2) / co * (1 : ℝ)) : ∃ A B : ℂ, A ≠ 0 ∧ SettledFilms co Ω ls k0 A B 1 := by
  obtain ⟨ie, f, hp, hvac, hfill⟩ := filled_exists ls hls 6
  set b := 6 + totalCells ls with hb
  have hSin : 0 < Real.sin (Ω / 2) := Real.sin_pos_of_pos_of_lt_pi (by linarith) (by linarith)
  have hex : ∀ z : ℂ, ∃ κ : ℂ, Complex.sin (κ / 2) ^ 2 = z := by
    intro z
    obtain ⟨r, hr⟩ : ∃ r : ℂ, r ^ 2 = z := ⟨_, Complex.cpow_nat_inv_pow z two_ne_zero⟩
    obtain ⟨t, ht⟩ := Complex.sin_surjective r
    exact ⟨2 * t, by rw [mul_div_cancel_left₀ _ (two_ne_zero), ht, hr]⟩
  choose κ hκ using fun x => hex (Real.sin (Ω / 2) * (Real.sin (Ω / 2) + Complex.I * f x * Real.cos (Ω / 2)) / (co ^ 2 * ie x * (1 : ℝ)))
  have hcoc : (co : ℂ) ≠ 0 := Complex.ofReal_ne_zero.2 hco.ne'
  obtain ⟨u, hu1, hu2⟩ := continue_wave κ (fun x => Complex.exp (Complex.I * k0 * x)) b (fun x hx => by
    have hs : Complex.sin (κ x / 2) ^ 2 = Complex.sin ((k0 : ℂ) / 2) ^ 2 := by
      rw [hκ x, hk, (hvac x hx).1, (hvac x hx).2]
      push_cast
      field_simp
      ring
    rw [hs, Nat.cast_sub (by omega : 1 ≤ x)]
    set e := Complex.exp (Complex.I * k0 * x) with he
    set p := Complex.exp (Complex.I * (k0 / 2)) with hp'
    set p' := Complex.exp (-(Complex.I * (k0 / 2))) with hpm
    have hpp : p * p' = 1 := by rw [hp', hpm, ← Complex.exp_add]; simp
    have e1 : Complex.exp (Complex.I * k0 * ((x + 1 : ℕ) : ℂ)) = e * p ^ 2 := by
      rw [he, hp', ← Complex.exp_nat_mul, ← Complex.exp_add]
      congr 1
      push_cast
      ring
    have e2 : Complex.exp (Complex.I * k0 * ((x : ℂ) - (1 : ℕ))) = e * p' ^ 2 := by
      rw [he, hpm, ← Complex.exp_nat_mul, ← Complex.exp_add]
      congr 1
      push_cast
      ring
    have hsin : Complex.sin ((k0 : ℂ) / 2) = (p' - p) * Complex.I / 2 := by
      rw [Complex.sin, hp', hpm, mul_comm Complex.I, neg_mul]
    rw [e1, e2, hsin]
    linear_combination (2 * e) * hpp + (e * (p' - p) ^ 2) * Complex.I_sq) (by omega)
  have hsk : Real.sin k0 ≠ 0 := (Real.sin_pos_of_pos_of_lt_pi hk0 hk1).ne'
  obtain ⟨g, hg, hw, hrun⟩ := C124_exists (co := co) (im := 1) (Ω := Ω) hco.ne' one_ne_zero hSin.ne' (b + 6) (by omega) ie f (fun x => (hp x).1.ne')
    (fun x => by have := (hp x).2; positivity) κ hκ (fun x => u x * Complex.exp (Complex.I * Ω))
    (fun x h1 _ => by linear_combination Complex.exp (Complex.I * Ω) * hu2 x h1)
  obtain ⟨A, B, hA1, hA2⟩ := two_waves hsk (u 5) (u 6) 6 (by norm_num)
  have h' : LineWindow g 4 (b + 1) ie f 1 := by
    obtain ⟨l, r, e, hlr⟩ := hw.bounds
    exact ⟨hw.wide, hw.flat, by have := hw.inside; omega, ⟨l, r, e, fun b hb' p h1 h2 => hlr b hb' p (by omega) (by omega)⟩,
      fun s hs' p h1 h2 => hw.sources s hs' p (by omega) (by omega), fun x y h1 h2 => hw.eps x y (by omega) (by omega),
      fun x y h1 h2 => hw.absorb x y (by omega) (by omega), fun x y h1 h2 => hw.mu x y (by omega) (by omega)⟩
  have hosc : ∀ j ≤ 3, ∀ x, 4 ≤ x → x ≤ b + 1 → rowE (g.run (1 + j)) x = (u x * Complex.exp (-(Complex.I * Ω * j))).re := by
    intro j hj x h1 h2
    rw [hrun (1 + j) x (by omega) (by omega), mul_assoc, ← Complex.exp_add]
    congr 3
    push_cast
    ring
  have hin : ∀ x, x = 6 - 1 ∨ x = 6 → u x = A * Complex.exp (Complex.I * k0 * x) + B * Complex.exp (-(Complex.I * k0 * x)) := by
    rintro x (rfl | rfl)
    · exact hA1
    · exact hA2
  have hout : ∀ x, x = b - 1 ∨ x = b → u x = 1 * Complex.exp (Complex.I * k0 * x) := by
    intro x hx
    rw [hu1 x (by omega), one_mul]
  have hpow := (C124_power h' hΩ0 hΩ1 (by rw [hg]; exact hco) one_pos (fun x _ _ => (hp x).1) (fun x _ _ => (hp x).2) u 1 le_rfl hosc hk0 hk1 6 b (by norm_num) (by omega)
    (by omega) hin hout).1
  refine ⟨A, B, fun h0 => ?_, g, 4, b + 1, ie, f, 6, 1, u, hg, h', by norm_num, by omega, fun x _ _ => (hp x).1.ne', fun x _ _ => ?_, hfill, le_rfl, hosc, hin, hout⟩
  · rw [h0, Complex.normSq_zero, Complex.normSq_one] at hpow
    have := Complex.normSq_nonneg B
    linarith
  · have := (hp x).2
    positivity

/-! ### an example: a plate of index 2 -/

/-- spacings of the example -/
def exSpacing (m : ℕ) : ℝ := 1 / (m + 10)

/-- the plate on the grid with spacing `1 / (m + 10)` -/
def exPlate (m : ℕ) : GridLayer := ⟨2, ((2 * Real.arcsin (4 * Real.sin (exSpacing m / 4)) : ℝ) : ℂ), m + 10⟩

lemma exSpacing_bounds (m : ℕ) : 0 < exSpacing m ∧ exSpacing m ≤ 1 / 10 ∧ 0 < Real.sin (exSpacing m / 4) ∧ Real.sin (exSpacing m / 4) ≤ exSpacing m / 4 := by
  have h0 : (0 : ℝ) ≤ m := Nat.cast_nonneg m
  have h1 : 0 < exSpacing m := by rw [exSpacing]; positivity
  have h2 : exSpacing m ≤ 1 / 10 := by rw [exSpacing]; exact one_div_le_one_div_of_le (by norm_num) (by linarith)
  exact ⟨h1, h2, Real.sin_pos_of_pos_of_lt_pi (by linarith) (by have := Real.pi_gt_three; linarith), Real.sin_le (by linarith)⟩

lemma arcsin_small {z : ℝ} (h0 : 0 < z) (h1 : z ≤ 1 / 10) : 0 < Real.arcsin z ∧ Real.arcsin z ≤ 1 ∧ Real.sin (Real.arcsin z) = z ∧ 0 < Real.cos (Real.arcsin z) := by
  have hs : (1 / 10 : ℝ) ≤ Real.sin 1 := by
    have := Real.sin_gt_sub_cube (x := 1) one_pos
    norm_num at this
    linarith
  refine ⟨Real.arcsin_pos.2 h0, ?_, Real.sin_arcsin (by linarith) (by linarith), ?_⟩
  · rw [Real.arcsin_le_iff_le_sin' ⟨by have := Real.pi_gt_three; linarith, by have := Real.pi_gt_three; linarith⟩]
    linarith
  · rw [Real.cos_arcsin]
    exact Real.sqrt_pos.2 (by nlinarith)

lemma exPlate_stands (m : ℕ) : StandsFor (1 / 2) 1 (exSpacing m) (exPlate m) ⟨4, 0, 1⟩ := by
  obtain ⟨h1, h2, h3, h4⟩ := exSpacing_bounds m
  obtain ⟨a1, a2, a3, a4⟩ := arcsin_small (z := 4 * Real.sin (exSpacing m / 4)) (by linarith) (by linarith)
  have e : (exPlate m).advance / 2 = ((Real.arcsin (4 * Real.sin (exSpacing m / 4)) : ℝ) : ℂ) := by
    show ((2 * _ : ℝ) : ℂ) / 2 = _
    push_cast
    ring
  refine ⟨⟨?_, ?_, ?_, ?_⟩, ?_, ?_, ?_⟩
  · show (2 : ℂ) ^ 2 = _
    push_cast
    norm_num
  · rw [e, ← Complex.ofReal_sin, a3, show 1 / 2 * 1 * exSpacing m / 2 = exSpacing m / 4 by ring]
    show _ = _ * (2 : ℂ)
    push_cast
    ring
  · rw [e, ← Complex.ofReal_sin, a3]
    exact Complex.ofReal_ne_zero.2 (by positivity)
  · rw [e, ← Complex.ofReal_cos]
    exact Complex.ofReal_ne_zero.2 a4.ne'
  · show ((m + 10 : ℕ) : ℝ) * exSpacing m = 1
    rw [exSpacing]
    push_cast
    field_simp
  · show (0 : ℝ) < (2 : ℂ).re
    norm_num
  · rw [e, Complex.norm_real, Real.norm_eq_abs, abs_of_pos a1]
    exact a2

/-- a plate of index 2, one length unit thick, at `K = 1`: the simulated reflectance tends to that of the plate -/
example : ∃ k0 : ℕ → ℝ, Tendsto (fun m => filmsR (Real.cos (k0 m / 2) / (1 : ℝ)) (simulatedFilms [exPlate m]) (Real.cos (k0 m / 2) / (1 : ℝ))) atTop (𝓝 (filmsR 1 [(1 / 2, 2)] 1)) := by
  have hi : (⟨4, 0, 1⟩ : PhysLayer).index 1 = 2 := by
    rw [PhysLayer.index, show (((4 : ℝ) : ℂ) + Complex.I * ((0 : ℝ) : ℂ) / ((1 : ℝ) : ℂ)) = (2 : ℂ) ^ (2 : ℕ) by push_cast; norm_num, Complex.sq_cpow_two_inv (by norm_num)]
  refine ⟨fun m => 2 * Real.arcsin (2 * Real.sin (exSpacing m / 4)), ?_⟩
  have h := (C124_converges (K := 1) (co := 1 / 2) (Δ := exSpacing) one_pos (by norm_num) (fun m => (exSpacing_bounds m).1) ?_ [⟨4, 0, 1⟩] (fun s hs => ?_) (fun _ => exPlate)
    (fun s hs m => ?_) (fun m => 2 * Real.arcsin (2 * Real.sin (exSpacing m / 4))) (fun m => ?_) (fun m => ?_) ?_).1
  · rw [List.map_singleton, hi] at h
    simpa using h
  · have := (tendsto_const_div_atTop_nhds_zero_nat (1 : ℝ)).comp (tendsto_add_atTop_nat 10)
    refine this.congr fun m => ?_
    simp [exSpacing]
  · rw [List.mem_singleton.1 hs]; norm_num
  · rw [List.mem_singleton.1 hs]; exact exPlate_stands m
  · obtain ⟨h1, h2, h3, h4⟩ := exSpacing_bounds m
    obtain ⟨a1, a2, a3, a4⟩ := arcsin_small (z := 2 * Real.sin (exSpacing m / 4)) (by linarith) (by linarith)
    rw [show ((2 * Real.arcsin (2 * Real.sin (exSpacing m / 4)) : ℝ) : ℂ) / 2 = ((Real.arcsin (2 * Real.sin (exSpacing m / 4)) : ℝ) : ℂ) by push_cast; ring, ← Complex.ofReal_sin, a3,
      show 1 / 2 * 1 * exSpacing m / 2 = exSpacing m / 4 by ring]
    push_cast
    ring
  · obtain ⟨h1, h2, h3, h4⟩ := exSpacing_bounds m
    obtain ⟨a1, a2, a3, a4⟩ := arcsin_small (z := 2 * Real.sin (exSpacing m / 4)) (by linarith) (by linarith)
    rw [mul_div_cancel_left₀ _ (two_ne_zero), abs_of_pos a1]
    exact a2
  · rw [List.map_singleton, hi]
    intro h0
    have e : filmsDen ((1 : ℝ) : ℂ) [(1 / 2, ((1 : ℝ) : ℂ) * 2 * ((1 : ℝ) : ℂ))] 1 = ((2 * Real.cos 2 : ℝ) : ℂ) + ((-(5 / 2) * Real.sin 2 : ℝ) : ℂ) * Complex.I := by
      simp only [filmsDen, frontFields, filmFront]
      push_cast
      rw [show (1 : ℂ) * 2 * 1 = 2 by norm_num]
      ring
    rw [e] at h0
    have r := congrArg Complex.re h0
    have i := congrArg Complex.im h0
    simp only [Complex.add_re, Complex.add_im, Complex.ofReal_re, Complex.ofReal_im, Complex.re_ofReal_mul, Complex.im_ofReal_mul, Complex.I_re, Complex.I_im, Complex.zero_re,
      Complex.zero_im] at r i
    have := Real.cos_sq_add_sin_sq 2
    have c0 : Real.cos 2 = 0 := by linarith
    have s0 : Real.sin 2 = 0 := by linarith
    rw [c0, s0] at this
    norm_num at this

end

end Nidn
