/-
C95-C99: what the plots show.
-/
import Verif.Model.Plots
import Verif.Model.Loss
import Verif.Props.Units
import Verif.Props.Materials
import Mathlib.Data.List.Nodup
import Mathlib.Tactic.LinearCombination
import Mathlib.Tactic.IntervalCases

set_option linter.unusedSectionVars false

namespace Nidn

/-! ### C95 spectra -/

lemma curve_ok {x y : List ℝ} (h : x.length = y.length) : curve x y = .ok (x.zip y) := if_pos h

lemma npBin_ok (op : ℝ → ℝ → ℝ) {a b : List ℝ} (h : a.length = b.length) : npBin op a b = .ok (List.zipWith op a b) := if_pos h

lemma npBin_err (op : ℝ → ℝ → ℝ) (a b : List ℝ) (e : PyErr) (h : npBin op a b = .error e) : e = .valueError := by
  unfold npBin at h
  split_ifs at h
  split at h <;> simp_all

lemma mapM_map {α β : Type} (f : α → Except PyErr β) (g : α → β) (l : List α) (h : ∀ a ∈ l, f a = .ok (g a)) : l.mapM f = .ok (l.map g) := by
  induction l with
  | nil => rfl
  | cons a l ih =>
    rw [List.mapM_cons, h a (by simp), ok_bind, ih (fun b hb => h b (by simp [hb])), ok_bind]
    rfl

lemma freqToWl_ne {f : ℝ} (h : f ≠ 0) : freqToWl f = .ok (1 / f) := by
  unfold freqToWl pyDiv
  rw [if_neg h]
  norm_num

lemma spectraAxis_ok {fs : List ℝ} (h : ∀ f ∈ fs, f ≠ 0) : spectraAxis fs = .ok (fs.map fun f => 1 / f) := by
  refine mapM_map _ _ _ fun f hf => ?_
  rw [freqToWl_ne (h f hf)]
  show Except.ok _ = _
  congr 1
  unfold wlToPhysWl UNIT_MAGNITUDE
  norm_num
  ring

lemma axis_ok {fs : List ℝ} (h : ∀ f ∈ fs, f ≠ 0) : fs.mapM freqToWl = .ok (fs.map fun f => 1 / f) :=
  mapM_map _ _ _ fun f hf => freqToWl_ne (h f hf)

lemma absorptance_ok {R T : List ℝ} (h : R.length = T.length) : absorptance R T = .ok (List.zipWith (fun r t => 1 - r - t) R T) := by
  unfold absorptance
  rw [npBin_ok _ h.symm, ok_bind, npBin_ok _ (by simp [h])]
  congr 1
  induction R generalizing T with
  | nil => simp
  | cons r R ih =>
    cases T with
    | nil => simp at h
    | cons t T =>
      simp only [List.map_cons, List.zipWith_cons_cons]
      rw [ih (by simpa using h)]
      congr 1
      ring

lemma spectraPanel_ok {fs p t : List ℝ} (h : ∀ f ∈ fs, f ≠ 0) (hp : p.length = fs.length) (ht : t.length = fs.length) (hn : fs ≠ []) :
    spectraPanel fs p t = .ok ⟨(fs.map fun f => 1 / f).zip t, (fs.map fun f => 1 / f).zip p, (List.zipWith (fun a b => |a - b|) t p).sum / fs.length⟩ := by
  have : (List.zipWith (fun a b => |a - b|) t p).length = fs.length := by simp [hp, ht]
  unfold spectraPanel
  rw [spectraAxis_ok h, ok_bind, curve_ok (by simp [ht]), ok_bind, curve_ok (by simp [hp]), ok_bind, npBin_ok _ (by rw [hp, ht]), ok_bind, if_neg (by rw [this]; simpa using hn), this]
  rfl

/-- specification: the mean absolute difference of two spectra -/
noncomputable def meanAbsDiff (a b : List ℝ) : ℝ := (List.zipWith (fun x y => |x - y|) a b).sum / a.length

/-- C95: for the frequencies of a config both plotting functions show, for every simulated wavelength (in micrometres), the reflectance and transmittance at that wavelength; the absorptance is what is missing to one; the
printed error is the mean absolute difference to the target. -/
theorem C95_spectra (c : FreqCfg) (h0 : 0 < c.wlMin) (h1 : c.wlMin ≤ c.wlMax) (hd : c.distribution = "linear" ∨ c.distribution = "log") (hn : 0 < c.nFreq) (R T tR tT : List ℝ)
    (hR : R.length = c.nFreq) (hT : T.length = c.nFreq) (htR : tR.length = c.nFreq) (htT : tT.length = c.nFreq) (other : Except PyErr (List ℝ × List ℝ)) :
    ∃ wls fs c' pr pt, getFrequencyPoints c = .ok (wls, fs, c') ∧ wls.length = c.nFreq ∧
      plotSpectra fs tR tT (some R, some T) other = .ok (pr, pt) ∧
      pr.produced = (wls.map (· / 1e-6)).zip R ∧ pr.target = (wls.map (· / 1e-6)).zip tR ∧ pr.l1 = meanAbsDiff R tR ∧
      pt.produced = (wls.map (· / 1e-6)).zip T ∧ pt.target = (wls.map (· / 1e-6)).zip tT ∧ pt.l1 = meanAbsDiff T tT ∧
      ∀ tf, tf = none ∨ tf = some fs → ∀ absorb, ∃ A, A.length = c.nFreq ∧ (∀ i < c.nFreq, ∃ r t a, R[i]? = some r ∧ T[i]? = some t ∧ A[i]? = some a ∧ r + t + a = 1) ∧
        plotSpectrum { c with targetFrequencies := tf } R T absorb =
          .ok ([(wls.map (· / 1e-6)).zip R, (wls.map (· / 1e-6)).zip T] ++ if absorb then [(wls.map (· / 1e-6)).zip A] else []) := by
  obtain ⟨fs, hfs, hs⟩ := C02_any c.wlMin c.wlMax c.nFreq c.distribution h0 h1 hd
  obtain ⟨-, -, hp, -⟩ := band_edges h0 h1
  have hpos : ∀ f ∈ fs, f ≠ 0 := fun f hf => (lt_of_lt_of_le hp (hs.inside f hf).1).ne'
  obtain ⟨wls, fs', c', hg, hw, hf, -⟩ := C03_frequency_points c h0 h1 hd
  have hfe : fs' = fs ∧ wls = fs.map fun f => wlToPhysWl (1.0 / f) := by
    unfold getFrequencyPoints at hg
    rw [hfs, ok_bind, if_neg (fun h => hpos 0 h rfl)] at hg
    have := Except.ok.inj hg
    exact ⟨(congrArg (fun q => q.2.1) this).symm, (congrArg Prod.fst this).symm⟩
  obtain ⟨rfl, hwl⟩ := hfe
  have hx : (wls.map (· / 1e-6) : List ℝ) = fs'.map fun f => 1 / f := by
    rw [hwl, List.map_map]
    refine List.map_congr_left fun f hf => ?_
    show wlToPhysWl (1.0 / f) / 1e-6 = 1 / f
    unfold wlToPhysWl UNIT_MAGNITUDE
    norm_num
  have hne : fs' ≠ [] := by
    intro h
    rw [h] at hf
    simp at hf
    omega
  have hl1 : ∀ p t : List ℝ, p.length = c.nFreq → (List.zipWith (fun a b => |a - b|) t p).sum / fs'.length = meanAbsDiff p t := by
    intro p t h
    unfold meanAbsDiff
    rw [h, hf, List.zipWith_comm]
    simp only [abs_sub_comm]
  refine ⟨wls, fs', c', ⟨_, _, _⟩, ⟨_, _, _⟩, hg, hw, ?_, by rw [hx], by rw [hx], hl1 R tR hR, by rw [hx], by rw [hx], hl1 T tT hT, ?_⟩
  · unfold plotSpectra
    show (absorptance R T >>= _) = _
    rw [absorptance_ok (hR.trans hT.symm), ok_bind, absorptance_ok (htR.trans htT.symm), ok_bind, spectraPanel_ok hpos (hR.trans hf.symm) (htR.trans hf.symm) hne, ok_bind,
      spectraPanel_ok hpos (hT.trans hf.symm) (htT.trans hf.symm) hne, ok_bind]
    rfl
  · intro tf htf absorb
    refine ⟨List.zipWith (fun r t => 1 - r - t) R T, by simp [hR, hT], ?_, ?_⟩
    · intro i hi
      refine ⟨R[i], T[i], 1 - R[i] - T[i], by simp, by simp, ?_, by ring⟩
      rw [List.getElem?_zipWith]
      simp [hR, hT, hi]
    · have hps : plotSpectrum { c with targetFrequencies := tf } R T absorb = (absorptance R T >>= fun a => spectrumCurve fs' R >>= fun r => spectrumCurve fs' T >>= fun t =>
          if absorb then spectrumCurve fs' a >>= fun a => pure [r, t, a] else pure [r, t]) := by
        rcases htf with rfl | rfl
        · show (computeTargetFrequencies c.wlMin c.wlMax c.nFreq c.distribution >>= _) = _
          rw [hfs]
          rfl
        · rfl
      rw [hps, absorptance_ok (hR.trans hT.symm), ok_bind]
      unfold spectrumCurve
      rw [axis_ok hpos, ok_bind, curve_ok (by simp [hf, hR]), ok_bind, ok_bind, curve_ok (by simp [hf, hT]), ok_bind, hx]
      cases absorb
      · rfl
      · rw [if_pos rfl, if_pos rfl, ok_bind, curve_ok (by simp [hf, hR, hT]), ok_bind]
        rfl

example : ∃ (c : FreqCfg) (R T : List ℝ), 0 < c.wlMin ∧ c.wlMin ≤ c.wlMax ∧ c.distribution = "linear" ∧ 0 < c.nFreq ∧ R.length = c.nFreq ∧ T.length = c.nFreq :=
  ⟨⟨1e-6, 2e-6, 2, "linear", none⟩, [0.1, 0.2], [0.9, 0.7], by norm_num, by norm_num, rfl, by norm_num, rfl, rfl⟩

lemma zip_loss (R T tR tT fs : List ℝ) (acc : LossAcc) (hR : R.length = fs.length) (hT : T.length = fs.length) (htR : tR.length = fs.length) (htT : tT.length = fs.length)
    (hphys : ∀ i (h1 : i < R.length) (h2 : i < T.length), R[i] + T[i] ≤ 1) :
    (zipSpectra R T tR tT fs).foldl (lossStep 1 false) acc =
      ⟨acc.R + (List.zipWith (fun x y => |x - y|) R tR).sum, acc.T + (List.zipWith (fun x y => |x - y|) T tT).sum, acc.A, acc.renormalized⟩ := by
  induction fs generalizing R T tR tT acc with
  | nil =>
    obtain rfl := List.length_eq_zero_iff.1 hR
    obtain rfl := List.length_eq_zero_iff.1 hT
    simp [zipSpectra]
  | cons f fs ih =>
    match R, T, tR, tT, hR, hT, htR, htT with
    | r :: R, t :: T, a :: tR, b :: tT, hR, hT, htR, htT =>
      have hrt : ¬ r + t > 1 := not_lt.2 (hphys 0 (by simp) (by simp))
      rw [zipSpectra, List.foldl_cons, ih R T tR tT _ (by simpa using hR) (by simpa using hT) (by simpa using htR) (by simpa using htT)
        (fun i h1 h2 => hphys (i + 1) (by simpa using h1) (by simpa using h2))]
      simp only [lossStep, renormPoint, if_neg hrt, Real.rpow_one, List.zipWith_cons_cons, List.sum_cons, Bool.or_false, Bool.false_eq_true, if_false, add_assoc]

/-- C95: the errors printed above the two panels of a physical spectrum average to the L1 error that training logs for it. -/
theorem C95_logged (fs R T tR tT : List ℝ) (hfs : ∀ f ∈ fs, f ≠ 0) (hn : fs ≠ []) (hR : R.length = fs.length) (hT : T.length = fs.length) (htR : tR.length = fs.length) (htT : tT.length = fs.length)
    (hphys : ∀ i (h1 : i < R.length) (h2 : i < T.length), R[i] + T[i] ≤ 1) (other : Except PyErr (List ℝ × List ℝ)) :
    ∃ pr pt, plotSpectra fs tR tT (some R, some T) other = .ok (pr, pt) ∧ spectrumLoss R T tR tT fs 1 false = .ok ((pr.l1 + pt.l1) / 2, false) := by
  refine ⟨⟨(fs.map fun f => 1 / f).zip tR, (fs.map fun f => 1 / f).zip R, (List.zipWith (fun a b => |a - b|) tR R).sum / fs.length⟩,
    ⟨(fs.map fun f => 1 / f).zip tT, (fs.map fun f => 1 / f).zip T, (List.zipWith (fun a b => |a - b|) tT T).sum / fs.length⟩, ?_, ?_⟩
  · unfold plotSpectra
    show (absorptance R T >>= _) = _
    rw [absorptance_ok (hR.trans hT.symm), ok_bind, absorptance_ok (htR.trans htT.symm), ok_bind, spectraPanel_ok hfs hR htR hn, ok_bind, spectraPanel_ok hfs hT htT hn, ok_bind]
    rfl
  · unfold spectrumLoss
    have h0 : R.length ≠ 0 := by rw [hR]; simpa using hn
    have h0' : (fs.length : ℝ) ≠ 0 := by exact_mod_cast (hR ▸ h0)
    rw [if_neg h0]
    simp only [zip_loss R T tR tT fs _ hR hT htR htT hphys, Bool.false_eq_true, if_false, zero_add, hR]
    rw [List.zipWith_comm (as := R), List.zipWith_comm (as := T)]
    simp only [abs_sub_comm]
    congr 2
    field_simp

example : ∃ fs R T : List ℝ, (∀ f ∈ fs, f ≠ 0) ∧ fs ≠ [] ∧ R.length = fs.length ∧ T.length = fs.length ∧ ∀ i (h1 : i < R.length) (h2 : i < T.length), R[i] + T[i] ≤ 1 := by
  refine ⟨[1, 2], [0.5, 0], [0.5, 0.25], by simp, by simp, rfl, rfl, ?_⟩
  intro i h1 h2
  match i, h1, h2 with
  | 0, _, _ => norm_num
  | 1, _, _ => norm_num

/-- C95: spectra or targets with another number of entries than there are frequencies are refused, not truncated. -/
theorem C95_lengths (fs R T tR tT : List ℝ) (hfs : ∀ f ∈ fs, f ≠ 0) (hn : fs ≠ []) (hl : R.length ≠ fs.length ∨ T.length ≠ fs.length ∨ tR.length ≠ fs.length ∨ tT.length ≠ fs.length)
    (other : Except PyErr (List ℝ × List ℝ)) : plotSpectra fs tR tT (some R, some T) other = .error .valueError := by
  have habs : ∀ a b, (∃ q, absorptance a b = .ok q) ∨ absorptance a b = .error .valueError := by
    intro a b
    unfold absorptance
    cases h : npBin (· + ·) b a with
    | error e => rw [npBin_err _ _ _ _ h]; exact Or.inr rfl
    | ok s =>
      rw [ok_bind]
      cases h' : npBin (· - ·) (a.map fun _ => 1) s with
      | error e => rw [npBin_err _ _ _ _ h']; exact Or.inr rfl
      | ok s => exact Or.inl ⟨_, rfl⟩
  have hpan : ∀ p t, (p.length = fs.length ∧ t.length = fs.length ∧ ∃ q, spectraPanel fs p t = .ok q) ∨ ((p.length ≠ fs.length ∨ t.length ≠ fs.length) ∧ spectraPanel fs p t = .error .valueError) := by
    intro p t
    by_cases ht : t.length = fs.length
    · by_cases hp : p.length = fs.length
      · exact Or.inl ⟨hp, ht, _, spectraPanel_ok hfs hp ht hn⟩
      · refine Or.inr ⟨Or.inl hp, ?_⟩
        unfold spectraPanel
        rw [spectraAxis_ok hfs, ok_bind, curve_ok (by simp [ht]), ok_bind]
        unfold curve
        rw [if_neg (by simpa using fun h => hp h.symm)]
        rfl
    · refine Or.inr ⟨Or.inr ht, ?_⟩
      unfold spectraPanel
      rw [spectraAxis_ok hfs, ok_bind]
      unfold curve
      rw [if_neg (by simpa using fun h => ht h.symm)]
      rfl
  unfold plotSpectra
  show (absorptance R T >>= _) = _
  rcases habs R T with ⟨q, h⟩ | h
  · rw [h, ok_bind]
    rcases habs tR tT with ⟨q, h⟩ | h
    · rw [h, ok_bind]
      rcases hpan R tR with ⟨h1, h2, q, h⟩ | ⟨-, h⟩
      · rw [h, ok_bind]
        rcases hpan T tT with ⟨h3, h4, q, h⟩ | ⟨-, h⟩
        · exact absurd hl (by simp [h1, h2, h3, h4])
        · rw [h]; rfl
      · rw [h]; rfl
    · rw [h]; rfl
  · rw [h]; rfl

example : ∃ fs tR : List ℝ, (∀ f ∈ fs, f ≠ 0) ∧ fs ≠ [] ∧ tR.length ≠ fs.length := ⟨[1, 2], [0.5, 0.5, 0.5], by simp, by simp, by simp⟩

/-! ### C96 values of the grid plots -/

lemma sqrt_norm (z : ℂ) : Real.sqrt (z.re ^ 2 + z.im ^ 2) = ‖z‖ := by
  rw [Complex.norm_def, Complex.normSq_apply]
  congr 1
  ring

/-- C96, what holds: `plot_model_grid` shows the modulus of the mean permittivity, which is the modulus of the permittivity itself wherever that does not depend on the frequency; it never exceeds the mean modulus.
Missing: the mean modulus in general (`C96_model_false`). -/
theorem C96_model_partial (e : PermTensor) (i j l : ℕ) (hf : 0 < e.ef) :
    modelGridValue e i j l ≤ (∑ f ∈ Finset.range e.ef, ‖e.val i j l f‖) / e.ef ∧
    ∀ z, (∀ f < e.ef, e.val i j l f = z) → modelGridValue e i j l = ‖z‖ := by
  have hf' : (0 : ℝ) < e.ef := by exact_mod_cast hf
  have hsum : ∀ g : ℕ → ℂ, ((List.range e.ef).map g).sum = ∑ f ∈ Finset.range e.ef, g f := fun g => rfl
  unfold modelGridValue
  simp only [sqrt_norm, hsum]
  constructor
  · rw [norm_div, Complex.norm_natCast]
    gcongr
    exact norm_sum_le _ _
  · intro z hz
    rw [Finset.sum_congr rfl (fun f hf => hz f (Finset.mem_range.1 hf)), Finset.sum_const, Finset.card_range, nsmul_eq_mul, mul_div_assoc, mul_div_cancel₀]
    exact_mod_cast hf'.ne'

/-- C96, what holds: `plot_epsilon_grid` shows at least the largest modulus over the frequencies, and the modulus itself for a single frequency.
Missing: more than one frequency (`C96_epsilon_false`). -/
theorem C96_epsilon_partial (e : PermTensor) (i j l : ℕ) :
    (∀ f < e.ef, ‖e.val i j l f‖ ≤ epsilonGridValue e i j l) ∧ (e.ef = 1 → epsilonGridValue e i j l = ‖e.val i j l 0‖) := by
  have hsum : ∀ g : ℕ → ℝ, ((List.range e.ef).map g).sum = ∑ f ∈ Finset.range e.ef, g f := fun g => rfl
  unfold epsilonGridValue
  rw [hsum]
  constructor
  · intro f hf
    apply Real.le_sqrt_of_sq_le
    exact Finset.single_le_sum (f := fun f => ‖e.val i j l f‖ ^ 2) (fun _ _ => sq_nonneg _) (Finset.mem_range.2 hf)
  · intro h
    rw [h, Finset.sum_range_one]
    exact Real.sqrt_sq (norm_nonneg _)

/-- C96 is false: a cell with permittivity 1 at one and -1 at the other frequency (a metal and a dielectric) has modulus one at both and is shown as zero. -/
theorem C96_model_false : ¬ ∀ (e : PermTensor) (i j l : ℕ), 0 < e.ef → modelGridValue e i j l = (∑ f ∈ Finset.range e.ef, ‖e.val i j l f‖) / e.ef := by
  intro h
  have := h ⟨1, 1, 1, 2, fun _ _ _ f => if f = 0 then 1 else -1⟩ 0 0 0 (by norm_num)
  unfold modelGridValue at this
  simp [Finset.sum_range_succ, List.range_succ] at this

/-- C96 is false: with four frequencies `plot_epsilon_grid` shows a cell of permittivity one as two. -/
theorem C96_epsilon_false : ¬ ∀ (e : PermTensor) (i j l : ℕ) (z : ℂ), 0 < e.ef → (∀ f < e.ef, e.val i j l f = z) → epsilonGridValue e i j l = ‖z‖ := by
  intro h
  have := h ⟨1, 1, 1, 4, fun _ _ _ _ => 1⟩ 0 0 0 1 (by norm_num) (fun _ _ => rfl)
  unfold epsilonGridValue at this
  simp only [norm_one, one_pow, List.map_const', List.length_range, List.sum_replicate] at this
  rw [show ((4 : ℕ) • (1 : ℝ)) = 2 ^ 2 by norm_num, Real.sqrt_sq (by norm_num)] at this
  norm_num at this

/-! ### C97 positions and labels -/

lemma mem_gridCells (nx ny nl : ℕ) (c : ℕ × ℕ × ℕ) : c ∈ gridCells nx ny nl ↔ c.1 < nx ∧ c.2.1 < ny ∧ c.2.2 < nl := by
  obtain ⟨i, j, l⟩ := c
  simp only [gridCells, List.mem_flatMap, List.mem_range, List.mem_map, Prod.mk.injEq]
  constructor
  · rintro ⟨a, ha, b, hb, d, hd, rfl, rfl, rfl⟩; exact ⟨ha, hb, hd⟩
  · rintro ⟨h1, h2, h3⟩; exact ⟨i, h1, j, h2, l, h3, rfl, rfl, rfl⟩

lemma nodup_gridCells (nx ny nl : ℕ) : (gridCells nx ny nl).Nodup := by
  unfold gridCells
  rw [List.nodup_flatMap]
  constructor
  · intro i _
    rw [List.nodup_flatMap]
    constructor
    · intro j _
      exact List.Nodup.map (fun a b h => by simpa using h) List.nodup_range
    · refine List.Pairwise.imp ?_ List.nodup_range
      intro a b hab x hx hy
      simp only [List.mem_map, List.mem_range] at hx hy
      obtain ⟨_, _, rfl⟩ := hx
      obtain ⟨_, _, h⟩ := hy
      simp only [Prod.mk.injEq] at h
      exact hab h.2.1.symm
  · refine List.Pairwise.imp ?_ List.nodup_range
    intro a b hab x hx hy
    simp only [List.mem_flatMap, List.mem_map, List.mem_range] at hx hy
    obtain ⟨_, _, _, _, rfl⟩ := hx
    obtain ⟨_, _, _, _, h⟩ := hy
    simp only [Prod.mk.injEq] at h
    exact hab h.1.symm

lemma linspaceAt_lt {n i j : ℕ} (hij : i < j) (hj : j < n) : (linspaceAt (-1) 1 n i : ℝ) < linspaceAt (-1) 1 n j := by
  have hn : n ≠ 1 := by omega
  have h1 : (0 : ℝ) < (n : ℝ) - 1 := by
    have : (2 : ℝ) ≤ n := by exact_mod_cast (by omega : 2 ≤ n)
    linarith
  unfold linspaceAt
  rw [if_neg hn, if_neg hn]
  have : (i : ℝ) < j := by exact_mod_cast hij
  gcongr

lemma linspaceAt_inj {n i j : ℕ} (hi : i < n) (hj : j < n) (h : (linspaceAt (-1) 1 n i : ℝ) = linspaceAt (-1) 1 n j) : i = j := by
  rcases lt_trichotomy i j with hij | hij | hij
  · exact absurd h (linspaceAt_lt hij hj).ne
  · exact hij
  · exact absurd h (linspaceAt_lt hij hi).ne'

/-- specification: a three-dimensional scatter plot shows the cells of an `nx`×`ny`×`nl` grid: exactly one point per cell, at places that are ordered like the cells along each axis, carrying the value of the cell -/
def ShowsCells {V : Type} (nx ny nl : ℕ) (val : ℕ → ℕ → ℕ → V) (pts : List ((ℝ × ℝ × ℝ) × V)) : Prop :=
  ∃ px py pz : ℕ → ℝ, (∀ a b, a < b → b < nx → px a < px b) ∧ (∀ a b, a < b → b < ny → py a < py b) ∧ (∀ a b, a < b → b < nl → pz a < pz b) ∧
    pts.Nodup ∧ (∀ p v, (p, v) ∈ pts ↔ ∃ i j l, i < nx ∧ j < ny ∧ l < nl ∧ p = (px i, py j, pz l) ∧ v = val i j l) ∧
    zTicks nl = (List.range nl).map fun l => (pz l, "L" ++ toString (l + 1))

lemma scatter_shows {V : Type} (nx ny nl : ℕ) (val : ℕ → ℕ → ℕ → V) :
    ∃ pts, scatter (cellPositions nx ny nl) ((gridCells nx ny nl).map fun c => val c.1 c.2.1 c.2.2) = .ok pts ∧ ShowsCells nx ny nl val pts := by
  have hz : (cellPositions nx ny nl).zip ((gridCells nx ny nl).map fun c => val c.1 c.2.1 c.2.2) =
      (gridCells nx ny nl).map fun c => ((linspaceAt (-1) 1 nx c.1, linspaceAt (-1) 1 ny c.2.1, linspaceAt (-1) 1 nl c.2.2), val c.1 c.2.1 c.2.2) := by
    unfold cellPositions
    rw [List.zip_map']
  refine ⟨_, if_pos (by simp [cellPositions]), fun i => linspaceAt (-1) 1 nx i, fun i => linspaceAt (-1) 1 ny i, fun i => linspaceAt (-1) 1 nl i,
    fun _ _ h h' => linspaceAt_lt h h', fun _ _ h h' => linspaceAt_lt h h', fun _ _ h h' => linspaceAt_lt h h', ?_, ?_, ?_⟩
  · rw [hz]
    refine List.Nodup.map_on ?_ (nodup_gridCells nx ny nl)
    rintro ⟨a, b, d⟩ h1 ⟨a', b', d'⟩ h2 h
    rw [mem_gridCells] at h1 h2
    simp only [Prod.mk.injEq] at h
    dsimp only at h1 h2
    rw [linspaceAt_inj h1.1 h2.1 h.1.1, linspaceAt_inj h1.2.1 h2.2.1 h.1.2.1, linspaceAt_inj h1.2.2 h2.2.2 h.1.2.2]
  · intro p v
    rw [hz, List.mem_map]
    constructor
    · rintro ⟨⟨i, j, l⟩, hc, h⟩
      rw [mem_gridCells] at hc
      obtain ⟨rfl, rfl⟩ := Prod.mk.inj h
      exact ⟨i, j, l, hc.1, hc.2.1, hc.2.2, rfl, rfl⟩
    · rintro ⟨i, j, l, h1, h2, h3, rfl, rfl⟩
      exact ⟨(i, j, l), (mem_gridCells _ _ _ _).2 ⟨h1, h2, h3⟩, rfl⟩
  · unfold zTicks
    rw [List.zip_map']

/-- C97: for a permittivity tensor of the configured size every grid plot shows exactly one point per cell, ordered in space like the cells, with that cell's value; the tick at the height of layer `l` is labelled
`L(l+1)`, so `L1` is the first layer. -/
theorem C97_cells (e : PermTensor) :
    (∃ pts, plotModelGrid e.ex e.ey e.el e = .ok pts ∧ ShowsCells e.ex e.ey e.el (modelGridValue e) pts) ∧
    (∃ pts, plotEpsilonGrid e.ex e.ey e.el e = .ok pts ∧ ShowsCells e.ex e.ey e.el (epsilonGridValue e) pts) :=
  ⟨scatter_shows _ _ _ (modelGridValue e), scatter_shows _ _ _ (epsilonGridValue e)⟩

lemma length_gridCells (nx ny nl : ℕ) : (gridCells nx ny nl).length = nx * ny * nl := by
  simp [gridCells, List.length_flatMap, mul_assoc]

lemma scatter_sizes {V : Type} (nx ny nl ex ey el : ℕ) (val : ℕ × ℕ × ℕ → V) :
    (nx * ny * nl = ex * ey * el → ∃ pts, scatter (cellPositions nx ny nl) ((gridCells ex ey el).map val) = .ok pts ∧ pts.length = nx * ny * nl) ∧
    (nx * ny * nl ≠ ex * ey * el → scatter (cellPositions nx ny nl) ((gridCells ex ey el).map val) = .error .valueError) := by
  unfold scatter
  have e1 : (cellPositions nx ny nl).length = nx * ny * nl := by rw [cellPositions, List.length_map, length_gridCells]
  have e2 : ((gridCells ex ey el).map val).length = ex * ey * el := by rw [List.length_map, length_gridCells]
  rw [e1, e2]
  refine ⟨fun h => ⟨_, if_pos h, ?_⟩, fun h => if_neg h⟩
  rw [List.length_zip, e1, e2, ← h, min_self]

/-- C97: a permittivity tensor with more or fewer cells than the config has is refused with ValueError by both grid plots; none of its values is left out or drawn twice. -/
theorem C97_sizes (nx ny nl : ℕ) (e : PermTensor) :
    (nx * ny * nl = e.ex * e.ey * e.el → (∃ pts, plotModelGrid nx ny nl e = .ok pts ∧ pts.length = nx * ny * nl) ∧ ∃ pts, plotEpsilonGrid nx ny nl e = .ok pts ∧ pts.length = nx * ny * nl) ∧
    (nx * ny * nl ≠ e.ex * e.ey * e.el → plotModelGrid nx ny nl e = .error .valueError ∧ plotEpsilonGrid nx ny nl e = .error .valueError) :=
  ⟨fun h => ⟨(scatter_sizes ..).1 h, (scatter_sizes ..).1 h⟩, fun h => ⟨(scatter_sizes ..).2 h, (scatter_sizes ..).2 h⟩⟩

/-- Non-vacuity: a tensor of 3 × 2 × 1 cells for a config of 2 × 2 × 1 (refused) and of 3 × 2 × 1 (drawn) -/
example : plotEpsilonGrid 2 2 1 ⟨3, 2, 1, 4, fun _ _ _ _ => 1⟩ = .error .valueError ∧ ∃ pts, plotEpsilonGrid 3 2 1 ⟨3, 2, 1, 4, fun _ _ _ _ => 1⟩ = .ok pts ∧ pts.length = 6 :=
  ⟨((C97_sizes 2 2 1 _).2 (by norm_num)).2, ((C97_sizes 3 2 1 _).1 rfl).2⟩

lemma axisIndex_nat {n k : ℕ} (h : k < n) : axisIndex n (k : ℤ) = .ok k := by
  unfold axisIndex
  rw [if_pos ⟨by omega, by exact_mod_cast h⟩]
  rfl

lemma addSubplot_small {q : ℕ} (h : q < 8) : addSubplot (421 + q) = .ok (4, 2, q + 1) := by
  interval_cases q <;> rfl

lemma freqPanels_spec (freqs : List ℝ) (hz : ∀ f ∈ freqs, f ≠ 0) (e : PermTensor) (hl : freqs.length = e.ef) (ks : List ℕ) (hk : ∀ k ∈ ks, k < e.ef) (idx : ℕ) (hlen : idx + ks.length ≤ 4) :
    ∃ ps, freqPanels e.ex e.ey e.el freqs e idx (ks.map Int.ofNat) = .ok ps ∧ ps.length = 2 * ks.length ∧
      ∀ i k f, ks[i]? = some k → freqs[k]? = some f → ∃ a b, ps[2 * i]? = some a ∧ ps[2 * i + 1]? = some b ∧ a.place = (4, 2, 2 * (idx + i) + 1) ∧ b.place = (4, 2, 2 * (idx + i) + 2) ∧
        a.wl = 1 / f ∧ b.wl = 1 / f ∧ ShowsCells e.ex e.ey e.el (fun x y z => (e.val x y z k).re) a.points ∧ ShowsCells e.ex e.ey e.el (fun x y z => (e.val x y z k).im) b.points := by
  induction ks generalizing idx with
  | nil => exact ⟨[], rfl, rfl, fun i k f h => by simp at h⟩
  | cons k ks ih =>
    obtain ⟨ps, h1, h2, h3⟩ := ih (fun k hk' => hk k (by simp [hk'])) (idx + 1) (by simp only [List.length_cons] at hlen; omega)
    have hke : k < e.ef := hk k (by simp)
    have hkf : k < freqs.length := hl ▸ hke
    have hlt : idx < 4 := by simp only [List.length_cons] at hlen; omega
    obtain ⟨pa, hpa, hsa⟩ := scatter_shows e.ex e.ey e.el (fun x y z => (e.val x y z k).re)
    obtain ⟨pb, hpb, hsb⟩ := scatter_shows e.ex e.ey e.el (fun x y z => (e.val x y z k).im)
    have ha : freqPanel e.ex e.ey e.el freqs e idx (k : ℤ) k 0 = .ok ⟨(4, 2, 2 * idx + 1), 1 / freqs[k], pa⟩ := by
      unfold freqPanel
      rw [show 421 + 0 + idx * 2 = 421 + 2 * idx by omega, addSubplot_small (by omega), ok_bind]
      simp only [if_true]
      rw [hpa, ok_bind, axisIndex_nat hkf, ok_bind]
      simp only [List.getElem?_eq_getElem hkf, freqToWl_ne (hz _ (List.getElem_mem hkf))]
      rfl
    have hb : freqPanel e.ex e.ey e.el freqs e idx (k : ℤ) k 1 = .ok ⟨(4, 2, 2 * idx + 2), 1 / freqs[k], pb⟩ := by
      unfold freqPanel
      rw [show 421 + 1 + idx * 2 = 421 + (2 * idx + 1) by omega, addSubplot_small (by omega), ok_bind]
      simp only [one_ne_zero, if_false]
      rw [hpb, ok_bind, axisIndex_nat hkf, ok_bind]
      simp only [List.getElem?_eq_getElem hkf, freqToWl_ne (hz _ (List.getElem_mem hkf))]
      rfl
    refine ⟨⟨(4, 2, 2 * idx + 1), 1 / freqs[k], pa⟩ :: ⟨(4, 2, 2 * idx + 2), 1 / freqs[k], pb⟩ :: ps, ?_, by simp [h2]; ring, ?_⟩
    · rw [List.map_cons, freqPanels]
      show (axisIndex e.ef (k : ℤ) >>= _) = _
      rw [axisIndex_nat hke, ok_bind]
      show (freqPanel e.ex e.ey e.el freqs e idx (k : ℤ) k 0 >>= _) = _
      rw [ha, ok_bind]
      show (freqPanel e.ex e.ey e.el freqs e idx (k : ℤ) k 1 >>= _) = _
      rw [hb, ok_bind, h1, ok_bind]
      rfl
    · intro i k' f hi hf
      cases i with
      | zero =>
        have hi : some k = some k' := hi
        obtain rfl := Option.some.inj hi
        rw [List.getElem?_eq_getElem hkf] at hf
        obtain rfl := Option.some.inj hf
        exact ⟨_, _, rfl, rfl, rfl, rfl, rfl, rfl, hsa, hsb⟩
      | succ i =>
        obtain ⟨a, b, q1, q2, q3, q4, q5⟩ := h3 i k' f (by simpa using hi) hf
        exact ⟨a, b, by rw [show 2 * (i + 1) = 2 * i + 2 by ring]; simpa using q1, by rw [show 2 * (i + 1) + 1 = (2 * i + 1) + 2 by ring]; simpa using q2,
          by rw [q3]; congr 3; ring, by rw [q4]; congr 3; ring, q5⟩

/-- C97: for up to four requested frequencies, `plot_model_grid_per_freq` shows for each of them in a row of its own the real and the imaginary part at that frequency, titled with its wavelength. -/
theorem C97_per_frequency (freqs : List ℝ) (hz : ∀ f ∈ freqs, f ≠ 0) (e : PermTensor) (hpos : 0 < e.ex * e.ey * e.el * e.ef) (hl : freqs.length = e.ef) (ks : List ℕ) (hk : ∀ k ∈ ks, k < e.ef) (h4 : ks.length ≤ 4) :
    ∃ ps, plotModelGridPerFreq e.ex e.ey e.el freqs e (ks.map Int.ofNat) = .ok ps ∧ ps.length = 2 * ks.length ∧
      ∀ i k f, ks[i]? = some k → freqs[k]? = some f → ∃ a b, ps[2 * i]? = some a ∧ ps[2 * i + 1]? = some b ∧ a.place = (4, 2, 2 * i + 1) ∧ b.place = (4, 2, 2 * i + 2) ∧
        a.wl = 1 / f ∧ b.wl = 1 / f ∧ ShowsCells e.ex e.ey e.el (fun x y z => (e.val x y z k).re) a.points ∧ ShowsCells e.ex e.ey e.el (fun x y z => (e.val x y z k).im) b.points := by
  obtain ⟨ps, h1, h2, h3⟩ := freqPanels_spec freqs hz e hl ks hk 0 (by omega)
  refine ⟨ps, ?_, h2, by simpa using h3⟩
  unfold plotModelGridPerFreq
  rw [if_neg hpos.ne', h1]

example : ∃ (freqs : List ℝ) (e : PermTensor) (ks : List ℕ), (∀ f ∈ freqs, f ≠ 0) ∧ 0 < e.ex * e.ey * e.el * e.ef ∧ freqs.length = e.ef ∧ (∀ k ∈ ks, k < e.ef) ∧ ks.length ≤ 4 ∧ ks = [2, 0] :=
  ⟨[1, 2, 3], ⟨2, 2, 1, 3, fun _ _ _ f => f⟩, [2, 0], by simp, by norm_num, rfl, by simp, by norm_num, rfl⟩

/-- C97: in the permittivity-per-point plot the legend entry of each pair of curves names the cell whose permittivity over wavelength they show. -/
theorem C97_curves (freqs : List ℝ) (hz : ∀ f ∈ freqs, f ≠ 0) (e : PermTensor) (hl : freqs.length = e.ef) :
    ∃ cs, epsCurves freqs e = .ok cs ∧ ∀ n a b, (n, a, b) ∈ cs ↔ ∃ x y l, x < e.ex ∧ y < e.ey ∧ l < e.el ∧ n = s!"Layer {l} - (x,y)=({x},{y})" ∧
      a = (freqs.map fun f => 1 / f).zip ((List.range e.ef).map fun f => (e.val x y l f).re) ∧ b = (freqs.map fun f => 1 / f).zip ((List.range e.ef).map fun f => (e.val x y l f).im) := by
  have hm : ((gridCells e.ex e.ey e.el).mapM fun c => do
      let re ← curve (freqs.map fun f => 1 / f) ((List.range e.ef).map fun f => (e.val c.1 c.2.1 c.2.2 f).re)
      let im ← curve (freqs.map fun f => 1 / f) ((List.range e.ef).map fun f => (e.val c.1 c.2.1 c.2.2 f).im)
      pure (re, im)) = (Except.ok ((gridCells e.ex e.ey e.el).map fun c => ((freqs.map fun f => 1 / f).zip ((List.range e.ef).map fun f => (e.val c.1 c.2.1 c.2.2 f).re),
        (freqs.map fun f => 1 / f).zip ((List.range e.ef).map fun f => (e.val c.1 c.2.1 c.2.2 f).im))) : Except PyErr _) := by
    refine mapM_map _ _ _ fun c _ => ?_
    rw [curve_ok (by simp [hl]), ok_bind, curve_ok (by simp [hl]), ok_bind]
    rfl
  refine ⟨((gridCells e.ex e.ey e.el).map fun c => s!"Layer {c.2.2} - (x,y)=({c.1},{c.2.1})").zip ((gridCells e.ex e.ey e.el).map fun c =>
    ((freqs.map fun f => 1 / f).zip ((List.range e.ef).map fun f => (e.val c.1 c.2.1 c.2.2 f).re), (freqs.map fun f => 1 / f).zip ((List.range e.ef).map fun f => (e.val c.1 c.2.1 c.2.2 f).im))), ?_, ?_⟩
  · unfold epsCurves
    rw [axis_ok hz, ok_bind, hm, ok_bind]
    rfl
  · intro n a b
    rw [List.zip_map', List.mem_map]
    constructor
    · rintro ⟨⟨x, y, l⟩, hc, h⟩
      rw [mem_gridCells] at hc
      simp only [Prod.mk.injEq] at h
      exact ⟨x, y, l, hc.1, hc.2.1, hc.2.2, h.1.symm, h.2.1.symm, h.2.2.symm⟩
    · rintro ⟨x, y, l, h1, h2, h3, rfl, rfl, rfl⟩
      exact ⟨(x, y, l), (mem_gridCells _ _ _ _).2 ⟨h1, h2, h3⟩, rfl⟩

/-! ### C98 material plot -/

lemma colourIndex_tick {n k : ℕ} (hk : k < n) : colourIndex n (1 - 0.5) (n + 0.5) ((k : ℝ) + 1) = k := by
  have hn : (0 : ℝ) < n := by exact_mod_cast (by omega : 0 < n)
  have hkn : (k : ℝ) + 1 ≤ n := by exact_mod_cast hk
  unfold colourIndex
  rw [if_neg (by norm_num; linarith)]
  have : ((k : ℝ) + 1 - (1 - 0.5)) / (n + 0.5 - (1 - 0.5)) * n = k + 1 / 2 := by
    rw [show (n : ℝ) + 0.5 - (1 - 0.5) = n by norm_num]
    field_simp
    ring
  rw [this, Int.floor_eq_iff]
  constructor <;> push_cast <;> linarith

/-- C98: in the material plot the colour of every cell occurs on the colour bar exactly once, next to the name of a material with the smallest mean distance to the cell's permittivity; the shown error is that distance. -/
theorem C98_names (am : ArgMin) (e : PermTensor) (nf : ℕ) (mats : List (ℕ → ℂ)) (names : List String) (hm : mats ≠ []) (hn : names.length = mats.length) :
    ∃ pts, plotMaterialGrid am e.ex e.ey e.el nf mats e = .ok pts ∧
      ShowsCells e.ex e.ey e.el (fun x y l => (materialColour mats.length (findClosest am nf mats (e.val x y l)).2, (findClosest am nf mats (e.val x y l)).1)) pts ∧
      ∀ p colour err, (p, colour, err) ∈ pts → ∃ (x y l k : ℕ) (name : String) (m : ℕ → ℂ), x < e.ex ∧ y < e.ey ∧ l < e.el ∧ names[k]? = some name ∧ mats[k]? = some m ∧
        (∀ name', (colour, name') ∈ colourBar names ↔ name' = name) ∧ err = some (avgAbsDiff nf (e.val x y l) m) ∧ ∀ m' ∈ mats, avgAbsDiff nf (e.val x y l) m ≤ avgAbsDiff nf (e.val x y l) m' := by
  obtain ⟨pts, h, hs⟩ := scatter_shows e.ex e.ey e.el (fun x y l => (materialColour mats.length (findClosest am nf mats (e.val x y l)).2, (findClosest am nf mats (e.val x y l)).1))
  refine ⟨pts, h, hs, ?_⟩
  obtain ⟨px, py, pz, -, -, -, -, hmem, -⟩ := hs
  intro p colour err hp
  obtain ⟨x, y, l, h1, h2, h3, -, hv⟩ := (hmem p (colour, err)).1 hp
  obtain ⟨hc, he⟩ := Prod.mk.inj hv
  obtain ⟨m, hm1, hm2, hm3⟩ := C27_minimiser am nf mats hm (e.val x y l)
  generalize findClosest am nf mats (e.val x y l) = q at hc he hm1 hm2
  have hq : q.2 < mats.length := (List.getElem?_eq_some_iff.1 hm1).1
  have hq' : q.2 < names.length := hn ▸ hq
  refine ⟨x, y, l, q.2, names[q.2], m, h1, h2, h3, List.getElem?_eq_getElem hq', hm1, ?_, he.trans hm2, hm3⟩
  have hcol : colour = q.2 := by
    rw [hc]
    exact colourIndex_tick hq
  intro name'
  unfold colourBar
  rw [List.mem_map]
  constructor
  · rintro ⟨⟨k, n'⟩, hk, hk'⟩
    simp only [Prod.mk.injEq] at hk'
    obtain ⟨i, hi, hget⟩ := List.getElem_of_mem hk
    rw [List.getElem_zip, List.getElem_range] at hget
    obtain ⟨rfl, rfl⟩ := Prod.mk.inj hget
    have hi' : i < names.length := by simpa using hi
    rw [colourIndex_tick hi', hcol] at hk'
    have : i = q.2 := by exact_mod_cast hk'.1
    subst this
    exact hk'.2.symm
  · rintro rfl
    refine ⟨(q.2, names[q.2]), ?_, ?_⟩
    · rw [List.mem_iff_getElem]
      exact ⟨q.2, by simpa using hq', by rw [List.getElem_zip, List.getElem_range]⟩
    · simp only [Prod.mk.injEq]
      exact ⟨by rw [colourIndex_tick hq', hcol], trivial⟩

example : ∃ (mats : List (ℕ → ℂ)) (names : List String), mats ≠ [] ∧ names.length = mats.length := ⟨[fun _ => 1, fun _ => 12], ["vacuum", "silicon"], by simp, rfl⟩

/-! ### C99 saving all plots -/

lemma materialCurves_ok (c : MatCollection (ℝ × ℝ)) (near : List String) (h : ∀ n ∈ near, ∃ v vs, c.lookup n = .ok (.vec (v :: vs))) : ∃ q, materialCurves c near = .ok q := by
  unfold materialCurves
  refine mapM_total _ _ fun n hn => ?_
  obtain ⟨v, vs, hv⟩ := h n hn
  exact ⟨(n, .vec (v :: vs)), by rw [hv, ok_bind]; rfl⟩

lemma plotSpectra_ok (fs R T tR tT : List ℝ) (hfs : ∀ f ∈ fs, f ≠ 0) (hn : fs ≠ []) (hR : R.length = fs.length) (hT : T.length = fs.length) (htR : tR.length = fs.length) (htT : tT.length = fs.length) :
    ∃ q, plotSpectra fs tR tT (none, none) (.ok (R, T)) = .ok q := by
  refine ⟨(⟨(fs.map fun f => 1 / f).zip tR, (fs.map fun f => 1 / f).zip R, (List.zipWith (fun a b => |a - b|) tR R).sum / fs.length⟩,
    ⟨(fs.map fun f => 1 / f).zip tT, (fs.map fun f => 1 / f).zip T, (List.zipWith (fun a b => |a - b|) tT T).sum / fs.length⟩), ?_⟩
  · unfold plotSpectra
    show (absorptance R T >>= _) = _
    rw [absorptance_ok (hR.trans hT.symm), ok_bind, absorptance_ok (htR.trans htT.symm), ok_bind, spectraPanel_ok hfs hR htR hn, ok_bind, spectraPanel_ok hfs hT htT hn, ok_bind]
    rfl

/-- C99, what holds: with at least four frequencies (and materials given per frequency) all six plots of a trained config are saved.
Missing: fewer than four frequencies, where it is false (`C99_few_false`). -/
theorem C99_saved_partial (am : ArgMin) (fs R T tR tT : List ℝ) (e : PermTensor) (mats : List (ℕ → ℂ)) (c : MatCollection (ℝ × ℝ)) (near : List String) (hfs : ∀ f ∈ fs, f ≠ 0)
    (hpos : 0 < e.ex * e.ey * e.el) (h4 : 4 ≤ e.ef) (hl : fs.length = e.ef) (hR : R.length = e.ef) (hT : T.length = e.ef) (htR : tR.length = e.ef) (htT : tT.length = e.ef)
    (hnear : ∀ n ∈ near, ∃ v vs, c.lookup n = .ok (.vec (v :: vs))) :
    saveAllPlots am fs tR tT (.ok (R, T)) e.ex e.ey e.el e.ef e mats c near =
      (["spectra_comparison.png", "losses.png", "model_grid.png", "model_grid_per_freq.png", "material_grid.png", "eps_per_pointsNone.png"], .ok ()) := by
  have hn : fs ≠ [] := by
    rintro rfl
    simp at hl
    omega
  obtain ⟨q1, h1⟩ := plotSpectra_ok fs R T tR tT hfs hn (hR.trans hl.symm) (hT.trans hl.symm) (htR.trans hl.symm) (htT.trans hl.symm)
  obtain ⟨⟨q3, h3, -⟩, -⟩ := C97_cells e
  obtain ⟨q4, h4, -⟩ := C97_per_frequency fs hfs e (by positivity) hl [0, 1, 2, 3] (by simp; omega) (by simp)
  obtain ⟨q5, h5, -⟩ := scatter_shows e.ex e.ey e.el (fun x y l => (materialColour mats.length (findClosest am e.ef mats (e.val x y l)).2, (findClosest am e.ef mats (e.val x y l)).1))
  obtain ⟨q6, h6, -⟩ := C97_curves fs hfs e hl
  obtain ⟨q7, h7⟩ := materialCurves_ok c near hnear
  have h5' : plotMaterialGrid am e.ex e.ey e.el e.ef mats e = .ok q5 := h5
  have h4' : plotModelGridPerFreq e.ex e.ey e.el fs e defaultFreqIdx = .ok q4 := h4
  have h6' : plotEpsPerPoint fs e c near = .ok (q6, q7) := by
    unfold plotEpsPerPoint
    rw [h6, ok_bind, h7, ok_bind]
    rfl
  unfold saveAllPlots
  rw [h1, h3, h4', h5', h6']
  rfl

/-- C99 is false: with one, two or three frequencies (values the config check accepts) the call ends with IndexError after three of the six files. -/
theorem C99_few_false (am : ArgMin) (fs R T tR tT : List ℝ) (e : PermTensor) (mats : List (ℕ → ℂ)) (c : MatCollection (ℝ × ℝ)) (near : List String) (hfs : ∀ f ∈ fs, f ≠ 0)
    (hpos : 0 < e.ex * e.ey * e.el) (h1 : 1 ≤ e.ef) (h3 : e.ef < 4) (hl : fs.length = e.ef) (hR : R.length = e.ef) (hT : T.length = e.ef) (htR : tR.length = e.ef) (htT : tT.length = e.ef) :
    saveAllPlots am fs tR tT (.ok (R, T)) e.ex e.ey e.el e.ef e mats c near = (["spectra_comparison.png", "losses.png", "model_grid.png"], .error .indexError) := by
  have hn : fs ≠ [] := by
    rintro rfl
    simp at hl
    omega
  obtain ⟨q1, hq1⟩ := plotSpectra_ok fs R T tR tT hfs hn (hR.trans hl.symm) (hT.trans hl.symm) (htR.trans hl.symm) (htT.trans hl.symm)
  obtain ⟨⟨q3, hq3, -⟩, -⟩ := C97_cells e
  have hstep : ∀ k : ℕ, k < 4 → k ≤ e.ef → freqPanels e.ex e.ey e.el fs e k ((List.range' k (4 - k)).map Int.ofNat) = .error .indexError := by
    intro k hk hke
    generalize hd : e.ef - k = d
    induction d generalizing k with
    | zero =>
      have : k = e.ef := by omega
      obtain ⟨r, hr⟩ : ∃ r, List.range' k (4 - k) = k :: r := ⟨List.range' (k + 1) (3 - k), by rw [show 4 - k = (3 - k) + 1 by omega, List.range'_succ]⟩
      rw [hr, List.map_cons, freqPanels]
      have : axisIndex e.ef (Int.ofNat k) = .error .indexError := by
        unfold axisIndex
        rw [if_neg (by simp; omega), if_neg (by simp)]
      rw [this]
      rfl
    | succ d ih =>
      have hlt : k < e.ef := by omega
      obtain ⟨ps, hps, -⟩ := freqPanels_spec fs hfs e hl [k] (by simpa using hlt) k (by simp; omega)
      rw [show 4 - k = (4 - (k + 1)) + 1 by omega, List.range'_succ, List.map_cons, freqPanels]
      rw [List.map_cons, freqPanels] at hps
      obtain ⟨f, hf, hps⟩ := bind_ok.1 hps
      obtain ⟨a, ha, hps⟩ := bind_ok.1 hps
      obtain ⟨b, hb, hps⟩ := bind_ok.1 hps
      rw [hf, ok_bind, ha, ok_bind, hb, ok_bind, ih (k + 1) (by omega) (by omega) (by omega)]
      rfl
  have h4' : plotModelGridPerFreq e.ex e.ey e.el fs e defaultFreqIdx = .error .indexError := by
    unfold plotModelGridPerFreq
    rw [if_neg (by positivity)]
    exact hstep 0 (by norm_num) (by omega)
  unfold saveAllPlots
  rw [hq1, hq3, h4']
  rfl

/-- two materials at four frequencies, for the example -/
def twoMaterials : MatCollection (ℝ × ℝ) := ⟨["vacuum", "silicon"], .mat [[(1, 0), (1, 0), (1, 0), (1, 0)], [(12, 0), (12, 0), (12, 0), (12, 1)]]⟩

example : ∃ (fs R : List ℝ) (e : PermTensor) (near : List String), (∀ f ∈ fs, f ≠ 0) ∧ 0 < e.ex * e.ey * e.el ∧ 4 ≤ e.ef ∧ fs.length = e.ef ∧ R.length = e.ef ∧
    near ≠ [] ∧ ∀ n ∈ near, ∃ v vs, twoMaterials.lookup n = .ok (.vec (v :: vs)) :=
  ⟨[1, 2, 3, 4], [0, 0.5, 0, 1], ⟨2, 1, 3, 4, fun _ _ _ _ => 1⟩, ["silicon"], by simp, by norm_num, by norm_num, rfl, rfl, by simp, by simp [twoMaterials, MatCollection.lookup, EpsMatrix.get, List.idxOf, List.findIdx_cons]⟩

example : ∃ (fs R : List ℝ) (e : PermTensor), (∀ f ∈ fs, f ≠ 0) ∧ 0 < e.ex * e.ey * e.el ∧ 1 ≤ e.ef ∧ e.ef < 4 ∧ fs.length = e.ef ∧ R.length = e.ef :=
  ⟨[1, 2, 3], [0, 0.5, 0], ⟨2, 1, 3, 3, fun _ _ _ _ => 1⟩, by simp, by norm_num, by norm_num, by norm_num, rfl, rfl⟩

end Nidn
