/-
C134: the permittivity grid has the configured shape.
-/
import Mathlib.Tactic.Ring
import Verif.Model.Shapes
import Verif.Props.Nets
import Verif.Props.Config

namespace Nidn

/-- the settings of a config; the number of target frequencies is the configured one (C02) -/
structure ShapesOf (c : Cfg) (s : ShapeCfg) : Prop where
  nx : SetTo c "Nx" s.nx
  ny : SetTo c "Ny" s.ny
  nLayers : SetTo c "N_layers" s.nLayers
  nFreq : SetTo c "N_freq" s.nFreq
  os : SetTo c "eps_oversampling" s.os
  nThick : ∃ l, c.lookup "PER_LAYER_THICKNESS" = some (.list l) ∧ l.length = s.nThick
  nTarget : s.nTarget = s.nFreq

/-- the settings of accepted configs -/
structure ShapesFit (s : ShapeCfg) : Prop where
  nx : 0 < s.nx
  ny : 0 < s.ny
  nLayers : 0 < s.nLayers
  nFreq : 0 < s.nFreq
  os : 0 < s.os
  divX : s.os ∣ s.nx
  divY : s.os ∣ s.ny
  thick : s.nThick = s.nLayers ∨ s.nThick = 1
  target : s.nTarget = s.nFreq

lemma setTo_only {c : Cfg} {k : String} {x y : ℚ} (h : SetTo c k x) (h' : SetTo c k y) : x = y := by
  obtain ⟨v, hv, hx⟩ := h
  obtain ⟨w, hw, hy⟩ := h'
  rw [hv] at hw
  cases hw
  exact denotes_unique hx hy

/-- an integer setting that is positive is a natural number -/
lemma positive_nat {c : Cfg} (h : validateConfig c = .ok ()) {k : String} (hk : k ∈ integerKeys) (hp : k ∈ documentedPositive) : ∃ n : ℕ, SetTo c k n ∧ 0 < n := by
  obtain ⟨v, hv, hi⟩ := (types_ok h).1 k hk
  obtain ⟨z, hz⟩ := isInt_denotes hi
  obtain ⟨x, hx, hpos⟩ := (C07_ranges c h).positive k hp
  have e : (z : ℚ) = x := setTo_only ⟨v, hv, hz⟩ hx
  have hz0 : 0 < z := by
    rw [← e] at hpos
    exact_mod_cast hpos
  refine ⟨z.toNat, ⟨v, hv, ?_⟩, by omega⟩
  have : ((z.toNat : ℤ) : ℚ) = (z : ℚ) := by rw [Int.toNat_of_nonneg hz0.le]
  rw [← Int.cast_natCast, this]
  exact hz

/-- every accepted config has settings that fit -/
lemma accepted_shapes {c : Cfg} (h : validateConfig c = .ok ()) : ∃ s, ShapesOf c s ∧ ShapesFit s := by
  obtain ⟨nx, hnx, pnx⟩ := positive_nat h (k := "Nx") (by decide) (by decide)
  obtain ⟨ny, hny, pny⟩ := positive_nat h (k := "Ny") (by decide) (by decide)
  obtain ⟨nl, hnl, pnl⟩ := positive_nat h (k := "N_layers") (by decide) (by decide)
  obtain ⟨nf, hnf, pnf⟩ := positive_nat h (k := "N_freq") (by decide) (by decide)
  obtain ⟨os, hos, pos⟩ := positive_nat h (k := "eps_oversampling") (by decide) (by decide)
  have R := C07_ranges c h
  obtain ⟨nx', ny', os', e1, e2, e3, -, d1, d2⟩ := R.oversampling
  obtain ⟨l, n, hl, hn, hln⟩ := R.thickness
  have q1 : (nx' : ℤ) = nx := by exact_mod_cast setTo_only e1 hnx
  have q2 : (ny' : ℤ) = ny := by exact_mod_cast setTo_only e2 hny
  have q3 : (os' : ℤ) = os := by exact_mod_cast setTo_only e3 hos
  have q4 : (n : ℤ) = nl := by exact_mod_cast setTo_only hn hnl
  subst q1 q2 q3 q4
  refine ⟨⟨nx, ny, nl, nf, os, l.length, nf⟩, ⟨hnx, hny, hnl, hnf, hos, ⟨l, hl, rfl⟩, rfl⟩, ⟨pnx, pny, pnl, pnf, pos, by exact_mod_cast d1, by exact_mod_cast d2, ?_, rfl⟩⟩
  rcases hln with hln | hln
  · exact .inl (by exact_mod_cast hln)
  · exact .inr hln

lemma joinRev_self : ∀ s : Dims, joinRev s s = .ok s
  | [] => rfl
  | a :: s => by
    unfold joinRev
    rw [joinRev_self s]
    unfold joinAxis
    rw [if_pos rfl]
    rfl

lemma broadcast_self (s : Dims) : broadcastShapes s s = .ok s := by
  unfold broadcastShapes
  rw [joinRev_self]
  show Except.ok _ = _
  rw [List.reverse_reverse]

lemma copyInto_self (s : Dims) : copyInto s s = .ok s := by
  unfold copyInto
  rw [broadcast_self]
  exact if_pos rfl

/-- the rows handed to a network -/
lemma rows_eq {s : ShapeCfg} (f : ShapesFit s) : (if s.nThick = 1 then s.nLayers else s.nThick) = s.nLayers := by
  rcases f.thick with h | h
  · split_ifs with h1
    · rfl
    · exact h
  · rw [if_pos h]

/-- C134, regression: with any network that turns rows of four numbers into rows of two, and with a voxel model made for the config, the permittivity grid of an accepted config has the shape
`Nx × Ny × N_layers × N_freq`, and the RCWA solver takes it. -/
theorem C134_regression (c : Cfg) (h : validateConfig c = .ok ()) : ∃ s, ShapesOf c s ∧
    (∀ columns : ℕ → Except PyErr ℕ, columns 4 = .ok 2 → regressionShape s (.network columns) = .ok [s.nx, s.ny, s.nLayers, s.nFreq]) ∧
    regressionShape s (.voxel [s.nx, s.ny, s.nLayers, s.nFreq]) = .ok [s.nx, s.ny, s.nLayers, s.nFreq] ∧ trcwaAsserts s [s.nx, s.ny, s.nLayers, s.nFreq] = .ok () := by
  obtain ⟨s, hs, f⟩ := accepted_shapes h
  refine ⟨s, hs, fun columns hc => ?_, rfl, ?_⟩
  · have e1 : evalShape s (.network columns) = .ok [(s.nx / s.os) * (s.ny / s.os) * s.nLayers * s.nFreq, 2] := by
      unfold evalShape
      simp only
      rw [rows_eq f, hc, f.target]
      rfl
    have e2 : reshapeTo [s.nx / s.os, s.ny / s.os, s.nLayers, 2 * s.nFreq] [(s.nx / s.os) * (s.ny / s.os) * s.nLayers * s.nFreq, 2] = .ok [s.nx / s.os, s.ny / s.os, s.nLayers, 2 * s.nFreq] := by
      unfold reshapeTo
      rw [if_pos]
      simp only [List.prod_cons, List.prod_nil]
      ring
    have e3 : repeatDim 0 s.os [s.nx / s.os, s.ny / s.os, s.nLayers, 2 * s.nFreq] = .ok [s.nx, s.ny / s.os, s.nLayers, 2 * s.nFreq] := by
      show Except.ok [s.nx / s.os * s.os, _, _, _] = _
      rw [Nat.div_mul_cancel f.divX]
    have e4 : repeatDim 1 s.os [s.nx, s.ny / s.os, s.nLayers, 2 * s.nFreq] = .ok [s.nx, s.ny, s.nLayers, 2 * s.nFreq] := by
      show Except.ok [_, s.ny / s.os * s.os, _, _] = _
      rw [Nat.div_mul_cancel f.divY]
    have e5 : cutLast 0 s.nFreq [s.nx, s.ny, s.nLayers, 2 * s.nFreq] = [s.nx, s.ny, s.nLayers, s.nFreq] := by
      show [s.nx, s.ny, s.nLayers, min s.nFreq (2 * s.nFreq) - 0] = _
      rw [show min s.nFreq (2 * s.nFreq) - 0 = s.nFreq by omega]
    have e6 : cutLast s.nFreq (2 * s.nFreq) [s.nx, s.ny, s.nLayers, 2 * s.nFreq] = [s.nx, s.ny, s.nLayers, s.nFreq] := by
      show [s.nx, s.ny, s.nLayers, min (2 * s.nFreq) (2 * s.nFreq) - s.nFreq] = _
      rw [show min (2 * s.nFreq) (2 * s.nFreq) - s.nFreq = s.nFreq by omega]
    unfold regressionShape
    rw [e1]
    show (reshapeTo _ _ >>= _) = _
    rw [e2, ok_bind, e3, ok_bind, e4, ok_bind, e5]
    show (copyInto [s.nx, s.ny, s.nLayers, s.nFreq] [s.nx, s.ny, s.nLayers, s.nFreq] >>= _) = _
    rw [copyInto_self, ok_bind]
    show copyInto _ (cutLast s.nFreq (2 * s.nFreq) _) = _
    rw [e6, copyInto_self]
  · unfold trcwaAsserts
    rw [if_neg (by rw [f.target]; simp), if_neg (by simp)]
    exact if_pos rfl

/-- the two network classes of a config with four inputs, at the depths at which they evaluate (C42, C74), are such networks -/
theorem C134_networks (outF n hidden : ℕ) (h3 : hidden ≠ 3) (h4 : hidden ≠ 4) (om : ℝ) (w : NetWeights) :
    nerfColumns 4 outF n hidden w 4 = .ok outF ∧ sirenColumns 4 outF n hidden om w 4 = .ok outF := by
  constructor
  · obtain ⟨y, hy, hl, -⟩ := C42_nerf_partial 4 outF n hidden h3 h4 w (List.replicate 4 0) rfl
    unfold nerfColumns
    rw [hy]
    show Except.ok _ = _
    rw [hl]
  · obtain ⟨y, hy, hl, -⟩ := C42_siren 4 outF n hidden om w (List.replicate 4 0) rfl
    unfold sirenColumns
    rw [hy]
    show Except.ok _ = _
    rw [hl]

/-- what the classification does up to the material weights -/
lemma class_steps {s : ShapeCfg} (f : ShapesFit s) (nMat : ℕ) (mats : Dims) {columns : ℕ → Except PyErr ℕ} (hc : columns 4 = .ok nMat) :
    classificationShape s nMat mats (.network columns) =
      (broadcastShapes [s.nx, s.ny, s.nLayers, nMat, 1] mats >>= fun p => dropDim (p.length - 2) p >>= fun eps => .ok (eps, [s.nx, s.ny, s.nLayers, nMat])) := by
  have e1 : evalShape s (.network columns) = .ok [(s.nx / s.os) * (s.ny / s.os) * s.nLayers * s.nFreq, nMat] := by
    unfold evalShape
    simp only
    rw [rows_eq f, hc, f.target]
    rfl
  have e2 : reshapeTo [s.nx / s.os, s.ny / s.os, s.nLayers, s.nFreq, nMat] [(s.nx / s.os) * (s.ny / s.os) * s.nLayers * s.nFreq, nMat] = .ok [s.nx / s.os, s.ny / s.os, s.nLayers, s.nFreq, nMat] := by
    unfold reshapeTo
    rw [if_pos]
    simp only [List.prod_cons, List.prod_nil]
    ring
  have e3 : repeatDim 0 s.os [s.nx / s.os, s.ny / s.os, s.nLayers, s.nFreq, nMat] = .ok [s.nx, s.ny / s.os, s.nLayers, s.nFreq, nMat] := by
    show Except.ok [s.nx / s.os * s.os, _, _, _, _] = _
    rw [Nat.div_mul_cancel f.divX]
  have e4 : repeatDim 1 s.os [s.nx, s.ny / s.os, s.nLayers, s.nFreq, nMat] = .ok [s.nx, s.ny, s.nLayers, s.nFreq, nMat] := by
    show Except.ok [_, s.ny / s.os * s.os, _, _, _] = _
    rw [Nat.div_mul_cancel f.divY]
  have e5 : dropDim 3 [s.nx, s.ny, s.nLayers, s.nFreq, nMat] = .ok [s.nx, s.ny, s.nLayers, nMat] := rfl
  unfold classificationShape
  rw [e1, ok_bind, e2, ok_bind, e3, ok_bind, e4, ok_bind, e5, ok_bind]
  rfl

/-- C134, classification (missing: configs with one frequency and several materials, see `C134_single_false`): with at least two frequencies, or a single material, the permittivity grid of an accepted config has the
shape `Nx × Ny × N_layers × N_freq`, the material weights `Nx × Ny × N_layers × N_materials`, and the RCWA solver takes the grid. -/
theorem C134_classification_partial (c : Cfg) (h : validateConfig c = .ok ()) (nMat : ℕ) (hM : 1 ≤ nMat) : ∃ s, ShapesOf c s ∧
    (2 ≤ s.nFreq ∨ nMat = 1 → ∀ columns : ℕ → Except PyErr ℕ, columns 4 = .ok nMat →
      classificationShape s nMat (matsShape nMat s.nFreq) (.network columns) = .ok ([s.nx, s.ny, s.nLayers, s.nFreq], [s.nx, s.ny, s.nLayers, nMat]) ∧
      trcwaAsserts s [s.nx, s.ny, s.nLayers, s.nFreq] = .ok ()) := by
  obtain ⟨s, hs, f⟩ := accepted_shapes h
  refine ⟨s, hs, fun hF columns hc => ⟨?_, ?_⟩⟩
  · have eb : broadcastShapes [s.nx, s.ny, s.nLayers, nMat, 1] (matsShape nMat s.nFreq) = .ok [s.nx, s.ny, s.nLayers, nMat, s.nFreq] := by
      by_cases h1 : s.nFreq = 1
      · have hm : nMat = 1 := by omega
        subst hm
        rw [h1]
        rfl
      have pF := f.nFreq
      have j1 : joinAxis 1 s.nFreq = .ok s.nFreq := by
        unfold joinAxis
        rw [if_neg (by omega), if_pos rfl]
      have j2 : joinAxis nMat nMat = .ok nMat := if_pos rfl
      by_cases hm : nMat = 1
      · have em : matsShape nMat s.nFreq = [s.nFreq] := by
          unfold matsShape squeezeShape
          rw [hm, List.filter_cons_of_neg (by simp), List.filter_cons_of_pos (by simp; omega)]
          rfl
        have : joinRev [1, nMat, s.nLayers, s.ny, s.nx] [s.nFreq] = .ok [s.nFreq, nMat, s.nLayers, s.ny, s.nx] := by
          rw [joinRev, j1]
          rfl
        unfold broadcastShapes
        rw [em, show [s.nx, s.ny, s.nLayers, nMat, 1].reverse = [1, nMat, s.nLayers, s.ny, s.nx] from rfl, show [s.nFreq].reverse = [s.nFreq] from rfl, this]
        rfl
      · have em : matsShape nMat s.nFreq = [nMat, s.nFreq] := by
          unfold matsShape squeezeShape
          rw [List.filter_cons_of_pos (by simp; omega), List.filter_cons_of_pos (by simp; omega)]
          rfl
        have : joinRev [1, nMat, s.nLayers, s.ny, s.nx] [s.nFreq, nMat] = .ok [s.nFreq, nMat, s.nLayers, s.ny, s.nx] := by
          rw [joinRev, j1, joinRev, j2]
          rfl
        unfold broadcastShapes
        rw [em, show [s.nx, s.ny, s.nLayers, nMat, 1].reverse = [1, nMat, s.nLayers, s.ny, s.nx] from rfl, show [nMat, s.nFreq].reverse = [s.nFreq, nMat] from rfl, this]
        rfl
    rw [class_steps f nMat _ hc, eb, ok_bind]
    rfl
  · unfold trcwaAsserts
    rw [if_neg (by rw [f.target]; simp), if_neg (by simp)]
    exact if_pos rfl

/-- C134: with one frequency a classification of at least two materials gives a grid with one slice per material in place of one per frequency, for every accepted config; the RCWA solver stops with an AssertionError. -/
theorem C134_single_false (c : Cfg) (h : validateConfig c = .ok ()) (nMat : ℕ) (hM : 2 ≤ nMat) (hF : SetTo c "N_freq" 1) : ∃ s, ShapesOf c s ∧
    ∀ columns : ℕ → Except PyErr ℕ, columns 4 = .ok nMat →
      classificationShape s nMat (matsShape nMat s.nFreq) (.network columns) = .ok ([s.nx, s.ny, s.nLayers, nMat], [s.nx, s.ny, s.nLayers, nMat]) ∧
      trcwaAsserts s [s.nx, s.ny, s.nLayers, nMat] = .error .assertionError := by
  obtain ⟨s, hs, f⟩ := accepted_shapes h
  have h1 : s.nFreq = 1 := by exact_mod_cast setTo_only hs.nFreq hF
  refine ⟨s, hs, fun columns hc => ⟨?_, ?_⟩⟩
  · have em : matsShape nMat s.nFreq = [nMat] := by
      unfold matsShape squeezeShape
      rw [List.filter_cons_of_pos (by simp; omega), h1]
      rfl
    have eb : broadcastShapes [s.nx, s.ny, s.nLayers, nMat, 1] [nMat] = .ok [s.nx, s.ny, s.nLayers, nMat, nMat] := by
      have j1 : joinAxis 1 nMat = .ok nMat := by
        unfold joinAxis
        rw [if_neg (by omega), if_pos rfl]
      have : joinRev [1, nMat, s.nLayers, s.ny, s.nx] [nMat] = .ok [nMat, nMat, s.nLayers, s.ny, s.nx] := by
        rw [joinRev, j1]
        rfl
      unfold broadcastShapes
      rw [show [s.nx, s.ny, s.nLayers, nMat, 1].reverse = [1, nMat, s.nLayers, s.ny, s.nx] from rfl, show [nMat].reverse = [nMat] from rfl, this]
      rfl
    rw [class_steps f nMat _ hc, em, eb, ok_bind]
    rfl
  · unfold trcwaAsserts
    rw [if_neg (by rw [f.target]; simp), if_neg (by simp), if_neg]
    rw [h1]
    intro hh
    simp only [List.take_succ_cons, List.take_zero, List.cons.injEq, true_and, and_true] at hh
    omega

/-- C134: a nerf with three hidden layers has four columns too many, and the output cannot be reshaped: every accepted regression config fails. -/
theorem C134_depth_false (c : Cfg) (h : validateConfig c = .ok ()) (n : ℕ) (w : NetWeights) : ∃ s, ShapesOf c s ∧
    regressionShape s (.network (nerfColumns 4 2 n 3 w)) = .error .runtimeError := by
  obtain ⟨s, hs, f⟩ := accepted_shapes h
  refine ⟨s, hs, ?_⟩
  obtain ⟨y, hy, hl⟩ := C42_nerf_depth3_false 4 2 n w (List.replicate 4 0) rfl
  have hc : nerfColumns 4 2 n 3 w 4 = .ok 6 := by
    unfold nerfColumns
    rw [hy]
    show Except.ok _ = _
    rw [List.length_append, hl]
    rfl
  have e1 : evalShape s (.network (nerfColumns 4 2 n 3 w)) = .ok [(s.nx / s.os) * (s.ny / s.os) * s.nLayers * s.nFreq, 6] := by
    unfold evalShape
    simp only
    rw [rows_eq f, hc, f.target]
    rfl
  have e2 : reshapeTo [s.nx / s.os, s.ny / s.os, s.nLayers, 2 * s.nFreq] [(s.nx / s.os) * (s.ny / s.os) * s.nLayers * s.nFreq, 6] = .error .runtimeError := by
    unfold reshapeTo
    rw [if_neg]
    simp only [List.prod_cons, List.prod_nil]
    have p1 : 0 < s.nx / s.os := Nat.div_pos (Nat.le_of_dvd f.nx f.divX) f.os
    have p2 : 0 < s.ny / s.os := Nat.div_pos (Nat.le_of_dvd f.ny f.divY) f.os
    have p : 0 < (s.nx / s.os) * (s.ny / s.os) * s.nLayers * s.nFreq := Nat.mul_pos (Nat.mul_pos (Nat.mul_pos p1 p2) f.nLayers) f.nFreq
    intro hh
    have : (s.nx / s.os) * (s.ny / s.os) * s.nLayers * s.nFreq * 6 = (s.nx / s.os) * (s.ny / s.os) * s.nLayers * s.nFreq * 2 := by
      rw [show (s.nx / s.os) * (s.ny / s.os) * s.nLayers * s.nFreq * 6 = (s.nx / s.os) * (s.ny / s.os) * s.nLayers * s.nFreq * (6 * 1) by ring, hh]
      ring
    omega
  unfold regressionShape
  rw [e1]
  show (reshapeTo _ _ >>= _) = _
  rw [e2]
  rfl

/-- the default config is accepted; with two-fold oversampling a config of 4 × 6 cells, two layers and three frequencies -/
example : validateConfig defaultConfig = .ok () ∧
    regressionShape ⟨4, 6, 2, 3, 2, 1, 3⟩ (.network fun _ => .ok 2) = .ok [4, 6, 2, 3] ∧ regressionShape ⟨4, 6, 2, 3, 2, 2, 3⟩ (.network fun _ => .ok 2) = .ok [4, 6, 2, 3] ∧
    classificationShape ⟨4, 6, 2, 3, 2, 2, 3⟩ 5 (matsShape 5 3) (.network fun _ => .ok 5) = .ok ([4, 6, 2, 3], [4, 6, 2, 5]) :=
  ⟨default_config_accepted, by decide +kernel, by decide +kernel, by decide +kernel⟩

/-- a config with one frequency is accepted -/
example : validateConfig (defaultConfig.set "N_freq" (.int 1)) = .ok () ∧ SetTo (defaultConfig.set "N_freq" (.int 1)) "N_freq" 1 :=
  ⟨by decide +kernel, ⟨.int 1, rfl, by simpa using Denotes.int 1⟩⟩

end Nidn
