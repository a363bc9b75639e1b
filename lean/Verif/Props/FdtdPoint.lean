/-
C90: point sources in the FDTD solver.
-/
import Verif.Props.FdtdStack
import Verif.Props.FdtdPlane

namespace Nidn

/-- y cell of the source -/
noncomputable def sourceRow (c : FdtdCfg) (s : ℝ) : ℤ := pyTrunc (c.source[1]?.getD 0 * s)

/-- a well-formed geometry with at least one PML cell and a point source whose x cell is inside the grid -/
structure PointSetup (c : FdtdCfg) (s : ℝ) : Prop where
  geometry : GoodGeometry c s
  pml : 1 ≤ pmlCells c s
  point : c.sourceType = "point"
  pulse : c.pulse = "continuous" ∨ c.pulse = "hanning" ∨ c.pulse = "ricker"
  source : 2 ≤ c.source.length
  sourceLow : 0 ≤ sourceCell c s
  sourceHigh : sourceCell c s < xSize c s

/-- everything `init_fdtd` does before the source is placed -/
lemma initFdtd_point (c : FdtdCfg) (s : ℝ) (h : PointSetup c s) (wl : ℝ) :
    ∃ g bs t r, ∀ layers, initFdtd c s layers wl =
      ((placePointSource ![(xSize c s).toNat, 3, 1] (.list [sourceCell c s]) (.list [sourceRow c s]) (.list [0])).map fun cell =>
        (⟨.soft fun q => addEz (fun _ _ => 0) cell (signalValue (pointSignal g (simSpec wl c.pulse)) q), pointSignal g (simSpec wl c.pulse)⟩ : PlacedSource)) >>= fun src =>
      addStack c s g ![(xSize c s).toNat, 3, 1] wl ⟨fun _ _ => 1 / 1, fun _ _ => 0⟩ layers >>= fun m =>
        .ok ⟨g, { FGrid.fresh ![(xSize c s).toNat, 3, 1] g.courant 1 1 with invEps := m.invEps, absorb := m.absorb, boundaries := bs, sources := [src.src], detectors := [t, r] }, src.signal⟩ := by
  have hN := xSize_toNat c s h.geometry
  obtain ⟨-, -, -, -, -, hp0, hpr, htx, -, hti⟩ := C59_detectors_partial c s h.geometry
  have hti := hti h.pml
  have hgap := h.geometry.gap
  obtain ⟨l, hl, hll, hin⟩ : ∃ l : List (ℤ × ℤ), layerRanges c s c.thick.length = .ok l ∧ l.length = c.thick.length ∧
      ∀ r ∈ l, pmlCells c s < r.1 ∧ r.1 ≤ r.2 ∧ r.2 ≤ tDetectorX c s - c.gap ∧ r.2 < xSize c s - pmlCells c s := by
    obtain ⟨l, a, b, -, -, -, -, d⟩ := C59_layers_partial c s h.geometry
    exact ⟨l, a, b, d⟩
  have hrt : rDetectorX c s < tDetectorX c s := by
    obtain ⟨l', a, b, -⟩ := C59_detectors_partial c s h.geometry
    rw [hl] at a
    cases a
    have hpos : 0 < l.length := by rw [hll]; exact List.length_pos_iff.2 h.geometry.layers
    have hb := b _ (List.getElem_mem hpos)
    have hi := hin _ (List.getElem_mem hpos)
    omega
  obtain ⟨g, hg, hshape, hspac⟩ := gridInit_ok (xSize c s) (by omega) (UNIT_MAGNITUDE / s)
  have ht : placeDetector ![(xSize c s).toNat, 3, 1] (tDetectorX c s) = .ok ⟨crossCells (tDetectorX c s), [], []⟩ := by
    have := placeDetector_ok (xSize c s).toNat (tDetectorX c s).toNat (by omega)
    rw [Int.toNat_of_nonneg (by omega)] at this
    exact this
  have hr : placeDetector ![(xSize c s).toNat, 3, 1] (rDetectorX c s) = .ok ⟨crossCells (rDetectorX c s), [], []⟩ := by
    have := placeDetector_ok (xSize c s).toNat (rDetectorX c s).toNat (by omega)
    rw [Int.toNat_of_nonneg (by omega)] at this
    exact this
  have hxy : sourceXY c s = .ok (sourceCell c s, sourceRow c s) := by
    have hs := h.source
    unfold sourceXY sourceCell sourceRow
    rw [List.getElem?_eq_getElem (show 0 < c.source.length by omega), List.getElem?_eq_getElem (show 1 < c.source.length by omega)]
    rfl
  refine ⟨g, [.pml (mkPml 0 false (pmlCells c s).toNat 1e-8 g.courant), .pml (mkPml 0 true (pmlCells c s).toNat 1e-8 g.courant), .periodic 1],
    ⟨crossCells (tDetectorX c s), [], []⟩, ⟨crossCells (rDetectorX c s), [], []⟩, fun layers => ?_⟩
  unfold initFdtd
  rw [hg, ok_bind, placeBoundaries_ok _ _ h.pml, ok_bind, ht, ok_bind, hr, ok_bind, hxy, ok_bind]
  have hsrc : placeSource g ![(xSize c s).toNat, 3, 1] (sourceCell c s, sourceRow c s).1 (sourceCell c s, sourceRow c s).2 wl c.pulse c.sourceType =
      (placePointSource ![(xSize c s).toNat, 3, 1] (.list [sourceCell c s]) (.list [sourceRow c s]) (.list [0])).map fun cell =>
        (⟨.soft fun q => addEz (fun _ _ => 0) cell (signalValue (pointSignal g (simSpec wl c.pulse)) q), pointSignal g (simSpec wl c.pulse)⟩ : PlacedSource) := by
    unfold placeSource
    rw [if_neg (not_not.2 h.pulse), h.point, if_pos rfl]
  rw [hsrc]

/-- C90: a point source whose y coordinate falls into one of the three rows of the simulated grid drives, in every step, E along z of exactly the configured cell. Missing: all other y coordinates (C90_row_false). -/
theorem C90_cell_partial (c : FdtdCfg) (s : ℝ) (h : PointSetup c s) (wl : ℝ) (eps : List ℂ) (hlen : eps.length = c.thick.length) (hrow : 0 ≤ sourceRow c s ∧ sourceRow c s < 3)
    (layers : Option (List ℂ)) (hl : layers = none ∨ layers = some eps) :
    ∃ sim drive, initFdtd c s layers wl = .ok sim ∧ sim.grid.sources = [.soft drive] ∧
      ∀ q p k, drive q p k ≠ 0 → (p 0 : ℤ) = sourceCell c s ∧ (p 1 : ℤ) = sourceRow c s ∧ p 2 = 0 ∧ k = 2 := by
  obtain ⟨g, bs, t, r, H⟩ := initFdtd_point c s h wl
  have hlow := h.sourceLow
  have hhigh := h.sourceHigh
  have hcell := placePoint_ok ![(xSize c s).toNat, 3, 1] (sourceCell c s) (sourceRow c s) 0 ![(sourceCell c s).toNat, (sourceRow c s).toNat, 0]
    (show indexSelects (xSize c s).toNat (sourceCell c s) (sourceCell c s).toNat by unfold indexSelects; omega)
    (show indexSelects 3 (sourceRow c s) (sourceRow c s).toNat by unfold indexSelects; omega) (show indexSelects 1 0 0 by unfold indexSelects; decide)
  obtain ⟨m, hm⟩ : ∃ m, addStack c s g ![(xSize c s).toNat, 3, 1] wl ⟨fun _ _ => 1 / 1, fun _ _ => 0⟩ layers = .ok m := by
    rcases hl with rfl | rfl
    · exact ⟨_, rfl⟩
    · obtain ⟨l, m, -, -, hm, -⟩ := C59_material_partial c s h.geometry g wl eps hlen
      exact ⟨m, hm⟩
  have hinit := H layers
  rw [hcell] at hinit
  rw [show ((Except.ok (ε := PyErr) ![(sourceCell c s).toNat, (sourceRow c s).toNat, 0]).map fun cell =>
      (⟨.soft fun q => addEz (fun _ _ => 0) cell (signalValue (pointSignal g (simSpec wl c.pulse)) q), pointSignal g (simSpec wl c.pulse)⟩ : PlacedSource)) = .ok _ from rfl,
    ok_bind, hm, ok_bind] at hinit
  refine ⟨_, _, hinit, rfl, ?_⟩
  · intro q p k hne
    have hne' : addEz (fun _ _ => 0) ![(sourceCell c s).toNat, (sourceRow c s).toNat, 0] (signalValue (pointSignal g (simSpec wl c.pulse)) q) p k ≠ 0 := hne
    unfold addEz at hne'
    by_cases hp : p = ![(sourceCell c s).toNat, (sourceRow c s).toNat, 0] ∧ k = 2
    · obtain ⟨rfl, rfl⟩ := hp
      refine ⟨?_, ?_, rfl, rfl⟩
      · show ((sourceCell c s).toNat : ℤ) = _
        omega
      · show ((sourceRow c s).toNat : ℤ) = _
        omega
    · rw [if_neg hp] at hne'
      exact absurd rfl hne'

/-- C90: with the y coordinate outside of the three rows every simulation fails with an IndexError. -/
theorem C90_row_fails (c : FdtdCfg) (s : ℝ) (h : PointSetup c s) (wl : ℝ) (hrow : sourceRow c s < -3 ∨ 3 ≤ sourceRow c s) (layers : Option (List ℂ)) :
    initFdtd c s layers wl = .error .indexError := by
  obtain ⟨g, bs, t, r, H⟩ := initFdtd_point c s h wl
  have hlow := h.sourceLow
  have hhigh := h.sourceHigh
  have : placePointSource ![(xSize c s).toNat, 3, 1] (.list [sourceCell c s]) (.list [sourceRow c s]) (.list [0]) = .error .indexError := by
    show torchCell ![(xSize c s).toNat, 3, 1] (sourceCell c s, sourceRow c s, 0) = _
    unfold torchCell
    have h1 : torchIndex (![(xSize c s).toNat, 3, 1] 0) (sourceCell c s) = .ok (sourceCell c s).toNat := by
      show torchIndex (xSize c s).toNat (sourceCell c s) = _
      exact torchIndex_selects (by unfold indexSelects; omega)
    have h2 : torchIndex (![(xSize c s).toNat, 3, 1] 1) (sourceRow c s) = .error .indexError := by
      show torchIndex 3 (sourceRow c s) = _
      unfold torchIndex
      rw [if_neg (by omega), if_neg (by omega)]
    rw [h1, ok_bind, h2, error_bind]
  rw [H, this]
  rfl

/-- what the solver reads from the default config with a point source -/
noncomputable def fdtdDefaultPoint (y : ℝ) : FdtdCfg := { fdtdDefaultWith (3 / 2) 2 (List.replicate 8 1) with sourceType := "point", source := [3 / 2, y] }

lemma defaultPoint_setup (y : ℝ) : PointSetup (fdtdDefaultPoint y) 10 := by
  have e : expandThick (fdtdDefaultWith (3 / 2) 2 [1]) = fdtdDefaultWith (3 / 2) 2 (List.replicate 8 1) := rfl
  have d := default_setup
  rw [e] at d
  exact ⟨⟨d.geometry.1, d.geometry.2, d.geometry.3, d.geometry.4, d.geometry.5, d.geometry.6, d.geometry.7⟩, d.pml, rfl, d.pulse, le_refl 2, d.sourceLow, d.sourceHigh⟩

/-- the hypotheses of C90_cell_partial are met with the source at y = 0.1 -/
example : PointSetup (fdtdDefaultPoint (1 / 10)) 10 ∧ sourceRow (fdtdDefaultPoint (1 / 10)) 10 = 1 :=
  ⟨defaultPoint_setup _, by
    unfold sourceRow fdtdDefaultPoint
    rw [show (([3 / 2, 1 / 10] : List ℝ)[1]?.getD 0) * 10 = ((1 : ℤ) : ℝ) by norm_num]
    unfold pyTrunc
    norm_num⟩

/-- C90 is false: the default config with the FDTD solver and a point source is accepted, and every simulation then fails with an IndexError. -/
theorem C90_row_false :
    ∃ c f, validateConfig c = .ok () ∧ c.lookup "FDTD_source_type" = some (.str "point") ∧ ReadsAs c f ∧ gridScaling f.freq.wlMin f.minGp = .ok 10 ∧
      ∀ layers wl, initFdtd (expandThick f) 10 layers wl = .error .indexError := by
  refine ⟨fdtdDefault.set "FDTD_source_type" (.str "point"), { fdtdDefaultWith (3 / 2) 2 [1] with sourceType := "point" }, by decide +kernel, rfl, ?_, scaling_default, fun layers wl => ?_⟩
  · exact ⟨fdtdDefault_reads.wavelengths, fdtdDefault_reads.nFreq, rfl, fdtdDefault_reads.minGp, fdtdDefault_reads.pml, fdtdDefault_reads.free, fdtdDefault_reads.thick,
      fdtdDefault_reads.nLayers, fdtdDefault_reads.gap, fdtdDefault_reads.source, rfl, rfl, fdtdDefault_reads.niter⟩
  · refine C90_row_fails (fdtdDefaultPoint 1) 10 (defaultPoint_setup 1) wl (Or.inr ?_) layers
    unfold sourceRow fdtdDefaultPoint
    rw [show (([3 / 2, 1] : List ℝ)[1]?.getD 0) * 10 = ((10 : ℤ) : ℝ) by norm_num]
    unfold pyTrunc
    norm_num

end Nidn
