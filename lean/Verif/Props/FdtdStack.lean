/-
C59, C66, C67: the FDTD solver from the permittivity tensor to the spectra.
-/
import Verif.Props.FdtdLayout
import Verif.Props.FdtdScaling
import Verif.Props.FdtdSignals
import Verif.Props.FdtdGrid

set_option linter.unusedSectionVars false

namespace Nidn

/-! ### C59 the materials in the grid -/

/-- the cells a layer gets -/
def inRange (r : ℤ × ℤ) (x : ℕ) : Prop := r.1 ≤ x ∧ (x : ℤ) < r.2

/-- keys of `_add_object` are well formed -/
lemma layerKey (N : ℕ) (r : ℤ × ℤ) (h0 : 0 ≤ r.1) (h1 : r.1 ≤ r.2) (h2 : r.2 ≤ N) :
    ∀ a, ObjectKey ((![N, 3, 1] : Pos) a) ((![sl (some r.1) (some r.2), .slice fullSlice, .slice fullSlice] : Fin 3 → AxisKey) a) := by
  intro a
  fin_cases a
  · refine ⟨Or.inl rfl, ?_, ?_, ?_⟩
    · rintro x ⟨⟩; show -(N : ℤ) ≤ _ ∧ _ ≤ (N : ℤ); omega
    · rintro x ⟨⟩; show -(N : ℤ) ≤ _ ∧ _ ≤ (N : ℤ); omega
    · show sliceBound N 0 (some r.1) ≤ sliceBound N N (some r.2)
      simp only [sliceBound]
      rw [if_neg (by omega), if_neg (by omega)]
      omega
  · refine ⟨Or.inl rfl, ?_, ?_, ?_⟩
    · rintro x ⟨⟩
    · rintro x ⟨⟩
    · show (0 : ℤ) ≤ (3 : ℕ)
      decide
  · refine ⟨Or.inl rfl, ?_, ?_, ?_⟩
    · rintro x ⟨⟩
    · rintro x ⟨⟩
    · show (0 : ℤ) ≤ (1 : ℕ)
      decide

lemma layer_addressed (N : ℕ) (r : ℤ × ℤ) (h0 : 0 ≤ r.1) (h1 : r.1 ≤ r.2) (h2 : r.2 ≤ N) (p : Pos) (hy : p 1 < 3) (hz : p 2 < 1) :
    addressed ![N, 3, 1] ![sl (some r.1) (some r.2), .slice fullSlice, .slice fullSlice] p ↔ inRange r (p 0) := by
  have hx : keySelects N (sl (some r.1) (some r.2)) (p 0) ↔ inRange r (p 0) := by
    show sliceBound N 0 (some r.1) ≤ _ ∧ _ < sliceBound N N (some r.2) ↔ _
    simp only [sliceBound, inRange]
    rw [if_neg (by omega), if_neg (by omega)]
    omega
  constructor
  · intro h
    exact hx.1 (h 0)
  · intro h a
    fin_cases a
    · exact hx.2 h
    · show (0 : ℤ) ≤ p 1 ∧ (p 1 : ℤ) < (3 : ℕ)
      omega
    · show (0 : ℤ) ≤ p 2 ∧ (p 2 : ℤ) < (1 : ℕ)
      omega

lemma not_topPlane_z (N : ℕ) (k0 k1 : AxisKey) (p : Pos) : ¬ topPlane ![N, 3, 1] ![k0, k1, .slice fullSlice] 2 p := by
  rintro ⟨h1, -, j, hj, h2⟩
  have h1' : (0 : ℤ) ≤ p 2 ∧ (p 2 : ℤ) < (1 : ℕ) := h1
  have h2' : (0 : ℤ) ≤ j ∧ (j : ℤ) < (1 : ℕ) := h2
  omega

/-- conductivity a layer gets -/
noncomputable def layerCond (wl : ℝ) (eps : ℂ) : ℝ := eps.im * (SPEED_OF_LIGHT / wl) * 2 * Real.pi * EPS_0

lemma addLayers_spec (g : GridNumbers) (N : ℕ) (wl : ℝ) : ∀ (L : List ((ℤ × ℤ) × ℂ)) (m : Materials ℝ),
    (∀ e ∈ L, 0 ≤ e.1.1 ∧ e.1.1 ≤ e.1.2 ∧ e.1.2 ≤ N) →
    ∃ m', addLayers g ![N, 3, 1] wl m L = .ok m' ∧ ∀ p : Pos, p 1 < 3 → p 2 < 1 →
      ((∀ e ∈ L, ¬ inRange e.1 (p 0)) → m'.invEps p 2 = m.invEps p 2 ∧ m'.absorb p 2 = m.absorb p 2) ∧
      ∀ (i : ℕ) (e : (ℤ × ℤ) × ℂ), L[i]? = some e → inRange e.1 (p 0) → (∀ (j : ℕ) (e' : (ℤ × ℤ) × ℂ), i < j → L[j]? = some e' → ¬ inRange e'.1 (p 0)) →
        m'.invEps p 2 = 1 / e.2.re ∧ m'.absorb p 2 = 1 / 2 * g.courant * (1 / e.2.re) * layerCond wl e.2 * g.spacing * ETA_0 := by
  intro L
  induction L with
  | nil =>
    intro m _
    refine ⟨m, rfl, fun p _ _ => ⟨fun _ => ⟨rfl, rfl⟩, fun i e h => by simp at h⟩⟩
  | cons e L ih =>
    intro m hL
    obtain ⟨r, eps⟩ := e
    obtain ⟨h0, h1, h2⟩ := hL _ (List.mem_cons_self ..)
    obtain ⟨m1, hm1, hout, hin, -, hab, -⟩ := C54_inside ![N, 3, 1] g.courant g.spacing ETA_0 m ⟨eps.re, some (layerCond wl eps)⟩
      ![sl (some r.1) (some r.2), .slice fullSlice, .slice fullSlice] (layerKey N r h0 h1 h2) rfl
    obtain ⟨m', hm', H⟩ := ih m1 fun e he => hL e (List.mem_cons_of_mem _ he)
    refine ⟨m', ?_, fun p hy hz => ?_⟩
    · unfold addLayers
      have : addLayer g ![N, 3, 1] wl m r eps = .ok m1 := hm1
      rw [this]
      exact hm'
    · have had := layer_addressed N r h0 h1 h2 p hy hz
      obtain ⟨H1, H2⟩ := H p hy hz
      constructor
      · intro hno
        have hnr : ¬ inRange r (p 0) := hno _ (List.mem_cons_self ..)
        obtain ⟨a, b⟩ := H1 fun e he => hno e (List.mem_cons_of_mem _ he)
        obtain ⟨a', b'⟩ := hout p 2 (mt had.1 hnr)
        exact ⟨a.trans a', b.trans b'⟩
      · intro i e hi hr hlater
        cases i with
        | zero =>
          simp only [List.getElem?_cons_zero, Option.some.injEq] at hi
          subst hi
          obtain ⟨a, b⟩ := H1 fun e he hin => by
            obtain ⟨j, hj⟩ := List.mem_iff_getElem?.1 he
            exact hlater (j + 1) e (Nat.succ_pos j) (by rw [List.getElem?_cons_succ]; exact hj) hin
          have hp := had.2 hr
          have hi' := hin p 2 hp (not_topPlane_z N _ _ p)
          refine ⟨a.trans hi', ?_⟩
          rw [b, hab _ rfl p 2 hp, hi']
        | succ i =>
          rw [List.getElem?_cons_succ] at hi
          exact H2 i e hi hr fun j e' hij hj => hlater (j + 1) e' (by omega) (by rw [List.getElem?_cons_succ]; exact hj)

lemma xSize_toNat (c : FdtdCfg) (s : ℝ) (g : GoodGeometry c s) : ((xSize c s).toNat : ℤ) = xSize c s := by
  apply Int.toNat_of_nonneg
  have h0 : 0 ≤ c.thick.sum := List.sum_nonneg fun x hx => (g.thick x hx).le
  have := g.scaling
  have := g.pml
  have := g.free
  unfold xSize
  rw [pyTrunc_of_nonneg (by positivity)]
  exact Int.floor_nonneg.2 (by positivity)

/-- C59: in every well-formed geometry the simulated grid has in every cell of layer `i` the permittivity (field component the source excites) and absorption of layer `i`, and vacuum in all other cells. -/
theorem C59_material_partial (c : FdtdCfg) (s : ℝ) (gg : GoodGeometry c s) (g : GridNumbers) (wl : ℝ) (eps : List ℂ) (hlen : eps.length = c.thick.length) :
    ∃ (l : List (ℤ × ℤ)) (m : Materials ℝ), layerRanges c s eps.length = .ok l ∧ l.length = eps.length ∧
      addStack c s g ![(xSize c s).toNat, 3, 1] wl ⟨fun _ _ => 1 / 1, fun _ _ => 0⟩ (some eps) = .ok m ∧
      ∀ p : Pos, p 1 < 3 → p 2 < 1 →
        (∀ (i : ℕ) (r : ℤ × ℤ) (e : ℂ), l[i]? = some r → eps[i]? = some e → inRange r (p 0) →
          m.invEps p 2 = 1 / e.re ∧ m.absorb p 2 = 1 / 2 * g.courant * (1 / e.re) * layerCond wl e * g.spacing * ETA_0) ∧
        ((∀ r ∈ l, ¬ inRange r (p 0)) → m.invEps p 2 = 1 ∧ m.absorb p 2 = 0) := by
  obtain ⟨l, hl, hll, -, -, -, hord, hin⟩ := C59_layers_partial c s gg
  have hN := xSize_toNat c s gg
  have hP : 0 ≤ pmlCells c s := by
    obtain ⟨_, _, _, _, _, h, _⟩ := C59_detectors_partial c s gg
    exact h
  have hb : ∀ e ∈ l.zip eps, 0 ≤ e.1.1 ∧ e.1.1 ≤ e.1.2 ∧ e.1.2 ≤ ((xSize c s).toNat : ℤ) := by
    rintro ⟨r, e⟩ he
    obtain ⟨a, b, -, d⟩ := hin r (List.of_mem_zip he).1
    simp only
    omega
  obtain ⟨m, hm, H⟩ := addLayers_spec g (xSize c s).toNat wl (l.zip eps) ⟨fun _ _ => 1 / 1, fun _ _ => 0⟩ hb
  refine ⟨l, m, by rw [hlen]; exact hl, by rw [hlen]; exact hll, ?_, fun p hy hz => ⟨fun i r e hi he hr => ?_, fun hno => ?_⟩⟩
  · show (layerRanges c s eps.length >>= fun ranges => addLayers g ![(xSize c s).toNat, 3, 1] wl ⟨fun _ _ => 1 / 1, fun _ _ => 0⟩ (ranges.zip eps)) = _
    rw [hlen, hl]
    exact hm
  · refine (H p hy hz).2 i (r, e) (by rw [List.getElem?_zip_eq_some]; exact ⟨hi, he⟩) hr fun j e' hij hj hr' => ?_
    have hj' := (List.getElem?_zip_eq_some.1 hj).1
    have := hord i j r e'.1 hij hi hj'
    unfold inRange at hr hr'
    omega
  · obtain ⟨a, b⟩ := (H p hy hz).1 fun e he => hno e.1 (List.of_mem_zip (by exact he)).1
    exact ⟨by rw [a]; norm_num, b⟩

/-! ### the simulation as a whole -/

lemma placeDetector_ok (N x : ℕ) (hx : x < N) : placeDetector ![N, 3, 1] x = .ok ⟨[![x, 0, 0], ![x, 1, 0], ![x, 2, 0]], [], []⟩ := by
  obtain ⟨l, h1, h2⟩ := C56_line 0 ![N, 3, 1] x hx (show 1 ≤ 3 by decide) (show 0 ≤ 3 by decide) (show 1 ≤ 1 by decide)
  unfold placeDetector
  have h1' : lineDetectorIndices ![N, 3, 1] (.list [(x : ℤ)]) (.slice fullSlice) (.list [0]) = .ok l := h1
  rw [h1', ok_bind, h2]
  rfl

lemma placeBoundaries_ok (courant : ℝ) (P : ℤ) (hP : 1 ≤ P) :
    placeBoundaries courant P = .ok [.pml (mkPml 0 false P.toNat 1e-8 courant), .pml (mkPml 0 true P.toNat 1e-8 courant), .periodic 1] := by
  have e0 : pmlEdge ⟨some 0, some P, none⟩ = some (false, P) := if_pos ⟨rfl, by omega⟩
  have e1 : pmlEdge ⟨some (-P), none, none⟩ = some (true, P) := by
    show (if _ then _ else _) = _
    rw [if_pos (by omega), neg_neg]
  have n0 : ("pml_xlow" ∈ gridAttrs) = False := by simp; decide
  have n1 : ("pml_xhigh" ∈ "pml_xlow" :: gridAttrs) = False := by simp; decide
  have n2 : ("ybounds" ∈ "pml_xhigh" :: "pml_xlow" :: gridAttrs) = False := by simp; decide
  have h : placeAll (.fresh gridAttrs) (boundaryProgram P) = (⟨[0, 1, 2], "ybounds" :: "pml_xhigh" :: "pml_xlow" :: gridAttrs,
      (placeAll (.fresh gridAttrs) (boundaryProgram P)).1.side,
      Function.update (Function.update (Function.update (fun _ => .unplaced) 0 (.pmlOn 0 false (some P))) 1 (.pmlOn 0 true (some P))) 2 (.periodicOn 1)⟩, .ok ()) := by
    simp [placeAll, boundaryProgram, registerBoundary, slices3, pmlSlice, sl, ok_bind, registerName, BoundaryState.append, BoundaryState.fresh, n0, n1, n2, placePml,
      firstPmlEdge, e0, e1, BoundaryState.setKind, BoundaryState.setSide, boundarySlice, placePeriodic, firstEdge, atEdge]
  unfold placeBoundaries
  rw [h]
  simp [Except.map, boundaryOf, Function.update]

lemma gridInit_ok (x : ℤ) (hx : 0 ≤ x) (spacing : ℝ) : ∃ g, gridInit [.int x, .int 3, .int 1] spacing none = .ok g ∧ g.shape = (x, 3, 1) ∧ g.spacing = spacing := by
  unfold gridInit
  have h1 : handleTuple spacing [.int x, .int 3, .int 1] = .ok (x, 3, 1) := rfl
  have h2 : gridDims (x, 3, 1) ≠ 0 := by
    unfold gridDims
    simp only
    rw [if_pos (show (1 : ℤ) < 3 by norm_num)]
    omega
  rw [h1, ok_bind]
  unfold maxCourant
  rw [if_neg h2, ok_bind]
  have h3 : chooseCourant ((gridDims (x, 3, 1) : ℝ) ^ (-(1 / 2 : ℝ))) none = .ok (0.99 * (gridDims (x, 3, 1) : ℝ) ^ (-(1 / 2 : ℝ))) := rfl
  rw [h3, ok_bind, if_neg (by simp only; omega)]
  exact ⟨_, rfl, rfl, rfl⟩

/-- x cell of the source -/
noncomputable def sourceCell (c : FdtdCfg) (s : ℝ) : ℤ := pyTrunc (c.source[0]?.getD 0 * s)

/-- a well-formed geometry with at least one PML cell and a line source inside the grid -/
structure LineSetup (c : FdtdCfg) (s : ℝ) : Prop where
  geometry : GoodGeometry c s
  pml : 1 ≤ pmlCells c s
  line : c.sourceType = "line"
  pulse : c.pulse = "continuous" ∨ c.pulse = "hanning" ∨ c.pulse = "ricker"
  source : 2 ≤ c.source.length
  sourceLow : 0 ≤ sourceCell c s
  sourceHigh : sourceCell c s < xSize c s

/-- three cells of a line across the grid -/
def crossCells (x : ℤ) : List Pos := [![x.toNat, 0, 0], ![x.toNat, 1, 0], ![x.toNat, 2, 0]]

/-- the grid `init_fdtd` builds, with given materials and source profile -/
noncomputable def builtGrid (c : FdtdCfg) (s wl : ℝ) (g : GridNumbers) (m : Materials ℝ) (prof : List ℝ) : FGrid ℝ :=
  { FGrid.fresh ![(xSize c s).toNat, 3, 1] g.courant 1 1 with
    invEps := m.invEps
    absorb := m.absorb
    boundaries := [.pml (mkPml 0 false (pmlCells c s).toNat 1e-8 g.courant), .pml (mkPml 0 true (pmlCells c s).toNat 1e-8 g.courant), .periodic 1]
    sources := [.soft fun q => lineUpdateE (crossCells (sourceCell c s)) prof (signalValue (lineSignal g (simSpec wl c.pulse)) q) (fun _ _ => 0)]
    detectors := [⟨crossCells (tDetectorX c s), [], []⟩, ⟨crossCells (rDetectorX c s), [], []⟩] }

lemma initFdtd_line (c : FdtdCfg) (s : ℝ) (h : LineSetup c s) (wl : ℝ) :
    ∃ (g : GridNumbers) (prof : List ℝ), gridInit [.int (xSize c s), .int 3, .int 1] (UNIT_MAGNITUDE / s) none = .ok g ∧
      prof.length = 3 ∧ (prof.sum = 1 ∧ prof[0]? = prof[2]?) ∧ (∀ v ∈ prof, 0 < v) ∧
      ∀ layers m, addStack c s g ![(xSize c s).toNat, 3, 1] wl ⟨fun _ _ => 1 / 1, fun _ _ => 0⟩ layers = .ok m →
        initFdtd c s layers wl = .ok ⟨g, builtGrid c s wl g m prof, lineSignal g (simSpec wl c.pulse)⟩ := by
  have hN := xSize_toNat c s h.geometry
  obtain ⟨-, -, -, -, -, hp0, hpr, htx, -, hti⟩ := C59_detectors_partial c s h.geometry
  have hti := hti h.pml
  have hgap := h.geometry.gap
  obtain ⟨l, hl, hll, hin⟩ : ∃ l : List (ℤ × ℤ), layerRanges c s c.thick.length = .ok l ∧ l.length = c.thick.length ∧
      ∀ r ∈ l, pmlCells c s < r.1 ∧ r.1 ≤ r.2 ∧ r.2 ≤ tDetectorX c s - c.gap ∧ r.2 < xSize c s - pmlCells c s := by
    obtain ⟨l, a, b, -, -, -, -, d⟩ := C59_layers_partial c s h.geometry
    exact ⟨l, a, b, d⟩
  have hrt : rDetectorX c s < tDetectorX c s := by
    obtain ⟨l', a, b, -⟩ := C59_detectors_partial c s h.geometry
    rw [hl] at a
    cases a
    have hpos : 0 < l.length := by rw [hll]; exact List.length_pos_iff.2 h.geometry.layers
    have hb := b _ (List.getElem_mem hpos)
    have hi := hin _ (List.getElem_mem hpos)
    omega
  obtain ⟨g, hg, hshape, hspac⟩ := gridInit_ok (xSize c s) (by omega) (UNIT_MAGNITUDE / s)
  have hsx : (sourceCell c s).toNat < (xSize c s).toNat := by have := h.sourceLow; have := h.sourceHigh; omega
  obtain ⟨prof, hprof, p1, p2, p3, p4⟩ := C57_line ![(xSize c s).toNat, 3, 1] (sourceCell c s).toNat hsx (show 2 ≤ 3 by decide) (show 1 ≤ 1 by decide) (simSpec wl c.pulse) (show (0 : ℝ) < 1 by norm_num)
  refine ⟨g, prof, hg, p1, ⟨p2, by simpa using p4 1 (by show 1 ≤ 3 / 2; norm_num) (by show 3 / 2 + 1 < 3; norm_num)⟩, p3, fun layers m hm => ?_⟩
  have ht : placeDetector ![(xSize c s).toNat, 3, 1] (tDetectorX c s) = .ok ⟨crossCells (tDetectorX c s), [], []⟩ := by
    have := placeDetector_ok (xSize c s).toNat (tDetectorX c s).toNat (by omega)
    rw [Int.toNat_of_nonneg (by omega)] at this
    exact this
  have hr : placeDetector ![(xSize c s).toNat, 3, 1] (rDetectorX c s) = .ok ⟨crossCells (rDetectorX c s), [], []⟩ := by
    have := placeDetector_ok (xSize c s).toNat (rDetectorX c s).toNat (by omega)
    rw [Int.toNat_of_nonneg (by omega)] at this
    exact this
  have hxy : ∃ y, sourceXY c s = .ok (sourceCell c s, y) := by
    have hs := h.source
    unfold sourceXY sourceCell
    rw [List.getElem?_eq_getElem (show 0 < c.source.length by omega), List.getElem?_eq_getElem (show 1 < c.source.length by omega)]
    exact ⟨_, rfl⟩
  obtain ⟨y, hxy⟩ := hxy
  have hsrc : placeSource g ![(xSize c s).toNat, 3, 1] (sourceCell c s) y wl c.pulse c.sourceType =
      .ok ⟨.soft fun q => lineUpdateE (crossCells (sourceCell c s)) prof (signalValue (lineSignal g (simSpec wl c.pulse)) q) (fun _ _ => 0), lineSignal g (simSpec wl c.pulse)⟩ := by
    unfold placeSource
    rw [if_neg (not_not.2 h.pulse), h.line, if_neg (by decide), if_pos rfl]
    have hprof' : placeLineSource ![(xSize c s).toNat, 3, 1] (simSpec wl c.pulse) (.list [sourceCell c s]) (.slice fullSlice) (.list [0]) = .ok (crossCells (sourceCell c s), prof) := by
      have e : (((sourceCell c s).toNat : ℕ) : ℤ) = sourceCell c s := Int.toNat_of_nonneg h.sourceLow
      have := hprof
      unfold crossLine at this
      rw [e] at this
      exact this
    rw [hprof']
    rfl
  unfold initFdtd
  rw [hg, ok_bind, placeBoundaries_ok _ _ h.pml, ok_bind, ht, ok_bind, hr, ok_bind, hxy, ok_bind, hsrc, ok_bind, hm, ok_bind]
  rfl

/-- C59: `init_fdtd` in every well-formed geometry with a line source inside the grid succeeds, for free space as for a permittivity tensor with as many layers as thicknesses, and builds
a grid of three cells across with PMLs of the configured thickness at both ends, the transmission and reflection detector lines at their cells, one normalised source line, and the
layers' materials (`C59_material_partial`). -/
theorem C59_init_partial (c : FdtdCfg) (s : ℝ) (h : LineSetup c s) (wl : ℝ) :
    ∃ (g : GridNumbers) (prof : List ℝ), prof.sum = 1 ∧ (∀ v ∈ prof, 0 < v) ∧
      initFdtd c s none wl = .ok ⟨g, builtGrid c s wl g ⟨fun _ _ => 1 / 1, fun _ _ => 0⟩ prof, lineSignal g (simSpec wl c.pulse)⟩ ∧
      ∀ eps : List ℂ, eps.length = c.thick.length → ∃ m l, layerRanges c s eps.length = .ok l ∧
        initFdtd c s (some eps) wl = .ok ⟨g, builtGrid c s wl g m prof, lineSignal g (simSpec wl c.pulse)⟩ ∧
        ∀ p : Pos, p 1 < 3 → p 2 < 1 →
          (∀ (i : ℕ) (r : ℤ × ℤ) (e : ℂ), l[i]? = some r → eps[i]? = some e → inRange r (p 0) →
            m.invEps p 2 = 1 / e.re ∧ m.absorb p 2 = 1 / 2 * g.courant * (1 / e.re) * layerCond wl e * g.spacing * ETA_0) ∧
          ((∀ r ∈ l, ¬ inRange r (p 0)) → m.invEps p 2 = 1 ∧ m.absorb p 2 = 0) := by
  obtain ⟨g, prof, -, -, ⟨h2, -⟩, h3, H⟩ := initFdtd_line c s h wl
  refine ⟨g, prof, h2, h3, H none _ rfl, fun eps he => ?_⟩
  obtain ⟨l, m, hl, -, hm, hp⟩ := C59_material_partial c s h.geometry g wl eps he
  exact ⟨m, l, hl, H (some eps) m hm, hp⟩

/-- the default config meets the hypotheses -/
lemma default_setup : LineSetup (expandThick (fdtdDefaultWith (3 / 2) 2 [1])) 10 := by
  have e : expandThick (fdtdDefaultWith (3 / 2) 2 [1]) = fdtdDefaultWith (3 / 2) 2 (List.replicate 8 1) := rfl
  have t : ∀ z : ℤ, pyTrunc (z : ℝ) = z := fun z => by unfold pyTrunc; split_ifs <;> simp
  have h1 : pmlCells (expandThick (fdtdDefaultWith (3 / 2) 2 [1])) 10 = 15 := by
    rw [e]
    unfold pmlCells
    rw [show _ * (10 : ℝ) = ((15 : ℤ) : ℝ) by norm_num [fdtdDefaultWith], t]
  have h2 : sourceCell (expandThick (fdtdDefaultWith (3 / 2) 2 [1])) 10 = 15 := by
    rw [e]
    unfold sourceCell
    rw [show _ * (10 : ℝ) = ((15 : ℤ) : ℝ) by norm_num [fdtdDefaultWith], t]
  have h3 : xSize (expandThick (fdtdDefaultWith (3 / 2) 2 [1])) 10 = 130 := by
    rw [e]
    unfold xSize
    rw [show (10 : ℝ) * _ = ((130 : ℤ) : ℝ) by norm_num [fdtdDefaultWith], t]
  exact ⟨default_geometry, by rw [h1]; norm_num, rfl, Or.inl rfl, by rw [e]; simp [fdtdDefaultWith], by rw [h2]; norm_num, by rw [h2, h3]; norm_num⟩

end Nidn
