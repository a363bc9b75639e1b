/-
C156: the forward simulation with the RCWA solver, from the config to the spectra, for layers of several cells.
-/
import Verif.Model.RcwaGrid
import Verif.Props.RcwaEntry
import Verif.Props.ConvSolvable
import Verif.Props.LatticeMax
import Verif.Props.Invariance

namespace Nidn

/-! ### what the user supplies -/

/-- What is asked of `torch.linalg.eig`: the columns are eigenvectors, and they are independent if the matrix has a basis of eigenvectors. -/
def Eigensolver (eig : EigSolver) : Prop :=
  ∀ n M, IsEig M (eig n M).1 (eig n M).2 ∧ ((∃ lam phi, IsEig M lam phi ∧ IsUnit phi.det) → IsUnit (eig n M).2.det)

/-- as `UniformRun`, for `nx` times `ny` cells per layer -/
structure GridRun (c : Cfg) (nx ny nl nf : ℕ) (top bottom : ℝ) : Prop where
  solver : c.lookup "solver" = some (.str "TRCWA")
  nx : SetTo c "Nx" nx
  ny : SetTo c "Ny" ny
  layers : SetTo c "N_layers" nl
  freqs : SetTo c "N_freq" nf
  wavelengths : PositiveWavelengths c
  lattice : ∃ a b d e, LatticeIs c a b d e ∧ ProperCell a b d e
  orders : ∃ z, SetToInt c "TRCWA_NG" z ∧ 2 ≤ z
  top : SetToReal c "TRCWA_TOP_LAYER_EPS" top ∧ 0 < top
  bottom : SetToReal c "TRCWA_BOTTOM_LAYER_EPS" bottom ∧ 0 < bottom

/-- the diffraction orders `sel` and the reciprocal lattice `Lk` that belong to config `c` -/
def OrdersOf (sort : ℕ → ℝ × ℝ → ℝ × ℝ → List (ℤ × ℤ)) (c : Cfg) (Lk : (ℝ × ℝ) × (ℝ × ℝ)) (sel : List (ℤ × ℤ)) : Prop :=
  ∃ a b d e, LatticeIs c a b d e ∧ rowsReciprocal [[a, b], [d, e]] = .ok Lk ∧ cfgOrders sort c Lk = .ok sel

/-- a grid without gaps of the announced shape -/
structure FullGrid (g : Grid4 ℂ) (nx ny nl nf : ℕ) (ε : ℕ → ℕ → ℕ → ℕ → ℂ) : Prop where
  sx : g.sx = nx
  sy : g.sy = ny
  sl : g.sl = nl
  sf : g.sf = nf
  val : ∀ x < nx, ∀ y < ny, ∀ l < nl, ∀ i < nf, g.val x y l i = some (ε x y l i)

/-- the orders `sel` differ by less than the number of cells in each direction -/
def CellsResolve (nx ny : ℕ) (sel : List (ℤ × ℤ)) : Prop := ∀ g ∈ sel, ∀ h ∈ sel, |g.1 - h.1| < nx ∧ |g.2 - h.2| < ny

lemma cellsResolve_iff {nx ny : ℕ} {sel : List (ℤ × ℤ)} : CellsResolve nx ny sel ↔ Resolved nx ny sel.get := by
  constructor
  · intro h i j
    exact h _ (List.get_mem _ _) _ (List.get_mem _ _)
  · intro h g hg k hk
    obtain ⟨i, rfl⟩ := List.get_of_mem hg
    obtain ⟨j, rfl⟩ := List.get_of_mem hk
    exact h i j

lemma GridRun.keep {c : Cfg} {nx ny nl nf : ℕ} {top bottom : ℝ} (hu : GridRun c nx ny nl nf top bottom) : GridRun (c.set "target_frequencies" .other) nx ny nl nf top bottom := by
  have hk : ∀ {k : String} {n : ℚ}, k ≠ "target_frequencies" → SetTo c k n → SetTo (c.set "target_frequencies" .other) k n := by
    rintro k n hk ⟨v, hv, hn⟩
    exact ⟨v, by rw [lookup_freqs c _ hk, hv], hn⟩
  obtain ⟨a', b', d, e, ⟨va, vb, vd, ve, hL, h1⟩, hcell⟩ := hu.lattice
  obtain ⟨z, hz, hz2⟩ := hu.orders
  obtain ⟨⟨qt, hqt, et⟩, pt⟩ := hu.top
  obtain ⟨⟨qb, hqb, eb⟩, pb⟩ := hu.bottom
  exact ⟨by rw [lookup_freqs c _ (by decide), hu.solver], hk (by decide) hu.nx, hk (by decide) hu.ny, hk (by decide) hu.layers, hk (by decide) hu.freqs,
    by obtain ⟨v, w, rest, a, b, hl, hr⟩ := hu.wavelengths; exact ⟨v, w, rest, a, b, by rw [lookup_freqs c _ (by decide), hl], hr⟩,
    ⟨a', b', d, e, ⟨va, vb, vd, ve, by rw [lookup_freqs c _ (by decide), hL], h1⟩, hcell⟩, ⟨z, by rw [SetToInt, lookup_freqs c _ (by decide)]; exact hz, hz2⟩,
    ⟨⟨qt, hk (by decide) hqt, et⟩, pt⟩, ⟨⟨qb, hk (by decide) hqb, eb⟩, pb⟩⟩

lemma ThicknessesAre.keep {c : Cfg} {nl : ℕ} {th : ℕ → ℝ} (ht : ThicknessesAre c nl th) : ThicknessesAre (c.set "target_frequencies" .other) nl th := by
  obtain ⟨vs, ts, hvs, hr⟩ := ht
  exact ⟨vs, ts, by rw [lookup_freqs c _ (by decide), hvs], hr⟩

lemma latticeIs_keep {c : Cfg} {a b d e : ℚ} : LatticeIs (c.set "target_frequencies" .other) a b d e ↔ LatticeIs c a b d e := by
  unfold LatticeIs
  rw [lookup_freqs c _ (by decide)]

lemma cfgOrders_keep (sort : ℕ → ℝ × ℝ → ℝ × ℝ → List (ℤ × ℤ)) (c : Cfg) (Lk : (ℝ × ℝ) × (ℝ × ℝ)) : cfgOrders sort (c.set "target_frequencies" .other) Lk = cfgOrders sort c Lk := by
  unfold cfgOrders
  have : (c.set "target_frequencies" .other).get "TRCWA_NG" = c.get "TRCWA_NG" := by
    unfold Cfg.get
    rw [lookup_freqs c _ (by decide)]
  rw [this]

/-! ### from the single frequencies to the whole call -/

/-- if every frequency is answered, so is the call -/
lemma forward_of_points (fdtd : Cfg → Except PyErr (List ℝ × List ℝ)) (sort : ℕ → ℝ × ℝ → ℝ × ℝ → List (ℤ × ℤ)) (patterned : (ℕ → ℕ → ℕ → Option ℂ) → ℝ → Except PyErr (ℝ × ℝ))
    {c : Cfg} (h : validateConfig c = .ok ()) {nx ny nl nf : ℕ} {top bottom : ℝ} (hu : GridRun c nx ny nl nf top bottom) {g : Grid4 ℂ} {ε : ℕ → ℕ → ℕ → ℕ → ℂ} (hg : FullGrid g nx ny nl nf ε)
    (P : ℕ → ℝ → ℝ → ℝ → Prop)
    (hpt : ∀ fs, cfgFrequencyPoints c = .ok fs → ∀ i < nf, ∀ f, fs[i]? = some f → 0 < f → ∃ r t, rcwaPoint sort patterned (c.set "target_frequencies" .other) g (fun x y l => g.val x y l i) f = .ok (r, t) ∧ P i f r t) :
    ∃ fs Rs Ts, cfgFrequencyPoints c = .ok fs ∧ forwardSpectrum fdtd sort patterned c g = .ok (some (Rs, Ts)) ∧
      fs.length = nf ∧ Rs.length = nf ∧ Ts.length = nf ∧ ∀ (i : ℕ) (f r t : ℝ), fs[i]? = some f → Rs[i]? = some r → Ts[i]? = some t → P i f r t := by
  obtain ⟨v, w, rest, a, b, fs, hwl, ha, hb, -, hfs, hband, hpos⟩ := cfgFrequencyPoints_ok h hu.wavelengths hu.freqs
  have hfit : DriverCfg.Fits (⟨some fs, nx, ny, nl, nf⟩ : DriverCfg ℝ) g fs := ⟨rfl, hband.length, hg.sx, hg.sy, hg.sl, hg.sf⟩
  have hnan : ¬ g.NaNInside := by
    rintro ⟨x, hx', y, hy', l, hl', i, hi, hv⟩
    rw [hg.val x (hg.sx ▸ hx') y (hg.sy ▸ hy') l (hg.sl ▸ hl') i (hg.sf ▸ hi)] at hv
    cases hv
  have hpt' : ∀ i f, fs[i]? = some f → ∃ r t, rcwaPoint sort patterned (c.set "target_frequencies" .other) g (fun x y l => g.val x y l i) f = .ok (r, t) ∧ P i f r t := by
    intro i f hi
    obtain ⟨hi', e⟩ := List.getElem?_eq_some_iff.1 hi
    exact hpt fs hfs i (by have := hband.length; omega) f hi (hpos f (e ▸ List.getElem_mem hi'))
  obtain ⟨⟨Rs, Ts⟩, hout⟩ := (C24_complete (rcwaPoint sort patterned (c.set "target_frequencies" .other) g) g _ fs hnan hfit).1.1 fun i hi => by
    obtain ⟨r, t, hrt, -⟩ := hpt' i fs[i] (List.getElem?_eq_getElem hi)
    exact ⟨_, hrt⟩
  obtain ⟨fs', hfit', -, hR, hT, hent⟩ := C24_entries _ g _ Rs Ts hout
  obtain rfl : fs = fs' := by simpa using hfit'.1
  refine ⟨fs, Rs, Ts, hfs, ?_, hband.length, hR, hT, fun i f r t hi hr ht => ?_⟩
  · rw [forward_eq fdtd sort patterned h hu.solver hu.nx hu.ny hu.layers hu.freqs hfs g, hout]; rfl
  · obtain ⟨r', t', hrt, hrest⟩ := hpt' i f hi
    have := Except.ok.inj ((hent i f r t hi hr ht).symm.trans hrt)
    rw [Prod.mk.injEq] at this
    obtain ⟨rfl, rfl⟩ := this
    exact hrest

/-- if every frequency fails in the same way, so does the call -/
lemma forward_of_error (fdtd : Cfg → Except PyErr (List ℝ × List ℝ)) (sort : ℕ → ℝ × ℝ → ℝ × ℝ → List (ℤ × ℤ)) (patterned : (ℕ → ℕ → ℕ → Option ℂ) → ℝ → Except PyErr (ℝ × ℝ))
    {c : Cfg} (h : validateConfig c = .ok ()) {nx ny nl nf : ℕ} {top bottom : ℝ} (hu : GridRun c nx ny nl nf top bottom) {g : Grid4 ℂ} {ε : ℕ → ℕ → ℕ → ℕ → ℂ} (hg : FullGrid g nx ny nl nf ε)
    {e : PyErr} (hpt : ∀ i < nf, ∀ f, 0 < f → rcwaPoint sort patterned (c.set "target_frequencies" .other) g (fun x y l => g.val x y l i) f = .error e) :
    forwardSpectrum fdtd sort patterned c g = .error e := by
  obtain ⟨v, w, rest, a, b, fs, hwl, ha, hb, -, hfs, hband, hpos⟩ := cfgFrequencyPoints_ok h hu.wavelengths hu.freqs
  have hnf : 0 < nf := by
    obtain ⟨nf', hf', hp⟩ := positive_nat h (k := "N_freq") (by decide) (by decide)
    obtain ⟨v1, e1, d1⟩ := hf'
    obtain ⟨v2, e2, d2⟩ := hu.freqs
    rw [e1] at e2
    cases e2
    have := denotes_unique d1 d2
    have : nf' = nf := by exact_mod_cast this
    omega
  have hfit : DriverCfg.Fits (⟨some fs, nx, ny, nl, nf⟩ : DriverCfg ℝ) g fs := ⟨rfl, hband.length, hg.sx, hg.sy, hg.sl, hg.sf⟩
  have hnan : ¬ g.NaNInside := by
    rintro ⟨x, hx', y, hy', l, hl', i, hi, hv⟩
    rw [hg.val x (hg.sx ▸ hx') y (hg.sy ▸ hy') l (hg.sl ▸ hl') i (hg.sf ▸ hi)] at hv
    cases hv
  have hpt' : ∀ i (hi : i < fs.length), rcwaPoint sort patterned (c.set "target_frequencies" .other) g (fun x y l => g.val x y l i) fs[i] = .error e := fun i hi =>
    hpt i (by have := hband.length; omega) _ (hpos _ (List.getElem_mem hi))
  have hcomp := C24_complete (rcwaPoint sort patterned (c.set "target_frequencies" .other) g) g _ fs hnan hfit
  rw [forward_eq fdtd sort patterned h hu.solver hu.nx hu.ny hu.layers hu.freqs hfs]
  cases hr : computeSpectrumTrcwa (rcwaPoint sort patterned (c.set "target_frequencies" .other) g) g ⟨some fs, nx, ny, nl, nf⟩ with
  | ok out =>
    have hl : 0 < fs.length := by rw [hband.length]; exact hnf
    obtain ⟨v, hv⟩ := hcomp.1.2 ⟨out, hr⟩ 0 hl
    rw [hpt' 0 hl] at hv
    cases hv
  | error e' =>
    obtain ⟨i, hi, he, -⟩ := hcomp.2 e' hr
    rw [hpt' i hi] at he
    cases he
    rfl

/-! ### the stack -/

/-- the stack that is built for layers of several cells -/
noncomputable def gridStack (nx ny nl : ℕ) (ε : ℕ → ℕ → ℕ → ℂ) (th : ℕ → ℝ) (top bottom : ℝ) : TrcwaState ℂ Unit ℝ :=
  TrcwaState.build (stackOps nx ny nl (ε 0 0) th (top : ℂ) (bottom : ℂ) 1)

/-- what is left to compute for one frequency once the layers are added -/
lemma gridPoint_eq (eig : EigSolver) (sort : ℕ → ℝ × ℝ → ℝ × ℝ → List (ℤ × ℤ)) {c : Cfg} {nx ny nl : ℕ} (hxy : nx > 1 ∨ ny > 1) {vL : Val} {rows : List (List ℚ)}
    (hL : c.lookup "TRCWA_L_grid" = some vL) (hrows : tensorRows vL = .ok rows) {top bottom : ℝ} (htop : SetToReal c "TRCWA_TOP_LAYER_EPS" top)
    (hbot : SetToReal c "TRCWA_BOTTOM_LAYER_EPS" bottom) {th : ℕ → ℝ} (ht : ThicknessesAre c nl th) (g : Grid4 ℂ) (hx : g.sx = nx) (hy : g.sy = ny) (hl : g.sl = nl)
    (slice : ℕ → ℕ → ℕ → Option ℂ) (f : ℝ) :
    gridPoint eig sort c g slice f = rowsReciprocal rows >>= fun Lk => cfgOrders sort c Lk >>= fun sel =>
      gridRT eig top bottom (gridStack nx ny nl (fun x y l => (slice x y l).getD 0) th top bottom) (EpsTensor.d3 nx ny nl fun x y l => (slice x y l).getD 0).squeeze0.squeeze0 Lk sel f := by
  obtain ⟨qt, ⟨vt, hvt, hqt⟩, rfl⟩ := htop
  obtain ⟨qb, ⟨vb', hvb, hqb⟩, rfl⟩ := hbot
  obtain ⟨vs, ts, hvs, hts, huser⟩ := ht
  obtain ⟨qs, hqs, rfl⟩ := denotesList_rat hts
  unfold gridPoint
  rw [get_ok.2 hL, ok_bind, hrows, ok_bind, get_ok.2 hvt, ok_bind, num_ok.2 hqt, ok_bind, get_ok.2 hvs, ok_bind, numEntries_ok hqs, ok_bind,
    get_ok.2 hvb, ok_bind, num_ok.2 hqb, ok_bind, hx, hy, hl]
  dsimp only
  rw [addMaterialLayers_ok nx ny _ (fun l => (slice 0 0 l).getD 0) _ th (List.range nl) (fun i hi => huser i (List.mem_range.1 hi)) (fun h => absurd hxy h), ok_bind, stack_state]
  rfl

lemma geteps_of_init (nx ny nl : ℕ) (hxy : nx > 1 ∨ ny > 1) (ε : ℕ → ℕ → ℕ → ℂ) (th : ℕ → ℝ) (top bottom : ℝ) {perLayer : List ℝ} (hth : ∀ i < nl, UserThickness perLayer i (th i)) :
    initTrcwa nx ny nl ε (top : ℂ) (bottom : ℂ) perLayer 1 =
      gridLayerGeteps (gridStack nx ny nl ε th top bottom) (EpsTensor.d3 nx ny nl ε).squeeze0.squeeze0 >>= fun p => .ok ⟨gridStack nx ny nl ε th top bottom, p⟩ := by
  unfold initTrcwa
  dsimp only
  rw [addMaterialLayers_ok nx ny _ (ε 0 0) _ th (List.range nl) (fun i hi => hth i (List.mem_range.1 hi)) (fun h => absurd hxy h), ok_bind, stack_state, if_pos hxy]
  rfl

/-- the stack of more than one column, not three, and its patterns -/
lemma gridStack_ok {nx ny nl : ℕ} (hx : 1 < nx) (hx3 : nx ≠ 3) (ε : ℕ → ℕ → ℕ → ℂ) (th : ℕ → ℝ) (top bottom : ℝ) :
    gridLayerGeteps (gridStack nx ny nl ε th top bottom) (EpsTensor.d3 nx ny nl ε).squeeze0.squeeze0 = .ok ((List.range nl).map fun i => (i + 1, .iso fun p q => ε p q i)) ∧
      (gridStack nx ny nl ε th top bottom).layerN = nl + 2 ∧
      (gridStack nx ny nl ε th top bottom).readLayer 0 = some (.uniform 1 (top : ℂ)) ∧
      (∀ i < nl, (gridStack nx ny nl ε th top bottom).readLayer (i + 1) = some (.grid (th i) nx ny)) ∧
      (gridStack nx ny nl ε th top bottom).readLayer (nl + 1) = some (.uniform 1 (bottom : ℂ)) := by
  have hth : ∀ i < nl, UserThickness ((List.range nl).map th) i (th i) := by
    intro i hi
    by_cases h1 : nl = 1
    · subst h1
      left
      obtain rfl : i = 0 := by omega
      rfl
    · right
      simp [h1, hi]
  obtain ⟨st, h0, h1, h2, h3, h4, h5⟩ := C12_patterned_stack_partial nx ny nl ε (top : ℂ) (bottom : ℂ) ((List.range nl).map th) 1 th hx hx3 hth
  rw [geteps_of_init nx ny nl (.inl hx) ε th top bottom hth, bind_ok] at h0
  obtain ⟨p, hp, e⟩ := h0
  cases e
  exact ⟨by rw [hp, ← h5], h1, h2, h3, h4⟩

lemma lookup_range {β : Type} (nl : ℕ) (F : ℕ → β) {i : ℕ} (hi : i < nl) : ((List.range nl).map fun i => (i + 1, F i)).lookup (i + 1) = some (F i) := by
  induction nl with
  | zero => omega
  | succ n ih =>
    rw [List.range_succ, List.map_append, List.lookup_append]
    by_cases h : i < n
    · rw [ih h]; rfl
    · obtain rfl : i = n := by omega
      have : ((List.range i).map fun j => (j + 1, F j)).lookup (i + 1) = none := by
        rw [List.lookup_eq_none_iff]
        intro p hp
        obtain ⟨j, hj, rfl⟩ := List.mem_map.1 hp
        have := List.mem_range.1 hj
        simp
        omega
      rw [this]
      simp

/-- the wave numbers of the orders -/
noncomputable def gridKx (top f : ℝ) (Lk : (ℝ × ℝ) × (ℝ × ℝ)) {n : ℕ} (G : Fin n → ℤ × ℤ) : Fin n → ℂ := kxOf (dampedOmega f) 0 0 top Lk.1 Lk.2 G
noncomputable def gridKy (top f : ℝ) (Lk : (ℝ × ℝ) × (ℝ × ℝ)) {n : ℕ} (G : Fin n → ℤ × ℤ) : Fin n → ℂ := kyOf (dampedOmega f) 0 0 top Lk.1 Lk.2 G

/-- once every layer is transformed, the layers are solved front to back -/
lemma gridRT_eq (eig : EigSolver) {nx ny nl : ℕ} (hx : 1 < nx) (hx3 : nx ≠ 3) (ε : ℕ → ℕ → ℕ → ℂ) (th : ℕ → ℝ) {top bottom : ℝ} (h0 : 0 < top) (hN : 0 < bottom) (Lk : (ℝ × ℝ) × (ℝ × ℝ))
    (g : ℤ × ℤ) (gs : List (ℤ × ℤ)) (f : ℝ) (mid : ℕ → LayerData (Fin (g :: gs).length ⊕ Fin (g :: gs).length))
    (hmid : ∀ l < nl, gridLayerData eig (dampedOmega f) (gridKx top f Lk (g :: gs).get) (gridKy top f Lk (g :: gs).get) (g :: gs).get nx ny (.iso fun p q => ε p q l) (th l) = .ok (mid l)) :
    gridRT eig top bottom (gridStack nx ny nl ε th top bottom) (EpsTensor.d3 nx ny nl ε).squeeze0.squeeze0 Lk (g :: gs) f =
      rtForward (dampedOmega f) (rtNormalization top 0)
        (uniformLayer (dampedOmega f) (gridKx top f Lk (g :: gs).get) (gridKy top f Lk (g :: gs).get) (top : ℂ) 1 :: (List.range nl).map mid ++
          [uniformLayer (dampedOmega f) (gridKx top f Lk (g :: gs).get) (gridKy top f Lk (g :: gs).get) (bottom : ℂ) 1])
        (planewave 0 0 1 0 ⟨0, Nat.succ_pos _⟩) 0 := by
  obtain ⟨hp, h1, h2, h3, h4⟩ := gridStack_ok (ny := ny) (nl := nl) hx hx3 ε th top bottom
  unfold gridRT
  dsimp only
  rw [hp, ok_bind, if_neg (by rintro (h | h | h) <;> linarith), h1, mapM_range (nl + 2) _ (fun i => if i = 0 then uniformLayer (dampedOmega f) (gridKx top f Lk (g :: gs).get) (gridKy top f Lk (g :: gs).get) (top : ℂ) 1
    else if i = nl + 1 then uniformLayer (dampedOmega f) (gridKx top f Lk (g :: gs).get) (gridKy top f Lk (g :: gs).get) (bottom : ℂ) 1 else mid (i - 1)), ok_bind]
  · congr 1
    rw [List.range_succ, List.map_append, List.range_succ_eq_map]
    simp only [List.map_cons, List.map_map, if_true, List.map_nil, List.cons_append]
    congr 2
    refine List.map_congr_left fun l hl => ?_
    have := List.mem_range.1 hl
    simp only [Function.comp_apply, Nat.succ_eq_add_one, Nat.add_eq_zero_iff, one_ne_zero, and_false, if_false, Nat.add_right_cancel_iff, Nat.add_sub_cancel]
    rw [if_neg (by omega)]
  · intro i hi
    by_cases hi0 : i = 0
    · subst hi0; rw [h2, if_pos rfl]; rfl
    by_cases hin : i = nl + 1
    · subst hin; rw [h4, if_neg hi0, if_pos rfl]; rfl
    · obtain ⟨k, rfl⟩ := Nat.exists_eq_succ_of_ne_zero hi0
      rw [Nat.succ_eq_add_one] at hin ⊢
      rw [h3 k (by omega), lookup_range nl _ (by omega : k < nl), if_neg (by omega), if_neg hin]
      exact hmid k (by omega)

/-! ### the selected orders -/

/-- the orders of an admissible config exist, are distinct and start with the central one -/
lemma ordersOf_ok {sort : ℕ → ℝ × ℝ → ℝ × ℝ → List (ℤ × ℤ)} (hs : Sorts sort) {c : Cfg} {nx ny nl nf : ℕ} {top bottom : ℝ} (hu : GridRun c nx ny nl nf top bottom) :
    ∃ va vb vd ve a b d e Lk g gs, c.lookup "TRCWA_L_grid" = some (.list [.list [va, vb], .list [vd, ve]]) ∧ Denotes va a ∧ Denotes vb b ∧ Denotes vd d ∧ Denotes ve e ∧
      rowsReciprocal [[a, b], [d, e]] = .ok Lk ∧ cfgOrders sort c Lk = .ok (g :: gs) ∧ g = (0, 0) ∧ (g :: gs).Nodup ∧ OrdersOf sort c Lk (g :: gs) := by
  obtain ⟨a, b, d, e, ⟨va, vb, vd, ve, hL, ha, hb, hd, he⟩, hcell⟩ := hu.lattice
  obtain ⟨Lk, sel, hLk, hsel, hhead, hc⟩ := cfgOrders_ok hs hcell hu.orders
  obtain ⟨z, hz, hz2⟩ := hu.orders
  have hnd : sel.Nodup := by
    obtain ⟨sel', h1, -, h2, -⟩ := C14_whole_shells z.toNat (by omega) Lk.1 Lk.2 hc _ (hs z.toNat _ _)
    unfold cfgOrders at hsel
    rw [get_ok.2 hz, ok_bind] at hsel
    have hsel : (gselCircular z.toNat Lk.1 Lk.2 (sort z.toNat Lk.1 Lk.2) >>= fun r => Except.ok r.1) = .ok sel := hsel
    rw [h1, ok_bind] at hsel
    cases hsel
    exact h2
  obtain ⟨g, gs, rfl⟩ : ∃ g gs, sel = g :: gs := by
    cases sel with
    | nil => cases hhead
    | cons g gs => exact ⟨g, gs, rfl⟩
  exact ⟨va, vb, vd, ve, a, b, d, e, Lk, g, gs, hL, ha, hb, hd, he, hLk, hsel, by simpa using hhead, hnd, a, b, d, e, ⟨va, vb, vd, ve, hL, ha, hb, hd, he⟩, hLk, hsel⟩

/-- the point of a grid with several columns, with its orders -/
lemma rcwaPoint_grid {eig : EigSolver} {sort : ℕ → ℝ × ℝ → ℝ × ℝ → List (ℤ × ℤ)} (hs : Sorts sort) {c : Cfg} {nx ny nl nf : ℕ} {top bottom : ℝ} (hu : GridRun c nx ny nl nf top bottom)
    (hxy : nx > 1 ∨ ny > 1) {th : ℕ → ℝ} (ht : ThicknessesAre c nl th) {g : Grid4 ℂ} (hx : g.sx = nx) (hy : g.sy = ny) (hl : g.sl = nl) :
    ∃ Lk o gs, OrdersOf sort c Lk (o :: gs) ∧ o = (0, 0) ∧ (o :: gs).Nodup ∧ ∀ slice f,
      rcwaPoint sort (gridPoint eig sort (c.set "target_frequencies" .other) g) (c.set "target_frequencies" .other) g slice f =
        gridRT eig top bottom (gridStack nx ny nl (fun x y l => (slice x y l).getD 0) th top bottom) (EpsTensor.d3 nx ny nl fun x y l => (slice x y l).getD 0).squeeze0.squeeze0 Lk (o :: gs) f := by
  obtain ⟨va, vb, vd, ve, a, b, d, e, Lk, o, gs, hL, ha, hb, hd, he, hLk, hsel, ho, hnd, hord⟩ := ordersOf_ok hs hu
  refine ⟨Lk, o, gs, hord, ho, hnd, fun slice f => ?_⟩
  unfold rcwaPoint
  rw [if_pos (by omega), gridPoint_eq eig sort hxy (by rw [lookup_freqs c _ (by decide), hL]) (tensorRows_ok ha hb hd he) hu.keep.top.1 hu.keep.bottom.1 ht.keep g hx hy hl, hLk, ok_bind,
    cfgOrders_keep, hsel, ok_bind]

/-- only the values inside the grid reach the layers -/
lemma gridLayerData_congr (eig : EigSolver) {n : ℕ} (ω : ℂ) (kx ky : Fin n → ℂ) (G : Fin n → ℤ × ℤ) {nx ny : ℕ} {p q : ℕ → ℕ → ℂ} (h : ∀ x < nx, ∀ y < ny, p x y = q x y) (d : ℝ) :
    gridLayerData eig ω kx ky G nx ny (.iso p) d = gridLayerData eig ω kx ky G nx ny (.iso q) d := by
  have : (Pattern.iso p).toEps nx ny = (Pattern.iso q).toEps nx ny := by
    simp only [Pattern.toEps]
    congr 1
    funext a b
    exact h a a.2 b b.2
  unfold gridLayerData
  rw [this]

/-! ### layers of equal cells -/

/-- the filter of `Epsilon_fft` lets a coefficient pass -/
def PassesFilter (z : ℂ) : Prop := z = 0 ∨ 1e-14 ≤ z.re ∨ 1e-14 ≤ z.im

lemma zeroSmall_eq {z : ℂ} (h : PassesFilter z) : zeroSmall z = z := by
  unfold zeroSmall
  rcases h with rfl | h | h
  · simp
  · rw [if_neg fun h' => absurd h'.1 (not_lt.2 h)]
  · rw [if_neg fun h' => absurd h'.2 (not_lt.2 h)]

/-- the two matrices of a layer of equal cells -/
lemma epsilonFft_const {nx ny n : ℕ} {ε : ℂ} (hε : ε ≠ 0) (hp : PassesFilter ε) {G : Fin n → ℤ × ℤ} (hG : Function.Injective G) (hr : Resolved nx ny G) :
    epsilonFft (1 / nx / ny) (.iso fun (_ : Fin nx) (_ : Fin ny) => ε) G = .ok ((1 / ε) • 1, ε • 1) := by
  have hdet : IsUnit (ε • (1 : Matrix (Fin n) (Fin n) ℂ)).det := by
    rw [Matrix.det_smul, Matrix.det_one, mul_one]
    exact (pow_ne_zero _ hε).isUnit
  have hinv : (ε • (1 : Matrix (Fin n) (Fin n) ℂ))⁻¹ = (1 / ε) • 1 := by
    refine Matrix.inv_eq_right_inv ?_
    rw [smul_mul_smul_comm, mul_one, mul_one_div_cancel hε, one_smul]
  have hmap : (Matrix.fromBlocks (ε • (1 : Matrix (Fin n) (Fin n) ℂ)) 0 0 (ε • 1)).map zeroSmall = ε • (1 : Matrix (Fin n ⊕ Fin n) (Fin n ⊕ Fin n) ℂ) := by
    have e : Matrix.fromBlocks (ε • (1 : Matrix (Fin n) (Fin n) ℂ)) 0 0 (ε • 1) = ε • (1 : Matrix (Fin n ⊕ Fin n) (Fin n ⊕ Fin n) ℂ) := by
      rw [← Matrix.fromBlocks_one, Matrix.fromBlocks_smul, smul_zero]
    rw [e]
    ext i j
    rw [Matrix.map_apply, Matrix.smul_apply, Matrix.one_apply]
    split
    · rw [smul_eq_mul, mul_one, zeroSmall_eq hp]
    · rw [smul_zero, zeroSmall_eq (Or.inl rfl)]
  simp only [epsilonFft, C15_uniform ε G hG hr, ok_bind, torchInverse, if_pos hdet, hinv, hmap]
  rfl

/-- a uniform layer is a layer of equal cells, with a particular choice of eigenvectors -/
lemma uniformLayer_patterned {n : ℕ} (ω : ℂ) (kx ky : Fin n → ℂ) (ε : ℂ) (d : ℝ) :
    uniformLayer ω kx ky ε d = patternedLayer ω kx ky ((1 / ε) • 1) (Sum.elim (fun i => ε * ω ^ 2 - kx i ^ 2 - ky i ^ 2) (fun i => ε * ω ^ 2 - kx i ^ 2 - ky i ^ 2)) (uniformLayer ω kx ky ε d).phi d := by
  unfold patternedLayer
  rw [show kpPatterned ω ((1 / ε) • 1) kx ky = (uniformLayer ω kx ky ε d).kp from (kpUniform_eq _ _ _ _).symm]
  have : (uniformLayer ω kx ky ε d).q = fun m => branchQ (csqrt (Sum.elim (fun i => ε * ω ^ 2 - kx i ^ 2 - ky i ^ 2) (fun i => ε * ω ^ 2 - kx i ^ 2 - ky i ^ 2) m)) := by
    funext m
    rcases m with m | m <;> rfl
  rw [← this]
  rfl

lemma damped_passive {f : ℝ} (hf : 0 < f) {z : ℂ} (h : -z.re / 2 / 1e5 ≤ z.im) : 0 ≤ (dampedOmega f * z).im := by
  have hπ := Real.pi_pos
  rw [dampedOmega_eq, Complex.mul_im, driverOmega_re, driverOmega_im]
  have e : 2 * Real.pi * f * z.im + 2 * Real.pi * f / 2 / 1e5 * z.re = 2 * Real.pi * f * (z.im + z.re / 2 / 1e5) := by ring
  rw [e]
  refine mul_nonneg (by positivity) ?_
  have : -z.re / 2 / 1e5 = -(z.re / 2 / 1e5) := by ring
  linarith

lemma damped_strict {f : ℝ} (hf : 0 < f) {z : ℂ} (h : -z.re / 2 / 1e5 < z.im) : 0 < (dampedOmega f * z).im := by
  have hπ := Real.pi_pos
  rw [dampedOmega_eq, Complex.mul_im, driverOmega_re, driverOmega_im]
  have e : 2 * Real.pi * f * z.im + 2 * Real.pi * f / 2 / 1e5 * z.re = 2 * Real.pi * f * (z.im + z.re / 2 / 1e5) := by ring
  rw [e]
  refine mul_pos (by positivity) ?_
  have : -z.re / 2 / 1e5 = -(z.re / 2 / 1e5) := by ring
  linarith

lemma damped_im {f : ℝ} (hf : 0 < f) : 0 < (dampedOmega f).im := by
  have hπ := Real.pi_pos
  rw [dampedOmega_eq, driverOmega_im]
  positivity

lemma damped_re {f : ℝ} (hf : 0 < f) : 0 < (dampedOmega f).re := by
  have hπ := Real.pi_pos
  rw [dampedOmega_eq, driverOmega_re]
  positivity

lemma passive_pos {x : ℝ} (hx : 0 < x) : -((x : ℂ)).re / 2 / 1e5 < ((x : ℂ)).im := by
  rw [Complex.ofReal_re, Complex.ofReal_im, neg_div, neg_div, neg_lt_zero]
  positivity

/-- one frequency of a grid of equal cells -/
lemma paintedRT_ok {eig : EigSolver} (heig : Eigensolver eig) {nx ny nl : ℕ} (hx : 1 < nx) (hx3 : nx ≠ 3) (e : ℕ → ℕ → ℕ → ℂ) (ε : ℕ → ℂ) (he : ∀ x < nx, ∀ y < ny, ∀ l < nl, e x y l = ε l)
    (hε : ∀ l < nl, PassiveEps (ε l)) (hp : ∀ l < nl, PassesFilter (ε l)) (th : ℕ → ℝ) (hth : ∀ l < nl, 0 ≤ th l) {top bottom : ℝ} (h0 : 0 < top) (hN : 0 < bottom) (Lk : (ℝ × ℝ) × (ℝ × ℝ))
    (gs : List (ℤ × ℤ)) (hnd : ((0, 0) :: gs).Nodup) (hr : CellsResolve nx ny ((0, 0) :: gs)) {f : ℝ} (hf : 0 < f) :
    ∃ r t, gridRT eig top bottom (gridStack nx ny nl e th top bottom) (EpsTensor.d3 nx ny nl e).squeeze0.squeeze0 Lk ((0, 0) :: gs) f = .ok (r, t) ∧ 0 ≤ r ∧ 0 ≤ t ∧ r + t ≤ 1 ∧
      ∀ n : ℕ → ℂ, (∀ l < nl, n l ^ 2 = ε l) → r = filmReflectance (dampedOmega f) top bottom nl th n ∧ t = filmTransmittance (dampedOmega f) top bottom nl th n := by
  obtain ⟨r, t, hrt, hrest⟩ := uniformRT_ok h0 hN hf nl th hth ε hε Lk ((0, 0) :: gs) rfl
  refine ⟨r, t, ?_, hrest⟩
  set G : Fin ((0, 0) :: gs).length → ℤ × ℤ := ((0, 0) :: gs).get with hG
  set ω := dampedOmega f with hω
  set kx := gridKx top f Lk G with hkx
  set ky := gridKy top f Lk G with hky
  have hinj : Function.Injective G := List.nodup_iff_injective_get.1 hnd
  have hres : Resolved nx ny G := cellsResolve_iff.1 hr
  let M : ℕ → Matrix (Fin ((0, 0) :: gs).length ⊕ Fin ((0, 0) :: gs).length) (Fin ((0, 0) :: gs).length ⊕ Fin ((0, 0) :: gs).length) ℂ :=
    fun l => eigenMat (ε l • 1) (kpPatterned ω ((1 / ε l) • 1) kx ky) kx ky
  let mid : ℕ → LayerData (Fin ((0, 0) :: gs).length ⊕ Fin ((0, 0) :: gs).length) := fun l => patternedLayer ω kx ky ((1 / ε l) • 1) (eig _ (M l)).1 (eig _ (M l)).2 (th l)
  have hmid : ∀ l < nl, gridLayerData eig ω kx ky G nx ny (.iso fun p q => e p q l) (th l) = .ok (mid l) := by
    intro l hl
    rw [gridLayerData_congr eig ω kx ky G (q := fun _ _ => ε l) (fun x hx y hy => he x hx y hy l hl)]
    unfold gridLayerData
    have := epsilonFft_const (hε l hl).1 (hp l hl) hinj hres
    simp only [Pattern.toEps]
    rw [this, ok_bind]
  rw [gridRT_eq eig hx hx3 e th h0 hN Lk (0, 0) gs f mid hmid]
  have hb0 : (top : ℂ) ≠ 0 := Complex.ofReal_ne_zero.2 h0.ne'
  have hbN : (bottom : ℂ) ≠ 0 := Complex.ofReal_ne_zero.2 hN.ne'
  have hbuilt : ∀ (L : ℕ → LayerData (Fin ((0, 0) :: gs).length ⊕ Fin ((0, 0) :: gs).length)),
      (∀ l < nl, Built ω kx ky G (Slab.patterned (fun (_ : Fin nx) (_ : Fin ny) => ε l) (th l)) (L l)) →
      List.Forall₂ (Built ω kx ky G) ((List.range nl).map fun l => Slab.patterned (fun (_ : Fin nx) (_ : Fin ny) => ε l) (th l)) ((List.range nl).map L) := by
    intro L hL
    rw [List.forall₂_iff_get]
    refine ⟨by simp, fun i h1 h2 => ?_⟩
    simp only [List.get_eq_getElem, List.getElem_map, List.getElem_range]
    exact hL i (by simpa using h1)
  have hb1 := hbuilt (fun l => uniformLayer ω kx ky (ε l) (th l)) fun l hl => by
    have hb := Built.patterned (ω := ω) (kx := kx) (ky := ky) (fun (_ : Fin nx) (_ : Fin ny) => ε l) (th l) _ _ (epsilonFft_const (hε l hl).1 (hp l hl) hinj hres) _ _
      (uniform_isEig kx ky (hε l hl).1 (th l)) (by simp [uniformLayer])
    rw [← uniformLayer_patterned] at hb
    exact hb
  have hb2 := hbuilt mid fun l hl =>
    Built.patterned (ω := ω) (kx := kx) (ky := ky) _ (th l) _ _ (epsilonFft_const (hε l hl).1 (hp l hl) hinj hres) _ _ (heig _ _).1
      ((heig _ _).2 ⟨_, _, uniform_isEig kx ky (hε l hl).1 (th l), by simp [uniformLayer]⟩)
  have hkim : ∀ i, (kx i).im = 0 ∧ (ky i).im = 0 := fun i => kOf_zero ω 0 top Lk.1 Lk.2 G i
  have hreg : ∀ (ε : ℂ) (d : ℝ), 0 ≤ d → PassiveEps ε → (uniformLayer ω kx ky ε d).Regular := fun ε d hd h =>
    (solverLayer_damped (damped_im hf) (fun i => (hkim i).1) (fun i => (hkim i).2) (G := G) (.uniform ε d hd h.1 (damped_passive hf h.2)) (by simp [uniformLayer])).1
  rw [C114_eigenvectors ω kx ky G _ _ _ hb1 hb2 (top : ℂ) (bottom : ℂ) hb0 hbN 1 1 ?_]
  · rw [← hrt]
    unfold uniformRT
    dsimp only
    rw [if_neg]
    · simp only [List.map_cons, List.map_append, List.map_map, List.map_nil]
      rfl
    · rintro (h | ⟨l, hl, hz⟩)
      · linarith
      · simp only [List.mem_cons, List.mem_append, List.mem_map, List.mem_range, List.not_mem_nil, or_false] at hl
        rcases hl with rfl | ⟨l, hl, rfl⟩ | rfl
        · exact hb0 hz
        · exact (hε l hl).1 hz
        · exact hbN hz
  · intro L hL
    simp only [List.mem_cons, List.cons_append, List.mem_append, List.mem_map, List.mem_range, List.not_mem_nil, or_false] at hL
    rcases hL with rfl | ⟨l, hl, rfl⟩ | rfl
    · exact hreg _ _ zero_le_one ⟨hb0, (passive_pos h0).le⟩
    · exact hreg _ _ (hth l hl) (hε l hl)
    · exact hreg _ _ zero_le_one ⟨hbN, (passive_pos hN).le⟩

/-- C156: for every accepted config with the RCWA solver, several cells per layer (more than one column, not three), positive wavelengths, a proper lattice cell, at least two orders that the cells resolve, and positive
permittivities around the stack, and for every grid of the announced shape whose layers each have the same permittivity in all cells, the forward simulation answers with the reflectance and transmittance of the
characteristic-matrix method at every frequency: exactly what a config with one cell per layer is answered (C137). This holds for whatever eigenvectors the library returns. -/
theorem C156_painted (eig : EigSolver) (heig : Eigensolver eig) (fdtd : Cfg → Except PyErr (List ℝ × List ℝ)) (sort : ℕ → ℝ × ℝ → ℝ × ℝ → List (ℤ × ℤ)) (hs : Sorts sort) (c : Cfg)
    (h : validateConfig c = .ok ()) (nx ny nl nf : ℕ) (top bottom : ℝ) (hu : GridRun c nx ny nl nf top bottom) (hx : 1 < nx) (hx3 : nx ≠ 3)
    (hr : ∀ Lk sel, OrdersOf sort c Lk sel → CellsResolve nx ny sel) (th : ℕ → ℝ) (ht : ThicknessesAre c nl th) (hth : ∀ l < nl, 0 ≤ th l) (g : Grid4 ℂ) (ε : ℕ → ℕ → ℂ)
    (hg : FullGrid g nx ny nl nf fun _ _ l i => ε l i) (hε : ∀ l < nl, ∀ i < nf, PassiveEps (ε l i)) (hp : ∀ l < nl, ∀ i < nf, PassesFilter (ε l i)) :
    ∃ fs Rs Ts, cfgFrequencyPoints c = .ok fs ∧ gridSpectrum eig fdtd sort c g = .ok (some (Rs, Ts)) ∧ fs.length = nf ∧ Rs.length = nf ∧ Ts.length = nf ∧
      ∀ (i : ℕ) (f r t : ℝ), fs[i]? = some f → Rs[i]? = some r → Ts[i]? = some t →
        0 ≤ r ∧ 0 ≤ t ∧ r + t ≤ 1 ∧ ∀ n : ℕ → ℂ, (∀ l < nl, n l ^ 2 = ε l i) →
          r = filmReflectance (2 * Real.pi * f * (1 + Complex.I / (2 * 1e5))) top bottom nl th n ∧
          t = filmTransmittance (2 * Real.pi * f * (1 + Complex.I / (2 * 1e5))) top bottom nl th n := by
  obtain ⟨Lk, o, gs, hord, rfl, hnd, hpt⟩ := rcwaPoint_grid (eig := eig) hs hu (.inl hx) ht hg.sx hg.sy hg.sl
  refine forward_of_points fdtd sort _ h hu hg _ fun fs _ i hi f _ hf => ?_
  have e : (2 * Real.pi * f * (1 + Complex.I / (2 * 1e5)) : ℂ) = dampedOmega f := by unfold dampedOmega; ring
  rw [hpt, e]
  exact paintedRT_ok heig hx hx3 _ (fun l => ε l i) (fun x hx y hy l hl => by rw [hg.val x hx y hy l hl i hi]; rfl) (fun l hl => hε l hl i hi) (fun l hl => hp l hl i hi) th hth hu.top.2 hu.bottom.2
    Lk gs hnd (hr _ _ hord) hf

/-! ### layers of different cells -/

/-- One frequency of a grid of passive cells. -/
lemma patternedRT_ok {eig : EigSolver} (heig : Eigensolver eig) {nx ny nl : ℕ} (hx : 1 < nx) (hx3 : nx ≠ 3) (e : ℕ → ℕ → ℕ → ℂ)
    (hε : ∀ x < nx, ∀ y < ny, ∀ l < nl, -(e x y l).re / 2 / 1e5 < (e x y l).im) (th : ℕ → ℝ) (hth : ∀ l < nl, 0 ≤ th l) {top bottom : ℝ} (h0 : 0 < top) (hN : 0 < bottom)
    (Lk : (ℝ × ℝ) × (ℝ × ℝ)) (gs : List (ℤ × ℤ)) (hnd : ((0, 0) :: gs).Nodup) (hr : CellsResolve nx ny ((0, 0) :: gs)) {f : ℝ} (hf : 0 < f)
    (hp : ∀ l < nl, ∀ g ∈ (0, 0) :: gs, ∀ h ∈ (0, 0) :: gs, PassesFilter (fourierCoeff (fun (a : Fin nx) (b : Fin ny) => e a b l) (g - h)))
    (hd : ∀ l < nl, ∀ epinv ep2, epsilonFft (1 / nx / ny) (.iso fun (a : Fin nx) (b : Fin ny) => e a b l) ((0, 0) :: gs).get = .ok (epinv, ep2) →
      ∃ lam phi, IsEig (eigenMat ep2 (kpPatterned (dampedOmega f) epinv (gridKx top f Lk ((0, 0) :: gs).get) (gridKy top f Lk ((0, 0) :: gs).get))
        (gridKx top f Lk ((0, 0) :: gs).get) (gridKy top f Lk ((0, 0) :: gs).get)) lam phi ∧ IsUnit phi.det) :
    ∃ r t, gridRT eig top bottom (gridStack nx ny nl e th top bottom) (EpsTensor.d3 nx ny nl e).squeeze0.squeeze0 Lk ((0, 0) :: gs) f = .ok (r, t) ∧ 0 ≤ r ∧ 0 ≤ t ∧ r + t ≤ 1 := by
  set G : Fin ((0, 0) :: gs).length → ℤ × ℤ := ((0, 0) :: gs).get with hG
  set ω := dampedOmega f with hω
  set kx := gridKx top f Lk G with hkx
  set ky := gridKy top f Lk G with hky
  have hinj : Function.Injective G := List.nodup_iff_injective_get.1 hnd
  have hres : Resolved nx ny G := cellsResolve_iff.1 hr
  have hfft : ∀ l < nl, ∃ m : Matrix (Fin ((0, 0) :: gs).length) (Fin ((0, 0) :: gs).length) ℂ ×
      Matrix (Fin ((0, 0) :: gs).length ⊕ Fin ((0, 0) :: gs).length) (Fin ((0, 0) :: gs).length ⊕ Fin ((0, 0) :: gs).length) ℂ,
      epsilonFft (1 / nx / ny) (.iso fun (a : Fin nx) (b : Fin ny) => e a b l) G = .ok m := by
    intro l hl
    obtain ⟨C, epinv, ep2, -, h, -⟩ := C15_invertible (fun (a : Fin nx) (b : Fin ny) => e a b l) G hinj hres ω fun a b => damped_strict hf (hε a a.2 b b.2 l hl)
    exact ⟨_, h⟩
  let m : ℕ → Matrix (Fin ((0, 0) :: gs).length) (Fin ((0, 0) :: gs).length) ℂ ×
      Matrix (Fin ((0, 0) :: gs).length ⊕ Fin ((0, 0) :: gs).length) (Fin ((0, 0) :: gs).length ⊕ Fin ((0, 0) :: gs).length) ℂ :=
    fun l => if h : l < nl then (hfft l h).choose else 0
  have hm : ∀ l < nl, epsilonFft (1 / nx / ny) (.iso fun (a : Fin nx) (b : Fin ny) => e a b l) G = .ok (m l) := by
    intro l hl
    simp only [m, dif_pos hl]
    exact (hfft l hl).choose_spec
  let E : ℕ → (Fin ((0, 0) :: gs).length ⊕ Fin ((0, 0) :: gs).length → ℂ) × Matrix (Fin ((0, 0) :: gs).length ⊕ Fin ((0, 0) :: gs).length) (Fin ((0, 0) :: gs).length ⊕ Fin ((0, 0) :: gs).length) ℂ :=
    fun l => eig _ (eigenMat (m l).2 (kpPatterned ω (m l).1 kx ky) kx ky)
  let mid : ℕ → LayerData (Fin ((0, 0) :: gs).length ⊕ Fin ((0, 0) :: gs).length) := fun l => patternedLayer ω kx ky (m l).1 (E l).1 (E l).2 (th l)
  have hmid : ∀ l < nl, gridLayerData eig ω kx ky G nx ny (.iso fun p q => e p q l) (th l) = .ok (mid l) := by
    intro l hl
    unfold gridLayerData
    simp only [Pattern.toEps]
    rw [hm l hl, ok_bind]
  rw [gridRT_eq eig hx hx3 e th h0 hN Lk (0, 0) gs f mid hmid]
  have hkim : ∀ i, (kx i).im = 0 ∧ (ky i).im = 0 := fun i => kOf_zero ω 0 top Lk.1 Lk.2 G i
  have hsl : ∀ l < nl, SolverLayer ω kx ky G (fun ε => 0 ≤ (ω * ε).im) (mid l) ∧ IsUnit (mid l).phi.det := by
    intro l hl
    refine ⟨.patterned (fun (a : Fin nx) (b : Fin ny) => e a b l) (fun a b => (damped_strict hf (hε a a.2 b b.2 l hl)).le) _ _ (hm l hl) ?_ _ _ (heig _ _).1 (th l) (hth l hl), (heig _ _).2 (hd l hl _ _ (hm l hl))⟩
    intro C hC
    obtain ⟨C', h1, h2⟩ := (C15_entries (fun (a : Fin nx) (b : Fin ny) => e a b l) G).1 hres
    rw [h1] at hC
    cases hC
    ext i j
    rw [Matrix.map_apply, h2]
    exact zeroSmall_eq (hp l hl _ (List.get_mem _ _) _ (List.get_mem _ _))
  have huni : ∀ x : ℝ, 0 < x → SolverLayer ω kx ky G (fun ε => 0 ≤ (ω * ε).im) (uniformLayer ω kx ky (x : ℂ) 1) ∧ IsUnit (uniformLayer ω kx ky (x : ℂ) 1).phi.det := fun x hx =>
    ⟨.uniform _ _ zero_le_one (Complex.ofReal_ne_zero.2 hx.ne') (damped_passive hf (passive_pos hx).le), by simp [uniformLayer]⟩
  have hall : ∀ M ∈ uniformLayer ω kx ky (top : ℂ) 1 :: (List.range nl).map mid ++ [uniformLayer ω kx ky (bottom : ℂ) 1],
      SolverLayer ω kx ky G (fun ε => 0 ≤ (ω * ε).im) M ∧ IsUnit M.phi.det := by
    intro L hL
    simp only [List.mem_cons, List.cons_append, List.mem_append, List.mem_map, List.mem_range, List.not_mem_nil, or_false] at hL
    rcases hL with rfl | ⟨l, hl, rfl⟩ | rfl
    · exact huni top h0
    · exact hsl l hl
    · exact huni bottom hN
  obtain ⟨r, t, hrt⟩ := C113_damped_partial ω (damped_im hf) kx ky (fun i => (hkim i).1) (fun i => (hkim i).2) G _ _ _ hall (rtNormalization top 0) (planewave 0 0 1 0 ⟨0, Nat.succ_pos _⟩) 0
  refine ⟨r, t, hrt, ?_⟩
  exact C20_damped_partial ω (damped_re hf) (damped_im hf).le 0 top bottom h0 hN Lk.1 Lk.2 G ⟨0, Nat.succ_pos _⟩ rfl 1 1 zero_le_one ((List.range nl).map mid)
    (fun M hM => (hall M (by simp only [List.cons_append, List.mem_cons, List.mem_append]; exact Or.inr (Or.inl hM))).1)
    (fun M hM => (solverLayer_damped (damped_im hf) (fun i => (hkim i).1) (fun i => (hkim i).2) (hall M hM).1 (hall M hM).2).1.q) 1 0 (by simp) r t hrt

/-- C156, patterned layers: for every accepted config as in `C156_painted` and every grid of the announced shape whose cells absorb (or at least do not amplify at the damped frequencies), the forward simulation answers, and at
every frequency reflectance and transmittance are not negative and add up to at most one. Missing: patterns with Fourier coefficients that the filter of `Epsilon_fft` drops, layers whose matrix has no basis of eigenvectors, and
the configs of `C156_unresolved` and `C156_false`. -/
theorem C156_patterned_partial (eig : EigSolver) (heig : Eigensolver eig) (fdtd : Cfg → Except PyErr (List ℝ × List ℝ)) (sort : ℕ → ℝ × ℝ → ℝ × ℝ → List (ℤ × ℤ)) (hs : Sorts sort) (c : Cfg)
    (h : validateConfig c = .ok ()) (nx ny nl nf : ℕ) (top bottom : ℝ) (hu : GridRun c nx ny nl nf top bottom) (hx : 1 < nx) (hx3 : nx ≠ 3)
    (hr : ∀ Lk sel, OrdersOf sort c Lk sel → CellsResolve nx ny sel) (th : ℕ → ℝ) (ht : ThicknessesAre c nl th) (hth : ∀ l < nl, 0 ≤ th l) (g : Grid4 ℂ) (ε : ℕ → ℕ → ℕ → ℕ → ℂ)
    (hg : FullGrid g nx ny nl nf ε) (hε : ∀ x < nx, ∀ y < ny, ∀ l < nl, ∀ i < nf, -(ε x y l i).re / 2 / 1e5 < (ε x y l i).im)
    (hp : ∀ Lk sel, OrdersOf sort c Lk sel → ∀ l < nl, ∀ i < nf, ∀ k ∈ sel, ∀ k' ∈ sel, PassesFilter (fourierCoeff (fun (a : Fin nx) (b : Fin ny) => ε a b l i) (k - k')))
    (hd : ∀ Lk sel, OrdersOf sort c Lk sel → ∀ fs, cfgFrequencyPoints c = .ok fs → ∀ i < nf, ∀ f, fs[i]? = some f → ∀ l < nl, ∀ epinv ep2,
      epsilonFft (1 / nx / ny) (.iso fun (a : Fin nx) (b : Fin ny) => ε a b l i) sel.get = .ok (epinv, ep2) →
      ∃ lam phi, IsEig (eigenMat ep2 (kpPatterned (dampedOmega f) epinv (gridKx top f Lk sel.get) (gridKy top f Lk sel.get)) (gridKx top f Lk sel.get) (gridKy top f Lk sel.get)) lam phi ∧
        IsUnit phi.det) :
    ∃ fs Rs Ts, cfgFrequencyPoints c = .ok fs ∧ gridSpectrum eig fdtd sort c g = .ok (some (Rs, Ts)) ∧ fs.length = nf ∧ Rs.length = nf ∧ Ts.length = nf ∧
      ∀ (i : ℕ) (f r t : ℝ), fs[i]? = some f → Rs[i]? = some r → Ts[i]? = some t → 0 ≤ r ∧ 0 ≤ t ∧ r + t ≤ 1 := by
  obtain ⟨Lk, o, gs, hord, rfl, hnd, hpt⟩ := rcwaPoint_grid (eig := eig) hs hu (.inl hx) ht hg.sx hg.sy hg.sl
  refine forward_of_points fdtd sort _ h hu hg _ fun fs hfs i hi f hif hf => ?_
  rw [hpt]
  have hval : ∀ x < nx, ∀ y < ny, ∀ l < nl, (g.val x y l i).getD 0 = ε x y l i := fun x hx y hy l hl => by rw [hg.val x hx y hy l hl i hi]; rfl
  have hfun : ∀ l < nl, (fun (a : Fin nx) (b : Fin ny) => (g.val a b l i).getD 0) = fun (a : Fin nx) (b : Fin ny) => ε a b l i := fun l hl => by
    funext a b
    exact hval a a.2 b b.2 l hl
  refine patternedRT_ok heig hx hx3 _ (fun x hx y hy l hl => by rw [hval x hx y hy l hl]; exact hε x hx y hy l hl i hi) th hth hu.top.2 hu.bottom.2 Lk gs hnd (hr _ _ hord) hf
    (fun l hl => ?_) (fun l hl => ?_)
  · rw [hfun l hl]; exact hp _ _ hord l hl i hi
  · rw [hfun l hl]; exact hd _ _ hord fs hfs i hi f hif l hl

/-! ### grids that are refused -/

lemma run_layers_pos {c : Cfg} (h : validateConfig c = .ok ()) {nl : ℕ} (hl : SetTo c "N_layers" nl) : 0 < nl := by
  obtain ⟨n', hf', hp⟩ := positive_nat h (k := "N_layers") (by decide) (by decide)
  obtain ⟨v1, e1, d1⟩ := hf'
  obtain ⟨v2, e2, d2⟩ := hl
  rw [e1] at e2
  cases e2
  have := denotes_unique d1 d2
  have : n' = nl := by exact_mod_cast this
  omega

/-- C156: if the cells do not resolve the selected orders (two of them differ by `Nx` or more, or by `Ny` or more), the call ends in an IndexError, whatever the permittivities. -/
theorem C156_unresolved (eig : EigSolver) (fdtd : Cfg → Except PyErr (List ℝ × List ℝ)) (sort : ℕ → ℝ × ℝ → ℝ × ℝ → List (ℤ × ℤ)) (hs : Sorts sort) (c : Cfg)
    (h : validateConfig c = .ok ()) (nx ny nl nf : ℕ) (top bottom : ℝ) (hu : GridRun c nx ny nl nf top bottom) (hx : 1 < nx) (hx3 : nx ≠ 3)
    (hr : ∀ Lk sel, OrdersOf sort c Lk sel → ¬ CellsResolve nx ny sel) (th : ℕ → ℝ) (ht : ThicknessesAre c nl th) (g : Grid4 ℂ) (ε : ℕ → ℕ → ℕ → ℕ → ℂ) (hg : FullGrid g nx ny nl nf ε) :
    gridSpectrum eig fdtd sort c g = .error .indexError := by
  obtain ⟨Lk, o, gs, hord, rfl, hnd, hpt⟩ := rcwaPoint_grid (eig := eig) hs hu (.inl hx) ht hg.sx hg.sy hg.sl
  refine forward_of_error fdtd sort _ h hu hg fun i hi f hf => ?_
  rw [hpt]
  have hnl := run_layers_pos h hu.layers
  have h0 := hu.top.2
  have hN := hu.bottom.2
  generalize (fun x y l => (g.val x y l i).getD 0) = e
  obtain ⟨hp, h1, h2, h3, h4⟩ := gridStack_ok (ny := ny) (nl := nl) hx hx3 e th top bottom
  have hres : ¬ Resolved nx ny ((0, 0) :: gs).get := fun h' => hr _ _ hord (cellsResolve_iff.2 h')
  have hbad : gridLayerData eig (dampedOmega f) (gridKx top f Lk ((0, 0) :: gs).get) (gridKy top f Lk ((0, 0) :: gs).get) ((0, 0) :: gs).get nx ny (.iso fun p q => e p q 0) (th 0) = .error .indexError := by
    unfold gridLayerData
    simp only [Pattern.toEps, epsilonFft]
    rw [(C15_entries _ _).2 hres]
    rfl
  unfold gridRT
  dsimp only
  rw [hp, ok_bind, if_neg (by rintro (h | h | h) <;> linarith), h1, List.range_succ_eq_map, List.mapM_cons, h2]
  rw [show nl + 1 = (nl - 1 + 1) + 1 by omega, List.range_succ_eq_map, List.map_cons, List.mapM_cons]
  rw [show Nat.succ 0 = 0 + 1 from rfl, h3 0 hnl, lookup_range nl _ hnl]
  dsimp only
  rw [ok_bind]
  have hbad' : gridLayerData eig (dampedOmega f) (fun i => waveX (dampedOmega f) 0 0 top Lk.1 Lk.2 (((0, 0) :: gs).get i)) (fun i => waveY (dampedOmega f) 0 0 top Lk.1 Lk.2 (((0, 0) :: gs).get i))
      ((0, 0) :: gs).get nx ny (.iso fun p q => e p q 0) (th 0) = .error .indexError := hbad
  rw [hbad']
  rfl

/-- what the stack refuses, the call refuses -/
lemma grid_refused (eig : EigSolver) (fdtd : Cfg → Except PyErr (List ℝ × List ℝ)) {sort : ℕ → ℝ × ℝ → ℝ × ℝ → List (ℤ × ℤ)} (hs : Sorts sort) {c : Cfg}
    (h : validateConfig c = .ok ()) {nx ny nl nf : ℕ} {top bottom : ℝ} (hu : GridRun c nx ny nl nf top bottom) (hxy : nx > 1 ∨ ny > 1) {th : ℕ → ℝ} (ht : ThicknessesAre c nl th) {g : Grid4 ℂ}
    {ε : ℕ → ℕ → ℕ → ℕ → ℂ} (hg : FullGrid g nx ny nl nf ε)
    (hbad : ∀ (e : ℕ → ℕ → ℕ → ℂ) (per : List ℝ), (∀ i < nl, UserThickness per i (th i)) → initTrcwa nx ny nl e (top : ℂ) (bottom : ℂ) per 1 = .error .runtimeError) :
    gridSpectrum eig fdtd sort c g = .error .runtimeError := by
  obtain ⟨Lk, o, gs, hord, rfl, hnd, hpt⟩ := rcwaPoint_grid (eig := eig) hs hu hxy ht hg.sx hg.sy hg.sl
  refine forward_of_error fdtd sort _ h hu hg fun i hi f hf => ?_
  rw [hpt]
  obtain ⟨vs, ts, -, -, huser⟩ := ht
  have := hbad (fun x y l => (g.val x y l i).getD 0) ts huser
  rw [geteps_of_init nx ny nl hxy _ th top bottom huser] at this
  unfold gridRT
  dsimp only
  cases hp : gridLayerGeteps (gridStack nx ny nl (fun x y l => (g.val x y l i).getD 0) th top bottom) (EpsTensor.d3 nx ny nl fun x y l => (g.val x y l i).getD 0).squeeze0.squeeze0 with
  | ok p => rw [hp, ok_bind] at this; cases this
  | error e =>
    rw [hp] at this
    cases this
    rfl

/-- C156 is false of the code for three columns, and for one row of several cells (other than three) in several layers: whatever the permittivities, the accepted config ends in a RuntimeError. -/
theorem C156_columns_false (eig : EigSolver) (fdtd : Cfg → Except PyErr (List ℝ × List ℝ)) (sort : ℕ → ℝ × ℝ → ℝ × ℝ → List (ℤ × ℤ)) (hs : Sorts sort) (c : Cfg)
    (h : validateConfig c = .ok ()) (nx ny nl nf : ℕ) (top bottom : ℝ) (hu : GridRun c nx ny nl nf top bottom) (hbad : nx = 3 ∨ (nx = 1 ∧ 2 ≤ ny ∧ ny ≠ 3 ∧ 2 ≤ nl))
    (th : ℕ → ℝ) (ht : ThicknessesAre c nl th) (g : Grid4 ℂ) (ε : ℕ → ℕ → ℕ → ℕ → ℂ) (hg : FullGrid g nx ny nl nf ε) :
    gridSpectrum eig fdtd sort c g = .error .runtimeError := by
  have hny : 1 ≤ ny := by
    obtain ⟨n', hf', hp⟩ := positive_nat h (k := "Ny") (by decide) (by decide)
    obtain ⟨v1, e1, d1⟩ := hf'
    obtain ⟨v2, e2, d2⟩ := hu.ny
    rw [e1] at e2
    cases e2
    have := denotes_unique d1 d2
    have : n' = ny := by exact_mod_cast this
    omega
  refine grid_refused eig fdtd hs h hu (by omega) ht hg fun e per hper => ?_
  rcases hbad with rfl | ⟨rfl, h2, h3, h4⟩
  · exact C12_three_columns_false ny nl e _ _ per 1 th hny (run_layers_pos h hu.layers) hper
  · exact C12_single_row_false ny nl e _ _ per 1 th h2 h3 h4 hper

/-! ### when the cells resolve the orders -/

lemma perpendicular_count {Lk1 Lk2 : ℝ × ℝ} (hp : Lk1.1 * Lk2.1 + Lk1.2 * Lk2.2 = 0) {sel : List (ℤ × ℤ)} (hnd : sel.Nodup) (hcl : ∀ g ∈ sel, ∀ h : ℤ × ℤ, lenSq Lk1 Lk2 h ≤ lenSq Lk1 Lk2 g → h ∈ sel)
    {g : ℤ × ℤ} (hg : g ∈ sel) : 2 * |g.1| + 1 ≤ sel.length ∧ 2 * |g.2| + 1 ≤ sel.length := by
  classical
  have hlen : ∀ z : ℤ × ℤ, lenSq Lk1 Lk2 z = (z.1 : ℝ) ^ 2 * (Lk1.1 ^ 2 + Lk1.2 ^ 2) + (z.2 : ℝ) ^ 2 * (Lk2.1 ^ 2 + Lk2.2 ^ 2) := by
    intro z
    simp only [lenSq]
    linear_combination 2 * (z.1 : ℝ) * z.2 * hp
  have hA : 0 ≤ Lk1.1 ^ 2 + Lk1.2 ^ 2 := by positivity
  have hB : 0 ≤ Lk2.1 ^ 2 + Lk2.2 ^ 2 := by positivity
  have hsq : ∀ {z w : ℤ}, z ∈ Finset.Icc (-|w|) |w| → (z : ℝ) ^ 2 ≤ (w : ℝ) ^ 2 := by
    intro z w hz
    have h1 := Finset.mem_Icc.1 hz
    have h2 : z ^ 2 ≤ w ^ 2 := sq_le_sq.2 (abs_le.2 h1)
    exact_mod_cast h2
  have hcard : ∀ w : ℤ, ((Finset.Icc (-|w|) |w|).card : ℤ) = 2 * |w| + 1 := by
    intro w
    rw [Int.card_Icc]
    have := abs_nonneg w
    omega
  have key : ∀ (F : ℤ → ℤ × ℤ) (w : ℤ), Function.Injective F → (∀ z ∈ Finset.Icc (-|w|) |w|, F z ∈ sel) → 2 * |w| + 1 ≤ (sel.length : ℤ) := by
    intro F w hF hmem
    have h1 : ((Finset.Icc (-|w|) |w|).image F) ⊆ sel.toFinset := by
      intro x hx
      obtain ⟨z, hz, rfl⟩ := Finset.mem_image.1 hx
      exact List.mem_toFinset.2 (hmem z hz)
    have h2 := Finset.card_le_card h1
    rw [Finset.card_image_of_injective _ hF, List.toFinset_card_of_nodup hnd] at h2
    rw [← hcard]
    exact_mod_cast h2
  constructor
  · refine key (fun z => (z, 0)) g.1 (fun x y h => (Prod.mk.inj h).1) fun z hz => hcl g hg _ ?_
    rw [hlen, hlen]
    have := mul_le_mul_of_nonneg_right (hsq hz) hA
    have := mul_nonneg (sq_nonneg (g.2 : ℝ)) hB
    simp only [Int.cast_zero]
    linarith
  · refine key (fun z => (0, z)) g.2 (fun x y h => (Prod.mk.inj h).2) fun z hz => hcl g hg _ ?_
    rw [hlen, hlen]
    have := mul_le_mul_of_nonneg_right (hsq hz) hB
    have := mul_nonneg (sq_nonneg (g.1 : ℝ)) hA
    simp only [Int.cast_zero]
    linarith

/-- C156: on a rectangular lattice, cells resolve the orders whenever there are at least `TRCWA_NG - 1` of them in each direction. -/
theorem C156_resolved (sort : ℕ → ℝ × ℝ → ℝ × ℝ → List (ℤ × ℤ)) (hs : Sorts sort) (c : Cfg) (a b d e : ℚ) (hl : LatticeIs c a b d e) (hcell : ProperCell a b d e) (hperp : a * d + b * e = 0)
    (z : ℤ) (hz : SetToInt c "TRCWA_NG" z) (hz2 : 2 ≤ z) (nx ny : ℕ) (hx : z ≤ nx + 1) (hy : z ≤ ny + 1) :
    ∀ Lk sel, OrdersOf sort c Lk sel → CellsResolve nx ny sel := by
  rintro Lk sel ⟨a', b', d', e', hl', hLk, hsel⟩
  obtain ⟨va, vb, vd, ve, hv, ha, hb, hd, he⟩ := hl
  obtain ⟨va', vb', vd', ve', hv', ha', hb', hd', he'⟩ := hl'
  rw [hv] at hv'
  cases hv'
  obtain rfl := denotes_unique ha ha'
  obtain rfl := denotes_unique hb hb'
  obtain rfl := denotes_unique hd hd'
  obtain rfl := denotes_unique he he'
  obtain ⟨Lk', sel', hLk', -, -, hc⟩ := cfgOrders_ok hs hcell (c := c) ⟨z, hz, hz2⟩
  rw [hLk] at hLk'
  cases hLk'
  have hperp' : Lk.1.1 * Lk.2.1 + Lk.1.2 * Lk.2.2 = 0 := by
    have h1 : latticeReciprocate [(a : ℝ), b] [(d : ℝ), e] = .ok Lk := hLk
    have h2 : (a : ℝ) * d + b * e = 0 := by exact_mod_cast hperp
    unfold latticeReciprocate at h1
    by_cases hD : (a : ℝ) * e - b * d = 0
    · simp only [if_pos hD] at h1
      cases h1
    · simp only [if_neg hD, Except.ok.injEq] at h1
      rw [← h1]
      have key : ∀ D : ℝ, (e : ℝ) / D * (-b / D) + -d / D * (a / D) = -(a * d + b * e) / D ^ 2 := fun D => by ring
      have e1 := key (a * e - b * d)
      rw [h2, neg_zero, zero_div] at e1
      exact e1
  obtain ⟨sel', h1, hlen, hnd, -, hcl, -⟩ := C14_whole_shells z.toNat (by omega) Lk.1 Lk.2 hc _ (hs z.toNat _ _)
  unfold cfgOrders at hsel
  rw [get_ok.2 hz, ok_bind] at hsel
  have hsel : (gselCircular z.toNat Lk.1 Lk.2 (sort z.toNat Lk.1 Lk.2) >>= fun r => Except.ok r.1) = .ok sel := hsel
  rw [h1, ok_bind] at hsel
  cases hsel
  intro g hg h hh
  obtain ⟨g1, g2⟩ := perpendicular_count hperp' hnd hcl hg
  obtain ⟨h1, h2⟩ := perpendicular_count hperp' hnd hcl hh
  have t1 := abs_sub g.1 h.1
  have t2 := abs_sub g.2 h.2
  constructor <;> omega

/-- the default config with `nx` times `ny` cells per layer -/
def defaultCells (nx ny : ℕ) : Cfg := (defaultConfig.set "Nx" (.int nx)).set "Ny" (.int ny)

lemma defaultCells_lookup (nx ny : ℕ) {k : String} (h1 : k ≠ "Nx") (h2 : k ≠ "Ny") : (defaultCells nx ny).lookup k = defaultConfig.lookup k := by
  unfold defaultCells
  rw [lookup_set, if_neg h2, lookup_set, if_neg h1]

lemma defaultCells_run (nx ny : ℕ) : GridRun (defaultCells nx ny) nx ny 8 20 1 1 := by
  have hl : ∀ {k : String} {v : Val}, k ≠ "Nx" → k ≠ "Ny" → defaultConfig.lookup k = some v → (defaultCells nx ny).lookup k = some v := fun h1 h2 h => by
    rw [defaultCells_lookup nx ny h1 h2, h]
  exact ⟨hl (by decide) (by decide) rfl, ⟨.int nx, by unfold defaultCells; rw [lookup_set, if_neg (by decide), lookup_set, if_pos rfl], by simpa using Denotes.int nx⟩,
    ⟨.int ny, by unfold defaultCells; rw [lookup_set, if_pos rfl], by simpa using Denotes.int ny⟩,
    ⟨_, hl (by decide) (by decide) rfl, by simpa using Denotes.int 8⟩, ⟨_, hl (by decide) (by decide) rfl, by simpa using Denotes.int 20⟩,
    ⟨_, _, _, _, _, hl (by decide) (by decide) rfl, Denotes.float _, Denotes.float _, by norm_num, by norm_num⟩,
    ⟨_, _, _, _, ⟨_, _, _, _, hl (by decide) (by decide) rfl, Denotes.float _, Denotes.float _, Denotes.float _, Denotes.float _⟩, by unfold ProperCell; norm_num [abs_of_pos]⟩,
    ⟨11, hl (by decide) (by decide) rfl, by norm_num⟩,
    ⟨⟨1, ⟨_, hl (by decide) (by decide) rfl, Denotes.float _⟩, by norm_num⟩, by norm_num⟩, ⟨⟨1, ⟨_, hl (by decide) (by decide) rfl, Denotes.float _⟩, by norm_num⟩, by norm_num⟩⟩

lemma defaultCells_thickness (nx ny : ℕ) : ThicknessesAre (defaultCells nx ny) 8 (fun _ => 1) :=
  ⟨[.float 1], [1], by rw [defaultCells_lookup nx ny (by decide) (by decide)]; rfl, .cons ⟨1, Denotes.float _, by norm_num⟩ .nil, fun _ _ => Or.inl rfl⟩

lemma defaultCells_lattice (nx ny : ℕ) : LatticeIs (defaultCells nx ny) (1 / 10) 0 0 (1 / 10) :=
  ⟨.float (1 / 10), .float 0, .float 0, .float (1 / 10), by rw [defaultCells_lookup nx ny (by decide) (by decide)]; rfl, Denotes.float _, Denotes.float _, Denotes.float _, Denotes.float _⟩

lemma default_proper : ProperCell (1 / 10) 0 0 (1 / 10) := by unfold ProperCell; norm_num [abs_of_pos]

/-- the default config with ten times ten cells per layer, all of the same absorbing glass, meets the hypotheses of `C156_painted` and `C156_resolved` -/
example (eig : EigSolver) (heig : Eigensolver eig) (fdtd : Cfg → Except PyErr (List ℝ × List ℝ)) (sort : ℕ → ℝ × ℝ → ℝ × ℝ → List (ℤ × ℤ)) (hs : Sorts sort) :
    ∃ Rs Ts, gridSpectrum eig fdtd sort (defaultCells 10 10) ⟨10, 10, 8, 20, fun _ _ _ _ => some (4 + Complex.I)⟩ = .ok (some (Rs, Ts)) ∧ Rs.length = 20 ∧ Ts.length = 20 := by
  obtain ⟨fs, Rs, Ts, -, h1, -, h2, h3, -⟩ := C156_painted eig heig fdtd sort hs (defaultCells 10 10) (by decide +kernel) 10 10 8 20 1 1 (defaultCells_run 10 10) (by norm_num) (by norm_num)
    (C156_resolved sort hs _ _ _ _ _ (defaultCells_lattice 10 10) default_proper (by norm_num) 11 (defaultCells_lookup 10 10 (by decide) (by decide)) (by norm_num) 10 10 (by norm_num) (by norm_num))
    (fun _ => 1) (defaultCells_thickness 10 10) (fun _ _ => zero_le_one) ⟨10, 10, 8, 20, fun _ _ _ _ => some (4 + Complex.I)⟩ (fun _ _ => 4 + Complex.I) ⟨rfl, rfl, rfl, rfl, fun _ _ _ _ _ _ _ _ => rfl⟩
    (fun _ _ _ _ => ⟨fun h => by simpa using congrArg Complex.im h, by norm_num⟩) (fun _ _ _ _ => Or.inr (Or.inl (by norm_num)))
  exact ⟨Rs, Ts, h1, h2, h3⟩

/-- the contract of the eigensolver can be met -/
example : ∃ eig, Eigensolver eig := by
  classical
  refine ⟨fun n M => if h : ∃ p : (Fin n ⊕ Fin n → ℂ) × Matrix (Fin n ⊕ Fin n) (Fin n ⊕ Fin n) ℂ, IsEig M p.1 p.2 ∧ IsUnit p.2.det then h.choose else (0, 0), fun n M => ?_⟩
  by_cases h : ∃ p : (Fin n ⊕ Fin n → ℂ) × Matrix (Fin n ⊕ Fin n) (Fin n ⊕ Fin n) ℂ, IsEig M p.1 p.2 ∧ IsUnit p.2.det
  · simp only [dif_pos h]
    exact ⟨h.choose_spec.1, fun _ => h.choose_spec.2⟩
  · simp only [dif_neg h]
    refine ⟨by simp [IsEig], fun ⟨lam, phi, h1, h2⟩ => absurd ⟨(lam, phi), h1, h2⟩ h⟩

/-- C156 is false of the code for the default config with two times two cells per layer, which is accepted: nine orders are selected, more than the cells resolve, and every grid ends in an IndexError. -/
theorem C156_false (eig : EigSolver) (fdtd : Cfg → Except PyErr (List ℝ × List ℝ)) (sort : ℕ → ℝ × ℝ → ℝ × ℝ → List (ℤ × ℤ)) (hs : Sorts sort) :
    validateConfig (defaultCells 2 2) = .ok () ∧ ∀ ε : ℕ → ℕ → ℕ → ℕ → ℂ, gridSpectrum eig fdtd sort (defaultCells 2 2) ⟨2, 2, 8, 20, fun x y l i => some (ε x y l i)⟩ = .error .indexError := by
  refine ⟨by decide +kernel, fun ε => C156_unresolved eig fdtd sort hs _ (by decide +kernel) 2 2 8 20 1 1 (defaultCells_run 2 2) (by norm_num) (by norm_num) ?_ (fun _ => 1) (defaultCells_thickness 2 2) _ ε
    ⟨rfl, rfl, rfl, rfl, fun _ _ _ _ _ _ _ _ => rfl⟩⟩
  rintro Lk sel ⟨a', b', d', e', hl', hLk, hsel⟩ hres
  obtain ⟨va, vb, vd, ve, hv, ha, hb, hd, he⟩ := defaultCells_lattice 2 2
  obtain ⟨va', vb', vd', ve', hv', ha', hb', hd', he'⟩ := hl'
  rw [hv] at hv'
  cases hv'
  obtain rfl := denotes_unique ha ha'
  obtain rfl := denotes_unique hb hb'
  obtain rfl := denotes_unique hd hd'
  obtain rfl := denotes_unique he he'
  have hLk' : rowsReciprocal [[1 / 10, 0], [0, 1 / 10]] = .ok ((10, 0), (0, 10)) := by
    simp [rowsReciprocal, latticeReciprocate]
  rw [hLk'] at hLk
  cases hLk
  obtain ⟨sel', h1, h2⟩ := C14_maximal 11 (10, 0) (0, 10) (by simp [cross2]) _ (hs 11 _ _) _ (by rw [(nine_shortest (L := 10) (by norm_num)).1]; norm_num) (nine_shortest (by norm_num)).2
  unfold cfgOrders at hsel
  rw [get_ok.2 (defaultCells_lookup 2 2 (by decide) (by decide)), ok_bind] at hsel
  have hsel : (gselCircular 11 (10, 0) (0, 10) (sort 11 (10, 0) (0, 10)) >>= fun r => Except.ok r.1) = .ok sel := hsel
  rw [h1, ok_bind] at hsel
  cases hsel
  have := (hres (1, 0) (h2 _ (by decide)) (-1, 0) (h2 _ (by decide))).1
  norm_num at this

/-- three columns and a single row of the default config meet the hypotheses of `C156_columns_false` -/
example (eig : EigSolver) (fdtd : Cfg → Except PyErr (List ℝ × List ℝ)) (sort : ℕ → ℝ × ℝ → ℝ × ℝ → List (ℤ × ℤ)) (hs : Sorts sort) :
    gridSpectrum eig fdtd sort (defaultCells 3 10) ⟨3, 10, 8, 20, fun _ _ _ _ => some 1⟩ = .error .runtimeError ∧
    gridSpectrum eig fdtd sort (defaultCells 1 10) ⟨1, 10, 8, 20, fun _ _ _ _ => some 1⟩ = .error .runtimeError :=
  ⟨C156_columns_false eig fdtd sort hs _ (by decide +kernel) 3 10 8 20 1 1 (defaultCells_run 3 10) (by norm_num) (fun _ => 1) (defaultCells_thickness 3 10) _ (fun _ _ _ _ => 1)
    ⟨rfl, rfl, rfl, rfl, fun _ _ _ _ _ _ _ _ => rfl⟩,
  C156_columns_false eig fdtd sort hs _ (by decide +kernel) 1 10 8 20 1 1 (defaultCells_run 1 10) (by norm_num) (fun _ => 1) (defaultCells_thickness 1 10) _ (fun _ _ _ _ => 1)
    ⟨rfl, rfl, rfl, rfl, fun _ _ _ _ _ _ _ _ => rfl⟩⟩

/-- a checkerboard of silicon and vacuum -/
noncomputable def checkerboard (x y : ℕ) : ℂ := if (x + y) % 2 = 0 then 12 else 1

/-- a single order has a basis of eigenvectors -/
lemma one_order_eig {nx ny : ℕ} {s : Fin nx → Fin ny → ℂ} {ω : ℂ} {kx ky : Fin 1 → ℂ} (hx : kx = 0) (hy : ky = 0) {G : Fin 1 → ℤ × ℤ} {epinv : Matrix (Fin 1) (Fin 1) ℂ}
    {ep2 : Matrix (Fin 1 ⊕ Fin 1) (Fin 1 ⊕ Fin 1) ℂ} (h : epsilonFft (1 / nx / ny) (.iso s) G = .ok (epinv, ep2)) (hf : ∀ C, getConv (1 / nx / ny) s G = .ok C → C.map zeroSmall = C) :
    ∃ lam phi, IsEig (eigenMat ep2 (kpPatterned ω epinv kx ky) kx ky) lam phi ∧ IsUnit phi.det := by
  obtain ⟨C, -, -, -, h2⟩ := epsilonFft_spec h hf
  subst hx hy
  have hj : jkMat (0 : Fin 1 → ℂ) 0 = 0 := by
    ext (i | i) j <;> simp [jkMat]
  have hkm : kMat (0 : Fin 1 → ℂ) 0 = 0 := by
    ext (i | i) j <;> simp [kMat]
  refine ⟨fun _ => C 0 0 * ω ^ 2, 1, ?_, by simp⟩
  rw [IsEig, eigenMat, hkm, Matrix.zero_mul, sub_zero, kpPatterned, hj, Matrix.zero_mul, Matrix.zero_mul, sub_zero, h2, Matrix.mul_one, Matrix.one_mul]
  ext (i | i) (j | j)
  · rw [Subsingleton.elim i 0, Subsingleton.elim j 0]; simp; ring
  · simp
  · simp
  · rw [Subsingleton.elim i 0, Subsingleton.elim j 0]; simp; ring

/-- the default config with a request of two orders and layers of two times two cells in a checkerboard meets the hypotheses of `C156_patterned_partial` -/
example (eig : EigSolver) (heig : Eigensolver eig) (fdtd : Cfg → Except PyErr (List ℝ × List ℝ)) (sort : ℕ → ℝ × ℝ → ℝ × ℝ → List (ℤ × ℤ)) (hs : Sorts sort) :
    ∃ Rs Ts, gridSpectrum eig fdtd sort ((defaultCells 2 2).set "TRCWA_NG" (.int 2)) ⟨2, 2, 8, 20, fun x y _ _ => some (checkerboard x y)⟩ = .ok (some (Rs, Ts)) ∧ Rs.length = 20 ∧ Ts.length = 20 := by
  set c := (defaultCells 2 2).set "TRCWA_NG" (.int 2) with hc
  have hl : ∀ {k : String} {v : Val}, k ≠ "TRCWA_NG" → (defaultCells 2 2).lookup k = some v → c.lookup k = some v := fun h h' => by rw [hc, lookup_set, if_neg h, h']
  have hng : c.lookup "TRCWA_NG" = some (.int 2) := by rw [hc, lookup_set, if_pos rfl]
  have hu : GridRun c 2 2 8 20 1 1 := by
    obtain ⟨h1, ⟨v2, h2, d2⟩, ⟨v3, h3, d3⟩, ⟨v4, h4, d4⟩, ⟨v5, h5, d5⟩, ⟨v, w, rest, a, b, h6, d6⟩, ⟨a1, b1, d1, e1, ⟨va, vb, vd, ve, h7, d7⟩, d7'⟩, -, ⟨⟨q8, ⟨v8, h8, d8⟩, e8⟩, p8⟩, ⟨⟨q9, ⟨v9, h9, d9⟩, e9⟩, p9⟩⟩ :=
      defaultCells_run 2 2
    exact ⟨hl (by decide) h1, ⟨v2, hl (by decide) h2, d2⟩, ⟨v3, hl (by decide) h3, d3⟩, ⟨v4, hl (by decide) h4, d4⟩, ⟨v5, hl (by decide) h5, d5⟩, ⟨v, w, rest, a, b, hl (by decide) h6, d6⟩,
      ⟨a1, b1, d1, e1, ⟨va, vb, vd, ve, hl (by decide) h7, d7⟩, d7'⟩, ⟨2, hng, le_rfl⟩, ⟨⟨q8, ⟨v8, hl (by decide) h8, d8⟩, e8⟩, p8⟩, ⟨⟨q9, ⟨v9, hl (by decide) h9, d9⟩, e9⟩, p9⟩⟩
  have hone : ∀ Lk sel, OrdersOf sort c Lk sel → sel = [(0, 0)] := by
    rintro Lk sel ⟨a', b', d', e', hl', hLk, hsel⟩
    obtain ⟨va, vb, vd, ve, a, b, d, e, Lk', g, gs, hL, ha, hb, hd, he, hLk', hsel', rfl, hnd, -⟩ := ordersOf_ok hs hu
    obtain ⟨va', vb', vd', ve', hv', ha', hb', hd', he'⟩ := hl'
    rw [hL] at hv'
    cases hv'
    obtain rfl := denotes_unique ha ha'
    obtain rfl := denotes_unique hb hb'
    obtain rfl := denotes_unique hd hd'
    obtain rfl := denotes_unique he he'
    rw [hLk] at hLk'
    cases hLk'
    rw [hsel] at hsel'
    cases hsel'
    obtain ⟨a1, b1, d1, e1, hl1, hcell⟩ := hu.lattice
    obtain ⟨va', vb', vd', ve', hv', ha', hb', hd', he'⟩ := hl1
    rw [hL] at hv'
    cases hv'
    obtain rfl := denotes_unique ha ha'
    obtain rfl := denotes_unique hb hb'
    obtain rfl := denotes_unique hd hd'
    obtain rfl := denotes_unique he he'
    obtain ⟨Lk', sel', hLk', -, -, hcr⟩ := cfgOrders_ok hs hcell (c := c) ⟨2, hng, le_rfl⟩
    rw [hLk] at hLk'
    cases hLk'
    obtain ⟨sel', h1, hlen, -⟩ := C14_whole_shells 2 (by omega) Lk.1 Lk.2 hcr _ (hs 2 _ _)
    unfold cfgOrders at hsel
    rw [get_ok.2 hng, ok_bind] at hsel
    have hsel : (gselCircular 2 Lk.1 Lk.2 (sort 2 Lk.1 Lk.2) >>= fun r => Except.ok r.1) = .ok ((0, 0) :: gs) := hsel
    rw [h1, ok_bind] at hsel
    cases hsel
    cases gs with
    | nil => rfl
    | cons h t => simp at hlen
  have hres : ∀ Lk sel, OrdersOf sort c Lk sel → CellsResolve 2 2 sel := by
    intro Lk sel h g hg k hk
    rw [hone Lk sel h] at hg hk
    simp only [List.mem_singleton] at hg hk
    rw [hg, hk]
    norm_num
  have hfc : ∀ Lk sel, OrdersOf sort c Lk sel → ∀ k ∈ sel, ∀ k' ∈ sel, PassesFilter (fourierCoeff (fun (a : Fin 2) (b : Fin 2) => checkerboard a b) (k - k')) := by
    intro Lk sel h g hg k hk
    rw [hone Lk sel h] at hg hk
    simp only [List.mem_singleton] at hg hk
    rw [hg, hk]
    refine Or.inr (Or.inl ?_)
    simp [fourierCoeff, checkerboard, Fin.sum_univ_two]
    norm_num
  obtain ⟨fs, Rs, Ts, -, h1, -, h2, h3, -⟩ := C156_patterned_partial eig heig fdtd sort hs c (by decide +kernel) 2 2 8 20 1 1 hu (by norm_num) (by norm_num) hres (fun _ => 1)
    (by obtain ⟨vs, ts, hvs, hr⟩ := defaultCells_thickness 2 2; exact ⟨vs, ts, hl (by decide) hvs, hr⟩) (fun _ _ => zero_le_one) ⟨2, 2, 8, 20, fun x y _ _ => some (checkerboard x y)⟩ (fun x y _ _ => checkerboard x y)
    ⟨rfl, rfl, rfl, rfl, fun _ _ _ _ _ _ _ _ => rfl⟩ (fun x _ y _ _ _ _ _ => by unfold checkerboard; split_ifs <;> norm_num) (fun Lk sel h _ _ _ _ => hfc Lk sel h) (fun Lk sel h fs _ i _ f _ l _ epinv ep2 he => by
      have hr := hres Lk sel h
      have hf := hfc Lk sel h
      obtain rfl := hone Lk sel h
      refine one_order_eig ?_ ?_ he fun C hC => ?_
      · funext (i : Fin 1); rw [Subsingleton.elim i 0]; exact (kOf_zero_order _ 0 1 Lk.1 Lk.2 rfl).1
      · funext (i : Fin 1); rw [Subsingleton.elim i 0]; exact (kOf_zero_order _ 0 1 Lk.1 Lk.2 rfl).2
      · obtain ⟨C', h1, h2⟩ := (C15_entries (fun (a : Fin 2) (b : Fin 2) => checkerboard a b) [((0 : ℤ), (0 : ℤ))].get).1 (cellsResolve_iff.1 hr)
        rw [h1] at hC
        cases hC
        ext i j
        rw [Matrix.map_apply, h2]
        exact zeroSmall_eq (hf _ (List.get_mem _ _) _ (List.get_mem _ _)))
  exact ⟨Rs, Ts, h1, h2, h3⟩

end Nidn
