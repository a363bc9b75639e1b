/-
C137: the forward simulation with the RCWA solver, from the config to the spectra of a stack of uniform layers.
-/
import Verif.Model.RcwaEntry
import Verif.Props.RcwaDriver
import Verif.Props.TrcwaLayers
import Verif.Props.Lattice
import Verif.Props.Units
import Verif.Props.Materials
import Verif.Props.TrainBuild
import Verif.Props.Shapes
import Verif.Props.FilmsCases
import Verif.Spec.FdtdConfig

namespace Nidn

/-! ### what the user supplies -/

/-- the lattice of config `c` has the two basis vectors `(a, b)` and `(d, e)` -/
def LatticeIs (c : Cfg) (a b d e : ℚ) : Prop :=
  ∃ va vb vd ve, c.lookup "TRCWA_L_grid" = some (.list [.list [va, vb], .list [vd, ve]]) ∧ Denotes va a ∧ Denotes vb b ∧ Denotes vd d ∧ Denotes ve e

/-- the unit cell is not degenerate: its area exceeds 1e-5 times the square of its longer side -/
def ProperCell (a b d e : ℚ) : Prop := 1e-5 * max (a ^ 2 + b ^ 2) (d ^ 2 + e ^ 2) < |a * e - b * d|

/-- the thicknesses of the layers according to config `c`: the single entry for all, or an entry for each -/
def ThicknessesAre (c : Cfg) (nl : ℕ) (th : ℕ → ℝ) : Prop :=
  ∃ vs ts, c.lookup "PER_LAYER_THICKNESS" = some (.list vs) ∧ DenotesList vs ts ∧ ∀ l < nl, ts = [th l] ∨ (ts.length ≠ 1 ∧ ts[l]? = some (th l))

/-- `sort` sorts the candidate orders by length, in whatever way ties are broken -/
def Sorts (sort : ℕ → ℝ × ℝ → ℝ × ℝ → List (ℤ × ℤ)) : Prop :=
  ∀ n Lk1 Lk2, IsSortOf Lk1 Lk2 (candidates n Lk1 Lk2) (sort n Lk1 Lk2)

/-- what the theorem below asks of an accepted config in addition: RCWA, uniform layers, positive wavelengths, two lattice vectors spanning a proper cell, at least two orders, positive permittivities around the stack -/
structure UniformRun (c : Cfg) (nl nf : ℕ) (top bottom : ℝ) : Prop where
  solver : c.lookup "solver" = some (.str "TRCWA")
  nx : SetTo c "Nx" 1
  ny : SetTo c "Ny" 1
  layers : SetTo c "N_layers" nl
  freqs : SetTo c "N_freq" nf
  wavelengths : PositiveWavelengths c
  lattice : ∃ a b d e, LatticeIs c a b d e ∧ ProperCell a b d e
  orders : ∃ z, SetToInt c "TRCWA_NG" z ∧ 2 ≤ z
  top : SetToReal c "TRCWA_TOP_LAYER_EPS" top ∧ 0 < top
  bottom : SetToReal c "TRCWA_BOTTOM_LAYER_EPS" bottom ∧ 0 < bottom

/-! ### the lattice -/

/-- an integer combination of the cell's dual basis is not shorter than the cell allows -/
lemma cell_bound {a b d e : ℝ} (x y : ℤ) (h : ¬ (x = 0 ∧ y = 0)) :
    (a * e - b * d) ^ 2 ≤ ((x * e - y * b) ^ 2 + (y * a - x * d) ^ 2) * max (a ^ 2 + b ^ 2) (d ^ 2 + e ^ 2) := by
  have hsq : ∀ z : ℤ, z ≠ 0 → (1 : ℝ) ≤ (z : ℝ) ^ 2 := by
    intro z hz
    have h1 : 0 < z ^ 2 := by positivity
    have h2 : (1 : ℤ) ≤ z ^ 2 := h1
    exact_mod_cast h2
  have hS : 0 ≤ ((x : ℝ) * e - y * b) ^ 2 + (y * a - x * d) ^ 2 := by positivity
  by_cases h0 : x = 0
  · have i1 := hsq y fun h' => h ⟨h0, h'⟩
    calc (a * e - b * d) ^ 2 = 1 * (a * e - b * d) ^ 2 := (one_mul _).symm
      _ ≤ (y : ℝ) ^ 2 * (a * e - b * d) ^ 2 := mul_le_mul_of_nonneg_right i1 (sq_nonneg _)
      _ ≤ ((x * e - y * b) ^ 2 + (y * a - x * d) ^ 2) * (d ^ 2 + e ^ 2) := by
          have := sq_nonneg (((x : ℝ) * e - y * b) * e - (y * a - x * d) * d)
          have e1 : (y : ℝ) ^ 2 * (a * e - b * d) ^ 2 = ((x * e - y * b) * d + (y * a - x * d) * e) ^ 2 := by ring
          rw [e1]; linarith
      _ ≤ _ := mul_le_mul_of_nonneg_left (le_max_right _ _) hS
  · have i1 := hsq x h0
    calc (a * e - b * d) ^ 2 = 1 * (a * e - b * d) ^ 2 := (one_mul _).symm
      _ ≤ (x : ℝ) ^ 2 * (a * e - b * d) ^ 2 := mul_le_mul_of_nonneg_right i1 (sq_nonneg _)
      _ ≤ ((x * e - y * b) ^ 2 + (y * a - x * d) ^ 2) * (a ^ 2 + b ^ 2) := by
          have := sq_nonneg (((x : ℝ) * e - y * b) * b - (y * a - x * d) * a)
          have e1 : (x : ℝ) ^ 2 * (a * e - b * d) ^ 2 = ((x * e - y * b) * a + (y * a - x * d) * b) ^ 2 := by ring
          rw [e1]; linarith
      _ ≤ _ := mul_le_mul_of_nonneg_left (le_max_left _ _) hS

/-- a proper cell has no reciprocal lattice vector within the tolerance of the order selection -/
lemma proper_short {a b d e D : ℝ} (hD : D = a * e - b * d) (h : 1e-5 * max (a ^ 2 + b ^ 2) (d ^ 2 + e ^ 2) < |D|) :
    cross2 (e / D, -d / D) (-b / D, a / D) ≠ 0 ∧ ∀ g : ℤ × ℤ, g ≠ (0, 0) →
      1e-10 * max (norm2 (e / D, -d / D) ^ 2) (norm2 (-b / D, a / D) ^ 2) < lenSq (e / D, -d / D) (-b / D, a / D) g := by
  have hcell : ∀ g : ℤ × ℤ, g ≠ (0, 0) → D ^ 2 ≤ ((g.1 * e - g.2 * b) ^ 2 + (g.2 * a - g.1 * d) ^ 2) * max (a ^ 2 + b ^ 2) (d ^ 2 + e ^ 2) := fun g hg => by
    rw [hD]; exact cell_bound g.1 g.2 fun h' => hg (Prod.ext h'.1 h'.2)
  have h1 : a ^ 2 + b ^ 2 ≤ max (a ^ 2 + b ^ 2) (d ^ 2 + e ^ 2) := le_max_left _ _
  have h2 : d ^ 2 + e ^ 2 ≤ max (a ^ 2 + b ^ 2) (d ^ 2 + e ^ 2) := le_max_right _ _
  have hM0 : 0 ≤ max (a ^ 2 + b ^ 2) (d ^ 2 + e ^ 2) := le_max_of_le_left (by positivity)
  generalize max (a ^ 2 + b ^ 2) (d ^ 2 + e ^ 2) = M at *
  have hDpos : 0 < |D| := lt_of_le_of_lt (by positivity) h
  have hD0 : D ≠ 0 := abs_pos.1 hDpos
  have hD2 : 0 < D ^ 2 := by positivity
  have hsq : 1e-10 * M * M < D ^ 2 := by
    have := mul_self_lt_mul_self (by positivity : 0 ≤ 1e-5 * M) h
    rw [abs_mul_abs_self] at this
    have e1 : (1e-5 * M) * (1e-5 * M) = 1e-10 * M * M := by ring
    rw [e1, ← sq] at this
    exact this
  refine ⟨?_, fun g hg => ?_⟩
  · have : cross2 (e / D, -d / D) (-b / D, a / D) = 1 / D := by
      simp only [cross2]; field_simp; rw [hD]; ring
    rw [this]; exact one_div_ne_zero hD0
  have n1 : norm2 (e / D, -d / D) ^ 2 = (d ^ 2 + e ^ 2) / D ^ 2 := by rw [norm2_sq]; field_simp; ring
  have n2 : norm2 (-b / D, a / D) ^ 2 = (a ^ 2 + b ^ 2) / D ^ 2 := by rw [norm2_sq]; field_simp; ring
  have hl : lenSq (e / D, -d / D) (-b / D, a / D) g = ((g.1 * e - g.2 * b) ^ 2 + (g.2 * a - g.1 * d) ^ 2) / D ^ 2 := by
    simp only [lenSq]; field_simp; ring
  have hmax : max (norm2 (e / D, -d / D) ^ 2) (norm2 (-b / D, a / D) ^ 2) ≤ M / D ^ 2 := by
    rw [n1, n2]
    exact max_le (div_le_div_of_nonneg_right h2 hD2.le) (div_le_div_of_nonneg_right h1 hD2.le)
  have hXY := hcell g hg
  rw [hl]
  refine lt_of_le_of_lt (mul_le_mul_of_nonneg_left hmax (by norm_num)) ?_
  rw [← mul_div_assoc]
  exact div_lt_div_of_pos_right (lt_of_mul_lt_mul_right (hsq.trans_le hXY) hM0) hD2

lemma numEntries_ok {vs : List Val} {qs : List ℚ} (h : List.Forall₂ Denotes vs qs) : numEntries (.list vs) = .ok qs := by
  show vs.mapM Val.num = .ok qs
  induction h with
  | nil => rfl
  | cons h1 _ ih => rw [List.mapM_cons, num_ok.2 h1, ok_bind, ih]; rfl

lemma tensorRows_ok {va vb vd ve : Val} {a b d e : ℚ} (ha : Denotes va a) (hb : Denotes vb b) (hd : Denotes vd d) (he : Denotes ve e) :
    tensorRows (.list [.list [va, vb], .list [vd, ve]]) = .ok [[a, b], [d, e]] := by
  have h1 : numEntries (.list [va, vb]) = .ok [a, b] := numEntries_ok (.cons ha (.cons hb .nil))
  have h2 : numEntries (.list [vd, ve]) = .ok [d, e] := numEntries_ok (.cons hd (.cons he .nil))
  simp [tensorRows, h1, h2, bind, Except.bind, pure, Except.pure]

/-- the list of thicknesses as numbers -/
lemma denotesList_rat {vs : List Val} {ts : List ℝ} (h : DenotesList vs ts) : ∃ qs : List ℚ, List.Forall₂ Denotes vs qs ∧ qs.map (fun q : ℚ => (q : ℝ)) = ts := by
  unfold DenotesList at h
  induction h with
  | nil => exact ⟨[], .nil, rfl⟩
  | cons h1 _ ih =>
    obtain ⟨q, hq, rfl⟩ := h1
    obtain ⟨qs, hqs, rfl⟩ := ih
    exact ⟨q :: qs, .cons hq hqs, rfl⟩

lemma dampedOmega_eq (f : ℝ) : dampedOmega f = driverOmega f := by
  unfold dampedOmega driverOmega
  congr 3
  rw [div_div]

lemma sizeEntry_ok {c : Cfg} {k : String} {n : ℕ} (h : SetTo c k n) : sizeEntry c k = .ok n := by
  obtain ⟨v, hv, hn⟩ := h
  unfold sizeEntry
  rw [get_ok.2 hv, ok_bind, num_ok.2 hn, ok_bind]
  simp

lemma mapM_range {α : Type} (n : ℕ) (f : ℕ → Except PyErr α) (h : ℕ → α) (hf : ∀ i < n, f i = .ok (h i)) : (List.range n).mapM f = .ok ((List.range n).map h) := by
  obtain ⟨out, ho⟩ := mapM_total f (List.range n) fun i hi => ⟨_, hf i (List.mem_range.1 hi)⟩
  obtain ⟨h1, h2⟩ := mapM_ok _ _ _ ho
  rw [ho]
  congr 1
  refine List.ext_getElem (by simpa using h1) fun i hi hi' => ?_
  have hn : i < n := by simpa using hi'
  have := h2 i (by simpa using hn) hi
  rw [List.getElem_range, hf i hn] at this
  simpa using (Except.ok.inj this).symm

/-- the layers that are read back from the stack that was built -/
lemma uniformStack_ok {s : TrcwaState ℂ Unit ℝ} {nl : ℕ} {top bottom : ℂ} {th : ℕ → ℝ} {ε : ℕ → ℂ} (h0 : s.layerN = nl + 2) (h1 : s.readLayer 0 = some (.uniform 1 top))
    (h2 : ∀ i < nl, s.readLayer (i + 1) = some (.uniform (th i) (ε i))) (h3 : s.readLayer (nl + 1) = some (.uniform 1 bottom)) :
    uniformStack s = .ok ((top, 1) :: ((List.range nl).map (fun l => (ε l, th l)) ++ [(bottom, 1)])) := by
  unfold uniformStack
  rw [h0, mapM_range (nl + 2) _ (fun i => if i = 0 then (top, 1) else if i = nl + 1 then (bottom, 1) else (ε (i - 1), th (i - 1)))]
  · rw [List.range_succ, List.map_append, List.range_succ_eq_map]
    simp only [List.map_cons, List.map_map, if_true, List.map_nil, List.cons_append]
    congr 3
    · refine List.map_congr_left fun l hl => ?_
      have := List.mem_range.1 hl
      simp only [Function.comp_apply, Nat.succ_eq_add_one, Nat.add_eq_zero_iff, one_ne_zero, and_false, if_false, Nat.add_right_cancel_iff, Nat.add_sub_cancel]
      rw [if_neg (by omega)]
  · intro i hi
    by_cases hi0 : i = 0
    · subst hi0; rw [h1]; simp
    by_cases hin : i = nl + 1
    · subst hin; rw [h3]; simp
    · obtain ⟨k, rfl⟩ := Nat.exists_eq_succ_of_ne_zero hi0
      rw [Nat.succ_eq_add_one] at hin ⊢
      rw [h2 k (by omega)]
      simp only [Nat.add_sub_cancel]
      rw [if_neg (by omega), if_neg hin]

/-! ### one frequency -/

/-- Specification: reflectance of the films `ε`, `th` (front to back) between the half-spaces `top` and `bottom` at the angular frequency `ω` by the characteristic-matrix method, with any square roots `n` as indices; the front
layer of thickness 1 in which the wave starts takes the factor `exp (-2 Im(ω) √top)`. -/
noncomputable def filmReflectance (ω : ℂ) (top bottom : ℝ) (nl : ℕ) (th : ℕ → ℝ) (n : ℕ → ℂ) : ℝ :=
  Real.exp (-2 * Real.sqrt top * ω.im) * filmsR (1 / Real.sqrt top) ((List.range nl).map fun l => (1 / n l, ω * n l * th l)) (1 / (Real.sqrt bottom : ℂ))

/-- Specification: transmittance, as `filmReflectance`. -/
noncomputable def filmTransmittance (ω : ℂ) (top bottom : ℝ) (nl : ℕ) (th : ℕ → ℝ) (n : ℕ → ℂ) : ℝ :=
  Real.exp (-2 * Real.sqrt top * ω.im) * filmsT (1 / Real.sqrt top) ((List.range nl).map fun l => (1 / n l, ω * n l * th l)) (1 / (Real.sqrt bottom : ℂ))

/-- a permittivity that does not amplify at the driver's damped frequencies -/
def PassiveEps (ε : ℂ) : Prop := ε ≠ 0 ∧ -ε.re / 2 / 1e5 ≤ ε.im

/-- the solver's answer for a stack of uniform layers, once the orders are selected -/
lemma uniformRT_ok {top bottom f : ℝ} (h0 : 0 < top) (hN : 0 < bottom) (hf : 0 < f) (nl : ℕ) (th : ℕ → ℝ) (hth : ∀ l < nl, 0 ≤ th l) (ε : ℕ → ℂ) (hε : ∀ l < nl, PassiveEps (ε l))
    (Lk : (ℝ × ℝ) × (ℝ × ℝ)) (sel : List (ℤ × ℤ)) (hsel : sel.head? = some (0, 0)) :
    ∃ r t, uniformRT top (((top : ℂ), 1) :: ((List.range nl).map (fun l => (ε l, th l)) ++ [((bottom : ℂ), 1)])) Lk sel f = .ok (r, t) ∧ 0 ≤ r ∧ 0 ≤ t ∧ r + t ≤ 1 ∧
      ∀ n : ℕ → ℂ, (∀ l < nl, n l ^ 2 = ε l) → r = filmReflectance (dampedOmega f) top bottom nl th n ∧ t = filmTransmittance (dampedOmega f) top bottom nl th n := by
  obtain ⟨g, gs, rfl⟩ : ∃ g gs, sel = g :: gs := by
    cases sel with
    | nil => cases hsel
    | cons g gs => exact ⟨g, gs, rfl⟩
  have hg : g = (0, 0) := by simpa using hsel
  have hπ := Real.pi_pos
  have him : 0 < (driverOmega f).im := by rw [driverOmega_im]; positivity
  have hre : 0 < (driverOmega f).re := by rw [driverOmega_re]; positivity
  have hbot : ((bottom : ℂ)) ≠ 0 := Complex.ofReal_ne_zero.2 hN.ne'
  have hbp : -((bottom : ℂ)).re / 2 / 1e5 ≤ ((bottom : ℂ)).im := by
    rw [Complex.ofReal_re, Complex.ofReal_im, neg_div, neg_div, neg_nonpos]; positivity
  set G : Fin (g :: gs).length → ℤ × ℤ := (g :: gs).get with hG
  set o : Fin (g :: gs).length := ⟨0, Nat.succ_pos _⟩ with ho
  have hGo : G o = (0, 0) := hg
  set ω := driverOmega f with hω
  set kx := kxOf ω 0 0 top Lk.1 Lk.2 G with hkx
  set ky := kyOf ω 0 0 top Lk.1 Lk.2 G with hky
  have hred : uniformRT top (((top : ℂ), 1) :: ((List.range nl).map (fun l => (ε l, th l)) ++ [((bottom : ℂ), 1)])) Lk (g :: gs) f =
      rtForward ω (rtNormalization top 0) ((((top : ℂ), (1 : ℝ)) :: ((List.range nl).map (fun l => (ε l, th l)) ++ [((bottom : ℂ), 1)])).map fun l => uniformLayer ω kx ky l.1 l.2) (planewave 0 0 1 0 o) 0 := by
    unfold uniformRT
    simp only [dampedOmega_eq]
    rw [if_neg]
    · rfl
    · rintro (h | ⟨l, hl, hz⟩)
      · linarith
      · simp only [List.mem_cons, List.mem_append, List.mem_map, List.mem_range, List.not_mem_nil, or_false] at hl
        rcases hl with rfl | ⟨l, hl, rfl⟩ | rfl
        · exact Complex.ofReal_ne_zero.2 h0.ne' hz
        · exact (hε l hl).1 hz
        · exact hbot hz
  have hmem : ∀ m ∈ (List.range nl).map (fun l => (ε l, th l)), m.1 ≠ 0 ∧ 0 ≤ m.2 ∧ -m.1.re / 2 / 1e5 ≤ m.1.im := by
    intro m hm
    obtain ⟨l, hl, rfl⟩ := List.mem_map.1 hm
    have := List.mem_range.1 hl
    exact ⟨(hε l this).1, hth l this, (hε l this).2⟩
  obtain ⟨hq, r, t, hrt⟩ := C113_driver f hf 0 top h0 Lk.1 Lk.2 G 1 zero_le_one _ hmem (bottom : ℂ) 1 zero_le_one hbot hbp kx ky hkx hky _ rfl (rtNormalization top 0)
    (planewave 0 0 1 0 o) 0
  have hlist : (((top : ℂ), (1 : ℝ)) :: (List.range nl).map (fun l => (ε l, th l)) ++ [((bottom : ℂ), (1 : ℝ))]).map (fun l => uniformLayer ω kx ky l.1 l.2) =
      uniformLayer ω kx ky top (1 : ℝ) :: ((List.range nl).map (fun l => (ε l, th l))).map (fun l => uniformLayer ω kx ky l.1 l.2) ++ [uniformLayer ω kx ky bottom (1 : ℝ)] := by simp
  have hpass : ∀ z : ℂ, -z.re / 2 / 1e5 ≤ z.im → 0 ≤ (ω * z).im := by
    intro z h
    rw [Complex.mul_im, hω, driverOmega_re, driverOmega_im]
    have e : 2 * Real.pi * f * z.im + 2 * Real.pi * f / 2 / 1e5 * z.re = 2 * Real.pi * f * (z.im + z.re / 2 / 1e5) := by ring
    rw [e]
    refine mul_nonneg (by positivity) ?_
    have : -z.re / 2 / 1e5 = -(z.re / 2 / 1e5) := by ring
    linarith
  obtain ⟨hr, ht, hsum⟩ := C20_damped_partial ω hre him.le 0 top bottom h0 hN Lk.1 Lk.2 G o hGo 1 1 zero_le_one
    (((List.range nl).map (fun l => (ε l, th l))).map fun l => uniformLayer ω kx ky l.1 l.2) (fun M hM => by
      obtain ⟨m, hm, rfl⟩ := List.mem_map.1 hM
      obtain ⟨a1, a2, a3⟩ := hmem m hm
      exact .uniform _ _ a2 a1 (hpass _ a3)) (by rw [← hkx, ← hky, ← hlist]; exact hq) 1 0 (by simp) r t (by rw [← hkx, ← hky, ← hlist]; exact hrt)
  refine ⟨r, t, hred.trans hrt, hr, ht, hsum, fun n hn => ?_⟩
  have hfilm := C112_driver f hf 0 top h0 Lk.1 Lk.2 G o hGo 1 zero_le_one ((List.range nl).map fun l => (ε l, th l, n l)) (fun m hm => by
      obtain ⟨l, hl, rfl⟩ := List.mem_map.1 hm
      have := List.mem_range.1 hl
      exact ⟨(hε l this).1, hth l this, (hε l this).2, hn l this⟩) (bottom : ℂ) 1 zero_le_one (Real.sqrt bottom : ℂ) hbot hbp
      (by rw [← Complex.ofReal_pow, Real.sq_sqrt hN.le]) (by rw [Complex.im_mul_ofReal]; exact mul_pos him (Real.sqrt_pos.2 hN)) kx ky hkx hky 1 0
  have e1 : uniformLayer ω kx ky top (1 : ℝ) :: (((List.range nl).map fun l => (ε l, th l, n l)).map (fun m => (m.1, m.2.1)) ++ [((bottom : ℂ), (1 : ℝ))]).map (fun e => uniformLayer ω kx ky e.1 e.2) =
      (((top : ℂ), (1 : ℝ)) :: (List.range nl).map (fun l => (ε l, th l)) ++ [((bottom : ℂ), (1 : ℝ))]).map (fun l => uniformLayer ω kx ky l.1 l.2) := by
    simp [List.map_map, Function.comp_def]
  rw [e1] at hfilm
  have := Except.ok.inj (hrt.symm.trans hfilm)
  rw [Prod.mk.injEq] at this
  rw [filmReflectance, filmTransmittance, dampedOmega_eq]
  obtain ⟨hr', ht'⟩ := this
  rw [hr', ht']
  simp [List.map_map, Function.comp_def]

/-- the orders that an admissible config selects start with the central one -/
lemma cfgOrders_ok {sort : ℕ → ℝ × ℝ → ℝ × ℝ → List (ℤ × ℤ)} (hs : Sorts sort) {c : Cfg} {a b d e : ℚ} (hcell : ProperCell a b d e) (ho : ∃ z, SetToInt c "TRCWA_NG" z ∧ 2 ≤ z) :
    ∃ Lk sel, rowsReciprocal [[a, b], [d, e]] = .ok Lk ∧ cfgOrders sort c Lk = .ok sel ∧ sel.head? = some (0, 0) ∧ cross2 Lk.1 Lk.2 ≠ 0 := by
  have hcell' : 1e-5 * max ((a : ℝ) ^ 2 + b ^ 2) (d ^ 2 + e ^ 2) < |(a : ℝ) * e - b * d| := by
    have : ((1e-5 * max (a ^ 2 + b ^ 2) (d ^ 2 + e ^ 2) : ℚ) : ℝ) < ((|a * e - b * d| : ℚ) : ℝ) := Rat.cast_lt.2 hcell
    push_cast at this
    norm_num at this ⊢
    exact this
  obtain ⟨hc, hshort⟩ := proper_short rfl hcell'
  have hD : (a : ℝ) * e - b * d ≠ 0 := by
    intro h
    rw [h, abs_zero] at hcell'
    have : 0 ≤ max ((a : ℝ) ^ 2 + b ^ 2) (d ^ 2 + e ^ 2) := le_max_of_le_left (by positivity)
    linarith
  obtain ⟨z, hz, hz2⟩ := ho
  obtain ⟨sel, h1, h2⟩ := C14_origin_partial z.toNat (by omega) _ _ hc _ (hs z.toNat _ _) hshort
  refine ⟨(((e : ℝ) / (a * e - b * d), -d / (a * e - b * d)), (-b / (a * e - b * d), a / (a * e - b * d))), sel, ?_, ?_, h2, hc⟩
  · show latticeReciprocate [(a : ℝ), b] [(d : ℝ), e] = _
    unfold latticeReciprocate
    exact if_neg hD
  · unfold cfgOrders
    rw [get_ok.2 hz, ok_bind]
    show (gselCircular z.toNat _ _ _ >>= _) = _
    rw [h1, ok_bind]

/-- what is left to compute for one frequency once the layers are read -/
lemma rcwaPoint_eq (sort : ℕ → ℝ × ℝ → ℝ × ℝ → List (ℤ × ℤ)) (patterned : (ℕ → ℕ → ℕ → Option ℂ) → ℝ → Except PyErr (ℝ × ℝ)) {c : Cfg} {nl : ℕ} {vL : Val} {rows : List (List ℚ)}
    (hL : c.lookup "TRCWA_L_grid" = some vL) (hrows : tensorRows vL = .ok rows) {top bottom : ℝ} (htop : SetToReal c "TRCWA_TOP_LAYER_EPS" top)
    (hbot : SetToReal c "TRCWA_BOTTOM_LAYER_EPS" bottom) {th : ℕ → ℝ} (ht : ThicknessesAre c nl th) (g : Grid4 ℂ) (hx : g.sx = 1) (hy : g.sy = 1) (hl : g.sl = nl)
    (slice : ℕ → ℕ → ℕ → Option ℂ) (ε : ℕ → ℂ) (hsl : ∀ l < nl, slice 0 0 l = some (ε l)) (f : ℝ) :
    rcwaPoint sort patterned c g slice f = rowsReciprocal rows >>= fun Lk => cfgOrders sort c Lk >>= fun sel =>
      uniformRT top (((top : ℂ), 1) :: ((List.range nl).map (fun l => (ε l, th l)) ++ [((bottom : ℂ), 1)])) Lk sel f := by
  obtain ⟨qt, ⟨vt, hvt, hqt⟩, rfl⟩ := htop
  obtain ⟨qb, ⟨vb', hvb, hqb⟩, rfl⟩ := hbot
  obtain ⟨vs, ts, hvs, hts, huser⟩ := ht
  obtain ⟨qs, hqs, rfl⟩ := denotesList_rat hts
  obtain ⟨st, hst, s0, s1, s2, s3, -⟩ := C12_uniform_stack nl (fun x y l => (slice x y l).getD 0) ((qt : ℝ) : ℂ) ((qb : ℝ) : ℂ) (qs.map fun q : ℚ => (q : ℝ)) (1 : ℝ) th huser
  have hstack := uniformStack_ok (ε := ε) s0 s1 (fun i hi => by rw [s2 i hi, hsl i hi]; rfl) s3
  unfold rcwaPoint
  rw [if_neg (by omega), get_ok.2 hL, ok_bind, hrows, ok_bind, get_ok.2 hvt, ok_bind, num_ok.2 hqt, ok_bind, get_ok.2 hvs, ok_bind, numEntries_ok hqs, ok_bind,
    get_ok.2 hvb, ok_bind, num_ok.2 hqb, ok_bind, hx, hy, hl, hst, ok_bind]
  congr 1
  funext Lk
  congr 1
  funext sel
  rw [hstack, ok_bind]

/-- the solver's answer for one frequency -/
lemma rcwaPoint_ok {sort : ℕ → ℝ × ℝ → ℝ × ℝ → List (ℤ × ℤ)} (hs : Sorts sort) (patterned : (ℕ → ℕ → ℕ → Option ℂ) → ℝ → Except PyErr (ℝ × ℝ)) {c : Cfg} {nl nf : ℕ} {top bottom : ℝ}
    (hu : UniformRun c nl nf top bottom) {th : ℕ → ℝ} (ht : ThicknessesAre c nl th) (hth : ∀ l < nl, 0 ≤ th l) (g : Grid4 ℂ) (hx : g.sx = 1) (hy : g.sy = 1) (hl : g.sl = nl)
    (slice : ℕ → ℕ → ℕ → Option ℂ) (ε : ℕ → ℂ) (hsl : ∀ l < nl, slice 0 0 l = some (ε l)) (hε : ∀ l < nl, PassiveEps (ε l)) {f : ℝ} (hf : 0 < f) :
    ∃ r t, rcwaPoint sort patterned c g slice f = .ok (r, t) ∧ 0 ≤ r ∧ 0 ≤ t ∧ r + t ≤ 1 ∧
      ∀ n : ℕ → ℂ, (∀ l < nl, n l ^ 2 = ε l) → r = filmReflectance (dampedOmega f) top bottom nl th n ∧ t = filmTransmittance (dampedOmega f) top bottom nl th n := by
  obtain ⟨a, b, d, e, ⟨va, vb, vd, ve, hL, ha, hb, hd, he⟩, hcell⟩ := hu.lattice
  obtain ⟨Lk, sel, hLk, hsel, hhead, -⟩ := cfgOrders_ok hs hcell hu.orders
  obtain ⟨r, t, hrt, hrest⟩ := uniformRT_ok hu.top.2 hu.bottom.2 hf nl th hth ε hε Lk sel hhead
  refine ⟨r, t, ?_, hrest⟩
  rw [rcwaPoint_eq sort patterned hL (tensorRows_ok ha hb hd he) hu.top.1 hu.bottom.1 ht g hx hy hl slice ε hsl f, hLk, ok_bind, hsel, ok_bind, hrt]

/-! ### the frequencies, and the whole call -/

lemma cfgFrequencyPoints_ok {c : Cfg} (h : validateConfig c = .ok ()) (hw : PositiveWavelengths c) {nf : ℕ} (hf : SetTo c "N_freq" nf) :
    ∃ v w rest a b fs, c.lookup "physical_wavelength_range" = some (.list (v :: w :: rest)) ∧ Denotes v a ∧ Denotes w b ∧ 0 < a ∧ cfgFrequencyPoints c = .ok fs ∧
      SamplesBand (1e-6 / (b : ℝ)) (1e-6 / (a : ℝ)) nf fs ∧ ∀ f ∈ fs, 0 < f := by
  obtain ⟨v, w, rest, a, b, hl, ha, hb, h0, h1⟩ := hw
  obtain ⟨d, hd, hdl⟩ := (C07_ranges c h).distribution
  have hab : a ≤ b := by
    obtain ⟨v', w', rest', a', b', hl', ha', hb', hab⟩ := (C07_ranges c h).wavelengths
    rw [hl] at hl'
    cases hl'
    rw [denotes_unique ha ha', denotes_unique hb hb']
    exact hab.le
  have hd' : d = "linear" ∨ d = "log" := by simpa using hd
  have a0 : (0 : ℝ) < (a : ℝ) := Rat.cast_pos.2 h0
  have ab : (a : ℝ) ≤ (b : ℝ) := Rat.cast_le.2 hab
  obtain ⟨fs, hfs, hs⟩ := C02_any a b nf d a0 ab hd'
  obtain ⟨-, -, hp, -⟩ := band_edges a0 ab
  have hpos : ∀ f ∈ fs, 0 < f := fun f hf => lt_of_lt_of_le hp (hs.inside f hf).1
  have hz : ¬ (0 : ℝ) ∈ fs := fun h => lt_irrefl _ (hpos 0 h)
  refine ⟨v, w, rest, a, b, fs, hl, ha, hb, h0, ?_, hs, hpos⟩
  unfold cfgFrequencyPoints
  rw [get_ok.2 hl, ok_bind]
  show (Except.ok v >>= fun x => x.num >>= fun a => Except.ok w >>= fun y => y.num >>= _) = _
  rw [ok_bind, num_ok.2 ha, ok_bind, ok_bind, num_ok.2 hb, ok_bind, sizeEntry_ok hf, ok_bind, get_ok.2 hdl, ok_bind]
  simp [getFrequencyPoints, hfs, bind, Except.bind, hz, pure, Except.pure]

/-- storing the frequencies changes none of the other entries -/
lemma lookup_freqs (c : Cfg) (v : Val) {k : String} (hk : k ≠ "target_frequencies") : (c.set "target_frequencies" v).lookup k = c.lookup k := by
  rw [lookup_set, if_neg hk]

lemma freqs_valid {c : Cfg} (h : validateConfig c = .ok ()) (v : Val) : validateConfig (c.set "target_frequencies" v) = .ok () := by
  obtain ⟨l, n, hl, hn, -⟩ := (C07_ranges c h).thickness
  refine runtime_valid h (fun k hk => lookup_freqs c v fun e => hk (by rw [e]; decide)) ⟨l, l, n, hl, ?_, hn, Or.inl rfl⟩
  rw [lookup_freqs c v (by decide), hl]

/-- the whole call comes down to the loop over the frequencies -/
lemma forward_eq (fdtd : Cfg → Except PyErr (List ℝ × List ℝ)) (sort : ℕ → ℝ × ℝ → ℝ × ℝ → List (ℤ × ℤ)) (patterned : (ℕ → ℕ → ℕ → Option ℂ) → ℝ → Except PyErr (ℝ × ℝ)) {c : Cfg}
    (h : validateConfig c = .ok ()) (hsolver : c.lookup "solver" = some (.str "TRCWA")) {nx ny nl nf : ℕ} (hx : SetTo c "Nx" nx) (hy : SetTo c "Ny" ny) (hl : SetTo c "N_layers" nl)
    (hf : SetTo c "N_freq" nf) {fs : List ℝ} (hfs : cfgFrequencyPoints c = .ok fs) (g : Grid4 ℂ) :
    forwardSpectrum fdtd sort patterned c g =
      some <$> computeSpectrumTrcwa (rcwaPoint sort patterned (c.set "target_frequencies" .other) g) g ⟨some fs, nx, ny, nl, nf⟩ := by
  have hkeep : ∀ {k : String} {n : ℕ}, k ≠ "target_frequencies" → SetTo c k n → SetTo (c.set "target_frequencies" .other) k n := by
    rintro k n hk ⟨v, hv, hn⟩
    exact ⟨v, by rw [lookup_freqs c _ hk, hv], hn⟩
  have hkey : (c.set "target_frequencies" Val.other).keys.contains "target_frequencies" = true :=
    keys_contains_iff.2 ⟨.other, by rw [lookup_set, if_pos rfl]⟩
  have htr : cfgTrcwa sort patterned fs g (c.set "target_frequencies" .other) =
      computeSpectrumTrcwa (rcwaPoint sort patterned (c.set "target_frequencies" .other) g) g ⟨some fs, nx, ny, nl, nf⟩ := by
    unfold cfgTrcwa
    rw [sizeEntry_ok (hkeep (by decide) hx), ok_bind, sizeEntry_ok (hkeep (by decide) hy), ok_bind, sizeEntry_ok (hkeep (by decide) hl), ok_bind,
      sizeEntry_ok (hkeep (by decide) hf), ok_bind, if_pos hkey]
  unfold forwardSpectrum
  rw [hfs, ok_bind]
  unfold computeSpectrum
  rw [if_pos rfl, freqs_valid h, ok_bind, get_ok.2 ((lookup_freqs c _ (by decide)).trans hsolver), ok_bind, if_neg (by decide), if_pos (by decide), htr]

/-- C137: for every accepted config with the RCWA solver, one cell per layer, positive wavelengths, a proper lattice cell, at least two orders and positive permittivities around the stack, and for every grid of the announced
shape whose permittivities do not amplify, `get_frequency_points` and `compute_spectrum` succeed. There is one reflectance and one transmittance per frequency; neither is negative, their sum is at most one, and they are those of
the characteristic-matrix method for the configured thicknesses at that (damped) frequency, whatever the lattice, the number of orders and the sorting. Missing from the full property: the accepted configs of `C137_false`, and
grids with more than one cell per layer. -/
theorem C137_uniform_partial (fdtd : Cfg → Except PyErr (List ℝ × List ℝ)) (sort : ℕ → ℝ × ℝ → ℝ × ℝ → List (ℤ × ℤ)) (hs : Sorts sort)
    (patterned : (ℕ → ℕ → ℕ → Option ℂ) → ℝ → Except PyErr (ℝ × ℝ)) (c : Cfg) (h : validateConfig c = .ok ()) (nl nf : ℕ) (top bottom : ℝ) (hu : UniformRun c nl nf top bottom)
    (th : ℕ → ℝ) (ht : ThicknessesAre c nl th) (hth : ∀ l < nl, 0 ≤ th l) (g : Grid4 ℂ) (hx : g.sx = 1) (hy : g.sy = 1) (hl : g.sl = nl) (hf : g.sf = nf) (ε : ℕ → ℕ → ℂ)
    (hval : ∀ l < nl, ∀ i < nf, g.val 0 0 l i = some (ε l i)) (hε : ∀ l < nl, ∀ i < nf, PassiveEps (ε l i)) :
    ∃ fs Rs Ts, cfgFrequencyPoints c = .ok fs ∧ forwardSpectrum fdtd sort patterned c g = .ok (some (Rs, Ts)) ∧
      fs.length = nf ∧ Rs.length = nf ∧ Ts.length = nf ∧
      (∃ v w rest a b, c.lookup "physical_wavelength_range" = some (.list (v :: w :: rest)) ∧ Denotes v a ∧ Denotes w b ∧ SamplesBand (1e-6 / (b : ℝ)) (1e-6 / (a : ℝ)) nf fs) ∧
      ∀ (i : ℕ) (f r t : ℝ), fs[i]? = some f → Rs[i]? = some r → Ts[i]? = some t →
        0 ≤ r ∧ 0 ≤ t ∧ r + t ≤ 1 ∧ ∀ n : ℕ → ℂ, (∀ l < nl, n l ^ 2 = ε l i) →
          r = filmReflectance (2 * Real.pi * f * (1 + Complex.I / (2 * 1e5))) top bottom nl th n ∧
          t = filmTransmittance (2 * Real.pi * f * (1 + Complex.I / (2 * 1e5))) top bottom nl th n := by
  obtain ⟨v, w, rest, a, b, fs, hwl, ha, hb, -, hfs, hband, hpos⟩ := cfgFrequencyPoints_ok h hu.wavelengths hu.freqs
  have hu' : UniformRun (c.set "target_frequencies" .other) nl nf top bottom := by
    have hk : ∀ {k : String} {n : ℚ}, k ≠ "target_frequencies" → SetTo c k n → SetTo (c.set "target_frequencies" .other) k n := by
      rintro k n hk ⟨v, hv, hn⟩
      exact ⟨v, by rw [lookup_freqs c _ hk, hv], hn⟩
    obtain ⟨a', b', d, e, ⟨va, vb, vd, ve, hL, h1⟩, hcell⟩ := hu.lattice
    obtain ⟨z, hz, hz2⟩ := hu.orders
    obtain ⟨⟨qt, hqt, et⟩, pt⟩ := hu.top
    obtain ⟨⟨qb, hqb, eb⟩, pb⟩ := hu.bottom
    exact ⟨by rw [lookup_freqs c _ (by decide), hu.solver], hk (by decide) hu.nx, hk (by decide) hu.ny, hk (by decide) hu.layers, hk (by decide) hu.freqs,
      by obtain ⟨v, w, rest, a, b, hl, hr⟩ := hu.wavelengths; exact ⟨v, w, rest, a, b, by rw [lookup_freqs c _ (by decide), hl], hr⟩,
      ⟨a', b', d, e, ⟨va, vb, vd, ve, by rw [lookup_freqs c _ (by decide), hL], h1⟩, hcell⟩, ⟨z, by rw [SetToInt, lookup_freqs c _ (by decide)]; exact hz, hz2⟩,
      ⟨⟨qt, hk (by decide) hqt, et⟩, pt⟩, ⟨⟨qb, hk (by decide) hqb, eb⟩, pb⟩⟩
  have ht' : ThicknessesAre (c.set "target_frequencies" .other) nl th := by
    obtain ⟨vs, ts, hvs, hr⟩ := ht
    exact ⟨vs, ts, by rw [lookup_freqs c _ (by decide), hvs], hr⟩
  have hfit : DriverCfg.Fits (⟨some fs, 1, 1, nl, nf⟩ : DriverCfg ℝ) g fs := ⟨rfl, hband.length, hx, hy, hl, hf⟩
  have hnan : ¬ g.NaNInside := by
    rintro ⟨x, hx', y, hy', l, hl', i, hi, hv⟩
    obtain rfl : x = 0 := by omega
    obtain rfl : y = 0 := by omega
    rw [hval l (by omega) i (by omega)] at hv
    cases hv
  have hpt : ∀ i f, fs[i]? = some f → ∃ r t, rcwaPoint sort patterned (c.set "target_frequencies" .other) g (fun x y l => g.val x y l i) f = .ok (r, t) ∧ 0 ≤ r ∧ 0 ≤ t ∧ r + t ≤ 1 ∧
      ∀ n : ℕ → ℂ, (∀ l < nl, n l ^ 2 = ε l i) → r = filmReflectance (dampedOmega f) top bottom nl th n ∧ t = filmTransmittance (dampedOmega f) top bottom nl th n := by
    intro i f hi
    obtain ⟨hi', e⟩ := List.getElem?_eq_some_iff.1 hi
    have hin : i < nf := by have := hband.length; omega
    exact rcwaPoint_ok hs patterned hu' ht' hth g hx hy hl _ (fun l => ε l i) (fun l hl => hval l hl i hin) (fun l hl => hε l hl i hin) (hpos f (e ▸ List.getElem_mem hi'))
  obtain ⟨⟨Rs, Ts⟩, hout⟩ := (C24_complete (rcwaPoint sort patterned (c.set "target_frequencies" .other) g) g _ fs hnan hfit).1.1 fun i hi => by
    obtain ⟨r, t, hrt, -⟩ := hpt i fs[i] (List.getElem?_eq_getElem hi)
    exact ⟨_, hrt⟩
  obtain ⟨fs', hfit', -, hR, hT, hent⟩ := C24_entries _ g _ Rs Ts hout
  obtain rfl : fs = fs' := by simpa using hfit'.1
  refine ⟨fs, Rs, Ts, hfs, ?_, hband.length, hR, hT, ⟨v, w, rest, a, b, hwl, ha, hb, hband⟩, fun i f r t hi hr ht => ?_⟩
  · rw [forward_eq fdtd sort patterned h hu.solver (nx := 1) (ny := 1) (by simpa using hu.nx) (by simpa using hu.ny) hu.layers hu.freqs hfs g, hout]; rfl
  · obtain ⟨r', t', hrt, hrest⟩ := hpt i f hi
    have := Except.ok.inj ((hent i f r t hi hr ht).symm.trans hrt)
    rw [Prod.mk.injEq] at this
    obtain ⟨rfl, rfl⟩ := this
    have e : (2 * Real.pi * f * (1 + Complex.I / (2 * 1e5)) : ℂ) = dampedOmega f := by unfold dampedOmega; ring
    rw [e]
    exact hrest

/-- the default config and a grid of vacuum meet the hypotheses of `C137_uniform_partial` -/
example (fdtd : Cfg → Except PyErr (List ℝ × List ℝ)) (sort : ℕ → ℝ × ℝ → ℝ × ℝ → List (ℤ × ℤ)) (hs : Sorts sort) (patterned : (ℕ → ℕ → ℕ → Option ℂ) → ℝ → Except PyErr (ℝ × ℝ)) :
    ∃ Rs Ts, forwardSpectrum fdtd sort patterned defaultConfig ⟨1, 1, 8, 20, fun _ _ _ _ => some (4 + Complex.I)⟩ = .ok (some (Rs, Ts)) ∧ Rs.length = 20 ∧ Ts.length = 20 := by
  obtain ⟨fs, Rs, Ts, -, h1, -, h2, h3, -⟩ := C137_uniform_partial fdtd sort hs patterned defaultConfig default_config_accepted 8 20 1 1
    ⟨by rfl, ⟨_, rfl, by simpa using Denotes.int 1⟩, ⟨_, rfl, by simpa using Denotes.int 1⟩, ⟨_, rfl, by simpa using Denotes.int 8⟩, ⟨_, rfl, by simpa using Denotes.int 20⟩,
      ⟨_, _, _, _, _, rfl, Denotes.float _, Denotes.float _, by norm_num, by norm_num⟩,
      ⟨_, _, _, _, ⟨_, _, _, _, rfl, Denotes.float _, Denotes.float _, Denotes.float _, Denotes.float _⟩, by unfold ProperCell; norm_num [abs_of_pos]⟩, ⟨11, rfl, by norm_num⟩,
      ⟨⟨1, ⟨_, rfl, Denotes.float _⟩, by norm_num⟩, by norm_num⟩, ⟨⟨1, ⟨_, rfl, Denotes.float _⟩, by norm_num⟩, by norm_num⟩⟩
    (fun _ => 1) ⟨_, [1], rfl, .cons ⟨1, Denotes.float _, by norm_num⟩ .nil, fun _ _ => Or.inl rfl⟩ (fun _ _ => zero_le_one) ⟨1, 1, 8, 20, fun _ _ _ _ => some (4 + Complex.I)⟩ rfl rfl rfl rfl
    (fun _ _ => 4 + Complex.I) (fun _ _ _ _ => rfl) (fun _ _ _ _ => ⟨fun h => by simpa using congrArg Complex.im h, by norm_num⟩)
  exact ⟨Rs, Ts, h1, h2, h3⟩

/-! ### accepted configs that are not answered -/

/-- C137: without `get_frequency_points` (or training, which calls it) the RCWA solver refuses every grid without NaN. -/
theorem C137_without_frequencies (fdtd : Cfg → Except PyErr (List ℝ × List ℝ)) (sort : ℕ → ℝ × ℝ → ℝ × ℝ → List (ℤ × ℤ)) (patterned : (ℕ → ℕ → ℕ → Option ℂ) → ℝ → Except PyErr (ℝ × ℝ))
    (c : Cfg) (h : validateConfig c = .ok ()) (hsolver : c.lookup "solver" = some (.str "TRCWA")) (hno : c.lookup "target_frequencies" = none) (fs : List ℝ) (g : Grid4 ℂ) (hn : ¬ g.NaNInside) :
    computeSpectrum fdtd (cfgTrcwa sort patterned fs g) c = .error .assertionError := by
  obtain ⟨nx, hx, -⟩ := positive_nat h (k := "Nx") (by decide) (by decide)
  obtain ⟨ny, hy, -⟩ := positive_nat h (k := "Ny") (by decide) (by decide)
  obtain ⟨nl, hl, -⟩ := positive_nat h (k := "N_layers") (by decide) (by decide)
  obtain ⟨nf, hf, -⟩ := positive_nat h (k := "N_freq") (by decide) (by decide)
  have hkey : ¬ c.keys.contains "target_frequencies" = true := by
    rw [keys_contains_iff, hno]; rintro ⟨v, hv⟩; cases hv
  have htr : cfgTrcwa sort patterned fs g c = .error .assertionError := by
    unfold cfgTrcwa
    rw [sizeEntry_ok hx, ok_bind, sizeEntry_ok hy, ok_bind, sizeEntry_ok hl, ok_bind, sizeEntry_ok hf, ok_bind, if_neg hkey]
    exact (C24_errors _ g _).2 hn (by rintro ⟨fs, h1, -⟩; cases h1)
  unfold computeSpectrum
  rw [if_pos rfl, h, ok_bind, get_ok.2 hsolver, ok_bind, if_neg (by decide), if_pos (by decide), htr]
  rfl

/-- the grid of the default config's shape, filled with vacuum -/
noncomputable def vacuumGrid : Grid4 ℂ := ⟨1, 1, 8, 20, fun _ _ _ _ => some 1⟩

/-- a config that differs from the default one only in entries of the RCWA solver -/
structure DefaultButRcwa (c : Cfg) : Prop where
  valid : validateConfig c = .ok ()
  same : ∀ k ∈ ["solver", "Nx", "Ny", "N_layers", "N_freq", "physical_wavelength_range", "PER_LAYER_THICKNESS", "TRCWA_BOTTOM_LAYER_EPS"], c.lookup k = defaultConfig.lookup k

lemma default_but {k : String} {v : Val} (h : validateConfig (defaultConfig.set k v) = .ok ())
    (hk : k ∉ ["solver", "Nx", "Ny", "N_layers", "N_freq", "physical_wavelength_range", "PER_LAYER_THICKNESS", "TRCWA_BOTTOM_LAYER_EPS"]) : DefaultButRcwa (defaultConfig.set k v) :=
  ⟨h, fun k' hk' => by rw [lookup_set, if_neg]; rintro rfl; exact hk hk'⟩

/-- if every frequency fails in the same way, so does the call -/
lemma forward_error (fdtd : Cfg → Except PyErr (List ℝ × List ℝ)) (sort : ℕ → ℝ × ℝ → ℝ × ℝ → List (ℤ × ℤ)) (patterned : (ℕ → ℕ → ℕ → Option ℂ) → ℝ → Except PyErr (ℝ × ℝ)) {c : Cfg}
    (hc : DefaultButRcwa c) {vL : Val} {rows : List (List ℚ)} (hL : c.lookup "TRCWA_L_grid" = some vL) (hrows : tensorRows vL = .ok rows) {top : ℝ}
    (htop : SetToReal c "TRCWA_TOP_LAYER_EPS" top) {e : PyErr}
    (herr : ∀ stack f, (((top : ℂ), (1 : ℝ)) ∈ stack) → (rowsReciprocal rows >>= fun Lk => cfgOrders sort (c.set "target_frequencies" .other) Lk >>= fun sel => uniformRT top stack Lk sel f) = .error e) :
    forwardSpectrum fdtd sort patterned c vacuumGrid = .error e := by
  have hs := hc.same
  have hnx : SetTo c "Nx" (1 : ℕ) := ⟨.int 1, by rw [hs _ (by decide)]; rfl, by simpa using Denotes.int 1⟩
  have hny : SetTo c "Ny" (1 : ℕ) := ⟨.int 1, by rw [hs _ (by decide)]; rfl, by simpa using Denotes.int 1⟩
  have hnl : SetTo c "N_layers" (8 : ℕ) := ⟨.int 8, by rw [hs _ (by decide)]; rfl, by simpa using Denotes.int 8⟩
  have hnf : SetTo c "N_freq" (20 : ℕ) := ⟨.int 20, by rw [hs _ (by decide)]; rfl, by simpa using Denotes.int 20⟩
  have hw : PositiveWavelengths c := ⟨.float (1 / 1000000), .float (30 / 1000000), [], _, _, by rw [hs _ (by decide)]; rfl, Denotes.float _, Denotes.float _, by norm_num, by norm_num⟩
  obtain ⟨v, w, rest, a, b, fs, -, -, -, -, hfs, hband, -⟩ := cfgFrequencyPoints_ok hc.valid hw hnf
  have ht : ThicknessesAre (c.set "target_frequencies" .other) 8 (fun _ => 1) :=
    ⟨[.float 1], [1], by rw [lookup_freqs c _ (by decide), hs _ (by decide)]; rfl, .cons ⟨1, Denotes.float _, by norm_num⟩ .nil, fun _ _ => Or.inl rfl⟩
  have hbot : SetToReal (c.set "target_frequencies" .other) "TRCWA_BOTTOM_LAYER_EPS" 1 :=
    ⟨1, ⟨.float 1, by rw [lookup_freqs c _ (by decide), hs _ (by decide)]; rfl, Denotes.float _⟩, by norm_num⟩
  have htop' : SetToReal (c.set "target_frequencies" .other) "TRCWA_TOP_LAYER_EPS" top := by
    obtain ⟨q, ⟨v, hv, hq⟩, rfl⟩ := htop
    exact ⟨q, ⟨v, by rw [lookup_freqs c _ (by decide), hv], hq⟩, rfl⟩
  have hpt : ∀ i f, rcwaPoint sort patterned (c.set "target_frequencies" .other) vacuumGrid (fun x y l => vacuumGrid.val x y l i) f = .error e := by
    intro i f
    rw [rcwaPoint_eq sort patterned (by rw [lookup_freqs c _ (by decide), hL]) hrows htop' hbot ht vacuumGrid rfl rfl rfl _ (fun _ => 1) (fun _ _ => rfl) f]
    exact herr _ f (by simp)
  have hfit : DriverCfg.Fits (⟨some fs, 1, 1, 8, 20⟩ : DriverCfg ℝ) vacuumGrid fs := ⟨rfl, hband.length, rfl, rfl, rfl, rfl⟩
  have hnan : ¬ vacuumGrid.NaNInside := by rintro ⟨x, -, y, -, l, -, i, -, hv⟩; cases hv
  have hcomp := C24_complete (rcwaPoint sort patterned (c.set "target_frequencies" .other) vacuumGrid) vacuumGrid _ fs hnan hfit
  rw [forward_eq fdtd sort patterned hc.valid (by rw [hs _ (by decide)]; rfl) hnx hny hnl hnf hfs]
  cases hr : computeSpectrumTrcwa (rcwaPoint sort patterned (c.set "target_frequencies" .other) vacuumGrid) vacuumGrid ⟨some fs, 1, 1, 8, 20⟩ with
  | ok out =>
    obtain ⟨v, hv⟩ := hcomp.1.2 ⟨out, hr⟩ 0 (by rw [hband.length]; norm_num)
    rw [hpt] at hv
    cases hv
  | error e' =>
    obtain ⟨i, hi, hv, -⟩ := hcomp.2 e' hr
    rw [hpt] at hv
    cases hv
    rfl

/-- C137 is false of the code: validation accepts configs with a single order, an order count given as a bool, lattice vectors that are parallel or have three components, and a front permittivity that is negative or 0, and
with each of them the simulation of a stack of vacuum layers raises or is not a number. -/
theorem C137_false (fdtd : Cfg → Except PyErr (List ℝ × List ℝ)) (sort : ℕ → ℝ × ℝ → ℝ × ℝ → List (ℤ × ℤ)) (hs : Sorts sort) (patterned : (ℕ → ℕ → ℕ → Option ℂ) → ℝ → Except PyErr (ℝ × ℝ)) :
    (∃ c, validateConfig c = .ok () ∧ c.lookup "TRCWA_NG" = some (.int 1) ∧ forwardSpectrum fdtd sort patterned c vacuumGrid = .error .indexError) ∧
    (∃ c, validateConfig c = .ok () ∧ c.lookup "TRCWA_NG" = some (.bool true) ∧ forwardSpectrum fdtd sort patterned c vacuumGrid = .error .assertionError) ∧
    (∃ c, validateConfig c = .ok () ∧ LatticeIs c 1 (-1) (-1) 1 ∧ forwardSpectrum fdtd sort patterned c vacuumGrid = .error .zeroDivisionError) ∧
    (∃ c, validateConfig c = .ok () ∧ c.lookup "TRCWA_L_grid" = some (.list [.list [.float 1, .float 0, .float 0], .list [.float 0, .float 1, .float 0]]) ∧
      forwardSpectrum fdtd sort patterned c vacuumGrid = .error .assertionError) ∧
    (∃ c, validateConfig c = .ok () ∧ c.lookup "TRCWA_TOP_LAYER_EPS" = some (.float (-1)) ∧ forwardSpectrum fdtd sort patterned c vacuumGrid = .error .nan) ∧
    (∃ c, validateConfig c = .ok () ∧ c.lookup "TRCWA_TOP_LAYER_EPS" = some (.float 0) ∧ forwardSpectrum fdtd sort patterned c vacuumGrid = .error .nan) := by
  have hcell : ProperCell (1 / 10) 0 0 (1 / 10) := by unfold ProperCell; norm_num [abs_of_pos]
  have hdef : tensorRows (.list [.list [.float (1 / 10), .float 0], .list [.float 0, .float (1 / 10)]]) = .ok [[1 / 10, 0], [0, 1 / 10]] :=
    tensorRows_ok (Denotes.float _) (Denotes.float _) (Denotes.float _) (Denotes.float _)
  have hnan : ∀ (q : ℚ) (c : Cfg), q ≤ 0 → c.lookup "TRCWA_NG" = some (.int 11) → ∀ (stack : List (ℂ × ℝ)) f, ((((q : ℝ) : ℂ), (1 : ℝ)) ∈ stack) →
      (rowsReciprocal [[1 / 10, 0], [0, 1 / 10]] >>= fun Lk => cfgOrders sort c Lk >>= fun sel => uniformRT (q : ℝ) stack Lk sel f) = .error .nan := by
    intro q c hq hc stack f hm
    obtain ⟨Lk, sel, h1, h2, h3, -⟩ := cfgOrders_ok hs hcell (c := c) ⟨11, hc, by norm_num⟩
    rw [h1, ok_bind, h2, ok_bind]
    cases sel with
    | nil => cases h3
    | cons g gs =>
      refine if_pos ?_
      rcases hq.lt_or_eq with h | h
      · exact Or.inl (by exact_mod_cast h)
      · exact Or.inr ⟨_, hm, by simp [h]⟩
  refine ⟨⟨defaultConfig.set "TRCWA_NG" (.int 1), by decide +kernel, by rfl, ?_⟩, ⟨defaultConfig.set "TRCWA_NG" (.bool true), by decide +kernel, by rfl, ?_⟩,
    ⟨defaultConfig.set "TRCWA_L_grid" (.list [.list [.float 1, .float (-1)], .list [.float (-1), .float 1]]), by decide +kernel,
      ⟨_, _, _, _, rfl, Denotes.float _, Denotes.float _, Denotes.float _, Denotes.float _⟩, ?_⟩,
    ⟨defaultConfig.set "TRCWA_L_grid" (.list [.list [.float 1, .float 0, .float 0], .list [.float 0, .float 1, .float 0]]), by decide +kernel, by rfl, ?_⟩,
    ⟨defaultConfig.set "TRCWA_TOP_LAYER_EPS" (.float (-1)), by decide +kernel, by rfl, ?_⟩, ⟨defaultConfig.set "TRCWA_TOP_LAYER_EPS" (.float 0), by decide +kernel, by rfl, ?_⟩⟩
  · refine forward_error fdtd sort patterned (default_but (by decide +kernel) (by decide)) (by rfl) hdef ⟨1, ⟨_, rfl, Denotes.float _⟩, rfl⟩ fun stack f _ => ?_
    obtain ⟨Lk, -, h1, -, -, hc⟩ := cfgOrders_ok hs hcell (c := defaultConfig) ⟨11, rfl, by norm_num⟩
    have h2 : cfgOrders sort ((defaultConfig.set "TRCWA_NG" (.int 1)).set "target_frequencies" .other) Lk = .ok [] := by
      unfold cfgOrders
      rw [get_ok.2 (show _ = some (Val.int 1) by rfl), ok_bind]
      show (gselCircular 1 Lk.1 Lk.2 (sort 1 Lk.1 Lk.2) >>= _) = _
      rw [C14_single_order_false _ _ hc _ (hs 1 _ _)]
      rfl
    rw [h1, ok_bind, h2, ok_bind]
    rfl
  · refine forward_error fdtd sort patterned (default_but (by decide +kernel) (by decide)) (by rfl) hdef ⟨1, ⟨_, rfl, Denotes.float _⟩, rfl⟩ fun stack f _ => ?_
    obtain ⟨Lk, -, h1, -⟩ := cfgOrders_ok hs hcell (c := defaultConfig) ⟨11, rfl, by norm_num⟩
    rw [h1, ok_bind]
    rfl
  · refine forward_error fdtd sort patterned (default_but (by decide +kernel) (by decide)) (by rfl)
      (tensorRows_ok (Denotes.float _) (Denotes.float _) (Denotes.float _) (Denotes.float _)) ⟨1, ⟨_, rfl, Denotes.float _⟩, rfl⟩ fun stack f _ => ?_
    have : rowsReciprocal [[1, -1], [-1, 1]] = .error .zeroDivisionError := by
      simp [rowsReciprocal, latticeReciprocate]
    rw [this]; rfl
  · refine forward_error fdtd sort patterned (rows := [[1, 0, 0], [0, 1, 0]]) (default_but (by decide +kernel) (by decide)) (by rfl) (by decide +kernel) ⟨1, ⟨_, rfl, Denotes.float _⟩, rfl⟩ fun stack f _ => ?_
    rfl
  · exact forward_error fdtd sort patterned (default_but (by decide +kernel) (by decide)) (by rfl) hdef ⟨-1, ⟨_, rfl, Denotes.float _⟩, rfl⟩ fun stack f hm =>
      hnan (-1) _ (by norm_num) (by rfl) stack f hm
  · exact forward_error fdtd sort patterned (default_but (by decide +kernel) (by decide)) (by rfl) hdef ⟨0, ⟨_, rfl, Denotes.float _⟩, rfl⟩ fun stack f hm =>
      hnan 0 _ le_rfl (by rfl) stack f hm

end Nidn
