/-
C162: concrete cases - a grating in a doubled unit cell, a grating with additional orders along the lines - and the counterexample for
runs that keep the number of orders.
-/
import Verif.Props.Supercell
import Verif.Props.Invariance
import Verif.Props.FilmsCases

set_option linter.unusedSectionVars false

namespace Nidn

open Matrix

variable {Nx Ny n n' : ℕ}

/-- a pattern that looks like vacuum in the retained orders gives the layer of vacuum -/
lemma flat_built (ω : ℂ) (kx ky : Fin n → ℂ) {G : Fin n → ℤ × ℤ} (s : Fin Nx → Fin Ny → ℂ) (hres : Resolved Nx Ny G)
    (hs : ∀ i j, fourierCoeff s (G i - G j) = if i = j then 1 else 0) (d : ℝ) : Built ω kx ky G (.patterned s d) (uniformLayer ω kx ky (1 : ℝ) d) := by
  obtain ⟨C, h1, h2⟩ := (C15_entries s G).1 hres
  have hC : C = 1 := by
    ext i j
    rw [h2, hs, Matrix.one_apply]
  subst hC
  have z0 : zeroSmall 0 = 0 := by simp [zeroSmall]
  have z1 : zeroSmall 1 = 1 := by rw [zeroSmall, if_neg]; norm_num
  have hf : epsilonFft (1 / Nx / Ny) (.iso s) G = .ok ((1 : Matrix (Fin n) (Fin n) ℂ), (1 : Matrix (Fin n ⊕ Fin n) (Fin n ⊕ Fin n) ℂ)) := by
    simp only [epsilonFft]
    rw [h1, ok_bind, torchInverse, if_pos (by simp), ok_bind, inv_one, Matrix.fromBlocks_one, Matrix.map_one _ z0 z1]
    rfl
  have he := uniform_eig (ω := ω) kx ky (ε := ((1 : ℝ) : ℂ)) (by norm_num) d
  rw [Complex.ofReal_one, one_smul] at he
  have hk : (uniformLayer ω kx ky ((1 : ℝ) : ℂ) d).kp = kpPatterned ω 1 kx ky := by
    have := kpUniform_eq ω 1 kx ky
    rw [one_smul] at this
    rw [← this]
    simp [uniformLayer]
  have := Built.patterned (ω := ω) (kx := kx) (ky := ky) s d _ _ hf
    (Sum.elim (fun i => ((1 : ℝ) : ℂ) * ω ^ 2 - kx i ^ 2 - ky i ^ 2) (fun i => ((1 : ℝ) : ℂ) * ω ^ 2 - kx i ^ 2 - ky i ^ 2)) 1 (by
      rw [IsEig, ← hk]
      rw [Complex.ofReal_one]
      refine he.trans ?_
      congr 2
      funext m
      rcases m with i | i
      · exact (qUniform_sq ω 1 kx ky i).1
      · exact (qUniform_sq ω 1 kx ky i).2) (by simp)
  convert this using 1
  rw [patternedLayer, ← hk]
  simp only [uniformLayer]
  congr 1
  funext m
  rcases m with i | i <;> rfl

/-- the grating of `lit_answer` together with one more order that it does not couple to -/
lemma lit_glued {Nx₂ Ny₂ : ℕ} {e : Fin 2 → Fin n'} {f : Fin 1 → Fin n'} (g : OrderGroups e f) {G₂ : Fin 1 → ℤ × ℤ} {G' : Fin n' → ℤ × ℤ}
    {kx' ky' : Fin n' → ℂ} (hx : ∀ i, kx' (e i) = litKx i) (hy : ∀ i, ky' (e i) = litKy i) (hxr : ∀ i, (kx' i).im = 0) (hyr : ∀ i, (ky' i).im = 0)
    (hq : ∀ i, ((1 : ℝ) : ℂ) * ((13 : ℝ) : ℂ) ^ 2 ≠ kx' i ^ 2 + ky' i ^ 2) {s' : Slab Nx Ny}
    (hs : SlabIn e litOrders G' (.patterned (litPattern ((24 / 169 : ℝ) : ℂ)) (Real.pi / 2)) s') (s₂ : Fin Nx₂ → Fin Ny₂ → ℂ)
    (hs₂ : SlabIn f G₂ G' (.patterned s₂ (Real.pi / 2)) s') (h0 : fourierCoeff s₂ 0 = 1) (hp : 0 < Nx₂ ∧ 0 < Ny₂) (hres : Resolved Nx Ny G') :
    ∃ L', Built 13 kx' ky' G' s' L' ∧ (∀ M ∈ uniformLayer 13 kx' ky' (1 : ℝ) 0 :: [L'] ++ [uniformLayer 13 kx' ky' (1 : ℝ) 0], M.Regular) ∧
      rtForward 13 (rtNormalization 1 litTheta) (uniformLayer 13 kx' ky' (1 : ℝ) 0 :: [L'] ++ [uniformLayer 13 kx' ky' (1 : ℝ) 0])
        (planewave litTheta 0 1 0 (e 0)) 0 = .ok (110736 / 231361, 120625 / 231361) := by
  have hb := lit_built lit_kept
  have hb₂ := flat_built 13 (fun i => kx' (f i)) (fun i => ky' (f i)) s₂ (G := G₂) (fun i j => by
    rw [Subsingleton.elim i j, sub_self]
    simpa using hp) (fun i j => by
    rw [Subsingleton.elim i j, sub_self, h0, if_pos rfl]) (Real.pi / 2)
  obtain ⟨L', hL'⟩ := built_glue g hx hy (fun _ => rfl) (fun _ => rfl) hs hs₂ hres hb hb₂
  have hq' : ∀ i, qOrd 13 ((1 : ℝ) : ℂ) kx' ky' i ≠ 0 := fun i => by
    have := no_grazing hq i
    simpa using this
  have hu : (uniformLayer 13 kx' ky' ((1 : ℝ) : ℂ) 0).Regular := uniform_regular (by norm_num) hxr hyr (by norm_num) 0 hq'
  have hu₂ : ∀ d, (uniformLayer 13 (fun i => kx' (f i)) (fun i => ky' (f i)) ((1 : ℝ) : ℂ) d).Regular := fun d =>
    uniform_regular (by norm_num) (fun i => hxr (f i)) (fun i => hyr (f i)) (by norm_num) d fun i => hq' (f i)
  obtain ⟨Y, hY⟩ := built_seen g.inj_e hx hy hs hb hL'
  obtain ⟨Y₂, hY₂⟩ := built_seen g.inj_f (fun _ => rfl) (fun _ => rfl) hs₂ hb₂ hL'
  have hr' : L'.Regular := groups_regular g hY hY₂ (built_phi hL') (litSlab_regular lit_kept) (hu₂ _)
  have hr : ∀ M ∈ uniformLayer 13 kx' ky' (1 : ℝ) 0 :: [L'] ++ [uniformLayer 13 kx' ky' (1 : ℝ) 0], M.Regular := by
    intro M hM
    simp only [List.mem_cons, List.not_mem_nil, or_false, List.cons_append, List.nil_append] at hM
    rcases hM with rfl | rfl | rfl
    exacts [hu, hr', hu]
  refine ⟨L', hL', hr, (groups_rt g hx hy (fun _ => rfl) (fun _ => rfl) 13 (.cons hs .nil) (.cons hs₂ .nil) (.cons hb .nil) (.cons hb₂ .nil) (.cons hL' .nil)
    _ _ 0 0 hr _ _ _ _ _ _ _).2 ⟨lit_answer, ?_⟩⟩
  obtain ⟨S, hS⟩ := getSMatrix_same_ok _ (hu₂ 0) [uniformLayer 13 (fun i => kx' (f i)) (fun i => ky' (f i)) ((1 : ℝ) : ℂ) (Real.pi / 2),
    uniformLayer 13 (fun i => kx' (f i)) (fun i => ky' (f i)) ((1 : ℝ) : ℂ) 0] (fun M hM => by
    simp only [List.mem_cons, List.not_mem_nil, or_false] at hM
    rcases hM with rfl | rfl <;> exact ⟨rfl, rfl, rfl⟩)
  refine (rtForward_ok_iff _ _ _ _ _ (by simp)).2 ?_
  rw [solveExterior]
  have hl : (uniformLayer 13 (fun i => kx' (f i)) (fun i => ky' (f i)) ((1 : ℝ) : ℂ) 0 ::
    [uniformLayer 13 (fun i => kx' (f i)) (fun i => ky' (f i)) ((1 : ℝ) : ℂ) (Real.pi / 2)] ++
    [uniformLayer 13 (fun i => kx' (f i)) (fun i => ky' (f i)) ((1 : ℝ) : ℂ) 0]).length - 1 = 2 := rfl
  rw [hl]
  simp only [List.cons_append, List.nil_append, List.length_cons, List.length_nil] at hS ⊢
  rw [hS, ok_bind]
  exact ⟨_, rfl⟩

/-! ### the grating in a doubled cell -/

lemma lit_lattice_doubled : latticeReciprocate [((2 : ℕ) : ℝ) * (Real.pi / 12), ((2 : ℕ) : ℝ) * 0] [((1 : ℕ) : ℝ) * 0, ((1 : ℕ) : ℝ) * 1] =
    .ok ((6 / Real.pi, (0 : ℝ)), ((0 : ℝ), (1 : ℝ))) := by
  have hπ := Real.pi_ne_zero
  simp only [latticeReciprocate]
  rw [if_neg (by simp [hπ])]
  congr 3 <;> field_simp <;> norm_num
  ring

/-- the orders of the doubled cell: those of the grating and one between them -/
def dblOrders : Fin 3 → ℤ × ℤ := ![(0, 0), (-2, 0), (-1, 0)]

lemma dbl_wave (g : ℤ × ℤ) : waveX 13 litTheta 0 1 (6 / Real.pi, 0) (0, 1) g = 12 + 12 * g.1 ∧
    (g.2 = 0 → waveY 13 litTheta 0 1 (6 / Real.pi, 0) (0, 1) g = 0) := by
  have hπ : (Real.pi : ℂ) ≠ 0 := Complex.ofReal_ne_zero.2 Real.pi_ne_zero
  constructor
  · rw [waveX, lit_sin, Real.cos_zero, Real.sqrt_one]
    push_cast
    field_simp
    ring
  · intro h
    simp [waveY, h]

lemma dblKx_eq : kxOf 13 litTheta 0 1 (6 / Real.pi, 0) (0, 1) dblOrders = ![12, -12, 0] := by
  funext i
  rw [kxOf, (dbl_wave _).1]
  fin_cases i <;> (simp [dblOrders]; try norm_num)

lemma dblKy_eq : kyOf 13 litTheta 0 1 (6 / Real.pi, 0) (0, 1) dblOrders = 0 := by
  funext i
  rw [kyOf, (dbl_wave _).2 (by fin_cases i <;> rfl)]
  rfl

lemma dbl_groups : OrderGroups (![0, 1] : Fin 2 → Fin 3) (![2] : Fin 1 → Fin 3) :=
  ⟨by decide, by decide, by decide, by decide⟩

/-- the run of the grating described by a doubled cell -/
lemma dbl_run : ∃ L', Built 13 (kxOf 13 litTheta 0 1 (6 / Real.pi, 0) (0, 1) dblOrders) (kyOf 13 litTheta 0 1 (6 / Real.pi, 0) (0, 1) dblOrders) dblOrders
      (Slab.tile 2 1 (.patterned (litPattern ((24 / 169 : ℝ) : ℂ)) (Real.pi / 2))) L' ∧
    (∀ M ∈ uniformLayer 13 (kxOf 13 litTheta 0 1 (6 / Real.pi, 0) (0, 1) dblOrders) (kyOf 13 litTheta 0 1 (6 / Real.pi, 0) (0, 1) dblOrders) (1 : ℝ) 0 ::
      [L'] ++ [uniformLayer 13 (kxOf 13 litTheta 0 1 (6 / Real.pi, 0) (0, 1) dblOrders) (kyOf 13 litTheta 0 1 (6 / Real.pi, 0) (0, 1) dblOrders) (1 : ℝ) 0],
      M.Regular) ∧
    rtForward 13 (rtNormalization 1 litTheta)
      (uniformLayer 13 (kxOf 13 litTheta 0 1 (6 / Real.pi, 0) (0, 1) dblOrders) (kyOf 13 litTheta 0 1 (6 / Real.pi, 0) (0, 1) dblOrders) (1 : ℝ) 0 ::
        [L'] ++ [uniformLayer 13 (kxOf 13 litTheta 0 1 (6 / Real.pi, 0) (0, 1) dblOrders) (kyOf 13 litTheta 0 1 (6 / Real.pi, 0) (0, 1) dblOrders) (1 : ℝ) 0])
      (planewave litTheta 0 1 0 (0 : Fin 3)) 0 = .ok (110736 / 231361, 120625 / 231361) := by
  rw [dblKx_eq, dblKy_eq]
  have hin := tile_in (p := 2) (q := 1) two_pos one_pos two_pos one_pos (e := (![0, 1] : Fin 2 → Fin 3)) (G := litOrders) (G' := dblOrders) (by decide)
    (by decide) [.patterned (litPattern ((24 / 169 : ℝ) : ℂ)) (Real.pi / 2)]
  have z : ((0 : ℤ × ℤ)) = (0, 0) := rfl
  refine lit_glued dbl_groups (G₂ := fun _ => (0, 0)) (fun i => ?_) (fun i => ?_) (fun i => ?_) (fun i => ?_) (fun i => ?_)
    (List.forall₂_cons.1 hin).1 (litPattern ((24 / 169 : ℝ) : ℂ)) ?_ ?_ ⟨two_pos, one_pos⟩ ?_
  · rw [litKx_eq]; fin_cases i <;> rfl
  · rw [litKy_eq]; rfl
  · fin_cases i <;> simp
  · simp
  · fin_cases i <;> (simp; try norm_num)
  · refine .patterned _ _ _ (fun i j => ?_) (fun i hi j => ?_) (fun i hi j => ?_) (fun _ i j => by simp)
    · rw [Subsingleton.elim i j, sub_self, sub_self, coeff_tile two_pos one_pos two_pos one_pos]
      simp [z]
    · rw [coeff_tile two_pos one_pos two_pos one_pos, if_neg]
      fin_cases i <;> fin_cases j <;> simp_all [dblOrders]
    · rw [coeff_tile two_pos one_pos two_pos one_pos, if_neg]
      fin_cases i <;> fin_cases j <;> simp_all [dblOrders]
  · rw [z, lit_coeff]; norm_num
  · intro i j
    fin_cases i <;> fin_cases j <;> simp [dblOrders]

/-- Hypotheses of `C162_supercell` (and, by `tile_in`, of `C162_groups`): a grating, described by a cell that contains it twice. -/
example : ∃ (L : LayerData (Fin 2 ⊕ Fin 2)), Built 13 litKx litKy litOrders (.patterned (litPattern ((24 / 169 : ℝ) : ℂ)) (Real.pi / 2)) L ∧
    rtForward 13 (rtNormalization 1 litTheta) (uniformLayer 13 litKx litKy (1 : ℝ) 0 :: [L] ++ [uniformLayer 13 litKx litKy (1 : ℝ) 0])
      (planewave litTheta 0 1 0 (0 : Fin 2)) 0 = .ok (110736 / 231361, 120625 / 231361) := by
  obtain ⟨L', hb, hr, h⟩ := dbl_run
  obtain ⟨⟨m, hm⟩, hall⟩ := C162_supercell 2 1 two_pos one_pos two_pos one_pos 13 litTheta 0 1 _ _ _ _ _ _ _ _ lit_lattice lit_lattice_doubled litOrders dblOrders
    (by decide) ![0, 1] (by decide) (by decide) [.patterned (litPattern ((24 / 169 : ℝ) : ℂ)) (Real.pi / 2)] litKx litKy _ _ rfl rfl rfl rfl [L']
    (.cons hb .nil) _ _ 0 0 hr _ 1 0 0 _ h
  cases hm with
  | cons k hm =>
    cases hm
    exact ⟨_, k, hall _ (.cons k .nil)⟩

/-- Hypotheses of `C162_groups`: the two orders of the grating and the one between them, in the doubled cell. -/
example : ∃ (L' : LayerData (Fin 3 ⊕ Fin 3)) (m : List (LayerData (Fin 2 ⊕ Fin 2))) (m₂ : List (LayerData (Fin 1 ⊕ Fin 1))) (T : ℝ) (kx ky : Fin 3 → ℂ),
    Uncoupled (![0, 1] : Fin 2 → Fin 3) (![2] : Fin 1 → Fin 3) dblOrders [Slab.tile 2 1 (.patterned (litPattern ((24 / 169 : ℝ) : ℂ)) (Real.pi / 2))] ∧
    List.Forall₂ (Built 13 kx ky dblOrders) [Slab.tile 2 1 (.patterned (litPattern ((24 / 169 : ℝ) : ℂ)) (Real.pi / 2))] [L'] ∧
    List.Forall₂ (Built 13 (kx ∘ ![0, 1]) (ky ∘ ![0, 1]) (dblOrders ∘ ![0, 1])) [Slab.tile 2 1 (.patterned (litPattern ((24 / 169 : ℝ) : ℂ)) (Real.pi / 2))] m ∧
    List.Forall₂ (Built 13 (kx ∘ ![2]) (ky ∘ ![2]) (dblOrders ∘ ![2])) [Slab.tile 2 1 (.patterned (litPattern ((24 / 169 : ℝ) : ℂ)) (Real.pi / 2))] m₂ ∧
    (∀ M ∈ uniformLayer 13 kx ky (1 : ℝ) 0 :: [L'] ++ [uniformLayer 13 kx ky (1 : ℝ) 0], M.Regular) ∧
    rtForward 13 (rtNormalization 1 litTheta) (uniformLayer 13 (kx ∘ ![0, 1]) (ky ∘ ![0, 1]) (1 : ℝ) 0 :: m ++
      [uniformLayer 13 (kx ∘ ![0, 1]) (ky ∘ ![0, 1]) (1 : ℝ) 0]) (planewave litTheta 0 1 0 (0 : Fin 2)) 0 = .ok (110736 / 231361, T) := by
  obtain ⟨L', hb, hr, h⟩ := dbl_run
  have z : ((0 : ℤ × ℤ)) = (0, 0) := rfl
  have hu : Uncoupled (![0, 1] : Fin 2 → Fin 3) (![2] : Fin 1 → Fin 3) dblOrders [Slab.tile 2 1 (.patterned (litPattern ((24 / 169 : ℝ) : ℂ)) (Real.pi / 2))] := by
    intro s d hs i j
    rw [List.mem_singleton, Slab.tile] at hs
    injection hs with hs
    rw [hs, coeff_tile two_pos one_pos two_pos one_pos, coeff_tile two_pos one_pos two_pos one_pos, if_neg, if_neg]
    · exact ⟨rfl, rfl⟩
    all_goals fin_cases i <;> fin_cases j <;> simp [dblOrders]
  have hin := uncoupled_in dbl_groups hu
  obtain ⟨m, hm⟩ := (in_rt dbl_groups.inj_e (fun _ => rfl) (fun _ => rfl) 13 hin.1 (.cons hb .nil) _ _ 0 0 hr (rtNormalization 1 litTheta) litTheta 0 1 0 0 _ h).1
  have hb₂ := flat_built 13 (kxOf 13 litTheta 0 1 (6 / Real.pi, 0) (0, 1) dblOrders ∘ ![2]) (kyOf 13 litTheta 0 1 (6 / Real.pi, 0) (0, 1) dblOrders ∘ ![2])
    (tilePattern 2 1 (litPattern ((24 / 169 : ℝ) : ℂ))) (G := dblOrders ∘ ![2]) (fun i j => by
      rw [Subsingleton.elim i j, sub_self]; simp) (fun i j => by
      rw [Subsingleton.elim i j, sub_self, coeff_tile two_pos one_pos two_pos one_pos]
      simp [lit_coeff]
      try ring) (Real.pi / 2)
  have hm₂ : List.Forall₂ _ [Slab.tile 2 1 (.patterned (litPattern ((24 / 169 : ℝ) : ℂ)) (Real.pi / 2))] [_] := .cons hb₂ .nil
  exact ⟨L', m, _, _, _, _, hu, .cons hb .nil, hm, hm₂, hr, ((C162_groups _ _ dbl_groups 13 _ _ dblOrders _ hu [L'] m _ (.cons hb .nil) hm hm₂ _ _ 0 0 hr
    (rtNormalization 1 litTheta) litTheta 0 1 0 0 _).1 h).1⟩

/-! ### a grating with an order along the lines -/

/-- the lines of the grating -/
noncomputable def litLines : LineSlab 2 := .lines (fun m => litPattern ((24 / 169 : ℝ) : ℂ) m 0) (Real.pi / 2)

/-- the orders: those of the grating and one along the lines -/
def lineOrders : Fin 3 → ℤ × ℤ := ![(0, 0), (-1, 0), (0, 1)]

lemma line_lattice : latticeReciprocate [Real.pi / 12, 0] [0, 2 * Real.pi] = .ok ((12 / Real.pi, (0 : ℝ)), ((0 : ℝ), 1 / (2 * Real.pi))) := by
  have hπ := Real.pi_ne_zero
  simp only [latticeReciprocate]
  rw [if_neg (by simp [hπ])]
  congr 3 <;> field_simp <;> norm_num

lemma lineKx_eq : kxOf 13 litTheta 0 1 (12 / Real.pi, 0) (0, 1 / (2 * Real.pi)) lineOrders = ![12, -12, 12] := by
  have hπ : (Real.pi : ℂ) ≠ 0 := Complex.ofReal_ne_zero.2 Real.pi_ne_zero
  funext i
  have h : ∀ g : ℤ × ℤ, waveX 13 litTheta 0 1 (12 / Real.pi, 0) (0, 1 / (2 * Real.pi)) g = 12 + 24 * g.1 := by
    intro g
    rw [waveX, lit_sin, Real.cos_zero, Real.sqrt_one]
    push_cast
    field_simp
    ring
  rw [kxOf, h]
  fin_cases i <;> (simp [lineOrders]; try norm_num)

lemma lineKy_eq : kyOf 13 litTheta 0 1 (12 / Real.pi, 0) (0, 1 / (2 * Real.pi)) lineOrders = ![0, 0, 1] := by
  have hπ : (Real.pi : ℂ) ≠ 0 := Complex.ofReal_ne_zero.2 Real.pi_ne_zero
  funext i
  rw [kyOf, waveY]
  fin_cases i <;> simp [lineOrders]
  field_simp

lemma line_coeff (d : ℤ) (d' : ℤ) (hd : |d'| < 2) : fourierCoeff (fun (m : Fin 2) (_ : Fin 2) => litPattern ((24 / 169 : ℝ) : ℂ) m 0) (d, d') =
    if d' = 0 then ((1 + (24 / 169 : ℂ)) + (1 - (24 / 169 : ℂ)) * (-1) ^ d) / 2 else 0 := by
  rw [coeff_lines two_pos _ (d, d') (by simpa using hd)]
  have : (fun (m : Fin 2) (_ : Fin 1) => litPattern ((24 / 169 : ℝ) : ℂ) m 0) = litPattern ((24 / 169 : ℝ) : ℂ) := by
    funext m k
    rw [Subsingleton.elim k 0]
  rw [this, lit_coeff]
  push_cast
  rfl

/-- the run of the grating with the additional order and two pixels along the lines -/
lemma line_run : ∃ L', Built 13 (kxOf 13 litTheta 0 1 (12 / Real.pi, 0) (0, 1 / (2 * Real.pi)) lineOrders)
      (kyOf 13 litTheta 0 1 (12 / Real.pi, 0) (0, 1 / (2 * Real.pi)) lineOrders) lineOrders (litLines.toSlab 2) L' ∧
    (∀ M ∈ uniformLayer 13 (kxOf 13 litTheta 0 1 (12 / Real.pi, 0) (0, 1 / (2 * Real.pi)) lineOrders)
        (kyOf 13 litTheta 0 1 (12 / Real.pi, 0) (0, 1 / (2 * Real.pi)) lineOrders) (1 : ℝ) 0 ::
      [L'] ++ [uniformLayer 13 (kxOf 13 litTheta 0 1 (12 / Real.pi, 0) (0, 1 / (2 * Real.pi)) lineOrders)
        (kyOf 13 litTheta 0 1 (12 / Real.pi, 0) (0, 1 / (2 * Real.pi)) lineOrders) (1 : ℝ) 0], M.Regular) ∧
    rtForward 13 (rtNormalization 1 litTheta)
      (uniformLayer 13 (kxOf 13 litTheta 0 1 (12 / Real.pi, 0) (0, 1 / (2 * Real.pi)) lineOrders)
        (kyOf 13 litTheta 0 1 (12 / Real.pi, 0) (0, 1 / (2 * Real.pi)) lineOrders) (1 : ℝ) 0 ::
        [L'] ++ [uniformLayer 13 (kxOf 13 litTheta 0 1 (12 / Real.pi, 0) (0, 1 / (2 * Real.pi)) lineOrders)
        (kyOf 13 litTheta 0 1 (12 / Real.pi, 0) (0, 1 / (2 * Real.pi)) lineOrders) (1 : ℝ) 0])
      (planewave litTheta 0 1 0 (0 : Fin 3)) 0 = .ok (110736 / 231361, 120625 / 231361) := by
  rw [lineKx_eq, lineKy_eq]
  have z : ((0 : ℤ × ℤ)) = (0, 0) := rfl
  have hin := lines_in (Ny := 1) (Ny' := 2) one_pos (e := (![0, 1] : Fin 2 → Fin 3)) (G := litOrders) (G' := lineOrders) (by decide) (by decide) (by decide)
    [litLines] (fun _ _ _ => by decide)
  have e1 : litLines.toSlab 1 = .patterned (litPattern ((24 / 169 : ℝ) : ℂ)) (Real.pi / 2) := by
    rw [litLines, LineSlab.toSlab]
    congr 1
  have hin' := (List.forall₂_cons.1 hin).1
  rw [e1] at hin'
  refine lit_glued dbl_groups (G₂ := fun _ => (0, 0)) (fun i => ?_) (fun i => ?_) (fun i => ?_) (fun i => ?_) (fun i => ?_)
    hin' (litPattern ((24 / 169 : ℝ) : ℂ)) ?_ ?_ ⟨two_pos, one_pos⟩ ?_
  · rw [litKx_eq]; fin_cases i <;> rfl
  · rw [litKy_eq]; fin_cases i <;> rfl
  · fin_cases i <;> simp
  · fin_cases i <;> simp
  · fin_cases i <;> (simp; try norm_num)
  · refine .patterned _ _ _ (fun i j => ?_) (fun i hi j => ?_) (fun i hi j => ?_) (fun _ i j => by simp)
    · rw [Subsingleton.elim i j, sub_self, sub_self, z, line_coeff _ _ (by norm_num), lit_coeff]
      simp
    · rw [coeff_lines two_pos, if_neg] <;> fin_cases i <;> fin_cases j <;> simp_all [lineOrders]
    · rw [coeff_lines two_pos, if_neg] <;> fin_cases i <;> fin_cases j <;> simp_all [lineOrders]
  · rw [z, lit_coeff]; norm_num
  · intro i j
    fin_cases i <;> fin_cases j <;> simp [lineOrders]

/-- Hypotheses of `C162_lines` and `C162_lines_same`: the grating with two orders and one pixel along the lines, and with three orders, two
pixels along the lines and another period along the lines. -/
example (R T : ℝ) (L : LayerData (Fin 2 ⊕ Fin 2)) (hb : Built 13 litKx litKy litOrders (litLines.toSlab 1) L)
    (hr : ∀ M ∈ uniformLayer 13 litKx litKy (1 : ℝ) 0 :: [L] ++ [uniformLayer 13 litKx litKy (1 : ℝ) 0], M.Regular)
    (h : rtForward 13 (rtNormalization 1 litTheta) (uniformLayer 13 litKx litKy (1 : ℝ) 0 :: [L] ++ [uniformLayer 13 litKx litKy (1 : ℝ) 0])
      (planewave litTheta 0 1 0 (0 : Fin 2)) 0 = .ok (R, T)) : (R, T) = (110736 / 231361, 120625 / 231361) := by
  obtain ⟨L', hb', hr', h'⟩ := line_run
  exact C162_lines_same 13 litTheta 0 1 (Real.pi / 12) 1 (2 * Real.pi) _ _ _ _ lit_lattice line_lattice litOrders lineOrders (by decide) (by decide) (fun j => by
    constructor
    · rintro ⟨i, hi⟩
      fin_cases i
      · exact ⟨0, hi⟩
      · exact ⟨1, hi⟩
    · rintro ⟨i, hi⟩
      fin_cases i
      · exact ⟨0, hi⟩
      · exact ⟨1, hi⟩
      · simp [lineOrders] at hi) [litLines] _ _ _ _ rfl rfl rfl rfl [L] [L'] (.cons hb .nil) (.cons hb' .nil) _ _ 0 0 hr hr' _ 1 0 0 0 rfl rfl _ _ h h'

example : ∃ L, Built 13 litKx litKy litOrders (litLines.toSlab 1) L := by
  obtain ⟨L', hb', hr', h'⟩ := line_run
  obtain ⟨⟨m, hm⟩, -⟩ := C162_lines 13 litTheta 0 1 _ _ _ _ _ _ _ lit_lattice line_lattice litOrders lineOrders (by decide) (by decide) ![0, 1] (by decide) (by decide)
    [litLines] _ _ _ _ rfl rfl rfl rfl [L'] (.cons hb' .nil) _ _ 0 0 hr' (rtNormalization 1 litTheta) 1 0 0 _ h'
  cases hm with
  | cons k hm => exact ⟨_, k⟩

/-! ### the same number of orders -/

/-- C162: it is not enough to keep the number of orders: with two orders the grating reflects 47.9 percent of the light, the same grating
described by a doubled cell - still with two orders - reflects nothing. -/
theorem C162_truncation : ∃ (s : Fin 2 → Fin 1 → ℂ) (G : Fin 2 → ℤ × ℤ) (Lk1 Lk2 Lk1' Lk2' : ℝ × ℝ) (L L' : LayerData (Fin 2 ⊕ Fin 2)) (R T R' T' : ℝ),
    latticeReciprocate [Real.pi / 12, 0] [0, 1] = .ok (Lk1, Lk2) ∧
    latticeReciprocate [((2 : ℕ) : ℝ) * (Real.pi / 12), ((2 : ℕ) : ℝ) * 0] [((1 : ℕ) : ℝ) * 0, ((1 : ℕ) : ℝ) * 1] = .ok (Lk1', Lk2') ∧
    Built 13 (kxOf 13 litTheta 0 1 Lk1 Lk2 G) (kyOf 13 litTheta 0 1 Lk1 Lk2 G) G (.patterned s (Real.pi / 2)) L ∧
    Built 13 (kxOf 13 litTheta 0 1 Lk1' Lk2' G) (kyOf 13 litTheta 0 1 Lk1' Lk2' G) G (Slab.tile 2 1 (.patterned s (Real.pi / 2))) L' ∧
    rtForward 13 (rtNormalization 1 litTheta) (uniformLayer 13 (kxOf 13 litTheta 0 1 Lk1 Lk2 G) (kyOf 13 litTheta 0 1 Lk1 Lk2 G) (1 : ℝ) 0 :: [L] ++
      [uniformLayer 13 (kxOf 13 litTheta 0 1 Lk1 Lk2 G) (kyOf 13 litTheta 0 1 Lk1 Lk2 G) (1 : ℝ) 0]) (planewave litTheta 0 1 0 (0 : Fin 2)) 0 = .ok (R, T) ∧
    rtForward 13 (rtNormalization 1 litTheta) (uniformLayer 13 (kxOf 13 litTheta 0 1 Lk1' Lk2' G) (kyOf 13 litTheta 0 1 Lk1' Lk2' G) (1 : ℝ) 0 :: [L'] ++
      [uniformLayer 13 (kxOf 13 litTheta 0 1 Lk1' Lk2' G) (kyOf 13 litTheta 0 1 Lk1' Lk2' G) (1 : ℝ) 0]) (planewave litTheta 0 1 0 (0 : Fin 2)) 0 = .ok (R', T') ∧
    R' = 0 ∧ 2 / 5 < R := by
  set kx := kxOf 13 litTheta 0 1 (6 / Real.pi, 0) (0, 1) litOrders with hkx
  set ky := kyOf 13 litTheta 0 1 (6 / Real.pi, 0) (0, 1) litOrders with hky
  have ex : kx = ![12, 0] := by
    funext i
    rw [hkx, kxOf, (dbl_wave _).1]
    fin_cases i <;> simp [litOrders]
  have ey : ky = 0 := by
    funext i
    rw [hky, kyOf, (dbl_wave _).2 (by fin_cases i <;> rfl)]
    rfl
  have z : ((0 : ℤ × ℤ)) = (0, 0) := rfl
  have hb : Built 13 kx ky litOrders (Slab.tile 2 1 (.patterned (litPattern ((24 / 169 : ℝ) : ℂ)) (Real.pi / 2))) (uniformLayer 13 kx ky (1 : ℝ) (Real.pi / 2)) := by
    refine flat_built 13 kx ky _ (fun i j => ?_) (fun i j => ?_) _
    · fin_cases i <;> fin_cases j <;> simp [litOrders]
    · rw [coeff_tile two_pos one_pos two_pos one_pos]
      fin_cases i <;> fin_cases j <;> simp [litOrders, lit_coeff]
  have hq : ∀ i, ((1 : ℝ) : ℂ) * ((13 : ℝ) : ℂ) ^ 2 ≠ kx i ^ 2 + ky i ^ 2 := by
    rw [ex, ey]
    intro i
    fin_cases i <;> (simp; try norm_num)
  have hk13 : ((13 : ℝ) : ℂ) = 13 := by norm_num
  have hl : uniformLayer 13 kx ky ((1 : ℝ) : ℂ) 0 :: [uniformLayer 13 kx ky ((1 : ℝ) : ℂ) (Real.pi / 2)] ++ [uniformLayer 13 kx ky ((1 : ℝ) : ℂ) 0] =
    uniformLayer ((13 : ℝ) : ℂ) kx ky ((1 : ℝ) : ℂ) 0 :: ([(((1 : ℝ) : ℂ), Real.pi / 2)] ++ [(((1 : ℝ) : ℂ), (0 : ℝ))]).map fun e =>
      uniformLayer ((13 : ℝ) : ℂ) kx ky e.1 e.2 := by
    rw [hk13]; rfl
  have hqs : ∀ M ∈ uniformLayer 13 kx ky ((1 : ℝ) : ℂ) 0 :: [uniformLayer 13 kx ky ((1 : ℝ) : ℂ) (Real.pi / 2)] ++ [uniformLayer 13 kx ky ((1 : ℝ) : ℂ) 0],
      ∀ m, M.q m ≠ 0 := by
    intro M hM
    simp only [List.mem_cons, List.not_mem_nil, or_false, List.cons_append, List.nil_append] at hM
    have := no_grazing hq
    rw [hk13] at this
    rcases hM with rfl | rfl | rfl <;> exact qs_of_ord this
  obtain ⟨R, T, h⟩ := C113_real 13 litTheta 0 1 (by norm_num) one_pos (6 / Real.pi, 0) (0, 1) litOrders kx ky (by rw [hk13]) (by rw [hk13]) (fun i => by
    rw [ex, ey]
    fin_cases i <;> (simp; try norm_num)) 0 [(((1 : ℝ) : ℂ), Real.pi / 2)] (fun m hm => by
    rw [List.mem_singleton.1 hm]
    refine ⟨by norm_num, by simp, by positivity⟩) ((1 : ℝ) : ℂ) 0 (by norm_num) (by simp) _ hl hqs (rtNormalization 1 litTheta) (planewave litTheta 0 1 0 (0 : Fin 2)) 0
  refine ⟨litPattern ((24 / 169 : ℝ) : ℂ), litOrders, _, _, _, _, _, _, _, _, R, T, lit_lattice, lit_lattice_doubled, lit_built lit_kept, hb, lit_answer, ?_, ?_, by norm_num⟩
  · rw [hk13] at h; exact h
  · have := (C112_films 13 litTheta 0 1 (by norm_num) (by rw [lit_cos]; norm_num) one_pos (6 / Real.pi, 0) (0, 1) litOrders 0 rfl 0
      [(((1 : ℝ) : ℂ), Real.pi / 2, 5 / 13)] (fun m hm => by
        rw [List.mem_singleton.1 hm, lit_sin]
        norm_num) ((1 : ℝ) : ℂ) 0 (5 / 13) (by norm_num) (by rw [lit_sin]; norm_num) (by right; norm_num) kx ky (by rw [hk13]) (by rw [hk13]) _ hl hqs 1 0 R T h).2.2.1
    rw [this, lit_cos]
    simp [filmsR, frontFields, filmFront]
    left
    ring

end Nidn
