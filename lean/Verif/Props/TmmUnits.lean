/-
C153: the unit of length does not matter for the transfer-matrix module: if all thicknesses, places and the wavelength are given in another unit, every answer is the same in that unit.
-/
import Verif.Props.TmmIncoherent
import Verif.Props.TmmEnergy

namespace Nidn

noncomputable section

/-! ### Commuting with a change of data -/

lemma bind_map_ext {α β γ : Type} (φ : β → γ) {x : Except PyErr α} {f : α → Except PyErr γ} {g : α → Except PyErr β} (h : ∀ a, f a = (g a).map φ) : (x >>= f) = (x >>= g).map φ := by
  cases x with
  | error e => rfl
  | ok a => exact h a

lemma map_bind' {α β γ : Type} (φ : α → β) (x : Except PyErr α) (f : β → Except PyErr γ) : (x.map φ >>= f) = (x >>= fun a => f (φ a)) := by
  cases x <;> rfl

lemma assertTrue_iff {p q : Prop} [Decidable p] [Decidable q] (h : p ↔ q) : assertTrue p = assertTrue q := by
  unfold assertTrue
  by_cases hq : q
  · rw [if_pos (h.2 hq), if_pos hq]
  · rw [if_neg (fun hp => hq (h.1 hp)), if_neg hq]

lemma pyNth_map {α β : Type} (φ : α → β) (l : List α) (i : ℤ) : pyNth (l.map φ) i = (pyNth l i).map φ := by
  unfold pyNth
  rw [List.length_map]
  by_cases h : i < 0
  · rw [if_pos h, if_pos h, List.getElem?_map]
    cases l[(i + l.length).toNat]? with
    | none => rfl
    | some x => simp only [Option.map_some]; split <;> rfl
  · rw [if_neg h, if_neg h, List.getElem?_map]
    cases l[i.toNat]? with
    | none => rfl
    | some x => simp only [Option.map_some]; split <;> rfl

lemma mapM_map_ext {α β γ : Type} (φ : β → γ) {l : List α} {f : α → Except PyErr γ} {g : α → Except PyErr β} (h : ∀ a, f a = (g a).map φ) : l.mapM f = (l.mapM g).map (List.map φ) := by
  induction l with
  | nil => rfl
  | cons a l ih =>
    rw [List.mapM_cons, List.mapM_cons, h, map_bind']
    refine bind_map_ext _ fun b => ?_
    rw [ih, map_bind']
    refine bind_map_ext _ fun bs => ?_
    rfl

lemma getD_map' {α β : Type} (φ : α → β) (l : List α) (i : ℕ) (a : α) (b : β) (h : φ a = b) : (l.map φ).getD i b = φ (l.getD i a) := by
  simp only [List.getD, List.getElem?_map]
  cases l[i]? with
  | none => exact h.symm
  | some x => rfl

/-! ### Coherent stacks -/

/-- specification: a thickness in the new unit -/
def newUnit (u : ℝ) (d : List (Option ℝ)) : List (Option ℝ) := d.map (Option.map (u * ·))

/-- specification: the returned data in the new unit; only wave numbers, thicknesses and the wavelength have units -/
def TmmData.inUnit (u : ℝ) (c : TmmData) : TmmData := { c with kz := c.kz.map (· / (u : ℂ)), d := newUnit u c.d, lam := u * c.lam }

lemma nanDiv_unit {u : ℝ} (hu : u ≠ 0) (a lam : ℂ) : nanDiv a (u * lam) = (nanDiv a lam).map (· / (u : ℂ)) := by
  unfold nanDiv
  have hu' : (u : ℂ) ≠ 0 := by exact_mod_cast hu
  by_cases h : lam = 0
  · rw [if_pos h, if_pos (by rw [h, mul_zero])]; rfl
  · rw [if_neg h, if_neg (mul_ne_zero hu' h)]
    show Except.ok _ = Except.ok _
    congr 1
    field_simp

lemma layerPhase_unit {u : ℝ} (hu : u ≠ 0) (k : ℂ) (x : Option ℝ) : layerPhase (k / u) (x.map (u * ·)) = layerPhase k x := by
  have hu' : (u : ℂ) ≠ 0 := by exact_mod_cast hu
  cases x with
  | none => rfl
  | some x =>
    unfold layerPhase
    simp only [Option.map_some]
    congr 2
    push_cast
    field_simp

lemma stackMatrices_unit {u : ℝ} (hu : u ≠ 0) (pol : String) (n th kz : List ℂ) (d : List (Option ℝ)) :
    stackMatrices pol n th (kz.map (· / (u : ℂ))) (newUnit u d) = stackMatrices pol n th kz d := by
  unfold stackMatrices newUnit
  have : (fun i : ℕ => layerPhase ((kz.map (· / (u : ℂ))).getD (i + 1) 0) ((d.map (Option.map (u * ·))).getD (i + 1) none)) =
      fun i : ℕ => layerPhase (kz.getD (i + 1) 0) (d.getD (i + 1) none) := by
    funext i
    rw [getD_map' (· / (u : ℂ)) kz (i + 1) 0 0 (by simp), getD_map' (Option.map (u * ·)) d (i + 1) none none rfl, layerPhase_unit hu]
  rw [this]

/-- C153, coherent stacks: with thicknesses and wavelength in another unit `coh_tmm` returns the same, in that unit, or raises the same. -/
theorem C153_coherent (asin : ℂ → ℂ) (pol : String) (n : List ℂ) (d : List (Option ℝ)) (th0 lam : ℂ) (u : ℝ) (hu : u ≠ 0) :
    cohTmm asin pol n (newUnit u d) th0 (u * lam) = (cohTmm asin pol n d th0 lam).map (TmmData.inUnit u) := by
  unfold cohTmm
  have hl : (newUnit u d).length = d.length := List.length_map ..
  rw [hl]
  by_cases hlen : n.length ≠ d.length
  · rw [if_pos hlen, if_pos hlen]; rfl
  rw [if_neg hlen, if_neg hlen]
  simp only [newUnit, pyNth_map, map_bind']
  refine bind_map_ext _ fun d0 => ?_
  refine bind_map_ext _ fun dN => ?_
  rw [assertTrue_iff (q := d0 = none ∧ dN = none) (by simp)]
  refine bind_map_ext _ fun _ => ?_
  refine bind_map_ext _ fun n0 => ?_
  refine bind_map_ext _ fun _ => ?_
  refine bind_map_ext _ fun fwd => ?_
  refine bind_map_ext _ fun _ => ?_
  refine bind_map_ext _ fun th => ?_
  rw [mapM_map_ext (φ := (· / (u : ℂ))) (g := fun p : ℂ × ℂ => nanDiv (2 * Real.pi * p.1 * Complex.cos p.2) lam) (fun p => nanDiv_unit hu _ _), map_bind']
  refine bind_map_ext _ fun kz => ?_
  have := stackMatrices_unit hu pol n th kz d
  unfold newUnit at this
  rw [this]
  refine bind_map_ext _ fun trM => ?_
  refine bind_map_ext _ fun tr0 => ?_
  refine bind_map_ext _ fun v => ?_
  refine bind_map_ext _ fun r => ?_
  refine bind_map_ext _ fun t => ?_
  refine bind_map_ext _ fun nN => ?_
  refine bind_map_ext _ fun thN => ?_
  refine bind_map_ext _ fun T => ?_
  refine bind_map_ext _ fun pe => ?_
  rfl

/-- C153, light from behind. -/
theorem C153_reverse (asin : ℂ → ℂ) (pol : String) (n : List ℂ) (d : List (Option ℝ)) (th0 lam : ℂ) (u : ℝ) (hu : u ≠ 0) :
    cohTmmReverse asin pol n (newUnit u d) th0 (u * lam) = (cohTmmReverse asin pol n d th0 lam).map (TmmData.inUnit u) := by
  unfold cohTmmReverse
  refine bind_map_ext _ fun n0 => ?_
  refine bind_map_ext _ fun nN => ?_
  refine bind_map_ext _ fun thf => ?_
  rw [← C153_coherent asin pol _ _ _ _ u hu]
  unfold newUnit
  rw [List.map_reverse]

/-! ### Places -/

/-- specification: the data at a point in the new unit: absorption is per length -/
def PointData.inUnit (u : ℝ) (p : PointData) : PointData := { p with absor := p.absor / u }

lemma nanDivR_left (a b u : ℝ) : nanDivR (a / u) b = (nanDivR a b).map (· / u) := by
  unfold nanDivR
  split
  · rfl
  · show Except.ok _ = Except.ok _
    congr 1
    ring

lemma div_real_im (z : ℂ) (u : ℝ) : (z / (u : ℂ)).im = z.im / u := by
  rw [Complex.div_ofReal_im]

lemma pointData_unit (pol : String) (n th kz n0 th0 Ef Eb : ℂ) (u : ℝ) : pointData pol n th (kz / u) n0 th0 Ef Eb = (pointData pol n th kz n0 th0 Ef Eb).map (PointData.inUnit u) := by
  unfold pointData
  by_cases hs : pol = "s"
  · rw [if_pos hs, if_pos hs]
    refine bind_map_ext _ fun p => ?_
    rw [show n * Complex.cos th * (kz / u) * ((‖Ef + Eb‖ ^ 2 : ℝ) : ℂ) = n * Complex.cos th * kz * ((‖Ef + Eb‖ ^ 2 : ℝ) : ℂ) / u by ring, div_real_im, nanDivR_left, map_bind']
    refine bind_map_ext _ fun a => ?_
    rfl
  · rw [if_neg hs, if_neg hs]
    by_cases hp : pol = "p"
    · rw [if_pos hp, if_pos hp]
      refine bind_map_ext _ fun p => ?_
      rw [map_div₀, Complex.conj_ofReal, show n * starRingEnd ℂ (Complex.cos th) * (kz / u * ((‖Ef - Eb‖ ^ 2 : ℝ) : ℂ) - starRingEnd ℂ kz / u * ((‖Ef + Eb‖ ^ 2 : ℝ) : ℂ)) =
        n * starRingEnd ℂ (Complex.cos th) * (kz * ((‖Ef - Eb‖ ^ 2 : ℝ) : ℂ) - starRingEnd ℂ kz * ((‖Ef + Eb‖ ^ 2 : ℝ) : ℂ)) / u by ring, div_real_im, nanDivR_left, map_bind']
      refine bind_map_ext _ fun a => ?_
      rfl
    · rw [if_neg hp, if_neg hp]; rfl

lemma within_unit {u : ℝ} (hu : 0 < u) (x : ℝ) (d : Option ℝ) : withinThickness (u * x) (d.map (u * ·)) ↔ withinThickness x d := by
  cases d with
  | none => exact Iff.rfl
  | some d => exact mul_le_mul_iff_of_pos_left hu

/-- C153, places: at the same place in the new unit `position_resolved` returns the same fields and power flow, and the absorption per new unit of length. -/
theorem C153_places (c : TmmData) (layer : ℤ) (z u : ℝ) (hu : 0 < u) : positionResolved layer (u * z) (c.inUnit u) = (positionResolved layer z c).map (PointData.inUnit u) := by
  have hu' : (u : ℂ) ≠ 0 := by exact_mod_cast hu.ne'
  unfold positionResolved TmmData.inUnit newUnit
  simp only [pyNth_map, map_bind']
  have hz : u * z ≤ 0 ↔ z ≤ 0 := by
    constructor
    · intro h; by_contra hz; nlinarith [mul_pos hu (not_le.1 hz)]
    · intro h; nlinarith
  have e1 : ∀ kz : ℂ, Complex.I * (kz / u) * ((u * z : ℝ) : ℂ) = Complex.I * kz * z := by intro kz; push_cast; field_simp
  have e2 : ∀ kz : ℂ, -Complex.I * (kz / u) * ((u * z : ℝ) : ℂ) = -Complex.I * kz * z := by intro kz; push_cast; field_simp
  simp only [within_unit hu, mul_nonneg_iff_of_pos_left hu, hz, e1, e2]
  split
  all_goals
    refine bind_map_ext _ fun vw => ?_
    refine bind_map_ext _ fun kz => ?_
    refine bind_map_ext _ fun th => ?_
    refine bind_map_ext _ fun n => ?_
    refine bind_map_ext _ fun n0 => ?_
    refine bind_map_ext _ fun d => ?_
    rw [assertTrue_iff (q := (1 ≤ layer ∧ 0 ≤ z ∧ withinThickness z d) ∨ (layer = 0 ∧ z ≤ 0)) Iff.rfl]
    refine bind_map_ext _ fun _ => ?_
    exact pointData_unit ..

/-- C153, shares: the shares absorbed by the layers are the same numbers. -/
theorem C153_shares (c : TmmData) (u : ℝ) (hu : 0 < u) : absorpInEachLayer (c.inUnit u) = absorpInEachLayer c := by
  have hp : powerEntering (c.inUnit u) = powerEntering c := by
    have hl : (c.inUnit u).d.length = c.d.length := List.length_map ..
    unfold powerEntering
    rw [hl]
    split
    · rfl
    · congr 1
      funext i
      have := C153_places c i 0 u hu
      rw [mul_zero] at this
      rw [this, map_bind']
      rfl
  unfold absorpInEachLayer
  rw [hp]

/-! ### Finding a place -/

lemma findLoop_unit {u : ℝ} (hu : 0 < u) (l : List ℝ) (k : ℤ) (x : ℝ) : findLoop (l.map (u * ·)) k (u * x) = ((findLoop l k x).1, u * (findLoop l k x).2) := by
  induction l generalizing k x with
  | nil => rfl
  | cons d l ih =>
    simp only [List.map_cons, findLoop]
    by_cases h : d ≤ x
    · rw [if_pos h, if_pos ((mul_le_mul_iff_of_pos_left hu).2 h), ← mul_sub]
      exact ih _ _
    · rw [if_neg h, if_neg (fun hh => h ((mul_le_mul_iff_of_pos_left hu).1 hh))]

lemma mapM_option_map (φ : ℝ → ℝ) (d : List (Option ℝ)) : (d.map (Option.map φ)).mapM id = (d.mapM id).map (List.map φ) := by
  induction d with
  | nil => rfl
  | cons a d ih =>
    rw [List.map_cons, List.mapM_cons, List.mapM_cons, ih]
    cases a with
    | none => rfl
    | some a => cases d.mapM id <;> rfl

/-- C153, looking up a place: the same layer, and the depth in the new unit. -/
theorem C153_find (d : List (Option ℝ)) (x u : ℝ) (hu : 0 < u) :
    findInStructure (newUnit u d) (u * x) = (findInStructure d x).map (fun p => (p.1, u * p.2)) ∧
      findInStructureWithInf (newUnit u d) (u * x) = (findInStructureWithInf d x).map fun p => (p.1, u * p.2) := by
  have hlt : u * x < 0 ↔ x < 0 := by
    constructor
    · intro h; by_contra hx; nlinarith [mul_nonneg hu.le (not_lt.1 hx)]
    · intro h; nlinarith
  have h1 : ∀ d : List (Option ℝ), findInStructure (newUnit u d) (u * x) = (findInStructure d x).map (fun p => (p.1, u * p.2)) := by
    intro d
    unfold findInStructure newUnit
    rw [mapM_option_map]
    cases d.mapM id with
    | none => rfl
    | some l =>
      simp only [Option.map_some, hlt]
      split
      · rfl
      · rw [findLoop_unit hu]; rfl
  refine ⟨h1 d, ?_⟩
  unfold findInStructureWithInf
  simp only [hlt]
  split
  · rfl
  · have : (newUnit u d).tail.dropLast = newUnit u d.tail.dropLast := by
      unfold newUnit
      rw [List.map_dropLast, List.map_tail]
    rw [this, h1, map_bind']
    refine bind_map_ext _ fun p => ?_
    rfl

/-! ### Incoherent layers -/

/-- specification: the lists of `inc_group_layers` in the new unit -/
def IncState.inUnit (u : ℝ) (s : IncState) : IncState := { s with ongoingD := newUnit u s.ongoingD, stackD := s.stackD.map (newUnit u) }

lemma foldlM_map_ext {α σ τ : Type} (φ : σ → τ) {f : τ → α → Except PyErr τ} {g : σ → α → Except PyErr σ} (h : ∀ s a, f (φ s) a = (g s a).map φ) (l : List α) (s : σ) :
    l.foldlM f (φ s) = (l.foldlM g s).map φ := by
  induction l generalizing s with
  | nil => rfl
  | cons a l ih =>
    rw [List.foldlM_cons, List.foldlM_cons, h, map_bind']
    exact bind_map_ext _ fun b => ih b

lemma step_unit (n : List ℂ) (d : List (Option ℝ)) (c : List String) (u : ℝ) (s : IncState) (i : ℕ) :
    IncState.step n (newUnit u d) c (s.inUnit u) i = (IncState.step n d c s i).map (IncState.inUnit u) := by
  have hd : (newUnit u d).getD i none = (d.getD i none).map (u * ·) := getD_map' _ d i none none rfl
  unfold IncState.step
  rw [hd]
  split
  · have hb : (s.inUnit u).busy = s.busy := rfl
    rw [hb]
    split
    · simp [IncState.inUnit, newUnit, Except.map]
    · simp [IncState.inUnit, newUnit, Except.map]
  · split
    · have hb : (s.inUnit u).busy = s.busy := rfl
      rw [hb]
      split
      · rfl
      · simp [IncState.inUnit, newUnit, Except.map]
    · rfl

lemma group_unit (n : List ℂ) (d : List (Option ℝ)) (c : List String) (u : ℝ) : incGroupLayers n (newUnit u d) c = (incGroupLayers n d c).map (IncState.inUnit u) := by
  unfold incGroupLayers
  have hl : (newUnit u d).length = d.length := List.length_map ..
  rw [hl]
  have hp : ∀ i, pyNth (newUnit u d) i = (pyNth d i).map (Option.map (u * ·)) := fun i => pyNth_map _ _ _
  simp only [hp, map_bind']
  refine bind_map_ext _ fun d0 => ?_
  refine bind_map_ext _ fun dN => ?_
  have : (Option.map (u * ·) d0 ≠ none ∨ Option.map (u * ·) dN ≠ none) ↔ (d0 ≠ none ∨ dN ≠ none) := by simp
  simp only [this]
  split
  · rfl
  refine bind_map_ext _ fun c0 => ?_
  refine bind_map_ext _ fun cN => ?_
  split
  · rfl
  split
  · rfl
  exact foldlM_map_ext (IncState.inUnit u) (fun s i => step_unit n d c u s i) _ IncState.init

lemma passShare_unit {u : ℝ} (hu : u ≠ 0) (d : Option ℝ) (q : ℂ) (lam : ℝ) : passShare (d.map (u * ·)) q (u * lam) = passShare d q lam := by
  cases d with
  | none => rfl
  | some x =>
    unfold passShare
    simp only [Option.map_some]
    have : nanDivR (-4 * Real.pi * (u * x) * q.im) (u * lam) = nanDivR (-4 * Real.pi * x * q.im) lam := by
      unfold nanDivR
      by_cases h : lam = 0
      · rw [if_pos h, if_pos (by rw [h, mul_zero])]
      · rw [if_neg h, if_neg (mul_ne_zero hu h)]
        congr 1
        field_simp
    rw [this]

lemma incInterface_unit (pol : String) (n th : List ℂ) (g : IncState) (coh bcoh : List TmmData) (u : ℝ) (k : ℕ) :
    incInterface pol n th (g.inUnit u) (coh.map (TmmData.inUnit u)) (bcoh.map (TmmData.inUnit u)) k = incInterface pol n th g coh bcoh k := by
  unfold incInterface
  have e1 : (g.inUnit u).allFromInc = g.allFromInc := rfl
  have e2 : (g.inUnit u).stackFromInc = g.stackFromInc := rfl
  rw [e1, e2]
  cases g.stackFromInc.getD (k + 1) none with
  | none => rfl
  | some j => simp only [pyNth_map, map_bind']; rfl

lemma incEntering_unit (g : IncState) (P : List ℝ) (fs : List IncInterface) (vw : List (Fin 2 → ℝ)) (coh bcoh : List TmmData) (FB : List (ℝ × ℝ)) (u : ℝ) (i : ℕ) :
    incEntering (g.inUnit u) P fs vw (coh.map (TmmData.inUnit u)) (bcoh.map (TmmData.inUnit u)) FB i = incEntering g P fs vw coh bcoh FB i := by
  unfold incEntering
  have e2 : (g.inUnit u).stackFromInc = g.stackFromInc := rfl
  rw [e2]
  cases g.stackFromInc.getD i none with
  | none => rfl
  | some j => simp only [pyNth_map, map_bind']; rfl

/-- specification: what `inc_tmm` returns in the new unit -/
def IncData.inUnit (u : ℝ) (x : IncData) : IncData := { x with coh := x.coh.map (TmmData.inUnit u), bcoh := x.bcoh.map (TmmData.inUnit u), groups := x.groups.inUnit u }

/-- C153, incoherent layers: with thicknesses and wavelength in another unit `inc_tmm` returns the same, in that unit, or raises the same. -/
theorem C153_incoherent (asin : ℂ → ℂ) (pol : String) (n : List ℂ) (d : List (Option ℝ)) (c : List String) (th0 : ℂ) (lam u : ℝ) (hu : u ≠ 0) :
    incTmm asin pol n (newUnit u d) c th0 (u * lam) = (incTmm asin pol n d c th0 lam).map (IncData.inUnit u) := by
  unfold incTmm
  refine bind_map_ext _ fun n0 => ?_
  split
  · rfl
  rw [group_unit, map_bind']
  refine bind_map_ext _ fun g => ?_
  refine bind_map_ext _ fun th => ?_
  have hst : ∀ j, (g.inUnit u).stackD.getD j [] = newUnit u (g.stackD.getD j []) := fun j => getD_map' _ _ _ _ _ rfl
  have hdk : ∀ k, (newUnit u d).getD k none = (d.getD k none).map (u * ·) := fun k => getD_map' _ d k none none rfl
  have e0 : (g.inUnit u).allFromStack = g.allFromStack := rfl
  have e1 : (g.inUnit u).allFromInc = g.allFromInc := rfl
  have e2 : (g.inUnit u).stackN = g.stackN := rfl
  simp only [hst, hdk, e0, e1, e2, passShare_unit hu]
  push_cast
  rw [mapM_map_ext (φ := TmmData.inUnit u) (fun j => C153_coherent asin pol _ _ _ (lam : ℂ) u hu), map_bind']
  refine bind_map_ext _ fun coh => ?_
  rw [mapM_map_ext (φ := TmmData.inUnit u) (fun j => C153_reverse asin pol _ _ _ (lam : ℂ) u hu), map_bind']
  refine bind_map_ext _ fun bcoh => ?_
  refine bind_map_ext _ fun P => ?_
  rw [show incInterface pol n th (g.inUnit u) (coh.map (TmmData.inUnit u)) (bcoh.map (TmmData.inUnit u)) = incInterface pol n th g coh bcoh from funext fun k => incInterface_unit ..]
  refine bind_map_ext _ fun fs => ?_
  refine bind_map_ext _ fun f0 => ?_
  refine bind_map_ext _ fun m0 => ?_
  refine bind_map_ext _ fun L => ?_
  refine bind_map_ext _ fun T => ?_
  refine bind_map_ext _ fun R => ?_
  simp only [incEntering_unit]
  refine bind_map_ext _ fun pe => ?_
  rfl

/-- C153, shares of incoherent stacks: the same numbers. -/
theorem C153_incoherent_shares (x : IncData) (u : ℝ) (hu : 0 < u) : incAbsorpInEachLayer (x.inUnit u) = incAbsorpInEachLayer x := by
  have hpart : incAbsorpPart (x.inUnit u) = incAbsorpPart x := by
    funext i
    unfold incAbsorpPart
    have e1 : (x.inUnit u).groups.stackFromInc = x.groups.stackFromInc := rfl
    rw [e1]
    cases x.groups.stackFromInc.getD (i + 1) none with
    | none => rfl
    | some j => simp only [IncData.inUnit, pyNth_map, map_bind', C153_shares _ u hu]; rfl
  unfold incAbsorpInEachLayer
  rw [hpart]
  rfl

/-- nanometres in a program written for micrometres -/
example : newUnit 1000 [none, some 0.25, none] = [none, some 250, none] := by norm_num [newUnit]

end

end Nidn
