/-
C145: places in the stack, and the flow of power along it.
-/
import Verif.Props.TmmFields

namespace Nidn

noncomputable section

/-! ### finding a place -/

lemma findLoop_spec (ds : List ℝ) (l0 : ℤ) (x : ℝ) (hx : 0 ≤ x) :
    ∃ k : ℕ, k ≤ ds.length ∧ findLoop ds l0 x = (l0 + k, x - (ds.take k).sum) ∧ 0 ≤ x - (ds.take k).sum ∧ ∀ h : k < ds.length, x - (ds.take k).sum < ds[k] := by
  induction ds generalizing l0 x with
  | nil => exact ⟨0, le_rfl, by simp [findLoop], by simpa using hx, fun h => by simp at h⟩
  | cons a ds ih =>
    unfold findLoop
    by_cases h : a ≤ x
    · rw [if_pos h]
      obtain ⟨k, h1, h2, h3, h4⟩ := ih (l0 + 1) (x - a) (by linarith)
      refine ⟨k + 1, by simpa using h1, ?_, ?_, ?_⟩
      · rw [h2, List.take_succ_cons, List.sum_cons, Prod.mk.injEq]
        exact ⟨by push_cast; ring, by ring⟩
      · rw [List.take_succ_cons, List.sum_cons]; linarith
      · intro hk
        have := h4 (by simpa using hk)
        rw [List.take_succ_cons, List.sum_cons, List.getElem_cons_succ]
        linarith
    · rw [if_neg h]
      exact ⟨0, Nat.zero_le _, by simp, by simpa using hx, fun _ => by simpa using h⟩

/-- C145. `find_in_structure` finds the place: the thicknesses of the layers in front of it and the depth add up to the distance, and the depth lies in
the layer. Distances in front of the structure give `[-1, distance]`, those behind it the number of layers; an infinite thickness is refused. -/
theorem C145_find (d : List (Option ℝ)) (x : ℝ) :
    (none ∈ d → findInStructure d x = .error .valueError) ∧
    ∀ ds : List ℝ, d = ds.map some →
      (x < 0 → findInStructure d x = .ok (-1, x)) ∧
      (0 ≤ x → ∃ (k : ℕ) (z : ℝ), findInStructure d x = .ok (k, z) ∧ k ≤ ds.length ∧ (ds.take k).sum + z = x ∧ 0 ≤ z ∧ ∀ h : k < ds.length, z < ds[k]) := by
  have hm : ∀ ds : List ℝ, (ds.map some).mapM (m := Option) id = some ds := by
    intro ds
    induction ds with
    | nil => rfl
    | cons a l ih => rw [List.map_cons, List.mapM_cons, ih]; rfl
  constructor
  · intro h
    have : d.mapM (m := Option) id = none := by
      induction d with
      | nil => cases h
      | cons a l ih =>
        rw [List.mapM_cons]
        rcases List.mem_cons.1 h with rfl | h
        · rfl
        · rw [ih h]
          cases a <;> rfl
    unfold findInStructure
    rw [this]
  · rintro ds rfl
    unfold findInStructure
    rw [hm]
    refine ⟨fun h => by simp only [if_pos h], fun h => ?_⟩
    obtain ⟨k, h1, h2, h3, h4⟩ := findLoop_spec ds 0 x h
    refine ⟨k, x - (ds.take k).sum, ?_, h1, by ring, h3, h4⟩
    simp only [if_neg (not_lt.2 h)]
    rw [h2, zero_add]

/-- Non-vacuity -/
example : findInStructure [some 1, some 2] (3 / 2) = .ok (1, 1 / 2) := by
  simp [findInStructure, findLoop]
  norm_num

/-- the thicknesses of the inner layers -/
lemma inner_thicknesses {pol : String} {n : List ℂ} {d : List (Option ℝ)} {th0 lam : ℂ} {c : TmmData} (h : TmmRun pol n d th0 lam c) :
    ∃ ds : List ℝ, d.tail.dropLast = ds.map some ∧ ds.length + 2 = n.length ∧ ∀ i (hi : i < ds.length), d[i + 1]? = some (some ds[i]) := by
  have two := h.two
  have ld := h.len_d
  have hj : ∀ i : ℕ, i + 2 < n.length → ∃ x, d[i + 1]? = some (some x) := fun i hi => (h.join (i + 1) (by omega) hi).imp fun x hx => hx.1
  choose! f hf using hj
  refine ⟨(List.range (n.length - 2)).map f, ?_, by simp; omega, fun i hi => ?_⟩
  · apply List.ext_getElem?
    intro i
    rcases Nat.lt_or_ge i (n.length - 2) with hi | hi
    · rw [List.getElem?_dropLast, if_pos (by simp; omega), List.getElem?_tail, hf i (by omega)]
      simp [hi]
    · rw [List.getElem?_eq_none (by simp; omega), List.getElem?_eq_none (by simpa using hi)]
  · simp only [List.length_map, List.length_range] at hi
    rw [hf i (by omega)]
    simp

lemma locate {pol : String} {n : List ℂ} {d : List (Option ℝ)} {th0 lam : ℂ} {c : TmmData} (h : TmmRun pol n d th0 lam c) {ds : List ℝ} (h1 : d.tail.dropLast = ds.map some)
    (h2 : ds.length + 2 = n.length) (h3 : ∀ i (hi : i < ds.length), d[i + 1]? = some (some ds[i])) (x : ℝ) :
    ∃ (l : ℕ) (z : ℝ), findInStructureWithInf d x = .ok (l, z) ∧ l < n.length ∧ (x < 0 → l = 0 ∧ z = x) ∧
      (0 ≤ x → 1 ≤ l ∧ 0 ≤ z ∧ (ds.take (l - 1)).sum + z = x ∧ ∀ t, d[l]? = some (some t) → z < t) := by
  have two := h.two
  unfold findInStructureWithInf
  by_cases hx : x < 0
  · rw [if_pos hx]
    exact ⟨0, x, rfl, by omega, fun _ => ⟨rfl, rfl⟩, fun h => absurd h (not_le.2 hx)⟩
  · rw [if_neg hx, h1]
    obtain ⟨k, z, e1, e2, e3, e4, e5⟩ := ((C145_find (ds.map some) x).2 ds rfl).2 (not_lt.1 hx)
    rw [e1]
    refine ⟨k + 1, z, by push_cast; rfl, by omega, fun h => absurd h hx, fun _ => ⟨by omega, e4, by simpa using e3, fun t ht => ?_⟩⟩
    have hk : k < ds.length := by
      by_contra hk
      have hl := h.d_last
      rw [show n.length - 1 = k + 1 by omega, ht] at hl
      cases hl
    rw [h3 k hk] at ht
    cases ht
    exact e5 hk

lemma startAt_eq {d : List (Option ℝ)} {ds : List ℝ} (h3 : ∀ i (hi : i < ds.length), d[i + 1]? = some (some ds[i])) (i : ℕ) (hi : i ≤ ds.length) : startAt d i = (((ds.take i).sum : ℝ) : EReal) := by
  induction i with
  | zero => simp [startAt]
  | succ i ih =>
    rw [startAt, ih (by omega)]
    have : d.getD (i + 1) none = some (ds[i]'(by omega)) := by simp [List.getD, h3 i (by omega)]
    rw [this, thickE, List.take_succ_eq_append_getElem (by omega), List.sum_append, List.sum_singleton, EReal.coe_add]

/-- C145. Every distance from the front of a stack that `coh_tmm` accepted is found by `find_in_structure_with_inf`, at a place that fits the starts that
`layer_starts` returns, and `position_resolved` answers there. -/
theorem C145_places (asin : ℂ → ℂ) (hasin : ∀ z, Complex.sin (asin z) = z) (pol : String) (n : List ℂ) (d : List (Option ℝ)) (th0 lam : ℂ) (c : TmmData)
    (h : cohTmm asin pol n d th0 lam = .ok c) (x : ℝ) :
    ∃ (l : ℕ) (z : ℝ) (s : List EReal) (p : PointData), findInStructureWithInf d x = .ok (l, z) ∧ layerStarts d = .ok s ∧ s.length = n.length ∧ l < n.length ∧ positionResolved l z c = .ok p ∧
      (x < 0 → l = 0 ∧ z = x) ∧ (0 ≤ x → 1 ≤ l ∧ 0 ≤ z ∧ (∃ a : ℝ, s[l]? = some (a : EReal) ∧ a + z = x) ∧ ∀ t, d[l]? = some (some t) → z < t) := by
  have hr := cohTmm_run hasin h
  have two := hr.two
  obtain ⟨ds, h1, h2, h3⟩ := inner_thicknesses hr
  obtain ⟨l, z, e1, e2, e3, e4⟩ := locate hr h1 h2 h3 x
  have hs : layerStarts d = .ok (⊥ :: (List.range (d.length - 1)).map (startAt d)) := by
    unfold layerStarts
    rw [if_neg (by rw [hr.len_d]; omega)]
  have hp : ∃ p, positionResolved l z c = .ok p := by
    by_cases hx : x < 0
    · obtain ⟨rfl, rfl⟩ := e3 hx
      exact ⟨_, position_front hr hx.le⟩
    · obtain ⟨g1, g2, -, g4⟩ := e4 (not_lt.1 hx)
      exact ⟨_, position_of hr g1 e2 g2 fun t ht => (g4 t ht).le⟩
  obtain ⟨p, hp⟩ := hp
  refine ⟨l, z, _, p, e1, hs, by simp [hr.len_d]; omega, e2, hp, e3, fun hx => ?_⟩
  obtain ⟨g1, g2, g3, g4⟩ := e4 hx
  refine ⟨g1, g2, ⟨(ds.take (l - 1)).sum, ?_, g3⟩, g4⟩
  obtain ⟨k, rfl⟩ : ∃ k, l = k + 1 := ⟨l - 1, by omega⟩
  rw [List.getElem?_cons_succ, List.getElem?_map, List.getElem?_range (by rw [hr.len_d]; omega), Option.map_some, startAt_eq h3 k (by omega)]
  rfl

lemma flux_antitone {pol : String} {n th k : ℂ} (h : ∀ v, 0 ≤ tmmLoss (starRingEnd ℂ (tmmA pol n th) * tmmB pol n th) k v) (v : Fin 2 → ℂ) :
    Antitone fun x : ℝ => tmmFlux pol n th (atDepth k x v) := by
  have hd := fun z => flux_deriv pol n th k v z
  apply antitone_of_deriv_nonpos
  · intro z; exact (hd z).differentiableAt
  · intro z; rw [(hd z).deriv]; exact neg_nonpos.2 (h _)

/-- C145. For light from a medium of real index and passive layers that are not opaque, the power flow at the place of a distance never increases with
the distance, over the whole stack: it is `1 - R` everywhere in front of it and `T` where the last layer starts. -/
theorem C145_flow (asin : ℂ → ℂ) (hasin : ∀ z, Complex.sin (asin z) = z) (pol : String) (n : List ℂ) (d : List (Option ℝ)) (n0 θ lam : ℝ) (hl : 0 < lam) (c : TmmData)
    (h : cohTmm asin pol n d θ lam = .ok c) (h0 : n[0]? = some (n0 : ℂ)) (hn : ∀ z ∈ n, 0 ≤ z.re * z.im)
    (hx : ∀ (i : ℕ) x, d[i]? = some (some x) → 0 ≤ x ∧ (c.kz.getD i 0 * x).im ≤ 35) :
    ∃ flow : ℝ → ℝ, (∀ x, ∃ l z p, findInStructureWithInf d x = .ok (l, z) ∧ positionResolved l z c = .ok p ∧ p.poyn = flow x) ∧ Antitone flow ∧
      (∀ x < 0, flow x = 1 - c.R) ∧ flow ((d.filterMap id).sum) = c.T := by
  have hr := cohTmm_run hasin h
  have two := hr.two
  obtain ⟨ds, h1, h2, h3⟩ := inner_thicknesses hr
  have hds : ∀ y ∈ ds, 0 ≤ y := fun y hy => by
    obtain ⟨i, hi, rfl⟩ := List.getElem_of_mem hy
    exact (hx _ _ (h3 i hi)).1
  obtain ⟨a, ha, -, -, hR, -⟩ := C142_shares asin hasin pol n d n0 θ lam hl c h h0 hn hx
  obtain ⟨p, hp, plen, p0, pi⟩ := entering_ok hr fun i x hxx => (hx i x hxx).1
  have g0 : n.getD 0 0 = n0 := by simp [List.getD, h0]
  have hf := hr.fwd_first
  rw [g0] at hf
  obtain ⟨hP, hPpos⟩ := real_power (pol := pol) hf
  have hPe : tmmP pol (n.getD 0 0) θ = n0 * Real.cos θ := by rw [g0, hP]
  have hsn : ∀ i < n.length, n.getD i 0 ≠ 0 ∧ n.getD i 0 * Complex.sin (c.th.getD i 0) = ((n0 * Real.sin θ : ℝ) : ℂ) := by
    intro i hi
    have := hr.snell_at i hi
    rw [g0] at this
    exact ⟨this.1, by rw [this.2]; push_cast; rfl⟩
  have him2 : ∀ z : ℂ, (z ^ 2).im = 2 * (z.re * z.im) := fun z => by simp only [pow_two, Complex.mul_im]; ring
  have hloss := fun i (hi : i < n.length) v => loss_layer hr.pol_ok (lam := lam) (hsn i hi).1 (hsn i hi).2 v
  have hloss0 : ∀ i < n.length, ∀ v, 0 ≤ tmmLoss (starRingEnd ℂ (tmmA pol (n.getD i 0) (c.th.getD i 0)) * tmmB pol (n.getD i 0) (c.th.getD i 0)) (c.kz.getD i 0) v := by
    intro i hi v
    rw [hr.kz_at i hi, hloss i hi v, him2]
    have : 0 ≤ (n.getD i 0).re * (n.getD i 0).im := by rw [getD_at hi]; exact hn _ (List.getElem_mem hi)
    have hπ := Real.pi_pos
    split <;> positivity
  -- power flow at depth z of layer i
  set F : ℕ → ℝ → ℝ := fun i z => tmmFlux pol (n.getD i 0) (c.th.getD i 0) (atDepth (c.kz.getD i 0) z (c.vw.getD i 0)) / (n0 * Real.cos θ) with hF
  have hFanti : ∀ i < n.length, Antitone (F i) := fun i hi x y hxy => div_le_div_of_nonneg_right (flux_antitone (hloss0 i hi) _ hxy) hPpos.le
  have hFstep : ∀ i, 1 ≤ i → i + 1 < n.length → ∀ t, d[i]? = some (some t) → F i t = F (i + 1) 0 := by
    intro i hi1 hi t ht
    obtain ⟨x, hdx, hj⟩ := hr.join i hi1 hi
    obtain rfl : x = t := by rw [ht] at hdx; cases hdx; rfl
    have hcl : clampPhase (c.kz.getD i 0 * x) = c.kz.getD i 0 * x := by unfold clampPhase; rw [if_neg (not_lt.2 (hx i x ht).2)]
    rw [hcl] at hj
    simp only [hF, atDepth_zero]
    rw [← joined_flux hj]
    rfl
  have hchain : ∀ i j, 1 ≤ i → i ≤ j → j < n.length → F j 0 ≤ F i 0 := by
    intro i j hi hij hj
    induction j, hij using Nat.le_induction with
    | base => exact le_rfl
    | succ j hij ih =>
      refine le_trans ?_ (ih (by omega))
      obtain ⟨x, hdx, -⟩ := hr.join j (by omega) hj
      rw [← hFstep j (by omega) hj x hdx]
      exact hFanti j (by omega) (hx j x hdx).1
  have hR' : F 1 0 = 1 - c.R := by
    have e1 := pi 1 le_rfl (by omega)
    unfold absorpInEachLayer at ha
    rw [hp, ok_bind] at ha
    cases ha
    rw [List.getElem?_map, List.getElem?_range (by omega), Option.map_some, if_pos (by omega), p0, zero_add, e1, Option.some.injEq, hPe] at hR
    simp only [hF, atDepth_zero]
    linarith
  choose L Z hL1 hL2 hL3 hL4 using fun x => locate hr h1 h2 h3 x
  set flow : ℝ → ℝ := fun x => if x < 0 then 1 - c.R else F (L x) (Z x) with hflow
  have hanti : Antitone flow := by
    intro x y hxy
    simp only [hflow]
    by_cases hy : y < 0
    · rw [if_pos hy, if_pos (lt_of_le_of_lt hxy hy)]
    rw [if_neg hy]
    obtain ⟨q1, q2, q3, q4⟩ := hL4 y (not_lt.1 hy)
    by_cases hx' : x < 0
    · rw [if_pos hx', ← hR']
      exact le_trans (hFanti _ (hL2 y) q2) (hchain 1 _ le_rfl q1 (hL2 y))
    rw [if_neg hx']
    obtain ⟨r1, r2, r3, r4⟩ := hL4 x (not_lt.1 hx')
    have htake : ∀ i j : ℕ, i ≤ j → (ds.take i).sum ≤ (ds.take j).sum := by
      intro i j hij
      obtain ⟨k, rfl⟩ := Nat.exists_eq_add_of_le hij
      rw [List.take_add, List.sum_append]
      have : 0 ≤ ((ds.drop i).take k).sum := List.sum_nonneg fun y hy => hds y (List.mem_of_mem_drop (List.mem_of_mem_take hy))
      linarith
    rcases lt_trichotomy (L x) (L y) with hlt | heq | hgt
    · have hin : L x - 1 < ds.length := by have := hL2 y; omega
      have ht := h3 (L x - 1) hin
      rw [show L x - 1 + 1 = L x by omega] at ht
      have hz := r4 _ ht
      calc F (L y) (Z y) ≤ F (L y) 0 := hFanti _ (hL2 y) q2
        _ ≤ F (L x + 1) 0 := hchain _ _ (by omega) hlt (hL2 y)
        _ = F (L x) _ := (hFstep (L x) r1 (by have := hL2 y; omega) _ ht).symm
        _ ≤ F (L x) (Z x) := hFanti _ (hL2 x) hz.le
    · rw [← heq]
      refine hFanti _ (hL2 x) ?_
      rw [← heq] at q3
      linarith
    · exfalso
      have hin : L y - 1 < ds.length := by have := hL2 x; omega
      have ht := h3 (L y - 1) hin
      rw [show L y - 1 + 1 = L y by omega] at ht
      have hz := q4 _ ht
      have := htake (L y - 1 + 1) (L x - 1) (by omega)
      rw [List.take_succ_eq_append_getElem hin, List.sum_append, List.sum_singleton] at this
      linarith
  refine ⟨flow, fun x => ?_, hanti, fun x hx' => by simp only [hflow, if_pos hx'], ?_⟩
  · by_cases hx' : x < 0
    · obtain ⟨e1, e2⟩ := hL3 x hx'
      refine ⟨_, _, _, hL1 x, by rw [e1, e2]; exact position_front hr hx'.le, ?_⟩
      simp only [hflow, if_pos hx', pointOf]
      rw [← hR']
      simp only [hF, atDepth_zero]
      rw [← joined_flux hr.join_first, hPe]
      congr 1
      refine flux_keep (fun v => ?_) _ _
      rw [hr.kz_at 0 (by omega), hloss 0 (by omega) v, him2, g0]
      simp
    · obtain ⟨r1, r2, r3, r4⟩ := hL4 x (not_lt.1 hx')
      refine ⟨_, _, _, hL1 x, position_of hr r1 (hL2 x) r2 fun t ht => (r4 t ht).le, ?_⟩
      simp only [hflow, if_neg hx', pointOf, hF, hPe]
  · have hfm : d.filterMap id = ds := by
      have hd0 := hr.d_first
      have hdl := hr.d_last
      have ld := hr.len_d
      have : d = none :: (ds.map some ++ [none]) := by
        rw [← h1]
        apply List.ext_getElem?
        intro i
        rcases i with _ | i
        · rw [hd0]; rfl
        · rw [List.getElem?_cons_succ]
          rcases Nat.lt_or_ge i (n.length - 2) with hi | hi
          · rw [List.getElem?_append_left (by simp; omega), List.getElem?_dropLast, if_pos (by simp; omega), List.getElem?_tail]
          · rw [List.getElem?_append_right (by simp; omega)]
            rcases Nat.eq_or_lt_of_le hi with hi | hi
            · rw [← hi, show n.length - 2 + 1 = n.length - 1 by omega, hdl, show n.length - 2 - d.tail.dropLast.length = 0 by simp; omega]
              rfl
            · rw [List.getElem?_eq_none (by omega), List.getElem?_eq_none (by simp; omega)]
      rw [this]
      simp
    rw [hfm]
    have hs0 : 0 ≤ ds.sum := List.sum_nonneg hds
    simp only [hflow, if_neg (not_lt.2 hs0)]
    obtain ⟨r1, r2, r3, r4⟩ := hL4 ds.sum hs0
    have hlast : L ds.sum = n.length - 1 := by
      by_contra hne
      have hin : L ds.sum - 1 < ds.length := by have := hL2 ds.sum; omega
      have ht := h3 _ hin
      rw [show L ds.sum - 1 + 1 = L ds.sum by omega] at ht
      have hz := r4 _ ht
      have hsplit : (ds.take (L ds.sum - 1)).sum + (ds[L ds.sum - 1] + (ds.drop (L ds.sum - 1 + 1)).sum) = ds.sum := by
        rw [← List.sum_cons, ← List.drop_eq_getElem_cons hin, ← List.sum_append, List.take_append_drop]
      have : 0 ≤ (ds.drop (L ds.sum - 1 + 1)).sum := List.sum_nonneg fun y hy => hds y (List.mem_of_mem_drop hy)
      linarith
    have hz0 : Z ds.sum = 0 := by
      rw [hlast, List.take_of_length_le (by omega)] at r3
      linarith
    rw [hlast, hz0]
    simp only [hF, atDepth_zero]
    rw [hr.vw_last, flux_forward, hr.T_def, hPe]
    ring

/-- Non-vacuity: the film of the comparison notebook. -/
example : ∃ (c : TmmData) (flow : ℝ → ℝ), cohTmm someArcsin "s" [1, 2 + 0.5 * Complex.I, 1] [none, some 0.2, none] (0 : ℝ) (1 : ℝ) = .ok c ∧ Antitone flow ∧ flow (-1) = 1 - c.R ∧ flow 0.2 = c.T := by
  obtain ⟨c, hc, hn, hx⟩ := slab_facts
  obtain ⟨flow, -, h1, h2, h3⟩ := C145_flow someArcsin someArcsin_sin "s" _ _ 1 0 1 one_pos c hc (by simp) hn hx
  exact ⟨c, flow, hc, h1, h2 _ (by norm_num), by simpa using h3⟩

end

end Nidn
