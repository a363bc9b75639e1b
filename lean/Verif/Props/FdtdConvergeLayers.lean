/-
C182: the FDTD steps converge to Maxwell's equations also in layered media, where the materials jump.
-/
import Verif.Props.FdtdConvergeDriven
import Verif.Spec.MaxwellLayers

namespace Nidn

section main

variable {as : List (Fin 3)} {ℓ : Fin 3 → ℝ} {s : ℝ} {ie im sg : Place → Fin 3 → ℝ} {E H : ℝ → Place → Fin 3 → ℝ} {edge : ℤ → ℝ}

lemma sheetJump_none (c : Fin 3) : sheetJump (fun _ => 0) c = 0 := by simp [sheetJump]

/-- layers without currents in their faces -/
lemma LayeredFields.driven (hX : LayeredFields edge ie im sg E H) : DrivenFields edge (fun _ _ _ _ => 0) ie im sg E H := by
  refine ⟨hX.sorted, hX.below, hX.above, fun _ _ => contDiff_const, fun _ _ _ _ => rfl, fun i => ?_, hX.ampere, hX.faraday⟩
  obtain ⟨E', H', sE, sH, eq⟩ := hX.smooth i
  refine ⟨E', H', sE, sH, fun t x c h1 h2 => eq t x c h1 (Or.inl h2), fun t x c h1 h2 => ?_⟩
  rw [sheetJump_none, add_zero]
  exact eq t x c (by rw [h2]; exact (hX.sorted (by omega)).le) (Or.inr ⟨h1, h2⟩)

/-- grids without sources -/
lemma SampledGrid.driven {g : FGrid ℝ} (hg : SampledGrid g as ℓ s ie im sg E H) : DrivenGrid g as ℓ s edge (fun _ _ _ _ => 0) ie im sg E H 0 := by
  have none : ∀ t p c, totalDrive g.sources t p c = 0 := fun t p c => by rw [hg.quiet]; rfl
  refine ⟨hg.periodic, ?_, fun t p c _ => by rw [none, none], ?_, fun t p c _ _ => none t p c, fun j p c i _ _ _ => ?_, hg.size, hg.eps, hg.mu, hg.loss, hg.startE, hg.startH⟩
  · rw [hg.quiet]; intro s hs; cases hs
  · rintro i ⟨t, x, c, h⟩; exact absurd rfl h
  · rw [none]; simp

/-- C182: the simulation follows Maxwell's equations in layered media too. Let `E`, `H` be fields of Maxwell's equations in a periodic medium of layers, smooth in every layer, with tangential components that fit together
at the faces. For every duration `T` and every Courant number below the limit there is a constant `C` such that on every grid that starts with samples of these fields, with cells of any size `s` and faces anywhere in the
cells, the mean square of the errors of all field components is at most `C s` in every step up to the time `T`; so the simulation converges. -/
theorem C182_layers (hX : LayeredFields edge ie im sg E H) (h0 : 0 ∈ as) (hE : ∀ t c, Repeats as ℓ fun x => E t x c) (hH : ∀ t c, Repeats as ℓ fun x => H t x c)
    (pie : ∀ a ∈ as, ∀ x, ie (Function.update x a (x a + ℓ a)) = ie x) (psg : ∀ a ∈ as, ∀ x, sg (Function.update x a (x a + ℓ a)) = sg x)
    {κ Sg : ℝ} (hie : ∀ x c, 0 < ie x c ∧ ie x c ≤ 1 ∧ 1 / ie x c ≤ κ) (him : ∀ x c, 0 < im x c ∧ im x c ≤ 1 ∧ 1 / im x c ≤ κ) (hsg : ∀ x c, 0 ≤ sg x c ∧ sg x c ≤ Sg) (T : ℝ) {θ : ℝ} (hθ : 0 < θ) :
    ∃ C, ∀ s, 0 < s → ∀ g : FGrid ℝ, SampledGrid g as ℓ s ie im sg E H → 0 < g.courant → g.courant ^ 2 * ((Finset.univ.filter fun a => a ∈ as).card : ℝ) ≤ 1 - θ → ∀ k : ℕ, k * (g.courant * s) ≤ T →
      fieldSq (onceCells g as) (fun p c => E (k * (g.courant * s)) (placeE s p c) c - (g.run k).E p c)
        + fieldSq (onceCells g as) (fun p c => H ((k + 1 / 2) * (g.courant * s)) (placeH s p c) c - (g.run k).H p c) ≤ C * s * (box (onceCells g as)).card := by
  obtain ⟨C, hC⟩ := C183_driven hX.driven h0 hE hH pie psg hie him hsg T hθ le_rfl
  exact ⟨C, fun s hs g hg => hC s hs g hg.driven⟩

end main

section example_layers

/-- a standing wave in a medium of refractive index `m` -/
noncomputable def standE (m : ℝ) : ℝ → Place → Fin 3 → ℝ := fun t x c => if c = 2 then 1 / m * Real.sin (4 * Real.pi * m * x 0) * Real.cos (4 * Real.pi * t) else 0

/-- its magnetic field -/
noncomputable def standH (m : ℝ) : ℝ → Place → Fin 3 → ℝ := fun t x c => if c = 1 then Real.cos (4 * Real.pi * m * x 0) * Real.sin (4 * Real.pi * t) else 0

/-- refractive index of layer `i` of a stack of layers of thickness 1/2: 1 and 2 in turn -/
noncomputable def turn (i : ℤ) : ℝ := if Even i then 1 else 2

/-- the layer a place lies in -/
noncomputable def stackLayer (x : Place) : ℤ := ⌊2 * x 0⌋

/-- a standing wave in the stack -/
noncomputable def stackE : ℝ → Place → Fin 3 → ℝ := fun t x c => standE (turn (stackLayer x)) t x c

/-- its magnetic field -/
noncomputable def stackH : ℝ → Place → Fin 3 → ℝ := fun t x c => standH (turn (stackLayer x)) t x c

/-- inverse permittivity of the stack -/
noncomputable def stackInvEps (x : Place) (_ : Fin 3) : ℝ := 1 / turn (stackLayer x) ^ 2

lemma turn_cases (i : ℤ) : turn i = 1 ∨ turn i = 2 := by unfold turn; split_ifs <;> simp

lemma turn_pos (i : ℤ) : 0 < turn i := by rcases turn_cases i with h | h <;> rw [h] <;> norm_num

lemma stackLayer_eq {x : Place} {i : ℤ} (h1 : (i : ℝ) / 2 ≤ x 0) (h2 : x 0 < ((i + 1 : ℤ) : ℝ) / 2) : stackLayer x = i := by
  unfold stackLayer
  rw [Int.floor_eq_iff]
  push_cast at h2
  constructor <;> linarith

lemma coord_smooth : ContDiff ℝ 3 fun z : ℝ × Place => z.2 0 := (contDiff_apply ℝ ℝ (0 : Fin 3)).comp contDiff_snd

lemma standE_smooth (m : ℝ) (c : Fin 3) : ContDiff ℝ 3 fun z : ℝ × Place => standE m z.1 z.2 c := by
  unfold standE
  split_ifs
  · exact (contDiff_const.mul (Real.contDiff_sin.comp (contDiff_const.mul coord_smooth))).mul (Real.contDiff_cos.comp (contDiff_const.mul contDiff_fst))
  · exact contDiff_const

lemma standH_smooth (m : ℝ) (c : Fin 3) : ContDiff ℝ 3 fun z : ℝ × Place => standH m z.1 z.2 c := by
  unfold standH
  split_ifs
  · exact (Real.contDiff_cos.comp (contDiff_const.mul coord_smooth)).mul (Real.contDiff_sin.comp (contDiff_const.mul contDiff_fst))
  · exact contDiff_const

lemma sin_scaled (k y : ℝ) : HasDerivAt (fun y => Real.sin (k * y)) (k * Real.cos (k * y)) y := by
  have h : HasDerivAt (fun y => k * y) k y := by simpa using (hasDerivAt_id y).const_mul k
  exact h.sin.congr_deriv (mul_comm _ _)

lemma cos_scaled (k y : ℝ) : HasDerivAt (fun y => Real.cos (k * y)) (-(k * Real.sin (k * y))) y := by
  have h : HasDerivAt (fun y => k * y) k y := by simpa using (hasDerivAt_id y).const_mul k
  exact h.cos.congr_deriv (by ring)

lemma standE_time (m t : ℝ) (x : Place) (c : Fin 3) : deriv (fun τ => standE m τ x c) t = if c = 2 then -(4 * Real.pi / m * Real.sin (4 * Real.pi * m * x 0) * Real.sin (4 * Real.pi * t)) else 0 := by
  unfold standE
  by_cases h : c = 2
  · simp only [if_pos h]
    rw [((cos_scaled (4 * Real.pi) t).const_mul _).deriv]
    ring
  · simp [if_neg h]

lemma standH_time (m t : ℝ) (x : Place) (c : Fin 3) : deriv (fun τ => standH m τ x c) t = if c = 1 then 4 * Real.pi * Real.cos (4 * Real.pi * m * x 0) * Real.cos (4 * Real.pi * t) else 0 := by
  unfold standH
  by_cases h : c = 1
  · simp only [if_pos h]
    rw [((sin_scaled (4 * Real.pi) t).const_mul _).deriv]
    ring
  · simp [if_neg h]

lemma standE_partial {m : ℝ} (hm : m ≠ 0) (t : ℝ) (x : Place) (c a : Fin 3) :
    partialAt (fun y => standE m t y c) a x = if c = 2 ∧ a = 0 then 4 * Real.pi * Real.cos (4 * Real.pi * m * x 0) * Real.cos (4 * Real.pi * t) else 0 := by
  unfold partialAt standE
  by_cases h : c = 2
  · by_cases ha : a = 0
    · subst ha
      simp only [Function.update_self, h, and_self, if_true]
      rw [(((sin_scaled (4 * Real.pi * m) (x 0)).const_mul (1 / m)).mul_const _).deriv]
      field_simp
    · have : (0 : Fin 3) ≠ a := fun e => ha e.symm
      simp [h, ha, Function.update_of_ne this]
  · simp [h]

lemma standH_partial (m t : ℝ) (x : Place) (c a : Fin 3) :
    partialAt (fun y => standH m t y c) a x = if c = 1 ∧ a = 0 then -(4 * Real.pi * m * Real.sin (4 * Real.pi * m * x 0) * Real.sin (4 * Real.pi * t)) else 0 := by
  unfold partialAt standH
  by_cases h : c = 1
  · by_cases ha : a = 0
    · subst ha
      simp only [Function.update_self, h, and_self, if_true]
      rw [((cos_scaled (4 * Real.pi * m) (x 0)).mul_const _).deriv]
      ring
    · have : (0 : Fin 3) ≠ a := fun e => ha e.symm
      simp [h, ha, Function.update_of_ne this]
  · simp [h]

/-- on the faces the two sides agree -/
lemma stand_face {m : ℝ} (hm : m = 1 ∨ m = 2) {x : Place} {i : ℤ} (hx : x 0 = (i : ℝ) / 2) (t : ℝ) (c : Fin 3) :
    standE m t x c = 0 ∧ standH m t x c = if c = 1 then Real.sin (4 * Real.pi * t) else 0 := by
  obtain ⟨k, hk⟩ : ∃ k : ℤ, 4 * Real.pi * m * x 0 = k * (2 * Real.pi) := by
    rcases hm with rfl | rfl
    · exact ⟨i, by rw [hx]; ring⟩
    · exact ⟨2 * i, by rw [hx]; push_cast; ring⟩
  unfold standE standH
  have s0 : Real.sin (k * (2 * Real.pi)) = 0 := by
    have := Real.sin_int_mul_pi (2 * k)
    rwa [show ((2 * k : ℤ) : ℝ) * Real.pi = k * (2 * Real.pi) by push_cast; ring] at this
  rw [hk, s0, Real.cos_int_mul_two_pi]
  constructor <;> split_ifs <;> ring

lemma stack_inside {x : Place} (h : ∀ i : ℤ, x 0 ≠ (i : ℝ) / 2) : ∃ ε, 0 < ε ∧ ∀ a y, |y - x a| ≤ ε → stackLayer (Function.update x a y) = stackLayer x := by
  set i := stackLayer x with hi
  have f1 : (i : ℝ) ≤ 2 * x 0 := Int.floor_le _
  have f2 : 2 * x 0 < i + 1 := Int.lt_floor_add_one _
  have f3 : (i : ℝ) / 2 < x 0 := lt_of_le_of_ne (by linarith) (h i).symm
  refine ⟨min (x 0 - i / 2) (((i : ℝ) + 1) / 2 - x 0) / 2, by have := lt_min (sub_pos.mpr f3) (show 0 < ((i : ℝ) + 1) / 2 - x 0 by linarith); linarith, fun a y hy => ?_⟩
  have m1 := min_le_left (x 0 - i / 2) (((i : ℝ) + 1) / 2 - x 0)
  have m2 := min_le_right (x 0 - i / 2) (((i : ℝ) + 1) / 2 - x 0)
  refine stackLayer_eq ?_ ?_ <;> by_cases ha : (0 : Fin 3) = a
  · subst ha
    rw [Function.update_self]
    rw [abs_le] at hy
    linarith [hy.1]
  · rw [Function.update_of_ne ha]; exact f3.le
  · subst ha
    rw [Function.update_self]
    rw [abs_le] at hy
    push_cast
    linarith [hy.2]
  · rw [Function.update_of_ne ha]; push_cast; linarith

lemma stack_maxwell : LayeredFields (fun i => (i : ℝ) / 2) stackInvEps (fun _ _ => 1) (fun _ _ => 0) stackE stackH := by
  refine ⟨fun i j h => ?_, fun r => ?_, fun r => ?_, fun i => ⟨standE (turn i), standH (turn i), standE_smooth _, standH_smooth _, fun t x c h1 h2 => ?_⟩, fun t x c hx => ?_, fun t x c hx => ?_⟩
  · have : (i : ℝ) < j := by exact_mod_cast h
    show (i : ℝ) / 2 < j / 2
    linarith
  · obtain ⟨k, hk⟩ := exists_int_lt (2 * r)
    exact ⟨k, by linarith⟩
  · obtain ⟨k, hk⟩ := exists_int_gt (2 * r)
    exact ⟨k, by linarith⟩
  · rcases h2 with h2 | ⟨-, h2⟩
    · unfold stackE stackH
      rw [stackLayer_eq h1 h2]
      exact ⟨rfl, rfl⟩
    · unfold stackE stackH
      obtain ⟨a1, a2⟩ := stand_face (turn_cases (stackLayer x)) h2 t c
      obtain ⟨b1, b2⟩ := stand_face (turn_cases i) h2 t c
      rw [a1, a2, b1, b2]
      exact ⟨rfl, rfl⟩
  · obtain ⟨ε, hε, hl⟩ := stack_inside hx
    have e := curl_congr (F := stackH t) (G := standH (turn (stackLayer x)) t) hε (fun a d y hy => by unfold stackH; rw [hl a y hy]) c
    rw [e]
    show deriv (fun τ => standE (turn (stackLayer x)) τ x c) t = 1 / turn (stackLayer x) ^ 2 * _
    have hm := (turn_pos (stackLayer x)).ne'
    rw [standE_time, curlAt, standH_partial, standH_partial]
    fin_cases c <;> simp
    field_simp
  · obtain ⟨ε, hε, hl⟩ := stack_inside hx
    have e := curl_congr (F := stackE t) (G := standE (turn (stackLayer x)) t) hε (fun a d y hy => by unfold stackE; rw [hl a y hy]) c
    rw [e]
    show deriv (fun τ => standH (turn (stackLayer x)) τ x c) t = _
    have hm := (turn_pos (stackLayer x)).ne'
    rw [standH_time, curlAt, standE_partial hm, standE_partial hm]
    fin_cases c <;> simp

lemma stackLayer_shift (x : Place) : stackLayer (Function.update x 0 (x 0 + 1)) = stackLayer x + 2 := by
  unfold stackLayer
  rw [Function.update_self, show 2 * (x 0 + 1) = 2 * x 0 + ((2 : ℤ) : ℝ) by push_cast; ring, Int.floor_add_intCast]

lemma turn_shift (i : ℤ) : turn (i + 2) = turn i := by
  unfold turn
  have : Even (i + 2) ↔ Even i := by simp
  simp only [this]

lemma stand_shift {m : ℝ} (hm : m = 1 ∨ m = 2) (x : Place) : Real.sin (4 * Real.pi * m * (x 0 + 1)) = Real.sin (4 * Real.pi * m * x 0) ∧ Real.cos (4 * Real.pi * m * (x 0 + 1)) = Real.cos (4 * Real.pi * m * x 0) := by
  obtain ⟨k, hk⟩ : ∃ k : ℤ, 4 * Real.pi * m * (x 0 + 1) = 4 * Real.pi * m * x 0 + k * (2 * Real.pi) := by
    rcases hm with rfl | rfl
    · exact ⟨2, by push_cast; ring⟩
    · exact ⟨4, by push_cast; ring⟩
  rw [hk, Real.sin_add_int_mul_two_pi, Real.cos_add_int_mul_two_pi]
  exact ⟨rfl, rfl⟩

lemma stack_repeats (t : ℝ) (c : Fin 3) : (Repeats [0] (fun _ => 1) fun x => stackE t x c) ∧ (Repeats [0] (fun _ => 1) fun x => stackH t x c) := by
  have shift : ∀ a ∈ [(0 : Fin 3)], ∀ x : Place, stackE t (Function.update x a (x a + 1)) c = stackE t x c ∧ stackH t (Function.update x a (x a + 1)) c = stackH t x c := by
    intro a ha x
    obtain rfl : a = 0 := by simpa using ha
    unfold stackE stackH
    rw [stackLayer_shift, turn_shift]
    unfold standE standH
    simp only [Function.update_self]
    rw [(stand_shift (turn_cases _) x).1, (stand_shift (turn_cases _) x).2]
    exact ⟨rfl, rfl⟩
  have flat : ∀ a, a ∉ [(0 : Fin 3)] → ∀ x y, stackE t (Function.update x a y) c = stackE t x c ∧ stackH t (Function.update x a y) c = stackH t x c := by
    intro a ha x y
    have : (0 : Fin 3) ≠ a := by intro e; apply ha; simp [← e]
    unfold stackE stackH standE standH stackLayer
    rw [Function.update_of_ne this]
    exact ⟨rfl, rfl⟩
  exact ⟨⟨fun a ha x => (shift a ha x).1, fun a ha x y => (flat a ha x y).1⟩, ⟨fun a ha x => (shift a ha x).2, fun a ha x y => (flat a ha x y).2⟩⟩

/-- a grid of `N` cells per period of the stack, holding this wave; the faces lie anywhere in its cells -/
noncomputable def stackGrid (N : ℕ) : FGrid ℝ :=
  { FGrid.fresh ![N + 1, 1, 1] (7 / 10) 1 1 with
    boundaries := [0].map FBoundary.periodic
    invEps := fun p c => stackInvEps (placeE (1 / N) p c) c
    E := fun p c => stackE 0 (placeE (1 / N) p c) c
    H := fun p c => stackH (7 / 10 * (1 / N) / 2) (placeH (1 / N) p c) c }

lemma stackGrid_sampled {N : ℕ} (hN : 1 ≤ N) : SampledGrid (stackGrid N) [0] (fun _ => 1) (1 / N) stackInvEps (fun _ _ => 1) (fun _ _ => 0) stackE stackH := by
  have hN0 : (N : ℝ) ≠ 0 := by exact_mod_cast (by omega : N ≠ 0)
  refine ⟨⟨rfl, ?_⟩, rfl, ?_, fun _ _ _ => rfl, ?_, ?_, fun _ _ _ => rfl, fun _ _ _ => rfl⟩
  · intro a
    fin_cases a
    · left; refine ⟨by simp, ?_⟩; show 2 ≤ N + 1; omega
    · right; refine ⟨by simp, rfl⟩
    · right; refine ⟨by simp, rfl⟩
  · intro a ha
    obtain rfl : a = 0 := by simpa using ha
    show (((N + 1 : ℕ) : ℝ) - 1) * (1 / N) = 1
    push_cast; field_simp; ring
  · intro p _ c; simp [stackGrid, FGrid.fresh]
  · intro p _ c; simp [stackGrid, FGrid.fresh]

/-- not vacuous: a standing wave in layers of refractive indices 1 and 2 in turn, on grids of any number of cells; the mean square of the errors is at most a constant divided by the number of cells -/
example : ∃ C, ∀ N : ℕ, 1 ≤ N → ∀ k : ℕ, (k : ℝ) * (7 / 10 * (1 / N)) ≤ 10 →
    fieldSq ![N, 1, 1] (fun p c => stackE (k * (7 / 10 * (1 / N))) (placeE (1 / N) p c) c - ((stackGrid N).run k).E p c) / N ≤ C * (1 / N) := by
  obtain ⟨C, hC⟩ := C182_layers stack_maxwell (as := [0]) (ℓ := fun _ => 1) (by simp) (fun t c => (stack_repeats t c).1) (fun t c => (stack_repeats t c).2)
    (fun a ha x => by obtain rfl : a = 0 := by simpa using ha
                      funext c; unfold stackInvEps; rw [stackLayer_shift, turn_shift])
    (fun _ _ _ => rfl) (κ := 4) (Sg := 0)
    (fun x c => by unfold stackInvEps; rcases turn_cases (stackLayer x) with h | h <;> rw [h] <;> norm_num) (fun _ _ => by norm_num) (fun _ _ => by norm_num) 10 (θ := 1 / 2) (by norm_num)
  refine ⟨C, fun N hN k hk => ?_⟩
  have hN0 : (0 : ℝ) < N := by exact_mod_cast hN
  have := hC (1 / N) (by positivity) (stackGrid N) (stackGrid_sampled hN) (by show (0:ℝ) < 7 / 10; norm_num) (by
    show (7 / 10 : ℝ) ^ 2 * _ ≤ _
    have : (Finset.univ.filter fun a : Fin 3 => a ∈ [(0 : Fin 3)]).card = 1 := by decide
    rw [this]; norm_num) k hk
  have cells : onceCells (stackGrid N) [0] = ![N, 1, 1] := by
    funext a
    fin_cases a
    · show (N + 1) - 1 = N; omega
    · rfl
    · rfl
  have nH := fieldSq_nonneg (onceCells (stackGrid N) [0]) (fun p c => stackH ((k + 1 / 2) * ((stackGrid N).courant * (1 / N))) (placeH (1 / N) p c) c - ((stackGrid N).run k).H p c)
  have card : ((box ![N, 1, 1]).card : ℝ) = N := by rw [card_box]; simp
  have main := (le_add_of_nonneg_right nH).trans this
  rw [cells, card] at main
  rw [div_le_iff₀ hN0]
  exact main

end example_layers

end Nidn
