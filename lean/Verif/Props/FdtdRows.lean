/-
C91: the field averaged across a simulated stack obeys the one-dimensional FDTD equations of the stack.
-/
import Verif.Props.FdtdPipeline

namespace Nidn

/-! ### The three rows of a simulated grid -/

/-- mean of the rows one and two; row zero repeats row two -/
noncomputable def rowMean (F : VField ℝ) (k : Fin 3) (x : ℕ) : ℝ := (F ![x, 1, 0] k + F ![x, 2, 0] k) / 2

lemma built_boundaries (c : FdtdCfg) (s wl : ℝ) (g : GridNumbers) (m : Materials ℝ) (prof : List ℝ) (k : ℕ) :
    ∃ P1 P2 : Pml ℝ, ((builtGrid c s wl g m prof).run k).boundaries = [.pml P1, .pml P2, .periodic 1] ∧ (P1.axis = 0 ∧ P1.high = false ∧ P1.thick = (pmlCells c s).toNat) ∧
      (P2.axis = 0 ∧ P2.high = true ∧ P2.thick = (pmlCells c s).toNat) := by
  induction k with
  | zero => exact ⟨_, _, rfl, ⟨rfl, rfl, rfl⟩, ⟨rfl, rfl, rfl⟩⟩
  | succ k ih =>
    obtain ⟨P1, P2, hb, h1, h2⟩ := ih
    generalize hG : (builtGrid c s wl g m prof).run k = G at hb
    refine ⟨(P1.updatePhiE G.n G.H).updatePhiH G.n G.updateE.E, (P2.updatePhiE G.n G.H).updatePhiH G.n G.updateE.E, ?_, h1, h2⟩
    show (((builtGrid c s wl g m prof).run k).step).boundaries = _
    rw [hG]
    show (G.boundaries.map _).map _ = _
    rw [hb]
    rfl

/-- what the source of a built grid adds in step `k` -/
noncomputable def builtDrive (c : FdtdCfg) (s wl : ℝ) (g : GridNumbers) (prof : List ℝ) (k : ℕ) : VField ℝ :=
  lineUpdateE (crossCells (sourceCell c s)) prof (signalValue (lineSignal g (simSpec wl c.pulse)) k) (fun _ _ => 0)

lemma pml_outside (P : Pml ℝ) (N : ℕ) (T : ℕ) (p : Pos) (h0 : P.axis = 0) (ht : P.thick = T) (h1 : T ≤ p 0) (h2 : p 0 < N - T) : ¬ P.inside ![N, 3, 1] p := by
  unfold Pml.inside Pml.offset
  rw [h0, ht]
  show ¬ ((if P.high = true then N - T else 0) ≤ p 0 ∧ p 0 < (if P.high = true then N - T else 0) + T)
  split_ifs <;> omega

lemma built_E_step (c : FdtdCfg) (s wl : ℝ) (g : GridNumbers) (m : Materials ℝ) (prof : List ℝ) (k : ℕ) :
    ∃ B : VField ℝ, (∀ p : Pos, (pmlCells c s).toNat ≤ p 0 → p 0 < (xSize c s).toNat - (pmlCells c s).toNat → B p = bulkE ((builtGrid c s wl g m prof).run k) p) ∧
      ((builtGrid c s wl g m prof).run (k + 1)).E = fun p a => periodicE ![(xSize c s).toNat, 3, 1] 1 B p a + builtDrive c s wl g prof k p a := by
  obtain ⟨P1, P2, hb, h1, h2⟩ := built_boundaries c s wl g m prof k
  have hn := run_n (builtGrid c s wl g m prof) k
  have hs := run_sources (builtGrid c s wl g m prof) k
  have ht := (run_time (builtGrid c s wl g m prof) k).trans (Nat.zero_add k)
  generalize hG : (builtGrid c s wl g m prof).run k = G at *
  refine ⟨(P2.updatePhiE G.n G.H).updateE G.n G.courant G.invEps ((P1.updatePhiE G.n G.H).updateE G.n G.courant G.invEps (bulkE G)), fun p hp1 hp2 => ?_, ?_⟩
  · have hn' : G.n = ![(xSize c s).toNat, 3, 1] := hn
    funext a
    unfold Pml.updateE
    rw [hn', if_neg (pml_outside (P2.updatePhiE ![(xSize c s).toNat, 3, 1] G.H) _ _ p h2.1 h2.2.2 hp1 hp2), if_neg (pml_outside (P1.updatePhiE ![(xSize c s).toNat, 3, 1] G.H) _ _ p h1.1 h1.2.2 hp1 hp2)]
  · show (((builtGrid c s wl g m prof).run k).step).E = _
    rw [hG, step_E]
    unfold FGrid.newE FGrid.phasedE
    rw [hb, hs, ht, hn]
    rfl

lemma built_H_step (c : FdtdCfg) (s wl : ℝ) (g : GridNumbers) (m : Materials ℝ) (prof : List ℝ) (k : ℕ) :
    ∃ B : VField ℝ, (∀ p : Pos, (pmlCells c s).toNat ≤ p 0 → p 0 < (xSize c s).toNat - (pmlCells c s).toNat →
        ∀ a, B p a = ((builtGrid c s wl g m prof).run k).H p a - g.courant * 1 * curlE ![(xSize c s).toNat, 3, 1] ((builtGrid c s wl g m prof).run (k + 1)).E p a) ∧
      ((builtGrid c s wl g m prof).run (k + 1)).H = periodicH ![(xSize c s).toNat, 3, 1] 1 B := by
  obtain ⟨P1, P2, hb, h1, h2⟩ := built_boundaries c s wl g m prof k
  have hn := run_n (builtGrid c s wl g m prof) k
  have hs := run_sources (builtGrid c s wl g m prof) k
  have hc := run_courant (builtGrid c s wl g m prof) k
  have hmu := run_invMu (builtGrid c s wl g m prof) k
  have hE : ((builtGrid c s wl g m prof).run (k + 1)).E = ((builtGrid c s wl g m prof).run k).updateE.E := rfl
  rw [hE]
  have hH : ((builtGrid c s wl g m prof).run (k + 1)).H = ((builtGrid c s wl g m prof).run k).updateE.newH := rfl
  rw [hH]
  generalize hG : (builtGrid c s wl g m prof).run k = G at *
  have hn' : G.n = ![(xSize c s).toNat, 3, 1] := hn
  refine ⟨((P2.updatePhiE G.n G.H).updatePhiH G.n G.updateE.E).updateH G.n G.courant G.invMu (((P1.updatePhiE G.n G.H).updatePhiH G.n G.updateE.E).updateH G.n G.courant G.invMu (bulkH G.updateE)),
    fun p hp1 hp2 a => ?_, ?_⟩
  · unfold Pml.updateH
    rw [hn', if_neg (pml_outside ((P2.updatePhiE ![(xSize c s).toNat, 3, 1] G.H).updatePhiH ![(xSize c s).toNat, 3, 1] G.updateE.E) _ _ p h2.1 h2.2.2 hp1 hp2),
      if_neg (pml_outside ((P1.updatePhiE ![(xSize c s).toNat, 3, 1] G.H).updatePhiH ![(xSize c s).toNat, 3, 1] G.updateE.E) _ _ p h1.1 h1.2.2 hp1 hp2)]
    show G.H p a - G.courant * G.invMu p a * curlE G.n G.updateE.E p a = _
    rw [hn', hc, hmu]
    show _ - g.courant * (1 / 1) * _ = _
    norm_num
  · unfold FGrid.newH FGrid.phasedH
    rw [show G.updateE.boundaries = G.boundaries.map (FBoundary.updatePhiE G.n G.H) from rfl, hb, show G.updateE.sources = G.sources from rfl, hs, show G.updateE.n = G.n from rfl, hn']
    rfl

lemma builtDrive_row (c : FdtdCfg) (s wl : ℝ) (g : GridNumbers) (a b d : ℝ) (k x y : ℕ) (hy : y < 3) :
    builtDrive c s wl g [a, b, d] k ![x, y, 0] 2 = if x = (sourceCell c s).toNat then ([a, b, d].getD y 0) * signalValue (lineSignal g (simSpec wl c.pulse)) k else 0 := by
  unfold builtDrive
  rw [(C57_update _ _ _ _).1, zero_add]
  unfold lineDrive
  rw [if_pos rfl]
  have e : ∀ u v : ℕ, (![u, v, 0] : Pos) = ![x, y, 0] ↔ u = x ∧ v = y := by
    intro u v
    constructor
    · intro h
      exact ⟨congrFun h 0, congrFun h 1⟩
    · rintro ⟨rfl, rfl⟩
      rfl
  simp only [crossCells, List.map_cons, List.map_nil, List.zip_cons_cons, List.zip_nil_right, List.sum_cons, List.sum_nil, e]
  by_cases hx : x = (sourceCell c s).toNat
  · rw [if_pos hx]
    subst hx
    interval_cases y <;> simp
  · rw [if_neg hx]
    have hx' : ¬ (sourceCell c s).toNat = x := fun h => hx h.symm
    simp [hx']

/-- row zero of E repeats row two -/
lemma built_E_rows (c : FdtdCfg) (s wl : ℝ) (g : GridNumbers) (m : Materials ℝ) (a b : ℝ) (k x : ℕ) :
    ((builtGrid c s wl g m [a, b, a]).run k).E ![x, 0, 0] 2 = ((builtGrid c s wl g m [a, b, a]).run k).E ![x, 2, 0] 2 := by
  cases k with
  | zero => rfl
  | succ k =>
    obtain ⟨B, -, hE⟩ := built_E_step c s wl g m [a, b, a] k
    rw [hE]
    show periodicE _ _ B ![x, 0, 0] 2 + builtDrive _ _ _ _ _ _ ![x, 0, 0] 2 = periodicE _ _ B ![x, 2, 0] 2 + builtDrive _ _ _ _ _ _ ![x, 2, 0] 2
    rw [builtDrive_row _ _ _ _ _ _ _ _ _ _ (by norm_num), builtDrive_row _ _ _ _ _ _ _ _ _ _ (by norm_num)]
    unfold periodicE
    rw [if_pos (show (![x, 0, 0] : Pos) 1 = 0 from rfl), if_neg (show ¬ (![x, 2, 0] : Pos) 1 = 0 by show ¬ 2 = 0; decide)]
    rw [show Function.update (![x, 0, 0] : Pos) 1 (![(xSize c s).toNat, 3, 1] 1 - 1) = ![x, 2, 0] by funext i; fin_cases i <;> rfl]
    rfl

/-- row two of H repeats row zero -/
lemma built_H_rows (c : FdtdCfg) (s wl : ℝ) (g : GridNumbers) (m : Materials ℝ) (prof : List ℝ) (k x : ℕ) (i : Fin 3) :
    ((builtGrid c s wl g m prof).run k).H ![x, 2, 0] i = ((builtGrid c s wl g m prof).run k).H ![x, 0, 0] i := by
  cases k with
  | zero => rfl
  | succ k =>
    obtain ⟨B, -, hH⟩ := built_H_step c s wl g m prof k
    rw [hH]
    unfold periodicH
    rw [if_pos (show (![x, 2, 0] : Pos) 1 = (![(xSize c s).toNat, 3, 1] : Pos) 1 - 1 from rfl), if_neg (show ¬ (![x, 0, 0] : Pos) 1 = (![(xSize c s).toNat, 3, 1] : Pos) 1 - 1 by show ¬ 0 = 3 - 1; decide)]
    rw [show Function.update (![x, 2, 0] : Pos) 1 0 = ![x, 0, 0] by funext i; fin_cases i <;> rfl]

/-- E of the two rows after one more step -/
lemma built_E_next (c : FdtdCfg) (s wl : ℝ) (g : GridNumbers) (m : Materials ℝ) (a b d : ℝ) (k x y : ℕ) (hy : 1 ≤ y) (hy' : y < 3) (hx : 1 ≤ x) (h1 : (pmlCells c s).toNat ≤ x)
    (h2 : x < (xSize c s).toNat - (pmlCells c s).toNat) :
    ((builtGrid c s wl g m [a, b, d]).run (k + 1)).E ![x, y, 0] 2 =
      ((builtGrid c s wl g m [a, b, d]).run k).E ![x, y, 0] 2 * ((1 - m.absorb ![x, y, 0] 2) / (1 + m.absorb ![x, y, 0] 2))
      + g.courant * m.invEps ![x, y, 0] 2 * ((((builtGrid c s wl g m [a, b, d]).run k).H ![x, y, 0] 1 - ((builtGrid c s wl g m [a, b, d]).run k).H ![x - 1, y, 0] 1)
        - (((builtGrid c s wl g m [a, b, d]).run k).H ![x, y, 0] 0 - ((builtGrid c s wl g m [a, b, d]).run k).H ![x, y - 1, 0] 0)) / (1 + m.absorb ![x, y, 0] 2)
      + if x = (sourceCell c s).toNat then ([a, b, d].getD y 0) * signalValue (lineSignal g (simSpec wl c.pulse)) k else 0 := by
  obtain ⟨B, hB, hE⟩ := built_E_step c s wl g m [a, b, d] k
  rw [hE]
  show periodicE _ _ B ![x, y, 0] 2 + builtDrive _ _ _ _ _ _ ![x, y, 0] 2 = _
  rw [builtDrive_row _ _ _ _ _ _ _ _ _ _ hy']
  congr 1
  unfold periodicE
  rw [if_neg (show ¬ (![x, y, 0] : Pos) 1 = 0 by show ¬ y = 0; omega), hB _ h1 h2]
  have hc := run_courant (builtGrid c s wl g m [a, b, d]) k
  have he := run_invEps (builtGrid c s wl g m [a, b, d]) k
  have ha := run_absorb (builtGrid c s wl g m [a, b, d]) k
  unfold bulkE
  rw [hc, he, ha]
  show _ * ((1 - m.absorb _ _) / (1 + m.absorb _ _)) + g.courant * m.invEps _ _ * (dDn _ 0 1 _ - dDn _ 1 0 _) / (1 + m.absorb _ _) = _
  unfold dDn
  rw [if_pos (show 1 ≤ (![x, y, 0] : Pos) 0 from hx), if_pos (show 1 ≤ (![x, y, 0] : Pos) 1 from hy)]
  rw [show Pos.dn ![x, y, 0] 0 = ![x - 1, y, 0] by funext i; fin_cases i <;> rfl, show Pos.dn ![x, y, 0] 1 = ![x, y - 1, 0] by funext i; fin_cases i <;> rfl]

/-- H along y of rows zero and one after one more step -/
lemma built_H_next (c : FdtdCfg) (s wl : ℝ) (g : GridNumbers) (m : Materials ℝ) (prof : List ℝ) (k x y : ℕ) (hy' : y < 2) (h1 : (pmlCells c s).toNat ≤ x)
    (h2 : x < (xSize c s).toNat - (pmlCells c s).toNat) (hx : x + 1 < (xSize c s).toNat) :
    ((builtGrid c s wl g m prof).run (k + 1)).H ![x, y, 0] 1 = ((builtGrid c s wl g m prof).run k).H ![x, y, 0] 1
      + g.courant * (((builtGrid c s wl g m prof).run (k + 1)).E ![x + 1, y, 0] 2 - ((builtGrid c s wl g m prof).run (k + 1)).E ![x, y, 0] 2) := by
  obtain ⟨B, hB, hH⟩ := built_H_step c s wl g m prof k
  rw [hH]
  unfold periodicH
  rw [if_neg (show ¬ (![x, y, 0] : Pos) 1 = (![(xSize c s).toNat, 3, 1] : Pos) 1 - 1 by show ¬ y = 3 - 1; omega), hB _ h1 h2]
  show _ - g.courant * 1 * (dUp _ _ 2 0 _ - dUp _ _ 0 2 _) = _
  unfold dUp
  rw [if_neg (show ¬ (![x, y, 0] : Pos) 2 + 1 < (![(xSize c s).toNat, 3, 1] : Pos) 2 by show ¬ 0 + 1 < 1; decide),
    if_pos (show (![x, y, 0] : Pos) 0 + 1 < (![(xSize c s).toNat, 3, 1] : Pos) 0 from hx)]
  rw [show Pos.up ![x, y, 0] 0 = ![x + 1, y, 0] by funext i; fin_cases i <;> rfl]
  ring

lemma prof_three {prof : List ℝ} (h : prof.length = 3) (hs : prof[0]? = prof[2]?) : ∃ a b, prof = [a, b, a] := by
  match prof, h with
  | [a, b, d], _ =>
    simp only [List.getElem?_cons_zero, List.getElem?_cons_succ, Option.some.injEq] at hs
    exact ⟨a, b, by rw [hs]⟩

/-- the mean of the two rows obeys one-dimensional equations -/
lemma built_mean (c : FdtdCfg) (s wl : ℝ) (h : LineSetup c s) (g : GridNumbers) (m : Materials ℝ) (a b : ℝ) (k x : ℕ) (h1 : pmlCells c s ≤ x) (h2 : (x : ℤ) < xSize c s - pmlCells c s) :
    rowMean ((builtGrid c s wl g m [a, b, a]).run (k + 1)).H 1 x = rowMean ((builtGrid c s wl g m [a, b, a]).run k).H 1 x
      + g.courant * (rowMean ((builtGrid c s wl g m [a, b, a]).run (k + 1)).E 2 (x + 1) - rowMean ((builtGrid c s wl g m [a, b, a]).run (k + 1)).E 2 x) ∧
    ∀ ie ab : ℝ, (∀ y, y < 3 → m.invEps ![x, y, 0] 2 = ie ∧ m.absorb ![x, y, 0] 2 = ab) →
      rowMean ((builtGrid c s wl g m [a, b, a]).run (k + 1)).E 2 x = rowMean ((builtGrid c s wl g m [a, b, a]).run k).E 2 x * ((1 - ab) / (1 + ab))
        + g.courant * ie * (rowMean ((builtGrid c s wl g m [a, b, a]).run k).H 1 x - rowMean ((builtGrid c s wl g m [a, b, a]).run k).H 1 (x - 1)) / (1 + ab)
        + if (x : ℤ) = sourceCell c s then (a + b) / 2 * signalValue (lineSignal g (simSpec wl c.pulse)) k else 0 := by
  have hp := h.pml
  have hN := xSize_toNat c s h.geometry
  have q1 : (pmlCells c s).toNat ≤ x := by omega
  have q2 : x < (xSize c s).toNat - (pmlCells c s).toNat := by omega
  have q3 : x + 1 < (xSize c s).toNat := by omega
  constructor
  · unfold rowMean
    rw [built_H_rows, built_H_next c s wl g m _ k x 0 (by norm_num) q1 q2 q3, built_H_next c s wl g m _ k x 1 (by norm_num) q1 q2 q3, built_E_rows, built_E_rows, built_H_rows]
    ring
  · intro ie ab hm
    unfold rowMean
    rw [built_E_next c s wl g m a b a k x 1 (by norm_num) (by norm_num) (by omega) q1 q2, built_E_next c s wl g m a b a k x 2 (by norm_num) (by norm_num) (by omega) q1 q2,
      (hm 1 (by norm_num)).1, (hm 1 (by norm_num)).2, (hm 2 (by norm_num)).1, (hm 2 (by norm_num)).2]
    rw [built_H_rows c s wl g m [a, b, a] k x 0, show 1 - 1 = 0 from rfl, show 2 - 1 = 1 from rfl]
    have hsrc : (x = (sourceCell c s).toNat) ↔ ((x : ℤ) = sourceCell c s) := by have := h.sourceLow; omega
    by_cases hx : (x : ℤ) = sourceCell c s
    · rw [if_pos hx, if_pos (hsrc.2 hx), if_pos (hsrc.2 hx)]
      simp only [List.getD_cons_succ, List.getD_cons_zero]
      ring
    · rw [if_neg hx, if_neg (fun h => hx (hsrc.1 h)), if_neg (fun h => hx (hsrc.1 h))]
      ring

/-- specification: permittivity `e` and loss `l` per step at plane `x` of a stack whose layers occupy the ranges `rs`: those of the layer, or vacuum outside -/
def PlaneMedium (rs : List (ℤ × ℤ)) (eps : List ℂ) (loss : ℂ → ℝ) (x : ℕ) (e l : ℝ) : Prop :=
  (∃ (i : ℕ) (r : ℤ × ℤ) (z : ℂ), rs[i]? = some r ∧ eps[i]? = some z ∧ r.1 ≤ x ∧ x < r.2 ∧ e = z.re ∧ l = loss z) ∨
  ((∀ r ∈ rs, ¬ (r.1 ≤ (x : ℤ) ∧ (x : ℤ) < r.2)) ∧ e = 1 ∧ l = 0)

/-- C91: between the absorbing layers the mean of a simulated field across the stack evolves by the one-dimensional FDTD equations for E along z and H along y of the layered medium, with the line source as a source of
the plane wave; so the stack is illuminated under normal incidence, whatever the profile of the source. -/
theorem C91_mean (c : FdtdCfg) (s : ℝ) (h : LineSetup c s) (wl : ℝ) (eps : List ℂ) (hlen : eps.length = c.thick.length) :
    ∃ (sim : Simulation) (rs : List (ℤ × ℤ)) (A : ℝ), initFdtd c s (some eps) wl = .ok sim ∧ layerRanges c s eps.length = .ok rs ∧ 0 < A ∧ A < 1 / 2 ∧
      ∀ k x : ℕ, pmlCells c s ≤ x → (x : ℤ) < xSize c s - pmlCells c s →
        rowMean (sim.grid.run (k + 1)).H 1 x = rowMean (sim.grid.run k).H 1 x + sim.numbers.courant * (rowMean (sim.grid.run (k + 1)).E 2 (x + 1) - rowMean (sim.grid.run (k + 1)).E 2 x) ∧
        ∀ e l v : ℝ, PlaneMedium rs eps (fun z => 1 / 2 * sim.numbers.courant * (1 / z.re) * layerCond wl z * sim.numbers.spacing * ETA_0) x e l → sim.signal k = .ok v →
          rowMean (sim.grid.run (k + 1)).E 2 x = rowMean (sim.grid.run k).E 2 x * ((1 - l) / (1 + l))
            + sim.numbers.courant * (1 / e) * (rowMean (sim.grid.run k).H 1 x - rowMean (sim.grid.run k).H 1 (x - 1)) / (1 + l)
            + if (x : ℤ) = sourceCell c s then A * v else 0 := by
  obtain ⟨g, prof, -, hp1, ⟨hp2, hp3⟩, hp4, H⟩ := initFdtd_line c s h wl
  obtain ⟨rs, m, hl, -, hm, hmat⟩ := C59_material_partial c s h.geometry g wl eps hlen
  obtain ⟨a, b, rfl⟩ := prof_three hp1 hp3
  have ha : 0 < a := hp4 a (by simp)
  have hb : 0 < b := hp4 b (by simp)
  have hsum : a + (b + (a + 0)) = 1 := hp2
  refine ⟨⟨g, builtGrid c s wl g m [a, b, a], lineSignal g (simSpec wl c.pulse)⟩, rs, (a + b) / 2, H (some eps) m hm, hl, by linarith, by linarith, fun k x h1 h2 => ?_⟩
  obtain ⟨hH, hE⟩ := built_mean c s wl h g m a b k x h1 h2
  refine ⟨hH, fun e l v hmed hv => ?_⟩
  have := hE (1 / e) l ?_
  · rw [this]
    have hv' : signalValue (lineSignal g (simSpec wl c.pulse)) k = v := by
      unfold signalValue
      have : lineSignal g (simSpec wl c.pulse) k = .ok v := hv
      rw [this]
    rw [hv']
  · intro y hy
    rcases hmed with ⟨i, r, z, hr, hz, hx1, hx2, rfl, rfl⟩ | ⟨hout, rfl, rfl⟩
    · exact (hmat ![x, y, 0] hy (by show 0 < 1; norm_num)).1 i r z hr hz ⟨hx1, hx2⟩
    · rw [one_div_one]
      exact (hmat ![x, y, 0] hy (by show 0 < 1; norm_num)).2 fun r hr hin => hout r hr ⟨hin.1, hin.2⟩

/-- the default config meets the hypotheses -/
example : LineSetup (expandThick (fdtdDefaultWith (3 / 2) 2 [1])) 10 ∧ ([2, 2, 2, 2, 2, 2, 2, 2] : List ℂ).length = (expandThick (fdtdDefaultWith (3 / 2) 2 [1])).thick.length :=
  ⟨default_setup, rfl⟩

end Nidn
