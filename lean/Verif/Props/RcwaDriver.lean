/-
C24: RCWA spectra are frequency-local, complete or absent.
-/
import Verif.Model.RcwaDriver
import Verif.Lemmas.Py

namespace Nidn

variable {K F R : Type}

/-- Specification: the grid holds a NaN somewhere inside its shape. -/
def Grid4.NaNInside (g : Grid4 K) : Prop :=
  ∃ x < g.sx, ∃ y < g.sy, ∃ l < g.sl, ∃ f < g.sf, g.val x y l f = none

/-- Specification: grid and frequency list have the announced sizes. -/
def DriverCfg.Fits (c : DriverCfg F) (g : Grid4 K) (fs : List F) : Prop :=
  c.freqs = some fs ∧ fs.length = c.nFreq ∧ g.sx = c.nx ∧ g.sy = c.ny ∧ g.sl = c.nLayers ∧ g.sf = c.nFreq

lemma hasNaN_iff (g : Grid4 K) : g.hasNaN = true ↔ g.NaNInside := by
  simp [Grid4.hasNaN, Grid4.NaNInside, List.any_eq_true]

lemma pyAssert_eq (b : Bool) : pyAssert b = if b then .ok () else .error .assertionError := rfl

lemma trcwaLoop_ok (solve : (ℕ → ℕ → ℕ → Option K) → F → Except PyErr (R × R)) (g : Grid4 K) (fs : List F) (i : ℕ) (rs ts : List R)
    (out : List R × List R) (h : trcwaLoop solve g fs i rs ts = .ok out) :
    ∃ ps : List (R × R), out = (rs ++ ps.map Prod.fst, ts ++ ps.map Prod.snd) ∧ ps.length = fs.length ∧
      ∀ j (hj : j < fs.length) (hp : j < ps.length), solve (fun x y l => g.val x y l (i + j)) fs[j] = .ok ps[j] := by
  induction fs generalizing i rs ts with
  | nil =>
      simp only [trcwaLoop, Except.ok.injEq] at h
      exact ⟨[], by simp [← h], rfl, by simp⟩
  | cons f rest ih =>
      rw [trcwaLoop] at h
      split_ifs at h with hi
      · cases hs : solve (fun x y l => g.val x y l i) f with
        | error e => rw [hs] at h; cases h
        | ok rt =>
            rw [hs, ok_bind] at h
            obtain ⟨ps, h1, h2, h3⟩ := ih _ _ _ h
            refine ⟨rt :: ps, by rw [h1]; simp, by simp [h2], fun j hj hp => ?_⟩
            rcases j with _ | j
            · simpa using hs
            · have := h3 j (by simpa using hj) (by simpa using hp)
              rw [show i + (j + 1) = i + 1 + j by omega]
              simpa using this

lemma trcwaLoop_all (solve : (ℕ → ℕ → ℕ → Option K) → F → Except PyErr (R × R)) (g : Grid4 K) (fs : List F) (i : ℕ) (rs ts : List R)
    (hlen : i + fs.length ≤ g.sf) (ps : List (R × R)) (hp : ps.length = fs.length)
    (h : ∀ j (hj : j < fs.length), solve (fun x y l => g.val x y l (i + j)) fs[j] = .ok (ps[j]'(hp ▸ hj))) :
    trcwaLoop solve g fs i rs ts = .ok (rs ++ ps.map Prod.fst, ts ++ ps.map Prod.snd) := by
  induction fs generalizing i rs ts ps with
  | nil =>
      rcases ps with _ | ⟨p, ps⟩
      · simp [trcwaLoop]
      · simp at hp
  | cons f rest ih =>
      rcases ps with _ | ⟨p, ps⟩
      · simp at hp
      · have h0 := h 0 (by simp)
        simp only [Nat.add_zero, List.getElem_cons_zero] at h0
        simp only [List.length_cons] at hlen
        rw [trcwaLoop, if_pos (by omega), h0, ok_bind, ih (i + 1) _ _ (by omega) ps (by simpa using hp)]
        · simp
        · intro j hj
          have := h (j + 1) (by simpa using hj)
          rw [show i + 1 + j = i + (j + 1) by omega]
          simpa using this

lemma trcwaLoop_error (solve : (ℕ → ℕ → ℕ → Option K) → F → Except PyErr (R × R)) (g : Grid4 K) (fs : List F) (i : ℕ) (rs ts : List R)
    (hlen : i + fs.length ≤ g.sf) (e : PyErr) (h : trcwaLoop solve g fs i rs ts = .error e) :
    ∃ j, ∃ hj : j < fs.length, solve (fun x y l => g.val x y l (i + j)) fs[j] = .error e ∧
      ∀ k (hk : k < j), ∃ v, solve (fun x y l => g.val x y l (i + k)) (fs[k]'(hk.trans hj)) = .ok v := by
  induction fs generalizing i rs ts with
  | nil => simp [trcwaLoop] at h
  | cons f rest ih =>
      simp only [List.length_cons] at hlen
      rw [trcwaLoop, if_pos (by omega)] at h
      cases hs : solve (fun x y l => g.val x y l i) f with
      | error e' =>
          rw [hs, error_bind] at h
          cases h
          exact ⟨0, by simp, by simpa using hs, by simp⟩
      | ok rt =>
          rw [hs, ok_bind] at h
          obtain ⟨j, hj, h1, h2⟩ := ih (i + 1) _ _ (by omega) h
          refine ⟨j + 1, by simpa using hj, ?_, fun k hk => ?_⟩
          · rw [show i + (j + 1) = i + 1 + j by omega]; simpa using h1
          · rcases k with _ | k
            · exact ⟨rt, by simpa using hs⟩
            · obtain ⟨v, hv⟩ := h2 k (by omega)
              exact ⟨v, by rw [show i + (k + 1) = i + 1 + k by omega]; simpa using hv⟩

lemma driver_fits (solve : (ℕ → ℕ → ℕ → Option K) → F → Except PyErr (R × R)) (g : Grid4 K) (c : DriverCfg F) (fs : List F)
    (hn : ¬ g.NaNInside) (hf : c.Fits g fs) : computeSpectrumTrcwa solve g c = trcwaLoop solve g fs 0 [] [] := by
  obtain ⟨h0, h1, h2, h3, h4, h5⟩ := hf
  rw [← hasNaN_iff] at hn
  rw [computeSpectrumTrcwa, if_neg hn, h0]
  simp only [pyAssert_eq, h1, h2, h3, h4, h5, decide_true, if_true, ok_bind]

lemma driver_misfit (solve : (ℕ → ℕ → ℕ → Option K) → F → Except PyErr (R × R)) (g : Grid4 K) (c : DriverCfg F)
    (hn : ¬ g.NaNInside) (hf : ¬ ∃ fs, c.Fits g fs) : computeSpectrumTrcwa solve g c = .error .assertionError := by
  rw [← hasNaN_iff] at hn
  rw [computeSpectrumTrcwa, if_neg hn]
  cases h0 : c.freqs with
  | none => rfl
  | some fs =>
      simp only [pyAssert_eq, decide_eq_true_eq]
      split_ifs with h1 h2 h3 h4 h5 <;> first | rfl | exact (hf ⟨fs, ⟨h0, ‹_›, ‹_›, ‹_›, ‹_›, ‹_›⟩⟩).elim

/-- C24: a returned spectrum is complete (two lists with one entry per configured frequency) and its i-th entries are the solver's answer for
the i-th frequency slice of the grid at the i-th frequency. -/
theorem C24_entries (solve : (ℕ → ℕ → ℕ → Option K) → F → Except PyErr (R × R)) (g : Grid4 K) (c : DriverCfg F) (Rs Ts : List R)
    (h : computeSpectrumTrcwa solve g c = .ok (Rs, Ts)) :
    ∃ fs, c.Fits g fs ∧ ¬ g.NaNInside ∧ Rs.length = c.nFreq ∧ Ts.length = c.nFreq ∧
      ∀ i f r t, fs[i]? = some f → Rs[i]? = some r → Ts[i]? = some t → solve (fun x y l => g.val x y l i) f = .ok (r, t) := by
  by_cases hn : g.NaNInside
  · rw [← hasNaN_iff] at hn
    rw [computeSpectrumTrcwa, if_pos hn] at h
    cases h
  by_cases hf : ∃ fs, c.Fits g fs
  · obtain ⟨fs, hf⟩ := hf
    rw [driver_fits solve g c fs hn hf] at h
    obtain ⟨ps, h1, h2, h3⟩ := trcwaLoop_ok solve g fs 0 [] [] _ h
    simp only [List.nil_append, Prod.mk.injEq] at h1
    obtain ⟨rfl, rfl⟩ := h1
    refine ⟨fs, hf, hn, by simp [h2, hf.2.1], by simp [h2, hf.2.1], fun i f r t hi hr ht => ?_⟩
    obtain ⟨hi', rfl⟩ := List.getElem?_eq_some_iff.mp hi
    have h4 := h3 i hi' (by omega)
    rw [List.getElem?_map] at hr ht
    rw [List.getElem?_eq_getElem (by omega)] at hr ht
    simp only [Option.map_some, Option.some.injEq] at hr ht
    rw [Nat.zero_add] at h4
    rw [h4, ← hr, ← ht]
  · rw [driver_misfit solve g c hn hf] at h
    cases h

/-- C24: what the i-th entries depend on. Two runs whose i-th frequencies coincide and whose grids coincide on the i-th frequency slice agree in
their i-th entries - whatever the other slices, frequencies and the number of frequencies. -/
theorem C24_local (solve : (ℕ → ℕ → ℕ → Option K) → F → Except PyErr (R × R)) (g g' : Grid4 K) (c c' : DriverCfg F)
    (fs fs' : List F) (hc : c.freqs = some fs) (hc' : c'.freqs = some fs') (Rs Ts Rs' Ts' : List R)
    (h : computeSpectrumTrcwa solve g c = .ok (Rs, Ts)) (h' : computeSpectrumTrcwa solve g' c' = .ok (Rs', Ts'))
    (i : ℕ) (hi : i < fs.length) (hi' : i < fs'.length)
    (hfreq : fs[i]? = fs'[i]?) (hslice : ∀ x y l, g.val x y l i = g'.val x y l i) :
    Rs[i]? = Rs'[i]? ∧ Ts[i]? = Ts'[i]? ∧ Rs[i]?.isSome ∧ Ts[i]?.isSome := by
  obtain ⟨f1, hf1, -, hR1, hT1, h1⟩ := C24_entries solve g c Rs Ts h
  obtain ⟨f2, hf2, -, hR2, hT2, h2⟩ := C24_entries solve g' c' Rs' Ts' h'
  obtain rfl : f1 = fs := by simpa [hc] using hf1.1.symm
  obtain rfl : f2 = fs' := by simpa [hc'] using hf2.1.symm
  have e1 := hf1.2.1
  have e2 := hf2.2.1
  have a1 : i < Rs.length := by omega
  have a2 : i < Ts.length := by omega
  have a3 : i < Rs'.length := by omega
  have a4 : i < Ts'.length := by omega
  have b1 := h1 i _ _ _ (List.getElem?_eq_getElem hi) (List.getElem?_eq_getElem a1) (List.getElem?_eq_getElem a2)
  have b2 := h2 i _ _ _ (List.getElem?_eq_getElem hi') (List.getElem?_eq_getElem a3) (List.getElem?_eq_getElem a4)
  rw [List.getElem?_eq_getElem hi, List.getElem?_eq_getElem hi', Option.some.injEq] at hfreq
  rw [show (fun x y l => g.val x y l i) = fun x y l => g'.val x y l i by funext x y l; exact hslice x y l, hfreq, b2] at b1
  simp only [Except.ok.injEq, Prod.mk.injEq] at b1
  simp [a1, a2, a3, a4, b1.1, b1.2]

/-- C24: the error classes. NaN wins over everything else; otherwise missing frequencies or any size mismatch is an AssertionError, in which
case the solver is not consulted at all (the answer is the same for every solver). -/
theorem C24_errors (solve : (ℕ → ℕ → ℕ → Option K) → F → Except PyErr (R × R)) (g : Grid4 K) (c : DriverCfg F) :
    (g.NaNInside → computeSpectrumTrcwa solve g c = .error .valueError) ∧
    (¬ g.NaNInside → (¬ ∃ fs, c.Fits g fs) → computeSpectrumTrcwa solve g c = .error .assertionError) := by
  refine ⟨fun hn => ?_, driver_misfit solve g c⟩
  rw [← hasNaN_iff] at hn
  rw [computeSpectrumTrcwa, if_pos hn]

/-- C24: on an admissible input the spectrum is returned exactly if the solver succeeds at every frequency; otherwise the first failing
frequency's exception is raised and no partial spectrum is returned. -/
theorem C24_complete (solve : (ℕ → ℕ → ℕ → Option K) → F → Except PyErr (R × R)) (g : Grid4 K) (c : DriverCfg F) (fs : List F)
    (hn : ¬ g.NaNInside) (hf : c.Fits g fs) :
    ((∀ i (hi : i < fs.length), ∃ v, solve (fun x y l => g.val x y l i) fs[i] = .ok v) ↔ ∃ out, computeSpectrumTrcwa solve g c = .ok out) ∧
    ∀ e, computeSpectrumTrcwa solve g c = .error e → ∃ i, ∃ hi : i < fs.length, solve (fun x y l => g.val x y l i) fs[i] = .error e ∧
      ∀ k (hk : k < i), ∃ v, solve (fun x y l => g.val x y l k) (fs[k]'(hk.trans hi)) = .ok v := by
  have hlen : 0 + fs.length ≤ g.sf := by have := hf.2.1; have := hf.2.2.2.2.2; omega
  rw [driver_fits solve g c fs hn hf]
  refine ⟨⟨fun h => ?_, fun ⟨out, h⟩ i hi => ?_⟩, fun e h => ?_⟩
  · choose v hv using h
    exact ⟨_, trcwaLoop_all solve g fs 0 [] [] hlen (List.ofFn fun i : Fin fs.length => v i i.2) (by simp) (fun j hj => by simpa using hv j hj)⟩
  · obtain ⟨ps, -, h2, h3⟩ := trcwaLoop_ok solve g fs 0 [] [] out h
    exact ⟨_, by simpa using h3 i hi (by omega)⟩
  · simpa using trcwaLoop_error solve g fs 0 [] [] hlen e h

/-- A 1x1x1 grid with two frequencies; the toy solver returns the cell value and the frequency. -/
example :
    let g : Grid4 ℕ := ⟨1, 1, 1, 2, fun _ _ _ f => some (10 + f)⟩
    let c : DriverCfg ℕ := ⟨some [7, 8], 1, 1, 1, 2⟩
    c.Fits g [7, 8] ∧ ¬ g.NaNInside ∧
      computeSpectrumTrcwa (fun s f => match s 0 0 0 with | some v => .ok (v, f) | none => .error .nan) g c = .ok ([10, 11], [7, 8]) := by
  refine ⟨⟨rfl, rfl, rfl, rfl, rfl, rfl⟩, ?_, rfl⟩
  rw [← hasNaN_iff]; decide

/-- A NaN at a frequency that is not the failing one is still a ValueError, and a wrong frequency count an AssertionError. -/
example :
    let g : Grid4 ℕ := ⟨1, 1, 1, 2, fun _ _ _ f => if f = 1 then none else some 1⟩
    g.NaNInside ∧ ¬ ∃ fs, (⟨some [7], 1, 1, 1, 2⟩ : DriverCfg ℕ).Fits g fs := by
  refine ⟨⟨0, by decide, 0, by decide, 0, by decide, 1, by decide, rfl⟩, ?_⟩
  rintro ⟨fs, h0, h1, -⟩
  simp only [Option.some.injEq] at h0
  subst h0
  simp at h1

end Nidn
