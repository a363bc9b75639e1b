/-
Property C124 for the grids that `init_fdtd` builds: the stationary states of the simulation of a stack are those of the stack of films that the grid makes of the configured layers.
-/
import Verif.Props.FdtdFilms
import Verif.Props.FdtdPipeline
import Verif.Props.FdtdLoss

open Filter Topology

namespace Nidn

noncomputable section

/-- the ranges of cells of the layers fill the line -/
lemma filled_ranges {co Ω im : ℝ} {ie f : ℕ → ℝ} (ls : List GridLayer) : ∀ (l : List (ℤ × ℤ)) (a : ℕ), l.length = ls.length → (∀ r : ℤ × ℤ, l[0]? = some r → r.1 = a) →
    (∀ (i : ℕ) (r r' : ℤ × ℤ), l[i]? = some r → l[i + 1]? = some r' → r.2 = r'.1) →
    (∀ (i : ℕ) r (ly : GridLayer), l[i]? = some r → ls[i]? = some ly → (ly.cells : ℤ) = r.2 - r.1) →
    (∀ (i : ℕ) r (ly : GridLayer) (x : ℕ), l[i]? = some r → ls[i]? = some ly → inRange r x → ly.Fits co Ω (ie x) (f x) im) → Filled co Ω ie f im a ls := by
  induction ls with
  | nil => intros; trivial
  | cons ly ls ih =>
    intro l a hlen h0 hcon hcells hfit
    cases l with
    | nil => simp at hlen
    | cons r l =>
      have hr := h0 r rfl
      have hc := hcells 0 r ly rfl rfl
      refine ⟨fun x h1 h2 => hfit 0 r ly x rfl rfl ⟨by omega, by omega⟩, ?_⟩
      refine ih l (a + ly.cells) (by simpa using hlen) (fun r' hr' => ?_) (fun i => hcon (i + 1)) (fun i => hcells (i + 1)) (fun i => hfit (i + 1))
      have := hcon 0 r r' rfl hr'
      omega

/-- the end of the stack -/
lemma total_ranges (ls : List GridLayer) : ∀ (l : List (ℤ × ℤ)) (a : ℕ) (B : ℤ), l.length = ls.length → (∀ r : ℤ × ℤ, l[0]? = some r → r.1 = a) →
    (∀ (i : ℕ) (r r' : ℤ × ℤ), l[i]? = some r → l[i + 1]? = some r' → r.2 = r'.1) →
    (∀ (i : ℕ) r (ly : GridLayer), l[i]? = some r → ls[i]? = some ly → (ly.cells : ℤ) = r.2 - r.1) → (∀ r ∈ l, r.2 ≤ B) → (a : ℤ) ≤ B → (a : ℤ) + totalCells ls ≤ B := by
  induction ls with
  | nil => intro l a B _ _ _ _ _ h; simpa [totalCells] using h
  | cons ly ls ih =>
    intro l a B hlen h0 hcon hcells hB ha
    cases l with
    | nil => simp at hlen
    | cons r l =>
      have hr := h0 r rfl
      have hc := hcells 0 r ly rfl rfl
      have hb := hB r List.mem_cons_self
      have := ih l (a + ly.cells) B (by simpa using hlen) (fun r' hr' => by have := hcon 0 r r' rfl hr'; omega) (fun i => hcon (i + 1)) (fun i => hcells (i + 1))
        (fun r hr => hB r (List.mem_cons_of_mem _ hr)) (by omega)
      have e : totalCells (ly :: ls) = ly.cells + totalCells ls := by simp [totalCells]
      rw [e]
      push_cast at this ⊢
      linarith

/-- the cells between source or absorbing layer and the absorbing layer at the far end -/
lemma built_window (c : FdtdCfg) (s wl : ℝ) (h : LineSetup c s) (g : GridNumbers) (m : Materials ℝ) (prof : List ℝ) (lo hi : ℕ) (ie f : ℕ → ℝ) (hlo : pmlCells c s ≤ lo) (hsrc : sourceCell c s < lo)
    (hhi : (hi : ℤ) + pmlCells c s < xSize c s) (hm : ∀ x y, lo ≤ x → x ≤ hi → y < 3 → m.invEps ![x, y, 0] 2 = ie x ∧ m.absorb ![x, y, 0] 2 = f x) :
    LineWindow (builtGrid c s wl g m prof) lo hi ie f 1 where
  wide := by show 2 ≤ 3; norm_num
  flat := rfl
  inside := by show hi < (xSize c s).toNat; have := h.pml; omega
  bounds := by
    refine ⟨[.pml (mkPml 0 false (pmlCells c s).toNat 1e-8 g.courant), .pml (mkPml 0 true (pmlCells c s).toNat 1e-8 g.courant)], [], rfl, fun b hb p h1 h2 => ?_⟩
    have hN : (builtGrid c s wl g m prof).n 0 = (xSize c s).toNat := rfl
    have hP := h.pml
    simp only [List.append_nil, List.mem_cons, List.not_mem_nil, or_false] at hb
    rcases hb with rfl | rfl
    · have : ¬ (mkPml 0 false (pmlCells c s).toNat 1e-8 g.courant).inside (builtGrid c s wl g m prof).n p := fun hin => by
        have : p 0 < 0 + (pmlCells c s).toNat := hin.2
        omega
      exact ⟨this, this⟩
    · have : ¬ (mkPml 0 true (pmlCells c s).toNat 1e-8 g.courant).inside (builtGrid c s wl g m prof).n p := fun hin => by
        have : (xSize c s).toNat - (pmlCells c s).toNat ≤ p 0 := hin.1
        omega
      exact ⟨this, this⟩
  sources := by
    intro src hs p h1 h2
    have hs' : src = .soft fun q => lineUpdateE (crossCells (sourceCell c s)) prof (signalValue (lineSignal g (simSpec wl c.pulse)) q) (fun _ _ => 0) := List.mem_singleton.1 hs
    subst hs'
    refine ⟨?_, fun hf => hf⟩
    rintro ⟨t, cc, hne⟩
    apply hne
    apply (C57_update _ _ _ _).2.2
    intro hmem
    have := crossCells_x hmem
    have := h.sourceLow
    omega
  eps := fun x y h1 h2 h3 => (hm x y h1 h2 h3).1
  absorb := fun x y h1 h2 h3 => (hm x y h1 h2 h3).2
  mu := fun x y h1 h2 h3 => by show (1 : ℝ) / 1 = 1; norm_num

/-- The factor with which the imaginary part of a permittivity acts on the grid at `Ω` radians per time step; one in the limit of small steps and `Ω = 2 π c Δt / λ`. -/
def lossFactor (dt wl Ω : ℝ) : ℝ := Real.pi * SPEED_OF_LIGHT * dt / wl * (Real.cos (Ω / 2) / Real.sin (Ω / 2)) * (EPS_0 * ETA_0 * SPEED_OF_LIGHT)

lemma LineWindow.narrow {G : FGrid ℝ} {lo hi : ℕ} {ie f : ℕ → ℝ} {im : ℝ} (h : LineWindow G lo hi ie f im) {a b : ℕ} (ha : lo ≤ a) (hb : b ≤ hi) : LineWindow G a b ie f im := by
  obtain ⟨l, r, e, hlr⟩ := h.bounds
  exact ⟨h.wide, h.flat, by have := h.inside; omega, ⟨l, r, e, fun b hb' p h1 h2 => hlr b hb' p (by omega) (by omega)⟩,
    fun s hs' p h1 h2 => h.sources s hs' p (by omega) (by omega), fun x y h1 h2 => h.eps x y (by omega) (by omega),
    fun x y h1 h2 => h.absorb x y (by omega) (by omega), fun x y h1 h2 => h.mu x y (by omega) (by omega)⟩

/-- What `init_fdtd` makes of a stack: a window of cells around it, and films such that every stationary wave of the window has their reflectance and transmittance. -/
lemma driver_films (c : FdtdCfg) (s : ℝ) (h : LineSetup c s) (wl : ℝ) (hwl : 0 < wl) (hgap : 2 ≤ c.gap) (hfree : c.gap < ⌊s * c.free⌋) (hfront : sourceCell c s + 3 ≤ ⌊s * (c.pml + c.free)⌋)
    (hthick : ∀ t ∈ c.thick, 1 ≤ s * t) (eps : List ℂ) (hlen : eps.length = c.thick.length) (hre : ∀ e ∈ eps, 0 < e.re) (him : ∀ e ∈ eps, 0 ≤ e.im) :
    ∃ (g : GridNumbers) (prof : List ℝ) (m : Materials ℝ) (cells : List ℕ) (ie f : ℕ → ℝ), gridInit [.int (xSize c s), .int 3, .int 1] (UNIT_MAGNITUDE / s) none = .ok g ∧ (prof.length = 3 ∧ prof[0]? = prof[2]?) ∧
      addStack c s g ![(xSize c s).toNat, 3, 1] wl ⟨fun _ _ => 1 / 1, fun _ _ => 0⟩ (some eps) = .ok m ∧
      initFdtd c s (some eps) wl = .ok ⟨g, builtGrid c s wl g m prof, lineSignal g (simSpec wl c.pulse)⟩ ∧ cells.length = eps.length ∧
      (∀ (i : ℕ) (d : ℕ) (t : ℝ), cells[i]? = some d → c.thick[i]? = some t → |(d : ℝ) - s * t| < 1) ∧
      LineWindow (builtGrid c s wl g m prof) (⌊s * (c.pml + c.free)⌋ - 2).toNat (tDetectorX c s).toNat ie f 1 ∧ 0 ≤ tDetectorX c s ∧ (∀ x, ie x ≠ 0 ∧ 1 + f x ≠ 0) ∧
      ∀ Ω, 0 < Ω → Ω < Real.pi → ∀ ls : List GridLayer, ls.map GridLayer.cells = cells →
        (∀ (i : ℕ) (ly : GridLayer) (e : ℂ), ls[i]? = some ly → eps[i]? = some e → ly.index ^ 2 = e.re + Complex.I * (e.im * lossFactor g.timeStep wl Ω : ℝ) ∧
          Complex.sin (ly.advance / 2) = Real.sin (Ω / 2) / g.courant * ly.index ∧ WaveResolved ly.advance) →
        ∀ k0 : ℝ, Real.sin (k0 / 2) = Real.sin (Ω / 2) / g.courant → Real.cos (k0 / 2) ≠ 0 → ∀ u : ℕ → ℂ,
          (∀ a b, (⌊s * (c.pml + c.free)⌋ - 2).toNat ≤ a → b ≤ (tDetectorX c s).toNat → ∀ κ : ℕ → ℂ, (∀ x, a < x → x < b → Complex.sin (κ x / 2) ^ 2 =
            Real.sin (Ω / 2) * (Real.sin (Ω / 2) + Complex.I * f x * Real.cos (Ω / 2)) / (g.courant ^ 2 * ie x * (1 : ℝ))) → Stationary κ u a b) →
          ∀ A B C : ℂ, A ≠ 0 →
            (∀ x : ℕ, (x : ℤ) = ⌊s * (c.pml + c.free)⌋ - 1 ∨ (x : ℤ) = ⌊s * (c.pml + c.free)⌋ → u x = A * Complex.exp (Complex.I * k0 * x) + B * Complex.exp (-(Complex.I * k0 * x))) →
            (∀ x : ℕ, (x : ℤ) = ⌊s * (c.pml + c.free)⌋ + cells.sum - 1 ∨ (x : ℤ) = ⌊s * (c.pml + c.free)⌋ + cells.sum → u x = C * Complex.exp (Complex.I * k0 * x)) →
            Complex.normSq (B / A) = filmsR (Real.cos (k0 / 2)) (simulatedFilms ls) (Real.cos (k0 / 2)) ∧
              Complex.normSq (C / A) = filmsT (Real.cos (k0 / 2)) (simulatedFilms ls) (Real.cos (k0 / 2)) := by
  obtain ⟨g, prof, hg, hp3, ⟨-, hps⟩, -, H⟩ := initFdtd_line c s h wl
  obtain ⟨l, m, hl, hll, hm, hp⟩ := C59_material_partial c s h.geometry g wl eps hlen
  obtain ⟨l', hl', -, hfirst, hcon, hth, -, hin⟩ := C59_layers_partial c s h.geometry
  rw [← hlen, hl] at hl'
  cases hl'
  obtain ⟨l', hl', -, hd0, -, hP0, hP1, -, hT, -⟩ := C59_detectors_partial c s h.geometry
  rw [← hlen, hl] at hl'
  cases hl'
  have hT := hT hfree
  have hP := h.pml
  have hpos : 0 < l.length := by rw [hll, hlen]; exact List.length_pos_iff.2 h.geometry.layers
  obtain ⟨r0, hr0⟩ : ∃ r0, l[0]? = some r0 := ⟨_, List.getElem?_eq_getElem hpos⟩
  have hf0 := hfirst r0 hr0
  have hdd := hd0 r0 hr0
  set a := ⌊s * (c.pml + c.free)⌋ with had
  have ha0 : 0 ≤ a := by have := h.sourceLow; omega
  have hsl := h.sourceLow
  obtain ⟨s', mm, cc, hs', hmm, hcc, hgeq⟩ := gridInit_inv hg
  have hC0 := (C43_default _ _ _ hg).1
  have hdt : g.courant * g.spacing = SPEED_OF_LIGHT * g.timeStep := by
    rw [hgeq]
    show cc * _ = SPEED_OF_LIGHT * (cc * _ / SPEED_OF_LIGHT)
    have : SPEED_OF_LIGHT ≠ 0 := by unfold SPEED_OF_LIGHT; norm_num
    field_simp
  have htd : 0 ≤ tDetectorX c s := by have := hin r0 (List.mem_of_getElem? hr0); omega
  have hW : LineWindow (builtGrid c s wl g m prof) (a - 2).toNat (tDetectorX c s).toNat (fun x => m.invEps ![x, 0, 0] 2) (fun x => m.absorb ![x, 0, 0] 2) 1 := by
    refine built_window c s wl h g m prof _ _ _ _ (by omega) (by omega) (by omega) fun x y h1 h2 h3 => ?_
    by_cases hx : ∃ r ∈ l, inRange r x
    · obtain ⟨r, hrl, hrx⟩ := hx
      obtain ⟨i, hi⟩ := List.getElem?_of_mem hrl
      obtain ⟨e, he⟩ : ∃ e, eps[i]? = some e := ⟨_, List.getElem?_eq_getElem (by rw [← hll]; exact (List.getElem?_eq_some_iff.1 hi).1)⟩
      have q1 := (hp ![x, y, 0] h3 Nat.one_pos).1 i r e hi he hrx
      have q2 := (hp ![x, 0, 0] (show (0 : ℕ) < 3 by norm_num) Nat.one_pos).1 i r e hi he hrx
      exact ⟨by rw [q1.1, q2.1], by rw [q1.2, q2.2]⟩
    · have q1 := (hp ![x, y, 0] h3 Nat.one_pos).2 (fun r hr hrx => hx ⟨r, hr, hrx⟩)
      have q2 := (hp ![x, 0, 0] (show (0 : ℕ) < 3 by norm_num) Nat.one_pos).2 (fun r hr hrx => hx ⟨r, hr, hrx⟩)
      exact ⟨by rw [q1.1, q2.1], by rw [q1.2, q2.2]⟩
  have hmed : ∀ x : ℕ, (∃ e ∈ eps, m.invEps ![x, 0, 0] 2 = 1 / e.re ∧ m.absorb ![x, 0, 0] 2 = 1 / 2 * g.courant * (1 / e.re) * layerCond wl e * g.spacing * ETA_0) ∨
      (m.invEps ![x, 0, 0] 2 = 1 ∧ m.absorb ![x, 0, 0] 2 = 0) := by
    intro x
    by_cases hx : ∃ r ∈ l, inRange r x
    · obtain ⟨r, hrl, hrx⟩ := hx
      obtain ⟨i, hi⟩ := List.getElem?_of_mem hrl
      obtain ⟨e, he⟩ : ∃ e, eps[i]? = some e := ⟨_, List.getElem?_eq_getElem (by rw [← hll]; exact (List.getElem?_eq_some_iff.1 hi).1)⟩
      exact Or.inl ⟨e, List.mem_of_getElem? he, (hp ![x, 0, 0] (show (0 : ℕ) < 3 by norm_num) Nat.one_pos).1 i r e hi he hrx⟩
    · exact Or.inr ((hp ![x, 0, 0] (show (0 : ℕ) < 3 by norm_num) Nat.one_pos).2 (fun r hr hrx => hx ⟨r, hr, hrx⟩))
  have habs : ∀ e : ℂ, 1 / 2 * g.courant * (1 / e.re) * layerCond wl e * g.spacing * ETA_0 = e.im / e.re * (Real.pi * SPEED_OF_LIGHT * g.timeStep / wl * (EPS_0 * ETA_0 * SPEED_OF_LIGHT)) := by
    intro e
    unfold layerCond
    rw [show 1 / 2 * g.courant * (1 / e.re) * (e.im * (SPEED_OF_LIGHT / wl) * 2 * Real.pi * EPS_0) * g.spacing * ETA_0 =
      (g.courant * g.spacing) * (1 / e.re) * (e.im * (SPEED_OF_LIGHT / wl) * Real.pi * EPS_0) * ETA_0 by ring, hdt]
    ring
  have hgs : 0 < g.timeStep := by
    have hsp : 0 < g.spacing := by
      rw [hgeq]
      exact div_pos (by unfold UNIT_MAGNITUDE; norm_num) h.geometry.scaling
    have hcl : 0 < SPEED_OF_LIGHT := by unfold SPEED_OF_LIGHT; norm_num
    by_contra hneg
    have : 0 < SPEED_OF_LIGHT * g.timeStep := hdt ▸ mul_pos hC0 hsp
    exact hneg (pos_of_mul_pos_right this hcl.le)
  have hfac : 0 < Real.pi * SPEED_OF_LIGHT * g.timeStep / wl * (EPS_0 * ETA_0 * SPEED_OF_LIGHT) := by
    have := Real.pi_pos
    unfold ETA_0 MU_0 EPS_0 SPEED_OF_LIGHT
    positivity
  have hpos' : ∀ x, 0 ≤ m.absorb ![x, 0, 0] 2 := fun x => by
    rcases hmed x with ⟨e, he, -, q⟩ | ⟨-, q⟩
    · rw [q, habs]
      have := him e he
      have := hre e he
      positivity
    · rw [q]
  have hie : ∀ x, m.invEps ![x, 0, 0] 2 ≠ 0 := fun x => by
    rcases hmed x with ⟨e, he, q, -⟩ | ⟨q, -⟩
    · rw [q]; exact (one_div_pos.2 (hre e he)).ne'
    · rw [q]; exact one_ne_zero
  refine ⟨g, prof, m, l.map fun r => (r.2 - r.1).toNat, fun x => m.invEps ![x, 0, 0] 2, fun x => m.absorb ![x, 0, 0] 2, hg, ⟨hp3, hps⟩, hm, H (some eps) m hm, by rw [List.length_map, hll], ?_, hW, htd,
    fun x => ⟨hie x, by have := hpos' x; positivity⟩, ?_⟩
  · intro i d t hd ht
    rw [List.getElem?_map] at hd
    obtain ⟨r, hr, rfl⟩ := Option.map_eq_some_iff.1 hd
    have := hth i r t hr ht
    have hb := hin r (List.mem_of_getElem? hr)
    have e : (((r.2 - r.1).toNat : ℕ) : ℝ) = ((r.2 - r.1 : ℤ) : ℝ) := by
      have : (((r.2 - r.1).toNat : ℕ) : ℤ) = r.2 - r.1 := Int.toNat_of_nonneg (by omega)
      exact_mod_cast congrArg (Int.cast : ℤ → ℝ) this
    rw [e]
    exact this
  intro Ω hΩ0 hΩ1 ls hcells hls k0 hk0 hk1 u hst A B C hA hfr hbk
  have hsin : 0 < Real.sin (Ω / 2) := Real.sin_pos_of_pos_of_lt_pi (by linarith) (by linarith)
  have hlsl : l.length = ls.length := by
    have := congrArg List.length hcells
    simpa using this.symm
  have hcc' : ∀ (i : ℕ) (r : ℤ × ℤ) (ly : GridLayer), l[i]? = some r → ls[i]? = some ly → (ly.cells : ℤ) = r.2 - r.1 := by
    intro i r ly hr hly
    have : (ls.map GridLayer.cells)[i]? = (l.map fun r => (r.2 - r.1).toNat)[i]? := by rw [hcells]
    rw [List.getElem?_map, List.getElem?_map, hr, hly] at this
    have hb := hin r (List.mem_of_getElem? hr)
    have : ly.cells = (r.2 - r.1).toNat := Option.some.inj this
    omega
  have hsum : (l.map fun r => (r.2 - r.1).toNat).sum = totalCells ls := by rw [totalCells, hcells]
  rw [hsum] at hbk
  have htot := total_ranges ls l a.toNat (tDetectorX c s - c.gap) hlsl (fun r hr => by have := hfirst r hr; omega) hcon hcc' (fun r hr => (hin r hr).2.2.1)
    (by have := hin r0 (List.mem_of_getElem? hr0); omega)
  have hres : ∀ ly ∈ ls, 1 ≤ ly.cells := by
    intro ly hly
    obtain ⟨i, hi⟩ := List.getElem?_of_mem hly
    have hil : i < l.length := by rw [hlsl]; exact (List.getElem?_eq_some_iff.1 hi).1
    have hr := List.getElem?_eq_getElem hil
    have ht := List.getElem?_eq_getElem (show i < c.thick.length by rw [← hlen, ← hll]; exact hil)
    have h1 := hth i _ _ hr ht
    have h2 := hthick _ (List.getElem_mem (show i < c.thick.length by rw [← hlen, ← hll]; exact hil))
    have h3 := hcc' i _ ly hr hi
    have h4 : (0 : ℝ) < ((l[i].2 - l[i].1 : ℤ) : ℝ) := by have := abs_lt.1 h1; linarith
    have h5 : (0 : ℤ) < l[i].2 - l[i].1 := by exact_mod_cast h4
    omega
  have key := films_of_stationary (g := builtGrid c s wl g m prof) (lo := (a - 2).toNat) (ie := fun x => m.invEps ![x, 0, 0] 2) (f := fun x => m.absorb ![x, 0, 0] 2) (im := 1) hsin hC0 a.toNat (by omega) ls
    (filled_ranges ls l a.toNat hlsl (fun r hr => by have := hfirst r hr; omega) hcon hcc' (fun i r ly x hr hly hx => by
      obtain ⟨e, he⟩ : ∃ e, eps[i]? = some e := ⟨_, List.getElem?_eq_getElem (by rw [← hll]; exact (List.getElem?_eq_some_iff.1 hr).1)⟩
      obtain ⟨q1, q2⟩ := (hp ![x, 0, 0] (show (0 : ℕ) < 3 by norm_num) Nat.one_pos).1 i r e hr he hx
      obtain ⟨w1, w2, w3⟩ := hls i ly e hly he
      refine ⟨?_, w2, w3⟩
      rw [w1, q1, q2, habs]
      have hee : (e.re : ℂ) ≠ 0 := Complex.ofReal_ne_zero.2 (hre e (List.mem_of_getElem? he)).ne'
      have hss : (Real.sin (Ω / 2) : ℂ) ≠ 0 := Complex.ofReal_ne_zero.2 hsin.ne'
      unfold lossFactor
      push_cast
      field_simp))
    hres (n0 := 1) (k0 := k0) ⟨by
        rw [← Complex.ofReal_ofNat, ← Complex.ofReal_div, ← Complex.ofReal_sin, hk0]
        exact Complex.ofReal_ne_zero.2 (div_pos hsin hC0).ne', by
        rw [← Complex.ofReal_ofNat, ← Complex.ofReal_div, ← Complex.ofReal_cos]
        exact Complex.ofReal_ne_zero.2 hk1⟩
    (by
      show Complex.sin ((k0 : ℂ) / 2) = (Real.sin (Ω / 2) : ℂ) / (g.courant : ℂ) * ((1 : ℝ) : ℂ)
      rw [← Complex.ofReal_ofNat, ← Complex.ofReal_div, ← Complex.ofReal_sin, hk0]; push_cast; ring)
    u (fun κ hκ => hst _ _ (by omega) (by omega) κ hκ) hA (fun x hx => hfr x (by omega)) (fun x hx => hbk x (by omega))
  rw [div_one] at key
  simpa using key

/-- C124 for the solver's own grid: `init_fdtd` makes of the layers of a stack films of `cells` cells each, within one cell of the configured thickness, with the refractive indices of the configured permittivities up to
`lossFactor`. If at some times `τ n` and the four steps after each of them the row sums of the electric field tend to an oscillation with `Ω` radians per step about a static field, with the waves `A`, `B` in the two cells at the front and the wave `C` in the two cells at
the back of the stack, then `|B/A|²` and `|C/A|²` are the reflectance and the transmittance of these films. -/
theorem C124_driver (c : FdtdCfg) (s : ℝ) (h : LineSetup c s) (wl : ℝ) (hwl : 0 < wl) (hgap : 2 ≤ c.gap) (hfree : c.gap < ⌊s * c.free⌋) (hfront : sourceCell c s + 3 ≤ ⌊s * (c.pml + c.free)⌋)
    (hthick : ∀ t ∈ c.thick, 1 ≤ s * t) (eps : List ℂ) (hlen : eps.length = c.thick.length) (hre : ∀ e ∈ eps, 0 < e.re) (him : ∀ e ∈ eps, 0 ≤ e.im) :
    ∃ (sim : Simulation) (cells : List ℕ), initFdtd c s (some eps) wl = .ok sim ∧ cells.length = eps.length ∧
      (∀ (i : ℕ) (d : ℕ) (t : ℝ), cells[i]? = some d → c.thick[i]? = some t → |(d : ℝ) - s * t| < 1) ∧
      ∀ Ω, 0 < Ω → Ω < Real.pi → ∀ ls : List GridLayer, ls.map GridLayer.cells = cells →
        (∀ (i : ℕ) (ly : GridLayer) (e : ℂ), ls[i]? = some ly → eps[i]? = some e → ly.index ^ 2 = e.re + Complex.I * (e.im * lossFactor sim.numbers.timeStep wl Ω : ℝ) ∧
          Complex.sin (ly.advance / 2) = Real.sin (Ω / 2) / sim.numbers.courant * ly.index ∧ WaveResolved ly.advance) →
        ∀ k0 : ℝ, Real.sin (k0 / 2) = Real.sin (Ω / 2) / sim.numbers.courant → Real.cos (k0 / 2) ≠ 0 → ∀ (u : ℕ → ℂ) (v : ℕ → ℝ) (τ : ℕ → ℕ), (∀ n, 1 ≤ τ n) →
          (∀ j ≤ 4, ∀ x : ℕ, ⌊s * (c.pml + c.free)⌋ - 2 ≤ x → (x : ℤ) ≤ tDetectorX c s → Tendsto (fun n => rowE (sim.grid.run (τ n + j)) x) atTop (𝓝 (v x + (u x * Complex.exp (-(Complex.I * Ω * j))).re))) →
          ∀ A B C : ℂ, A ≠ 0 →
            (∀ x : ℕ, (x : ℤ) = ⌊s * (c.pml + c.free)⌋ - 1 ∨ (x : ℤ) = ⌊s * (c.pml + c.free)⌋ → u x = A * Complex.exp (Complex.I * k0 * x) + B * Complex.exp (-(Complex.I * k0 * x))) →
            (∀ x : ℕ, (x : ℤ) = ⌊s * (c.pml + c.free)⌋ + cells.sum - 1 ∨ (x : ℤ) = ⌊s * (c.pml + c.free)⌋ + cells.sum → u x = C * Complex.exp (Complex.I * k0 * x)) →
            Complex.normSq (B / A) = filmsR (Real.cos (k0 / 2)) (simulatedFilms ls) (Real.cos (k0 / 2)) ∧
              Complex.normSq (C / A) = filmsT (Real.cos (k0 / 2)) (simulatedFilms ls) (Real.cos (k0 / 2)) := by
  obtain ⟨g, prof, m, cells, ie, f, hg, -, -, hi, hl, hth, hW, htd, hmed, H⟩ := driver_films c s h wl hwl hgap hfree hfront hthick eps hlen hre him
  refine ⟨_, cells, hi, hl, hth, fun Ω hΩ0 hΩ1 ls hcells hls k0 hk0 hk1 u v τ hk hosc => H Ω hΩ0 hΩ1 ls hcells hls k0 hk0 hk1 u fun a b ha hb κ hκ => ?_⟩
  exact C124_settling (hW.narrow ha hb) (Real.sin_pos_of_pos_of_lt_pi hΩ0 hΩ1).ne' (C43_default _ _ _ hg).1.ne' one_ne_zero (fun x _ _ => (hmed x).1) (fun x _ _ => (hmed x).2) κ hκ u v τ hk
    (fun j hj x h1 h2 => hosc j hj x (by omega) (by omega))

/-- the hypotheses on the config are met by the default config with eight layers -/
example : LineSetup (expandThick (fdtdDefaultWith (3 / 2) 2 [1])) 10 ∧ 2 ≤ (expandThick (fdtdDefaultWith (3 / 2) 2 [1])).gap ∧
    (expandThick (fdtdDefaultWith (3 / 2) 2 [1])).gap < ⌊10 * (expandThick (fdtdDefaultWith (3 / 2) 2 [1])).free⌋ ∧
    sourceCell (expandThick (fdtdDefaultWith (3 / 2) 2 [1])) 10 + 3 ≤ ⌊10 * ((expandThick (fdtdDefaultWith (3 / 2) 2 [1])).pml + (expandThick (fdtdDefaultWith (3 / 2) 2 [1])).free)⌋ ∧
    ∀ t ∈ (expandThick (fdtdDefaultWith (3 / 2) 2 [1])).thick, 1 ≤ 10 * t := by
  have e : expandThick (fdtdDefaultWith (3 / 2) 2 [1]) = fdtdDefaultWith (3 / 2) 2 (List.replicate 8 1) := rfl
  have h2 : sourceCell (expandThick (fdtdDefaultWith (3 / 2) 2 [1])) 10 = 15 := by
    rw [e]
    unfold sourceCell
    rw [show _ * (10 : ℝ) = ((15 : ℤ) : ℝ) by norm_num [fdtdDefaultWith]]
    unfold pyTrunc; norm_num
  refine ⟨default_setup, le_rfl, ?_, ?_, ?_⟩
  · rw [e]; show (2 : ℤ) < ⌊(10 : ℝ) * 1⌋; norm_num
  · rw [h2, e]
    show (15 + 3 : ℤ) ≤ ⌊(10 : ℝ) * (3 / 2 + 1)⌋
    rw [Int.le_floor]; norm_num
  · rw [e]
    intro t ht
    rw [List.eq_of_mem_replicate (show t ∈ List.replicate 8 (1 : ℝ) from ht)]
    norm_num

end

end Nidn
