/-
C130: what the picture of a grid shows.
-/
import Mathlib.Tactic.Ring
import Mathlib.Tactic.FieldSimp
import Mathlib.Tactic.Linarith
import Mathlib.Tactic.FinCases
import Verif.Model.FdtdVisual
import Verif.Lemmas.Py
import Verif.Props.FdtdSources
import Verif.Props.FdtdObjects
import Verif.Props.FdtdPlane
import Verif.Props.FdtdSignals

namespace Nidn

/-! ### Specification -/

/-- the point (`h` to the right, `v` downwards) lies inside the pixel of row `r` and column `c` -/
def inPixel (r c : ℕ) (h v : ℚ) : Prop := |h - c| < 1 / 2 ∧ |v - r| < 1 / 2

/-- the filled area of a shape -/
def Shape.area : Shape → ℚ → ℚ → Prop
  | .rect h0 v0 w d, h, v => h0 ≤ h ∧ h ≤ h0 + w ∧ v0 ≤ v ∧ v ≤ v0 + d
  | _, _, _ => False

/-- the point lies on the straight line between two points -/
def onSegment (p q : ℚ × ℚ) (h v : ℚ) : Prop := ∃ t : ℚ, 0 ≤ t ∧ t ≤ 1 ∧ h = p.1 + t * (q.1 - p.1) ∧ v = p.2 + t * (q.2 - p.2)

/-- the points of the lines of a shape -/
def Shape.drawn : Shape → ℚ → ℚ → Prop
  | .line pts, h, v => ∃ e ∈ pts.zip pts.tail, onSegment e.1 e.2 h v
  | _, _, _ => False

/-- the axis the picture is cut across and where -/
def Cut.axis : Cut → Fin 3
  | .x _ => 0
  | .y _ => 1
  | .z _ => 2

/-- the index of the cut -/
def Cut.index : Cut → ℤ
  | .x i => i
  | .y i => i
  | .z i => i

/-- exactly one location was given, and it is an integer -/
def OneCut (x y z : Option CutArg) (cut : Cut) : Prop :=
  match cut with
  | .x i => x = some (.int i) ∧ y = none ∧ z = none
  | .y i => y = some (.int i) ∧ x = none ∧ z = none
  | .z i => z = some (.int i) ∧ x = none ∧ y = none

/-- the three normalisations the documentation allows -/
def NormOk (norm : String) : Prop := norm ∈ ["linear", "lin", "log"]

lemma chooseCut_ok (x y z : Option CutArg) (cut : Cut) : chooseCut x y z = .ok cut ↔ OneCut x y z cut := by
  rcases x with _ | (a | _) <;> rcases y with _ | (b | _) <;> rcases z with _ | (c | _) <;> cases cut <;> simp [chooseCut, OneCut]

lemma chooseCut_err (x y z : Option CutArg) (h : ∀ cut, ¬ OneCut x y z cut) : chooseCut x y z = .error .valueError := by
  rcases x with _ | (a | _) <;> rcases y with _ | (b | _) <;> rcases z with _ | (c | _) <;>
    first | rfl | exact absurd ⟨rfl, rfl, rfl⟩ (h (.x a)) | exact absurd ⟨rfl, rfl, rfl⟩ (h (.y b)) | exact absurd ⟨rfl, rfl, rfl⟩ (h (.z c))

lemma torchIndex_ok {N : ℕ} {i : ℤ} {k : ℕ} : torchIndex N i = .ok k ↔ indexSelects N i k := by
  unfold torchIndex indexSelects
  split_ifs with h1 h2
  · rw [Except.ok.injEq]; omega
  · rw [Except.ok.injEq]; omega
  · constructor
    · intro h; cases h
    · intro h; omega

lemma torchIndex_err {N : ℕ} {i : ℤ} {e : PyErr} (h : torchIndex N i = .error e) : e = .indexError := by
  unfold torchIndex at h
  split_ifs at h
  exact (Except.error.inj h).symm

section
variable {K : Type} [Field K]

/-- what is visible at a cell -/
def shownEnergy (E H : VField K) (p : Pos) : K := ∑ c : Fin 3, (E p c ^ 2 + H p c ^ 2)

lemma cellEnergy_eq (E H : VField K) (p : Pos) : cellEnergy E H p = shownEnergy E H p := by
  unfold cellEnergy shownEnergy
  rw [Fin.sum_univ_three]

lemma pos_eta (p : Pos) : p = ![p 0, p 1, p 2] := by
  funext c
  fin_cases c <;> rfl

lemma cutEnergy_ok (n : Pos) (E H : VField K) (cut : Cut) (img : ℕ → ℕ → K) (h : cutEnergy n E H cut = .ok img) :
    (∀ b, b ≠ cut.axis → 1 < n b) ∧ (∃ k, indexSelects (n cut.axis) cut.index k) ∧
      ∀ p : Pos, indexSelects (n cut.axis) cut.index (p cut.axis) → img (p cut.rows) (p cut.cols) = shownEnergy E H p := by
  cases cut with
  | x i =>
    dsimp only [cutEnergy] at h
    split_ifs at h with hd
    cases hk : torchIndex (n 0) i with
    | error e => rw [hk] at h; cases h
    | ok k =>
      rw [hk] at h
      obtain rfl := (Except.ok.inj h).symm
      refine ⟨fun b hb => ?_, ⟨k, torchIndex_ok.1 hk⟩, fun p hp => ?_⟩
      · fin_cases b
        · exact absurd rfl hb
        · exact hd.1
        · exact hd.2
      · have hpk : p 0 = k := Except.ok.inj ((torchIndex_ok.2 hp).symm.trans hk)
        show cellEnergy E H ![k, p 1, p 2] = _
        rw [← hpk, ← pos_eta, cellEnergy_eq]
  | y i =>
    dsimp only [cutEnergy] at h
    split_ifs at h with hd
    cases hk : torchIndex (n 1) i with
    | error e => rw [hk] at h; cases h
    | ok k =>
      rw [hk] at h
      obtain rfl := (Except.ok.inj h).symm
      refine ⟨fun b hb => ?_, ⟨k, torchIndex_ok.1 hk⟩, fun p hp => ?_⟩
      · fin_cases b
        · exact hd.1
        · exact absurd rfl hb
        · exact hd.2
      · have hpk : p 1 = k := Except.ok.inj ((torchIndex_ok.2 hp).symm.trans hk)
        show cellEnergy E H ![p 0, k, p 2] = _
        rw [← hpk, ← pos_eta, cellEnergy_eq]
  | z i =>
    dsimp only [cutEnergy] at h
    split_ifs at h with hd
    cases hk : torchIndex (n 2) i with
    | error e => rw [hk] at h; cases h
    | ok k =>
      rw [hk] at h
      obtain rfl := (Except.ok.inj h).symm
      refine ⟨fun b hb => ?_, ⟨k, torchIndex_ok.1 hk⟩, fun p hp => ?_⟩
      · fin_cases b
        · exact hd.1
        · exact hd.2
        · exact absurd rfl hb
      · have hpk : p 2 = k := Except.ok.inj ((torchIndex_ok.2 hp).symm.trans hk)
        show cellEnergy E H ![p 0, p 1, k] = _
        rw [← hpk, ← pos_eta, cellEnergy_eq]

lemma cutEnergy_total (n : Pos) (E H : VField K) (cut : Cut) (hd : ∀ b, b ≠ cut.axis → 1 < n b) (hi : ∃ k, indexSelects (n cut.axis) cut.index k) :
    ∃ img, cutEnergy n E H cut = .ok img := by
  obtain ⟨k, hk⟩ := hi
  cases cut with
  | x i => exact ⟨_, by dsimp only [cutEnergy]; rw [if_neg (not_not.2 ⟨hd 1 (show (1 : Fin 3) ≠ 0 by decide), hd 2 (show (2 : Fin 3) ≠ 0 by decide)⟩), show torchIndex (n 0) i = _ from torchIndex_ok.2 hk]; rfl⟩
  | y i => exact ⟨_, by dsimp only [cutEnergy]; rw [if_neg (not_not.2 ⟨hd 0 (show (0 : Fin 3) ≠ 1 by decide), hd 2 (show (2 : Fin 3) ≠ 1 by decide)⟩), show torchIndex (n 1) i = _ from torchIndex_ok.2 hk]; rfl⟩
  | z i => exact ⟨_, by dsimp only [cutEnergy]; rw [if_neg (not_not.2 ⟨hd 0 (show (0 : Fin 3) ≠ 2 by decide), hd 1 (show (1 : Fin 3) ≠ 2 by decide)⟩), show torchIndex (n 2) i = _ from torchIndex_ok.2 hk]; rfl⟩

lemma cutEnergy_err (n : Pos) (E H : VField K) (cut : Cut) (e : PyErr) (h : cutEnergy n E H cut = .error e) : e ≠ .valueError := by
  have key : ∀ (P : Prop) [Decidable P] (N : ℕ) (i : ℤ) (f : ℕ → ℕ → ℕ → K), (if P then .error .assertionError else (torchIndex N i).map f : Except PyErr (ℕ → ℕ → K)) = .error e → e ≠ .valueError := by
    intro P _ N i f h
    split_ifs at h with hP
    · obtain rfl := Except.error.inj h
      decide
    · cases hk : torchIndex N i with
      | ok k => rw [hk] at h; cases h
      | error e' =>
        rw [hk] at h
        obtain rfl := Except.error.inj h
        rw [torchIndex_err hk]
        decide
  cases cut with
  | x i => exact key _ _ _ _ h
  | y i => exact key _ _ _ _ h
  | z i => exact key _ _ _ _ h

lemma firstLast_err (l : List ℤ) (e : PyErr) (h : firstLast l = .error e) : e = .indexError := by
  rcases l with _ | ⟨a, l⟩
  · exact (Except.error.inj h).symm
  · cases h

lemma drawSource_err (cut : Cut) (s : DrawnSource) (e : PyErr) (h : drawSource cut s = .error e) : e = .indexError := by
  cases s with
  | line l =>
    rcases bind_err.1 h with h | ⟨r, -, h⟩
    · exact firstLast_err _ _ h
    rcases bind_err.1 h with h | ⟨c, -, h⟩
    · exact firstLast_err _ _ h
    cases h
  | point p => cases h
  | plane b => cases h
  | soft => cases h

lemma drawDetector_err (cut : Cut) (d : DrawnDetector) (e : PyErr) (h : drawDetector cut d = .error e) : e = .indexError := by
  rcases bind_err.1 h with h | ⟨r, -, h⟩
  · exact firstLast_err _ _ h
  rcases bind_err.1 h with h | ⟨c, -, h⟩
  · exact firstLast_err _ _ h
  split_ifs at h

lemma zeroAt_err (rows cols : ℕ) (img : ℕ → ℕ → K) (rc : ℤ × ℤ) (e : PyErr) (h : zeroAt rows cols img rc = .error e) : e = .indexError := by
  rcases bind_err.1 h with h | ⟨r, -, h⟩
  · exact torchIndex_err h
  rcases bind_err.1 h with h | ⟨c, -, h⟩
  · exact torchIndex_err h
  cases h

lemma drawSources_err (n : Pos) (cut : Cut) (ss : List DrawnSource) (img : ℕ → ℕ → K) (e : PyErr) (h : drawSources n cut ss img = .error e) : e = .indexError := by
  induction ss generalizing img with
  | nil => cases h
  | cons s ss ih =>
    rcases bind_err.1 h with h | ⟨sh, -, h⟩
    · exact drawSource_err _ _ _ h
    rcases bind_err.1 h with h | ⟨img', -, h⟩
    · cases s with
      | point p => exact zeroAt_err _ _ _ _ _ h
      | line l => cases h
      | plane b => cases h
      | soft => cases h
    rcases bind_err.1 h with h | ⟨rest, -, h⟩
    · exact ih _ h
    cases h

lemma mapM_err_mem {α β : Type} (f : α → Except PyErr β) (l : List α) (e : PyErr) (h : l.mapM f = .error e) : ∃ a ∈ l, f a = .error e := by
  induction l with
  | nil => cases h
  | cons a l ih =>
    rw [List.mapM_cons] at h
    rcases bind_err.1 h with h | ⟨b, -, h⟩
    · exact ⟨a, by simp, h⟩
    rcases bind_err.1 h with h | ⟨b, -, h⟩
    · obtain ⟨a', h1, h2⟩ := ih h
      exact ⟨a', by simp [h1], h2⟩
    cases h

/-- C130: the documented ValueError is raised exactly when the normalisation is unknown or not exactly one location is given as an integer. -/
theorem C130_rejected (g : DrawnGrid K) (x y z : Option CutArg) (norm : String) :
    visualize g x y z norm = .error .valueError ↔ ¬ (NormOk norm ∧ ∃ cut, OneCut x y z cut) := by
  have hn : NormOk norm ↔ (norm = "linear" ∨ norm = "lin" ∨ norm = "log") := by simp [NormOk]
  constructor
  · rintro h ⟨h1, cut, h2⟩
    unfold visualize at h
    rw [if_neg (not_not.2 (hn.1 h1)), (chooseCut_ok x y z cut).2 h2, ok_bind] at h
    rcases bind_err.1 h with h | ⟨img, -, h⟩
    · exact cutEnergy_err _ _ _ _ _ h rfl
    rcases bind_err.1 h with h | ⟨src, -, h⟩
    · exact absurd (drawSources_err _ _ _ _ _ h) (by decide)
    rcases bind_err.1 h with h | ⟨det, -, h⟩
    · obtain ⟨d, -, hd⟩ := mapM_err_mem _ _ _ h
      exact absurd (drawDetector_err _ _ _ hd) (by decide)
    cases h
  · intro h
    unfold visualize
    by_cases h1 : NormOk norm
    · rw [if_neg (not_not.2 (hn.1 h1)), chooseCut_err x y z fun cut hc => h ⟨h1, cut, hc⟩]
      rfl
    · rw [if_pos (fun hh => h1 (hn.2 hh))]

/-- what a successful call did -/
lemma visualize_ok (g : DrawnGrid K) (x y z : Option CutArg) (norm : String) (cut : Cut) (hc : OneCut x y z cut) (pic : Picture K) (h : visualize g x y z norm = .ok pic) :
    ∃ img src det, cutEnergy g.n g.E g.H cut = .ok img ∧ drawSources g.n cut g.sources img = .ok src ∧ g.detectors.mapM (drawDetector cut) = .ok det ∧
      pic = ⟨src.1, g.n cut.rows, g.n cut.cols, axisLabel cut.rows, axisLabel cut.cols, src.2, det.flatten, g.boundaries.flatMap (drawBoundary g.n cut), g.objects.map (drawObject cut)⟩ := by
  unfold visualize at h
  split_ifs at h with h1
  rw [(chooseCut_ok x y z cut).2 hc, ok_bind] at h
  obtain ⟨img, himg, h⟩ := bind_ok.1 h
  obtain ⟨src, hsrc, h⟩ := bind_ok.1 h
  obtain ⟨det, hdet, h⟩ := bind_ok.1 h
  exact ⟨img, src, det, himg, hsrc, hdet, (Except.ok.inj h).symm⟩

/-- does the point source lie, seen along the cut's axis, in the column of cells through `p`? -/
def projectsTo (n : Pos) (cut : Cut) (s : DrawnSource) (p : Pos) : Prop :=
  ∃ c, s = .point c ∧ ∀ b, b ≠ cut.axis → indexSelects (n b) (c b) (p b)

lemma drawSources_image (n : Pos) (cut : Cut) (hcut : cut.axis ≠ 1) (ss : List DrawnSource) (img : ℕ → ℕ → K) (r : (ℕ → ℕ → K) × List Shape) (h : drawSources n cut ss img = .ok r) (p : Pos) :
    ((∃ s ∈ ss, projectsTo n cut s p) → r.1 (p cut.rows) (p cut.cols) = 0) ∧
      ((¬ ∃ s ∈ ss, projectsTo n cut s p) → r.1 (p cut.rows) (p cut.cols) = img (p cut.rows) (p cut.cols)) := by
  induction ss generalizing img r with
  | nil =>
    obtain rfl := Except.ok.inj h
    simp
  | cons s ss ih =>
    obtain ⟨sh, -, h⟩ := bind_ok.1 h
    obtain ⟨img', himg, h⟩ := bind_ok.1 h
    obtain ⟨rest, hrest, h⟩ := bind_ok.1 h
    obtain rfl := Except.ok.inj h
    obtain ⟨i1, i2⟩ := ih img' rest hrest
    have hstep : (projectsTo n cut s p → img' (p cut.rows) (p cut.cols) = 0) ∧ (¬ projectsTo n cut s p → img' (p cut.rows) (p cut.cols) = img (p cut.rows) (p cut.cols)) := by
      cases s with
      | line l => obtain rfl := Except.ok.inj himg; exact ⟨(fun ⟨c, hc, _⟩ => by cases hc), fun _ => rfl⟩
      | plane b => obtain rfl := Except.ok.inj himg; exact ⟨(fun ⟨c, hc, _⟩ => by cases hc), fun _ => rfl⟩
      | soft => obtain rfl := Except.ok.inj himg; exact ⟨(fun ⟨c, hc, _⟩ => by cases hc), fun _ => rfl⟩
      | point c =>
        obtain ⟨a, ha, himg⟩ := bind_ok.1 himg
        obtain ⟨b, hb, himg⟩ := bind_ok.1 himg
        obtain rfl := Except.ok.inj himg
        have hpr : projectsTo n cut (.point c) p ↔ (p cut.rows = a ∧ p cut.cols = b) := by
          have e : projectsTo n cut (.point c) p ↔ ∀ b, b ≠ cut.axis → indexSelects (n b) (c b) (p b) := by
            constructor
            · rintro ⟨c', hc, h⟩
              cases hc
              exact h
            · intro h; exact ⟨c, rfl, h⟩
          rw [e]
          cases cut with
          | y i => exact absurd rfl hcut
          | x i =>
            constructor
            · intro h
              exact ⟨Except.ok.inj ((torchIndex_ok.2 (h 1 (show (1 : Fin 3) ≠ 0 by decide))).symm.trans ha), Except.ok.inj ((torchIndex_ok.2 (h 2 (show (2 : Fin 3) ≠ 0 by decide))).symm.trans hb)⟩
            · rintro ⟨h1, h2⟩ d hd
              fin_cases d
              · exact absurd rfl hd
              · exact torchIndex_ok.1 (ha.trans (congrArg _ h1.symm))
              · exact torchIndex_ok.1 (hb.trans (congrArg _ h2.symm))
          | z i =>
            constructor
            · intro h
              exact ⟨Except.ok.inj ((torchIndex_ok.2 (h 0 (show (0 : Fin 3) ≠ 2 by decide))).symm.trans ha), Except.ok.inj ((torchIndex_ok.2 (h 1 (show (1 : Fin 3) ≠ 2 by decide))).symm.trans hb)⟩
            · rintro ⟨h1, h2⟩ d hd
              fin_cases d
              · exact torchIndex_ok.1 (ha.trans (congrArg _ h1.symm))
              · exact torchIndex_ok.1 (hb.trans (congrArg _ h2.symm))
              · exact absurd rfl hd
        rw [hpr]
        exact ⟨fun h => if_pos h, fun h => if_neg h⟩
    constructor
    · rintro ⟨s', hs', hp⟩
      by_cases hr : ∃ s ∈ ss, projectsTo n cut s p
      · exact i1 hr
      · rw [i2 hr]
        rcases List.mem_cons.1 hs' with rfl | hs'
        · exact hstep.1 hp
        · exact absurd ⟨s', hs', hp⟩ hr
    · intro hno
      rw [i2 (fun ⟨s', h1, h2⟩ => hno ⟨s', List.mem_cons_of_mem _ h1, h2⟩), hstep.2 fun hp => hno ⟨s, by simp, hp⟩]

lemma drawSources_noPoint (n : Pos) (cut : Cut) (ss : List DrawnSource) (img : ℕ → ℕ → K) (r : (ℕ → ℕ → K) × List Shape) (h : drawSources n cut ss img = .ok r) (hno : ∀ c, .point c ∉ ss) :
    r.1 = img := by
  induction ss generalizing img r with
  | nil => obtain rfl := Except.ok.inj h; rfl
  | cons s ss ih =>
    obtain ⟨sh, -, h⟩ := bind_ok.1 h
    obtain ⟨img', himg, h⟩ := bind_ok.1 h
    obtain ⟨rest, hrest, h⟩ := bind_ok.1 h
    obtain rfl := Except.ok.inj h
    have e : img' = img := by
      cases s with
      | line l => exact (Except.ok.inj himg).symm
      | plane b => exact (Except.ok.inj himg).symm
      | soft => exact (Except.ok.inj himg).symm
      | point c => exact absurd (by simp) (hno c)
    subst e
    exact ih _ rest hrest fun c hc => hno c (List.mem_cons_of_mem _ hc)

/-- C130, the pixels: the axes carry the names of the two axes along which the picture extends, there is one pixel per cell of the cut, and every pixel shows the energy of both fields in the cell whose
coordinates along the named axes are the pixel's row and column. Pixels of point sources are blank, also if the source lies in front of or behind the cut. Cuts across y with point sources: `C130_point_false`. -/
theorem C130_energy_partial (g : DrawnGrid K) (x y z : Option CutArg) (norm : String) (cut : Cut) (hc : OneCut x y z cut) (pic : Picture K) (h : visualize g x y z norm = .ok pic)
    (hy : cut.axis ≠ 1 ∨ ∀ c, .point c ∉ g.sources) :
    ∃ a b : Fin 3, a ≠ b ∧ a ≠ cut.axis ∧ b ≠ cut.axis ∧ pic.vlabel = axisLetter a ∧ pic.hlabel = axisLetter b ∧ pic.rows = g.n a ∧ pic.cols = g.n b ∧
      ∀ p : Pos, indexSelects (g.n cut.axis) cut.index (p cut.axis) →
        ((¬ ∃ s ∈ g.sources, projectsTo g.n cut s p) → pic.image (p a) (p b) = shownEnergy g.E g.H p) ∧
        ((∃ s ∈ g.sources, projectsTo g.n cut s p) → pic.image (p a) (p b) = 0) := by
  obtain ⟨img, src, det, himg, hsrc, hdet, rfl⟩ := visualize_ok g x y z norm cut hc pic h
  have hax : cut.rows ≠ cut.cols ∧ cut.rows ≠ cut.axis ∧ cut.cols ≠ cut.axis := by
    cases cut
    · exact (by decide : (1 : Fin 3) ≠ 2 ∧ (1 : Fin 3) ≠ 0 ∧ (2 : Fin 3) ≠ 0)
    · exact (by decide : (2 : Fin 3) ≠ 0 ∧ (2 : Fin 3) ≠ 1 ∧ (0 : Fin 3) ≠ 1)
    · exact (by decide : (0 : Fin 3) ≠ 1 ∧ (0 : Fin 3) ≠ 2 ∧ (1 : Fin 3) ≠ 2)
  have hlab : ∀ a : Fin 3, axisLabel a = axisLetter a := by intro a; fin_cases a <;> rfl
  refine ⟨cut.rows, cut.cols, hax.1, hax.2.1, hax.2.2, hlab _, hlab _, rfl, rfl, fun p hp => ?_⟩
  obtain ⟨-, -, hval⟩ := cutEnergy_ok _ _ _ _ _ himg
  rcases hy with hy | hy
  · obtain ⟨i1, i2⟩ := drawSources_image _ _ hy _ _ _ hsrc p
    exact ⟨fun hn => (i2 hn).trans (hval p hp), i1⟩
  · refine ⟨fun _ => ?_, ?_⟩
    · show src.1 _ _ = _
      rw [drawSources_noPoint _ _ _ _ _ hsrc hy]
      exact hval p hp
    · rintro ⟨s, hs, c, rfl, -⟩
      exact absurd hs (hy c)

lemma firstLast_total (l : List ℤ) (h : l ≠ []) : ∃ v, firstLast l = .ok v := by
  rcases l with _ | ⟨a, l⟩
  · exact absurd rfl h
  · exact ⟨_, rfl⟩

/-- the lists of a placed component have entries -/
def IndexLists.nonempty (l : IndexLists) : Prop := l.x ≠ [] ∧ l.y ≠ [] ∧ l.z ≠ []

lemma IndexLists.nonempty.axis {l : IndexLists} (h : l.nonempty) (a : Fin 3) : l.axis a ≠ [] := by
  fin_cases a
  · exact h.1
  · exact h.2.1
  · exact h.2.2

lemma drawSources_total (n : Pos) (cut : Cut) (ss : List DrawnSource) (img : ℕ → ℕ → K) (hl : ∀ l, .line l ∈ ss → l.nonempty)
    (hp : ∀ c, .point c ∈ ss → cut.axis ≠ 1 ∧ ∀ b, ∃ k, indexSelects (n b) (c b) k) : ∃ r, drawSources n cut ss img = .ok r := by
  induction ss generalizing img with
  | nil => exact ⟨_, rfl⟩
  | cons s ss ih =>
    have h1 : ∃ sh, drawSource cut s = .ok sh := by
      cases s with
      | line l =>
        have hne := hl l (by simp)
        obtain ⟨v, hv⟩ := firstLast_total _ (hne.axis cut.rows)
        obtain ⟨w, hw⟩ := firstLast_total _ (hne.axis cut.cols)
        exact ⟨_, by unfold drawSource; dsimp only; rw [hv, ok_bind, hw, ok_bind]⟩
      | point p => exact ⟨_, rfl⟩
      | plane b => exact ⟨_, rfl⟩
      | soft => exact ⟨_, rfl⟩
    have h2 : ∃ img', blankSource n cut s img = .ok img' := by
      cases s with
      | line l => exact ⟨_, rfl⟩
      | plane b => exact ⟨_, rfl⟩
      | soft => exact ⟨_, rfl⟩
      | point c =>
        obtain ⟨hcut, hk⟩ := hp c (by simp)
        cases cut with
        | y i => exact absurd rfl hcut
        | x i =>
          obtain ⟨k1, hk1⟩ := hk 1
          obtain ⟨k2, hk2⟩ := hk 2
          exact ⟨_, bind_ok.2 ⟨k1, torchIndex_ok.2 hk1, bind_ok.2 ⟨k2, torchIndex_ok.2 hk2, rfl⟩⟩⟩
        | z i =>
          obtain ⟨k1, hk1⟩ := hk 0
          obtain ⟨k2, hk2⟩ := hk 1
          exact ⟨_, bind_ok.2 ⟨k1, torchIndex_ok.2 hk1, bind_ok.2 ⟨k2, torchIndex_ok.2 hk2, rfl⟩⟩⟩
    obtain ⟨sh, h1⟩ := h1
    obtain ⟨img', h2⟩ := h2
    obtain ⟨r, hr⟩ := ih img' (fun l h => hl l (List.mem_cons_of_mem _ h)) (fun c h => hp c (List.mem_cons_of_mem _ h))
    exact ⟨(r.1, sh ++ r.2), bind_ok.2 ⟨sh, h1, bind_ok.2 ⟨img', h2, bind_ok.2 ⟨r, hr, rfl⟩⟩⟩⟩

/-- C130: a grid extending over more than one cell in both directions of the picture can be drawn at every location inside it. Cuts across y with point sources are excluded, see `C130_point_false`. -/
theorem C130_total_partial (g : DrawnGrid K) (x y z : Option CutArg) (norm : String) (cut : Cut) (hc : OneCut x y z cut) (hn : NormOk norm)
    (hl : ∀ l, .line l ∈ g.sources → l.nonempty) (hd : ∀ d ∈ g.detectors, d.l.nonempty) (hp : ∀ c, .point c ∈ g.sources → cut.axis ≠ 1 ∧ ∀ b, ∃ k, indexSelects (g.n b) (c b) k) :
    (∃ pic, visualize g x y z norm = .ok pic) ↔ (∀ b, b ≠ cut.axis → 1 < g.n b) ∧ -(g.n cut.axis : ℤ) ≤ cut.index ∧ cut.index < g.n cut.axis := by
  have hidx : (∃ k, indexSelects (g.n cut.axis) cut.index k) ↔ -(g.n cut.axis : ℤ) ≤ cut.index ∧ cut.index < g.n cut.axis := by
    constructor
    · rintro ⟨k, h1, h2⟩; omega
    · rintro ⟨h1, h2⟩
      by_cases h0 : 0 ≤ cut.index
      · exact ⟨cut.index.toNat, by omega, Or.inl (by omega)⟩
      · exact ⟨(cut.index + g.n cut.axis).toNat, by omega, Or.inr (by omega)⟩
  constructor
  · rintro ⟨pic, h⟩
    obtain ⟨img, src, det, himg, -⟩ := visualize_ok g x y z norm cut hc pic h
    obtain ⟨h1, h2, -⟩ := cutEnergy_ok _ _ _ _ _ himg
    exact ⟨h1, hidx.1 h2⟩
  · rintro ⟨h1, h2⟩
    obtain ⟨img, himg⟩ := cutEnergy_total g.n g.E g.H cut h1 (hidx.2 h2)
    obtain ⟨src, hsrc⟩ := drawSources_total g.n cut g.sources img hl hp
    have hdet : ∃ det, g.detectors.mapM (drawDetector cut) = .ok det := by
      have : ∀ d ∈ g.detectors, ∃ sh, drawDetector cut d = .ok sh := by
        intro d hdm
        obtain ⟨v, hv⟩ := firstLast_total _ ((hd d hdm).axis cut.rows)
        obtain ⟨w, hw⟩ := firstLast_total _ ((hd d hdm).axis cut.cols)
        unfold drawDetector
        rw [hv, ok_bind, hw, ok_bind]
        split_ifs
        · exact ⟨_, rfl⟩
        · exact ⟨_, rfl⟩
      revert this
      generalize g.detectors = ds
      intro this
      induction ds with
      | nil => exact ⟨[], rfl⟩
      | cons d ds ih =>
        obtain ⟨sh, hsh⟩ := this d (by simp)
        obtain ⟨r, hr⟩ := ih fun d' h => this d' (by simp [h])
        exact ⟨sh :: r, by rw [List.mapM_cons, hsh, ok_bind, hr]; rfl⟩
    obtain ⟨det, hdet⟩ := hdet
    have hn' : (norm = "linear" ∨ norm = "lin" ∨ norm = "log") := by simpa [NormOk] using hn
    refine ⟨⟨src.1, g.n cut.rows, g.n cut.cols, axisLabel cut.rows, axisLabel cut.cols, src.2, det.flatten, g.boundaries.flatMap (drawBoundary g.n cut), g.objects.map (drawObject cut)⟩, ?_⟩
    unfold visualize
    rw [if_neg (not_not.2 hn'), (chooseCut_ok x y z cut).2 hc, ok_bind, himg, ok_bind, hsrc, ok_bind, hdet, ok_bind]

/-! ### Shapes -/

/-- a key as documented whose index, if it is a single one, is not negative -/
def DrawnKey (N : ℕ) (k : AxisKey) : Prop := ObjectKey N k ∧ ∀ v, k = .list [v] → 0 ≤ v

lemma drawnKey_range (N : ℕ) (k : AxisKey) (h : DrawnKey N k) (r : AxisRange) (hr : objectSlice N k = .ok r) :
    0 ≤ r.start ∧ r.start ≤ r.stop ∧ ∀ i : ℕ, keySelects N k i ↔ r.start ≤ i ∧ (i : ℤ) < r.stop := by
  obtain ⟨h, hneg⟩ := h
  cases k with
  | list l =>
    obtain ⟨v, rfl, h1, h2, h3⟩ := h
    obtain rfl := Except.ok.inj hr
    have hv := hneg v rfl
    refine ⟨hv, by simp, fun i => ?_⟩
    show (∃ u ∈ [v], indexSelects N u i) ↔ v ≤ i ∧ (i : ℤ) < v + 1
    simp only [List.mem_singleton, exists_eq_left]
    unfold indexSelects
    omega
  | slice s =>
    obtain ⟨start, stop, step⟩ := s
    obtain ⟨hst, h1, h2, h3⟩ := h
    have hr' : objectSlice N (.slice ⟨start, stop, step⟩) = .ok ⟨objectStart N start, objectStop N stop⟩ := if_pos hst
    obtain rfl := Except.ok.inj (hr'.symm.trans hr)
    have e1 : sliceBound N 0 start = objectStart N start := by
      cases start with
      | none => rfl
      | some a =>
        have := h1 a rfl
        simp only [sliceBound, objectStart]
        split_ifs <;> omega
    have e2 : sliceBound N N stop = objectStop N stop := by
      cases stop with
      | none => rfl
      | some a =>
        have := h2 a rfl
        simp only [sliceBound, objectStop]
        split_ifs <;> omega
    have e0 : 0 ≤ objectStart N start := by
      cases start with
      | none => exact le_refl _
      | some a =>
        have := h1 a rfl
        simp only [objectStart]
        split_ifs <;> omega
    simp only at h3
    rw [e1, e2] at h3
    refine ⟨e0, h3, fun i => ?_⟩
    show sliceBound N 0 start ≤ i ∧ (i : ℤ) < sliceBound N N stop ↔ _
    rw [e1, e2]

/-- an interval from cell border to cell border contains the inside of exactly the pixels between -/
lemma span_pixel (a b : ℤ) (r : ℕ) (v : ℚ) (h : |v - r| < 1 / 2) : ((a : ℚ) - 1 / 2 ≤ v ∧ v ≤ (a : ℚ) - 1 / 2 + ((b : ℚ) - (a : ℚ))) ↔ a ≤ r ∧ (r : ℤ) < b := by
  obtain ⟨h1, h2⟩ := abs_lt.1 h
  constructor
  · rintro ⟨h3, h4⟩
    have e1 : (a : ℚ) < (r : ℤ) + 1 := by push_cast; linarith
    have e2 : ((r : ℤ) : ℚ) < b := by push_cast; linarith
    exact ⟨by have : a < (r : ℤ) + 1 := by exact_mod_cast e1
              omega, by exact_mod_cast e2⟩
  · rintro ⟨h3, h4⟩
    have e1 : (a : ℚ) ≤ (r : ℤ) := by exact_mod_cast h3
    have e2 : ((r : ℤ) : ℚ) + 1 ≤ b := by exact_mod_cast h4
    push_cast at e1 e2
    constructor <;> linarith

lemma axisLabel_inj (a b : Fin 3) (h : axisLabel a = axisLetter b) : a = b := by
  revert a b
  decide

/-- C130, objects: an object placed with documented keys (single indices not negative) is drawn as a rectangle that covers exactly the pixels of its cells, whatever the cut. Objects placed with negative single indices:
`C130_object_false`. -/
theorem C130_object_partial (g : DrawnGrid K) (x y z : Option CutArg) (norm : String) (cut : Cut) (hc : OneCut x y z cut) (pic : Picture K) (h : visualize g x y z norm = .ok pic)
    (a b : Fin 3) (ha : pic.vlabel = axisLetter a) (hb : pic.hlabel = axisLetter b) :
    pic.objects.length = g.objects.length ∧
      ∀ (i : ℕ) (sh : Shape) (rg : Fin 3 → AxisRange), pic.objects[i]? = some sh → g.objects[i]? = some rg → ∀ k : Fin 3 → AxisKey, (∀ c, objectSlice (g.n c) (k c) = .ok (rg c)) → DrawnKey (g.n a) (k a) → DrawnKey (g.n b) (k b) →
        ∀ (r c : ℕ) (h v : ℚ), inPixel r c h v → (sh.area h v ↔ keySelects (g.n a) (k a) r ∧ keySelects (g.n b) (k b) c) := by
  obtain ⟨img, src, det, himg, hsrc, hdet, rfl⟩ := visualize_ok g x y z norm cut hc pic h
  obtain rfl := axisLabel_inj _ _ ha
  obtain rfl := axisLabel_inj _ _ hb
  refine ⟨List.length_map _, fun i sh rg hi hg k hk hka hkb r c h v hp => ?_⟩
  have hi' : (g.objects.map (drawObject cut))[i]? = some sh := hi
  rw [List.getElem?_map, hg] at hi'
  obtain rfl := (Option.some.inj hi').symm
  obtain ⟨ha0, ha1, ha2⟩ := drawnKey_range _ _ hka _ (hk _)
  obtain ⟨hb0, hb1, hb2⟩ := drawnKey_range _ _ hkb _ (hk _)
  have qa : ((rg cut.rows).start : ℚ) ≤ (rg cut.rows).stop := by exact_mod_cast ha1
  have qb : ((rg cut.cols).start : ℚ) ≤ (rg cut.cols).stop := by exact_mod_cast hb1
  rw [ha2, hb2, ← span_pixel _ _ r v hp.2, ← span_pixel _ _ c h hp.1]
  show (_ ∧ _ ∧ _ ∧ _) ↔ _
  rw [min_eq_left qa, min_eq_left qb, max_eq_right qa, max_eq_right qb]
  tauto

/-- C130, absorbing boundaries: exactly the pixels of the outermost cells are covered, as many as the boundary is thick, on its side of its axis; a boundary across the axis of the cut is not drawn. -/
theorem C130_pml (g : DrawnGrid K) (x y z : Option CutArg) (norm : String) (cut : Cut) (hc : OneCut x y z cut) (pic : Picture K) (hpic : visualize g x y z norm = .ok pic)
    (a b : Fin 3) (ha : pic.vlabel = axisLetter a) (hb : pic.hlabel = axisLetter b) (r c : ℕ) (hr : r < pic.rows) (hcc : c < pic.cols) (h v : ℚ) (hp : inPixel r c h v) :
    (∃ sh ∈ pic.boundaries, sh.area h v) ↔
      ∃ ax hi t, .pmlOn ax hi (some t) ∈ g.boundaries ∧
        ((ax = a ∧ if hi then (g.n a : ℤ) ≤ r + t else (r : ℤ) < t) ∨ (ax = b ∧ if hi then (g.n b : ℤ) ≤ c + t else (c : ℤ) < t)) := by
  obtain ⟨img, src, det, himg, hsrc, hdet, rfl⟩ := visualize_ok g x y z norm cut hc pic hpic
  obtain rfl := axisLabel_inj _ _ ha
  obtain rfl := axisLabel_inj _ _ hb
  have hne : cut.rows ≠ cut.cols := by
    cases cut
    · exact (by decide : (1 : Fin 3) ≠ 2)
    · exact (by decide : (2 : Fin 3) ≠ 0)
    · exact (by decide : (0 : Fin 3) ≠ 1)
  replace hr : r < g.n cut.rows := hr
  replace hcc : c < g.n cut.cols := hcc
  have full : ∀ (N r : ℕ) (v : ℚ), r < N → |v - r| < 1 / 2 → (-1 / 2 : ℚ) ≤ v ∧ v ≤ -1 / 2 + N := by
    intro N r v hrN hv
    have := (span_pixel 0 N r v hv).2 ⟨by omega, by omega⟩
    push_cast at this
    constructor <;> linarith
  have low : ∀ (t : ℤ) (r : ℕ) (v : ℚ), |v - r| < 1 / 2 → (((-1 / 2 : ℚ) ≤ v ∧ v ≤ -1 / 2 + t) ↔ (r : ℤ) < t) := by
    intro t r v hv
    have := span_pixel 0 t r v hv
    push_cast at this
    constructor
    · rintro ⟨h1, h2⟩
      exact (this.1 ⟨by linarith, by linarith⟩).2
    · intro ht
      obtain ⟨h1, h2⟩ := this.2 ⟨by omega, ht⟩
      exact ⟨by linarith, by linarith⟩
  have high : ∀ (N : ℕ) (t : ℤ) (r : ℕ) (v : ℚ), r < N → |v - r| < 1 / 2 → (((N : ℚ) - 1 / 2 - t ≤ v ∧ v ≤ (N : ℚ) - 1 / 2 - t + t) ↔ (N : ℤ) ≤ r + t) := by
    intro N t r v hrN hv
    have := span_pixel (N - t) N r v hv
    push_cast at this
    constructor
    · rintro ⟨h1, h2⟩
      have := (this.1 ⟨by linarith, by linarith⟩).1
      omega
    · intro ht
      obtain ⟨h1, h2⟩ := this.2 ⟨by omega, by omega⟩
      exact ⟨by linarith, by linarith⟩
  show (∃ sh ∈ g.boundaries.flatMap (drawBoundary g.n cut), _) ↔ _
  have one : ∀ bd : BoundaryKind, (∃ sh ∈ drawBoundary g.n cut bd, sh.area h v) ↔ ∃ ax hi t, bd = .pmlOn ax hi (some t) ∧
      ((ax = cut.rows ∧ if hi then (g.n cut.rows : ℤ) ≤ r + t else (r : ℤ) < t) ∨ (ax = cut.cols ∧ if hi then (g.n cut.cols : ℤ) ≤ c + t else (c : ℤ) < t)) := by
    intro bd
    rcases bd with _ | ax | ⟨ax, hi, _ | t⟩
    · constructor
      · rintro ⟨sh, hs, -⟩
        cases hs
      · rintro ⟨_, _, _, hh, -⟩
        cases hh
    · constructor
      · rintro ⟨sh, hs, hh⟩
        exfalso
        have : ∃ pts, sh = .line pts := by
          unfold drawBoundary at hs
          dsimp only at hs
          split_ifs at hs
          · rcases List.mem_cons.1 hs with rfl | hs
            · exact ⟨_, rfl⟩
            · exact ⟨_, List.mem_singleton.1 hs⟩
          · rcases List.mem_cons.1 hs with rfl | hs
            · exact ⟨_, rfl⟩
            · exact ⟨_, List.mem_singleton.1 hs⟩
          · cases hs
        obtain ⟨pts, rfl⟩ := this
        exact hh
      · rintro ⟨_, _, _, hh, -⟩
        cases hh
    · constructor
      · rintro ⟨sh, hs, -⟩
        cases hs
      · rintro ⟨_, _, _, hh, -⟩
        cases hh
    · have hsimp : (∃ ax' hi' t', BoundaryKind.pmlOn ax hi (some t) = .pmlOn ax' hi' (some t') ∧
          ((ax' = cut.rows ∧ if hi' then (g.n cut.rows : ℤ) ≤ r + t' else (r : ℤ) < t') ∨ (ax' = cut.cols ∧ if hi' then (g.n cut.cols : ℤ) ≤ c + t' else (c : ℤ) < t'))) ↔
          ((ax = cut.rows ∧ if hi then (g.n cut.rows : ℤ) ≤ r + t else (r : ℤ) < t) ∨ (ax = cut.cols ∧ if hi then (g.n cut.cols : ℤ) ≤ c + t else (c : ℤ) < t)) := by
        constructor
        · rintro ⟨ax', hi', t', he, hh⟩
          injection he with e1 e2 e3
          injection e3 with e3
          subst e1 e2 e3
          exact hh
        · intro hh
          exact ⟨ax, hi, t, rfl, hh⟩
      rw [hsimp]
      have f1 := full (g.n cut.rows) r v hr hp.2
      have f2 := full (g.n cut.cols) c h hcc hp.1
      by_cases hax : ax = cut.cols
      · subst hax
        have n1 : ¬ cut.cols = cut.rows := fun e => hne e.symm
        cases hi
        · have e : drawBoundary g.n cut (.pmlOn cut.cols false (some t)) = [.rect (-1 / 2) (-1 / 2) t (g.n cut.rows)] := if_pos ⟨rfl, rfl⟩
          rw [e]
          simp only [List.mem_singleton, exists_eq_left, Shape.area, n1, false_and, false_or, true_and, Bool.false_eq_true, if_false]
          have := low t c h hp.1
          tauto
        · have e : drawBoundary g.n cut (.pmlOn cut.cols true (some t)) = [.rect ((g.n cut.cols : ℚ) - 1 / 2 - t) (-1 / 2) t (g.n cut.rows)] := by
            show (if _ then _ else if _ then _ else if _ then _ else _) = _
            rw [if_neg (by simp), if_neg (by simp), if_pos ⟨rfl, rfl⟩]
          rw [e]
          simp only [List.mem_singleton, exists_eq_left, Shape.area, n1, false_and, false_or, true_and, if_true]
          have := high (g.n cut.cols) t c h hcc hp.1
          tauto
      · by_cases hax' : ax = cut.rows
        · subst hax'
          cases hi
          · have e : drawBoundary g.n cut (.pmlOn cut.rows false (some t)) = [.rect (-1 / 2) (-1 / 2) (g.n cut.cols) t] := by
              show (if _ then _ else if _ then _ else if _ then _ else _) = _
              rw [if_neg (by simp [hax]), if_pos ⟨rfl, rfl⟩]
            rw [e]
            simp only [List.mem_singleton, exists_eq_left, Shape.area, hax, false_and, or_false, true_and, Bool.false_eq_true, if_false]
            have := low t r v hp.2
            tauto
          · have e : drawBoundary g.n cut (.pmlOn cut.rows true (some t)) = [.rect (-1 / 2) ((g.n cut.rows : ℚ) - t - 1 / 2) (g.n cut.cols) t] := by
              show (if _ then _ else if _ then _ else if _ then _ else if _ then _ else _) = _
              rw [if_neg (by simp), if_neg (by simp), if_neg (by simp [hax]), if_pos ⟨rfl, rfl⟩]
            rw [e]
            simp only [List.mem_singleton, exists_eq_left, Shape.area, hax, false_and, or_false, true_and, if_true]
            have := high (g.n cut.rows) t r v hr hp.2
            rw [show (g.n cut.rows : ℚ) - t - 1 / 2 = (g.n cut.rows : ℚ) - 1 / 2 - t by ring]
            tauto
        · have e : drawBoundary g.n cut (.pmlOn ax hi (some t)) = [] := by
            show (if _ then _ else if _ then _ else if _ then _ else if _ then _ else _) = _
            rw [if_neg (by simp [hax]), if_neg (by simp [hax']), if_neg (by simp [hax]), if_neg (by simp [hax'])]
          rw [e]
          simp [hax, hax']
  simp only [List.mem_flatMap]
  constructor
  · rintro ⟨sh, ⟨bd, hbd, hs⟩, hh⟩
    obtain ⟨ax, hi, t, rfl, h2⟩ := (one bd).1 ⟨sh, hs, hh⟩
    exact ⟨ax, hi, t, hbd, h2⟩
  · rintro ⟨ax, hi, t, hbd, h2⟩
    obtain ⟨sh, hs, hh⟩ := (one _).2 ⟨ax, hi, t, rfl, h2⟩
    exact ⟨sh, ⟨_, hbd, hs⟩, hh⟩

/-- points of a segment along one of the two directions -/
lemma onSegment_h (a b v0 h v : ℚ) (hab : a < b) : onSegment (a, v0) (b, v0) h v ↔ v = v0 ∧ a ≤ h ∧ h ≤ b := by
  have hne : b - a ≠ 0 := by linarith
  have hpos : 0 < b - a := by linarith
  constructor
  · rintro ⟨t, h0, h1, e1, e2⟩
    simp only at e1 e2
    refine ⟨by rw [e2]; ring, by rw [e1]; nlinarith, by rw [e1]; nlinarith⟩
  · rintro ⟨rfl, h1, h2⟩
    refine ⟨(h - a) / (b - a), div_nonneg (by linarith) hpos.le, (div_le_one hpos).2 (by linarith), ?_, ?_⟩
    · show h = a + (h - a) / (b - a) * (b - a)
      rw [div_mul_cancel₀ _ hne]; ring
    · show v = v + _ * (v - v)
      ring

lemma onSegment_swap (p q : ℚ × ℚ) (h v : ℚ) : onSegment (p.2, p.1) (q.2, q.1) v h ↔ onSegment p q h v := by
  constructor
  · rintro ⟨t, h0, h1, e1, e2⟩
    exact ⟨t, h0, h1, e2, e1⟩
  · rintro ⟨t, h0, h1, e1, e2⟩
    exact ⟨t, h0, h1, e2, e1⟩

/-- C130, periodic boundaries: lines are drawn along exactly those edges of the picture that are periodic images of each other. -/
theorem C130_periodic (g : DrawnGrid K) (x y z : Option CutArg) (norm : String) (cut : Cut) (hc : OneCut x y z cut) (pic : Picture K) (hpic : visualize g x y z norm = .ok pic)
    (a b : Fin 3) (ha : pic.vlabel = axisLetter a) (hb : pic.hlabel = axisLetter b) (h v : ℚ) :
    (∃ sh ∈ pic.boundaries, sh.drawn h v) ↔
      (.periodicOn a ∈ g.boundaries ∧ (v = -1 / 2 ∨ v = (pic.rows : ℚ) - 1 / 2) ∧ -1 / 2 ≤ h ∧ h ≤ (pic.cols : ℚ) - 1 / 2) ∨
      (.periodicOn b ∈ g.boundaries ∧ (h = -1 / 2 ∨ h = (pic.cols : ℚ) - 1 / 2) ∧ -1 / 2 ≤ v ∧ v ≤ (pic.rows : ℚ) - 1 / 2) := by
  obtain ⟨img, src, det, himg, hsrc, hdet, rfl⟩ := visualize_ok g x y z norm cut hc pic hpic
  obtain rfl := axisLabel_inj _ _ ha
  obtain rfl := axisLabel_inj _ _ hb
  have hne : cut.rows ≠ cut.cols ∧ cut.rows ≠ cut.axis ∧ cut.cols ≠ cut.axis := by
    cases cut
    · exact (by decide : (1 : Fin 3) ≠ 2 ∧ (1 : Fin 3) ≠ 0 ∧ (2 : Fin 3) ≠ 0)
    · exact (by decide : (2 : Fin 3) ≠ 0 ∧ (2 : Fin 3) ≠ 1 ∧ (0 : Fin 3) ≠ 1)
    · exact (by decide : (0 : Fin 3) ≠ 1 ∧ (0 : Fin 3) ≠ 2 ∧ (1 : Fin 3) ≠ 2)
  obtain ⟨hbig, -, -⟩ := cutEnergy_ok _ _ _ _ _ himg
  have br := hbig _ hne.2.1
  have bc := hbig _ hne.2.2
  have qr : (-1 / 2 : ℚ) < (g.n cut.rows : ℚ) - 1 / 2 := by
    have : (1 : ℚ) < (g.n cut.rows : ℚ) := by exact_mod_cast br
    linarith
  have qc : (-1 / 2 : ℚ) < (g.n cut.cols : ℚ) - 1 / 2 := by
    have : (1 : ℚ) < (g.n cut.cols : ℚ) := by exact_mod_cast bc
    linarith
  have lineDrawn : ∀ p q : ℚ × ℚ, (Shape.line [p, q]).drawn h v ↔ onSegment p q h v := by
    intro p q
    simp [Shape.drawn]
  show (∃ sh ∈ g.boundaries.flatMap (drawBoundary g.n cut), _) ↔ (_ ∧ (_ ∨ v = (g.n cut.rows : ℚ) - 1 / 2) ∧ _ ∧ h ≤ (g.n cut.cols : ℚ) - 1 / 2) ∨ (_ ∧ (_ ∨ h = (g.n cut.cols : ℚ) - 1 / 2) ∧ _ ∧ v ≤ (g.n cut.rows : ℚ) - 1 / 2)
  have one : ∀ bd : BoundaryKind, (∃ sh ∈ drawBoundary g.n cut bd, sh.drawn h v) ↔
      (bd = .periodicOn cut.rows ∧ (v = -1 / 2 ∨ v = (g.n cut.rows : ℚ) - 1 / 2) ∧ -1 / 2 ≤ h ∧ h ≤ (g.n cut.cols : ℚ) - 1 / 2) ∨
      (bd = .periodicOn cut.cols ∧ (h = -1 / 2 ∨ h = (g.n cut.cols : ℚ) - 1 / 2) ∧ -1 / 2 ≤ v ∧ v ≤ (g.n cut.rows : ℚ) - 1 / 2) := by
    intro bd
    rcases bd with _ | ax | ⟨ax, hi, _ | t⟩
    · simp [drawBoundary]
    · by_cases h1 : ax = cut.rows
      · subst h1
        have e : drawBoundary g.n cut (.periodicOn cut.rows) =
            [.line [(-1 / 2, -1 / 2), ((g.n cut.cols : ℚ) - 1 / 2, -1 / 2)], .line [(-1 / 2, (g.n cut.rows : ℚ) - 1 / 2), ((g.n cut.cols : ℚ) - 1 / 2, (g.n cut.rows : ℚ) - 1 / 2)]] := if_pos rfl
        have hn : ¬ BoundaryKind.periodicOn cut.rows = .periodicOn cut.cols := fun e => hne.1 (by injection e)
        rw [e]
        simp only [List.mem_cons, List.not_mem_nil, or_false, exists_eq_or_imp, exists_eq_left, lineDrawn, onSegment_h _ _ _ _ _ qc, hn, false_and, true_and]
        tauto
      · by_cases h2 : ax = cut.cols
        · subst h2
          have e : drawBoundary g.n cut (.periodicOn cut.cols) =
              [.line [(-1 / 2, -1 / 2), (-1 / 2, (g.n cut.rows : ℚ) - 1 / 2)], .line [((g.n cut.cols : ℚ) - 1 / 2, -1 / 2), ((g.n cut.cols : ℚ) - 1 / 2, (g.n cut.rows : ℚ) - 1 / 2)]] :=
            (if_neg h1).trans (if_pos rfl)
          have hn : ¬ BoundaryKind.periodicOn cut.cols = .periodicOn cut.rows := fun e => hne.1 (by injection e with e; exact e.symm)
          have sw : ∀ c : ℚ, onSegment (c, -1 / 2) (c, (g.n cut.rows : ℚ) - 1 / 2) h v ↔ h = c ∧ -1 / 2 ≤ v ∧ v ≤ (g.n cut.rows : ℚ) - 1 / 2 := by
            intro c
            rw [← onSegment_swap]
            exact onSegment_h _ _ _ _ _ qr
          rw [e]
          simp only [List.mem_cons, List.not_mem_nil, or_false, exists_eq_or_imp, exists_eq_left, lineDrawn, sw, hn, false_and, true_and, false_or]
          tauto
        · have e : drawBoundary g.n cut (.periodicOn ax) = [] := (if_neg h1).trans (if_neg h2)
          rw [e]
          have hn1 : ¬ BoundaryKind.periodicOn ax = .periodicOn cut.rows := fun e => h1 (by injection e)
          have hn2 : ¬ BoundaryKind.periodicOn ax = .periodicOn cut.cols := fun e => h2 (by injection e)
          simp [hn1, hn2]
    · simp [drawBoundary]
    · constructor
      · rintro ⟨sh, hs, hh⟩
        exfalso
        have : ∃ a b c d, sh = .rect a b c d := by
          unfold drawBoundary at hs
          dsimp only at hs
          split_ifs at hs
          · exact ⟨_, _, _, _, List.mem_singleton.1 hs⟩
          · exact ⟨_, _, _, _, List.mem_singleton.1 hs⟩
          · exact ⟨_, _, _, _, List.mem_singleton.1 hs⟩
          · exact ⟨_, _, _, _, List.mem_singleton.1 hs⟩
          · cases hs
        obtain ⟨_, _, _, _, rfl⟩ := this
        exact hh
      · rintro (⟨hh, -⟩ | ⟨hh, -⟩) <;> cases hh
  simp only [List.mem_flatMap]
  constructor
  · rintro ⟨sh, ⟨bd, hbd, hs⟩, hh⟩
    rcases (one bd).1 ⟨sh, hs, hh⟩ with ⟨rfl, h2⟩ | ⟨rfl, h2⟩
    · exact Or.inl ⟨hbd, h2⟩
    · exact Or.inr ⟨hbd, h2⟩
  · rintro (⟨hbd, h2⟩ | ⟨hbd, h2⟩)
    · obtain ⟨sh, hs, hh⟩ := (one _).2 (Or.inl ⟨rfl, h2⟩)
      exact ⟨sh, ⟨_, hbd, hs⟩, hh⟩
    · obtain ⟨sh, hs, hh⟩ := (one _).2 (Or.inr ⟨rfl, h2⟩)
      exact ⟨sh, ⟨_, hbd, hs⟩, hh⟩

/-! ### Lines, detectors, points, planes -/

/-- the line consists of cells, the first is `p`, the last `q`, and no index was counted from the end of its axis -/
def LineAt (n : Pos) (l : IndexLists) (p q : Pos) : Prop :=
  l.x.length = l.y.length ∧ l.y.length = l.z.length ∧ (∀ c, ∀ i ∈ l.axis c, 0 ≤ i) ∧ ∃ cells, lineCells n l = .ok cells ∧ cells.head? = some p ∧ cells.getLast? = some q

lemma firstLast_eq (l : List ℤ) (u w : ℤ) (h1 : l[0]? = some u) (h2 : l[l.length - 1]? = some w) : firstLast l = .ok (u, w) := by
  rcases l with _ | ⟨a, l⟩
  · cases h1
  · obtain rfl := Option.some.inj h1
    rw [← List.getLast?_eq_getElem?] at h2
    show Except.ok _ = _
    rw [h2]
    rfl

lemma torchIndex_nonneg {N : ℕ} {i : ℤ} {k : ℕ} (h : torchIndex N i = .ok k) (h0 : 0 ≤ i) : i = k := by
  obtain ⟨h1, h2⟩ := torchIndex_ok.1 h
  omega

lemma lineAt_axis (n : Pos) (l : IndexLists) (p q : Pos) (h : LineAt n l p q) (c : Fin 3) : firstLast (l.axis c) = .ok ((p c : ℤ), (q c : ℤ)) := by
  obtain ⟨h1, h2, hn, cells, hcells, hp, hq⟩ := h
  obtain ⟨hlen, hget⟩ := mapM_get _ _ _ hcells
  have htl : l.triples.length = l.x.length := by
    unfold IndexLists.triples
    rw [List.length_zip, List.length_zip]
    omega
  have hx0 : 0 < l.x.length := by
    rw [← htl, ← hlen]
    rcases cells with _ | ⟨a, l⟩
    · cases hp
    · simp
  have key : ∀ i, i < l.x.length → ∀ p : Pos, cells[i]? = some p → ∀ c, (l.axis c)[i]? = some (p c : ℤ) := by
    intro i hi p hp c
    have ex : l.x[i]? = some l.x[i] := List.getElem?_eq_getElem hi
    have ey : l.y[i]? = some (l.y[i]'(by omega)) := List.getElem?_eq_getElem _
    have ez : l.z[i]? = some (l.z[i]'(by omega)) := List.getElem?_eq_getElem _
    have et : l.triples[i]? = some (l.x[i], l.y[i]'(by omega), l.z[i]'(by omega)) := by
      unfold IndexLists.triples
      rw [List.getElem?_zip_eq_some]
      refine ⟨ex, ?_⟩
      rw [List.getElem?_zip_eq_some]
      exact ⟨ey, ez⟩
    obtain ⟨b, hb, hbi⟩ := hget i _ et
    obtain rfl : b = p := Option.some.inj (hbi.symm.trans hp)
    obtain ⟨u, hu, hb⟩ := bind_ok.1 hb
    obtain ⟨v, hv, hb⟩ := bind_ok.1 hb
    obtain ⟨w, hw, hb⟩ := bind_ok.1 hb
    obtain rfl := Except.ok.inj hb
    fin_cases c
    · show l.x[i]? = some (u : ℤ)
      rw [ex]
      exact congrArg some (torchIndex_nonneg hu (hn 0 _ (List.getElem_mem hi)))
    · show l.y[i]? = some (v : ℤ)
      rw [ey]
      exact congrArg some (torchIndex_nonneg hv (hn 1 _ (List.getElem_mem _)))
    · show l.z[i]? = some (w : ℤ)
      rw [ez]
      exact congrArg some (torchIndex_nonneg hw (hn 2 _ (List.getElem_mem _)))
  have hal : (l.axis c).length = l.x.length := by
    fin_cases c
    · rfl
    · exact h1.symm
    · exact (h1.trans h2).symm
  refine firstLast_eq _ _ _ (key 0 hx0 p (by rw [← List.head?_eq_getElem?]; exact hp) c) ?_
  rw [hal]
  refine key _ (by omega) q ?_ c
  rw [← htl, ← hlen, ← List.getLast?_eq_getElem?]
  exact hq

lemma drawSources_shapes (n : Pos) (cut : Cut) (ss : List DrawnSource) (img : ℕ → ℕ → K) (r : (ℕ → ℕ → K) × List Shape) (h : drawSources n cut ss img = .ok r) (sh : Shape) :
    sh ∈ r.2 ↔ ∃ s ∈ ss, ∃ l, drawSource cut s = .ok l ∧ sh ∈ l := by
  induction ss generalizing img r with
  | nil => obtain rfl := Except.ok.inj h; simp
  | cons s ss ih =>
    obtain ⟨l, hl, h⟩ := bind_ok.1 h
    obtain ⟨img', himg, h⟩ := bind_ok.1 h
    obtain ⟨rest, hrest, h⟩ := bind_ok.1 h
    obtain rfl := Except.ok.inj h
    have := ih _ _ hrest
    simp only [List.mem_append, List.mem_cons, exists_eq_or_imp, this]
    constructor
    · rintro (h | h)
      · exact Or.inl ⟨l, hl, h⟩
      · exact Or.inr h
    · rintro (⟨l', h1, h2⟩ | h)
      · obtain rfl := Except.ok.inj (hl.symm.trans h1)
        exact Or.inl h2
      · exact Or.inr h

/-- the centre of the pixel of a cell -/
def centre (a b : Fin 3) (p : Pos) : ℚ × ℚ := ((p b : ℚ), (p a : ℚ))

lemma line_drawn (p q : ℚ × ℚ) (h v : ℚ) : (Shape.line [p, q]).drawn h v ↔ onSegment p q h v := by simp [Shape.drawn]

/-- C130, line sources: the only lines among the sources are those from the centre of the first to the centre of the last cell of each line source. -/
theorem C130_line (g : DrawnGrid K) (x y z : Option CutArg) (norm : String) (cut : Cut) (hc : OneCut x y z cut) (pic : Picture K) (hpic : visualize g x y z norm = .ok pic)
    (a b : Fin 3) (ha : pic.vlabel = axisLetter a) (hb : pic.hlabel = axisLetter b) (hl : ∀ l, .line l ∈ g.sources → ∃ p q, LineAt g.n l p q) (h v : ℚ) :
    (∃ sh ∈ pic.sources, sh.drawn h v) ↔ ∃ l p q, .line l ∈ g.sources ∧ LineAt g.n l p q ∧ onSegment (centre a b p) (centre a b q) h v := by
  obtain ⟨img, src, det, himg, hsrc, hdet, rfl⟩ := visualize_ok g x y z norm cut hc pic hpic
  obtain rfl := axisLabel_inj _ _ ha
  obtain rfl := axisLabel_inj _ _ hb
  have one : ∀ l p q, LineAt g.n l p q → drawSource cut (.line l) = .ok [.line [centre cut.rows cut.cols p, centre cut.rows cut.cols q]] := by
    intro l p q hpq
    unfold drawSource
    dsimp only
    rw [lineAt_axis _ _ _ _ hpq, ok_bind, lineAt_axis _ _ _ _ hpq, ok_bind]
    simp [centre]
  constructor
  · rintro ⟨sh, hs', hd⟩
    obtain ⟨s, hs, sl, hsl, hm⟩ := (drawSources_shapes _ _ _ _ _ hsrc sh).1 hs'
    cases s with
    | line l =>
      obtain ⟨p, q, hpq⟩ := hl l hs
      obtain rfl := Except.ok.inj ((one l p q hpq).symm.trans hsl)
      obtain rfl := List.mem_singleton.1 hm
      exact ⟨l, p, q, hs, hpq, (line_drawn _ _ _ _).1 hd⟩
    | point c =>
      obtain rfl := Except.ok.inj hsl
      obtain rfl := List.mem_singleton.1 hm
      exact hd.elim
    | plane c =>
      obtain rfl := Except.ok.inj hsl
      obtain rfl := List.mem_singleton.1 hm
      exact hd.elim
    | soft =>
      obtain rfl := Except.ok.inj hsl
      cases hm
  · rintro ⟨l, p, q, hs, hpq, hd⟩
    exact ⟨_, (drawSources_shapes _ _ _ _ _ hsrc _).2 ⟨_, hs, _, one l p q hpq, List.mem_singleton_self _⟩, (line_drawn _ _ _ _).2 hd⟩

/-- the first and the last cell of a detector: of its line, or the corners of its block -/
def DrawnDetector.ends (n : Pos) (d : DrawnDetector) (p q : Pos) : Prop :=
  if d.block then (∀ c, p c ≤ q c) ∧ blockSlices n (fun c => p c) (fun c => q c) = .ok d.l else LineAt n d.l p q

/-- the outline of the rectangle between two corners -/
def onFrame (p q : ℚ × ℚ) (h v : ℚ) : Prop :=
  ((v = p.2 ∨ v = q.2) ∧ p.1 ≤ h ∧ h ≤ q.1) ∨ ((h = p.1 ∨ h = q.1) ∧ p.2 ≤ v ∧ v ≤ q.2)

lemma onSegment_le (a b v0 h v : ℚ) (hab : a ≤ b) : onSegment (a, v0) (b, v0) h v ↔ v = v0 ∧ a ≤ h ∧ h ≤ b := by
  rcases hab.lt_or_eq with hlt | rfl
  · exact onSegment_h a b v0 h v hlt
  · constructor
    · rintro ⟨t, h0, h1, e1, e2⟩
      simp only at e1 e2
      have e1' : h = a := by rw [e1]; ring
      exact ⟨by rw [e2]; ring, by rw [e1'], by rw [e1']⟩
    · rintro ⟨rfl, h1, h2⟩
      exact ⟨0, le_refl _, zero_le_one, by simp; linarith, by simp⟩

lemma onSegment_rev (p q : ℚ × ℚ) (h v : ℚ) : onSegment p q h v ↔ onSegment q p h v := by
  have : ∀ p q : ℚ × ℚ, onSegment p q h v → onSegment q p h v := by
    rintro p q ⟨t, h0, h1, e1, e2⟩
    exact ⟨1 - t, by linarith, by linarith, by rw [e1]; ring, by rw [e2]; ring⟩
  exact ⟨this p q, this q p⟩

lemma frame_drawn (a b c d h v : ℚ) (h1 : a ≤ c) (h2 : b ≤ d) :
    (Shape.line [(a, b), (c, b), (c, d), (a, d), (a, b)]).drawn h v ↔ onFrame (a, b) (c, d) h v := by
  have e1 := onSegment_le a c b h v h1
  have e2 : onSegment (c, b) (c, d) h v ↔ h = c ∧ b ≤ v ∧ v ≤ d := by rw [← onSegment_swap]; exact onSegment_le _ _ _ _ _ h2
  have e3 : onSegment (c, d) (a, d) h v ↔ v = d ∧ a ≤ h ∧ h ≤ c := by rw [onSegment_rev]; exact onSegment_le _ _ _ _ _ h1
  have e4 : onSegment (a, d) (a, b) h v ↔ h = a ∧ b ≤ v ∧ v ≤ d := by rw [onSegment_rev, ← onSegment_swap]; exact onSegment_le _ _ _ _ _ h2
  simp only [Shape.drawn, List.tail_cons, List.zip_cons_cons, List.zip_nil_right, List.mem_cons, List.not_mem_nil, or_false, exists_eq_or_imp, exists_eq_left, e1, e2, e3, e4, onFrame]
  generalize (a ≤ h ∧ h ≤ c) = H
  generalize (b ≤ v ∧ v ≤ d) = V
  clear e1 e2 e3 e4
  generalize (v = b) = P
  generalize (v = d) = Q
  generalize (h = a) = R
  generalize (h = c) = S
  tauto

lemma blockSlices_axis (n : Pos) (p q : Pos) (l : IndexLists) (hpq : ∀ c, p c ≤ q c) (h : blockSlices n (fun c => p c) (fun c => q c) = .ok l) (c : Fin 3) :
    firstLast (l.axis c) = .ok ((p c : ℤ), (q c : ℤ)) := by
  have hr : ∀ u v : ℕ, u ≤ v → blockRange (u : ℤ) (v : ℤ) = .ok ((List.range (v + 1 - u)).map fun i : ℕ => (u : ℤ) + i) := by
    intro u v huv
    unfold blockRange
    rw [if_neg (by omega)]
    congr 2
    have : ((v : ℤ) + 1 - u).toNat = v + 1 - u := by omega
    rw [this]
  have e : blockSlices n (fun c => p c) (fun c => q c) = (blockRange (p 0) (q 0) >>= fun xs => blockRange (p 1) (q 1) >>= fun ys => blockRange (p 2) (q 2) >>= fun zs => .ok ⟨xs, ys, zs⟩) := rfl
  rw [e, hr _ _ (hpq 0), ok_bind, hr _ _ (hpq 1), ok_bind, hr _ _ (hpq 2), ok_bind] at h
  obtain rfl := Except.ok.inj h
  have hl : ∀ c : Fin 3, (IndexLists.axis ⟨(List.range (q 0 + 1 - p 0)).map fun i : ℕ => (p 0 : ℤ) + i, (List.range (q 1 + 1 - p 1)).map fun i : ℕ => (p 1 : ℤ) + i, (List.range (q 2 + 1 - p 2)).map fun i : ℕ => (p 2 : ℤ) + i⟩ c) =
      (List.range (q c + 1 - p c)).map fun i : ℕ => (p c : ℤ) + i := by
    intro c
    fin_cases c <;> rfl
  rw [hl]
  have := hpq c
  apply firstLast_eq
  · rw [List.getElem?_map, List.getElem?_range (by omega)]
    simp
  · rw [List.length_map, List.length_range, List.getElem?_map, List.getElem?_range (by omega)]
    simp only [Option.map_some, Option.some.injEq]
    omega

/-- C130, detectors: a line detector is drawn from the centre of its first to the centre of its last cell, a block detector as the frame through the centres of its corner cells. -/
theorem C130_detector (g : DrawnGrid K) (x y z : Option CutArg) (norm : String) (cut : Cut) (hc : OneCut x y z cut) (pic : Picture K) (hpic : visualize g x y z norm = .ok pic)
    (a b : Fin 3) (ha : pic.vlabel = axisLetter a) (hb : pic.hlabel = axisLetter b) (hd : ∀ d ∈ g.detectors, ∃ p q, d.ends g.n p q) (h v : ℚ) :
    (∃ sh ∈ pic.detectors, sh.drawn h v) ↔
      ∃ d ∈ g.detectors, ∃ p q, d.ends g.n p q ∧ if d.block then onFrame (centre a b p) (centre a b q) h v else onSegment (centre a b p) (centre a b q) h v := by
  obtain ⟨img, src, det, himg, hsrc, hdet, rfl⟩ := visualize_ok g x y z norm cut hc pic hpic
  obtain rfl := axisLabel_inj _ _ ha
  obtain rfl := axisLabel_inj _ _ hb
  have one : ∀ (d : DrawnDetector) p q, d.ends g.n p q → ∃ sh, drawDetector cut d = .ok [sh] ∧
      (sh.drawn h v ↔ if d.block then onFrame (centre cut.rows cut.cols p) (centre cut.rows cut.cols q) h v else onSegment (centre cut.rows cut.cols p) (centre cut.rows cut.cols q) h v) := by
    rintro ⟨blk, l⟩ p q hpq
    cases blk with
    | false =>
      have hpq' : LineAt g.n l p q := hpq
      refine ⟨.line [centre cut.rows cut.cols p, centre cut.rows cut.cols q], ?_, line_drawn _ _ _ _⟩
      unfold drawDetector
      rw [lineAt_axis _ _ _ _ hpq', ok_bind, lineAt_axis _ _ _ _ hpq', ok_bind]
      simp [centre]
    | true =>
      obtain ⟨hle, hpq'⟩ : (∀ c, p c ≤ q c) ∧ blockSlices g.n (fun c => p c) (fun c => q c) = .ok l := hpq
      refine ⟨.line [((p cut.cols : ℚ), (p cut.rows : ℚ)), ((q cut.cols : ℚ), (p cut.rows : ℚ)), ((q cut.cols : ℚ), (q cut.rows : ℚ)), ((p cut.cols : ℚ), (q cut.rows : ℚ)), ((p cut.cols : ℚ), (p cut.rows : ℚ))], ?_,
        frame_drawn _ _ _ _ _ _ (by exact_mod_cast hle _) (by exact_mod_cast hle _)⟩
      unfold drawDetector
      rw [blockSlices_axis _ _ _ _ hle hpq', ok_bind, blockSlices_axis _ _ _ _ hle hpq', ok_bind]
      simp
  obtain ⟨hlen, hget⟩ := mapM_get _ _ _ hdet
  show (∃ sh ∈ det.flatten, _) ↔ _
  constructor
  · rintro ⟨sh, hs, hdr⟩
    obtain ⟨dl, hdl, hs⟩ := List.mem_flatten.1 hs
    obtain ⟨i, hi, rfl⟩ := List.getElem_of_mem hdl
    obtain ⟨sl, h1, h2⟩ := hget i _ (List.getElem?_eq_getElem (by omega))
    rw [List.getElem?_eq_getElem hi] at h2
    obtain rfl := Option.some.inj h2
    have hmem : g.detectors[i]'(by omega) ∈ g.detectors := List.getElem_mem _
    obtain ⟨p, q, hpq⟩ := hd _ hmem
    obtain ⟨sh', e1, e2⟩ := one _ p q hpq
    rw [h1] at e1
    rw [Except.ok.inj e1] at hs
    obtain rfl := List.mem_singleton.1 hs
    exact ⟨_, hmem, p, q, hpq, e2.1 hdr⟩
  · rintro ⟨d, hdm, p, q, hpq, hdr⟩
    obtain ⟨i, hi, rfl⟩ := List.getElem_of_mem hdm
    obtain ⟨sl, h1, h2⟩ := hget i _ (List.getElem?_eq_getElem hi)
    obtain ⟨sh', e1, e2⟩ := one _ p q hpq
    rw [h1] at e1
    obtain rfl := Except.ok.inj e1
    exact ⟨sh', List.mem_flatten.2 ⟨_, List.mem_of_getElem? h2, List.mem_singleton_self _⟩, e2.2 hdr⟩

/-- C130, point sources: in cuts across x and z every point source has a marker, at the corner of the pixel of its cell (rows and columns counted down and to the right); there are no other markers. Missing: the marker is not
inside the pixel, and in cuts across y it is elsewhere (`C130_point_false`). -/
theorem C130_point_partial (g : DrawnGrid K) (x y z : Option CutArg) (norm : String) (cut : Cut) (hc : OneCut x y z cut) (pic : Picture K) (hpic : visualize g x y z norm = .ok pic)
    (a b : Fin 3) (ha : pic.vlabel = axisLetter a) (hb : pic.hlabel = axisLetter b) (hy : cut.axis ≠ 1) (h v : ℚ) :
    .dot h v ∈ pic.sources ↔ ∃ c, .point c ∈ g.sources ∧ h = c b - 1 / 2 ∧ v = c a - 1 / 2 := by
  obtain ⟨img, src, det, himg, hsrc, hdet, rfl⟩ := visualize_ok g x y z norm cut hc pic hpic
  obtain rfl := axisLabel_inj _ _ ha
  obtain rfl := axisLabel_inj _ _ hb
  have hrc : ∀ c, pointRowCol cut c = (c cut.rows, c cut.cols) := by
    intro c
    cases cut with
    | y i => exact absurd rfl hy
    | x i => rfl
    | z i => rfl
  show _ ∈ src.2 ↔ _
  rw [drawSources_shapes _ _ _ _ _ hsrc]
  constructor
  · rintro ⟨s, hs, l, hl, hm⟩
    cases s with
    | point c =>
      obtain rfl := Except.ok.inj hl
      rw [hrc, List.mem_singleton] at hm
      injection hm with e1 e2
      exact ⟨c, hs, e1, e2⟩
    | line l =>
      obtain ⟨r, -, hl⟩ := bind_ok.1 hl
      obtain ⟨c, -, hl⟩ := bind_ok.1 hl
      obtain rfl := Except.ok.inj hl
      cases List.mem_singleton.1 hm
    | plane c =>
      obtain rfl := Except.ok.inj hl
      cases List.mem_singleton.1 hm
    | soft =>
      obtain rfl := Except.ok.inj hl
      cases hm
  · rintro ⟨c, hs, rfl, rfl⟩
    refine ⟨_, hs, _, rfl, ?_⟩
    rw [hrc]
    exact List.mem_singleton_self _

/-- the keys a plane source was placed with, single indices not negative -/
def PlaneOf (n : Pos) (bd : Fin 3 → ℤ × ℤ) (k : Fin 3 → AxisKey) : Prop := ∀ c, planeBounds (n c) (k c) = .ok (bd c) ∧ PlaneKey (n c) (k c) ∧ ∀ v, k c = .list [v] → 0 ≤ v

lemma planeOf_axis (n : Pos) (bd : Fin 3 → ℤ × ℤ) (k : Fin 3 → AxisKey) (h : PlaneOf n bd k) (c : Fin 3) :
    (∀ i : ℕ, keySelects (n c) (k c) i ↔ (bd c).1 ≤ i ∧ (i : ℤ) < (bd c).2) ∧ (thin (n c) (k c) ↔ (bd c).2 = (bd c).1 + 1) := by
  obtain ⟨h1, h2, h3⟩ := h c
  have key : 0 ≤ (bd c).1 ∧ (bd c).1 < (bd c).2 ∧ ∀ i : ℕ, keySelects (n c) (k c) i ↔ (bd c).1 ≤ i ∧ (i : ℤ) < (bd c).2 := by
    generalize k c = kc at h1 h2 h3 ⊢
    generalize bd c = b at h1 h3 ⊢
    generalize n c = N at h1 h2 h3 ⊢
    cases kc with
    | list l =>
      obtain ⟨v, rfl, g1, g2, g3⟩ := h2
      obtain rfl := Except.ok.inj h1
      have := h3 v rfl
      refine ⟨this, by simp, fun i => ?_⟩
      show (∃ u ∈ [v], indexSelects N u i) ↔ v ≤ i ∧ (i : ℤ) < v + 1
      simp only [List.mem_singleton, exists_eq_left]
      unfold indexSelects
      omega
    | slice s =>
      obtain ⟨start, stop, step⟩ := s
      obtain ⟨-, g1, g2, g3⟩ := h2
      simp only at g1 g2 g3
      have e : planeBounds N (.slice ⟨start, stop, step⟩) = .ok (start.getD 0, stop.getD N) := by
        show Except.ok (if start.getD 0 < stop.getD N then _ else _) = _
        rw [if_pos g2]
      obtain rfl := Except.ok.inj (e.symm.trans h1)
      refine ⟨g1, g2, fun i => ?_⟩
      show sliceBound N 0 start ≤ i ∧ (i : ℤ) < sliceBound N N stop ↔ _
      have e1 : sliceBound N 0 start = start.getD 0 := by
        cases start with
        | none => rfl
        | some v =>
          simp only [Option.getD_some] at g1 g2 ⊢
          simp only [sliceBound]
          split_ifs <;> omega
      have e2 : sliceBound N N stop = stop.getD N := by
        cases stop with
        | none => rfl
        | some v =>
          simp only [Option.getD_some] at g2 g3 ⊢
          simp only [sliceBound]
          split_ifs <;> omega
      rw [e1, e2]
  obtain ⟨k0, k1, k2⟩ := key
  refine ⟨k2, ?_⟩
  have := thin_of_range (N := n c) (lo := (bd c).1.toNat) (hi := (bd c).2.toNat) (k := k c) (fun i => by rw [k2]; omega) (by omega)
  rw [this]
  omega

/-- C130, plane sources: filled are exactly the pixels of the cells of those plane sources that extend over several cells in both directions of the picture. Missing: planes seen from the side, see `C130_plane_false`. -/
theorem C130_plane_partial (g : DrawnGrid K) (x y z : Option CutArg) (norm : String) (cut : Cut) (hc : OneCut x y z cut) (pic : Picture K) (hpic : visualize g x y z norm = .ok pic)
    (a b : Fin 3) (ha : pic.vlabel = axisLetter a) (hb : pic.hlabel = axisLetter b) (hk : ∀ bd, .plane bd ∈ g.sources → ∃ k, PlaneOf g.n bd k)
    (r c : ℕ) (h v : ℚ) (hp : inPixel r c h v) :
    (∃ sh ∈ pic.sources, sh.area h v) ↔
      ∃ bd k, .plane bd ∈ g.sources ∧ PlaneOf g.n bd k ∧ keySelects (g.n a) (k a) r ∧ keySelects (g.n b) (k b) c ∧ ¬ thin (g.n a) (k a) ∧ ¬ thin (g.n b) (k b) := by
  obtain ⟨img, src, det, himg, hsrc, hdet, rfl⟩ := visualize_ok g x y z norm cut hc pic hpic
  obtain rfl := axisLabel_inj _ _ ha
  obtain rfl := axisLabel_inj _ _ hb
  have ax : ∀ (bd : Fin 3 → ℤ × ℤ) (k : Fin 3 → AxisKey), PlaneOf g.n bd k → ∀ (d : Fin 3) (i : ℕ) (w : ℚ), |w - i| < 1 / 2 →
      ((((planeDrawn (bd d)).1 : ℚ) - 1 / 2 ≤ w ∧ w ≤ ((planeDrawn (bd d)).1 : ℚ) - 1 / 2 + (((planeDrawn (bd d)).2 : ℚ) - ((planeDrawn (bd d)).1 : ℚ))) ↔
        keySelects (g.n d) (k d) i ∧ ¬ thin (g.n d) (k d)) := by
    intro bd k hbk d i w hw
    obtain ⟨e1, e2⟩ := planeOf_axis _ _ _ hbk d
    rw [span_pixel _ _ i w hw, e1, e2]
    unfold planeDrawn
    split_ifs <;> (try dsimp only) <;> omega
  have one : ∀ bd k, PlaneOf g.n bd k → ∃ sh, drawSource cut (.plane bd) = .ok [sh] ∧
      (sh.area h v ↔ keySelects (g.n cut.rows) (k cut.rows) r ∧ keySelects (g.n cut.cols) (k cut.cols) c ∧ ¬ thin (g.n cut.rows) (k cut.rows) ∧ ¬ thin (g.n cut.cols) (k cut.cols)) := by
    intro bd k hbk
    refine ⟨_, rfl, ?_⟩
    have e1 := ax bd k hbk cut.rows r v hp.2
    have e2 := ax bd k hbk cut.cols c h hp.1
    show (_ ∧ _ ∧ _ ∧ _) ↔ _
    tauto
  show (∃ sh ∈ src.2, _) ↔ _
  constructor
  · rintro ⟨sh, hs', hd⟩
    obtain ⟨s, hs, sl, hsl, hm⟩ := (drawSources_shapes _ _ _ _ _ hsrc sh).1 hs'
    cases s with
    | plane bd =>
      obtain ⟨k, hbk⟩ := hk bd hs
      obtain ⟨sh', e1, e2⟩ := one bd k hbk
      obtain rfl := Except.ok.inj (e1.symm.trans hsl)
      obtain rfl := List.mem_singleton.1 hm
      exact ⟨bd, k, hs, hbk, e2.1 hd⟩
    | point c =>
      obtain rfl := Except.ok.inj hsl
      obtain rfl := List.mem_singleton.1 hm
      exact hd.elim
    | line l =>
      obtain ⟨r, -, hsl⟩ := bind_ok.1 hsl
      obtain ⟨c, -, hsl⟩ := bind_ok.1 hsl
      obtain rfl := Except.ok.inj hsl
      obtain rfl := List.mem_singleton.1 hm
      exact hd.elim
    | soft =>
      obtain rfl := Except.ok.inj hsl
      cases hm
  · rintro ⟨bd, k, hs, hbk, hh⟩
    obtain ⟨sh', e1, e2⟩ := one bd k hbk
    exact ⟨sh', (drawSources_shapes _ _ _ _ _ hsrc _).2 ⟨_, hs, _, e1, List.mem_singleton_self _⟩, e2.2 hh⟩

end

/-! ### What the pictures get wrong -/

/-- a grid of 6 × 4 × 5 cells without fields -/
def plainGrid (s : List DrawnSource) (o : List (Fin 3 → AxisRange)) : DrawnGrid ℚ := ⟨![6, 4, 5], fun _ _ => 1, fun _ _ => 0, s, [], [], o⟩

/-- C130 is false of point sources. A marker is never inside the pixel of its source, in any cut. In cuts across y the marker is placed, and a pixel blanked, by the source's y coordinate instead of x: the pixel of the source keeps
its energy, and another cell's is blanked; if the grid is longer in y than in x the picture may fail altogether. -/
theorem C130_point_false :
    (∀ (K : Type) [Field K] (g : DrawnGrid K) (x y z : Option CutArg) (norm : String) (cut : Cut) (pic : Picture K) (p : Pos), OneCut x y z cut → visualize g x y z norm = .ok pic →
      g.sources = [.point fun c => p c] → ∀ a b, pic.vlabel = axisLetter a → pic.hlabel = axisLetter b → ∃ h v, .dot h v ∈ pic.sources ∧ ¬ inPixel (p a) (p b) h v) ∧
    (∃ pic, visualize (plainGrid [.point ![4, 1, 2]] []) none (some (.int 1)) none "linear" = .ok pic ∧ pic.vlabel = "z" ∧ pic.hlabel = "x" ∧
      pic.image 2 4 = 3 ∧ pic.image 2 1 = 0 ∧ pic.sources = [.dot (1 / 2) (3 / 2)]) ∧
    visualize { plainGrid [.point ![0, 3, 2]] [] with n := ![3, 4, 5] } none (some (.int 1)) none "linear" = .error .indexError := by
  refine ⟨?_, ?_, ?_⟩
  · intro K _ g x y z norm cut pic p hc hpic hg a b ha hb
    obtain ⟨img, src, det, himg, hsrc, hdet, rfl⟩ := visualize_ok g x y z norm cut hc pic hpic
    obtain rfl := axisLabel_inj _ _ ha
    obtain rfl := axisLabel_inj _ _ hb
    refine ⟨_, _, (drawSources_shapes _ _ _ _ _ hsrc _).2 ⟨_, by rw [hg]; exact List.mem_singleton_self _, _, rfl, List.mem_singleton_self _⟩, ?_⟩
    rintro ⟨-, h2⟩
    have e : (pointRowCol cut fun c => (p c : ℤ)).1 = (p cut.rows : ℤ) := by cases cut <;> rfl
    rw [e] at h2
    have := (abs_lt.1 h2).1
    push_cast at this
    linarith
  · refine ⟨_, rfl, rfl, rfl, ?_, ?_, ?_⟩
    · decide +kernel
    · decide +kernel
    · decide +kernel
  · rfl

/-- C130 is false of plane sources seen from the side: the plane x = 2 has cells in the cut z = 1, and no point of any pixel is filled. -/
theorem C130_plane_false :
    ∃ (k : Fin 3 → AxisKey) (bd : Fin 3 → ℤ × ℤ) (pic : Picture ℚ), PlaneOf ![6, 4, 5] bd k ∧ keySelects 6 (k 0) 2 ∧ keySelects 4 (k 1) 3 ∧ keySelects 5 (k 2) 1 ∧
      visualize (plainGrid [.plane bd] []) none none (some (.int 1)) "linear" = .ok pic ∧ pic.vlabel = "x" ∧ pic.hlabel = "y" ∧
      ∀ r c h v, inPixel r c h v → ¬ ∃ sh ∈ pic.sources, sh.area h v := by
  have hP : PlaneOf ![6, 4, 5] ![(2, 3), (0, 4), (0, 5)] ![.list [2], .slice fullSlice, .slice fullSlice] := by
    intro c
    fin_cases c
    · refine ⟨rfl, ⟨2, rfl, by decide, by decide, by decide⟩, fun v hv => ?_⟩
      have : v = 2 := by
        have hv' : AxisKey.list [2] = .list [v] := hv
        injection hv' with hv'
        injection hv' with hv' _
        exact hv'.symm
      omega
    · exact ⟨rfl, ⟨Or.inl rfl, by decide, by decide, by decide⟩, fun v hv => by cases hv⟩
    · exact ⟨rfl, ⟨Or.inl rfl, by decide, by decide, by decide⟩, fun v hv => by cases hv⟩
  refine ⟨![.list [2], .slice fullSlice, .slice fullSlice], ![(2, 3), (0, 4), (0, 5)], _, hP, ⟨2, by simp, by decide, by decide⟩, ⟨by decide, by decide⟩, ⟨by decide, by decide⟩, rfl, rfl, rfl, ?_⟩
  rintro r c h v ⟨-, h2⟩ ⟨sh, hs, hd⟩
  obtain rfl := List.mem_singleton.1 hs
  obtain ⟨-, -, h3, h4⟩ : _ ∧ _ ∧ ((2 : ℤ) : ℚ) - 1 / 2 ≤ v ∧ v ≤ ((2 : ℤ) : ℚ) - 1 / 2 + (((2 : ℤ) : ℚ) - ((2 : ℤ) : ℚ)) := hd
  have := (span_pixel 2 2 r v h2).1 ⟨h3, h4⟩
  omega

/-- C130 is false of objects placed with a negative index: the object in the last plane but one of x covers no pixel of the cut z = 1, although its cells are there. -/
theorem C130_object_false :
    ∃ (k : Fin 3 → AxisKey) (rg : Fin 3 → AxisRange) (pic : Picture ℚ), (∀ c, ObjectKey ((![6, 4, 5] : Pos) c) (k c) ∧ objectSlice ((![6, 4, 5] : Pos) c) (k c) = .ok (rg c)) ∧
      keySelects 6 (k 0) 4 ∧ keySelects 4 (k 1) 3 ∧ keySelects 5 (k 2) 1 ∧ visualize (plainGrid [] [rg]) none none (some (.int 1)) "linear" = .ok pic ∧ pic.vlabel = "x" ∧ pic.hlabel = "y" ∧
      ∀ r c h v, inPixel r c h v → ¬ ∃ sh ∈ pic.objects, sh.area h v := by
  refine ⟨![.list [-2], .slice fullSlice, .slice fullSlice], ![⟨-2, -1⟩, ⟨0, 4⟩, ⟨0, 5⟩], _, ?_, ⟨-2, by simp, by decide, by decide⟩, ⟨by decide, by decide⟩, ⟨by decide, by decide⟩, rfl, rfl, rfl, ?_⟩
  · intro c
    fin_cases c
    · exact ⟨⟨-2, rfl, by decide, by decide, by decide⟩, rfl⟩
    · exact ⟨⟨Or.inl rfl, (fun a ha => by cases ha), (fun a ha => by cases ha), by decide⟩, rfl⟩
    · exact ⟨⟨Or.inl rfl, (fun a ha => by cases ha), (fun a ha => by cases ha), by decide⟩, rfl⟩
  · rintro r c h v ⟨-, h2⟩ ⟨sh, hs, hd⟩
    obtain rfl := List.mem_singleton.1 hs
    obtain ⟨-, -, h3, h4⟩ : _ ∧ _ ∧ (min ((-2 : ℤ) : ℚ) ((-1 : ℤ) : ℚ)) - 1 / 2 ≤ v ∧
      v ≤ (min ((-2 : ℤ) : ℚ) ((-1 : ℤ) : ℚ)) - 1 / 2 + (max ((-2 : ℤ) : ℚ) ((-1 : ℤ) : ℚ) - min ((-2 : ℤ) : ℚ) ((-1 : ℤ) : ℚ)) := hd
    rw [min_eq_left (by norm_num), max_eq_right (by norm_num)] at h4
    have := (abs_lt.1 h2).1
    have h0 : (0 : ℚ) ≤ (r : ℚ) := by positivity
    norm_num at h4
    linarith

/-! ### Examples -/

/-- The hypotheses hold of a grid with every kind of component: the picture of the cut z = 1. -/
def fullGrid : DrawnGrid ℚ :=
  { plainGrid [.line ⟨[1, 1, 1, 1], [0, 1, 2, 3], [0, 0, 0, 0]⟩, .point ![4, 1, 2]] [![⟨2, 4⟩, ⟨0, 4⟩, ⟨0, 5⟩]] with
    detectors := [⟨false, ⟨[3, 3, 3, 3], [0, 1, 2, 3], [0, 0, 0, 0]⟩⟩, ⟨true, ⟨[2, 3], [1, 2], [0, 1]⟩⟩]
    boundaries := [.periodicOn 1, .pmlOn 0 false (some 2), .pmlOn 0 true (some 1)] }

example : (∃ p q, LineAt fullGrid.n ⟨[1, 1, 1, 1], [0, 1, 2, 3], [0, 0, 0, 0]⟩ p q) ∧ (∃ p q, (⟨true, ⟨[2, 3], [1, 2], [0, 1]⟩⟩ : DrawnDetector).ends fullGrid.n p q) :=
  ⟨⟨![1, 0, 0], ![1, 3, 0], rfl, rfl, by decide, [![1, 0, 0], ![1, 1, 0], ![1, 2, 0], ![1, 3, 0]], by decide +kernel, rfl, rfl⟩,
    ⟨![2, 1, 0], ![3, 2, 1], by decide, by decide +kernel⟩⟩

example : ∃ pic, visualize fullGrid none none (some (.int 1)) "log" = .ok pic ∧ pic.rows = 6 ∧ pic.cols = 4 ∧ pic.image 4 1 = 0 ∧ pic.image 4 2 = 3 ∧
    pic.sources = [.line [(0, 1), (3, 1)], .dot (1 / 2) (7 / 2)] ∧ pic.objects = [.rect (-1 / 2) (3 / 2) 4 2] ∧
    pic.boundaries = [.line [(-1 / 2, -1 / 2), (-1 / 2, 11 / 2)], .line [(7 / 2, -1 / 2), (7 / 2, 11 / 2)], .rect (-1 / 2) (-1 / 2) 4 2, .rect (-1 / 2) (9 / 2) 4 1] := by
  refine ⟨_, rfl, rfl, rfl, ?_, ?_, ?_, ?_, ?_⟩
  · decide +kernel
  · decide +kernel
  · decide +kernel
  · decide +kernel
  · decide +kernel

example : OneCut none none (some (.int 1)) (.z 1) ∧ NormOk "log" ∧ DrawnKey 6 (.slice ⟨some 2, some (-2), none⟩) ∧ ¬ NormOk "logarithmic" :=
  ⟨⟨rfl, rfl, rfl⟩, by simp [NormOk], ⟨⟨Or.inl rfl, (fun a ha => by cases ha; decide), (fun a ha => by cases ha; decide), by decide⟩, fun v hv => by cases hv⟩, by simp [NormOk]⟩

end Nidn
