/-
C133, continued: the entries of a printed grid name the class and the name of each component, and the place that was asked for.
-/
import Verif.Props.FdtdPrint
import Verif.Props.FdtdObjects

namespace Nidn

/-! ### Class and name -/

/-- specification: the name of the Python class -/
def className : PrintClass → String
  | .pointSource => "PointSource"
  | .lineSource => "LineSource"
  | .planeSource => "PlaneSource"
  | .lineDetector => "LineDetector"
  | .blockDetector => "BlockDetector"
  | .currentDetector => "CurrentDetector"
  | .periodic => "PeriodicBoundary"
  | .pml => "PML"
  | .object => "Object"
  | .absorbing => "AbsorbingObject"
  | .anisotropic => "AnisotropicObject"

/-- specification: a name as Python shows it -/
def shownName : Option Str → Str
  | none => "None".toList
  | some n => "'".toList ++ n ++ "'".toList

/-- specification: the arguments of a component are texts of one line -/
structure OneLine (i : PrintInfo) : Prop where
  args : '\n' ∉ i.args
  pol : '\n' ∉ i.pol.toList
  name : ∀ n, i.name = some n → '\n' ∉ n

lemma entry_starts (i : PrintInfo) (s : StoredPos) (t : Str) (h : compText i s = .ok t) : ∃ rest, t = "    ".toList ++ (i.repr ++ '\n' :: rest) := by
  have hs : ∀ x y z, ∃ rest, slicedEntry i.repr x y z = "    ".toList ++ (i.repr ++ '\n' :: rest) := by
    intro x y z
    unfold slicedEntry reprLine
    simp only
    generalize pyReplace [':', ','] [','] (locationLine x y z) = u
    split_ifs with hl
    · by_cases hu : u = []
      · subst hu
        rw [List.append_nil, ← List.append_assoc, List.getLast?_concat] at hl
        exact absurd hl (by decide)
      · refine ⟨u.dropLast ++ ['\n'], ?_⟩
        rw [List.dropLast_append_of_ne_nil hu]
        simp
    · exact ⟨u ++ ['\n'], by simp⟩
  have hp : ∀ x y z, ∃ rest, plainEntry i.repr x y z = "    ".toList ++ (i.repr ++ '\n' :: rest) := by
    intro x y z
    unfold plainEntry reprLine
    exact ⟨locationLine x y z ++ ['\n'], by simp⟩
  unfold compText at h
  obtain ⟨x, -, h⟩ := bind_ok.1 h
  obtain ⟨y, -, h⟩ := bind_ok.1 h
  obtain ⟨z, -, h⟩ := bind_ok.1 h
  split at h <;> cases h
  · exact hs x y z
  · exact hs x y z
  · exact hs x y z
  · exact hs x y z
  · exact hs x y z
  · exact hp x y z

lemma label_word (c : PrintClass) (hp : c ≠ .periodic) : c.label = (className c).toList := by
  cases c <;> first | rfl | exact absurd rfl hp

lemma nameRepr_shown (n : Option Str) : nameRepr n = shownName n := by cases n <;> rfl

/-- C133, first line: the first line of an entry is the class, and in brackets the arguments, among them the name; only periodic boundaries are called otherwise. -/
theorem C133_first_line (i : PrintInfo) (s : StoredPos) (t : Str) (h : compText i s = .ok t) (hp : i.cls ≠ .periodic) :
    ∃ before after rest, t = "    ".toList ++ (className i.cls).toList ++ "(".toList ++ before ++ "name=".toList ++ shownName i.name ++ after ++ ")\n".toList ++ rest := by
  obtain ⟨rest, rfl⟩ := entry_starts i s t h
  have e : ∃ before after, i.repr = i.cls.label ++ (['('] ++ before ++ "name=".toList ++ nameRepr i.name ++ after ++ [')']) := by
    unfold PrintInfo.repr
    split
    · exact ⟨i.args, [], by simp⟩
    · exact ⟨i.args, [], by simp⟩
    · exact ⟨i.args, ", polarization=".toList ++ nameRepr (some i.pol.toList), by simp⟩
    · exact ⟨[], [], by simp⟩
  obtain ⟨b, a, e⟩ := e
  refine ⟨b, a, rest, ?_⟩
  rw [e, label_word _ hp, nameRepr_shown]
  simp

lemma label_no_open (c : PrintClass) : '(' ∉ c.label ∧ '\n' ∉ c.label := by cases c <;> decide +kernel

lemma label_inj (c d : PrintClass) (h : c.label = d.label) : c = d ∨ (c = .periodic ∧ d = .pml) ∨ (c = .pml ∧ d = .periodic) := by
  cases c <;> cases d <;> first | exact .inl rfl | exact .inr (.inl ⟨rfl, rfl⟩) | exact .inr (.inr ⟨rfl, rfl⟩) | exact absurd h (by decide +kernel)

lemma nameRepr_inj {a b : Option Str} (h : nameRepr a = nameRepr b) : a = b := by
  have hq : ∀ n : Str, nameRepr (some n) ≠ nameRepr none := fun n hh => by
    have := congrArg List.head? hh
    exact absurd this (by show some '\'' ≠ some 'N'; decide)
  cases a with
  | none =>
    cases b with
    | none => rfl
    | some n => exact absurd h.symm (hq n)
  | some m =>
    cases b with
    | none => exact absurd h (hq m)
    | some n =>
      have h1 : ['\''] ++ m ++ ['\''] = ['\''] ++ n ++ ['\''] := h
      simpa using h1

lemma repr_oneLine (i : PrintInfo) (h : OneLine i) : '\n' ∉ i.repr := by
  have hn : '\n' ∉ nameRepr i.name := by
    cases hh : i.name with
    | none => decide
    | some n =>
      show '\n' ∉ ['\''] ++ n ++ ['\'']
      have := h.name n hh
      simp [this]
  have hp : '\n' ∉ nameRepr (some i.pol.toList) := by
    show '\n' ∉ ['\''] ++ i.pol.toList ++ ['\'']
    have := h.pol
    simp only [List.mem_append, List.mem_singleton, not_or]
    exact ⟨⟨by decide, this⟩, by decide⟩
  have hl := (label_no_open i.cls).2
  have ha := h.args
  have h1 : '\n' ∉ "name=".toList := by decide
  have h2 : '\n' ∉ ", polarization=".toList := by decide +kernel
  unfold PrintInfo.repr
  split <;> simp only [List.mem_append, List.mem_singleton, not_or]
  · exact ⟨⟨⟨⟨⟨hl, by decide⟩, ha⟩, h1⟩, hn⟩, by decide⟩
  · exact ⟨⟨⟨⟨⟨hl, by decide⟩, ha⟩, h1⟩, hn⟩, by decide⟩
  · exact ⟨⟨⟨⟨⟨⟨⟨hl, by decide⟩, ha⟩, h1⟩, hn⟩, h2⟩, hp⟩, by decide⟩
  · exact ⟨⟨⟨⟨hl, by decide⟩, h1⟩, hn⟩, by decide⟩

/-- the arguments before the name -/
def argsBefore (i : PrintInfo) : Str :=
  match i.cls with
  | .pointSource | .lineSource | .planeSource => i.args
  | _ => []

/-- the arguments after the name -/
def argsAfter (i : PrintInfo) : Str :=
  match i.cls with
  | .planeSource => ", polarization=".toList ++ nameRepr (some i.pol.toList) ++ [')']
  | _ => [')']

/-- C133, told apart: two components with the same entry have the same class, or are both boundaries; if they have the same other arguments they have the same name. -/
theorem C133_told_apart (i j : PrintInfo) (s s' : StoredPos) (t : Str) (hi : compText i s = .ok t) (hj : compText j s' = .ok t) (oi : OneLine i) (oj : OneLine j) :
    (i.cls = j.cls ∨ (i.cls = .periodic ∧ j.cls = .pml) ∨ (i.cls = .pml ∧ j.cls = .periodic)) ∧ (i.args = j.args → i.pol = j.pol → i.name = j.name) := by
  obtain ⟨r, e1⟩ := entry_starts i s t hi
  obtain ⟨r', e2⟩ := entry_starts j s' t hj
  rw [e1] at e2
  obtain ⟨hr, -⟩ := cut_eq (repr_oneLine i oi) (repr_oneLine j oj) (List.append_cancel_left e2)
  have hform : ∀ k : PrintInfo, k.repr = k.cls.label ++ '(' :: (argsBefore k ++ ("name=".toList ++ (nameRepr k.name ++ argsAfter k))) := by
    intro k
    unfold PrintInfo.repr argsBefore argsAfter
    cases k.cls <;> simp
  have hr' := hr
  rw [hform i, hform j] at hr'
  obtain ⟨hl, hrest⟩ := cut_eq (label_no_open i.cls).1 (label_no_open j.cls).1 hr'
  have hc := label_inj _ _ hl
  refine ⟨hc, fun ha hp => ?_⟩
  have hsame : argsBefore i = argsBefore j ∧ argsAfter i = argsAfter j := by
    unfold argsBefore argsAfter
    rcases hc with h | ⟨h1, h2⟩ | ⟨h1, h2⟩
    · rw [h, ha, hp]; exact ⟨rfl, rfl⟩
    · rw [h1, h2]; exact ⟨rfl, rfl⟩
    · rw [h1, h2]; exact ⟨rfl, rfl⟩
  rw [hsame.1, hsame.2] at hrest
  exact nameRepr_inj (List.append_cancel_right (List.append_cancel_left (List.append_cancel_left hrest)))

/-! ### The place that was asked for -/

/-- specification: how a class shows a single index -/
def shownCell : PrintClass → ℤ → Option AxisPos
  | .pointSource, i => some (.cell i)
  | .lineSource, i | .lineDetector, i | .blockDetector, i | .currentDetector, i => some (.list [i])
  | .periodic, i => some (.index (.int i))
  | .object, i | .absorbing, i => some (.index (.slice ⟨some i, some (i + 1), none⟩))
  | .planeSource, _ | .pml, _ | .anisotropic, _ => none

/-- C133, single cells: a component placed with three integers is shown at that cell, in the form of its class (plane sources and absorbing layers are not placed like that). -/
theorem C133_at_cell (n : Pos) (info : ℕ → PrintInfo) (o : PrintOp) (c : Fin 3 → ℤ) (hk : o.kx = .list [c 0] ∧ o.ky = .list [c 1] ∧ o.kz = .list [c 2])
    (hc : (info o.id).cls ≠ .planeSource ∧ (info o.id).cls ≠ .pml ∧ (info o.id).cls ≠ .anisotropic) :
    ∀ k, o.position n info k = shownCell (info o.id).cls (c k) := by
  obtain ⟨h1, h2, h3⟩ := hk
  intro k
  unfold PrintOp.position storePosition
  rw [h1, h2, h3]
  obtain ⟨q1, q2, q3⟩ := hc
  cases hcls : (info o.id).cls with
  | planeSource => exact absurd hcls q1
  | pml => exact absurd hcls q2
  | anisotropic => exact absurd hcls q3
  | _ =>
    fin_cases k <;> simp [tuplePosition, hcls, storeAll, storeEach, axisPosition, boundarySlice, objectSlice, Except.map, shownCell, lineSourceIndices, lineDetectorIndices, lineIndices, blockIndices,
      IndexLists.axes]

/-- specification: how a class shows a range of indices given as the slice `a:b` -/
def ShownSlice : PrintClass → ℤ → ℤ → Option AxisPos → Prop
  | .blockDetector, a, b, p | .currentDetector, a, b, p => ∃ l, p = some (.list l) ∧ l.head? = some a ∧ l.getLast? = some b
  | .periodic, a, b, p | .pml, a, b, p | .object, a, b, p | .absorbing, a, b, p => p = some (.index (.slice ⟨some a, some b, none⟩))
  | _, _, _, _ => True

lemma blockRange_ends (a b : ℤ) (h : a ≤ b) : ∃ l, blockRange a b = .ok l ∧ l.head? = some a ∧ l.getLast? = some b := by
  unfold blockRange
  rw [if_neg (by omega)]
  obtain ⟨m, hm⟩ : ∃ m, (b + 1 - a).toNat = m + 1 := ⟨(b - a).toNat, by omega⟩
  refine ⟨_, rfl, ?_, ?_⟩
  · rw [hm, List.range_succ_eq_map]
    simp
  · rw [hm, List.range_succ, List.map_append]
    simp
    omega

/-- C133, blocks: a block detector, current detector, boundary or object placed with three slices `a:b` is shown with these bounds. -/
theorem C133_at_slices (n : Pos) (info : ℕ → PrintInfo) (o : PrintOp) (a b : Fin 3 → ℤ) (ha : ∀ k, 0 ≤ a k) (hab : ∀ k, a k + 2 ≤ b k)
    (hk : o.kx = .slice ⟨some (a 0), some (b 0), none⟩ ∧ o.ky = .slice ⟨some (a 1), some (b 1), none⟩ ∧ o.kz = .slice ⟨some (a 2), some (b 2), none⟩) :
    ∀ k, ShownSlice (info o.id).cls (a k) (b k) (o.position n info k) := by
  obtain ⟨h1, h2, h3⟩ := hk
  have hobj : ∀ k N, objectSlice N (.slice ⟨some (a k), some (b k), none⟩) = .ok ⟨a k, b k⟩ := by
    intro k N
    have := ha k
    have := hab k
    unfold objectSlice objectStart objectStop
    simp only [true_or, if_true]
    rw [if_neg (by omega), if_neg (by omega)]
  have hper : ∀ k, boundarySlice (.slice ⟨some (a k), some (b k), none⟩) = .ok (.slice ⟨some (a k), some (b k), none⟩) := by
    intro k
    have := hab k
    unfold boundarySlice
    simp only
    rw [if_neg]
    rw [not_or]
    refine ⟨by omega, fun h => ?_⟩
    rcases abs_eq (by norm_num) |>.1 h with h | h <;> omega
  obtain ⟨l0, e0, s0, t0⟩ := blockRange_ends (a 0) (b 0) (by have := hab 0; omega)
  obtain ⟨l1, e1, s1, t1⟩ := blockRange_ends (a 1) (b 1) (by have := hab 1; omega)
  obtain ⟨l2, e2, s2, t2⟩ := blockRange_ends (a 2) (b 2) (by have := hab 2; omega)
  have hblk : blockIndices n (.slice ⟨some (a 0), some (b 0), none⟩) (.slice ⟨some (a 1), some (b 1), none⟩) (.slice ⟨some (a 2), some (b 2), none⟩) = .ok ⟨l0, l1, l2⟩ := by
    show (blockRange (a 0) (b 0) >>= _) = _
    rw [e0, ok_bind]
    show (blockRange (a 1) (b 1) >>= _) = _
    rw [e1, ok_bind]
    show (blockRange (a 2) (b 2) >>= _) = _
    rw [e2, ok_bind]
  intro k
  unfold PrintOp.position storePosition
  rw [h1, h2, h3]
  cases hcls : (info o.id).cls with
  | pointSource => trivial
  | lineSource => trivial
  | planeSource => trivial
  | lineDetector => trivial
  | anisotropic => trivial
  | blockDetector =>
    simp only [tuplePosition, hcls, hblk, storeAll, Except.map, IndexLists.axes]
    fin_cases k
    · exact ⟨l0, rfl, s0, t0⟩
    · exact ⟨l1, rfl, s1, t1⟩
    · exact ⟨l2, rfl, s2, t2⟩
  | currentDetector =>
    simp only [tuplePosition, hcls, hblk, storeAll, Except.map, IndexLists.axes]
    fin_cases k
    · exact ⟨l0, rfl, s0, t0⟩
    · exact ⟨l1, rfl, s1, t1⟩
    · exact ⟨l2, rfl, s2, t2⟩
  | periodic =>
    simp only [axisPosition, hper, storeEach, Except.map]
    fin_cases k <;> rfl
  | pml =>
    simp only [axisPosition, pmlSlice, storeEach, Except.map]
    fin_cases k <;> rfl
  | object =>
    simp only [axisPosition, hobj, storeEach, Except.map]
    fin_cases k <;> rfl
  | absorbing =>
    simp only [axisPosition, hobj, storeEach, Except.map]
    fin_cases k <;> rfl

/-- C133, planes: a plane source that is accepted is shown with the first index and the one after the last on each axis: `i, i + 1` for an integer `i`, `0, N` for a whole axis. -/
theorem C133_at_plane (n : Pos) (info : ℕ → PrintInfo) (o : PrintOp) (hc : (info o.id).cls = .planeSource) (hok : (storePosition n (info o.id) (fun _ => none) o.kx o.ky o.kz).2 = none) :
    ∀ k, (∀ i, ![o.kx, o.ky, o.kz] k = .list [i] → o.position n info k = some (.range i (i + 1))) ∧
      (![o.kx, o.ky, o.kz] k = .slice fullSlice → 0 < n k → o.position n info k = some (.range 0 (n k))) := by
  unfold PrintOp.position
  unfold storePosition at hok ⊢
  rw [hc] at hok ⊢
  unfold tuplePosition at hok ⊢
  rw [hc] at hok ⊢
  simp only at hok ⊢
  cases hp : planePlace n (info o.id).pol o.kx o.ky o.kz with
  | error e => rw [hp] at hok; cases hok
  | ok l =>
    unfold planePlace at hp
    obtain ⟨bx, h0, hp⟩ := bind_ok.1 hp
    obtain ⟨bY, h1, hp⟩ := bind_ok.1 hp
    obtain ⟨bz, h2, hp⟩ := bind_ok.1 hp
    split at hp
    · cases hp
    split at hp
    · cases hp
    split at hp
    · cases hp
    obtain ⟨e, -, hp⟩ := bind_ok.1 hp
    split at hp
    · cases hp
    cases hp
    have key : ∀ (N : ℕ) (key : AxisKey) (r : ℤ × ℤ), planeBounds N key = .ok r →
        (∀ i, key = .list [i] → r = (i, i + 1)) ∧ (key = .slice fullSlice → 0 < N → r = (0, (N : ℤ))) := by
      intro N key r hr
      constructor
      · rintro i rfl
        cases hr
        rfl
      · rintro rfl hN
        unfold planeBounds fullSlice at hr
        simp only [Option.getD_none] at hr
        rw [if_pos (by exact_mod_cast hN)] at hr
        cases hr
        rfl
    intro k
    fin_cases k
    · obtain ⟨q1, q2⟩ := key _ _ _ h0
      exact ⟨fun i hi => by have := q1 i hi; subst this; rfl, fun hi hN => by have := q2 hi hN; subst this; rfl⟩
    · obtain ⟨q1, q2⟩ := key _ _ _ h1
      exact ⟨fun i hi => by have := q1 i hi; subst this; rfl, fun hi hN => by have := q2 hi hN; subst this; rfl⟩
    · obtain ⟨q1, q2⟩ := key _ _ _ h2
      exact ⟨fun i hi => by have := q1 i hi; subst this; rfl, fun hi hN => by have := q2 hi hN; subst this; rfl⟩

/-- specification: the three things between the brackets of a placement, by axis -/
def PrintOp.keys (o : PrintOp) : Fin 3 → AxisKey := ![o.kx, o.ky, o.kz]

lemma sliceSelects_clamp (N : ℕ) (a b : ℤ) (i : ℕ) : sliceSelects N ⟨some a, some b, none⟩ i ↔ clampIndex N a ≤ i ∧ i < clampIndex N b := by
  unfold sliceSelects sliceBound clampIndex
  simp only
  split_ifs <;> omega

/-- C133, objects: an object placed with documented keys, also with open slices and negative bounds, is shown on every axis with a slice that selects the cells of that axis the key selects. -/
theorem C133_at_object (n : Pos) (info : ℕ → PrintInfo) (o : PrintOp) (hc : (info o.id).cls = .object ∨ (info o.id).cls = .absorbing) (hk : ∀ k, ObjectKey (n k) (o.keys k)) :
    ∀ k, ∃ a b, o.position n info k = some (.index (.slice ⟨some a, some b, none⟩)) ∧ ∀ i, keySelects (n k) (o.keys k) i ↔ sliceSelects (n k) ⟨some a, some b, none⟩ i := by
  obtain ⟨r0, e0, -, -, -, -, -, s0, -⟩ := objectKey_range (n 0) (o.keys 0) (hk 0)
  obtain ⟨r1, e1, -, -, -, -, -, s1, -⟩ := objectKey_range (n 1) (o.keys 1) (hk 1)
  obtain ⟨r2, e2, -, -, -, -, -, s2, -⟩ := objectKey_range (n 2) (o.keys 2) (hk 2)
  have hp : o.position n info = ![some (.index (.slice ⟨some r0.start, some r0.stop, none⟩)), some (.index (.slice ⟨some r1.start, some r1.stop, none⟩)),
      some (.index (.slice ⟨some r2.start, some r2.stop, none⟩))] := by
    unfold PrintOp.position storePosition
    have f0 : objectSlice (n 0) o.kx = .ok r0 := e0
    have f1 : objectSlice (n 1) o.ky = .ok r1 := e1
    have f2 : objectSlice (n 2) o.kz = .ok r2 := e2
    rcases hc with hc | hc <;> rw [hc] <;> simp only [axisPosition, f0, f1, f2, Except.map, storeEach]
  intro k
  rw [hp]
  fin_cases k
  · exact ⟨_, _, rfl, fun i => (s0 i).trans (sliceSelects_clamp _ _ _ i).symm⟩
  · exact ⟨_, _, rfl, fun i => (s1 i).trans (sliceSelects_clamp _ _ _ i).symm⟩
  · exact ⟨_, _, rfl, fun i => (s2 i).trans (sliceSelects_clamp _ _ _ i).symm⟩

/-- C133, absorbing layers: one that is accepted is shown on each axis with the slice that was written for that axis. -/
theorem C133_at_pml (n : Pos) (info : ℕ → PrintInfo) (g : PrintGrid) (o : PrintOp) (hc : (info o.id).cls = .pml) (h : (g.op n info o).2 = none) :
    ∀ k, ∃ s, o.keys k = .slice s ∧ (g.op n info o).1.pos o.id k = some (.index (.slice s)) := by
  obtain ⟨-, hpos, hpl, -⟩ := op_accepted h
  rw [hpos]
  have hp : o.position n info = (storeEach (fun _ => none) (axisPosition .pml (n 0) o.kx) (axisPosition .pml (n 1) o.ky) (axisPosition .pml (n 2) o.kz)).1 := by
    unfold PrintOp.position storePosition
    rw [hc]
  have hs : ∀ k, o.position n info k ≠ none := by
    intro k hn
    obtain ⟨a, ha, -⟩ := hpl k
    rw [hn] at ha
    cases ha
  intro k
  simp only [setPos, if_pos]
  have h2 := hs 2
  rw [hp] at h2 ⊢
  unfold PrintOp.keys
  cases hx : o.kx with
  | list l => rw [hx] at h2; exact absurd rfl h2
  | slice sx =>
    cases hy : o.ky with
    | list l => rw [hx, hy] at h2; exact absurd rfl h2
    | slice sy =>
      cases hz : o.kz with
      | list l => rw [hx, hy, hz] at h2; exact absurd rfl h2
      | slice sz => fin_cases k; exacts [⟨sx, rfl, rfl⟩, ⟨sy, rfl, rfl⟩, ⟨sz, rfl, rfl⟩]

/-- an object on a grid of different sizes: `grid[2:-1, :, -2] = Object(...)` -/
example : (∀ k, ObjectKey ((![6, 4, 5] : Pos) k) ((⟨3, .slice ⟨some 2, some (-1), none⟩, .slice ⟨none, none, none⟩, .list [-2], none⟩ : PrintOp).keys k)) ∧
    (printInfo 3).cls = .absorbing := by
  refine ⟨fun k => ?_, rfl⟩
  fin_cases k
  · exact ⟨.inl rfl, fun a h => by cases h; decide, fun a h => by cases h; decide, by decide⟩
  · exact ⟨.inl rfl, (fun a h => nomatch h), (fun a h => nomatch h), by decide⟩
  · exact ⟨-2, rfl, by decide, by decide, by decide⟩

/-- `C133_at_pml` applies -/
example : (emptyPrint.op printCells printInfo ⟨0, slc (some 0) (some 3), slc none none, slc none none, none⟩).2 = none := by decide +kernel

/-! ### The line of the grid -/

/-- C133, first line of the text: grids with the same line have the same number of cells on every axis, and the same spacing and Courant number as far as these are shown. -/
theorem C133_header (n n' : Pos) (s s' c c' : Str) (hs : ',' ∉ s) (hs' : ',' ∉ s') (h : gridRepr n s c = gridRepr n' s' c') : (∀ k, n k = n' k) ∧ s = s' ∧ c = c' := by
  have hform : ∀ (n : Pos) (s c : Str), gridRepr n s c = "Grid(shape=(".toList ++ (intStr (n 0) ++ ',' :: (intStr (n 1) ++ ',' :: (intStr (n 2) ++ ')' :: (", grid_spacing=".toList ++ (s ++ ',' :: (" courant_number=".toList ++ (c ++ [')']))))))) := by
    intro n s c
    unfold gridRepr
    simp
  have hno : ∀ i : ℤ, ',' ∉ intStr i ∧ ')' ∉ intStr i := fun i => ⟨intStr_not_mem i (by decide) (by decide), intStr_not_mem i (by decide) (by decide)⟩
  rw [hform, hform] at h
  obtain ⟨h0, h⟩ := cut_eq (hno _).1 (hno _).1 (List.append_cancel_left h)
  obtain ⟨h1, h⟩ := cut_eq (hno _).1 (hno _).1 h
  obtain ⟨h2, h⟩ := cut_eq (hno _).2 (hno _).2 h
  obtain ⟨h3, h⟩ := cut_eq hs hs' (List.append_cancel_left h)
  refine ⟨fun k => ?_, h3, List.append_cancel_right (List.append_cancel_left h)⟩
  have e0 := intStr_injective h0
  have e1 := intStr_injective h1
  have e2 := intStr_injective h2
  fin_cases k
  · exact_mod_cast e0
  · exact_mod_cast e1
  · exact_mod_cast e2

/-! ### Rejected moves -/

/-- C133: assigning a source or a detector a position that is rejected leaves the place that is shown for every component as it was. -/
theorem C133_rejected_keeps (n : Pos) (info : ℕ → PrintInfo) (g : PrintGrid) (o : PrintOp) (hc : (info o.id).cls.group = .sources ∨ (info o.id).cls.group = .detectors) (hl : o.late = none)
    (h : (g.op n info o).2 ≠ none) (id : ℕ) : (g.op n info o).1.pos id = g.pos id := by
  have hk : ((info o.id).comp o.id).kind ≠ .anisotropic ∧ ((info o.id).comp o.id).kind ≠ .boundary := by
    show (info o.id).cls.kind ≠ _ ∧ (info o.id).cls.kind ≠ _
    generalize (info o.id).cls = c at hc
    cases c <;> simp_all [PrintClass.group, PrintClass.kind]
  have hs : storePosition n (info o.id) (g.pos o.id) o.kx o.ky o.kz = storeAll (g.pos o.id) (tuplePosition n (info o.id) o.kx o.ky o.kz) := by
    unfold storePosition
    generalize (info o.id).cls = c at hc
    cases c <;> simp_all [PrintClass.group]
  unfold PrintGrid.op PrintGrid.place at h ⊢
  simp only [hk.1, hk.2, if_false, hs, hl] at h ⊢
  cases hp : (g.names.place ((info o.id).comp o.id) none none).2 with
  | some e => simp only
  | none =>
    rw [hp] at h
    simp only at h ⊢
    cases ht : tuplePosition n (info o.id) o.kx o.ky o.kz with
    | ok p => exact absurd (by rw [ht]; rfl) h
    | error e =>
      simp only [storeAll, setPos]
      split_ifs with hid
      · rw [hid]
      · rfl

/-- C133 is false of absorbing boundaries (and in the same way of periodic boundaries and objects): the axes are stored one after the other, so that a move that is rejected because of its second or
third axis leaves the boundary shown at a place where it never was. -/
theorem C133_half_moved_false (n : Pos) (info : ℕ → PrintInfo) (g : PrintGrid) (id : ℕ) (hc : (info id).cls = .pml) (sx sy : PySlice ℤ) (l : List ℤ) (ky kz : AxisKey) (late : Option PyErr) :
    ((g.op n info ⟨id, .slice sx, .list l, kz, late⟩).2 = some .valueError ∧
      (g.op n info ⟨id, .slice sx, .list l, kz, late⟩).1.pos id = ![some (.index (.slice sx)), g.pos id 1, g.pos id 2]) ∧
    ((g.op n info ⟨id, .slice sx, .slice sy, .list l, late⟩).2 = some .valueError ∧
      (g.op n info ⟨id, .slice sx, .slice sy, .list l, late⟩).1.pos id = ![some (.index (.slice sx)), some (.index (.slice sy)), g.pos id 2]) ∧
    ((g.op n info ⟨id, .list l, ky, kz, late⟩).2 = some .valueError ∧ (g.op n info ⟨id, .list l, ky, kz, late⟩).1.pos id = g.pos id) := by
  have hk : ((info id).comp id).kind = .boundary := by
    show (info id).cls.kind = _
    rw [hc]
    rfl
  have hk' : ¬ CompKind.boundary = CompKind.anisotropic := by decide
  have hs : ∀ kx ky kz, storePosition n (info id) (g.pos id) kx ky kz = storeEach (g.pos id) ((pmlSlice kx).map fun s => .index (.slice s)) ((pmlSlice ky).map fun s => .index (.slice s)) ((pmlSlice kz).map fun s => .index (.slice s)) := by
    intro kx ky kz
    unfold storePosition
    rw [hc]
    rfl
  refine ⟨?_, ?_, ?_⟩ <;>
  · unfold PrintGrid.op PrintGrid.place
    simp only [hk, hk', if_false, if_true, hs, pmlSlice, Except.map, storeEach, setPos, and_self]

/-! ### Cases -/

example : OneLine ⟨.lineSource, some ['a'], "period=1, ".toList, "z"⟩ := ⟨by decide +kernel, by decide +kernel, fun n h => by cases h; decide⟩

example : (storePosition ![9, 5, 5] ⟨.planeSource, none, [], "z"⟩ (fun _ => none) (.list [4]) (.slice fullSlice) (.slice fullSlice)).2 = none := by decide +kernel

/-- a source that is moved to a slice: rejected, and shown where it was -/
example : let info : ℕ → PrintInfo := fun _ => ⟨.pointSource, none, [], "z"⟩
    ((emptyPrint.op printCells info ⟨0, .list [1], .list [2], .list [3], none⟩).1.op printCells info ⟨0, slc none none, .list [2], .list [3], none⟩).2 ≠ none := by decide +kernel

/-- a layer `0:3` that is moved to `-4:` with a single cell on the second axis: shown at `-4:`, all of the second axis -/
example : let info : ℕ → PrintInfo := fun _ => ⟨.pml, none, [], ""⟩
    let g := (emptyPrint.op printCells info ⟨0, slc (some 0) (some 3), slc none none, slc none none, none⟩).1
    g.pos 0 0 = some (.index (.slice ⟨some 0, some 3, none⟩)) ∧ (g.op printCells info ⟨0, slc (some (-4)) none, .list [2], slc none none, none⟩).1.pos 0 0 = some (.index (.slice ⟨some (-4), none, none⟩)) ∧
      (g.op printCells info ⟨0, slc (some (-4)) none, .list [2], slc none none, none⟩).1.pos 0 1 = some (.index (.slice ⟨none, none, none⟩)) := ⟨rfl, rfl, rfl⟩

end Nidn
