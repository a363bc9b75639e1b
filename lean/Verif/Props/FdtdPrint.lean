/-
C133: the text of a printed grid.
-/
import Verif.Lemmas.PrintText
import Verif.Props.FdtdNames
import Verif.Props.Materials

namespace Nidn

/-! ### What the text should be -/

/-- a slice the way it is written between brackets: `a:b`, or `a:b:c` with a step, with nothing in place of `None` -/
def sliceNotation (s : PySlice ℤ) : Str :=
  boundStr s.start ++ (':' :: (boundStr s.stop ++ match s.step with
    | none => []
    | some c => ':' :: intStr c))

/-- the text of a coordinate: the index, the first and last index, the two bounds, or the slice -/
def shownAxis : AxisPos → Str
  | .cell i => intStr i
  | .list l => dotsText (l.headD 0) (l.getLastD 0)
  | .range a b => dotsText a b
  | .index (.int i) => intStr i
  | .index (.slice s) => sliceNotation s

/-- the two lines of a component: what it is, and `@ x=…, y=…, z=…` -/
def shownEntry (r : Str) (p : Fin 3 → AxisPos) : Str :=
  "    ".toList ++ r ++ "\n        @ x=".toList ++ shownAxis (p 0) ++ ", y=".toList ++ shownAxis (p 1) ++ ", z=".toList ++ shownAxis (p 2) ++ "\n".toList

/-- a section with a title and the entries of its components in order, absent without components -/
def shownSection (info : ℕ → PrintInfo) (pos : ℕ → Fin 3 → AxisPos) (title : Str) (ids : List ℕ) : Str :=
  if ids = [] then [] else title ++ ids.flatMap fun id => shownEntry (info id).repr (pos id)

/-- the coordinate can be printed: it is there and no empty list -/
def Shows (a : AxisPos) (o : Option AxisPos) : Prop := o = some a ∧ a ≠ .list []

/-! ### One component -/

/-- the replacement of `:,` -/
abbrev dropColon : Str → Str := pyReplace [':', ','] [',']

lemma dotsText_no_colon (a b : ℤ) : ':' ∉ dotsText a b := by
  unfold dotsText
  simp only [List.mem_cons, List.mem_append, not_or]
  refine ⟨by decide, intStr_not_mem a (by decide) (by decide), ?_, intStr_not_mem b (by decide) (by decide), by decide, by simp⟩
  decide

lemma noColon {t v : Str} (h : ':' ∉ t) : dropColon (t ++ ',' :: v) = t ++ ',' :: dropColon v := by
  have := pyReplace_skip (a := ':') (o := [',']) (w := [',']) (u := t ++ [',']) v (by
    rw [List.mem_append, not_or]
    exact ⟨h, by decide⟩)
  rw [List.append_assoc, List.append_assoc] at this
  exact this

lemma head_bound (o : Option ℤ) {v : Str} (h : v.head? ≠ some ',') : (boundStr o ++ v).head? ≠ some ',' := by
  cases hb : boundStr o with
  | nil => exact h
  | cons c cs =>
    rw [List.cons_append, List.head?_cons]
    intro hc
    have := boundStr_not_mem o (c := ',') (by decide) (by decide)
    rw [hb] at this
    exact this (List.mem_cons.2 (.inl (Option.some.inj hc).symm))

lemma boundStr_some (i : ℤ) : boundStr (some i) = intStr i := rfl

lemma noColon_last {t : Str} (h : ':' ∉ t) (hn : t ≠ []) : dropColon t = t ∧ t ≠ [] ∧ (if t.getLast? = some ':' then t.dropLast else t) = t := by
  refine ⟨pyReplace_none h, hn, if_neg fun hl => h ?_⟩
  exact List.mem_of_getLast? hl

lemma slice_first (s : PySlice ℤ) (v : Str) :
    dropColon (boundStr s.start ++ (':' :: (boundStr s.stop ++ (':' :: boundStr s.step))) ++ ',' :: v) = sliceNotation s ++ ',' :: dropColon v := by
  have hb : ∀ o : Option ℤ, ':' ∉ boundStr o := fun o => boundStr_not_mem o (by decide) (by decide)
  have e : boundStr s.start ++ (':' :: (boundStr s.stop ++ (':' :: boundStr s.step))) ++ ',' :: v =
      boundStr s.start ++ (':' :: (boundStr s.stop ++ (':' :: (boundStr s.step ++ ',' :: v)))) := by simp
  rw [e]
  unfold dropColon
  rw [pyReplace_skip _ (hb _), colon_stays (head_bound _ (by rw [List.head?_cons]; decide)), pyReplace_skip _ (hb _)]
  unfold sliceNotation
  cases hs : s.step with
  | none =>
    have := pyReplace_hit ':' [','] [','] v
    rw [show boundStr none ++ ',' :: v = ',' :: v from rfl]
    refine (congrArg (fun t => boundStr s.start ++ (':' :: (boundStr s.stop ++ t))) this).trans ?_
    simp
  | some c =>
    rw [boundStr_some]
    have hc : (intStr c ++ ',' :: v).head? ≠ some ',' := by
      cases hi : intStr c with
      | nil => exact absurd hi (intStr_ne_nil c)
      | cons d ds =>
        rw [List.cons_append, List.head?_cons]
        intro hd
        have := intStr_not_mem c (c := ',') (by decide) (by decide)
        rw [hi] at this
        exact this (List.mem_cons.2 (.inl (Option.some.inj hd).symm))
    rw [colon_stays hc]
    have := noColon (t := intStr c) (v := v) (intStr_not_mem c (by decide) (by decide))
    refine (congrArg (fun t => boundStr s.start ++ (':' :: (boundStr s.stop ++ (':' :: t)))) this).trans ?_
    simp

lemma slice_last (s : PySlice ℤ) :
    let t := boundStr s.start ++ (':' :: (boundStr s.stop ++ (':' :: boundStr s.step)))
    dropColon t = t ∧ t ≠ [] ∧ (if t.getLast? = some ':' then t.dropLast else t) = sliceNotation s := by
  intro t
  have hb : ∀ o : Option ℤ, ':' ∉ boundStr o := fun o => boundStr_not_mem o (by decide) (by decide)
  refine ⟨?_, by simp [t], ?_⟩
  · unfold dropColon
    show pyReplace _ _ (boundStr s.start ++ _) = _
    have hl : (boundStr s.step).head? ≠ some ',' := by
      have := head_bound s.step (v := []) (by decide)
      rwa [List.append_nil] at this
    rw [pyReplace_skip _ (hb _), colon_stays (head_bound _ (by rw [List.head?_cons]; decide)), pyReplace_skip _ (hb _), colon_stays hl, pyReplace_none (hb _)]
  · unfold sliceNotation
    cases hs : s.step with
    | none =>
      have e : t = boundStr s.start ++ (':' :: boundStr s.stop) ++ [':'] := by
        show boundStr s.start ++ (':' :: (boundStr s.stop ++ (':' :: boundStr s.step))) = _
        rw [hs]
        simp [boundStr]
      rw [e, if_pos (by rw [List.getLast?_append_of_ne_nil _ (by simp)]; rfl), List.dropLast_concat]
      simp
    | some c =>
      have e : t = (boundStr s.start ++ (':' :: (boundStr s.stop ++ [':']))) ++ intStr c := by
        show boundStr s.start ++ (':' :: (boundStr s.stop ++ (':' :: boundStr s.step))) = _
        rw [hs]
        simp [boundStr]
      rw [e, if_neg]
      · simp
      · intro hl
        rw [List.getLast?_append_of_ne_nil _ (intStr_ne_nil c)] at hl
        exact intStr_not_mem c (c := ':') (by decide) (by decide) (List.mem_of_getLast? hl)

/-- the texts of the coordinates, and what the replacement and the cut of the last colon make of them -/
lemma axisText_shows {a : AxisPos} {o : Option AxisPos} (h : Shows a o) : ∃ t, axisText o = .ok t ∧
    (∀ v, dropColon (t ++ ',' :: v) = shownAxis a ++ ',' :: dropColon v) ∧ dropColon t = t ∧ t ≠ [] ∧ (if t.getLast? = some ':' then t.dropLast else t) = shownAxis a := by
  obtain ⟨rfl, hne⟩ := h
  rcases a with i | l | ⟨a, b⟩ | k
  · have := intStr_not_mem i (c := ':') (by decide) (by decide)
    exact ⟨_, rfl, fun v => noColon this, noColon_last this (intStr_ne_nil i)⟩
  · cases l with
    | nil => exact absurd rfl hne
    | cons a l =>
      have e : shownAxis (.list (a :: l)) = dotsText a ((a :: l).getLast (by simp)) := by
        show dotsText a _ = _
        rw [List.getLastD_eq_getLast?, List.getLast?_eq_some_getLast (by simp)]
        rfl
      rw [e]
      exact ⟨_, rfl, fun v => noColon (dotsText_no_colon _ _), noColon_last (dotsText_no_colon _ _) (by simp [dotsText])⟩
  · exact ⟨_, rfl, fun v => noColon (dotsText_no_colon _ _), noColon_last (dotsText_no_colon _ _) (by simp [dotsText])⟩
  · cases k with
    | int i =>
      have := intStr_not_mem i (c := ':') (by decide) (by decide)
      exact ⟨_, congrArg Except.ok (cleanText_int i), fun v => noColon this, noColon_last this (intStr_ne_nil i)⟩
    | slice s => exact ⟨_, congrArg Except.ok (cleanText_slice s), fun v => slice_first s v, slice_last s⟩

/-- the same for the classes that print coordinates as they are -/
lemma axisText_plain {a : AxisPos} {o : Option AxisPos} (h : Shows a o) (hk : ∀ s, a ≠ .index (.slice s)) : axisText o = .ok (shownAxis a) := by
  obtain ⟨rfl, hne⟩ := h
  rcases a with i | l | ⟨a, b⟩ | k
  · rfl
  · cases l with
    | nil => exact absurd rfl hne
    | cons a l =>
      show Except.ok (dotsText a ((a :: l).getLast (by simp))) = Except.ok (dotsText a _)
      rw [List.getLastD_eq_getLast?, List.getLast?_eq_some_getLast (by simp)]
      rfl
  · rfl
  · cases k with
    | int i => exact congrArg Except.ok (cleanText_int i)
    | slice s => exact absurd rfl (hk s)

/-- the classes that print slices -/
def PrintClass.sliced : PrintClass → Bool
  | .periodic | .pml | .object | .absorbing | .anisotropic => true
  | _ => false

lemma plainEntry_eq (r : Str) (p : Fin 3 → AxisPos) : plainEntry r (shownAxis (p 0)) (shownAxis (p 1)) (shownAxis (p 2)) = shownEntry r p := by
  unfold plainEntry shownEntry reprLine locationLine atX
  simp

lemma slicedEntry_eq (r : Str) {x y z : Str} {p : Fin 3 → AxisPos} (hx : ∀ v, dropColon (x ++ ',' :: v) = shownAxis (p 0) ++ ',' :: dropColon v)
    (hy : ∀ v, dropColon (y ++ ',' :: v) = shownAxis (p 1) ++ ',' :: dropColon v) (hz : dropColon z = z) (hz' : z ≠ [])
    (hl : (if z.getLast? = some ':' then z.dropLast else z) = shownAxis (p 2)) : slicedEntry r x y z = shownEntry r p := by
  have e0 : dropColon (locationLine x y z) = atX ++ (shownAxis (p 0) ++ ([',', ' ', 'y', '='] ++ (shownAxis (p 1) ++ ([',', ' ', 'z', '='] ++ z)))) := by
    unfold locationLine dropColon
    rw [pyReplace_skip _ (by decide)]
    congr 1
    refine (hx _).trans ?_
    congr 1
    have e1 : ∀ v, dropColon ([' ', 'y', '='] ++ v) = [' ', 'y', '='] ++ dropColon v := fun v => pyReplace_skip v (by decide)
    have e2 : ∀ v, dropColon ([' ', 'z', '='] ++ v) = [' ', 'z', '='] ++ dropColon v := fun v => pyReplace_skip v (by decide)
    refine congrArg (List.cons ',') ((e1 _).trans ?_)
    refine congrArg ([' ', 'y', '='] ++ ·) ((hy _).trans ?_)
    refine congrArg (shownAxis (p 1) ++ ',' :: ·) ((e2 _).trans ?_)
    rw [hz]
    rfl
  unfold slicedEntry
  show (if (reprLine r ++ dropColon (locationLine x y z)).getLast? = some ':' then (reprLine r ++ dropColon (locationLine x y z)).dropLast else reprLine r ++ dropColon (locationLine x y z)) ++ ['\n'] = _
  have e3 : reprLine r ++ dropColon (locationLine x y z) = (reprLine r ++ (atX ++ (shownAxis (p 0) ++ ([',', ' ', 'y', '='] ++ (shownAxis (p 1) ++ [',', ' ', 'z', '=']))))) ++ z := by
    rw [e0]
    simp
  rw [e3, List.getLast?_append_of_ne_nil _ hz', List.dropLast_append_of_ne_nil hz']
  unfold shownEntry
  rw [← hl]
  split_ifs
  · unfold reprLine atX
    simp
  · unfold reprLine atX
    simp

/-- C133, entries: a component with a printable position is shown by two lines: what it is, and its position in the notation of Python's indices. -/
theorem C133_entry (i : PrintInfo) (s : StoredPos) (p : Fin 3 → AxisPos) (h : ∀ k, Shows (p k) (s k)) (hk : i.cls.sliced = false → ∀ k c, p k ≠ .index (.slice c)) :
    compText i s = .ok (shownEntry i.repr p) := by
  by_cases hs : i.cls.sliced = true
  · obtain ⟨x, hx, hx1, -⟩ := axisText_shows (h 0)
    obtain ⟨y, hy, hy1, -⟩ := axisText_shows (h 1)
    obtain ⟨z, hz, -, hz2, hz3, hz4⟩ := axisText_shows (h 2)
    have e := slicedEntry_eq i.repr hx1 hy1 hz2 hz3 hz4
    unfold compText
    rw [hx, hy, hz]
    rw [← e]
    cases hc : i.cls <;> rw [hc] at hs <;> first | rfl | cases hs
  · have hk' := hk (by simpa using hs)
    have hx := axisText_plain (h 0) (hk' 0)
    have hy := axisText_plain (h 1) (hk' 1)
    have hz := axisText_plain (h 2) (hk' 2)
    unfold compText
    rw [hx, hy, hz, ← plainEntry_eq]
    cases hc : i.cls <;> rw [hc] at hs <;> first | rfl | exact absurd rfl hs

lemma axisText_missing {o : Option AxisPos} (h : ¬ ∃ a, Shows a o) : axisText o = .error .attributeError ∨ axisText o = .error .indexError := by
  cases o with
  | none => exact .inl rfl
  | some a =>
    by_cases ha : a = .list []
    · rw [ha]
      exact .inr rfl
    · exact absurd ⟨a, rfl, ha⟩ h

/-- C133, missing positions: a component without a position (or with an empty list of cells) cannot be printed. -/
theorem C133_missing (i : PrintInfo) (s : StoredPos) (h : ¬ ∀ k, ∃ a, Shows a (s k)) : compText i s = .error .attributeError ∨ compText i s = .error .indexError := by
  by_cases h0 : ∃ a, Shows a (s 0)
  · obtain ⟨a, ha⟩ := h0
    obtain ⟨x, hx, -⟩ := axisText_shows ha
    by_cases h1 : ∃ a, Shows a (s 1)
    · obtain ⟨b, hb⟩ := h1
      obtain ⟨y, hy, -⟩ := axisText_shows hb
      by_cases h2 : ∃ a, Shows a (s 2)
      · obtain ⟨c, hc⟩ := h2
        refine absurd (fun k => ?_) h
        fin_cases k
        · exact ⟨a, ha⟩
        · exact ⟨b, hb⟩
        · exact ⟨c, hc⟩
      · rcases axisText_missing h2 with h2 | h2 <;> unfold compText <;> rw [hx, hy, h2]
        · exact .inl rfl
        · exact .inr rfl
    · rcases axisText_missing h1 with h1 | h1 <;> unfold compText <;> rw [hx, h1]
      · exact .inl rfl
      · exact .inr rfl
  · rcases axisText_missing h0 with h0 | h0 <;> unfold compText <;> rw [h0]
    · exact .inl rfl
    · exact .inr rfl

/-! ### The grid -/

/-- the components that are printed -/
def GridNames.listed (g : GridNames) : List Comp := g.sources ++ g.detectors ++ g.boundaries ++ g.objects

lemma section_ok {info : ℕ → PrintInfo} {pos : ℕ → StoredPos} {p : ℕ → Fin 3 → AxisPos} (title : Str) {cs : List Comp}
    (h : ∀ c ∈ cs, compText (info c.id) (pos c.id) = .ok (shownEntry (info c.id).repr (p c.id))) :
    sectionText info pos title cs = .ok (shownSection info p title (cs.map Comp.id)) := by
  unfold sectionText shownSection
  by_cases hc : cs = []
  · subst hc
    rfl
  · rw [if_neg hc, if_neg (by simpa using hc)]
    have : (cs.mapM fun c => compText (info c.id) (pos c.id)) = .ok (cs.map fun c => shownEntry (info c.id).repr (p c.id)) := by
      clear hc
      induction cs with
      | nil => rfl
      | cons c cs ih =>
        rw [List.mapM_cons, h c List.mem_cons_self, ih fun d hd => h d (List.mem_cons_of_mem _ hd)]
        rfl
    rw [this]
    show Except.ok _ = Except.ok _
    rw [List.flatMap_def, List.map_map]
    rfl

/-- the text of a grid: a line for the grid and a section for each group of components that is not empty -/
def shownGrid (n : Pos) (spacing courant : Str) (info : ℕ → PrintInfo) (p : ℕ → Fin 3 → AxisPos) (sources detectors boundaries objects : List ℕ) : Str :=
  gridRepr n spacing courant ++ "\n".toList ++ shownSection info p "\nsources:\n".toList sources ++ shownSection info p "\ndetectors:\n".toList detectors ++
    shownSection info p "\nboundaries:\n".toList boundaries ++ shownSection info p "\nobjects:\n".toList objects

/-- C133, text: if every component has a printable position the text shows each of them once, in the order of placement. -/
theorem C133_text (n : Pos) (spacing courant : Str) (info : ℕ → PrintInfo) (g : PrintGrid) (p : ℕ → Fin 3 → AxisPos)
    (h : ∀ c ∈ g.names.listed, (∀ k, Shows (p c.id k) (g.pos c.id k)) ∧ ((info c.id).cls.sliced = false → ∀ k s, p c.id k ≠ .index (.slice s))) :
    g.text n spacing courant info = .ok (shownGrid n spacing courant info p (g.names.sources.map Comp.id) (g.names.detectors.map Comp.id) (g.names.boundaries.map Comp.id) (g.names.objects.map Comp.id)) := by
  have h' : ∀ c ∈ g.names.listed, compText (info c.id) (g.pos c.id) = .ok (shownEntry (info c.id).repr (p c.id)) := fun c hc => C133_entry _ _ _ (h c hc).1 (h c hc).2
  unfold GridNames.listed at h'
  unfold PrintGrid.text
  rw [section_ok _ fun c hc => h' c (by simp [hc]), section_ok _ fun c hc => h' c (by simp [hc]), section_ok _ fun c hc => h' c (by simp [hc]), section_ok _ fun c hc => h' c (by simp [hc])]
  rfl

lemma section_raises {info : ℕ → PrintInfo} {pos : ℕ → StoredPos} (title : Str) {cs : List Comp} {c : Comp} (hc : c ∈ cs)
    (h : ¬ ∀ k, ∃ a, Shows a (pos c.id k)) : ∃ e, sectionText info pos title cs = .error e := by
  have key : ∃ e, (cs.mapM fun c => compText (info c.id) (pos c.id)) = .error e := by
    induction cs with
    | nil => cases hc
    | cons d ds ih =>
      rw [List.mapM_cons]
      cases hd : compText (info d.id) (pos d.id) with
      | error e => exact ⟨e, rfl⟩
      | ok t =>
        rcases List.mem_cons.1 hc with rfl | hc
        · rcases C133_missing (info c.id) (pos c.id) h with hm | hm <;> rw [hd] at hm <;> cases hm
        · obtain ⟨e, he⟩ := ih hc
          exact ⟨e, by rw [he]; rfl⟩
  obtain ⟨e, he⟩ := key
  refine ⟨e, ?_⟩
  unfold sectionText
  rw [if_neg (List.ne_nil_of_mem hc), he]
  rfl

/-- C133, when printing fails: one component without a printable position is enough. -/
theorem C133_raises (n : Pos) (spacing courant : Str) (info : ℕ → PrintInfo) (g : PrintGrid) {c : Comp} (hc : c ∈ g.names.listed) (h : ¬ ∀ k, ∃ a, Shows a (g.pos c.id k)) :
    ∃ e, g.text n spacing courant info = .error e := by
  have hm : c ∈ g.names.sources ∨ c ∈ g.names.detectors ∨ c ∈ g.names.boundaries ∨ c ∈ g.names.objects := by
    unfold GridNames.listed at hc
    simpa [or_assoc] using hc
  unfold PrintGrid.text
  cases h1 : sectionText info g.pos "\nsources:\n".toList g.names.sources with
  | error e => exact ⟨e, rfl⟩
  | ok s =>
    cases h2 : sectionText info g.pos "\ndetectors:\n".toList g.names.detectors with
    | error e => exact ⟨e, rfl⟩
    | ok d =>
      cases h3 : sectionText info g.pos "\nboundaries:\n".toList g.names.boundaries with
      | error e => exact ⟨e, rfl⟩
      | ok b =>
        cases h4 : sectionText info g.pos "\nobjects:\n".toList g.names.objects with
        | error e => exact ⟨e, rfl⟩
        | ok o =>
          rcases hm with hm | hm | hm | hm
          · obtain ⟨e, he⟩ := section_raises (info := info) (pos := g.pos) "\nsources:\n".toList hm h
            rw [h1] at he; cases he
          · obtain ⟨e, he⟩ := section_raises (info := info) (pos := g.pos) "\ndetectors:\n".toList hm h
            rw [h2] at he; cases he
          · obtain ⟨e, he⟩ := section_raises (info := info) (pos := g.pos) "\nboundaries:\n".toList hm h
            rw [h3] at he; cases he
          · obtain ⟨e, he⟩ := section_raises (info := info) (pos := g.pos) "\nobjects:\n".toList hm h
            rw [h4] at he; cases he

/-! ### Programs -/

/-- every axis has a position of the kind the class prints -/
def Placed3 (i : PrintInfo) (s : StoredPos) : Prop := ∀ k, ∃ a, s k = some a ∧ (i.cls.sliced = false → ∀ c, a ≠ .index (.slice c))

lemma map_err {α β : Type} {f : α → β} {x : Except PyErr α} {b : β} (h : x.map f = .ok b) : ∃ a, x = .ok a ∧ f a = b := by
  cases x with
  | error e => cases h
  | ok a => exact ⟨a, rfl, by cases h; rfl⟩

lemma axes_plain (l : IndexLists) (k : Fin 3) (c : PySlice ℤ) : l.axes k ≠ .index (.slice c) := by
  fin_cases k <;> simp [IndexLists.axes]

/-- a position that is accepted is stored on all three axes -/
lemma storePosition_ok {n : Pos} {i : PrintInfo} {old : StoredPos} {kx ky kz : AxisKey} (h : (storePosition n i old kx ky kz).2 = none) :
    Placed3 i (storePosition n i old kx ky kz).1 := by
  have each : ∀ rx ry rz : Except PyErr AxisPos, (storeEach old rx ry rz).2 = none → i.cls.sliced = true → Placed3 i (storeEach old rx ry rz).1 := by
    intro rx ry rz hh hs k
    cases rx with
    | error e => cases hh
    | ok a =>
      cases ry with
      | error e => cases hh
      | ok b =>
        cases rz with
        | error e => cases hh
        | ok c =>
          show ∃ _, (![some a, some b, some c] : StoredPos) k = _ ∧ _
          fin_cases k
          · exact ⟨a, rfl, fun h => by rw [hs] at h; cases h⟩
          · exact ⟨b, rfl, fun h => by rw [hs] at h; cases h⟩
          · exact ⟨c, rfl, fun h => by rw [hs] at h; cases h⟩
  have all : ∀ r : Except PyErr (Fin 3 → AxisPos), (∀ p, r = .ok p → ∀ k c, p k ≠ .index (.slice c)) → (storeAll old r).2 = none → Placed3 i (storeAll old r).1 := by
    intro r hr hh k
    cases r with
    | error e => cases hh
    | ok p => exact ⟨p k, rfl, fun _ => hr p rfl k⟩
  have tup : ∀ p, tuplePosition n i kx ky kz = .ok p → ∀ k c, p k ≠ .index (.slice c) := by
    intro p hp k c
    unfold tuplePosition at hp
    split at hp
    · split at hp
      · cases hp
        fin_cases k <;> simp
      · cases hp
    · obtain ⟨l, -, rfl⟩ := map_err hp
      exact axes_plain l k c
    · obtain ⟨l, -, rfl⟩ := map_err hp
      fin_cases k <;> simp
    · obtain ⟨l, -, rfl⟩ := map_err hp
      exact axes_plain l k c
    · obtain ⟨l, -, rfl⟩ := map_err hp
      exact axes_plain l k c
  unfold storePosition at h ⊢
  split at h <;> rename_i hc
  iterate 5 exact each _ _ _ h (by rw [hc]; rfl)
  exact all _ tup h

lemma store_indep {n : Pos} {i : PrintInfo} {old : StoredPos} {kx ky kz : AxisKey} (h : (storePosition n i old kx ky kz).2 = none) (old' : StoredPos) :
    storePosition n i old' kx ky kz = storePosition n i old kx ky kz := by
  have each : ∀ rx ry rz : Except PyErr AxisPos, (storeEach old rx ry rz).2 = none → storeEach old' rx ry rz = storeEach old rx ry rz := by
    intro rx ry rz hh
    cases rx with
    | error e => cases hh
    | ok a =>
      cases ry with
      | error e => cases hh
      | ok b =>
        cases rz with
        | error e => cases hh
        | ok c => rfl
  have all : ∀ r : Except PyErr (Fin 3 → AxisPos), (storeAll old r).2 = none → storeAll old' r = storeAll old r := by
    intro r hh
    cases r with
    | error e => cases hh
    | ok p => rfl
  unfold storePosition at h ⊢
  split at h <;> rename_i hc
  iterate 5 exact each _ _ _ h
  exact all _ h

/-- where a component goes that is placed with these keys -/
def PrintOp.position (n : Pos) (info : ℕ → PrintInfo) (o : PrintOp) : StoredPos := (storePosition n (info o.id) (fun _ => none) o.kx o.ky o.kz).1

/-- what an accepted placement does -/
lemma op_accepted {n : Pos} {info : ℕ → PrintInfo} {g : PrintGrid} {o : PrintOp} (h : (g.op n info o).2 = none) :
    (info o.id).cls ≠ .anisotropic ∧ (g.op n info o).1.pos = setPos g.pos o.id (o.position n info) ∧ Placed3 (info o.id) (o.position n info) ∧
      ∀ k, (g.op n info o).1.names.listOf k = (g.names.append ((info o.id).comp o.id)).listOf k := by
  unfold PrintGrid.op PrintGrid.place at h ⊢
  simp only at h ⊢
  set c := (info o.id).comp o.id with hc
  set s := storePosition n (info o.id) (g.pos o.id) o.kx o.ky o.kz with hs
  have ha : c.kind ≠ .anisotropic := fun ha => by rw [if_pos ha] at h; cases h
  have hcls : (info o.id).cls ≠ .anisotropic := fun hh => ha (by rw [hc]; show (info o.id).cls.kind = _; rw [hh]; rfl)
  rw [if_neg ha] at h ⊢
  have fin : s.2 = none → s.1 = o.position n info ∧ Placed3 (info o.id) (o.position n info) := by
    intro h2
    have := store_indep h2 (fun _ => none)
    have e : s.1 = o.position n info := by
      unfold PrintOp.position
      rw [this]
    exact ⟨e, e ▸ storePosition_ok h2⟩
  have lists : ∀ early late, (g.names.place c early late).2 = none → ∀ k, (g.names.place c early late).1.listOf k = (g.names.append c).listOf k := by
    intro early late hp k
    obtain ⟨-, e1, -⟩ := place_ok hp
    rw [e1, bindName_lists]
  refine ⟨hcls, ?_⟩
  by_cases hb : c.kind = .boundary
  · rw [if_pos hb] at h ⊢
    cases h2 : s.2 with
    | some e => rw [h2] at h; cases h
    | none =>
      rw [h2] at h
      obtain ⟨e1, e2⟩ := fin h2
      refine ⟨?_, e2, lists _ _ h⟩
      show setPos g.pos o.id s.1 = _
      rw [e1]
  · rw [if_neg hb] at h ⊢
    cases hp : (g.names.place c none none).2 with
    | some e => rw [hp] at h; cases h
    | none =>
      rw [hp] at h
      have h2 : s.2 = none := by
        cases hs2 : s.2 with
        | none => rfl
        | some e =>
          rw [hs2] at h
          cases h
      obtain ⟨e1, e2⟩ := fin h2
      refine ⟨?_, e2, lists _ _ hp⟩
      show setPos g.pos o.id s.1 = _
      rw [e1]

/-- A grid that was made by placements none of which raised, starting from one without components. -/
inductive BuiltBy (n : Pos) (info : ℕ → PrintInfo) : PrintGrid → List PrintOp → Prop
  | start (g : PrintGrid) (h : g.names.listed = []) : BuiltBy n info g []
  | step {g : PrintGrid} {ops : List PrintOp} {o : PrintOp} : BuiltBy n info g ops → (g.op n info o).2 = none → BuiltBy n info (g.op n info o).1 (ops ++ [o])

/-- the four groups of components -/
inductive PrintGroup
  | sources | detectors | boundaries | objects
  deriving DecidableEq

/-- the group of a class -/
def PrintClass.group : PrintClass → PrintGroup
  | .pointSource | .lineSource | .planeSource => .sources
  | .lineDetector | .blockDetector | .currentDetector => .detectors
  | .periodic | .pml => .boundaries
  | .object | .absorbing | .anisotropic => .objects

/-- the components a program places in one of the groups, in order -/
def placedIn (info : ℕ → PrintInfo) (ops : List PrintOp) (k : PrintGroup) : List ℕ := (ops.filter fun o => (info o.id).cls.group = k).map PrintOp.id

lemma placedIn_concat (info : ℕ → PrintInfo) (ops : List PrintOp) (o : PrintOp) (k : PrintGroup) :
    placedIn info (ops ++ [o]) k = placedIn info ops k ++ if (info o.id).cls.group = k then [o.id] else [] := by
  unfold placedIn
  rw [List.filter_append, List.map_append]
  congr 1
  by_cases h : (info o.id).cls.group = k <;> simp [h]

lemma built_spec {n : Pos} {info : ℕ → PrintInfo} {g : PrintGrid} {ops : List PrintOp} (h : BuiltBy n info g ops) :
    (g.names.sources.map Comp.id = placedIn info ops .sources ∧ g.names.detectors.map Comp.id = placedIn info ops .detectors ∧
      g.names.boundaries.map Comp.id = placedIn info ops .boundaries ∧ g.names.objects.map Comp.id = placedIn info ops .objects) ∧
    (∀ o ∈ ops, Placed3 (info o.id) (o.position n info)) ∧
    (∀ c ∈ g.names.listed, ∃ o ∈ ops, o.id = c.id) ∧
    (∀ o ∈ ops, ∃ o' ∈ ops, o'.id = o.id ∧ g.pos o.id = o'.position n info) := by
  induction h with
  | start g h =>
    unfold GridNames.listed at h
    simp only [List.append_eq_nil_iff] at h
    obtain ⟨⟨⟨h1, h2⟩, h3⟩, h4⟩ := h
    refine ⟨?_, (by simp), ?_, by simp⟩
    · rw [h1, h2, h3, h4]
      exact ⟨rfl, rfl, rfl, rfl⟩
    · unfold GridNames.listed
      rw [h1, h2, h3, h4]
      simp
  | @step g ops o hb hacc ih =>
    obtain ⟨⟨i1, i2, i3, i4⟩, i5, i6, i7⟩ := ih
    obtain ⟨ha, hp, hpl, hl⟩ := op_accepted hacc
    have ls := hl .source
    have ld := hl .fieldDetector
    have lb := hl .boundary
    have lo := hl .object
    simp only [GridNames.listOf] at ls ld lb lo
    have lists : (g.op n info o).1.names.sources.map Comp.id = placedIn info (ops ++ [o]) .sources ∧ (g.op n info o).1.names.detectors.map Comp.id = placedIn info (ops ++ [o]) .detectors ∧
        (g.op n info o).1.names.boundaries.map Comp.id = placedIn info (ops ++ [o]) .boundaries ∧ (g.op n info o).1.names.objects.map Comp.id = placedIn info (ops ++ [o]) .objects := by
      rw [ls, ld, lb, lo]
      simp only [placedIn_concat, ← i1, ← i2, ← i3, ← i4]
      unfold GridNames.append PrintInfo.comp
      cases hc : (info o.id).cls <;> simp [PrintClass.kind, PrintClass.group]
    refine ⟨lists, ?_, ?_, ?_⟩
    · intro o' ho'
      rcases List.mem_append.1 ho' with ho' | ho'
      · exact i5 o' ho'
      · rw [List.mem_singleton.1 ho']
        exact hpl
    · intro c hc
      have hid : c.id ∈ placedIn info (ops ++ [o]) .sources ∨ c.id ∈ placedIn info (ops ++ [o]) .detectors ∨ c.id ∈ placedIn info (ops ++ [o]) .boundaries ∨ c.id ∈ placedIn info (ops ++ [o]) .objects := by
        obtain ⟨l1, l2, l3, l4⟩ := lists
        rw [← l1, ← l2, ← l3, ← l4]
        unfold GridNames.listed at hc
        simp only [List.mem_append] at hc
        rcases hc with ((hc | hc) | hc) | hc
        · exact .inl (List.mem_map_of_mem hc)
        · exact .inr (.inl (List.mem_map_of_mem hc))
        · exact .inr (.inr (.inl (List.mem_map_of_mem hc)))
        · exact .inr (.inr (.inr (List.mem_map_of_mem hc)))
      unfold placedIn at hid
      rcases hid with hid | hid | hid | hid
      all_goals
        obtain ⟨o', ho', he⟩ := List.mem_map.1 hid
        exact ⟨o', (List.mem_filter.1 ho').1, he⟩
    · intro o' ho'
      rw [hp]
      unfold setPos
      by_cases he : o'.id = o.id
      · exact ⟨o, List.mem_append_right _ (List.mem_singleton.2 rfl), he.symm, if_pos he⟩
      · rw [if_neg he]
        rcases List.mem_append.1 ho' with ho' | ho'
        · obtain ⟨o2, h2, h3, h4⟩ := i7 o' ho'
          exact ⟨o2, List.mem_append_left _ h2, h3, h4⟩
        · exact absurd (by rw [List.mem_singleton.1 ho']) he

/-- C133, accepted programs: a grid made by placements that were all accepted, each of different components and none on an empty list of cells, can be printed; the text has one entry for each component, in the
group and the order of placement, with the position it was placed at. -/
theorem C133_prints_partial {n : Pos} {info : ℕ → PrintInfo} {g : PrintGrid} {ops : List PrintOp} (h : BuiltBy n info g ops) (hid : (ops.map PrintOp.id).Nodup)
    (hne : ∀ o ∈ ops, ∀ k, o.position n info k ≠ some (.list [])) (spacing courant : Str) :
    ∃ p : ℕ → Fin 3 → AxisPos, (∀ o ∈ ops, ∀ k, o.position n info k = some (p o.id k)) ∧
      g.text n spacing courant info = .ok (shownGrid n spacing courant info p (placedIn info ops .sources) (placedIn info ops .detectors) (placedIn info ops .boundaries) (placedIn info ops .objects)) := by
  obtain ⟨⟨i1, i2, i3, i4⟩, i5, i6, i7⟩ := built_spec h
  have hpos : ∀ o ∈ ops, g.pos o.id = o.position n info := by
    intro o ho
    obtain ⟨o', ho', he, hp⟩ := i7 o ho
    rw [hp, List.inj_on_of_nodup_map hid ho' ho he]
  refine ⟨fun id k => (g.pos id k).getD (.cell 0), ?_, ?_⟩
  · intro o ho k
    obtain ⟨a, ha, -⟩ := i5 o ho k
    simp only
    rw [hpos o ho, ha]
    rfl
  · rw [← i1, ← i2, ← i3, ← i4]
    refine C133_text n spacing courant info g _ fun c hc => ?_
    obtain ⟨o, ho, he⟩ := i6 c hc
    rw [← he]
    constructor
    · intro k
      obtain ⟨a, ha, -⟩ := i5 o ho k
      have := hne o ho k
      rw [hpos o ho, ha]
      exact ⟨rfl, fun hh => this (by rw [ha]; exact congrArg some hh)⟩
    · intro hs k s
      obtain ⟨a, ha, ha'⟩ := i5 o ho k
      rw [hpos o ho, ha]
      exact ha' hs s

/-! ### Reading the text -/

/-- two coordinates are told apart by their text, whatever comes after it -/
def ToldApart (a a' : AxisPos) : Prop := ∀ v v', shownAxis a ++ ',' :: v = shownAxis a' ++ ',' :: v' → a = a' ∧ v = v'

lemma boundStr_injective : Function.Injective boundStr := by
  intro a b h
  cases a with
  | none =>
    cases b with
    | none => rfl
    | some j => exact absurd h.symm (intStr_ne_nil j)
  | some i =>
    cases b with
    | none => exact absurd h (intStr_ne_nil i)
    | some j => exact congrArg some (intStr_injective h)

lemma sliceNotation_injective {s s' : PySlice ℤ} (h : sliceNotation s = sliceNotation s') : s = s' := by
  have hb : ∀ o : Option ℤ, ':' ∉ boundStr o := fun o => boundStr_not_mem o (by decide) (by decide)
  unfold sliceNotation at h
  obtain ⟨h1, h2⟩ := cut_eq (hb _) (hb _) h
  have e1 := boundStr_injective h1
  obtain ⟨a, b, c⟩ := s
  obtain ⟨a', b', c'⟩ := s'
  simp only at h2 e1
  subst e1
  cases c with
  | none =>
    cases c' with
    | none =>
      simp only [List.append_nil] at h2
      rw [boundStr_injective h2]
    | some j =>
      simp only [List.append_nil] at h2
      exact absurd (by rw [h2]; simp) (hb b)
  | some i =>
    cases c' with
    | none =>
      simp only [List.append_nil] at h2
      exact absurd (by rw [← h2]; simp) (hb b')
    | some j =>
      obtain ⟨h3, h4⟩ := cut_eq (hb _) (hb _) h2
      rw [boundStr_injective h3, intStr_injective h4]

lemma sliceNotation_no_comma (s : PySlice ℤ) : ',' ∉ sliceNotation s := by
  unfold sliceNotation
  simp only [List.mem_append, List.mem_cons, not_or]
  refine ⟨boundStr_not_mem _ (by decide) (by decide), by decide, boundStr_not_mem _ (by decide) (by decide), ?_⟩
  cases s.step with
  | none => simp
  | some c =>
    simp only [List.mem_cons, not_or]
    exact ⟨by decide, intStr_not_mem c (by decide) (by decide)⟩

lemma told_cell (i j : ℤ) : ToldApart (.cell i) (.cell j) := fun v v' h => by
  obtain ⟨h1, h2⟩ := cut_eq (intStr_not_mem i (by decide) (by decide)) (intStr_not_mem j (by decide) (by decide)) h
  exact ⟨by rw [intStr_injective h1], h2⟩

lemma told_range (a b a' b' : ℤ) : ToldApart (.range a b) (.range a' b') := fun v v' h => by
  have h0 : dotsText a b ++ ',' :: v = dotsText a' b' ++ ',' :: v' := h
  unfold dotsText at h0
  simp only [List.cons_append, List.append_assoc, List.nil_append, List.cons.injEq, true_and] at h0
  obtain ⟨h1, h2⟩ := cut_eq (intStr_not_mem a (by decide) (by decide)) (intStr_not_mem a' (by decide) (by decide)) h0
  simp only [List.cons.injEq, true_and] at h2
  obtain ⟨h3, h4⟩ := cut_eq (intStr_not_mem b (by decide) (by decide)) (intStr_not_mem b' (by decide) (by decide)) h2
  rw [intStr_injective h1, intStr_injective h3]
  exact ⟨rfl, (List.cons.inj h4).2⟩

lemma told_index (k k' : IntOrSlice) : ToldApart (.index k) (.index k') := fun v v' h => by
  have hi : ∀ i : ℤ, ',' ∉ intStr i := fun i => intStr_not_mem i (by decide) (by decide)
  have hc : ∀ i : ℤ, ':' ∉ intStr i := fun i => intStr_not_mem i (by decide) (by decide)
  have hs : ∀ s, ':' ∈ sliceNotation s := fun s => by unfold sliceNotation; simp
  cases k with
  | int i =>
    cases k' with
    | int j =>
      obtain ⟨h1, h2⟩ := cut_eq (hi i) (hi j) h
      exact ⟨by rw [intStr_injective h1], h2⟩
    | slice s =>
      obtain ⟨h1, h2⟩ := cut_eq (hi i) (sliceNotation_no_comma s) h
      exact absurd (h1 ▸ hs s) (hc i)
  | slice s =>
    cases k' with
    | int j =>
      obtain ⟨h1, h2⟩ := cut_eq (sliceNotation_no_comma s) (hi j) h
      exact absurd (h1 ▸ hs s) (hc j)
    | slice s' =>
      obtain ⟨h1, h2⟩ := cut_eq (sliceNotation_no_comma s) (sliceNotation_no_comma s') h
      exact ⟨by rw [sliceNotation_injective h1], h2⟩

/-- coordinates that are not lists of cells, of the same kind -/
inductive SameKind : AxisPos → AxisPos → Prop
  | cell (i j : ℤ) : SameKind (.cell i) (.cell j)
  | range (a b a' b' : ℤ) : SameKind (.range a b) (.range a' b')
  | index (k k' : IntOrSlice) : SameKind (.index k) (.index k')

/-- C133, reading: from the entry of a point source, plane source, boundary or object its position can be read off: different positions have different entries. -/
theorem C133_location (r : Str) (p q : Fin 3 → AxisPos) (hk : ∀ k, SameKind (p k) (q k)) (h : shownEntry r p = shownEntry r q) : p = q := by
  have told : ∀ k, ToldApart (p k) (q k) := fun k => by
    have hkk := hk k
    generalize p k = a, q k = b at hkk
    cases hkk with
    | cell i j => exact told_cell i j
    | range a b a' b' => exact told_range a b a' b'
    | index k k' => exact told_index k k'
  rw [← plainEntry_eq, ← plainEntry_eq] at h
  unfold plainEntry locationLine at h
  have h0 := List.append_cancel_left h
  simp only [List.append_assoc] at h0
  have h1 := List.append_cancel_left h0
  obtain ⟨e0, h2⟩ := told 0 _ _ h1
  obtain ⟨e1, h3⟩ := told 1 _ _ (List.append_cancel_left (as := [' ', 'y', '=']) h2)
  have h4 : shownAxis (p 2) = shownAxis (q 2) := List.append_cancel_right (List.append_cancel_left (as := [' ', 'z', '=']) h3)
  obtain ⟨e2, -⟩ := told 2 [] [] (by rw [h4])
  funext k
  fin_cases k
  · exact e0
  · exact e1
  · exact e2

/-! ### What is not so -/

/-- C133: all boundaries are called `PML` in the text; a periodic boundary and a PML of the same name at the same place cannot be told apart. -/
theorem C133_kind_false (name : Option Str) (args : Str) (pol : String) (s : StoredPos) : compText ⟨.periodic, name, args, pol⟩ s = compText ⟨.pml, name, args, pol⟩ s := rfl

/-- a program run after another -/
lemma runOps_append (n : Pos) (info : ℕ → PrintInfo) (g : PrintGrid) (a b : List PrintOp) : g.runOps n info (a ++ b) = (g.runOps n info a).runOps n info b := List.foldl_append

/-- placements never take a component off the grid, and touch the position of no other component -/
lemma op_keeps (n : Pos) (info : ℕ → PrintInfo) (g : PrintGrid) (o : PrintOp) :
    (∀ c ∈ g.names.listed, c ∈ (g.op n info o).1.names.listed) ∧ ∀ id, id ≠ o.id → (g.op n info o).1.pos id = g.pos id := by
  have happ : ∀ c d : Comp, c ∈ g.names.listed → c ∈ (g.names.append d).listed := by
    intro c d hc
    unfold GridNames.listed at hc ⊢
    unfold GridNames.append
    simp only [List.mem_append] at hc ⊢
    cases d.kind <;> simp only [List.mem_append] <;> tauto
  have hbind : ∀ (m : GridNames) (d : Comp), (m.bindName d).1.listed = m.listed := by
    intro m d
    unfold GridNames.listed
    have h1 := bindName_lists m d .source
    have h2 := bindName_lists m d .fieldDetector
    have h3 := bindName_lists m d .boundary
    have h4 := bindName_lists m d .object
    simp only [GridNames.listOf] at h1 h2 h3 h4
    rw [h1, h2, h3, h4]
  have hplace : ∀ (c d : Comp) (e l : Option PyErr), c ∈ g.names.listed → c ∈ (g.names.place d e l).1.listed := by
    intro c d e l hc
    have key : ∀ x : GridNames × Option PyErr, c ∈ x.1.listed → c ∈ (match x with | (g2, some e) => (g2, some e) | (g2, none) => (g2, l)).1.listed := by
      rintro ⟨g2, _ | e⟩ hx <;> exact hx
    have hc2 : c ∈ ((g.names.append d).bindName d).1.listed := by
      rw [hbind]
      exact happ c d hc
    rw [GridNames.place]
    split_ifs with h1 h2
    · exact hc
    · cases e with
      | some e => exact happ c d hc
      | none => exact key _ hc2
    · exact key _ hc2
  unfold PrintGrid.op PrintGrid.place
  simp only
  split_ifs with h1 h2
  · exact ⟨fun _ h => h, fun _ _ => rfl⟩
  · cases (storePosition n (info o.id) (g.pos o.id) o.kx o.ky o.kz).2 with
    | some e => exact ⟨fun c hc => hplace c _ _ _ hc, fun id hid => if_neg hid⟩
    | none => exact ⟨fun c hc => hplace c _ _ _ hc, fun id hid => if_neg hid⟩
  · cases (g.names.place ((info o.id).comp o.id) none none).2 with
    | some e => exact ⟨fun c hc => hplace c _ _ _ hc, fun id hid => rfl⟩
    | none => exact ⟨fun c hc => hplace c _ _ _ hc, fun id hid => if_neg hid⟩

lemma runOps_keeps {n : Pos} {info : ℕ → PrintInfo} {id : ℕ} : ∀ (ops : List PrintOp) (g : PrintGrid), (∀ o ∈ ops, o.id ≠ id) →
    (∀ c ∈ g.names.listed, c ∈ (g.runOps n info ops).names.listed) ∧ (g.runOps n info ops).pos id = g.pos id
  | [], _, _ => ⟨fun _ h => h, rfl⟩
  | o :: ops, g, h => by
    obtain ⟨a1, a2⟩ := op_keeps n info g o
    obtain ⟨b1, b2⟩ := runOps_keeps ops (g.op n info o).1 fun o' ho' => h o' (List.mem_cons_of_mem _ ho')
    exact ⟨fun c hc => b1 c (a1 c hc), b2.trans (a2 id (Ne.symm (h o List.mem_cons_self)))⟩

/-- C133: a component that was refused because its name is taken stays on the grid without a position, and the grid cannot be printed any more, whatever else is placed. -/
theorem C133_rejected_false {n : Pos} {info : ℕ → PrintInfo} {g : PrintGrid} {o : PrintOp} {m : Str} (hname : (info o.id).name = some m) (htaken : (g.names.attr m).isSome)
    (ha : (info o.id).cls ≠ .anisotropic) (hb : (info o.id).cls.group ≠ .boundaries) (hnew : g.pos o.id = fun _ => none) (ops : List PrintOp) (hops : ∀ o' ∈ ops, o'.id ≠ o.id) (spacing courant : Str) :
    (g.op n info o).2 = some .valueError ∧ ∃ e, ((g.op n info o).1.runOps n info ops).text n spacing courant info = .error e := by
  set c := (info o.id).comp o.id with hc
  have ha' : c.kind ≠ .anisotropic := by
    show (info o.id).cls.kind ≠ _
    cases hcl : (info o.id).cls <;> first | (exact absurd hcl ha) | (intro hh; cases hh)
  have hb' : c.kind ≠ .boundary := by
    show (info o.id).cls.kind ≠ _
    cases hcl : (info o.id).cls <;> first | (exact absurd (by rw [hcl]; rfl) hb) | (intro hh; cases hh)
  have hbind : (g.names.append c).bindName c = (g.names.append c, some .valueError) := by
    rw [GridNames.bindName]
    have : c.name = some m := hname
    rw [this]
    simp only
    rw [if_pos (by rw [append_attr]; exact htaken)]
  have hpl : g.names.place c none none = (g.names.append c, some .valueError) := by
    rw [GridNames.place, if_neg ha', if_neg hb']
    simp only
    rw [hbind]
  have hop : g.op n info o = (⟨g.names.append c, g.pos⟩, some .valueError) := by
    unfold PrintGrid.op PrintGrid.place
    simp only
    rw [← hc, if_neg ha', if_neg hb', hpl]
  rw [hop]
  refine ⟨rfl, ?_⟩
  obtain ⟨k1, k2⟩ := runOps_keeps (n := n) (info := info) ops ⟨g.names.append c, g.pos⟩ hops
  refine C133_raises n spacing courant info _ (c := c) (k1 c ?_) ?_
  · unfold GridNames.listed GridNames.append
    cases c.kind <;> simp
  · intro hh
    obtain ⟨a, ha, -⟩ := hh 0
    rw [show ((PrintGrid.mk (g.names.append c) g.pos).runOps n info ops).pos c.id = g.pos o.id from k2, hnew] at ha
    cases ha

/-! ### Examples -/

/-- a PML, detectors, a plane source, an absorbing object and a periodic boundary -/
def printInfo : ℕ → PrintInfo
  | 0 => ⟨.pml, some ['p'], [], ""⟩
  | 1 => ⟨.lineDetector, some ['d'], [], ""⟩
  | 2 => ⟨.planeSource, none, "period=20, amplitude=1.0, phase_shift=0.0, ".toList, "z"⟩
  | 3 => ⟨.absorbing, none, [], ""⟩
  | 4 => ⟨.periodic, some ['b'], [], ""⟩
  | 6 => ⟨.blockDetector, none, [], ""⟩
  | _ => ⟨.lineDetector, some ['d'], [], ""⟩

/-- ten by ten by ten cells -/
def printCells : Pos := fun _ => 10

/-- nothing placed -/
def emptyPrint : PrintGrid := ⟨bareGrid, fun _ _ => none⟩

/-- `a:b` -/
def slc (a b : Option ℤ) : AxisKey := .slice ⟨a, b, none⟩

/-- the placements of the example -/
def printOps : List PrintOp :=
  [⟨0, slc (some 0) (some 3), slc none none, slc none none, none⟩, ⟨1, .list [4, 4], .list [0, 1], .list [2, 2], none⟩, ⟨2, .list [5], slc none none, slc none none, none⟩,
    ⟨3, slc (some 6) (some (-2)), slc none none, .list [0], none⟩, ⟨4, slc none none, .list [0], slc none none, none⟩]

/-- the example is a program of accepted placements -/
lemma printBuilt : BuiltBy printCells printInfo (emptyPrint.runOps printCells printInfo printOps) printOps :=
  .step (.step (.step (.step (.step (.start emptyPrint rfl) (by decide +kernel)) (by decide +kernel)) (by decide +kernel)) (by decide +kernel)) (by decide +kernel)

/-- what is printed for it -/
example : (emptyPrint.runOps printCells printInfo printOps).text printCells "1.0e-07".toList "0.70".toList printInfo = .ok (
    "Grid(shape=(10,10,10), grid_spacing=1.0e-07, courant_number=0.70)\n".toList ++
    "\nsources:\n    PlaneSource(period=20, amplitude=1.0, phase_shift=0.0, name=None, polarization='z')\n        @ x=[5, ... , 6], y=[0, ... , 10], z=[0, ... , 10]\n".toList ++
    "\ndetectors:\n    LineDetector(name='d')\n        @ x=[4, ... , 4], y=[0, ... , 1], z=[2, ... , 2]\n".toList ++
    "\nboundaries:\n    PML(name='p')\n        @ x=0:3, y=:, z=:\n    PML(name='b')\n        @ x=:, y=0, z=:\n".toList ++
    "\nobjects:\n    AbsorbingObject(name=None)\n        @ x=6:8, y=0:10, z=0:1\n".toList) := by decide +kernel

/-- `C133_prints_partial` applies to it -/
example : (printOps.map PrintOp.id).Nodup ∧ ∀ o ∈ printOps, ∀ k, o.position printCells printInfo k ≠ some (.list []) := by
  refine ⟨by decide, fun o ho k hk => ?_⟩
  have : ∀ o ∈ printOps, ∀ k : Fin 3, (match o.position printCells printInfo k with | some (.list []) => true | _ => false) = false := by decide +kernel
  have := this o ho k
  rw [hk] at this
  cases this

/-- `C133_rejected_false` applies: a second detector called `d` -/
example : let g := emptyPrint.runOps printCells printInfo printOps
    (g.op printCells printInfo ⟨5, .list [1], .list [1], .list [1], none⟩).2 = some .valueError ∧
      (g.op printCells printInfo ⟨5, .list [1], .list [1], .list [1], none⟩).1.text printCells [] [] printInfo = .error .attributeError := by decide +kernel

/-- C133: a block detector on the slice `3:2` covers no cell and is accepted, and the grid cannot be printed afterwards. -/
theorem C133_empty_false : let o : PrintOp := ⟨6, slc (some 3) (some 2), slc none none, slc none none, none⟩
    (emptyPrint.op printCells printInfo o).2 = none ∧ (emptyPrint.op printCells printInfo o).1.text printCells [] [] printInfo = .error .indexError := by decide +kernel

/-- C133: only the first and the last cell of a list of cells are shown: two detectors at different cells have the same text. -/
theorem C133_cells_false : ∃ l l' : IndexLists, l ≠ l' ∧ ∀ i : PrintInfo, compText i (fun k => some (l.axes k)) = compText i (fun k => some (l'.axes k)) :=
  ⟨⟨[0, 5, 2], [0, 0, 0], [0, 0, 0]⟩, ⟨[0, 1, 2], [0, 0, 0], [0, 0, 0]⟩, by decide, fun i => rfl⟩

/-- C133: brackets mean different things: for a plane source over the cells 0 to 4 the text `[0, ... , 5]` names the first cell that is not covered, for a block detector over the cells 0 to 5 the last that is. -/
theorem C133_brackets_false : planeBounds 10 (slc (some 0) (some 5)) = .ok (0, 5) ∧ (∀ i : ℕ, inSlice 10 (0, 5) i = true ↔ i ≤ 4) ∧
    blockRange 0 5 = .ok [0, 1, 2, 3, 4, 5] ∧ axisText (some (.range 0 5)) = axisText (some (.list [0, 1, 2, 3, 4, 5])) := by
  refine ⟨by decide +kernel, fun i => ?_, by decide +kernel, rfl⟩
  have h1 : clampIndex 10 0 = 0 := by decide
  have h2 : clampIndex 10 5 = 5 := by decide
  unfold inSlice
  rw [h1, h2]
  simp only [decide_eq_true_eq]
  omega

end Nidn
