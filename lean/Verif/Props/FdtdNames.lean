/-
Property C126: components are available under their names, and stored readings hold every detector's signals.
-/
import Verif.Model.FdtdNames
import Verif.Lemmas.Py

namespace Nidn

lemma append_attr (g : GridNames) (c : Comp) : (g.append c).attr = g.attr := by
  rw [GridNames.append]; split <;> rfl

lemma append_folder (g : GridNames) (c : Comp) : (g.append c).folder = g.folder := by
  rw [GridNames.append]; split <;> rfl

lemma bindName_attr {g : GridNames} {c : Comp} {n : Str} {v : GridAttr} (h : g.attr n = some v) : (g.bindName c).1.attr n = some v := by
  rw [GridNames.bindName]
  split
  · exact h
  · split_ifs with hs
    · exact h
    · show (if _ then _ else _) = _
      rw [if_neg, h]
      rintro rfl
      rw [h] at hs
      exact hs rfl

lemma place_attr {g : GridNames} {c : Comp} {early late : Option PyErr} {n : Str} {v : GridAttr} (h : g.attr n = some v) : (g.place c early late).1.attr n = some v := by
  have h1 : (g.append c).attr n = some v := by rw [append_attr, h]
  have h2 := bindName_attr (c := c) h1
  rw [GridNames.place]
  split_ifs
  · exact h
  · split
    · exact h1
    · split <;> simp_all
  · simp only
    split <;> simp_all

/-- C126, names stay: whatever a program places on a grid, with or without success, an attribute that exists keeps its meaning. In particular a component keeps its name,
and no name hides a method or a field of the grid. The one exception is the attribute that `save_simulation` sets (`C126_simname_false`). -/
theorem C126_stays_partial (g : GridNames) (ops : List GridOp) {n : Str} {v : GridAttr} (hn : n ≠ simNameAttr) (h : g.attr n = some v) : (g.runOps ops).attr n = some v := by
  induction ops generalizing g with
  | nil => exact h
  | cons o ops ih =>
    refine ih (g.op o).1 ?_
    cases o with
    | place c e l => exact place_attr h
    | add c =>
      show (g.addComp c).1.attr n = _
      rw [GridNames.addComp]
      split
      · exact place_attr h
      · exact place_attr h
      · exact h
    | saveSimulation =>
      show (if _ then _ else _) = _
      rw [if_neg hn, h]

/-- the list of a grid that holds a kind of component -/
def GridNames.listOf (g : GridNames) : CompKind → List Comp
  | .object | .absorbing | .anisotropic => g.objects
  | .source => g.sources
  | .fieldDetector | .currentDetector => g.detectors
  | .boundary => g.boundaries

lemma append_listOf (g : GridNames) (c : Comp) : (g.append c).listOf c.kind = g.listOf c.kind ++ [c] := by
  rw [GridNames.append]
  cases h : c.kind <;> rfl

lemma bindName_lists (g : GridNames) (c : Comp) : ∀ k, (g.bindName c).1.listOf k = g.listOf k := by
  intro k
  rw [GridNames.bindName]
  split
  · rfl
  · split_ifs
    · rfl
    · cases k <;> rfl

lemma place_ok {g : GridNames} {c : Comp} {early late : Option PyErr} (h : (g.place c early late).2 = none) :
    c.kind ≠ .anisotropic ∧ (g.place c early late).1 = ((g.append c).bindName c).1 ∧ ((g.append c).bindName c).2 = none := by
  have key : ∀ x : GridNames × Option PyErr, (match x with | (g2, some e) => (g2, some e) | (g2, none) => (g2, late)).2 = none →
      (match x with | (g2, some e) => (g2, some e) | (g2, none) => (g2, late)).1 = x.1 ∧ x.2 = none := by
    rintro ⟨g2, _ | e⟩ hx
    · exact ⟨rfl, rfl⟩
    · cases hx
  rw [GridNames.place] at h ⊢
  by_cases h1 : c.kind = .anisotropic
  · rw [if_pos h1] at h; cases h
  · rw [if_neg h1] at h ⊢
    refine ⟨h1, ?_⟩
    cases he : (if c.kind = .boundary then early else none) with
    | some e => rw [he] at h; cases h
    | none => rw [he] at h; exact key _ h

/-- C126, accepted: a component whose placement raises nothing is the last of its list on the grid and is what its name stands for; the name was free before. -/
theorem C126_accepted {g : GridNames} {c : Comp} {early late : Option PyErr} (h : (g.place c early late).2 = none) :
    (g.place c early late).1.listOf c.kind = g.listOf c.kind ++ [c] ∧ ∀ n, c.name = some n → g.attr n = none ∧ (g.place c early late).1.attr n = some (.comp c.id) := by
  obtain ⟨-, h2, h3⟩ := place_ok h
  rw [h2]
  refine ⟨by rw [bindName_lists, append_listOf], fun n hn => ?_⟩
  rw [GridNames.bindName, hn] at h3 ⊢
  simp only at h3 ⊢
  split_ifs at h3 ⊢ with hs
  · rw [append_attr, Option.not_isSome_iff_eq_none] at hs
    exact ⟨hs, if_pos rfl⟩

/-- C126, when: a placement is accepted exactly if the class can be placed at all, its position is accepted, and its name is free. -/
theorem C126_when (g : GridNames) (c : Comp) (early late : Option PyErr) :
    (g.place c early late).2 = none ↔ c.kind ≠ .anisotropic ∧ (c.kind = .boundary → early = none) ∧ late = none ∧ ∀ n, c.name = some n → g.attr n = none := by
  have ha := append_attr g c
  obtain ⟨id, kind, name⟩ := c
  cases kind <;> cases early <;> cases late <;> cases name <;> simp [GridNames.place, GridNames.bindName, ha] <;>
    (try split_ifs with hs) <;> simp_all [Option.isSome_iff_ne_none]

/-! ### stored readings -/

variable {β : Type}

lemma dictPut_keys (l : List (Str × β)) (k : Str) (v : β) : (dictPut l k v).map Prod.fst = if k ∈ l.map Prod.fst then l.map Prod.fst else l.map Prod.fst ++ [k] := by
  rw [dictPut]
  split_ifs with h
  · rw [List.map_map]
    apply List.map_congr_left
    intro e _
    show (if e.1 = k then (k, v) else e).1 = e.1
    split_ifs with he
    · exact he.symm
    · rfl
  · simp

lemma dictPut_new {l : List (Str × β)} {k : Str} {v : β} (h : k ∉ l.map Prod.fst) : dictPut l k v = l ++ [(k, v)] := by rw [dictPut, if_neg h]

/-- the two arrays of a detector called `n` -/
def arraysOf (record : ℕ → β × β) (n : Str) (id : ℕ) : List (Str × β) := [(n ++ suffixE, (record id).1), (n ++ suffixH, (record id).2)]

lemma suffix_ne (a b : Str) : a ++ suffixE ≠ b ++ suffixH := fun h => by
  have := (List.append_inj' h rfl).2
  exact absurd this (by decide)

lemma saveFold {record : ℕ → β × β} : ∀ {l : List Comp} {dic : List (Str × β)}, (∀ c ∈ l, c.kind = .fieldDetector ∧ c.name.isSome) → (l.map Comp.name).Nodup →
    (∀ c ∈ l, ∀ n, c.name = some n → n ++ suffixE ∉ dic.map Prod.fst ∧ n ++ suffixH ∉ dic.map Prod.fst) →
    l.foldlM (saveStep record) dic = .ok (dic ++ l.flatMap fun c => arraysOf record (c.name.getD []) c.id)
  | [], dic, _, _, _ => by simp; rfl
  | c :: l, dic, hl, hd, hk => by
    obtain ⟨h1, h2⟩ := hl c List.mem_cons_self
    obtain ⟨n, hn⟩ := Option.isSome_iff_exists.1 h2
    obtain ⟨k1, k2⟩ := hk c List.mem_cons_self n hn
    have hstep : saveStep record dic c = .ok (dic ++ arraysOf record n c.id) := by
      rw [saveStep, if_neg (by rw [h1]; decide), hn]
      show Except.ok _ = _
      rw [dictPut_new k1, dictPut_new, List.append_assoc]
      · rfl
      · rw [List.map_append, List.mem_append, not_or]
        refine ⟨k2, fun h => ?_⟩
        rw [List.map_cons, List.map_nil, List.mem_singleton] at h
        exact suffix_ne _ _ h.symm
    rw [List.foldlM_cons, hstep]
    show l.foldlM (saveStep record) _ = _
    rw [List.map_cons, List.nodup_cons] at hd
    rw [saveFold (fun c hc => hl c (List.mem_cons_of_mem _ hc)) hd.2, List.flatMap_cons, hn, List.append_assoc]
    · rfl
    · intro c' hc' n' hn'
      obtain ⟨k1', k2'⟩ := hk c' (List.mem_cons_of_mem _ hc') n' hn'
      have hne : n' ≠ n := by
        rintro rfl
        exact hd.1 (List.mem_map.2 ⟨c', hc', by rw [hn', hn]⟩)
      rw [List.map_append, List.mem_append, List.mem_append, not_or, not_or]
      refine ⟨⟨k1', fun h => ?_⟩, k2', fun h => ?_⟩
      · simp only [arraysOf, List.map_cons, List.map_nil, List.mem_cons, List.not_mem_nil, or_false] at h
        rcases h with h | h
        · exact hne (List.append_inj' h rfl).1
        · exact suffix_ne _ _ h
      · simp only [arraysOf, List.map_cons, List.map_nil, List.mem_cons, List.not_mem_nil, or_false] at h
        rcases h with h | h
        · exact suffix_ne _ _ h.symm
        · exact hne (List.append_inj' h rfl).1

/-- the grids a program gets to by placements that all succeed -/
inductive Placed (g0 : GridNames) : GridNames → Prop
  | start : Placed g0 g0
  | place {g : GridNames} (c : Comp) (early late : Option PyErr) : Placed g0 g → (g.place c early late).2 = none → Placed g0 (g.place c early late).1
  | save {g : GridNames} : Placed g0 g → Placed g0 g.saveSimulation

/-- Names of detectors are taken and different. -/
lemma placed_names {g0 g : GridNames} (h : Placed g0 g) (h0 : g0.detectors = []) :
    (∀ c ∈ g.detectors, ∀ n, c.name = some n → (g.attr n).isSome) ∧ ((g.detectors.filter fun c => c.name.isSome).map Comp.name).Nodup := by
  induction h with
  | start => rw [h0]; simp
  | save _ ih =>
    refine ⟨fun c hc n hn => ?_, ih.2⟩
    show (if _ then _ else _ : Option GridAttr).isSome
    split_ifs
    · rfl
    · exact ih.1 c hc n hn
  | @place g c early late _ hok ih =>
    obtain ⟨a1, a2⟩ := C126_accepted hok
    by_cases hk : c.kind = .fieldDetector ∨ c.kind = .currentDetector
    · have hlist : (g.place c early late).1.detectors = g.detectors ++ [c] := by
        rcases hk with hk | hk <;> rw [hk] at a1 <;> exact a1
      rw [hlist]
      constructor
      · intro c' hc' n hn
        rcases List.mem_append.1 hc' with hc' | hc'
        · obtain ⟨v, hv⟩ := Option.isSome_iff_exists.1 (ih.1 c' hc' n hn)
          rw [place_attr hv]; rfl
        · rw [List.mem_singleton] at hc'
          rw [(a2 n (hc' ▸ hn)).2]; rfl
      · rw [List.filter_append, List.map_append, List.nodup_append]
        refine ⟨ih.2, ?_, ?_⟩
        · rw [List.filter_cons]
          split_ifs <;> simp
        · intro x hx y hy e
          rw [List.mem_map] at hx hy
          obtain ⟨cx, hcx, rfl⟩ := hx
          obtain ⟨cy, hcy, rfl⟩ := hy
          rw [List.mem_filter, List.mem_singleton] at hcy
          rw [List.mem_filter] at hcx
          obtain ⟨rfl, hs⟩ := hcy
          obtain ⟨n, hn⟩ := Option.isSome_iff_exists.1 hs
          have h1 := ih.1 cx hcx.1 n (by rw [e, hn])
          rw [(a2 n hn).1] at h1
          cases h1
    · have hlist : (g.place c early late).1.detectors = g.detectors := by
        rw [(place_ok hok).2.1]
        have := bindName_lists (g.append c) c .fieldDetector
        rw [show ((g.append c).bindName c).1.detectors = (g.append c).detectors from this, GridNames.append]
        rw [not_or] at hk
        split <;> simp_all
      rw [hlist]
      refine ⟨fun c' hc' n hn => ?_, ih.2⟩
      obtain ⟨v, hv⟩ := Option.isSome_iff_exists.1 (ih.1 c' hc' n hn)
      rw [place_attr hv]; rfl

/-- C126, readings: on a grid made by successful placements, after `save_simulation`, with named line and block detectors, the stored file has exactly the two arrays of every
detector, in order, under its name. Missing for the full claim: unnamed detectors and current detectors (`C126_unnamed_false`, `C126_current_false`) and detectors left behind by a rejected
placement (`C126_rejected_false`). -/
theorem C126_saved_partial {g0 g : GridNames} (h : Placed g0 g) (h0 : g0.detectors = []) (hf : g.folder = true)
    (hd : ∀ c ∈ g.detectors, c.kind = .fieldDetector ∧ c.name.isSome) (record : ℕ → β × β) :
    ∃ dic, g.saveData record = .ok dic ∧ dic.length = 2 * g.detectors.length ∧ (dic.map Prod.fst).Nodup ∧
      ∀ c ∈ g.detectors, ∀ n, c.name = some n → (n ++ suffixE, (record c.id).1) ∈ dic ∧ (n ++ suffixH, (record c.id).2) ∈ dic := by
  have hnd := (placed_names h h0).2
  rw [List.filter_eq_self.2 (fun c hc => (hd c hc).2)] at hnd
  refine ⟨g.detectors.flatMap fun c => arraysOf record (c.name.getD []) c.id, ?_, ?_, ?_, ?_⟩
  · rw [GridNames.saveData, if_pos hf, saveFold hd hnd (by simp)]
    rfl
  · generalize g.detectors = l
    induction l with
    | nil => rfl
    | cons c l ih => rw [List.flatMap_cons, List.length_append, ih, List.length_cons]; show 2 + _ = _; omega
  · clear hf h h0
    generalize g.detectors = l at hd hnd
    induction l with
    | nil => simp
    | cons c l ih =>
      rw [List.map_cons, List.nodup_cons] at hnd
      rw [List.flatMap_cons, List.map_append, List.nodup_append]
      refine ⟨?_, ih (fun c hc => hd c (List.mem_cons_of_mem _ hc)) hnd.2, ?_⟩
      · simp [arraysOf]; decide
      · intro a ha b hb e
        subst e
        rw [List.mem_map] at ha hb
        obtain ⟨x, hx, rfl⟩ := ha
        obtain ⟨y, hy, hyx⟩ := hb
        rw [List.mem_flatMap] at hy
        obtain ⟨c', hc', hy⟩ := hy
        have hne : c'.name.getD [] ≠ c.name.getD [] := by
          intro e
          obtain ⟨n, hn⟩ := Option.isSome_iff_exists.1 (hd c List.mem_cons_self).2
          obtain ⟨n', hn'⟩ := Option.isSome_iff_exists.1 (hd c' (List.mem_cons_of_mem _ hc')).2
          rw [hn, hn'] at e
          exact hnd.1 (List.mem_map.2 ⟨c', hc', by rw [hn, hn', show n' = n from e]⟩)
        simp only [arraysOf, List.mem_cons, List.not_mem_nil, or_false] at hx hy
        rcases hx with rfl | rfl <;> rcases hy with rfl | rfl
        · exact hne (List.append_inj' hyx rfl).1
        · exact suffix_ne _ _ hyx.symm
        · exact suffix_ne _ _ hyx
        · exact hne (List.append_inj' hyx rfl).1
  · intro c hc n hn
    constructor <;>
    · rw [List.mem_flatMap]
      refine ⟨c, hc, ?_⟩
      rw [hn]
      simp [arraysOf]

lemma place_folder (g : GridNames) (c : Comp) (early late : Option PyErr) : (g.place c early late).1.folder = g.folder := by
  have h1 := append_folder g c
  have h2 : ((g.append c).bindName c).1.folder = g.folder := by
    rw [GridNames.bindName]
    split
    · exact h1
    · split_ifs <;> exact h1
  rw [GridNames.place]
  split_ifs
  · rfl
  · split
    · exact h1
    · split <;> simp_all
  · simp only
    split <;> simp_all

/-- C126, order: whatever else a program has done, data can be saved only after `save_simulation`; before, the documented exception is raised. -/
theorem C126_order (g : GridNames) (hg : g.folder = false) (ops : List GridOp) (record : ℕ → β × β) (h : ∀ o ∈ ops, o ≠ .saveSimulation) :
    (g.runOps ops).saveData record = .error .exception := by
  have key : ∀ (ops : List GridOp) (g : GridNames), g.folder = false → (∀ o ∈ ops, o ≠ .saveSimulation) → (g.runOps ops).folder = false := by
    intro ops
    induction ops with
    | nil => intro g hg _; exact hg
    | cons o ops ih =>
      intro g hg h
      refine ih (g.op o).1 ?_ fun o ho => h o (List.mem_cons_of_mem _ ho)
      cases o with
      | place c e l => exact (place_folder g c e l).trans hg
      | add c =>
        show (g.addComp c).1.folder = false
        rw [GridNames.addComp]
        split
        · exact (place_folder g c _ _).trans hg
        · exact (place_folder g c _ _).trans hg
        · exact hg
      | saveSimulation => exact absurd rfl (h _ List.mem_cons_self)
  rw [GridNames.saveData, key ops g hg h]
  rfl

/-! ### where it fails -/

/-- a grid with nothing on it; `E` stands for its own attributes -/
def bareGrid : GridNames := ⟨fun n => if n = ['E'] then some .own else none, [], [], [], [], false⟩

/-- a line detector -/
def lineDet (id : ℕ) (name : Option Str) : Comp := ⟨id, .fieldDetector, name⟩

/-- a detector called `t` on the bare grid -/
def gridT : GridNames := (bareGrid.place (lineDet 0 (some ['t'])) none none).1

/-- A grid with the detectors `t` and `r`: both are stored. -/
example : ((gridT.place (lineDet 1 (some ['r'])) none none).1.saveSimulation.saveData fun i => (10 * i, 10 * i + 1)) =
    .ok [(['t'] ++ suffixE, 0), (['t'] ++ suffixH, 1), (['r'] ++ suffixE, 10), (['r'] ++ suffixH, 11)] := by decide +kernel

example : Placed bareGrid (gridT.place (lineDet 1 (some ['r'])) none none).1.saveSimulation :=
  .save (.place _ _ _ (.place _ _ _ .start (by decide)) (by decide))

/-- a name that is a field of the grid is rejected, and the detector that was rejected stays in the list -/
example : (bareGrid.place (lineDet 0 (some ['E'])) none none).2 = some .valueError ∧ (bareGrid.place (lineDet 0 (some ['E'])) none none).1.detectors.length = 1 := by decide

/-- C126 is false for unnamed detectors, which every other function accepts: nothing is stored, whatever else is on the grid. -/
theorem C126_unnamed_false {g0 g : GridNames} (_h : Placed g0 g) (hf : g.folder = true) {c : Comp} (hc : c ∈ g.detectors) (hn : c.name = none) (record : ℕ → β × β) :
    ∃ e, g.saveData record = .error e := by
  rw [GridNames.saveData, if_pos hf]
  have key : ∀ (l : List Comp) (dic : List (Str × β)), c ∈ l → ∃ e, l.foldlM (saveStep record) dic = .error e := by
    intro l
    induction l with
    | nil => intro dic h; cases h
    | cons a l ih =>
      intro dic h
      rw [List.foldlM_cons]
      rcases List.mem_cons.1 h with rfl | h
      · rw [saveStep, hn]
        split_ifs
        · exact ⟨_, rfl⟩
        · exact ⟨_, rfl⟩
      · cases hs : saveStep record dic a with
        | error e => exact ⟨e, rfl⟩
        | ok d => exact ih d h
  exact key _ _ hc

/-- C126 is false for current detectors, named or not. -/
theorem C126_current_false {g0 g : GridNames} (_h : Placed g0 g) (hf : g.folder = true) {c : Comp} (hc : c ∈ g.detectors) (hk : c.kind = .currentDetector) (record : ℕ → β × β) :
    ∃ e, g.saveData record = .error e := by
  rw [GridNames.saveData, if_pos hf]
  have key : ∀ (l : List Comp) (dic : List (Str × β)), c ∈ l → ∃ e, l.foldlM (saveStep record) dic = .error e := by
    intro l
    induction l with
    | nil => intro dic h; cases h
    | cons a l ih =>
      intro dic h
      rw [List.foldlM_cons]
      rcases List.mem_cons.1 h with rfl | h
      · rw [saveStep, if_pos hk]
        exact ⟨_, rfl⟩
      · cases hs : saveStep record dic a with
        | error e => exact ⟨e, rfl⟩
        | ok d => exact ih d h
  exact key _ _ hc

example : ∃ g : GridNames, Placed bareGrid g ∧ g.folder = true ∧ ∃ c ∈ g.detectors, c.name = none :=
  ⟨_, .save (.place (lineDet 0 none) none none .start (by decide)), rfl, lineDet 0 none, by decide, rfl⟩

example : ∃ g : GridNames, Placed bareGrid g ∧ g.folder = true ∧ ∃ c ∈ g.detectors, c.kind = .currentDetector :=
  ⟨_, .save (.place ⟨0, .currentDetector, some ['i']⟩ none none .start (by decide)), rfl, ⟨0, .currentDetector, some ['i']⟩, by decide, rfl⟩

/-- C126 is false after a rejected placement: a second detector called `t` is refused with ValueError, but it stays in the list, and its (empty) readings are stored in place of those of
the first. -/
theorem C126_rejected_false : (gridT.place (lineDet 1 (some ['t'])) none none).2 = some .valueError ∧
    gridT.saveSimulation.saveData (fun i => if i = 0 then ([7], [8]) else ([], [])) = .ok [(['t'] ++ suffixE, [7]), (['t'] ++ suffixH, [8])] ∧
    (gridT.place (lineDet 1 (some ['t'])) none none).1.saveSimulation.saveData (fun i => if i = 0 then ([7], [8]) else (([] : List ℕ), [])) =
      .ok [(['t'] ++ suffixE, []), (['t'] ++ suffixH, [])] := by decide +kernel

/-- C126 is false for a component called `full_sim_name`: it is accepted, and `save_simulation` puts a text in its place. -/
theorem C126_simname_false : (bareGrid.place (lineDet 0 (some simNameAttr)) none none).2 = none ∧ (bareGrid.place (lineDet 0 (some simNameAttr)) none none).1.attr simNameAttr = some (.comp 0) ∧
    (bareGrid.place (lineDet 0 (some simNameAttr)) none none).1.saveSimulation.attr simNameAttr = some .simName := by decide

/-- C126 is false of the four methods that are there to add a component under a name: they raise for every component. -/
theorem C126_add_false (g : GridNames) (c : Comp) : (g.addComp c).2 ≠ none := by
  rw [GridNames.addComp]
  split
  · rw [Ne, C126_when]; simp
  · rw [Ne, C126_when]; simp
  · simp

/-- … and an absorbing object that could not be added stays in the grid's list, from where the next step uses it. -/
theorem C126_add_leaves_false : ((bareGrid.addComp ⟨0, .absorbing, some ['a']⟩).2 = some .valueError) ∧ (bareGrid.addComp ⟨0, .absorbing, some ['a']⟩).1.objects = [⟨0, .absorbing, some ['a']⟩] ∧
    (bareGrid.addComp ⟨0, .absorbing, some ['a']⟩).1.attr ['a'] = some (.comp 0) := by decide

end Nidn
