/-
C50: placing boundaries. C76: what a rejected placement leaves behind. C77: re-using one boundary object.
-/
import Verif.Model.FdtdBoundary
import Verif.Spec.PySlice
import Verif.Lemmas.Py
import Mathlib.Tactic.Linarith

namespace Nidn

/-- the class makes the boundary act on this side -/
def covers (k : BoundaryKind) (a : Fin 3) (h : Bool) : Prop :=
  match k with
  | .unplaced => False
  | .periodicOn b => b = a
  | .pmlOn b h' t => b = a ∧ h' = h ∧ t.isSome

instance (k : BoundaryKind) (a : Fin 3) (h : Bool) : Decidable (covers k a h) := by
  unfold covers; split <;> infer_instance

/-- the side attributes point exactly at the boundaries acting on the side -/
def SidesRight (st : BoundaryState) : Prop := ∀ a h id, st.side a h = some id ↔ id ∈ st.boundaries ∧ covers (st.kind id) a h

lemma registerName_ok {st st' : BoundaryState} {nm : Option String} (h : registerName st nm = .ok st') :
    st'.boundaries = st.boundaries ∧ st'.side = st.side ∧ st'.kind = st.kind := by
  cases nm with
  | none => cases h; exact ⟨rfl, rfl, rfl⟩
  | some s =>
    simp only [registerName] at h
    split_ifs at h
    cases h; exact ⟨rfl, rfl, rfl⟩

/-- what an accepted placement does: either all of a periodic axis or one PML side, which was free, is now held by the new object -/
def Accepted (st st' : BoundaryState) (id : ℕ) : Prop :=
  st'.boundaries = st.boundaries ++ [id] ∧ ∃ k, st'.kind = Function.update st.kind id k ∧
    (∀ a h, covers k a h → st.side a h = none) ∧ (∀ a h, st'.side a h = if covers k a h then some id else st.side a h)

lemma placePeriodic_ok {st : BoundaryState} {id : ℕ} {x y z : IntOrSlice} (h : (placePeriodic st id x y z).2 = .ok ()) :
    ∃ a, firstEdge x y z = some a ∧ st.side a false = none ∧ st.side a true = none ∧
      (placePeriodic st id x y z).1 = ((st.setKind id (.periodicOn a)).setSide a false id).setSide a true id := by
  unfold placePeriodic at *
  cases hf : firstEdge x y z with
  | none => rw [hf] at h; cases h
  | some a =>
    rw [hf] at h
    dsimp only at *
    by_cases hs : (st.side a false).isSome ∨ (st.side a true).isSome
    · rw [if_pos hs] at h; cases h
    · rw [if_neg hs]
      rw [not_or] at hs
      exact ⟨a, rfl, by simpa using hs.1, by simpa using hs.2, rfl⟩

lemma placePml_ok {st : BoundaryState} {id : ℕ} {x y z : PySlice ℤ} (h : (placePml st id x y z).2 = .ok ()) :
    ∃ a hi t, firstPmlEdge x y z = some (a, hi, t) ∧ st.side a hi = none ∧
      (placePml st id x y z).1 = (st.setKind id (.pmlOn a hi (some t))).setSide a hi id := by
  unfold placePml at *
  cases hf : firstPmlEdge x y z with
  | none => rw [hf] at h; cases h
  | some v =>
    obtain ⟨a, hi, t⟩ := v
    rw [hf] at h
    dsimp only at *
    by_cases hs : (st.side a hi).isSome
    · rw [if_pos hs] at h; cases h
    · rw [if_neg hs]
      exact ⟨a, hi, t, rfl, by simpa using hs, rfl⟩

/-- the two ways a placement is accepted -/
lemma register_ok {st : BoundaryState} {id : ℕ} {cls : BoundaryClass} {nm : Option String} {x y z : AxisKey}
    (h : (registerBoundary st id cls nm x y z).2 = .ok ()) :
    (cls = .periodic ∧ ∃ x' y' z', ∃ st' : BoundaryState, ∃ a, slices3 boundarySlice x y z = .ok (x', y', z') ∧ firstEdge x' y' z' = some a ∧
      st'.boundaries = st.boundaries ++ [id] ∧ st'.side = st.side ∧ st'.kind = st.kind ∧ st.side a false = none ∧ st.side a true = none ∧
      (registerBoundary st id cls nm x y z).1 = ((st'.setKind id (.periodicOn a)).setSide a false id).setSide a true id) ∨
    (cls = .pml ∧ ∃ x' y' z', ∃ st' : BoundaryState, ∃ a hi t, slices3 pmlSlice x y z = .ok (x', y', z') ∧ firstPmlEdge x' y' z' = some (a, hi, t) ∧
      st'.boundaries = st.boundaries ++ [id] ∧ st'.side = st.side ∧ st'.kind = st.kind ∧ st.side a hi = none ∧
      (registerBoundary st id cls nm x y z).1 = (st'.setKind id (.pmlOn a hi (some t))).setSide a hi id) := by
  cases cls with
  | periodic =>
    left
    refine ⟨rfl, ?_⟩
    simp only [registerBoundary] at *
    cases hs : slices3 boundarySlice x y z with
    | error e => rw [hs] at h; cases h
    | ok v =>
      obtain ⟨x', y', z'⟩ := v
      rw [hs] at h
      dsimp only at *
      cases hn : registerName (st.append id) nm with
      | error e => rw [hn] at h; cases h
      | ok st' =>
        rw [hn] at h
        dsimp only at *
        obtain ⟨e1, e2, e3⟩ := registerName_ok hn
        obtain ⟨a, ha, s1, s2, hst⟩ := placePeriodic_ok h
        rw [e2] at s1 s2
        exact ⟨x', y', z', st', a, rfl, ha, e1, e2, e3, s1, s2, hst⟩
  | pml =>
    right
    refine ⟨rfl, ?_⟩
    simp only [registerBoundary] at *
    cases hs : slices3 pmlSlice x y z with
    | error e => rw [hs] at h; cases h
    | ok v =>
      obtain ⟨x', y', z'⟩ := v
      rw [hs] at h
      dsimp only at *
      cases hn : registerName (st.append id) nm with
      | error e => rw [hn] at h; cases h
      | ok st' =>
        rw [hn] at h
        dsimp only at *
        obtain ⟨e1, e2, e3⟩ := registerName_ok hn
        obtain ⟨a, hi, t, ha, s1, hst⟩ := placePml_ok h
        rw [e2] at s1
        exact ⟨x', y', z', st', a, hi, t, rfl, ha, e1, e2, e3, s1, hst⟩

lemma register_accepted {st : BoundaryState} {id : ℕ} {cls : BoundaryClass} {nm : Option String} {x y z : AxisKey}
    (h : (registerBoundary st id cls nm x y z).2 = .ok ()) : Accepted st (registerBoundary st id cls nm x y z).1 id := by
  rcases register_ok h with ⟨-, x', y', z', st', a, -, -, e1, e2, e3, s1, s2, hst⟩ | ⟨-, x', y', z', st', a, hi, t, -, -, e1, e2, e3, s1, hst⟩
  · rw [hst]
    refine ⟨e1, .periodicOn a, ?_, ?_, ?_⟩
    · simp only [BoundaryState.setSide, BoundaryState.setKind, e3]
    · rintro a' h' rfl
      cases h' with
      | false => exact s1
      | true => exact s2
    · intro a' h'
      simp only [BoundaryState.setSide, BoundaryState.setKind, covers, e2]
      by_cases ha : a = a'
      · subst ha; cases h' <;> simp
      · simp [ha, Ne.symm ha]
  · rw [hst]
    refine ⟨e1, .pmlOn a hi (some t), ?_, ?_, ?_⟩
    · simp only [BoundaryState.setSide, BoundaryState.setKind, e3]
    · rintro a' h' ⟨rfl, rfl, -⟩; exact s1
    · intro a' h'
      have : (a' = a ∧ h' = hi) ↔ covers (.pmlOn a hi (some t)) a' h' := by
        constructor
        · rintro ⟨rfl, rfl⟩; exact ⟨rfl, rfl, rfl⟩
        · rintro ⟨rfl, rfl, -⟩; exact ⟨rfl, rfl⟩
      show (if a' = a ∧ h' = hi then some id else st'.side a' h') = _
      rw [e2]
      by_cases hh : a' = a ∧ h' = hi
      · rw [if_pos hh, if_pos (this.mp hh)]
      · rw [if_neg hh, if_neg (fun h => hh (this.mpr h))]

lemma accepted_right {st st' : BoundaryState} {id : ℕ} (h : Accepted st st' id) (hid : id ∉ st.boundaries) (hr : SidesRight st) : SidesRight st' := by
  obtain ⟨hb, k, hk, hfree, hside⟩ := h
  intro a hi j
  rw [hside, hb, hk]
  by_cases hj : j = id
  · subst hj
    by_cases hc : covers k a hi
    · simp [hc]
    · rw [if_neg hc]
      have : st.side a hi ≠ some j := fun hh => hid ((hr a hi j).mp hh).1
      simp [this, hc]
  · have hj' : id ≠ j := fun h => hj h.symm
    by_cases hc : covers k a hi
    · rw [if_pos hc]
      have h0 := hfree a hi hc
      have h1 := hr a hi j
      rw [h0] at h1
      simp only [Option.some.injEq, hj', List.mem_append, List.mem_singleton, hj, or_false, Function.update_of_ne hj, false_iff]
      exact fun hh => by simpa using h1.mpr hh
    · rw [if_neg hc, hr a hi j]
      simp [hj]

/-- C50: placing any number of boundary objects in any order on a new grid either raises an error or gives a grid where every side is acted on by at most one of the placed boundaries, and
the side attributes name exactly that one. -/
theorem C50_exclusive (attrs : List String) (bs : List BoundaryPlacement) (hn : (bs.map (·.id)).Nodup)
    (hok : (placeAll (.fresh attrs) bs).2 = .ok ()) :
    (placeAll (.fresh attrs) bs).1.boundaries = bs.map (·.id) ∧ SidesRight (placeAll (.fresh attrs) bs).1 ∧
    ∀ a h, ((placeAll (.fresh attrs) bs).1.boundaries.filter fun id => covers ((placeAll (.fresh attrs) bs).1.kind id) a h).length ≤ 1 := by
  have gen : ∀ (bs : List BoundaryPlacement) (st : BoundaryState), SidesRight st → (st.boundaries ++ bs.map (·.id)).Nodup →
      (placeAll st bs).2 = .ok () → (placeAll st bs).1.boundaries = st.boundaries ++ bs.map (·.id) ∧ SidesRight (placeAll st bs).1 := by
    intro bs
    induction bs with
    | nil => intro st hr _ _; exact ⟨by simp [placeAll], hr⟩
    | cons b bs ih =>
      intro st hr hnd h
      unfold placeAll at h ⊢
      cases hreg : (registerBoundary st b.id b.cls b.name b.x b.y b.z).2 with
      | error e => rw [hreg] at h; cases h
      | ok u =>
        cases u
        rw [hreg] at h
        dsimp only at *
        have hacc := register_accepted hreg
        have hnotin : b.id ∉ st.boundaries := by
          intro hm
          rw [List.map_cons] at hnd
          exact (List.disjoint_of_nodup_append hnd) hm List.mem_cons_self
        obtain ⟨i1, i2⟩ := ih _ (accepted_right hacc hnotin hr) (by rw [hacc.1]; simpa using hnd) h
        refine ⟨?_, i2⟩
        rw [i1, hacc.1]; simp
  obtain ⟨h1, h2⟩ := gen bs (.fresh attrs) (by intro a h id; simp [BoundaryState.fresh]) (by simpa [BoundaryState.fresh] using hn) hok
  have h1' : (placeAll (.fresh attrs) bs).1.boundaries = bs.map (·.id) := by rw [h1]; simp [BoundaryState.fresh]
  refine ⟨h1', h2, fun a h => ?_⟩
  have hnd : ((placeAll (.fresh attrs) bs).1.boundaries.filter fun id => covers ((placeAll (.fresh attrs) bs).1.kind id) a h).Nodup := by
    rw [h1']; exact hn.filter _
  have hall : ∀ i ∈ (placeAll (.fresh attrs) bs).1.boundaries.filter (fun id => covers ((placeAll (.fresh attrs) bs).1.kind id) a h),
      (placeAll (.fresh attrs) bs).1.side a h = some i := by
    intro i hi
    rw [List.mem_filter] at hi
    exact (h2 a h i).mpr ⟨hi.1, by simpa using hi.2⟩
  generalize (placeAll (.fresh attrs) bs).1.boundaries.filter _ = l at *
  match l, hnd, hall with
  | [], _, _ => simp
  | [_], _, _ => simp
  | i :: j :: l, hnd, hall =>
    exfalso
    have e1 := hall i (by simp)
    have e2 := hall j (by simp)
    rw [e1] at e2
    have : i = j := by simpa using e2
    subst this
    simp at hnd

lemma slices3_ok {A : Type} {f : AxisKey → Except PyErr A} {x y z : AxisKey} {x' y' z' : A} (h : slices3 f x y z = .ok (x', y', z')) :
    f x = .ok x' ∧ f y = .ok y' ∧ f z = .ok z' := by
  unfold slices3 at h
  cases hx : f x with
  | error e => rw [hx] at h; cases h
  | ok a =>
    cases hy : f y with
    | error e => rw [hx, hy] at h; cases h
    | ok b =>
      cases hz : f z with
      | error e => rw [hx, hy, hz] at h; cases h
      | ok c => rw [hx, hy, hz] at h; cases h; exact ⟨rfl, rfl, rfl⟩

/-- the key given for an axis -/
def axisKey (x y z : AxisKey) : Fin 3 → AxisKey
  | 0 => x
  | 1 => y
  | 2 => z

lemma pmlEdge_selects {s : PySlice ℤ} {hi : Bool} {t : ℤ} (h : pmlEdge s = some (hi, t)) :
    0 < t ∧ ∀ N i : ℕ, i < N → (sliceSelects N s i ↔ if hi then (N : ℤ) - t ≤ i else (i : ℤ) < t) := by
  obtain ⟨st, sp, stp⟩ := s
  cases st with
  | none =>
    cases sp with
    | none => cases h
    | some b =>
      simp only [pmlEdge] at h
      split_ifs at h with hb
      cases h
      refine ⟨hb, fun N i hN => ?_⟩
      simp only [sliceSelects, sliceBound, Bool.false_eq_true, if_false, if_neg (not_lt.mpr hb.le)]
      constructor
      · rintro ⟨-, h2⟩; exact lt_of_lt_of_le h2 (min_le_left _ _)
      · intro h2; exact ⟨by omega, lt_min h2 (by exact_mod_cast hN)⟩
  | some a =>
    cases sp with
    | none =>
      simp only [pmlEdge] at h
      split_ifs at h with hb
      cases h
      refine ⟨by omega, fun N i hN => ?_⟩
      simp only [sliceSelects, sliceBound, if_true, if_pos hb]
      constructor
      · rintro ⟨h1, -⟩; have := le_trans (le_max_left _ _) h1; omega
      · intro h2; exact ⟨max_le (by omega) (by omega), by exact_mod_cast hN⟩
    | some b =>
      simp only [pmlEdge] at h
      split_ifs at h with hb
      cases h
      obtain ⟨rfl, hb⟩ := hb
      refine ⟨hb, fun N i hN => ?_⟩
      simp only [sliceSelects, sliceBound, Bool.false_eq_true, if_false, if_neg (not_lt.mpr hb.le)]
      constructor
      · rintro ⟨-, h2⟩; exact lt_of_lt_of_le h2 (min_le_left _ _)
      · intro h2; exact ⟨by simp, lt_min h2 (by exact_mod_cast hN)⟩

/-- C50: an accepted PML got the class of the side its slice touches, and its planes on that axis are exactly the planes the slice selects (for a slice with step one). -/
theorem C50_pml_side (st : BoundaryState) (id : ℕ) (nm : Option String) (x y z : AxisKey)
    (h : (registerBoundary st id .pml nm x y z).2 = .ok ()) :
    ∃ a hi t s, (registerBoundary st id .pml nm x y z).1.kind id = .pmlOn a hi (some t) ∧ axisKey x y z a = .slice s ∧ 0 < t ∧
      st.side a hi = none ∧ (registerBoundary st id .pml nm x y z).1.side a hi = some id ∧
      ∀ N i : ℕ, i < N → (sliceSelects N s i ↔ if hi then (N : ℤ) - t ≤ i else (i : ℤ) < t) := by
  rcases register_ok h with ⟨hc, -⟩ | ⟨-, x', y', z', st', a, hi, t, hs, hf, -, -, -, s1, hst⟩
  · cases hc
  · obtain ⟨ex, ey, ez⟩ := slices3_ok hs
    have key : ∀ (k : AxisKey) (s : PySlice ℤ), pmlSlice k = .ok s → k = .slice s := by
      intro k s hk
      cases k with
      | list l => cases hk
      | slice s' => cases hk; rfl
    have kx := key _ _ ex
    have ky := key _ _ ey
    have kz := key _ _ ez
    have hkind : (registerBoundary st id .pml nm x y z).1.kind id = .pmlOn a hi (some t) := by
      rw [hst]; simp [BoundaryState.setSide, BoundaryState.setKind]
    have hside : (registerBoundary st id .pml nm x y z).1.side a hi = some id := by
      rw [hst]; simp [BoundaryState.setSide]
    unfold firstPmlEdge at hf
    cases h0 : pmlEdge x' with
    | some v =>
      obtain ⟨hi0, t0⟩ := v
      rw [h0] at hf
      cases hf
      exact ⟨0, hi, t, x', hkind, kx, (pmlEdge_selects h0).1, s1, hside, (pmlEdge_selects h0).2⟩
    | none =>
      rw [h0] at hf
      dsimp only at hf
      cases h1 : pmlEdge y' with
      | some v =>
        obtain ⟨hi0, t0⟩ := v
        rw [h1] at hf
        cases hf
        exact ⟨1, hi, t, y', hkind, ky, (pmlEdge_selects h1).1, s1, hside, (pmlEdge_selects h1).2⟩
      | none =>
        rw [h1] at hf
        dsimp only at hf
        cases h2 : pmlEdge z' with
        | some v =>
          obtain ⟨hi0, t0⟩ := v
          rw [h2] at hf
          cases hf
          exact ⟨2, hi, t, z', hkind, kz, (pmlEdge_selects h2).1, s1, hside, (pmlEdge_selects h2).2⟩
        | none => rw [h2] at hf; cases hf

/-- the key addresses, by a single number or a slice of at most one cell, the number `v` -/
def KeyStartsAt (k : AxisKey) (v : ℤ) : Prop :=
  k = .list [v] ∨ ∃ b stp, k = .slice ⟨some v, some b, stp⟩ ∧ |v - b| ≤ 1

lemma atEdge_key {k : AxisKey} {v : IntOrSlice} (h : boundarySlice k = .ok v) (he : atEdge v = true) : KeyStartsAt k 0 ∨ KeyStartsAt k (-1) := by
  have gen : ∀ i : ℤ, v = .int i → KeyStartsAt k i := by
    rintro i rfl
    cases k with
    | list l =>
      match l, h with
      | [j], h => cases h; exact Or.inl rfl
    | slice s =>
      obtain ⟨st, sp, stp⟩ := s
      cases st with
      | none => cases sp <;> cases h
      | some a =>
        cases sp with
        | none => cases h
        | some b =>
          simp only [boundarySlice] at h
          split_ifs at h with hb
          · cases h
            refine Or.inr ⟨b, stp, rfl, ?_⟩
            rcases hb with rfl | hb
            · simp
            · exact hb.le
          · cases h
  cases v with
  | slice s => cases he
  | int i =>
    simp only [atEdge, decide_eq_true_eq] at he
    rcases he with rfl | rfl
    · exact Or.inl (gen _ rfl)
    · exact Or.inr (gen _ rfl)

/-- C50: an accepted periodic boundary got the class of an axis whose key is the first or the last index, and both sides of that axis were free. -/
theorem C50_periodic_side (st : BoundaryState) (id : ℕ) (nm : Option String) (x y z : AxisKey)
    (h : (registerBoundary st id .periodic nm x y z).2 = .ok ()) :
    ∃ a, (registerBoundary st id .periodic nm x y z).1.kind id = .periodicOn a ∧
      (KeyStartsAt (axisKey x y z a) 0 ∨ KeyStartsAt (axisKey x y z a) (-1)) ∧ (∀ hi, st.side a hi = none) ∧
      ∀ hi, (registerBoundary st id .periodic nm x y z).1.side a hi = some id := by
  rcases register_ok h with ⟨-, x', y', z', st', a, hs, hf, -, -, -, s1, s2, hst⟩ | ⟨hc, -⟩
  · obtain ⟨ex, ey, ez⟩ := slices3_ok hs
    refine ⟨a, ?_, ?_, ?_, ?_⟩
    · rw [hst]; simp [BoundaryState.setSide, BoundaryState.setKind]
    · unfold firstEdge at hf
      split_ifs at hf with h0 h1 h2
      · cases hf; exact atEdge_key ex h0
      · cases hf; exact atEdge_key ey h1
      · cases hf; exact atEdge_key ez h2
    · intro hi; cases hi <;> assumption
    · intro hi; rw [hst]; cases hi <;> simp [BoundaryState.setSide]
  · cases hc

/-- C50: `DomainBorderPML` on a grid without boundaries: raises IndexError without placing anything if the layers do not fit, otherwise (for a positive number of border cells)
all six sides get a layer of exactly that thickness. -/
theorem C50_domain (n : Pos) (border : ℤ) (hb : 0 < border) (id : ℕ) (st : BoundaryState) (hst : ∀ a h, st.side a h = none) :
    ((∃ a, (n a : ℤ) < 2 * border) → domainBorderPml n border id st = (st, .error .indexError)) ∧
    ((∀ a, 2 * border ≤ (n a : ℤ)) → (domainBorderPml n border id st).2 = .ok () ∧
      ∀ a h, ∃ j, id ≤ j ∧ j < id + 6 ∧ (domainBorderPml n border id st).1.side a h = some j ∧
        (domainBorderPml n border id st).1.kind j = .pmlOn a h (some border)) := by
  constructor
  · rintro ⟨a, ha⟩
    refine if_pos ?_
    fin_cases a
    · exact Or.inl (by simp at ha; omega)
    · exact Or.inr (Or.inl (by simp at ha; omega))
    · exact Or.inr (Or.inr (by simp at ha; omega))
  · intro hn
    have h0 := hn 0
    have h1 := hn 1
    have h2 := hn 2
    unfold domainBorderPml
    rw [if_neg (by omega)]
    have hlow : pmlEdge ⟨some 0, some border, none⟩ = some (false, border) := by simp [pmlEdge, hb]
    have hhigh : pmlEdge ⟨some (-border), none, none⟩ = some (true, border) := by simp [pmlEdge, hb]
    have hmid : pmlEdge ⟨some border, some (-border), none⟩ = none := by simp [pmlEdge]; omega
    have hfull : pmlEdge ⟨none, none, none⟩ = none := rfl
    have reg : ∀ (s : BoundaryState) (j : ℕ) (x y z : PySlice ℤ) (a : Fin 3) (h : Bool), firstPmlEdge x y z = some (a, h, border) → s.side a h = none →
        registerBoundary s j .pml none (.slice x) (.slice y) (.slice z)
          = (((s.append j).setKind j (.pmlOn a h (some border))).setSide a h j, .ok ()) := by
      intro s j x y z a h hf hs
      show placePml (s.append j) j x y z = _
      unfold placePml
      rw [hf]
      dsimp only
      have : ¬ ((s.append j).side a h).isSome := by
        show ¬ (s.side a h).isSome
        rw [hs]; simp
      rw [if_neg this]
    have cons : ∀ (s s' : BoundaryState) (b : BoundaryPlacement) (l : List BoundaryPlacement),
        registerBoundary s b.id b.cls b.name b.x b.y b.z = (s', .ok ()) → placeAll s (b :: l) = placeAll s' l := by
      intro s s' b l h
      rw [placeAll, h]
    simp only [sl]
    rw [cons _ _ _ _ (reg st id _ _ _ 2 false (by simp [firstPmlEdge, hfull, hlow]) (hst _ _))]
    rw [cons _ _ _ _ (reg _ (id + 1) _ _ _ 2 true (by simp [firstPmlEdge, hfull, hhigh]) (by simp [BoundaryState.setSide, BoundaryState.setKind, BoundaryState.append, hst]))]
    rw [cons _ _ _ _ (reg _ (id + 2) _ _ _ 0 false (by simp [firstPmlEdge, hlow]) (by simp [BoundaryState.setSide, BoundaryState.setKind, BoundaryState.append, hst]))]
    rw [cons _ _ _ _ (reg _ (id + 3) _ _ _ 0 true (by simp [firstPmlEdge, hhigh]) (by simp [BoundaryState.setSide, BoundaryState.setKind, BoundaryState.append, hst]))]
    rw [cons _ _ _ _ (reg _ (id + 4) _ _ _ 1 false (by simp [firstPmlEdge, hmid, hlow]) (by simp [BoundaryState.setSide, BoundaryState.setKind, BoundaryState.append, hst]))]
    rw [cons _ _ _ _ (reg _ (id + 5) _ _ _ 1 true (by simp [firstPmlEdge, hmid, hhigh]) (by simp [BoundaryState.setSide, BoundaryState.setKind, BoundaryState.append, hst]))]
    refine ⟨rfl, ?_⟩
    intro a h
    fin_cases a <;> cases h
    · exact ⟨id + 2, by omega, by omega, by simp [placeAll, BoundaryState.setSide, BoundaryState.setKind, BoundaryState.append]⟩
    · exact ⟨id + 3, by omega, by omega, by simp [placeAll, BoundaryState.setSide, BoundaryState.setKind, BoundaryState.append]⟩
    · exact ⟨id + 4, by omega, by omega, by simp [placeAll, BoundaryState.setSide, BoundaryState.setKind, BoundaryState.append]⟩
    · exact ⟨id + 5, by omega, by omega, by simp [placeAll, BoundaryState.setSide, BoundaryState.setKind, BoundaryState.append]⟩
    · exact ⟨id, by omega, by omega, by simp [placeAll, BoundaryState.setSide, BoundaryState.setKind, BoundaryState.append]⟩
    · exact ⟨id + 1, by omega, by omega, by simp [placeAll, BoundaryState.setSide, BoundaryState.setKind, BoundaryState.append]⟩

/-- the three boundaries NIDN places (two PML of ten cells in x, a periodic one in y) are accepted, and a second periodic one in x is not -/
example :
    (placeAll (.fresh ["E", "H"]) [⟨0, .pml, some "pml_xlow", sl (some 0) (some 10), sl none none, sl none none⟩,
      ⟨1, .pml, some "pml_xhigh", sl (some (-10)) none, sl none none, sl none none⟩,
      ⟨2, .periodic, some "ybounds", sl none none, .list [0], sl none none⟩]).2 = .ok () ∧
    (placeAll (.fresh ["E", "H"]) [⟨0, .pml, some "pml_xlow", sl (some 0) (some 10), sl none none, sl none none⟩,
      ⟨1, .periodic, none, .list [0], sl none none, sl none none⟩]).2 = .error .attributeError := ⟨rfl, rfl⟩

/-- C76 fails for boundaries: a periodic boundary rejected because its side already carries an absorbing layer stays in the grid's list with its updates switched on, so a program that
catches the AttributeError goes on with both. -/
theorem C76_boundary_false : ∃ (st : BoundaryState) (x y z : AxisKey),
    (registerBoundary st 1 .periodic none x y z).2 = .error .attributeError ∧
    1 ∉ st.boundaries ∧ 1 ∈ (registerBoundary st 1 .periodic none x y z).1.boundaries ∧
    covers ((registerBoundary st 1 .periodic none x y z).1.kind 1) 0 false ∧
    covers ((registerBoundary st 1 .periodic none x y z).1.kind 0) 0 false :=
  ⟨(registerBoundary (.fresh []) 0 .pml none (sl (some 0) (some 10)) (sl none none) (sl none none)).1, .list [0], sl none none, sl none none,
    rfl, by decide, by decide, by decide, by decide⟩

/-- C76, what does hold for every rejected boundary: the side attributes are unchanged, no other object changes its class, and the only trace in the list is the rejected object itself at the
end. -/
theorem C76_boundary_partial (st : BoundaryState) (id : ℕ) (cls : BoundaryClass) (nm : Option String) (x y z : AxisKey) (e : PyErr)
    (h : (registerBoundary st id cls nm x y z).2 = .error e) :
    (registerBoundary st id cls nm x y z).1.side = st.side ∧
    (registerBoundary st id cls nm x y z).1.boundaries = st.boundaries ++ [id] ∧
    ∀ j, j ≠ id → (registerBoundary st id cls nm x y z).1.kind j = st.kind j := by
  have keep : ∀ (st' : BoundaryState) (k : BoundaryKind), ((registerName (st.append id) nm) = .ok st') →
      (st'.setKind id k).side = st.side ∧ (st'.setKind id k).boundaries = st.boundaries ++ [id] ∧ ∀ j, j ≠ id → (st'.setKind id k).kind j = st.kind j := by
    intro st' k hn
    obtain ⟨e1, e2, e3⟩ := registerName_ok hn
    refine ⟨e2, e1, fun j hj => ?_⟩
    show Function.update st'.kind id k j = _
    rw [Function.update_of_ne hj, e3]; rfl
  have keep0 : ∀ (st' : BoundaryState), ((registerName (st.append id) nm) = .ok st') →
      st'.side = st.side ∧ st'.boundaries = st.boundaries ++ [id] ∧ ∀ j, j ≠ id → st'.kind j = st.kind j := by
    intro st' hn
    obtain ⟨e1, e2, e3⟩ := registerName_ok hn
    exact ⟨e2, e1, fun j _ => by rw [e3]; rfl⟩
  cases cls with
  | periodic =>
    simp only [registerBoundary] at *
    cases hs : slices3 boundarySlice x y z with
    | error e' => exact ⟨rfl, rfl, fun _ _ => rfl⟩
    | ok v =>
      obtain ⟨x', y', z'⟩ := v
      rw [hs] at h
      dsimp only at *
      cases hn : registerName (st.append id) nm with
      | error e' => exact ⟨rfl, rfl, fun _ _ => rfl⟩
      | ok st' =>
        rw [hn] at h
        dsimp only at *
        unfold placePeriodic at *
        cases hf : firstEdge x' y' z' with
        | none => exact keep0 st' hn
        | some a =>
          rw [hf] at h
          dsimp only at *
          split_ifs at h ⊢
          · exact keep st' _ hn
  | pml =>
    simp only [registerBoundary] at *
    cases hs : slices3 pmlSlice x y z with
    | error e' => exact ⟨rfl, rfl, fun _ _ => rfl⟩
    | ok v =>
      obtain ⟨x', y', z'⟩ := v
      rw [hs] at h
      dsimp only at *
      cases hn : registerName (st.append id) nm with
      | error e' => exact ⟨rfl, rfl, fun _ _ => rfl⟩
      | ok st' =>
        rw [hn] at h
        dsimp only at *
        unfold placePml at *
        cases hf : firstPmlEdge x' y' z' with
        | none => exact keep0 st' hn
        | some v =>
          obtain ⟨a, hi, t⟩ := v
          rw [hf] at h
          dsimp only at *
          split_ifs at h ⊢
          · exact keep st' _ hn

/-- C77 fails: one unnamed PML object assigned to both ends of x is accepted twice without an error; afterwards both side attributes name it, but it only acts on the second side: the first side has no
boundary at all, and the second is processed twice per step. -/
theorem C77_reuse_false : ∃ bs : List BoundaryPlacement, (∀ b ∈ bs, b.id = 0) ∧ (placeAll (.fresh []) bs).2 = .ok () ∧
    (placeAll (.fresh []) bs).1.side 0 false = some 0 ∧ (placeAll (.fresh []) bs).1.side 0 true = some 0 ∧
    (∀ id ∈ (placeAll (.fresh []) bs).1.boundaries, ¬ covers ((placeAll (.fresh []) bs).1.kind id) 0 false) ∧
    (placeAll (.fresh []) bs).1.boundaries.countP (fun id => covers ((placeAll (.fresh []) bs).1.kind id) 0 true) = 2 :=
  ⟨[⟨0, .pml, none, sl (some 0) (some 10), sl none none, sl none none⟩, ⟨0, .pml, none, sl (some (-10)) none, sl none none, sl none none⟩],
    by decide, rfl, rfl, rfl, by decide, by decide⟩

/-- C77, what protects the user: a named object cannot be placed twice. -/
theorem C77_named_partial (st : BoundaryState) (id : ℕ) (cls cls' : BoundaryClass) (s : String) (x y z x' y' z' : AxisKey)
    (h : (registerBoundary st id cls (some s) x y z).2 = .ok ()) :
    ∃ e, (registerBoundary (registerBoundary st id cls (some s) x y z).1 id cls' (some s) x' y' z').2 = .error e := by
  have hin : s ∈ (registerBoundary st id cls (some s) x y z).1.attrs := by
    have nm : ∀ st', registerName (st.append id) (some s) = .ok st' → s ∈ st'.attrs := by
      intro st' hn
      simp only [registerName] at hn
      split_ifs at hn
      cases hn; simp
    cases cls with
    | periodic =>
      simp only [registerBoundary] at *
      cases hs : slices3 boundarySlice x y z with
      | error e' => rw [hs] at h; cases h
      | ok v =>
        obtain ⟨x', y', z'⟩ := v
        rw [hs] at h
        dsimp only at *
        cases hn : registerName (st.append id) (some s) with
        | error e' => rw [hn] at h; cases h
        | ok st' =>
          rw [hn] at h
          dsimp only at *
          obtain ⟨a, -, -, -, hst⟩ := placePeriodic_ok h
          rw [hst]; exact nm st' hn
    | pml =>
      simp only [registerBoundary] at *
      cases hs : slices3 pmlSlice x y z with
      | error e' => rw [hs] at h; cases h
      | ok v =>
        obtain ⟨x', y', z'⟩ := v
        rw [hs] at h
        dsimp only at *
        cases hn : registerName (st.append id) (some s) with
        | error e' => rw [hn] at h; cases h
        | ok st' =>
          rw [hn] at h
          dsimp only at *
          obtain ⟨a, hi, t, -, -, hst⟩ := placePml_ok h
          rw [hst]; exact nm st' hn
  generalize (registerBoundary st id cls (some s) x y z).1 = st1 at *
  have hname : registerName (st1.append id) (some s) = .error .valueError := by
    simp only [registerName]; exact if_pos hin
  cases cls' with
  | periodic =>
    simp only [registerBoundary]
    cases slices3 boundarySlice x' y' z' with
    | error e => exact ⟨e, rfl⟩
    | ok v => dsimp only; rw [hname]; exact ⟨_, rfl⟩
  | pml =>
    simp only [registerBoundary]
    cases slices3 pmlSlice x' y' z' with
    | error e => exact ⟨e, rfl⟩
    | ok v => dsimp only; rw [hname]; exact ⟨_, rfl⟩

end Nidn
