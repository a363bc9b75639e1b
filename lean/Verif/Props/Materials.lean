/-
C25 (material permittivities), C26 (lookup by name), C27 (closest material).
-/
import Verif.Model.Materials
import Verif.Lemmas.Py
import Mathlib.Tactic.Ring
import Mathlib.Tactic.Linarith
import Mathlib.Tactic.NormNum
import Mathlib.Tactic.Positivity
import Mathlib.Algebra.BigOperators.Group.Finset.Basic
import Mathlib.Algebra.Order.BigOperators.Group.Finset

namespace Nidn

section Numbers
variable {K : Type} [Field K] [LinearOrder K] [IsStrictOrderedRing K]

/-- Specification: row number `i` of the table is at minimal distance from the wavelength, and no earlier row is as close. -/
def FirstNearest (table : List (MatRow K)) (wl : K) (i : ℕ) (row : MatRow K) : Prop :=
  table[i]? = some row ∧ ∀ j r, table[j]? = some r → |row.wl - wl| ≤ |r.wl - wl| ∧ (j < i → |row.wl - wl| < |r.wl - wl|)

omit [Field K] [IsStrictOrderedRing K] in
lemma idxMinGo_spec (l : List K) (pre : List K) (best : K) (bi : ℕ) (hb : pre[bi]? = some best)
    (hmin : ∀ j v, pre[j]? = some v → best ≤ v ∧ (j < bi → best < v)) :
    ∃ m, (pre ++ l)[idxMinGo l pre.length best bi]? = some m ∧
      ∀ j v, (pre ++ l)[j]? = some v → m ≤ v ∧ (j < idxMinGo l pre.length best bi → m < v) := by
  induction l generalizing pre best bi with
  | nil => exact ⟨best, by simpa [idxMinGo] using hb, by simpa [idxMinGo] using hmin⟩
  | cons w rest ih =>
      have hbi : bi < pre.length := (List.getElem?_eq_some_iff.mp hb).1
      rw [idxMinGo]
      have e : pre ++ w :: rest = (pre ++ [w]) ++ rest := by simp
      have e2 : pre.length + 1 = (pre ++ [w]).length := by simp
      split_ifs with h
      · rw [e, e2]
        refine ih (pre ++ [w]) w pre.length (by simp) fun j v hj => ?_
        rcases lt_trichotomy j pre.length with h1 | h1 | h1
        · rw [List.getElem?_append_left h1] at hj
          have := (hmin j v hj).1
          exact ⟨(h.trans_le this).le, fun _ => h.trans_le this⟩
        · subst h1; simp at hj; subst hj; exact ⟨le_rfl, fun h => absurd h (lt_irrefl _)⟩
        · rw [List.getElem?_eq_none (by simp; omega)] at hj; cases hj
      · rw [e, e2]
        refine ih (pre ++ [w]) best bi (by rw [List.getElem?_append_left hbi]; exact hb) fun j v hj => ?_
        rcases lt_trichotomy j pre.length with h1 | h1 | h1
        · rw [List.getElem?_append_left h1] at hj
          exact hmin j v hj
        · subst h1; simp at hj; subst hj; exact ⟨not_lt.mp h, fun h => by omega⟩
        · rw [List.getElem?_eq_none (by simp; omega)] at hj; cases hj

omit [Field K] [IsStrictOrderedRing K] in
lemma idxMin_spec (l : List K) (i : ℕ) (h : idxMin l = .ok i) :
    ∃ m, l[i]? = some m ∧ ∀ j v, l[j]? = some v → m ≤ v ∧ (j < i → m < v) := by
  rcases l with _ | ⟨w, rest⟩
  · cases h
  · simp only [idxMin, Except.ok.injEq] at h
    have := idxMinGo_spec rest [w] w 0 rfl (fun j v hj => by
      rcases j with _ | j
      · simp at hj; subst hj; simp
      · simp at hj)
    simp only [List.length_singleton, h, List.singleton_append] at this
    exact this

omit [IsStrictOrderedRing K] in
/-- C25: the permittivity loaded for a frequency comes from the first row nearest to the wavelength `1/f`. -/
theorem C25_nearest (table : List (MatRow K)) (f re im : K) (h : epsAt table f = .ok (re, im)) :
    f ≠ 0 ∧ ∃ i row, FirstNearest table (1 / f) i row ∧ re = row.n ^ 2 - row.k ^ 2 ∧ im = 2 * (row.n * row.k) := by
  simp only [epsAt, pyDiv, bind_ok] at h
  obtain ⟨wl, hwl, i, hi, h⟩ := h
  split_ifs at hwl with hf
  cases hwl
  refine ⟨hf, ?_⟩
  obtain ⟨m, hm, hmin⟩ := idxMin_spec _ _ hi
  rw [List.getElem?_map] at hm
  cases hr : table[i]? with
  | none => rw [hr] at hm; cases hm
  | some row =>
      rw [hr] at hm h
      simp only [Option.map_some, Option.some.injEq] at hm
      simp only [pure, Except.pure, Except.ok.injEq, Prod.mk.injEq] at h
      refine ⟨i, row, ⟨hr, fun j r hj => ?_⟩, by rw [← h.1]; ring, by rw [← h.2]; ring⟩
      rw [hm]
      exact hmin j _ (by rw [List.getElem?_map, hj]; rfl)

omit [IsStrictOrderedRing K] in
/-- C25: loading never fails for a non-empty table and a non-zero frequency; the two failure classes otherwise. -/
theorem C25_total (table : List (MatRow K)) (f : K) :
    (table ≠ [] → f ≠ 0 → ∃ e, epsAt table f = .ok e) ∧ (f = 0 → epsAt table f = .error .zeroDivisionError) ∧
    (f ≠ 0 → epsAt ([] : List (MatRow K)) f = .error .valueError) := by
  refine ⟨fun ht hf => ?_, fun hf => by simp [epsAt, pyDiv, hf, error_bind], fun hf => by simp [epsAt, pyDiv, hf, idxMin, error_bind, ok_bind]⟩
  cases hm : idxMin (table.map fun r => |r.wl - 1 / f|) with
  | error e =>
      rcases table with _ | ⟨r, rest⟩
      · exact absurd rfl ht
      · simp [idxMin] at hm
  | ok i =>
      obtain ⟨m, h1, -⟩ := idxMin_spec _ _ hm
      rw [List.getElem?_map] at h1
      cases hr : table[i]? with
      | none => rw [hr] at h1; cases h1
      | some row => exact ⟨_, by rw [epsAt, pyDiv, if_neg hf, ok_bind, hm, ok_bind, hr]; rfl⟩

omit [IsStrictOrderedRing K] in
lemma mapM_ok {α β : Type} (f : α → Except PyErr β) (l : List α) (out : List β) (h : l.mapM f = .ok out) :
    out.length = l.length ∧ ∀ i (hi : i < l.length) (ho : i < out.length), f l[i] = .ok out[i] := by
  induction l generalizing out with
  | nil => simp only [List.mapM_nil, pure, Except.pure, Except.ok.injEq] at h; subst h; simp
  | cons a rest ih =>
      rw [List.mapM_cons] at h
      simp only [bind_ok, pure, Except.pure, Except.ok.injEq] at h
      obtain ⟨b, hb, bs, hbs, rfl⟩ := h
      obtain ⟨h1, h2⟩ := ih bs hbs
      refine ⟨by simp [h1], fun i hi ho => ?_⟩
      rcases i with _ | i
      · simpa using hb
      · simpa using h2 i (by simpa using hi) (by simpa using ho)

lemma mapM_total {α β : Type} (f : α → Except PyErr β) (l : List α) (h : ∀ a ∈ l, ∃ b, f a = .ok b) : ∃ out, l.mapM f = .ok out := by
  induction l with
  | nil => exact ⟨[], rfl⟩
  | cons a rest ih =>
      obtain ⟨b, hb⟩ := h a (by simp)
      obtain ⟨bs, hbs⟩ := ih fun a ha => h a (by simp [ha])
      exact ⟨b :: bs, by rw [List.mapM_cons, hb, ok_bind, hbs]; rfl⟩

omit [IsStrictOrderedRing K] in
/-- C25, the whole frequency list: one permittivity per requested frequency, in the same order, each from its own nearest row. -/
theorem C25_load (table : List (MatRow K)) (freqs : List K) (out : List (K × K)) (h : loadMaterialData table freqs = .ok out) :
    out.length = freqs.length ∧ ∀ (j : ℕ) (f re im : K), freqs[j]? = some f → out[j]? = some (re, im) →
      ∃ i row, FirstNearest table (1 / f) i row ∧ re = row.n ^ 2 - row.k ^ 2 ∧ im = 2 * (row.n * row.k) := by
  obtain ⟨h1, h2⟩ := mapM_ok _ _ _ h
  refine ⟨h1, fun j f re im hf he => ?_⟩
  obtain ⟨hj, rfl⟩ := List.getElem?_eq_some_iff.mp hf
  obtain ⟨hj', he⟩ := List.getElem?_eq_some_iff.mp he
  have := h2 j hj hj'
  rw [he] at this
  exact (C25_nearest _ _ _ _ this).2

/-- C25: tables with non-negative `n` and `k` give passive materials (imaginary part at least zero) at every frequency. -/
theorem C25_passive (table : List (MatRow K)) (hpos : ∀ r ∈ table, 0 ≤ r.n ∧ 0 ≤ r.k) (f re im : K) (h : epsAt table f = .ok (re, im)) :
    0 ≤ im := by
  obtain ⟨-, i, row, ⟨hr, -⟩, -, rfl⟩ := C25_nearest table f re im h
  obtain ⟨h1, h2⟩ := hpos row (List.mem_of_getElem? hr)
  positivity

end Numbers

/-- C25: real and imaginary part are those of the square of the complex refractive index `n + i k` of the nearest row. -/
theorem C25_index_squared (table : List (MatRow ℝ)) (f re im : ℝ) (h : epsAt table f = .ok (re, im)) :
    ∃ i row, FirstNearest table (1 / f) i row ∧ (⟨re, im⟩ : ℂ) = ((row.n : ℂ) + Complex.I * row.k) ^ 2 := by
  obtain ⟨-, i, row, h1, h2, h3⟩ := C25_nearest table f re im h
  refine ⟨i, row, h1, ?_⟩
  rw [h2, h3]
  apply Complex.ext <;> simp [sq]
  ring

/-- Two rows at equal distance from the wavelength 1: the first one wins. -/
example : epsAt ([⟨1 / 2, 2, 1⟩, ⟨3 / 2, 5, 0⟩] : List (MatRow ℚ)) 1 = .ok (3, 4) := by decide +kernel

/-- And a later, strictly nearer row wins over it. -/
example : loadMaterialData ([⟨1 / 2, 2, 1⟩, ⟨3 / 2, 5, 0⟩, ⟨1, 1, 1⟩] : List (MatRow ℚ)) [1, 2 / 3] = .ok [(0, 2), (25, 0)] := by decide +kernel

/-! ### C26 -/

section Collection
variable {K : Type} [Field K] [LinearOrder K]

/-- Specification: the files that are not skipped, in folder order. -/
def keptFiles {T : Type} (toSkip : Option (List String)) (files : List (String × T)) : List (String × T) :=
  files.filter fun f => match toSkip with | none => true | some l => decide (materialName f.1 ∉ l)

lemma loadFiles_spec (toSkip : Option (List String)) (freqs : List K) (files : List (String × List (MatRow K)))
    (r : List String × List (List (K × K))) (h : loadFiles toSkip freqs files = .ok r) :
    r.1 = (keptFiles toSkip files).map (fun f => materialName f.1) ∧ r.2.length = (keptFiles toSkip files).length ∧
    ∀ (i : ℕ) (f : String × List (MatRow K)) (e : List (K × K)), (keptFiles toSkip files)[i]? = some f → r.2[i]? = some e → loadMaterialData f.2 freqs = .ok e := by
  induction files generalizing r with
  | nil => simp only [loadFiles, Except.ok.injEq] at h; subst h; simp [keptFiles]
  | cons hd rest ih =>
      obtain ⟨file, table⟩ := hd
      rw [loadFiles] at h
      have hkept : ∀ r : List (String × List (MatRow K)), keptFiles toSkip ((file, table) :: r) =
          if isSkipped toSkip (materialName file) then keptFiles toSkip r else (file, table) :: keptFiles toSkip r := fun r => by
        rcases toSkip with _ | l
        · simp [keptFiles, isSkipped]
        · by_cases hm : materialName file ∈ l <;> simp [keptFiles, isSkipped, hm]
      cases hk : isSkipped toSkip (materialName file) with
      | true =>
          rw [hk, if_pos rfl] at h
          rw [hkept, hk, if_pos rfl]; exact ih r h
      | false =>
          rw [hk] at h
          simp only [Bool.false_eq_true, if_false, bind_ok, pure, Except.pure, Except.ok.injEq] at h
          have e1 : keptFiles toSkip ((file, table) :: rest) = (file, table) :: keptFiles toSkip rest := by
            rw [hkept, hk]; rfl
          obtain ⟨e, he, tail, ht, rfl⟩ := h
          obtain ⟨h1, h2, h3⟩ := ih tail ht
          rw [e1]
          refine ⟨by simp [h1], by simp [h2], fun i f e' hf he' => ?_⟩
          rcases i with _ | i
          · simp only [List.getElem?_cons_zero, Option.some.injEq] at hf he'
            rw [← hf, ← he']; exact he
          · exact h3 i f e' (by simpa using hf) (by simpa using he')

lemma mkCollection_inv (files : List (String × List (MatRow K))) (toSkip : Option (List String)) (freqs : List K)
    (c : MatCollection (K × K)) (h : mkCollection files toSkip freqs = .ok c) :
    freqs ≠ [] ∧ ∃ r, loadFiles toSkip freqs files = .ok r ∧ c.names = r.1 ∧ stackSqueeze r.2 = .ok c.matrix := by
  rw [mkCollection] at h
  split_ifs at h with hf
  simp only [bind_ok, pure, Except.pure, Except.ok.injEq] at h
  obtain ⟨r, h1, m, h2, rfl⟩ := h
  exact ⟨by rintro rfl; simp at hf, r, h1, rfl, h2⟩

/-- C26: the collection contains precisely the files that are not skipped, in folder order. -/
theorem C26_names (files : List (String × List (MatRow K))) (toSkip : Option (List String)) (freqs : List K) (c : MatCollection (K × K))
    (h : mkCollection files toSkip freqs = .ok c) : c.names = (keptFiles toSkip files).map fun f => materialName f.1 := by
  obtain ⟨-, r, h1, h2, -⟩ := mkCollection_inv files toSkip freqs c h
  rw [h2, (loadFiles_spec toSkip freqs files r h1).1]

lemma stack_many {V : Type} (rows : List (List V)) (m : EpsMatrix V) (hr : 2 ≤ rows.length) (h : stackSqueeze rows = .ok m)
    (i : ℕ) (row : List V) (hi : rows[i]? = some row) (f : ℕ) (v : V) (hv : row[f]? = some v) :
    ∃ e, m.get i = .ok e ∧ e.at f = some v := by
  rcases rows with _ | ⟨r0, _ | ⟨r1, rs⟩⟩
  · simp at hr
  · simp at hr
  · rw [show stackSqueeze (r0 :: r1 :: rs) =
        .ok (if (r0 :: r1 :: rs).all (fun r => r.length = 1) then .vec (r0 :: r1 :: rs).flatten else .mat (r0 :: r1 :: rs)) by
          rcases r0 with _ | ⟨a, _ | _⟩ <;> rfl] at h
    generalize r0 :: r1 :: rs = rows at *
    rw [Except.ok.injEq] at h
    subst h
    split_ifs with hall
    · have hall' : ∀ r ∈ rows, r.length = 1 := by simpa [List.all_eq_true] using hall
      have hf : rows.flatten[i]? = some v ∧ f = 0 := by
        clear hall hr
        induction rows generalizing i with
        | nil => simp at hi
        | cons r rest ih =>
            obtain ⟨a, rfl⟩ := List.length_eq_one_iff.mp (hall' r (by simp))
            rcases i with _ | i
            · simp only [List.getElem?_cons_zero, Option.some.injEq] at hi
              subst hi
              rcases f with _ | f
              · simpa using hv
              · simp at hv
            · simpa using ih i (by simpa using hi) fun r hr => hall' r (by simp [hr])
      exact ⟨.scalar v, by simp [EpsMatrix.get, hf.1], rfl⟩
    · exact ⟨.vec row, by simp [EpsMatrix.get, hi], by simpa [EpsEntry.at] using hv⟩

/-- C26, lookup. Missing compared to the property: at least two materials must be loaded (see `C26_single_material_false`). If the names of the
kept files differ, looking up a loaded name yields at every requested frequency the permittivity computed from that name's own table. -/
theorem C26_lookup_partial (files : List (String × List (MatRow K))) (toSkip : Option (List String)) (freqs : List K)
    (c : MatCollection (K × K)) (h : mkCollection files toSkip freqs = .ok c) (htwo : 2 ≤ (keptFiles toSkip files).length)
    (hnames : ((keptFiles toSkip files).map fun f => materialName f.1).Nodup)
    (file : String) (table : List (MatRow K)) (hmem : (file, table) ∈ keptFiles toSkip files) (f : ℕ) (hf : f < freqs.length) :
    ∃ e v, c.lookup (materialName file) = .ok e ∧ e.at f = some v ∧ epsAt table freqs[f] = .ok v := by
  obtain ⟨-, r, h1, h2, h3⟩ := mkCollection_inv files toSkip freqs c h
  obtain ⟨s1, s2, s3⟩ := loadFiles_spec toSkip freqs files r h1
  obtain ⟨i, hi, hget⟩ := List.mem_iff_getElem.mp hmem
  have hi2 : i < r.2.length := by omega
  have hload := s3 i (file, table) r.2[i] (by rw [List.getElem?_eq_getElem hi, hget]) (List.getElem?_eq_getElem hi2)
  obtain ⟨l1, l2⟩ := mapM_ok _ _ _ hload
  have hf2 : f < r.2[i].length := by omega
  obtain ⟨e, he1, he2⟩ := stack_many r.2 c.matrix (by omega) h3 i r.2[i] (List.getElem?_eq_getElem hi2) f r.2[i][f]
    (List.getElem?_eq_getElem hf2)
  have hn : c.names[i]? = some (materialName file) := by
    rw [h2, s1, List.getElem?_map, List.getElem?_eq_getElem hi, hget]; rfl
  have hidx : c.names.idxOf (materialName file) = i := by
    obtain ⟨hlt, heq⟩ := List.getElem?_eq_some_iff.mp hn
    have hnd : c.names.Nodup := by rw [h2, s1]; exact hnames
    rw [← heq]; exact hnd.idxOf_getElem i hlt
  refine ⟨e, r.2[i][f], ?_, he2, l2 f hf hf2⟩
  rw [MatCollection.lookup, if_pos (by simpa using List.mem_of_getElem? hn), hidx, he1]

/-- C26: exactly the names that were not loaded raise KeyError. -/
theorem C26_keyError (files : List (String × List (MatRow K))) (toSkip : Option (List String)) (freqs : List K) (c : MatCollection (K × K))
    (h : mkCollection files toSkip freqs = .ok c) (key : String) :
    c.lookup key = .error .keyError ↔ ∀ f ∈ files, (∀ l, toSkip = some l → materialName f.1 ∉ l) → materialName f.1 ≠ key := by
  have hmem : key ∈ c.names ↔ ∃ f ∈ files, (∀ l, toSkip = some l → materialName f.1 ∉ l) ∧ materialName f.1 = key := by
    rw [C26_names files toSkip freqs c h, List.mem_map]
    constructor
    · rintro ⟨f, hf, he⟩
      rw [keptFiles, List.mem_filter] at hf
      refine ⟨f, hf.1, fun l hl => ?_, he⟩
      subst hl; simpa using hf.2
    · rintro ⟨f, hf, hs, he⟩
      refine ⟨f, ?_, he⟩
      rw [keptFiles, List.mem_filter]
      refine ⟨hf, ?_⟩
      rcases toSkip with _ | l
      · rfl
      · simpa using hs l rfl
  rw [MatCollection.lookup]
  by_cases hk : key ∈ c.names
  · rw [if_pos (by simpa using hk)]
    constructor
    · intro he
      exfalso
      cases hm : c.matrix with
      | scalar v => rw [hm] at he; simp [EpsMatrix.get] at he
      | vec vs => rw [hm] at he; cases hv : vs[c.names.idxOf key]? <;> simp [EpsMatrix.get, hv] at he
      | mat rows => rw [hm] at he; cases hv : rows[c.names.idxOf key]? <;> simp [EpsMatrix.get, hv] at he
    · intro hall
      obtain ⟨f, hf, hs, he⟩ := hmem.mp hk
      exact absurd he (hall f hf hs)
  · rw [if_neg (by simpa using hk)]
    simp only [true_iff]
    intro f hf hs he
    exact hk (hmem.mpr ⟨f, hf, hs, he⟩)

/-- C26: construction is refused for an empty frequency list (ValueError) and for an empty selection (RuntimeError from torch.stack); it succeeds
for non-empty tables, non-zero frequencies and a non-empty selection. -/
theorem C26_construction (files : List (String × List (MatRow K))) (toSkip : Option (List String)) (freqs : List K) :
    mkCollection files toSkip ([] : List K) = .error .valueError ∧
    (freqs ≠ [] → keptFiles toSkip files = [] → ∀ c, mkCollection files toSkip freqs ≠ .ok c) ∧
    (freqs ≠ [] → keptFiles toSkip files ≠ [] → (∀ f ∈ files, f.2 ≠ []) → (∀ f ∈ freqs, f ≠ 0) → ∃ c, mkCollection files toSkip freqs = .ok c) := by
  refine ⟨rfl, fun _ hk c hc => ?_, fun hfr hk ht hnz => ?_⟩
  · obtain ⟨-, r, h1, -, h3⟩ := mkCollection_inv files toSkip freqs c hc
    have := (loadFiles_spec toSkip freqs files r h1).2.1
    rw [hk, List.length_nil, List.length_eq_zero_iff] at this
    rw [this] at h3; cases h3
  · have hl : ∃ r, loadFiles toSkip freqs files = .ok r := by
      clear hk
      induction files with
      | nil => exact ⟨_, rfl⟩
      | cons hd rest ih =>
          obtain ⟨r, hr⟩ := ih fun f hf => ht f (by simp [hf])
          obtain ⟨file, table⟩ := hd
          obtain ⟨e, he⟩ : ∃ e, loadMaterialData table freqs = .ok e :=
            mapM_total _ _ fun f hf => (C25_total table f).1 (ht _ (List.mem_cons_self ..)) (hnz f hf)
          rw [loadFiles]
          split
          · exact ⟨r, hr⟩
          · exact ⟨_, by rw [he, ok_bind, hr, ok_bind]; rfl⟩
    obtain ⟨r, hr⟩ := hl
    have hlen := (loadFiles_spec toSkip freqs files r hr).2.1
    have hs : ∃ m, stackSqueeze r.2 = .ok m := by
      rcases hr2 : r.2 with _ | ⟨r0, _ | ⟨r1, rs⟩⟩
      · rw [hr2] at hlen; exact absurd (List.length_eq_zero_iff.mp hlen.symm) hk
      · rcases r0 with _ | ⟨a, _ | _⟩ <;> exact ⟨_, rfl⟩
      · rcases r0 with _ | ⟨a, _ | _⟩ <;> exact ⟨_, rfl⟩
    obtain ⟨m, hm⟩ := hs
    exact ⟨_, by rw [mkCollection, if_neg (by simpa using hfr), hr, ok_bind, hm, ok_bind]; rfl⟩

/-- C26: the name of a file is its base name without the extension, as long as ".csv" does not occur earlier in it; so different files
have different names. -/
theorem C26_stem (stem : List Char) (h : ∀ n, ¬ ['.', 'c', 's', 'v'] <+: stem.drop n ++ ['.', 'c', 's', 'v'] ∨ stem.length ≤ n) :
    materialName (String.ofList (stem ++ ['.', 'c', 's', 'v'])) = String.ofList stem := by
  rw [materialName, String.toList_ofList]
  congr 1
  induction stem with
  | nil => rfl
  | cons c rest ih =>
      have h0 := (h 0).resolve_right (by simp)
      rw [List.cons_append, beforeCsv, if_neg]
      · rw [ih fun n => by simpa using h (n + 1)]
      · rw [List.isPrefixOf_iff_prefix]; simpa using h0

/-- The shipped file `germanium.csv`. -/
example : materialName "germanium.csv" = "germanium" := by decide +kernel

end Collection

/-- C26 fails for a collection with a single material: `squeeze()` also drops the material axis, and looking the material up yields only its
permittivity at the first frequency (which is then broadcast to all frequencies); with a single frequency as well the lookup raises IndexError. -/
theorem C26_single_material_false :
    ∃ (files : List (String × List (MatRow ℚ))) (c : MatCollection (ℚ × ℚ)),
      mkCollection files none [1, 2] = .ok c ∧ c.names = ["a"] ∧
      (∃ e, c.lookup "a" = .ok e ∧ e.at 1 = some (1, 0)) ∧ epsAt (files.headD ("", [])).2 2 = .ok (4, 0) ∧
      ∃ c', mkCollection files none [1] = .ok c' ∧ c'.lookup "a" = .error .indexError := by
  refine ⟨[("a.csv", [⟨1, 1, 0⟩, ⟨1 / 2, 2, 0⟩])], ⟨["a"], .vec [(1, 0), (4, 0)]⟩, ?_, rfl, ⟨.scalar (1, 0), ?_, rfl⟩, ?_,
    ⟨["a"], .scalar (1, 0)⟩, ?_, ?_⟩
  · have h1 : materialName "a.csv" = "a" := by decide +kernel
    have h2 : loadMaterialData ([⟨1, 1, 0⟩, ⟨1 / 2, 2, 0⟩] : List (MatRow ℚ)) [1, 2] = .ok [(1, 0), (4, 0)] := by decide +kernel
    rw [mkCollection, if_neg (by simp), loadFiles, isSkipped, if_neg (by simp), h2, h1]; rfl
  · decide +kernel
  · decide +kernel
  · have h1 : materialName "a.csv" = "a" := by decide +kernel
    have h2 : loadMaterialData ([⟨1, 1, 0⟩, ⟨1 / 2, 2, 0⟩] : List (MatRow ℚ)) [1] = .ok [(1, 0)] := by decide +kernel
    rw [mkCollection, if_neg (by simp), loadFiles, isSkipped, if_neg (by simp), h2, h1]; rfl
  · decide +kernel

/-- Two materials, two frequencies, one skipped file: the hypotheses of the lookup theorem are met. -/
example :
    let files : List (String × List (MatRow ℚ)) := [("a.csv", [⟨1, 1, 0⟩, ⟨1 / 2, 2, 0⟩]), ("b.csv", [⟨1, 3, 0⟩]), ("z.csv", [⟨1, 5, 1⟩])]
    (keptFiles (some ["b"]) files).length = 2 ∧ ((keptFiles (some ["b"]) files).map fun f => materialName f.1) = ["a", "z"] ∧
      (loadFiles (some ["b"]) [1, 2] files) = .ok (["a", "z"], [[(1, 0), (4, 0)], [(24, 10), (24, 10)]]) := by
  decide +kernel

/-! ### C27 -/

/-- Specification: mean over the frequencies of the absolute permittivity difference. -/
noncomputable def avgAbsDiff (nf : ℕ) (cell mat : ℕ → ℂ) : ℝ := (∑ f ∈ Finset.range nf, ‖cell f - mat f‖) / nf

lemma meanDistance_eq (nf : ℕ) (cell mat : ℕ → ℂ) : meanDistance nf cell mat = avgAbsDiff nf cell mat := by
  rw [meanDistance, avgAbsDiff]; rfl

/-- C27: the reported index is valid, the reported distance is the mean absolute difference to that material, and no material is closer. -/
theorem C27_minimiser (am : ArgMin) (nf : ℕ) (mats : List (ℕ → ℂ)) (hm : mats ≠ []) (cell : ℕ → ℂ) :
    ∃ m, mats[(findClosest am nf mats cell).2]? = some m ∧ (findClosest am nf mats cell).1 = some (avgAbsDiff nf cell m) ∧
      ∀ m' ∈ mats, avgAbsDiff nf cell m ≤ avgAbsDiff nf cell m' := by
  obtain ⟨h1, h2⟩ := am.valid (mats.map (meanDistance nf cell)) (by simpa using hm)
  have h3 : am.pick (mats.map (meanDistance nf cell)) < mats.length := by simpa using h1
  refine ⟨mats[am.pick (mats.map (meanDistance nf cell))], List.getElem?_eq_getElem h3, ?_, fun m' hm' => ?_⟩
  · simp only [findClosest]
    rw [List.getElem?_eq_getElem h1, List.getElem_map, meanDistance_eq]
  · have := h2 (meanDistance nf cell m') (List.mem_map_of_mem hm')
    rwa [List.getElem_map, meanDistance_eq, meanDistance_eq] at this

/-- C27: the distance is never negative, and zero exactly if the cell has that material's permittivity at every frequency. -/
theorem C27_zero_iff (am : ArgMin) (nf : ℕ) (hnf : 0 < nf) (mats : List (ℕ → ℂ)) (hm : mats ≠ []) (cell : ℕ → ℂ) :
    ∃ m d, mats[(findClosest am nf mats cell).2]? = some m ∧ (findClosest am nf mats cell).1 = some d ∧ 0 ≤ d ∧
      (d = 0 ↔ ∀ f < nf, cell f = m f) ∧ ((∃ m' ∈ mats, ∀ f < nf, cell f = m' f) → d = 0) := by
  obtain ⟨m, h1, h2, h3⟩ := C27_minimiser am nf mats hm cell
  have hz : ∀ m' : ℕ → ℂ, 0 ≤ avgAbsDiff nf cell m' ∧ (avgAbsDiff nf cell m' = 0 ↔ ∀ f < nf, cell f = m' f) := fun m' => by
    have hn : (0 : ℝ) < nf := by exact_mod_cast hnf
    have hs : 0 ≤ ∑ f ∈ Finset.range nf, ‖cell f - m' f‖ := Finset.sum_nonneg fun _ _ => norm_nonneg _
    refine ⟨div_nonneg hs hn.le, ?_⟩
    rw [avgAbsDiff, div_eq_zero_iff, or_iff_left hn.ne', Finset.sum_eq_zero_iff_of_nonneg fun _ _ => norm_nonneg _]
    simp [sub_eq_zero]
  refine ⟨m, _, h1, h2, (hz m).1, (hz m).2, fun ⟨m', hm', he⟩ => ?_⟩
  exact le_antisymm ((h3 m' hm').trans (((hz m').2.mpr he).le)) (hz m).1

/-- The first-minimum rule satisfies the contract, so the theorems are not vacuous. -/
noncomputable def firstArgMin : ArgMin where
  pick l := match idxMin l with | .ok i => i | .error _ => 0
  valid l hl := by
    cases h : idxMin l with
    | error e => rcases l with _ | ⟨a, l⟩; exact absurd rfl hl; simp [idxMin] at h
    | ok i =>
        obtain ⟨m, h1, h2⟩ := idxMin_spec l i h
        obtain ⟨h3, h4⟩ := List.getElem?_eq_some_iff.mp h1
        refine ⟨h3, fun v hv => ?_⟩
        obtain ⟨j, hj, rfl⟩ := List.mem_iff_getElem.mp hv
        simp only [h4]
        exact (h2 j _ (List.getElem?_eq_getElem hj)).1

/-- A cell equal to the second of two materials is recognised with distance zero. -/
example : ∃ m d, ([fun _ => 1, fun _ => 4] : List (ℕ → ℂ))[(findClosest firstArgMin 2 [fun _ => 1, fun _ => 4] (fun _ => 4)).2]? = some m ∧
    (findClosest firstArgMin 2 [fun _ => 1, fun _ => 4] (fun _ => 4)).1 = some d ∧ d = 0 := by
  obtain ⟨m, d, h1, h2, -, -, h3⟩ := C27_zero_iff firstArgMin 2 (by norm_num) [fun _ => 1, fun _ => 4] (by simp) (fun _ => 4)
  exact ⟨m, d, h1, h2, h3 ⟨_, by simp, fun _ _ => rfl⟩⟩

end Nidn
