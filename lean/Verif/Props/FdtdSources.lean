/-
C58 (index lists of line and block detectors and of line sources) and the cell part of C56.
-/
import Mathlib.Data.List.Nodup
import Mathlib.Tactic.Ring
import Mathlib.Tactic.FieldSimp
import Mathlib.Tactic.Linarith
import Verif.Model.FdtdSources
import Verif.Lemmas.Py
import Verif.Props.FdtdObjects

namespace Nidn

lemma mapM_all_ok {α β : Type} (f : α → Except PyErr β) (g : α → β) (l : List α) (h : ∀ x ∈ l, f x = .ok (g x)) :
    l.mapM f = .ok (l.map g) := by
  induction l with
  | nil => rfl
  | cons x l ih =>
    rw [List.mapM_cons, h x (by simp), ok_bind, ih fun y hy => h y (by simp [hy]), ok_bind]
    rfl

lemma mapM_error {α β : Type} (f : α → Except PyErr β) (e : PyErr) (hf : ∀ x e', f x = .error e' → e' = e) (l : List α)
    (h : ∃ x ∈ l, f x = .error e) : l.mapM f = .error e := by
  induction l with
  | nil => obtain ⟨x, hx, -⟩ := h; cases hx
  | cons x l ih =>
    rw [List.mapM_cons]
    cases hx : f x with
    | error e' => rw [error_bind, hf x e' hx]
    | ok b =>
      obtain ⟨y, hy, he⟩ := h
      have hy' : y ∈ l := by
        rcases List.mem_cons.1 hy with rfl | hy
        · rw [hx] at he; cases he
        · exact hy
      rw [ok_bind, ih ⟨y, hy', he⟩]
      rfl

/-- Keys for which the index lists are what Python indexing means: a single index inside the axis (negative allowed), or a slice with unit step,
bounds missing or not negative, selecting at least one cell. What goes wrong otherwise is in `C58_negative_false`, `C58_list_false`. -/
def LineKey (N : ℕ) : AxisKey → Prop
  | .list l => ∃ v : ℤ, l = [v] ∧ -(N : ℤ) ≤ v ∧ v < N
  | .slice s => (s.step = none ∨ s.step = some 1) ∧ 0 ≤ s.start.getD 0 ∧ s.start.getD 0 < s.stop.getD N ∧ s.stop.getD N ≤ N

/-- value `i` of an index list -/
def axisVal (a b : ℤ) (m i : ℕ) : ℤ := if a = b then a else pyTrunc ((a : ℚ) + (i : ℚ) * (((b : ℚ) - (a : ℚ)) / (m : ℚ)))

lemma intLinspace_eq (a b : ℤ) (m : ℕ) (hm : m ≠ 0) : intLinspace a b m = .ok ((List.range m).map (axisVal a b m)) := by
  unfold intLinspace
  rw [if_neg hm]
  by_cases h : a = b
  · rw [if_pos h]
    congr 1
    refine List.ext_getElem (by simp) fun i h1 h2 => ?_
    simp [axisVal, h]
  · rw [if_neg h]
    congr 1
    refine List.map_congr_left fun i _ => ?_
    exact (if_neg h).symm

lemma axisVal_mem {a b : ℤ} {m i : ℕ} (ha : 0 ≤ a) (hab : a < b) (hi : i < m) : a ≤ axisVal a b m i ∧ axisVal a b m i < b := by
  have hne : a ≠ b := by omega
  have hm : (0 : ℚ) < m := by exact_mod_cast Nat.lt_of_le_of_lt (Nat.zero_le _) hi
  have hba : (0 : ℚ) < (b : ℚ) - a := by
    have : (a : ℚ) < b := by exact_mod_cast hab
    linarith
  have h0 : (0 : ℚ) ≤ (i : ℚ) * (((b : ℚ) - (a : ℚ)) / (m : ℚ)) := by positivity
  have h1 : (i : ℚ) * (((b : ℚ) - (a : ℚ)) / (m : ℚ)) < (b : ℚ) - a := by
    have hq : (i : ℚ) < m := by exact_mod_cast hi
    rw [← mul_div_assoc, div_lt_iff₀ hm, mul_comm]
    exact mul_lt_mul_of_pos_left hq hba
  have ha' : (0 : ℚ) ≤ a := by exact_mod_cast ha
  have hf : axisVal a b m i = ⌊(a : ℚ) + (i : ℚ) * (((b : ℚ) - (a : ℚ)) / (m : ℚ))⌋ := by
    unfold axisVal pyTrunc
    rw [if_neg hne, if_pos (by linarith)]
  rw [hf]
  constructor
  · rw [Int.le_floor]; linarith
  · rw [Int.floor_lt]; linarith

lemma axisVal_full {a b : ℤ} {m i : ℕ} (ha : 0 ≤ a) (hab : a < b) (hm : ((b - a).natAbs) = m) : axisVal a b m i = a + i := by
  have hne : a ≠ b := by omega
  have hmz : (m : ℤ) = b - a := by omega
  have hmq : (m : ℚ) = (b : ℚ) - a := by exact_mod_cast hmz
  have hba : (b : ℚ) - a ≠ 0 := by
    have : (a : ℚ) < b := by exact_mod_cast hab
    linarith
  unfold axisVal pyTrunc
  rw [if_neg hne, hmq, div_self hba, mul_one]
  have ha' : (0 : ℚ) ≤ a := by exact_mod_cast ha
  have hi' : (0 : ℚ) ≤ (i : ℚ) := by positivity
  rw [if_pos (by linarith)]
  have : (a : ℚ) + (i : ℚ) = ((a + (i : ℤ) : ℤ) : ℚ) := by push_cast; rfl
  rw [this, Int.floor_intCast]

/-- everything the proofs need about one axis -/
lemma lineKey_axis (N : ℕ) (k : AxisKey) (h : LineKey N k) :
    ∃ b : ℤ × ℤ, lineBounds N k = .ok b ∧ (∀ m i, i < m → ∃ c, torchIndex N (axisVal b.1 b.2 m i) = .ok c ∧ keySelects N k c) ∧
      (∀ s, k = .slice s → 1 ≤ (b.2 - b.1).natAbs) ∧ (∀ l, k = .list l → b.2 = b.1) ∧
      (∀ m, m = (b.2 - b.1).natAbs → 1 ≤ m → ∀ i, i < m → torchIndex N (axisVal b.1 b.2 m i) = .ok (b.1.toNat + i) ∧ 0 ≤ b.1) ∧
      (∀ m, m = (b.2 - b.1).natAbs → 1 ≤ m → ∀ c, keySelects N k c → ∃ i < m, c = b.1.toNat + i) ∧
      ∀ S : Finset ℕ, (∀ i, i ∈ S ↔ keySelects N k i) → S.card = max 1 (b.2 - b.1).natAbs := by
  cases k with
  | list l =>
    obtain ⟨v, rfl, h1, h2⟩ := h
    refine ⟨(v, v), rfl, ?_, fun s hs => (by cases hs), fun _ _ => rfl, ?_, ?_, ?_⟩
    · intro m i _
      have : axisVal v v m i = v := if_pos rfl
      show ∃ c, torchIndex N (axisVal v v m i) = .ok c ∧ _
      rw [this]
      unfold torchIndex
      by_cases hv : 0 ≤ v
      · refine ⟨v.toNat, if_pos ⟨hv, h2⟩, v, by simp, ?_⟩
        unfold indexSelects; omega
      · refine ⟨(v + N).toNat, ?_, v, by simp, ?_⟩
        · rw [if_neg (by omega), if_pos (by omega)]
        · unfold indexSelects; omega
    · intro m hm h1; simp at hm; omega
    · intro m hm h1; simp at hm; omega
    · intro S hS
      have : S = {if 0 ≤ v then v.toNat else (v + N).toNat} := by
        ext i
        rw [hS, Finset.mem_singleton]
        show (∃ w ∈ [v], indexSelects N w i) ↔ _
        simp only [List.mem_singleton, exists_eq_left, indexSelects]
        split_ifs <;> omega
      rw [this]; simp
  | slice s =>
    obtain ⟨-, h1, h2, h3⟩ := h
    have hsel : ∀ c, keySelects N (.slice s) c ↔ s.start.getD 0 ≤ c ∧ (c : ℤ) < s.stop.getD N := by
      intro c
      show sliceSelects N s c ↔ _
      unfold sliceSelects
      have e1 : sliceBound N 0 s.start = s.start.getD 0 := by
        cases hs : s.start with
        | none => rfl
        | some a =>
          rw [hs] at h1 h2
          simp only [Option.getD_some] at h1 h2
          show (if a < 0 then _ else _) = a
          rw [if_neg (by omega)]; omega
      have e2 : sliceBound N N s.stop = s.stop.getD N := by
        cases hs : s.stop with
        | none => rfl
        | some a =>
          rw [hs] at h2 h3
          simp only [Option.getD_some] at h2 h3
          show (if a < 0 then _ else _) = a
          rw [if_neg (by omega)]; omega
      rw [e1, e2]
    generalize ha : s.start.getD 0 = a at *
    generalize hb : s.stop.getD (N : ℤ) = b at *
    refine ⟨(a, b), by show Except.ok (s.start.getD 0, s.stop.getD (N : ℤ)) = _; rw [ha, hb], ?_, ?_, fun l hl => (by cases hl), ?_, ?_, ?_⟩
    · intro m i hi
      obtain ⟨g1, g2⟩ := axisVal_mem h1 h2 hi
      refine ⟨(axisVal a b m i).toNat, ?_, ?_⟩
      · unfold torchIndex
        exact if_pos ⟨by show 0 ≤ axisVal a b m i; omega, by show axisVal a b m i < N; omega⟩
      · rw [hsel]; omega
    · intro _ _; show 1 ≤ (b - a).natAbs; omega
    · intro m hm _ i hi
      have : axisVal a b m i = a + i := axisVal_full h1 h2 hm.symm
      show torchIndex N (axisVal a b m i) = _ ∧ 0 ≤ a
      rw [this]
      unfold torchIndex
      have hm' : m = (b - a).natAbs := hm
      refine ⟨?_, h1⟩
      rw [if_pos (by omega)]
      congr 1
      show (a + (i : ℤ)).toNat = a.toNat + i
      omega
    · intro m hm _ c hc
      rw [hsel] at hc
      have hm' : m = (b - a).natAbs := hm
      refine ⟨c - a.toNat, by omega, ?_⟩
      show c = a.toNat + (c - a.toNat)
      omega
    · intro S hS
      have : S = Finset.Ico a.toNat b.toNat := by
        ext i
        rw [hS, hsel, Finset.mem_Ico]; omega
      rw [this, Nat.card_Ico]
      show b.toNat - a.toNat = max 1 (b - a).natAbs
      omega

lemma zip3_map {α : Type} (l : List α) (f g h : α → ℤ) :
    (l.map f).zip ((l.map g).zip (l.map h)) = l.map fun i => (f i, g i, h i) := by
  induction l with
  | nil => rfl
  | cons x l ih => simp [ih]

lemma lineIndices_span (atLeast : ℕ) (n : Pos) (k : Fin 3 → AxisKey) (hs : ∃ a s, k a = .slice s) :
    lineIndices atLeast n (k 0) (k 1) (k 2) = lineSpan atLeast n (k 0) (k 1) (k 2) := by
  unfold lineIndices
  split
  · rename_i _ _ _ x y z h0 h1 h2
    obtain ⟨a, s, ha⟩ := hs
    fin_cases a
    · simp only [Fin.zero_eta] at ha; rw [ha] at h0; cases h0
    · simp only [Fin.mk_one] at ha; rw [ha] at h1; cases h1
    · simp only [Fin.reduceFinMk] at ha; rw [ha] at h2; cases h2
  · rfl

/-- C58 for lines: detectors (`atLeast = 0`) and sources (`atLeast = 2`) placed with valid keys, not all of them single indices, on cells that Python
indexing selects on every axis. No cell is listed twice, there are as many cells as the longest axis selects, and on that axis every selected index occurs.
Line sources of fewer than two cells are rejected with a ValueError. Partial: negative slice bounds and lists of several indices mixed with slices are excluded,
because the claim is false for them. -/
theorem C58_line_partial (atLeast : ℕ) (n : Pos) (k : Fin 3 → AxisKey) (hk : ∀ a, LineKey (n a) (k a)) (hs : ∃ a s, k a = .slice s)
    (S : Fin 3 → Finset ℕ) (hS : ∀ a i, i ∈ S a ↔ keySelects (n a) (k a) i) :
    (Finset.univ.sup (fun a => (S a).card) < atLeast → atLeast ≤ 2 → lineIndices atLeast n (k 0) (k 1) (k 2) = .error .valueError) ∧
    (atLeast ≤ Finset.univ.sup (fun a => (S a).card) → ∃ l cells, lineIndices atLeast n (k 0) (k 1) (k 2) = .ok l ∧ lineCells n l = .ok cells ∧
      l.x.length = l.y.length ∧ l.y.length = l.z.length ∧ cells.length = l.x.length ∧
      cells.Nodup ∧ cells.length = Finset.univ.sup (fun a => (S a).card) ∧
      (∀ p ∈ cells, ∀ a, keySelects (n a) (k a) (p a)) ∧
      ∃ a, (S a).card = Finset.univ.sup (fun a => (S a).card) ∧ ∀ i, keySelects (n a) (k a) i → ∃ p ∈ cells, p a = i) := by
  choose b hb1 hb2 hb3 hb4 hb5 hb6 hb7 using fun a => lineKey_axis (n a) (k a) (hk a)
  have hcard : ∀ a, (S a).card = max 1 ((b a).2 - (b a).1).natAbs := fun a => hb7 a (S a) (hS a)
  set m := linePoints (b 0) (b 1) (b 2) with hm
  obtain ⟨a0, s0, hs0⟩ := hs
  have ha0 := hb3 a0 s0 hs0
  have hle : ∀ a, ((b a).2 - (b a).1).natAbs ≤ m := by
    intro a
    rw [hm]; unfold linePoints
    fin_cases a <;> simp
  have hm1 : 1 ≤ m := le_trans ha0 (hle a0)
  have hex : ∃ a, ((b a).2 - (b a).1).natAbs = m := by
    rw [hm]; unfold linePoints
    rcases max_choice (max ((b 0).2 - (b 0).1).natAbs ((b 1).2 - (b 1).1).natAbs) ((b 2).2 - (b 2).1).natAbs with h | h
    · rw [h]
      rcases max_choice ((b 0).2 - (b 0).1).natAbs ((b 1).2 - (b 1).1).natAbs with h | h
      · exact ⟨0, h.symm⟩
      · exact ⟨1, h.symm⟩
    · exact ⟨2, h.symm⟩
  obtain ⟨a1, ha1⟩ := hex
  have hsup : Finset.univ.sup (fun a => (S a).card) = m := by
    refine le_antisymm (Finset.sup_le fun a _ => ?_) ?_
    · rw [hcard]; exact max_le hm1 (hle a)
    · calc m = (S a1).card := by rw [hcard, ha1]; exact (max_eq_right hm1).symm
        _ ≤ _ := Finset.le_sup (f := fun a => (S a).card) (Finset.mem_univ a1)
  rw [hsup, lineIndices_span atLeast n k ⟨a0, s0, hs0⟩]
  unfold lineSpan
  rw [hb1 0, hb1 1, hb1 2, ok_bind, ok_bind, ok_bind]
  show (m < atLeast → _ → (if m < atLeast then _ else _) = _) ∧ (_ → ∃ l cells, (if m < atLeast then _ else _) = _ ∧ _)
  refine ⟨fun h _ => if_pos h, fun h => ?_⟩
  choose c hc1 hc2 using hb2
  let pos : ∀ i, i < m → Pos := fun i hi a => c a m i hi
  let pos' : ℕ → Pos := fun i => if hi : i < m then pos i hi else fun _ => 0
  have hpos : ∀ i (hi : i < m), pos' i = pos i hi := fun i hi => dif_pos hi
  refine ⟨⟨(List.range m).map (axisVal (b 0).1 (b 0).2 m), (List.range m).map (axisVal (b 1).1 (b 1).2 m), (List.range m).map (axisVal (b 2).1 (b 2).2 m)⟩,
    (List.range m).map pos', ?_, ?_, by simp, by simp, by simp, ?_, by simp, ?_, a1, ?_, ?_⟩
  · rw [if_neg (by omega), intLinspace_eq _ _ _ (by omega), intLinspace_eq _ _ _ (by omega), intLinspace_eq _ _ _ (by omega)]
    rfl
  · unfold lineCells IndexLists.triples
    show List.mapM _ (((List.range m).map _).zip (((List.range m).map _).zip ((List.range m).map _))) = _
    rw [zip3_map]
    have key : ∀ i ∈ List.range m, torchCell n (axisVal (b 0).1 (b 0).2 m i, axisVal (b 1).1 (b 1).2 m i, axisVal (b 2).1 (b 2).2 m i) = .ok (pos' i) := by
      intro i hi
      rw [List.mem_range] at hi
      unfold torchCell
      show (torchIndex (n 0) (axisVal (b 0).1 (b 0).2 m i) >>= _) = _
      rw [hc1 0 m i hi, ok_bind]
      show (torchIndex (n 1) (axisVal (b 1).1 (b 1).2 m i) >>= _) = _
      rw [hc1 1 m i hi, ok_bind]
      show (torchIndex (n 2) (axisVal (b 2).1 (b 2).2 m i) >>= _) = _
      rw [hc1 2 m i hi, ok_bind, hpos i hi]
      congr 1
      funext a
      fin_cases a <;> rfl
    have := mapM_all_ok (fun i => torchCell n (axisVal (b 0).1 (b 0).2 m i, axisVal (b 1).1 (b 1).2 m i, axisVal (b 2).1 (b 2).2 m i)) pos' (List.range m) key
    rw [List.mapM_map]
    exact this
  · refine (List.nodup_map_iff_inj_on List.nodup_range).2 fun i hi j hj hij => ?_
    rw [List.mem_range] at hi hj
    rw [hpos i hi, hpos j hj] at hij
    have h1 := congrFun hij a1
    have e1 := (hb5 a1 m ha1.symm hm1 i hi).1
    have e2 := (hb5 a1 m ha1.symm hm1 j hj).1
    rw [hc1 a1 m i hi] at e1
    rw [hc1 a1 m j hj] at e2
    have e1' := Except.ok.inj e1
    have e2' := Except.ok.inj e2
    have h2 : c a1 m i hi = c a1 m j hj := h1
    omega
  · intro p hp a
    obtain ⟨i, hi, rfl⟩ := List.mem_map.1 hp
    rw [List.mem_range] at hi
    rw [hpos i hi]
    exact hc2 a m i hi
  · rw [hcard, ha1]; exact max_eq_right hm1
  · intro v hv
    obtain ⟨i, hi, rfl⟩ := hb6 a1 m ha1.symm hm1 v hv
    refine ⟨pos' i, List.mem_map.2 ⟨i, List.mem_range.2 hi, rfl⟩, ?_⟩
    rw [hpos i hi]
    have e1 := (hb5 a1 m ha1.symm hm1 i hi).1
    rw [hc1 a1 m i hi] at e1
    exact Except.ok.inj e1

/-- the keys of `grid[x, :, 0]` -/
def crossLine (x : ℤ) : Fin 3 → AxisKey := ![.list [x], .slice fullSlice, .list [0]]

/-- the hypotheses of `C58_line_partial` hold for the lines NIDN uses -/
example : (∀ a, LineKey ((![20, 3, 1] : Pos) a) (crossLine 7 a)) ∧ (∃ a s, crossLine 7 a = .slice s) ∧
    ∀ a i, i ∈ (![{7}, Finset.range 3, {0}] : Fin 3 → Finset ℕ) a ↔ keySelects ((![20, 3, 1] : Pos) a) (crossLine 7 a) i := by
  refine ⟨fun a => ?_, ⟨1, fullSlice, rfl⟩, fun a i => ?_⟩
  · fin_cases a
    · exact ⟨7, rfl, by decide, by decide⟩
    · exact ⟨Or.inl rfl, by decide, by decide, by decide⟩
    · exact ⟨0, rfl, by decide, by decide⟩
  · fin_cases a
    · show i ∈ ({7} : Finset ℕ) ↔ ∃ v ∈ [(7 : ℤ)], indexSelects 20 v i
      simp [indexSelects]; omega
    · show i ∈ Finset.range 3 ↔ sliceSelects 3 fullSlice i
      simp [sliceSelects, sliceBound, fullSlice]
    · show i ∈ ({0} : Finset ℕ) ↔ ∃ v ∈ [(0 : ℤ)], indexSelects 1 v i
      simp [indexSelects]
      omega

/-- C56, cells: a line detector (or source) placed at `grid[x, :, 0]` consists of exactly the cells of that line, in order. -/
theorem C56_line (atLeast : ℕ) (n : Pos) (x : ℕ) (hx : x < n 0) (hy : 1 ≤ n 1) (hy2 : atLeast ≤ n 1) (hz : 1 ≤ n 2) :
    ∃ l, lineIndices atLeast n (crossLine x 0) (crossLine x 1) (crossLine x 2) = .ok l ∧
      lineCells n l = .ok ((List.range (n 1)).map fun j => ![x, j, 0]) := by
  have hm : linePoints ((x : ℤ), (x : ℤ)) (0, (n 1 : ℤ)) (0, 0) = n 1 := by simp [linePoints]
  refine ⟨⟨(List.range (n 1)).map (axisVal x x (n 1)), (List.range (n 1)).map (axisVal 0 (n 1) (n 1)), (List.range (n 1)).map (axisVal 0 0 (n 1))⟩, ?_, ?_⟩
  · show lineSpan _ _ _ _ _ = _
    unfold lineSpan
    have b0 : lineBounds (n 0) (crossLine x 0) = .ok ((x : ℤ), (x : ℤ)) := rfl
    have b1 : lineBounds (n 1) (crossLine x 1) = .ok (0, (n 1 : ℤ)) := rfl
    have b2 : lineBounds (n 2) (crossLine x 2) = .ok (0, 0) := rfl
    rw [b0, b1, b2, ok_bind, ok_bind, ok_bind]
    simp only
    rw [hm, if_neg (by omega), intLinspace_eq _ _ _ (by omega), intLinspace_eq _ _ _ (by omega), intLinspace_eq _ _ _ (by omega)]
    rfl
  · unfold lineCells IndexLists.triples
    show List.mapM _ (((List.range (n 1)).map _).zip (((List.range (n 1)).map _).zip ((List.range (n 1)).map _))) = _
    rw [zip3_map, List.mapM_map]
    refine mapM_all_ok _ (fun j => ![x, j, 0]) _ fun j hj => ?_
    rw [List.mem_range] at hj
    have e1 : axisVal x x (n 1) j = x := if_pos rfl
    have e2 : axisVal 0 (n 1) (n 1) j = j := by rw [axisVal_full (by omega) (by omega) (by omega)]; omega
    have e3 : axisVal 0 0 (n 1) j = 0 := if_pos rfl
    show torchCell n (axisVal x x (n 1) j, axisVal 0 (n 1) (n 1) j, axisVal 0 0 (n 1) j) = _
    rw [e1, e2, e3]
    unfold torchCell torchIndex
    simp only
    rw [if_pos (by omega), if_pos (by omega), if_pos (by omega)]
    rfl

/-- C58 is false of negative slice bounds: `LineDetector` at `grid[-3:, 0, 0]` in a grid of 10 cells gets 13 cells, three of them twice, instead of the last three. -/
theorem C58_negative_false :
    let k : Fin 3 → AxisKey := ![.slice ⟨some (-3), none, none⟩, .list [0], .list [0]]
    ∃ l, lineDetectorIndices ![10, 1, 1] (k 0) (k 1) (k 2) = .ok l ∧
      l.x = [-3, -2, -1, 0, 1, 2, 3, 4, 5, 6, 7, 8, 9] ∧
      lineCells ![10, 1, 1] l = .ok ([7, 8, 9, 0, 1, 2, 3, 4, 5, 6, 7, 8, 9].map fun i => ![i, 0, 0]) ∧
      ∀ i, keySelects 10 (k 0) i ↔ 7 ≤ i ∧ i < 10 := by
  refine ⟨⟨[-3, -2, -1, 0, 1, 2, 3, 4, 5, 6, 7, 8, 9], List.replicate 13 0, List.replicate 13 0⟩, by decide +kernel, rfl, by decide +kernel, fun i => ?_⟩
  show sliceSelects 10 ⟨some (-3), none, none⟩ i ↔ _
  simp [sliceSelects, sliceBound]

/-- C58 is false of index lists mixed with slices: `grid[[2, 3, 4], :, 0]` in a grid with three cells in y gives a diagonal that never reaches x = 4. -/
theorem C58_list_false :
    let k : Fin 3 → AxisKey := ![.list [2, 3, 4], .slice fullSlice, .list [0]]
    ∃ l, lineDetectorIndices ![10, 3, 1] (k 0) (k 1) (k 2) = .ok l ∧ l.x = [2, 2, 3] ∧ l.y = [0, 1, 2] ∧ l.z = [0, 0, 0] ∧ keySelects 10 (k 0) 4 := by
  refine ⟨⟨[2, 2, 3], [0, 1, 2], [0, 0, 0]⟩, by decide +kernel, rfl, rfl, rfl, 4, by simp, ?_⟩
  unfold indexSelects; decide

lemma torchIndex_error (N : ℕ) (i : ℤ) (e : PyErr) (h : torchIndex N i = .error e) : e = .indexError := by
  unfold torchIndex at h
  split_ifs at h
  exact (Except.error.inj h).symm

lemma torchCell_error (n : Pos) (t : ℤ × ℤ × ℤ) (e : PyErr) (h : torchCell n t = .error e) : e = .indexError := by
  unfold torchCell at h
  rw [bind_err] at h
  rcases h with h | ⟨x, -, h⟩
  · exact torchIndex_error _ _ _ h
  rw [bind_err] at h
  rcases h with h | ⟨y, -, h⟩
  · exact torchIndex_error _ _ _ h
  rw [bind_err] at h
  rcases h with h | ⟨z, -, h⟩
  · exact torchIndex_error _ _ _ h
  · cases h

/-- C58 is false of block detectors: whatever the grid, a block detector over the whole grid indexes one plane too many and the first step fails with an IndexError. -/
theorem C58_block_false (n : Pos) :
    ∃ l, blockIndices n (.slice fullSlice) (.slice fullSlice) (.slice fullSlice) = .ok l ∧ l.x = (List.range (n 0 + 1)).map (fun i : ℕ => (i : ℤ)) ∧
      blockCells n l = .error .indexError := by
  have hr : ∀ N : ℕ, blockRange 0 (N : ℤ) = .ok ((List.range (N + 1)).map fun i : ℕ => (i : ℤ)) := by
    intro N
    unfold blockRange
    rw [if_neg (by omega)]
    congr 1
    have : ((N : ℤ) + 1 - 0).toNat = N + 1 := by omega
    rw [this]
    exact List.map_congr_left fun i _ => by simp
  refine ⟨⟨(List.range (n 0 + 1)).map fun i : ℕ => (i : ℤ), (List.range (n 1 + 1)).map fun i : ℕ => (i : ℤ), (List.range (n 2 + 1)).map fun i : ℕ => (i : ℤ)⟩, ?_, rfl, ?_⟩
  · have hb : ∀ N : ℕ, lineBounds N (.slice fullSlice) = .ok (0, (N : ℤ)) := fun _ => rfl
    unfold blockIndices
    simp only [hb, ok_bind, hr]
  · unfold blockCells
    refine mapM_error _ _ (torchCell_error n) _ ⟨((n 0 : ℤ), 0, 0), ?_, ?_⟩
    · unfold IndexLists.product
      simp only [List.mem_flatMap, List.mem_map, List.mem_range, Prod.mk.injEq]
      exact ⟨n 0, ⟨n 0, by omega, rfl⟩, 0, ⟨0, by omega, rfl⟩, 0, ⟨0, by omega, rfl⟩, rfl, rfl, rfl⟩
    · unfold torchCell
      have : torchIndex (n 0) (n 0) = .error .indexError := by
        unfold torchIndex
        rw [if_neg (by omega), if_neg (by omega)]
      show (torchIndex (n 0) (n 0) >>= _) = _
      rw [this, error_bind]

/-- C58 for block detectors, excluding slices that reach the end of the grid: with explicit bounds `a:b` below the size the cells are those with indices `a … b` on
each axis, both ends included (one more than the slice selects), each once. -/
theorem C58_block_partial (n : Pos) (a b : Fin 3 → ℕ) (hab : ∀ c, a c ≤ b c) (hb : ∀ c, b c < n c) :
    ∃ l cells, blockIndices n (.slice ⟨some (a 0), some (b 0), none⟩) (.slice ⟨some (a 1), some (b 1), none⟩) (.slice ⟨some (a 2), some (b 2), none⟩) = .ok l ∧
      blockCells n l = .ok cells ∧ cells.Nodup ∧ ∀ p, p ∈ cells ↔ ∀ c, a c ≤ p c ∧ p c ≤ b c := by
  have hr : ∀ u v : ℕ, u ≤ v → blockRange (u : ℤ) (v : ℤ) = .ok (((List.range (v + 1 - u)).map fun i => u + i).map fun i : ℕ => (i : ℤ)) := by
    intro u v huv
    unfold blockRange
    rw [if_neg (by omega)]
    congr 1
    have : ((v : ℤ) + 1 - u).toNat = v + 1 - u := by omega
    rw [this, List.map_map]
    exact List.map_congr_left fun i _ => by simp
  set r : Fin 3 → List ℕ := fun c => (List.range (b c + 1 - a c)).map fun i => a c + i with hrdef
  have hmem : ∀ c i, i ∈ r c ↔ a c ≤ i ∧ i ≤ b c := by
    intro c i
    simp only [hrdef, List.mem_map, List.mem_range]
    constructor
    · rintro ⟨j, hj, rfl⟩; omega
    · intro h; exact ⟨i - a c, by omega, by omega⟩
  have hnd : ∀ c, (r c).Nodup := fun c => List.Nodup.map (fun i j h => by simpa using h) List.nodup_range
  refine ⟨⟨(r 0).map fun i : ℕ => (i : ℤ), (r 1).map fun i : ℕ => (i : ℤ), (r 2).map fun i : ℕ => (i : ℤ)⟩,
    (r 0).flatMap fun x => (r 1).flatMap fun y => (r 2).map fun z => ![x, y, z], ?_, ?_, ?_, ?_⟩
  · show (blockRange (a 0) (b 0) >>= _) = _
    rw [hr _ _ (hab 0), ok_bind]
    show (blockRange (a 1) (b 1) >>= _) = _
    rw [hr _ _ (hab 1), ok_bind]
    show (blockRange (a 2) (b 2) >>= _) = _
    rw [hr _ _ (hab 2), ok_bind]
  · have hprod : IndexLists.product ⟨(r 0).map fun i : ℕ => (i : ℤ), (r 1).map fun i : ℕ => (i : ℤ), (r 2).map fun i : ℕ => (i : ℤ)⟩
        = ((r 0).flatMap fun x => (r 1).flatMap fun y => (r 2).map fun z => ![x, y, z]).map fun p : Pos => ((p 0 : ℤ), (p 1 : ℤ), (p 2 : ℤ)) := by
      unfold IndexLists.product
      simp only [List.map_flatMap, List.flatMap_map, List.map_map]
      rfl
    unfold blockCells
    rw [hprod, List.mapM_map]
    refine (mapM_all_ok _ id _ fun p hp => ?_).trans (by rw [List.map_id])
    simp only [List.mem_flatMap, List.mem_map] at hp
    obtain ⟨x, hx, y, hy, z, hz, rfl⟩ := hp
    rw [hmem] at hx hy hz
    have := hb 0; have := hb 1; have := hb 2
    show torchCell n ((x : ℤ), (y : ℤ), (z : ℤ)) = _
    unfold torchCell torchIndex
    simp only
    rw [if_pos (by omega), if_pos (by omega), if_pos (by omega)]
    rfl
  · rw [List.nodup_flatMap]
    refine ⟨fun x _ => ?_, ?_⟩
    · rw [List.nodup_flatMap]
      refine ⟨fun y _ => ?_, ?_⟩
      · exact (hnd 2).map fun z z' h => by simpa using congrFun h 2
      · refine (hnd 1).imp fun {y y'} hne => ?_
        intro p hp hp'
        rw [List.mem_map] at hp hp'
        obtain ⟨z, -, rfl⟩ := hp
        obtain ⟨z', -, h⟩ := hp'
        exact hne (by simpa using (congrFun h 1).symm)
    · refine (hnd 0).imp fun {x x'} hne => ?_
      intro p hp hp'
      simp only [List.mem_flatMap, List.mem_map] at hp hp'
      obtain ⟨y, -, z, -, rfl⟩ := hp
      obtain ⟨y', -, z', -, h⟩ := hp'
      exact hne (by simpa using (congrFun h 0).symm)
  · intro p
    simp only [List.mem_flatMap, List.mem_map]
    constructor
    · rintro ⟨x, hx, y, hy, z, hz, rfl⟩ c
      rw [hmem] at hx hy hz
      fin_cases c
      · exact hx
      · exact hy
      · exact hz
    · intro h
      refine ⟨p 0, (hmem 0 _).2 (h 0), p 1, (hmem 1 _).2 (h 1), p 2, (hmem 2 _).2 (h 2), ?_⟩
      funext c
      fin_cases c <;> rfl

/-- the slices `a:b` of a block -/
def blockSlices (n : Pos) (a b : Fin 3 → ℤ) : Except PyErr IndexLists :=
  blockIndices n (.slice ⟨some (a 0), some (b 0), none⟩) (.slice ⟨some (a 1), some (b 1), none⟩) (.slice ⟨some (a 2), some (b 2), none⟩)

/-- C58, reversed slices of block detectors: a start more than one above the stop on any axis raises a RuntimeError, whatever the other axes
say; with a start exactly one above the stop on some axis (and no larger gap) the detector is accepted and contains no cell. -/
theorem C58_reversed (n : Pos) (a b : Fin 3 → ℤ) :
    ((∃ c, b c + 1 < a c) → blockSlices n a b = .error .runtimeError) ∧
    ((∀ c, a c ≤ b c + 1) → (∃ c, a c = b c + 1) → ∃ l, blockSlices n a b = .ok l ∧ blockCells n l = .ok []) := by
  have e : blockSlices n a b = (blockRange (a 0) (b 0) >>= fun xs => blockRange (a 1) (b 1) >>= fun ys => blockRange (a 2) (b 2) >>= fun zs =>
      .ok ⟨xs, ys, zs⟩) := rfl
  have hbad : ∀ c, b c + 1 < a c → blockRange (a c) (b c) = .error .runtimeError := fun c h => if_pos h
  have hgood : ∀ c, a c ≤ b c + 1 → ∃ l, blockRange (a c) (b c) = .ok l ∧ (a c = b c + 1 → l = []) := by
    intro c h
    refine ⟨_, if_neg (by omega), fun h' => ?_⟩
    rw [h']; simp
  rw [e]
  constructor
  · rintro ⟨c, hc⟩
    have hor : ∀ d, blockRange (a d) (b d) = .error .runtimeError ∨ ∃ l, blockRange (a d) (b d) = .ok l := by
      intro d
      by_cases h : b d + 1 < a d
      · exact .inl (hbad d h)
      · obtain ⟨l, hl, -⟩ := hgood d (by omega); exact .inr ⟨l, hl⟩
    rcases hor 0 with h0 | ⟨l0, h0⟩
    · rw [h0, error_bind]
    rw [h0, ok_bind]
    rcases hor 1 with h1 | ⟨l1, h1⟩
    · rw [h1, error_bind]
    rw [h1, ok_bind]
    rcases hor 2 with h2 | ⟨l2, h2⟩
    · rw [h2, error_bind]
    have := hbad c hc
    fin_cases c
    · exact absurd (h0.symm.trans this) (by simp)
    · exact absurd (h1.symm.trans this) (by simp)
    · exact absurd (h2.symm.trans this) (by simp)
  · rintro h ⟨c, hc⟩
    obtain ⟨l0, h0, z0⟩ := hgood 0 (h 0)
    obtain ⟨l1, h1, z1⟩ := hgood 1 (h 1)
    obtain ⟨l2, h2, z2⟩ := hgood 2 (h 2)
    refine ⟨⟨l0, l1, l2⟩, by rw [h0, ok_bind, h1, ok_bind, h2, ok_bind], ?_⟩
    have hp : IndexLists.product ⟨l0, l1, l2⟩ = [] := by
      unfold IndexLists.product
      fin_cases c
      · rw [z0 hc]; rfl
      · rw [z1 hc]; simp
      · rw [z2 hc]; simp
    unfold blockCells
    rw [hp]; rfl

/-- not vacuous: `grid[5:3, 0:1, 0:0]` and `grid[4:3, 0:1, 0:0]` -/
example : blockSlices ![10, 10, 1] ![5, 0, 0] ![3, 1, 0] = .error .runtimeError ∧
    ∃ l, blockSlices ![10, 10, 1] ![4, 0, 0] ![3, 1, 0] = .ok l ∧ blockCells ![10, 10, 1] l = .ok [] :=
  ⟨(C58_reversed _ _ _).1 ⟨0, by decide⟩, (C58_reversed _ _ _).2 (by decide) ⟨0, by decide⟩⟩

/-- C58 is false of block detectors given by index lists: `grid[[1, 2], [3, 4], [0, 0]]` names two points, the detector records eight, each twice. -/
theorem C58_blocklist_false :
    ∃ l, blockIndices ![10, 10, 1] (.list [1, 2]) (.list [3, 4]) (.list [0, 0]) = .ok l ∧
      l.product = [(1, 3, 0), (1, 3, 0), (1, 4, 0), (1, 4, 0), (2, 3, 0), (2, 3, 0), (2, 4, 0), (2, 4, 0)] :=
  ⟨_, rfl, rfl⟩

end Nidn
