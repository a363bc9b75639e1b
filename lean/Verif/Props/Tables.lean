/-
C71: the shipped material tables.
-/
import Verif.Model.Tables
import Verif.Props.Materials

namespace Nidn

/-- A property of scaled rows that can be checked by evaluation. -/
lemma rows_forall (p : ℤ × ℤ × ℤ → Bool) (rows : List (ℤ × ℤ × ℤ)) (h : rows.all p = true) : ∀ r ∈ rows, p r = true :=
  List.all_eq_true.mp h

lemma mkTable_mem {sw sn sk : ℕ} {rows : List (ℤ × ℤ × ℤ)} {r : MatRow ℚ} (h : r ∈ mkTable sw sn sk rows) :
    ∃ q ∈ rows, r = ⟨q.1 / sw, q.2.1 / sn, q.2.2 / sk⟩ := by
  obtain ⟨q, hq, rfl⟩ := List.mem_map.mp h
  exact ⟨q, hq, rfl⟩

lemma mkTable_nonneg (sw sn sk : ℕ) (rows : List (ℤ × ℤ × ℤ)) (h : rows.all (fun r => decide (0 ≤ r.2.1) && decide (0 ≤ r.2.2)) = true) :
    ∀ r ∈ mkTable sw sn sk rows, 0 ≤ r.n ∧ 0 ≤ r.k := by
  intro r hr
  obtain ⟨q, hq, rfl⟩ := mkTable_mem hr
  have := rows_forall _ rows h q hq
  simp only [Bool.and_eq_true, decide_eq_true_eq] at this
  have h1 : (0 : ℚ) ≤ q.2.1 := by exact_mod_cast this.1
  have h2 : (0 : ℚ) ≤ q.2.2 := by exact_mod_cast this.2
  exact ⟨by positivity, by positivity⟩

/-- C71 (nine of the ten shipped tables): the loaded permittivity has a non-negative imaginary part at every frequency, i.e. the material never
amplifies. Missing: aluminium oxide, see `C71_aluminium_oxide_false`. -/
theorem C71_passive_partial (file : String) (table : List (MatRow ℚ)) (hmem : (file, table) ∈ shippedFiles)
    (hne : file ≠ "aluminium_oxide.csv") (f re im : ℚ) (h : epsAt table f = .ok (re, im)) : 0 ≤ im := by
  refine C25_passive table ?_ f re im h
  simp only [shippedFiles, List.mem_cons, Prod.mk.injEq, List.not_mem_nil, or_false] at hmem
  rcases hmem with ⟨rfl, rfl⟩ | ⟨rfl, rfl⟩ | ⟨rfl, rfl⟩ | ⟨rfl, rfl⟩ | ⟨rfl, rfl⟩ | ⟨rfl, rfl⟩ | ⟨rfl, rfl⟩ | ⟨rfl, rfl⟩ | ⟨rfl, rfl⟩ | ⟨rfl, rfl⟩
  · exact mkTable_nonneg _ _ _ _ (by decide +kernel)
  · exact mkTable_nonneg _ _ _ _ (by decide +kernel)
  · exact absurd rfl hne
  · exact mkTable_nonneg _ _ _ _ (by decide +kernel)
  · exact mkTable_nonneg _ _ _ _ (by decide +kernel)
  · exact mkTable_nonneg _ _ _ _ (by decide +kernel)
  · exact mkTable_nonneg _ _ _ _ (by decide +kernel)
  · exact mkTable_nonneg _ _ _ _ (by decide +kernel)
  · exact mkTable_nonneg _ _ _ _ (by decide +kernel)
  · exact mkTable_nonneg _ _ _ _ (by decide +kernel)

/-- The nearest row lies between any two rows that enclose the wavelength. -/
lemma nearest_le (table : List (MatRow ℚ)) (wl : ℚ) (i : ℕ) (row b : MatRow ℚ) (h : FirstNearest table wl i row) (hb : b ∈ table)
    (hw : wl ≤ b.wl) : row.wl ≤ b.wl := by
  obtain ⟨j, hj, hj'⟩ := List.mem_iff_getElem.mp hb
  have := (h.2 j b (by rw [List.getElem?_eq_getElem hj, hj'])).1
  rw [abs_of_nonneg (sub_nonneg.mpr hw)] at this
  linarith [le_abs_self (row.wl - wl)]

lemma nearest_ge (table : List (MatRow ℚ)) (wl : ℚ) (i : ℕ) (row a : MatRow ℚ) (h : FirstNearest table wl i row) (ha : a ∈ table)
    (hw : a.wl ≤ wl) : a.wl ≤ row.wl := by
  obtain ⟨j, hj, hj'⟩ := List.mem_iff_getElem.mp ha
  have := (h.2 j a (by rw [List.getElem?_eq_getElem hj, hj'])).1
  rw [abs_of_nonpos (sub_nonpos.mpr hw)] at this
  linarith [neg_abs_le (row.wl - wl)]

/-- C71 is false: the table of aluminium oxide lists negative `k` for its shortest wavelengths, so at *every* frequency above 1/0.28 (wavelengths of
0.28 micrometres and below) the loaded material amplifies (negative imaginary part). -/
theorem C71_aluminium_oxide_false :
    ("aluminium_oxide.csv", aluminiumOxideTable) ∈ shippedFiles ∧
    ∀ f : ℚ, f ≠ 0 → 1 / f ≤ 28 / 100 → ∃ re im, epsAt aluminiumOxideTable f = .ok (re, im) ∧ im < 0 := by
  refine ⟨by simp [shippedFiles], fun f hf hwl => ?_⟩
  have hmem : (2800, 1772, -1) ∈ aluminiumOxideRows := by decide +kernel
  have hmem' : (⟨28 / 100, 1772 / 1000, -1 / 1000⟩ : MatRow ℚ) ∈ aluminiumOxideTable := by
    refine List.mem_map.mpr ⟨_, hmem, ?_⟩
    norm_num
  have hall : aluminiumOxideRows.all (fun r => decide (2800 < r.1) || (decide (0 < r.2.1) && decide (r.2.2 < 0))) = true := by decide +kernel
  obtain ⟨⟨re, im⟩, he⟩ := (C25_total aluminiumOxideTable f).1 (List.ne_nil_of_mem hmem') hf
  refine ⟨re, im, he, ?_⟩
  obtain ⟨-, i, row, hr, -, rfl⟩ := C25_nearest aluminiumOxideTable f re im he
  have hle := nearest_le _ _ _ _ _ hr hmem' hwl
  obtain ⟨q, hq, rfl⟩ := mkTable_mem (List.mem_of_getElem? hr.1)
  have := rows_forall _ _ hall q hq
  simp only [Bool.or_eq_true, Bool.and_eq_true, decide_eq_true_eq] at this
  simp only at hle ⊢
  rcases this with h | ⟨h1, h2⟩
  · have h' : (2800 : ℚ) < q.1 := by exact_mod_cast h
    push_cast at hle
    linarith
  · have h1' : (0 : ℚ) < q.2.1 := by exact_mod_cast h1
    have h2' : (q.2.2 : ℚ) < 0 := by exact_mod_cast h2
    have : (q.2.1 : ℚ) * q.2.2 < 0 := mul_neg_of_pos_of_neg h1' h2'
    push_cast
    nlinarith

/-- C71, the part that holds for aluminium oxide: between 0.29 and 27.027 micrometres and from 30.303 micrometres on the loaded material is passive. -/
theorem C71_aluminium_oxide_partial (f re im : ℚ) (hwl : (29 / 100 ≤ 1 / f ∧ 1 / f ≤ 27027 / 1000) ∨ 30303 / 1000 ≤ 1 / f)
    (h : epsAt aluminiumOxideTable f = .ok (re, im)) : 0 ≤ im := by
  have hmem : ∀ w n k, (w, n, k) ∈ aluminiumOxideRows → (⟨(w : ℚ) / (10000 : ℕ), n / (1000 : ℕ), k / (1000 : ℕ)⟩ : MatRow ℚ) ∈ aluminiumOxideTable :=
    fun w n k hq => List.mem_map.mpr ⟨_, hq, rfl⟩
  have hall : aluminiumOxideRows.all (fun r => decide (0 ≤ r.2.1) && (decide (0 ≤ r.2.2) || decide (r.1 < 2900) ||
      (decide (270270 < r.1) && decide (r.1 < 303030)))) = true := by decide +kernel
  obtain ⟨-, i, row, hr, -, rfl⟩ := C25_nearest aluminiumOxideTable f re im h
  have hbounds : (29 / 100 ≤ row.wl ∧ row.wl ≤ 27027 / 1000) ∨ 30303 / 1000 ≤ row.wl := by
    rcases hwl with ⟨h1, h2⟩ | h1
    · left
      have a := nearest_ge _ _ _ _ _ hr (hmem 2900 1767 1 (by decide +kernel)) (by norm_num at h1 ⊢; exact h1)
      have b := nearest_le _ _ _ _ _ hr (hmem 270270 4903 108 (by decide +kernel)) (by norm_num at h2 ⊢; exact h2)
      norm_num at a b
      exact ⟨a, b⟩
    · right
      have a := nearest_ge _ _ _ _ _ hr (hmem 303030 4000 10 (by decide +kernel)) (by norm_num at h1 ⊢; exact h1)
      norm_num at a
      exact a
  obtain ⟨q, hq, rfl⟩ := mkTable_mem (List.mem_of_getElem? hr.1)
  have := rows_forall _ _ hall q hq
  simp only [Bool.or_eq_true, Bool.and_eq_true, decide_eq_true_eq] at this
  simp only at hbounds ⊢
  obtain ⟨h1, h2⟩ := this
  have h1' : (0 : ℚ) ≤ q.2.1 := by exact_mod_cast h1
  have h3 : 0 ≤ q.2.2 := by
    rcases h2 with (h2 | h2) | ⟨h2, h3⟩
    · exact h2
    · exfalso
      have h2' : (q.1 : ℚ) < 2900 := by exact_mod_cast h2
      push_cast at hbounds
      rcases hbounds with ⟨h, -⟩ | h <;> linarith
    · exfalso
      have h2' : (270270 : ℚ) < q.1 := by exact_mod_cast h2
      have h3' : (q.1 : ℚ) < 303030 := by exact_mod_cast h3
      push_cast at hbounds
      rcases hbounds with ⟨-, h⟩ | h <;> linarith
  have h3' : (0 : ℚ) ≤ q.2.2 := by exact_mod_cast h3
  positivity

/-- Strictly increasing positive first components. -/
def increasing : ℤ → List (ℤ × ℤ × ℤ) → Bool
  | _, [] => true
  | w, r :: rest => decide (w < r.1) && increasing r.1 rest

lemma increasing_pairwise (w : ℤ) (rows : List (ℤ × ℤ × ℤ)) (h : increasing w rows = true) :
    (∀ r ∈ rows, w < r.1) ∧ rows.Pairwise fun a b => a.1 < b.1 := by
  induction rows generalizing w with
  | nil => simp
  | cons r rest ih =>
      simp only [increasing, Bool.and_eq_true, decide_eq_true_eq] at h
      obtain ⟨h1, h2⟩ := ih r.1 h.2
      refine ⟨fun q hq => ?_, List.pairwise_cons.mpr ⟨h1, h2⟩⟩
      rcases List.mem_cons.mp hq with rfl | hq
      · exact h.1
      · exact h.1.trans (h1 q hq)

lemma mkTable_sorted (sw sn sk : ℕ) (hsw : 0 < sw) (rows : List (ℤ × ℤ × ℤ)) (h : increasing 0 rows = true) :
    (mkTable sw sn sk rows).Pairwise (fun a b => a.wl < b.wl) ∧ ∀ r ∈ mkTable sw sn sk rows, 0 < r.wl := by
  obtain ⟨h1, h2⟩ := increasing_pairwise 0 rows h
  have hs : (0 : ℚ) < sw := by exact_mod_cast hsw
  constructor
  · rw [mkTable, List.pairwise_map]
    refine h2.imp fun {a b} hab => ?_
    have : (a.1 : ℚ) < b.1 := by exact_mod_cast hab
    exact (div_lt_div_iff_of_pos_right hs).mpr this
  · intro r hr
    obtain ⟨q, hq, rfl⟩ := mkTable_mem hr
    have : (0 : ℚ) < q.1 := by exact_mod_cast h1 q hq
    exact div_pos this hs

/-- C71: every shipped table is non-empty, its wavelengths are positive and strictly increasing (so the nearest row is unique except half-way between
two rows). -/
theorem C71_tables_sorted (file : String) (table : List (MatRow ℚ)) (hmem : (file, table) ∈ shippedFiles) :
    table ≠ [] ∧ table.Pairwise (fun a b => a.wl < b.wl) ∧ ∀ r ∈ table, 0 < r.wl := by
  have key : ∀ sw sn sk rows, 0 < sw → (!rows.isEmpty && increasing 0 rows) = true →
      mkTable sw sn sk rows ≠ [] ∧ (mkTable sw sn sk rows).Pairwise (fun a b => a.wl < b.wl) ∧ ∀ r ∈ mkTable sw sn sk rows, 0 < r.wl := by
    intro sw sn sk rows hsw h
    simp only [Bool.and_eq_true, Bool.not_eq_true', List.isEmpty_eq_false_iff] at h
    exact ⟨by simpa [mkTable] using h.1, mkTable_sorted sw sn sk hsw rows h.2⟩
  simp only [shippedFiles, List.mem_cons, Prod.mk.injEq, List.not_mem_nil, or_false] at hmem
  rcases hmem with ⟨rfl, rfl⟩ | ⟨rfl, rfl⟩ | ⟨rfl, rfl⟩ | ⟨rfl, rfl⟩ | ⟨rfl, rfl⟩ | ⟨rfl, rfl⟩ | ⟨rfl, rfl⟩ | ⟨rfl, rfl⟩ | ⟨rfl, rfl⟩ | ⟨rfl, rfl⟩ <;>
    exact key _ _ _ _ (by decide +kernel) (by decide +kernel)

/-- C71: a collection of all shipped materials can be built for every non-empty list of non-zero frequencies, and contains the ten names. -/
theorem C71_collection (freqs : List ℚ) (hne : freqs ≠ []) (hnz : ∀ f ∈ freqs, f ≠ 0) :
    ∃ c, mkCollection shippedFiles none freqs = .ok c ∧
      c.names = ["aluminium_arsenide", "aluminium_nitride", "aluminium_oxide", "gallium_arsenide", "germanium", "indium_arsenide",
        "silicon_nitride", "tantalum_pentoxide", "titanium_oxide", "zinc_oxide"] := by
  have hk : keptFiles none shippedFiles = shippedFiles := by simp [keptFiles]
  obtain ⟨c, hc⟩ := (C26_construction shippedFiles none freqs).2.2 hne (by rw [hk]; simp [shippedFiles])
    (fun f hf => (C71_tables_sorted f.1 f.2 hf).1) hnz
  refine ⟨c, hc, ?_⟩
  rw [C26_names _ _ _ _ hc, hk]
  simp only [shippedFiles, List.map_cons, List.map_nil]
  decide +kernel

/-- Germanium at 1 micrometre is passive, aluminium oxide at 0.2 and at 28 micrometres amplifies. -/
example : (epsAt germaniumTable 1).map (fun e => decide (0 < e.2)) = .ok true ∧
    (epsAt aluminiumOxideTable 5).map (fun e => decide (e.2 < 0)) = .ok true ∧
    (epsAt aluminiumOxideTable (1 / 28)).map (fun e => decide (e.2 < 0)) = .ok true := by
  decide +kernel

end Nidn
