/-
C135: the plots of pulses at line detectors and of their times of arrival.
-/
import Verif.Lemmas.Analytic
import Verif.Lemmas.Py
import Verif.Props.Classification
import Mathlib.Tactic.IntervalCases

namespace Nidn

/-! ### What is claimed -/

/-- The step at which the envelope of `N` readings is largest for the first time. -/
def ArrivesAt (N : ℕ) (x : ℕ → ℝ) (t : ℕ) : Prop :=
  t < N ∧ (∀ u < N, ‖analyticSignal N x u‖ ≤ ‖analyticSignal N x t‖) ∧ ∀ u < t, ‖analyticSignal N x u‖ < ‖analyticSignal N x t‖

/-- The name of the readings ends with the letter of the field and one more sign, as in `name (E)`. -/
def KindIs (K : Char) (e : Str × DetReadings) : Prop := e.1.reverse[1]? = some K

instance (K : Char) (e : Str × DetReadings) : Decidable (KindIs K e) := by unfold KindIs; infer_instance

/-- Readings of a line detector: times, cells and three components. -/
def IsLineReading (e : Str × DetReadings) : Prop := ∃ T c, 0 < T ∧ 0 < c ∧ e.2.shape = [T, c, 3]

/-- the letter of an axis -/
def axisChar : Fin 3 → Char := ![ 'x', 'y', 'z']

/-- the text of `specific_plot` for a field and an axis -/
def plotChoice (sel : Option (Char × Fin 3)) : Option Str := sel.map fun q => [q.1, axisChar q.2]

/-- the field and axis are wanted -/
def Wanted (sel : Option (Char × Fin 3)) (K : Char) (d : Fin 3) : Prop := ∀ q, sel = some q → q = (K, d)

/-- The line of the time-of-arrival plot for a field and an axis. -/
def Detection.shown (p : Detection) (K : Char) (d : ℕ) : List (Str × ℕ) := ((((p.arrivals.lookup K).getD []).lookup d).getD [])

/-- The curves of the intensity profile for a field and an axis. -/
def Detection.profile (p : Detection) (K : Char) (d : ℕ) : List (Str × List ℝ) := (p.curves.filter fun c => decide (c.kind = K ∧ c.dim = d)).map fun c => (c.label, c.points)

/-! ### Proofs -/

/-- the first place of the largest entry -/
lemma firstMax_spec {l : List ℝ} (hl : l ≠ []) : ∃ i, firstMax l = .ok i ∧ ∃ h : i < l.length, (∀ y ∈ l, y ≤ l[i]) ∧ ∀ j (hj : j < i), l[j] < l[i] := by
  obtain ⟨v, r, rfl⟩ := List.exists_cons_of_ne_nil hl
  have hge : ∀ y ∈ v :: r, y ≤ r.foldl max v := fun y hy => by
    rcases List.mem_cons.1 hy with rfl | hy
    · exact (foldl_max_ge r y).1
    · exact (foldl_max_ge r v).2 y hy
  classical
  cases hf : (v :: r).findIdx? fun y => decide (y = r.foldl max v) with
  | none =>
    have := List.findIdx?_eq_none_iff.1 hf _ (List.mem_cons.2 (foldl_max_mem r v))
    simp at this
  | some i =>
    obtain ⟨h, h1, h2⟩ := List.findIdx?_eq_some_iff_getElem.1 hf
    refine ⟨i, ?_, h, ?_, ?_⟩
    · unfold firstMax
      simp only
      have : (v :: r).findIdx? (fun y => decide (y = r.foldl max v)) = some i := by convert hf
      simp only [this]
    · rw [of_decide_eq_true h1]; exact hge
    · intro j hj
      have h3 := h2 j hj
      rw [of_decide_eq_true h1]
      refine lt_of_le_of_ne (hge _ (List.getElem_mem _)) fun h => ?_
      rw [h] at h3
      simp at h3

lemma firstMax_envelope {N : ℕ} (hN : 0 < N) (x : ℕ → ℝ) : ∃ t, firstMax (envelopeCurve N x) = .ok t ∧ ArrivesAt N x t := by
  have hl : (envelopeCurve N x).length = N := by simp [envelopeCurve]
  obtain ⟨t, h, ht, h1, h2⟩ := firstMax_spec (l := envelopeCurve N x) (fun h => by rw [h] at hl; simp at hl; omega)
  have hg : ∀ u (hu : u < (envelopeCurve N x).length), (envelopeCurve N x)[u] = ‖analyticSignal N x u‖ := fun u hu => by simp [envelopeCurve]
  refine ⟨t, h, hl ▸ ht, fun u hu => ?_, fun u hu => ?_⟩
  · rw [← hg u (hl.symm ▸ hu), ← hg t ht]
    exact h1 _ (List.getElem_mem _)
  · rw [← hg u (by omega), ← hg t ht]
    exact h2 u hu

lemma ArrivesAt.unique {N : ℕ} {x : ℕ → ℝ} {t t' : ℕ} (h : ArrivesAt N x t) (h' : ArrivesAt N x t') : t = t' := by
  rcases lt_trichotomy t t' with hl | hl | hl
  · exact absurd (h'.2.2 t hl) (not_lt.2 (h.2.1 t' h'.1))
  · exact hl
  · exact absurd (h.2.2 t' hl) (not_lt.2 (h'.2.1 t h.1))

section
variable {κ β : Type} [DecidableEq κ]

lemma lookup_dictUpdate_same (k : κ) (f : Option β → β) (l : List (κ × β)) : (dictUpdate k f l).lookup k = some (f (l.lookup k)) := by
  induction l with
  | nil => simp [dictUpdate]
  | cons a l ih =>
    obtain ⟨k', v⟩ := a
    unfold dictUpdate
    by_cases h : k' = k
    · subst h; simp
    · rw [if_neg h, List.lookup_cons, List.lookup_cons]
      have : (k == k') = false := by simpa using fun h' => h h'.symm
      rw [this]
      exact ih

lemma lookup_dictUpdate_other {k k' : κ} (hk : k' ≠ k) (f : Option β → β) (l : List (κ × β)) : (dictUpdate k f l).lookup k' = l.lookup k' := by
  induction l with
  | nil =>
    have : (k' == k) = false := by simpa using hk
    simp [dictUpdate, List.lookup_cons, this]
  | cons a l ih =>
    obtain ⟨k'', v⟩ := a
    unfold dictUpdate
    by_cases h : k'' = k
    · subst h
      have : (k' == k'') = false := by simpa using hk
      simp [List.lookup_cons, this]
    · rw [if_neg h, List.lookup_cons, List.lookup_cons, ih]

end

lemma shown_append (c : List IntensityCurve) (m : Arrivals) (kind : Char) (d : ℕ) (name : Str) (t : ℕ) (K : Char) (d' : ℕ) :
    Detection.shown ⟨c, m.append kind d name t⟩ K d' = Detection.shown ⟨c, m⟩ K d' ++ (if K = kind ∧ d' = d then [(name, t)] else []) := by
  unfold Detection.shown Arrivals.append
  by_cases h : K = kind
  · subst h
    simp only
    rw [lookup_dictUpdate_same]
    by_cases hd : d' = d
    · subst hd
      simp only [Option.getD_some]
      rw [lookup_dictUpdate_same]
      simp
    · simp only [Option.getD_some]
      rw [lookup_dictUpdate_other hd, if_neg (by tauto), List.append_nil]
  · simp only
    rw [lookup_dictUpdate_other h, if_neg (by tauto), List.append_nil]

lemma profile_append (c : List IntensityCurve) (m : Arrivals) (q : IntensityCurve) (K : Char) (d' : ℕ) :
    Detection.profile ⟨c ++ [q], m⟩ K d' = Detection.profile ⟨c, m⟩ K d' ++ (if K = q.kind ∧ d' = q.dim then [(q.label, q.points)] else []) := by
  unfold Detection.profile
  simp only [List.filter_append, List.map_append]
  congr 1
  by_cases h : K = q.kind ∧ d' = q.dim
  · rw [if_pos h, List.filter_cons_of_pos (by simp [h.1, h.2])]; rfl
  · rw [if_neg h, List.filter_cons_of_neg (by simp only [decide_eq_true_eq]; exact fun h' => h ⟨h'.1.symm, h'.2.symm⟩)]; rfl

/-- the time of arrival of a component -/
noncomputable def arrivalOf (e : Str × DetReadings) (d : ℕ) : ℕ :=
  match firstMax (envelopeCurve (e.2.shape.headD 0) fun t => e.2.val t 0 d) with
  | .ok t => t
  | .error _ => 0

instance (sel : Option (Char × Fin 3)) (K : Char) (d : Fin 3) : Decidable (Wanted sel K d) := by
  unfold Wanted
  cases sel with
  | none => exact .isTrue (by simp)
  | some q => exact decidable_of_iff (q = (K, d)) (by simp)

lemma dimChosen_sel (sel : Option (Char × Fin 3)) (d : ℕ) : dimChosen (plotChoice sel) d = .ok (decide (∀ q, sel = some q → (q.2 : ℕ) = d)) := by
  cases sel with
  | none => simp [dimChosen, plotChoice]
  | some q =>
    obtain ⟨k, i⟩ := q
    have : axisNumber (axisChar i) = .ok (i : ℕ) := by fin_cases i <;> rfl
    simp only [plotChoice, Option.map_some, dimChosen, strAt]
    have h1 : ([k, axisChar i] : Str)[(1 : ℤ).toNat]? = some (axisChar i) := rfl
    norm_num
    show (axisNumber (axisChar i) >>= _) = _
    rw [this]
    rfl

lemma detectDim_spec (sel : Option (Char × Fin 3)) (e : Str × DetReadings) (he : IsLineReading e) (K : Char) (hK : ∀ q, sel = some q → q.1 = K) (s : Detection) (d : Fin 3) :
    ∃ s', detectDim (plotChoice sel) e.1 K e.2 s d = .ok s' ∧ ∀ (K' : Char) (d' : Fin 3),
      s'.shown K' d' = s.shown K' d' ++ (if K' = K ∧ d' = d ∧ Wanted sel K' d' then [(e.1, arrivalOf e d)] else []) ∧
      s'.profile K' d' = s.profile K' d' ++ (if K' = K ∧ d' = d ∧ Wanted sel K' d' then [(e.1, envelopeCurve (e.2.shape.headD 0) fun t => e.2.val t 0 d)] else []) := by
  obtain ⟨T, c, hT, -, hs⟩ := he
  unfold detectDim
  rw [dimChosen_sel]
  show ∃ s', (if decide (∀ q, sel = some q → (q.2 : ℕ) = d) = false then _ else _) = _ ∧ _
  by_cases hw : ∀ q, sel = some q → (q.2 : ℕ) = d
  · rw [if_neg (by simpa using hw)]
    have hsub : ∃ p, subplotPlace (plotChoice sel) d = .ok p := by
      cases sel with
      | none => exact ⟨d + 1, if_pos (by omega)⟩
      | some q => exact ⟨1, rfl⟩
    obtain ⟨p, hp⟩ := hsub
    obtain ⟨t, ht, -⟩ := firstMax_envelope (N := T) hT fun t => e.2.val t 0 d
    have hhead : e.2.shape.headD 0 = T := by rw [hs]; rfl
    have harr : arrivalOf e d = t := by
      unfold arrivalOf
      rw [hhead, ht]
    rw [hp]
    simp only [hhead]
    refine ⟨⟨s.curves ++ [⟨K, d, e.1, envelopeCurve T fun t => e.2.val t 0 d⟩], s.arrivals.append K d e.1 t⟩, ?_, fun K' d' => ?_⟩
    · show (if 3 ≤ (d : ℕ) then _ else _) = _
      rw [if_neg (by omega), ht]
      rfl
    · have hcond : (K' = K ∧ d' = d ∧ Wanted sel K' d') ↔ (K' = K ∧ (d' : ℕ) = d) := by
        constructor
        · exact fun h => ⟨h.1, by rw [h.2.1]⟩
        · rintro ⟨rfl, h⟩
          have h' : d' = d := Fin.ext h
          subst h'
          exact ⟨rfl, rfl, fun q hq => Prod.ext (hK q hq) (Fin.ext (hw q hq))⟩
      rw [shown_append, profile_append, harr]
      refine ⟨?_, ?_⟩
      · show _ ++ _ = _ ++ _
        congr 1
        exact if_congr hcond.symm rfl rfl
      · show _ ++ _ = _ ++ _
        congr 1
        exact if_congr hcond.symm rfl rfl
  · rw [if_pos (by simpa using hw)]
    refine ⟨s, rfl, fun K' d' => ?_⟩
    have : ¬ (K' = K ∧ d' = d ∧ Wanted sel K' d') := by
      rintro ⟨-, rfl, h⟩
      exact hw fun q hq => by rw [h q hq]
    rw [if_neg this, if_neg this, List.append_nil, List.append_nil]
    exact ⟨rfl, rfl⟩

lemma kind_strAt {K : Char} {e : Str × DetReadings} (h : KindIs K e) : strAt e.1 (-2) = .ok K := by
  unfold KindIs at h
  have hl : 1 < e.1.length := by
    have := List.getElem?_eq_some_iff.1 h
    obtain ⟨h1, -⟩ := this
    simpa using h1
  rw [List.getElem?_reverse hl] at h
  unfold strAt
  have h1 : ((e.1.length : ℤ) + -2).toNat = e.1.length - 1 - 1 := by omega
  rw [if_pos (by norm_num), h1, h]
  simp only
  rw [if_neg (by omega)]

lemma otherField_sel (sel : Option (Char × Fin 3)) (K : Char) : otherField (plotChoice sel) K = .ok (decide (∃ q, sel = some q ∧ q.1 ≠ K)) := by
  cases sel with
  | none => simp [plotChoice, otherField]
  | some q =>
    show Except.ok (decide (K ≠ q.1)) = _
    congr 1
    simp [eq_comm]

lemma detectOne_spec (sel : Option (Char × Fin 3)) (e : Str × DetReadings) (he : e.2.shape.length = 3 → IsLineReading e ∧ ∃ K, KindIs K e) (s : Detection) :
    ∃ s', detectOne (plotChoice sel) s e = .ok s' ∧ ∀ (K' : Char) (d' : Fin 3),
      s'.shown K' d' = s.shown K' d' ++ (if e.2.shape.length = 3 ∧ KindIs K' e ∧ Wanted sel K' d' then [(e.1, arrivalOf e d')] else []) ∧
      s'.profile K' d' = s.profile K' d' ++ (if e.2.shape.length = 3 ∧ KindIs K' e ∧ Wanted sel K' d' then [(e.1, envelopeCurve (e.2.shape.headD 0) fun t => e.2.val t 0 d')] else []) := by
  unfold detectOne
  by_cases h3 : e.2.shape.length = 3
  · rw [if_neg (not_not.2 h3)]
    obtain ⟨hl, K, hK⟩ := he h3
    have hKu : ∀ K', KindIs K' e ↔ K' = K := fun K' => by
      unfold KindIs at *
      rw [hK]
      exact ⟨fun h => (Option.some.inj h).symm, fun h => by rw [h]⟩
    rw [kind_strAt hK]
    show ∃ s', (otherField (plotChoice sel) K >>= fun skip => _) = _ ∧ _
    rw [otherField_sel]
    show ∃ s', (if decide (∃ q, sel = some q ∧ q.1 ≠ K) = true then _ else _) = _ ∧ _
    by_cases hq : ∃ q, sel = some q ∧ q.1 ≠ K
    · rw [if_pos (by simpa using hq)]
      refine ⟨s, rfl, fun K' d' => ?_⟩
      have : ¬ (e.2.shape.length = 3 ∧ KindIs K' e ∧ Wanted sel K' d') := by
        rintro ⟨-, h1, h2⟩
        obtain ⟨q, hq, hne⟩ := hq
        rw [hKu] at h1
        exact hne (by rw [h2 q hq, h1])
      rw [if_neg this, if_neg this, List.append_nil, List.append_nil]
      exact ⟨rfl, rfl⟩
    · rw [if_neg (by simpa using hq)]
      have hK' : ∀ q, sel = some q → q.1 = K := fun q h => by
        by_contra hne
        exact hq ⟨q, h, hne⟩
      have hcol : e.2.columns = .ok 3 := by
        obtain ⟨T, c, hT, hc, hs⟩ := hl
        unfold DetReadings.columns
        rw [hs]
        exact if_neg (by omega)
      obtain ⟨s1, h1, p1⟩ := detectDim_spec sel e hl K hK' s 0
      obtain ⟨s2, h2, p2⟩ := detectDim_spec sel e hl K hK' s1 1
      obtain ⟨s3, h3', p3⟩ := detectDim_spec sel e hl K hK' s2 2
      refine ⟨s3, ?_, fun K' d' => ?_⟩
      · rw [hcol]
        show (List.range 3).foldlM (detectDim (plotChoice sel) e.1 K e.2) s = _
        have : List.range 3 = [0, 1, 2] := rfl
        rw [this]
        simp only [List.foldlM_cons, List.foldlM_nil]
        have e1 : detectDim (plotChoice sel) e.1 K e.2 s 0 = .ok s1 := h1
        have e2 : detectDim (plotChoice sel) e.1 K e.2 s1 1 = .ok s2 := h2
        have e3 : detectDim (plotChoice sel) e.1 K e.2 s2 2 = .ok s3 := h3'
        rw [e1]
        show (detectDim (plotChoice sel) e.1 K e.2 s1 1 >>= _) = _
        rw [e2]
        show (detectDim (plotChoice sel) e.1 K e.2 s2 2 >>= _) = _
        rw [e3]
        rfl
      · rw [(p3 K' d').1, (p2 K' d').1, (p1 K' d').1, (p3 K' d').2, (p2 K' d').2, (p1 K' d').2]
        simp only [hKu, h3, true_and]
        by_cases hKK : K' = K
        · by_cases hW : Wanted sel K' d'
          · fin_cases d' <;> simp_all
          · simp [hW]
        · simp [hKK]
  · rw [if_pos h3]
    refine ⟨s, rfl, fun K' d' => ?_⟩
    simp [h3]

lemma detectAll_spec (sel : Option (Char × Fin 3)) (l : List (Str × DetReadings)) (hl : ∀ e ∈ l, e.2.shape.length = 3 → IsLineReading e ∧ ∃ K, KindIs K e) (s : Detection) :
    ∃ s', l.foldlM (detectOne (plotChoice sel)) s = .ok s' ∧ ∀ (K : Char) (d : Fin 3),
      s'.shown K d = s.shown K d ++ (l.filter fun e => decide (e.2.shape.length = 3 ∧ KindIs K e ∧ Wanted sel K d)).map (fun e => (e.1, arrivalOf e d)) ∧
      s'.profile K d = s.profile K d ++ (l.filter fun e => decide (e.2.shape.length = 3 ∧ KindIs K e ∧ Wanted sel K d)).map (fun e => (e.1, envelopeCurve (e.2.shape.headD 0) fun t => e.2.val t 0 d)) := by
  induction l generalizing s with
  | nil => exact ⟨s, rfl, fun K d => by simp⟩
  | cons e l ih =>
    obtain ⟨s1, h1, p1⟩ := detectOne_spec sel e (hl e (by simp)) s
    obtain ⟨s2, h2, p2⟩ := ih (fun e he => hl e (List.mem_cons_of_mem _ he)) s1
    refine ⟨s2, ?_, fun K d => ?_⟩
    · rw [List.foldlM_cons, h1]; exact h2
    · rw [(p2 K d).1, (p2 K d).2, (p1 K d).1, (p1 K d).2]
      by_cases h : e.2.shape.length = 3 ∧ KindIs K e ∧ Wanted sel K d
      · rw [List.filter_cons_of_pos (by simpa using h), if_pos h, if_pos h]; simp
      · rw [List.filter_cons_of_neg (by simpa using h), if_neg h, if_neg h]; simp

lemma forM_ok {α : Type} (f : α → Except PyErr Unit) (l : List α) (h : ∀ a ∈ l, f a = .ok ()) : l.forM f = .ok () := by
  induction l with
  | nil => rfl
  | cons a l ih =>
    show (f a >>= fun _ => l.forM f) = _
    rw [h a (by simp)]
    exact ih fun b hb => h b (List.mem_cons_of_mem _ hb)

lemma labelAxes_ok (sel : Option (Char × Fin 3)) (r : DetReadings) (k : ℕ) (hr : r.columns = .ok k) (hk : sel = none → k ≤ 4) (K : Char) : labelAxes (plotChoice sel) (some r) K = .ok () := by
  unfold labelAxes
  rw [otherField_sel]
  show (if decide _ = true then _ else _) = _
  split_ifs
  · rfl
  · show (r.columns >>= _) = _
    rw [hr]
    refine forM_ok _ _ fun d hd => ?_
    rw [dimChosen_sel]
    show (if decide _ = true then _ else _) = _
    split_ifs
    · have : ∃ p, subplotPlace (plotChoice sel) d = .ok p := by
        cases sel with
        | none => exact ⟨d + 1, if_pos (by have := hk rfl; have := List.mem_range.1 hd; omega)⟩
        | some q => exact ⟨1, rfl⟩
      obtain ⟨p, hp⟩ := this
      rw [hp]
      rfl
    · rfl

/-- C135: the plots of `plot_detection`. For readings of line detectors (times, cells, three components, names that end like those of `save_data`) and of other detectors, in any order, if the last detector has readings and,
unless one field and axis are chosen, at most four columns: every wanted field and axis shows, in the order of the dictionary, the line detectors recorded for this field, each with the envelope of its first cell and with the
step at which the envelope is largest for the first time; other detectors are left out; fields and axes that are not wanted show nothing. Missing: empty dictionaries, and block detectors with more columns at the end (`C135_empty_false`, `C135_block_false`). -/
theorem C135_plots_partial (sel : Option (Char × Fin 3)) (l : List (Str × DetReadings)) (hl : ∀ e ∈ l, e.2.shape.length = 3 → IsLineReading e ∧ ∃ K, KindIs K e)
    (z : Str × DetReadings) (hz : l.getLast? = some z) (T c k : ℕ) (rest : List ℕ) (hs : z.2.shape = T :: c :: k :: rest) (hT : 0 < T) (hc : 0 < c) (hk : sel = none → k ≤ 4) :
    ∃ p, plotDetection (some l) (plotChoice sel) = .ok p ∧ ∃ arrival : Str × DetReadings → Fin 3 → ℕ,
      (∀ e ∈ l, ∀ T c, e.2.shape = [T, c, 3] → ∀ d : Fin 3, ArrivesAt T (fun t => e.2.val t 0 d) (arrival e d)) ∧
      ∀ (K : Char) (d : Fin 3),
        (Wanted sel K d →
          p.shown K d = (l.filter fun e => decide (e.2.shape.length = 3 ∧ KindIs K e)).map (fun e => (e.1, arrival e d)) ∧
          List.Forall₂ (fun e q => q.1 = e.1 ∧ q.2.length = e.2.shape.headD 0 ∧ ∀ t (h : t < q.2.length), q.2[t] = ‖analyticSignal (e.2.shape.headD 0) (fun t => e.2.val t 0 d) t‖)
            (l.filter fun e => decide (e.2.shape.length = 3 ∧ KindIs K e)) (p.profile K d)) ∧
        (¬ Wanted sel K d → p.shown K d = [] ∧ p.profile K d = []) := by
  obtain ⟨p, hp, h⟩ := detectAll_spec sel l hl ⟨[], []⟩
  have hcol : z.2.columns = .ok k := by
    unfold DetReadings.columns
    rw [hs]
    exact if_neg (by omega)
  refine ⟨p, ?_, fun e d => arrivalOf e d, fun e he T c hsh d => ?_, fun K d => ⟨fun hw => ⟨?_, ?_⟩, fun hw => ?_⟩⟩
  · unfold plotDetection
    simp only
    rw [hp]
    show (labelAxes _ _ 'E' >>= fun _ => _) = _
    rw [hz, Option.map_some, labelAxes_ok sel z.2 k hcol hk]
    show (labelAxes _ _ 'H' >>= fun _ => _) = _
    rw [labelAxes_ok sel z.2 k hcol hk]
    rfl
  · have hT : 0 < T := by
      obtain ⟨⟨T', c', hT, -, hs'⟩, -⟩ := hl e he (by rw [hsh]; rfl)
      rw [hs'] at hsh
      cases hsh
      exact hT
    obtain ⟨t, h1, h2⟩ := firstMax_envelope hT fun t => e.2.val t 0 d
    have : arrivalOf e d = t := by
      unfold arrivalOf
      rw [hsh, List.headD_cons, h1]
    show ArrivesAt T _ (arrivalOf e d)
    rw [this]
    exact h2
  · rw [(h K d).1]
    simp [hw, Detection.shown]
  · rw [(h K d).2]
    have e0 : Detection.profile ⟨[], []⟩ K d = [] := rfl
    have e1 : (l.filter fun e => decide (e.2.shape.length = 3 ∧ KindIs K e ∧ Wanted sel K d)) = l.filter fun e => decide (e.2.shape.length = 3 ∧ KindIs K e) := by
      simp [hw]
    rw [e0, e1, List.nil_append, List.forall₂_map_right_iff, List.forall₂_same]
    intro e _
    refine ⟨rfl, by simp [envelopeCurve], fun t ht => by simp [envelopeCurve]⟩
  · rw [(h K d).1, (h K d).2]
    simp [hw, Detection.shown, Detection.profile]

/-- C135: the plotted envelope is nowhere below the size of the readings. -/
theorem C135_envelope (N : ℕ) (x : ℕ → ℝ) (t : ℕ) (ht : t < N) : |x t| ≤ ‖analyticSignal N x t‖ := by
  rw [← analyticSignal_re x ht]
  exact Complex.abs_re_le_norm _

/-- C135: if a pulse reaches a second detector `s` steps later than the first, with no reading before and, at the first detector, none in the last `s` steps, and the envelope at the first detector is largest at one step only,
then the plotted times of arrival differ by exactly `s` (unless the second one would come after the end of the simulation). -/
theorem C135_delay (N s : ℕ) (x y : ℕ → ℝ) (h0 : ∀ u < s, y u = 0) (h1 : ∀ u < N - s, y (u + s) = x u) (h2 : ∀ u < N, N - s ≤ u → x u = 0)
    (a : ℕ) (hu : ∀ u < N, u ≠ a → ‖analyticSignal N x u‖ < ‖analyticSignal N x a‖) (hN : a + s < N) (b : ℕ) (hb : ArrivesAt N y b) : b = a + s := by
  have hs : s ≤ N := by omega
  have hy : ‖analyticSignal N y (a + s)‖ = ‖analyticSignal N x a‖ := by rw [analyticSignal_delay hs x y h0 h1 h2]
  have hlt : ∀ u < N, u ≠ a + s → ‖analyticSignal N y u‖ < ‖analyticSignal N y (a + s)‖ := by
    intro u hu' hne
    rw [hy]
    by_cases h : u < s
    · rw [analyticSignal_wrap hs x y h0 h1 h2 h]
      exact hu _ (by omega) (by omega)
    · obtain ⟨v, rfl⟩ : ∃ v, u = v + s := ⟨u - s, by omega⟩
      rw [analyticSignal_delay hs x y h0 h1 h2]
      exact hu _ (by omega) (by omega)
  exact hb.unique ⟨hN, fun u hu' => by
    by_cases h : u = a + s
    · rw [h]
    · exact (hlt u hu' h).le, fun u hu' => hlt u (by omega) (by omega)⟩

/-- C135: the plots depend on the first cell of every line detector only: changing the readings of the other cells changes nothing. -/
theorem C135_first_cell (specific : Option Str) (l : List (Str × DetReadings)) (f : Str × DetReadings → ℕ → ℕ → ℕ → ℝ) (hf : ∀ e ∈ l, ∀ t d, f e t 0 d = e.2.val t 0 d) :
    plotDetection (some (l.map fun e => (e.1, ⟨e.2.shape, f e⟩))) specific = plotDetection (some l) specific := by
  have key : ∀ s, (l.map fun e => (e.1, (⟨e.2.shape, f e⟩ : DetReadings))).foldlM (detectOne specific) s = l.foldlM (detectOne specific) s := by
    induction l with
    | nil => intro s; rfl
    | cons e l ih =>
      intro s
      have h1 : ∀ s, detectOne specific s (e.1, ⟨e.2.shape, f e⟩) = detectOne specific s e := by
        intro s
        have hd : ∀ kind, detectDim specific e.1 kind (⟨e.2.shape, f e⟩ : DetReadings) = detectDim specific e.1 kind e.2 := by
          intro kind
          funext s d
          unfold detectDim
          simp only [hf e (by simp)]
        unfold detectOne
        simp only [hd]
        rfl
      rw [List.map_cons, List.foldlM_cons, List.foldlM_cons, h1]
      cases detectOne specific s e with
      | error q => rfl
      | ok s' => exact ih (fun e he => hf e (List.mem_cons_of_mem _ he)) s'
  have hlab : ∀ K, labelAxes specific ((l.map fun e => (e.1, (⟨e.2.shape, f e⟩ : DetReadings))).getLast?.map Prod.snd) K = labelAxes specific (l.getLast?.map Prod.snd) K := by
    intro K
    rw [List.getLast?_map, Option.map_map]
    cases l.getLast? with
    | none => rfl
    | some e => rfl
  unfold plotDetection
  simp only [key, hlab]

lemma kind_suffix (n : Str) (r : DetReadings) : KindIs 'E' (n ++ suffixE, r) ∧ KindIs 'H' (n ++ suffixH, r) := by
  constructor <;> simp [KindIs, suffixE, suffixH]

lemma mem_dictPut {β : Type} {l : List (Str × β)} {k : Str} {v : β} {e : Str × β} (h : e ∈ dictPut l k v) : e ∈ l ∨ e = (k, v) := by
  unfold dictPut at h
  split_ifs at h
  · obtain ⟨e', he', rfl⟩ := List.mem_map.1 h
    split_ifs
    · exact .inr rfl
    · exact .inl he'
  · rcases List.mem_append.1 h with h | h
    · exact .inl h
    · exact .inr (List.mem_singleton.1 h)

/-- C135: what `save_data` writes has the names that `plot_detection` takes: the second last letter of each is `E` or `H`. -/
theorem C135_names (g : GridNames) (record : ℕ → DetReadings × DetReadings) (dic : List (Str × DetReadings)) (h : g.saveData record = .ok dic) : ∀ e ∈ dic, KindIs 'E' e ∨ KindIs 'H' e := by
  unfold GridNames.saveData at h
  split_ifs at h
  have key : ∀ (cs : List Comp) (d0 : List (Str × DetReadings)), (∀ e ∈ d0, KindIs 'E' e ∨ KindIs 'H' e) → cs.foldlM (saveStep record) d0 = .ok dic → ∀ e ∈ dic, KindIs 'E' e ∨ KindIs 'H' e := by
    intro cs
    induction cs with
    | nil => intro d0 h0 h; cases h; exact h0
    | cons c cs ih =>
      intro d0 h0 h
      rw [List.foldlM_cons] at h
      obtain ⟨d1, h1, h2⟩ := bind_ok.1 h
      refine ih d1 ?_ h2
      unfold saveStep at h1
      split_ifs at h1
      split at h1
      · cases h1
      · cases h1
        intro e he
        rcases mem_dictPut he with he | rfl
        · rcases mem_dictPut he with he | rfl
          · exact h0 e he
          · exact .inl (kind_suffix _ _).1
        · exact .inr (kind_suffix _ _).2
  exact key _ _ (by simp) h

/-- C135 is false: without any detector the function fails with UnboundLocalError instead of showing empty plots. -/
theorem C135_empty_false : plotDetection (some []) none = .error .unboundLocalError := rfl

/-- C135 is false: if the detector that comes last is a block detector with more than four columns, nothing is shown, whatever line detectors there are. -/
theorem C135_block_false (l : List (Str × DetReadings)) (hl : ∀ e ∈ l, e.2.shape.length = 3 → IsLineReading e ∧ ∃ K, KindIs K e) (name : Str) (val : ℕ → ℕ → ℕ → ℝ) (T rows cols heights : ℕ)
    (hT : 0 < T) (hr : 0 < rows) (hc : 4 < cols) : plotDetection (some (l ++ [(name, ⟨[T, rows, cols, heights, 3], val⟩)])) none = .error .valueError := by
  obtain ⟨p, hp, -⟩ := detectAll_spec none (l ++ [(name, ⟨[T, rows, cols, heights, 3], val⟩)]) (by
    intro e he h3
    rcases List.mem_append.1 he with h | h
    · exact hl e h h3
    · rw [List.mem_singleton.1 h] at h3
      simp at h3) ⟨[], []⟩
  have hp' : (l ++ [(name, (⟨[T, rows, cols, heights, 3], val⟩ : DetReadings))]).foldlM (detectOne none) ⟨[], []⟩ = .ok p := hp
  unfold plotDetection
  simp only
  rw [hp', List.getLast?_append_of_ne_nil _ (by simp)]
  have hcol : DetReadings.columns ⟨[T, rows, cols, heights, 3], val⟩ = .ok cols := if_neg (by omega)
  have hlab : labelAxes none (some ⟨[T, rows, cols, heights, 3], val⟩) 'E' = .error .valueError := by
    show (DetReadings.columns ⟨[T, rows, cols, heights, 3], val⟩ >>= _) = _
    rw [hcol]
    show (List.range cols).forM _ = _
    obtain ⟨m, rfl⟩ : ∃ m, cols = 5 + m := ⟨cols - 5, by omega⟩
    rw [List.range_add]
    rfl
  show (labelAxes none (some ⟨[T, rows, cols, heights, 3], val⟩) 'E' >>= _) = _
  rw [hlab]
  rfl

/-- C135 is false: if the readings that come last have only two axes, nothing is shown either (they are passed over while plotting, but not while the axes are labelled). -/
theorem C135_flat_false (l : List (Str × DetReadings)) (hl : ∀ e ∈ l, e.2.shape.length = 3 → IsLineReading e ∧ ∃ K, KindIs K e) (name : Str) (val : ℕ → ℕ → ℕ → ℝ) (T c : ℕ)
    (hT : 0 < T) (hc : 0 < c) : plotDetection (some (l ++ [(name, ⟨[T, c], val⟩)])) none = .error .typeError := by
  obtain ⟨p, hp, -⟩ := detectAll_spec none (l ++ [(name, ⟨[T, c], val⟩)]) (by
    intro e he h3
    rcases List.mem_append.1 he with h | h
    · exact hl e h h3
    · rw [List.mem_singleton.1 h] at h3
      simp at h3) ⟨[], []⟩
  have hp' : (l ++ [(name, (⟨[T, c], val⟩ : DetReadings))]).foldlM (detectOne none) ⟨[], []⟩ = .ok p := hp
  unfold plotDetection
  simp only
  rw [hp', List.getLast?_append_of_ne_nil _ (by simp)]
  have hcol : DetReadings.columns ⟨[T, c], val⟩ = .error .typeError := if_neg (by omega)
  have hlab : labelAxes none (some ⟨[T, c], val⟩) 'E' = .error .typeError := by
    show (DetReadings.columns ⟨[T, c], val⟩ >>= _) = _
    rw [hcol]
    rfl
  show (labelAxes none (some ⟨[T, c], val⟩) 'E' >>= _) = _
  rw [hlab]
  rfl

/-- one sample of a pulse -/
def pulse4 (t : ℕ) : ℝ := if t = 0 then 1 else 0

lemma analytic_pulse4 (t : ℕ) : analyticSignal 4 pulse4 t = 1 / 4 * (1 + 2 * Complex.I ^ t + (-1) ^ t) := by
  have h1 : ∀ k, ∑ u ∈ Finset.range 4, (pulse4 u : ℂ) * dftPhase 4 k (-u) = 1 := fun k => by
    simp [Finset.sum_range_succ, pulse4, dftPhase]
  have hI : dftPhase 4 1 t = Complex.I ^ t := by
    have : Complex.I ^ t = Complex.exp (t * (Real.pi / 2 * Complex.I)) := by rw [Complex.exp_nat_mul, Complex.exp_pi_div_two_mul_I]
    rw [this]
    unfold dftPhase
    congr 1
    push_cast
    ring
  have h2 : dftPhase 4 2 t = (-1) ^ t := by
    rw [dftPhase_pow, hI, ← pow_mul, mul_comm, pow_mul, Complex.I_sq]
  have h0 : dftPhase 4 0 t = 1 := by simp [dftPhase]
  unfold analyticSignal
  simp only [h1, mul_one, Finset.sum_range_succ, Finset.sum_range_zero]
  rw [h0, hI, h2]
  simp [hilbertWeight]

/-- The hypotheses of `C135_delay` are met by a pulse of one sample and its copy one step later, in a simulation of four steps. -/
example : (∀ u < 1, (fun u => pulse4 (u - 1) * if u = 0 then 0 else 1) u = 0) ∧ (∀ u < 4 - 1, (fun u => pulse4 (u - 1) * if u = 0 then 0 else 1) (u + 1) = pulse4 u) ∧ (∀ u < 4, 4 - 1 ≤ u → pulse4 u = 0) ∧
    ∀ u < 4, u ≠ 0 → ‖analyticSignal 4 pulse4 u‖ < ‖analyticSignal 4 pulse4 0‖ := by
  refine ⟨fun u hu => ?_, fun u hu => by simp, fun u _ hu => if_neg (by omega), fun u hu h0 => ?_⟩
  · have : u = 0 := by omega
    simp [this]
  · rw [analytic_pulse4, analytic_pulse4]
    have e0 : (1 / 4 * (1 + 2 * Complex.I ^ 0 + (-1) ^ 0) : ℂ) = 1 := by norm_num
    rw [e0, norm_one]
    interval_cases u
    · exact absurd rfl h0
    · have : (1 / 4 * (1 + 2 * Complex.I ^ 1 + (-1) ^ 1) : ℂ) = 1 / 2 * Complex.I := by ring
      rw [this]; norm_num
    · have : (1 / 4 * (1 + 2 * Complex.I ^ 2 + (-1) ^ 2) : ℂ) = 0 := by rw [Complex.I_sq]; norm_num
      rw [this]; norm_num
    · have : (1 / 4 * (1 + 2 * Complex.I ^ 3 + (-1) ^ 3) : ℂ) = -(1 / 2 * Complex.I) := by
        rw [pow_succ, Complex.I_sq]; ring
      rw [this, norm_neg]; norm_num

/-- The hypotheses of `C135_plots_partial` are met by the saved readings of one line detector over four steps followed by those of a small block detector. -/
example : let l : List (Str × DetReadings) := [(['d'] ++ suffixE, ⟨[4, 2, 3], fun t _ _ => pulse4 t⟩), (['d'] ++ suffixH, ⟨[4, 2, 3], fun _ _ _ => 0⟩), (['b'] ++ suffixE, ⟨[4, 3, 3, 1, 3], fun _ _ _ => 0⟩)]
    (∀ e ∈ l, e.2.shape.length = 3 → IsLineReading e ∧ ∃ K, KindIs K e) ∧ l.getLast? = some (['b'] ++ suffixE, ⟨[4, 3, 3, 1, 3], fun _ _ _ => 0⟩) ∧ Wanted none 'E' 2 := by
  refine ⟨fun e he h3 => ?_, rfl, fun q h => by simp at h⟩
  simp only [List.mem_cons, List.not_mem_nil, or_false] at he
  rcases he with rfl | rfl | rfl
  · exact ⟨⟨4, 2, by norm_num, by norm_num, rfl⟩, 'E', rfl⟩
  · exact ⟨⟨4, 2, by norm_num, by norm_num, rfl⟩, 'H', rfl⟩
  · simp at h3

end Nidn
