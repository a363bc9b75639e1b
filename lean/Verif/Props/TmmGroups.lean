/-
C147: `inc_group_layers` sorts the layers into incoherent ones and stacks of coherent ones.
-/
import Verif.Model.TmmInc
import Verif.Lemmas.Tmm

namespace Nidn

noncomputable section

lemma app_some {α : Type} {l r : List α} {j : ℕ} {x : α} (h : l[j]? = some x) : (l ++ r)[j]? = some x := by
  rw [List.getElem?_append_left (List.getElem?_eq_some_iff.1 h).1, h]

lemma app_at {α : Type} (l : List α) (x : α) : (l ++ [x])[l.length]? = some x := by simp

/-- stack `j` fills the gap between the incoherent layers `a` and `e`, which have the incoherent indices `k` and `k + 1` -/
structure StackBetween (n : List ℂ) (d : List (Option ℝ)) (g : IncState) (j k a e : ℕ) : Prop where
  before : g.allFromInc[k]? = some a
  after : g.allFromInc[k + 1]? = some e
  gap : a + 1 < e
  inc_from : g.incFromStack[j]? = some k
  stack_from : g.stackFromInc[k + 1]? = some (some j)
  layers : g.allFromStack[j]? = some (List.range' a (e + 1 - a))
  indices : g.stackN[j]? = some ((n.drop a).take (e + 1 - a))
  thicknesses : g.stackD[j]? = some (none :: ((d.drop (a + 1)).take (e - a - 1) ++ [none]))

/-- what holds after `m ≥ 1` turns of the loop -/
structure IncInv (n : List ℂ) (d : List (Option ℝ)) (c : List String) (m : ℕ) (s : IncState) : Prop where
  letters : ∀ k < m, c.getD k "" = "i" ∨ c.getD k "" = "c"
  inc_def : s.allFromInc = (List.range m).filter fun k => c.getD k "" = "i"
  index : s.incIndex = s.allFromInc.length
  from_len : s.stackFromInc.length = s.allFromInc.length
  inc_all : s.incFromAll.length = m
  inc_none : ∀ k < m, c.getD k "" = "c" → s.incFromAll[k]? = some none
  inc_some : ∀ j k : ℕ, s.allFromInc[j]? = some k → s.incFromAll[k]? = some (some j)
  stack_all : s.stackFromAll.length = m
  stack_none : ∀ k < m, c.getD k "" = "i" → s.stackFromAll[k]? = some none
  stack_some : ∀ k < m, c.getD k "" = "c" → ∃ (j w : ℕ) (l : List ℕ), s.stackFromAll[k]? = some (some (j, w)) ∧ 1 ≤ w ∧ s.allFromStack[j]? = some l ∧ l[w]? = some k
  lens : s.stackD.length = s.stackIndex ∧ s.stackN.length = s.stackIndex ∧ s.incFromStack.length = s.allFromStack.length
  complete : ∀ j < s.stackIndex, ∃ k a e, StackBetween n d s j k a e
  first : s.stackFromInc[0]? = some none
  next : ∀ k a e : ℕ, s.allFromInc[k]? = some a → s.allFromInc[k + 1]? = some e → (s.stackFromInc[k + 1]? = some none ∧ e = a + 1) ∨ ∃ j, j < s.stackIndex ∧ StackBetween n d s j k a e
  last : ∃ B a, s.allFromInc = B ++ [a] ∧
    ((s.busy = false ∧ a + 1 = m ∧ s.allFromStack.length = s.stackIndex ∧ c.getD (m - 1) "" = "i") ∨
     (s.busy = true ∧ a + 1 < m ∧ s.within = m - 1 - a ∧ s.ongoingN = (n.drop a).take (m - a) ∧ s.ongoingD = none :: (d.drop (a + 1)).take (m - 1 - a) ∧
      (∃ F, s.allFromStack = F ++ [List.range' a (m - a)] ∧ F.length = s.stackIndex) ∧ s.incFromStack[s.stackIndex]? = some B.length ∧ c.getD (m - 1) "" = "c"))

lemma appendLast_app (F : List (List ℕ)) (l : List ℕ) (x : ℕ) : appendLast (F ++ [l]) x = F ++ [l ++ [x]] := by
  unfold appendLast
  rw [List.dropLast_concat, List.getLastD_concat]

lemma take_succ_getD {α : Type} (l : List α) (x : α) {a m : ℕ} (h1 : a ≤ m) (h2 : m < l.length) : (l.drop a).take (m - a) ++ [l.getD m x] = (l.drop a).take (m + 1 - a) := by
  rw [show m + 1 - a = m - a + 1 by omega, List.take_add_one, List.getElem?_drop, show a + (m - a) = m by omega, List.getElem?_eq_getElem h2, getD_at h2]
  rfl

lemma range_app {a m : ℕ} (h1 : a ≤ m) : List.range' a (m - a) ++ [m] = List.range' a (m + 1 - a) := by
  rw [show m + 1 - a = m - a + 1 by omega, List.range'_concat]
  congr 2
  omega

/-- a stack that is complete stays as it is -/
lemma StackBetween.mono {n : List ℂ} {d : List (Option ℝ)} {g g' : IncState} {j k a e : ℕ} (h : StackBetween n d g j k a e) (h1 : ∃ r, g'.allFromInc = g.allFromInc ++ r) (h2 : ∃ r, g'.incFromStack = g.incFromStack ++ r)
    (h3 : ∃ r, g'.stackFromInc = g.stackFromInc ++ r) (h4 : g'.allFromStack[j]? = g.allFromStack[j]?) (h5 : ∃ r, g'.stackN = g.stackN ++ r) (h6 : ∃ r, g'.stackD = g.stackD ++ r) :
    StackBetween n d g' j k a e := by
  obtain ⟨r1, e1⟩ := h1
  obtain ⟨r2, e2⟩ := h2
  obtain ⟨r3, e3⟩ := h3
  obtain ⟨r5, e5⟩ := h5
  obtain ⟨r6, e6⟩ := h6
  exact ⟨by rw [e1]; exact app_some h.before, by rw [e1]; exact app_some h.after, h.gap, by rw [e2]; exact app_some h.inc_from, by rw [e3]; exact app_some h.stack_from, by rw [h4]; exact h.layers,
    by rw [e5]; exact app_some h.indices, by rw [e6]; exact app_some h.thicknesses⟩

lemma filter_step (c : List String) (m : ℕ) : (List.range (m + 1)).filter (fun k => decide (c.getD k "" = "i")) =
    (List.range m).filter (fun k => decide (c.getD k "" = "i")) ++ if c.getD m "" = "i" then [m] else [] := by
  rw [List.range_succ, List.filter_append]
  congr 1
  by_cases h : c.getD m "" = "i"
  · rw [if_pos h]; simp only [List.filter_cons, h, decide_true, if_true, List.filter_nil]
  · rw [if_neg h]; simp only [List.filter_cons, h, decide_false, List.filter_nil]; rfl

lemma incInv_step {n : List ℂ} {d : List (Option ℝ)} {c : List String} {m : ℕ} {s s' : IncState} (hn : m < n.length) (hd : m < d.length) (h1 : 1 ≤ m) (h : IncInv n d c m s)
    (hs : IncState.step n d c s m = .ok s') : IncInv n d c (m + 1) s' := by
  obtain ⟨B, a, hB, hlast⟩ := h.last
  have hmem : ∀ k, k ∈ s.allFromInc → k < m := by
    intro k hk
    rw [h.inc_def] at hk
    exact List.mem_range.1 (List.mem_filter.1 hk).1
  have ham : a < m := hmem a (by rw [hB]; simp)
  unfold IncState.step at hs
  by_cases hc : c.getD m "" = "c"
  · have hci : ¬ c.getD m "" = "i" := by rw [hc]; decide
    have hlet : ∀ k < m + 1, c.getD k "" = "i" ∨ c.getD k "" = "c" := by
      intro k hk
      rcases Nat.lt_succ_iff_lt_or_eq.1 hk with hk | rfl
      · exact h.letters k hk
      · exact .inr hc
    have hdef : s.allFromInc = (List.range (m + 1)).filter fun k => decide (c.getD k "" = "i") := by
      rw [filter_step, if_neg hci, List.append_nil]; exact h.inc_def
    rw [if_pos hc] at hs
    by_cases hb : s.busy = true
    · -- another coherent layer in the same stack
      rw [if_neg (by simp [hb]), Except.ok.injEq] at hs
      rcases hlast with ⟨hb', -⟩ | ⟨-, hgap, hwith, hN, hD, ⟨F, hF, hFl⟩, hI, -⟩
      · rw [hb] at hb'; cases hb'
      have hF' : s'.allFromStack = F ++ [List.range' a (m + 1 - a)] := by rw [← hs]; show appendLast _ _ = _; rw [hF, appendLast_app, range_app ham.le]
      have hold : ∀ j < s.stackIndex, s'.allFromStack[j]? = s.allFromStack[j]? := by
        intro j hj
        rw [hF', hF, List.getElem?_append_left (by omega), List.getElem?_append_left (by omega)]
      have hmono : ∀ j k a e, j < s.stackIndex → StackBetween n d s j k a e → StackBetween n d s' j k a e := by
        intro j k a e hj hst
        exact hst.mono ⟨[], by rw [← hs]; simp⟩ ⟨[], by rw [← hs]; simp⟩ ⟨[], by rw [← hs]; simp⟩ (hold j hj) ⟨[], by rw [← hs]; simp⟩ ⟨[], by rw [← hs]; simp⟩
      constructor
      case letters => exact hlet
      case inc_def => rw [← hs]; exact hdef
      case index => rw [← hs]; exact h.index
      case from_len => rw [← hs]; exact h.from_len
      case inc_all => rw [← hs]; simp [h.inc_all]
      case inc_none =>
        intro k hk hkc
        rw [← hs]
        rcases Nat.lt_succ_iff_lt_or_eq.1 hk with hk | rfl
        · exact app_some (h.inc_none k hk hkc)
        · have := app_at s.incFromAll none
          rwa [h.inc_all] at this
      case inc_some => rw [← hs]; exact fun j k hjk => app_some (h.inc_some j k hjk)
      case stack_all => rw [← hs]; simp [h.stack_all]
      case stack_none =>
        intro k hk hki
        rw [← hs]
        rcases Nat.lt_succ_iff_lt_or_eq.1 hk with hk | rfl
        · exact app_some (h.stack_none k hk hki)
        · exact absurd hki hci
      case stack_some =>
        intro k hk hkc
        rcases Nat.lt_succ_iff_lt_or_eq.1 hk with hk | rfl
        · obtain ⟨j, w, l, h1, h2, h3, h4⟩ := h.stack_some k hk hkc
          have h1' : s'.stackFromAll[k]? = some (some (j, w)) := by rw [← hs]; exact app_some h1
          by_cases hj : j < s.stackIndex
          · exact ⟨j, w, l, h1', h2, by rw [hold j hj]; exact h3, h4⟩
          · have hjl := (List.getElem?_eq_some_iff.1 h3).1
            rw [hF, List.length_append, List.length_singleton] at hjl
            obtain rfl : j = F.length := by omega
            rw [hF, app_at, Option.some.injEq] at h3
            refine ⟨_, w, List.range' a (m + 1 - a), h1', h2, by rw [hF', app_at], ?_⟩
            rw [← range_app ham.le, h3]
            exact app_some h4
        · refine ⟨s.stackIndex, s.within + 1, List.range' a (k + 1 - a), ?_, by omega, by rw [hF', ← hFl, app_at], ?_⟩
          · rw [← hs]
            have := app_at s.stackFromAll (some (s.stackIndex, s.within + 1))
            rwa [h.stack_all] at this
          · rw [List.getElem?_range' (by omega)]
            congr 1
            omega
      case lens =>
        refine ⟨by rw [← hs]; exact h.lens.1, by rw [← hs]; exact h.lens.2.1, ?_⟩
        have := h.lens.2.2
        rw [hF', ← hs]
        simp only [List.length_append, List.length_singleton]
        rw [hF] at this
        simpa using this
      case complete =>
        intro j hj
        have hj' : j < s.stackIndex := by rw [← hs] at hj; exact hj
        obtain ⟨k, a, e, hst⟩ := h.complete j hj'
        exact ⟨k, a, e, hmono j k a e hj' hst⟩
      case first => rw [← hs]; exact h.first
      case next =>
        intro k a e h1 h2
        rw [← hs] at h1 h2
        rcases h.next k a e h1 h2 with h3 | ⟨j, hj, hst⟩
        · left; rw [← hs]; exact h3
        · right; exact ⟨j, by rw [← hs]; exact hj, hmono j k a e hj hst⟩
      case last =>
        refine ⟨B, a, by rw [← hs]; exact hB, .inr ⟨by rw [← hs]; exact hb, by omega, ?_, ?_, ?_, ⟨F, hF', by rw [← hs]; exact hFl⟩, by rw [← hs]; exact hI, by simpa using hc⟩⟩
        · rw [← hs]; show s.within + 1 = _; omega
        · rw [← hs]; show s.ongoingN ++ _ = _; rw [hN, take_succ_getD _ _ ham.le hn]
        · rw [← hs]; show s.ongoingD ++ _ = _
          rw [hD, List.cons_append, show m - 1 - a = m - (a + 1) by omega, take_succ_getD _ _ (by omega) hd, show m + 1 - 1 - a = m + 1 - (a + 1) by omega]
    · -- a new stack
      rw [if_pos (by simp [hb]), Except.ok.injEq] at hs
      rcases hlast with ⟨-, hgap, hFl, -⟩ | ⟨hb', -⟩
      swap
      · exact absurd hb' hb
      have hF' : s'.allFromStack = s.allFromStack ++ [List.range' a (m + 1 - a)] := by
        rw [← hs, show m + 1 - a = 2 by omega]
        show s.allFromStack ++ [[m - 1, m]] = _
        rw [show m - 1 = a by omega, ← hgap]; rfl
      have hold : ∀ j < s.stackIndex, s'.allFromStack[j]? = s.allFromStack[j]? := by
        intro j hj
        rw [hF', List.getElem?_append_left (by omega)]
      have hmono : ∀ j k a e, j < s.stackIndex → StackBetween n d s j k a e → StackBetween n d s' j k a e := by
        intro j k a e hj hst
        exact hst.mono ⟨[], by rw [← hs]; simp⟩ ⟨[s.incIndex - 1], by rw [← hs]⟩ ⟨[], by rw [← hs]; simp⟩ (hold j hj) ⟨[], by rw [← hs]; simp⟩ ⟨[], by rw [← hs]; simp⟩
      constructor
      case letters => exact hlet
      case inc_def => rw [← hs]; exact hdef
      case index => rw [← hs]; exact h.index
      case from_len => rw [← hs]; exact h.from_len
      case inc_all => rw [← hs]; simp [h.inc_all]
      case inc_none =>
        intro k hk hkc
        rw [← hs]
        rcases Nat.lt_succ_iff_lt_or_eq.1 hk with hk | rfl
        · exact app_some (h.inc_none k hk hkc)
        · have := app_at s.incFromAll none
          rwa [h.inc_all] at this
      case inc_some => rw [← hs]; exact fun j k hjk => app_some (h.inc_some j k hjk)
      case stack_all => rw [← hs]; simp [h.stack_all]
      case stack_none =>
        intro k hk hki
        rw [← hs]
        rcases Nat.lt_succ_iff_lt_or_eq.1 hk with hk | rfl
        · exact app_some (h.stack_none k hk hki)
        · exact absurd hki hci
      case stack_some =>
        intro k hk hkc
        rcases Nat.lt_succ_iff_lt_or_eq.1 hk with hk | rfl
        · obtain ⟨j, w, l, h1, h2, h3, h4⟩ := h.stack_some k hk hkc
          have h1' : s'.stackFromAll[k]? = some (some (j, w)) := by rw [← hs]; exact app_some h1
          have hjl := (List.getElem?_eq_some_iff.1 h3).1
          exact ⟨j, w, l, h1', h2, by rw [hold j (by omega)]; exact h3, h4⟩
        · refine ⟨s.stackIndex, 1, List.range' a (k + 1 - a), ?_, le_rfl, by rw [hF', ← hFl, app_at], ?_⟩
          · rw [← hs]
            have := app_at s.stackFromAll (some (s.stackIndex, 1))
            rwa [h.stack_all] at this
          · rw [List.getElem?_range' (by omega)]
            congr 1
      case lens =>
        refine ⟨by rw [← hs]; exact h.lens.1, by rw [← hs]; exact h.lens.2.1, ?_⟩
        rw [hF', ← hs]
        simp [h.lens.2.2]
      case complete =>
        intro j hj
        have hj' : j < s.stackIndex := by rw [← hs] at hj; exact hj
        obtain ⟨k, a, e, hst⟩ := h.complete j hj'
        exact ⟨k, a, e, hmono j k a e hj' hst⟩
      case first => rw [← hs]; exact h.first
      case next =>
        intro k a e h1 h2
        rw [← hs] at h1 h2
        rcases h.next k a e h1 h2 with h3 | ⟨j, hj, hst⟩
        · left; rw [← hs]; exact h3
        · right; exact ⟨j, by rw [← hs]; exact hj, hmono j k a e hj hst⟩
      case last =>
        refine ⟨B, a, by rw [← hs]; exact hB, .inr ⟨by rw [← hs], by omega, ?_, ?_, ?_, ⟨s.allFromStack, hF', by rw [← hs]; exact hFl⟩, ?_, by simpa using hc⟩⟩
        · rw [← hs]; show 1 = _; omega
        · rw [← hs, show m + 1 - a = 2 by omega]
          show [n.getD (m - 1) 0, n.getD m 0] = _
          rw [show m - 1 = a by omega, ← hgap, getD_at (by omega), getD_at (by omega), List.drop_eq_getElem_cons (by omega), List.drop_eq_getElem_cons (by omega)]
          rfl
        · rw [← hs, show m + 1 - 1 - a = 1 by omega]
          show [none, d.getD m none] = _
          rw [hgap, getD_at hd, List.drop_eq_getElem_cons hd]
          rfl
        · rw [← hs]
          show (s.incFromStack ++ [s.incIndex - 1])[s.stackIndex]? = _
          have h5 : s.stackIndex = s.incFromStack.length := by rw [h.lens.2.2, hFl]
          rw [h5, app_at, h.index, hB]
          simp
  · rw [if_neg hc] at hs
    by_cases hi : c.getD m "" = "i"
    swap
    · rw [if_neg hi] at hs; cases hs
    rw [if_pos hi] at hs
    have hlet : ∀ k < m + 1, c.getD k "" = "i" ∨ c.getD k "" = "c" := by
      intro k hk
      rcases Nat.lt_succ_iff_lt_or_eq.1 hk with hk | rfl
      · exact h.letters k hk
      · exact .inl hi
    have hdef : s.allFromInc ++ [m] = (List.range (m + 1)).filter fun k => decide (c.getD k "" = "i") := by
      rw [filter_step, if_pos hi, ← h.inc_def]
    by_cases hb : s.busy = true
    · -- the end of a stack
      rw [if_neg (by simp [hb]), Except.ok.injEq] at hs
      rcases hlast with ⟨hb', -⟩ | ⟨-, hgap, hwith, hN, hD, ⟨F, hF, hFl⟩, hI, -⟩
      · rw [hb] at hb'; cases hb'
      have hF' : s'.allFromStack = F ++ [List.range' a (m + 1 - a)] := by rw [← hs]; show appendLast _ _ = _; rw [hF, appendLast_app, range_app ham.le]
      have hold : ∀ j < s.stackIndex, s'.allFromStack[j]? = s.allFromStack[j]? := by
        intro j hj
        rw [hF', hF, List.getElem?_append_left (by omega), List.getElem?_append_left (by omega)]
      have hmono : ∀ j k a e, j < s.stackIndex → StackBetween n d s j k a e → StackBetween n d s' j k a e := by
        intro j k a e hj hst
        exact hst.mono ⟨[m], by rw [← hs]⟩ ⟨[], by rw [← hs]; simp⟩ ⟨[some s.stackIndex], by rw [← hs]⟩ (hold j hj) ⟨[s.ongoingN ++ [n.getD m 0]], by rw [← hs]⟩ ⟨[s.ongoingD ++ [none]], by rw [← hs]⟩
      have hA' : s'.allFromInc = B ++ [a] ++ [m] := by rw [← hs]; show s.allFromInc ++ [m] = _; rw [hB]
      have hnew : StackBetween n d s' s.stackIndex B.length a m := by
        constructor
        · rw [hA']; exact app_some (app_at B a)
        · rw [hA']
          have := app_at (B ++ [a]) m
          rwa [List.length_append, List.length_singleton] at this
        · omega
        · rw [← hs]; exact hI
        · rw [← hs]
          have := app_at s.stackFromInc (some s.stackIndex)
          rwa [h.from_len, hB, List.length_append, List.length_singleton] at this
        · rw [hF', ← hFl, app_at]
        · rw [← hs]
          have := app_at s.stackN (s.ongoingN ++ [n.getD m 0])
          rw [h.lens.2.1] at this
          rw [this, hN, take_succ_getD _ _ ham.le hn]
        · rw [← hs]
          have := app_at s.stackD (s.ongoingD ++ [none])
          rw [h.lens.1] at this
          rw [this, hD, show m - a - 1 = m - 1 - a by omega]; rfl
      constructor
      case letters => exact hlet
      case inc_def => rw [← hs]; exact hdef
      case index => rw [← hs]; simp [h.index]
      case from_len => rw [← hs]; simp [h.from_len]
      case inc_all => rw [← hs]; simp [h.inc_all]
      case inc_none =>
        intro k hk hkc
        rw [← hs]
        rcases Nat.lt_succ_iff_lt_or_eq.1 hk with hk | rfl
        · exact app_some (h.inc_none k hk hkc)
        · exact absurd hkc hc
      case inc_some =>
        intro j k hjk
        have hjk' : (s.allFromInc ++ [m])[j]? = some k := by rw [← hs] at hjk; exact hjk
        rw [← hs]
        by_cases hj : j < s.allFromInc.length
        · rw [List.getElem?_append_left hj] at hjk'
          exact app_some (h.inc_some j k hjk')
        · have hjl := (List.getElem?_eq_some_iff.1 hjk').1
          rw [List.length_append, List.length_singleton] at hjl
          obtain rfl : j = s.allFromInc.length := by omega
          rw [app_at, Option.some.injEq] at hjk'
          rw [← hjk', ← h.index]
          have := app_at s.incFromAll (some s.incIndex)
          rwa [h.inc_all] at this
      case stack_all => rw [← hs]; simp [h.stack_all]
      case stack_none =>
        intro k hk hki
        rw [← hs]
        rcases Nat.lt_succ_iff_lt_or_eq.1 hk with hk | rfl
        · exact app_some (h.stack_none k hk hki)
        · have := app_at s.stackFromAll none
          rwa [h.stack_all] at this
      case stack_some =>
        intro k hk hkc
        rcases Nat.lt_succ_iff_lt_or_eq.1 hk with hk | rfl
        · obtain ⟨j, w, l, h1, h2, h3, h4⟩ := h.stack_some k hk hkc
          have h1' : s'.stackFromAll[k]? = some (some (j, w)) := by rw [← hs]; exact app_some h1
          by_cases hj : j < s.stackIndex
          · exact ⟨j, w, l, h1', h2, by rw [hold j hj]; exact h3, h4⟩
          · have hjl := (List.getElem?_eq_some_iff.1 h3).1
            rw [hF, List.length_append, List.length_singleton] at hjl
            obtain rfl : j = F.length := by omega
            rw [hF, app_at, Option.some.injEq] at h3
            refine ⟨_, w, List.range' a (m + 1 - a), h1', h2, by rw [hF', app_at], ?_⟩
            rw [← range_app ham.le, h3]
            exact app_some h4
        · exact absurd hkc hc
      case lens =>
        refine ⟨by rw [← hs]; simp [h.lens.1], by rw [← hs]; simp [h.lens.2.1], ?_⟩
        have := h.lens.2.2
        rw [hF', ← hs]
        simp only [List.length_append, List.length_singleton]
        rw [hF] at this
        simpa using this
      case complete =>
        intro j hj
        have hj' : j < s.stackIndex + 1 := by rw [← hs] at hj; exact hj
        rcases Nat.lt_succ_iff_lt_or_eq.1 hj' with hj' | rfl
        · obtain ⟨k, a, e, hst⟩ := h.complete j hj'
          exact ⟨k, a, e, hmono j k a e hj' hst⟩
        · exact ⟨_, _, _, hnew⟩
      case first => rw [← hs]; exact app_some h.first
      case next =>
        intro k a' e h1 h2
        have hkl := (List.getElem?_eq_some_iff.1 h2).1
        rw [hA'] at hkl
        simp only [List.length_append, List.length_singleton] at hkl
        have hsi : s'.stackIndex = s.stackIndex + 1 := by rw [← hs]
        by_cases hk : k + 1 < s.allFromInc.length
        · rw [hA', ← hB, List.getElem?_append_left (by omega)] at h1 h2
          rcases h.next k a' e h1 h2 with ⟨h3, h4⟩ | ⟨j, hj, hst⟩
          · left; rw [← hs]; exact ⟨app_some h3, h4⟩
          · right; exact ⟨j, by omega, hmono j k a' e hj hst⟩
        · rw [hB, List.length_append, List.length_singleton] at hk
          obtain rfl : k = B.length := by omega
          rw [hnew.before, Option.some.injEq] at h1
          rw [hnew.after, Option.some.injEq] at h2
          subst h1 h2
          right
          exact ⟨s.stackIndex, by omega, hnew⟩
      case last =>
        refine ⟨B ++ [a], m, hA', .inl ⟨by rw [← hs], rfl, ?_, by simpa using hi⟩⟩
        rw [hF', ← hs]
        simp [hFl]
    · -- two incoherent layers
      rw [if_pos (by simp [hb]), Except.ok.injEq] at hs
      rcases hlast with ⟨-, hgap, hFl, -⟩ | ⟨hb', -⟩
      swap
      · exact absurd hb' hb
      have hmono : ∀ j k a e, StackBetween n d s j k a e → StackBetween n d s' j k a e := by
        intro j k a e hst
        exact hst.mono ⟨[m], by rw [← hs]⟩ ⟨[], by rw [← hs]; simp⟩ ⟨[none], by rw [← hs]⟩ (by rw [← hs]) ⟨[], by rw [← hs]; simp⟩ ⟨[], by rw [← hs]; simp⟩
      have hA' : s'.allFromInc = B ++ [a] ++ [m] := by rw [← hs]; show s.allFromInc ++ [m] = _; rw [hB]
      constructor
      case letters => exact hlet
      case inc_def => rw [← hs]; exact hdef
      case index => rw [← hs]; simp [h.index]
      case from_len => rw [← hs]; simp [h.from_len]
      case inc_all => rw [← hs]; simp [h.inc_all]
      case inc_none =>
        intro k hk hkc
        rw [← hs]
        rcases Nat.lt_succ_iff_lt_or_eq.1 hk with hk | rfl
        · exact app_some (h.inc_none k hk hkc)
        · exact absurd hkc hc
      case inc_some =>
        intro j k hjk
        have hjk' : (s.allFromInc ++ [m])[j]? = some k := by rw [← hs] at hjk; exact hjk
        rw [← hs]
        by_cases hj : j < s.allFromInc.length
        · rw [List.getElem?_append_left hj] at hjk'
          exact app_some (h.inc_some j k hjk')
        · have hjl := (List.getElem?_eq_some_iff.1 hjk').1
          rw [List.length_append, List.length_singleton] at hjl
          obtain rfl : j = s.allFromInc.length := by omega
          rw [app_at, Option.some.injEq] at hjk'
          rw [← hjk', ← h.index]
          have := app_at s.incFromAll (some s.incIndex)
          rwa [h.inc_all] at this
      case stack_all => rw [← hs]; simp [h.stack_all]
      case stack_none =>
        intro k hk hki
        rw [← hs]
        rcases Nat.lt_succ_iff_lt_or_eq.1 hk with hk | rfl
        · exact app_some (h.stack_none k hk hki)
        · have := app_at s.stackFromAll none
          rwa [h.stack_all] at this
      case stack_some =>
        intro k hk hkc
        rcases Nat.lt_succ_iff_lt_or_eq.1 hk with hk | rfl
        · obtain ⟨j, w, l, h1, h2, h3, h4⟩ := h.stack_some k hk hkc
          exact ⟨j, w, l, by rw [← hs]; exact app_some h1, h2, by rw [← hs]; exact h3, h4⟩
        · exact absurd hkc hc
      case lens => rw [← hs]; exact h.lens
      case complete =>
        intro j hj
        have hj' : j < s.stackIndex := by rw [← hs] at hj; exact hj
        obtain ⟨k, a, e, hst⟩ := h.complete j hj'
        exact ⟨k, a, e, hmono j k a e hst⟩
      case first => rw [← hs]; exact app_some h.first
      case next =>
        intro k a' e h1 h2
        have hkl := (List.getElem?_eq_some_iff.1 h2).1
        rw [hA'] at hkl
        simp only [List.length_append, List.length_singleton] at hkl
        by_cases hk : k + 1 < s.allFromInc.length
        · rw [hA', ← hB, List.getElem?_append_left (by omega)] at h1 h2
          rcases h.next k a' e h1 h2 with ⟨h3, h4⟩ | ⟨j, hj, hst⟩
          · left; rw [← hs]; exact ⟨app_some h3, h4⟩
          · right; exact ⟨j, by rw [← hs]; exact hj, hmono j k a' e hst⟩
        · rw [hB, List.length_append, List.length_singleton] at hk
          obtain rfl : k = B.length := by omega
          left
          rw [hA'] at h1 h2
          rw [app_some (app_at B a), Option.some.injEq] at h1
          have := app_at (B ++ [a]) m
          rw [List.length_append, List.length_singleton] at this
          rw [this, Option.some.injEq] at h2
          refine ⟨?_, by omega⟩
          rw [← hs]
          have := app_at s.stackFromInc none
          rwa [h.from_len, hB, List.length_append, List.length_singleton] at this
      case last =>
        refine ⟨B ++ [a], m, hA', .inl ⟨by rw [← hs]; simpa using hb, rfl, by rw [← hs]; exact hFl, by simpa using hi⟩⟩

lemma incInv_one {n : List ℂ} {d : List (Option ℝ)} {c : List String} {s : IncState} (hc : c.getD 0 "" = "i") (hs : IncState.step n d c IncState.init 0 = .ok s) : IncInv n d c 1 s := by
  unfold IncState.step at hs
  rw [if_neg (by rw [hc]; decide), if_pos hc, if_pos (by simp [IncState.init]), Except.ok.injEq] at hs
  subst hs
  simp only [IncState.init, List.nil_append]
  constructor
  case letters => intro k hk; left; rw [show k = 0 by omega]; exact hc
  case inc_def => simp only [List.range_one, List.filter_cons, hc, decide_true, if_true, List.filter_nil]
  case index => rfl
  case from_len => rfl
  case inc_all => rfl
  case inc_none => intro k hk h; rw [show k = 0 by omega, hc] at h; exact absurd h (by decide)
  case inc_some =>
    intro j k h
    rcases j with _ | j
    · simp at h; subst h; rfl
    · simp at h
  case stack_all => rfl
  case stack_none => intro k hk h; rw [show k = 0 by omega]; rfl
  case stack_some => intro k hk h; rw [show k = 0 by omega, hc] at h; exact absurd h (by decide)
  case lens => exact ⟨rfl, rfl, rfl⟩
  case complete => intro j hj; simp at hj
  case first => rfl
  case next => intro k a e h1 h2; simp at h2
  case last => exact ⟨[], 0, rfl, .inl ⟨rfl, rfl, rfl, hc⟩⟩

lemma incInv_loop {n : List ℂ} {d : List (Option ℝ)} {c : List String} (hc : c.getD 0 "" = "i") (hd : d.length = n.length) (m : ℕ) (h1 : 1 ≤ m) : m ≤ n.length → ∀ s,
    (List.range m).foldlM (IncState.step n d c) IncState.init = .ok s → IncInv n d c m s := by
  induction m, h1 using Nat.le_induction with
  | base =>
    intro _ s hs
    simp only [List.range_one, List.foldlM_cons, List.foldlM_nil] at hs
    obtain ⟨s', h1, h2⟩ := bind_ok.1 hs
    cases h2
    exact incInv_one hc h1
  | succ m h1 ih =>
    intro hm s hs
    simp only [List.range_succ, List.foldlM_append, List.foldlM_cons, List.foldlM_nil] at hs
    obtain ⟨s', h2, h3⟩ := bind_ok.1 hs
    obtain ⟨s'', h4, h5⟩ := bind_ok.1 h3
    cases h5
    exact incInv_step (by omega) (by omega) h1 (ih (by omega) s' h2) h4

lemma step_total {n : List ℂ} {d : List (Option ℝ)} {c : List String} (s : IncState) {i : ℕ} (h : c.getD i "" = "i" ∨ c.getD i "" = "c") : ∃ s', IncState.step n d c s i = .ok s' := by
  unfold IncState.step
  rcases h with h | h
  · rw [if_neg (by rw [h]; decide), if_pos h]
    split <;> exact ⟨_, rfl⟩
  · rw [if_pos h]
    split <;> exact ⟨_, rfl⟩

lemma step_bad {n : List ℂ} {d : List (Option ℝ)} {c : List String} (s : IncState) {i : ℕ} (h : ¬(c.getD i "" = "i" ∨ c.getD i "" = "c")) : IncState.step n d c s i = .error .valueError := by
  unfold IncState.step
  rw [not_or] at h
  rw [if_neg h.2, if_neg h.1]

lemma loop_total {n : List ℂ} {d : List (Option ℝ)} {c : List String} (l : List ℕ) (h : ∀ i ∈ l, c.getD i "" = "i" ∨ c.getD i "" = "c") (s : IncState) : ∃ s', l.foldlM (IncState.step n d c) s = .ok s' := by
  induction l generalizing s with
  | nil => exact ⟨s, rfl⟩
  | cons a l ih =>
    obtain ⟨s1, h1⟩ := step_total (n := n) (d := d) s (h a (by simp))
    obtain ⟨s2, h2⟩ := ih (fun i hi => h i (by simp [hi])) s1
    exact ⟨s2, by rw [List.foldlM_cons, h1]; exact h2⟩

lemma loop_bad {n : List ℂ} {d : List (Option ℝ)} {c : List String} (l : List ℕ) (h : ∃ i ∈ l, ¬(c.getD i "" = "i" ∨ c.getD i "" = "c")) (s : IncState) :
    l.foldlM (IncState.step n d c) s = .error .valueError := by
  induction l generalizing s with
  | nil => obtain ⟨i, hi, -⟩ := h; simp at hi
  | cons a l ih =>
    rw [List.foldlM_cons]
    by_cases ha : c.getD a "" = "i" ∨ c.getD a "" = "c"
    · obtain ⟨s1, h1⟩ := step_total (n := n) (d := d) s ha
      rw [h1]
      refine ih ?_ s1
      obtain ⟨i, hi, hb⟩ := h
      rcases List.mem_cons.1 hi with rfl | hi
      · exact absurd ha hb
      · exact ⟨i, hi, hb⟩
    · rw [step_bad s ha]; rfl

/-- a stack that `inc_group_layers` accepts: one thickness and one letter `i` or `c` per index, the outer layers infinite and incoherent -/
def Groupable (n : List ℂ) (d : List (Option ℝ)) (c : List String) : Prop :=
  d.length = n.length ∧ c.length = n.length ∧ d[0]? = some none ∧ d[d.length - 1]? = some none ∧ c[0]? = some "i" ∧ c[c.length - 1]? = some "i" ∧ ∀ x ∈ c, x = "i" ∨ x = "c"

lemma groupable_of_ok {n : List ℂ} {d : List (Option ℝ)} {c : List String} {g : IncState} (h : incGroupLayers n d c = .ok g) : Groupable n d c ∧ (List.range n.length).foldlM (IncState.step n d c) IncState.init = .ok g := by
  unfold incGroupLayers at h
  simp only [bind_ok] at h
  obtain ⟨d0, hd0, dN, hdN, h⟩ := h
  split at h
  · cases h
  rename_i h1
  simp only [bind_ok] at h
  obtain ⟨c0, hc0, cN, hcN, h⟩ := h
  split at h
  · cases h
  rename_i h2
  split at h
  · cases h
  rename_i h3
  rw [not_or, not_not, not_not] at h1 h2
  rw [not_not] at h3
  obtain ⟨rfl, rfl⟩ := h1
  obtain ⟨rfl, rfl⟩ := h2
  rw [pyNth_zero] at hd0 hc0
  rw [pyNth_last] at hdN hcN
  have h' : (List.range n.length).foldlM (IncState.step n d c) IncState.init = .ok g := h
  refine ⟨⟨h3.1.symm, by omega, hd0, hdN, hc0, hcN, fun x hx => ?_⟩, h'⟩
  by_contra hb
  obtain ⟨i, hi, rfl⟩ := List.getElem_of_mem hx
  rw [loop_bad _ ⟨i, List.mem_range.2 (by omega), by rw [getD_at hi]; exact hb⟩] at h'
  cases h'

lemma ok_of_groupable {n : List ℂ} {d : List (Option ℝ)} {c : List String} (h : Groupable n d c) : ∃ g, incGroupLayers n d c = .ok g := by
  obtain ⟨h1, h2, h3, h4, h5, h6, h7⟩ := h
  obtain ⟨g, hg⟩ := loop_total (n := n) (d := d) (c := c) (List.range n.length) (by
    intro i hi
    rw [List.mem_range] at hi
    rw [getD_at (by omega)]
    exact h7 _ (List.getElem_mem _)) IncState.init
  refine ⟨g, ?_⟩
  unfold incGroupLayers
  rw [pyNth_zero.2 h3, pyNth_last.2 h4, pyNth_zero.2 h5, pyNth_last.2 h6]
  simp only [bind, Except.bind, not_true_eq_false, ne_eq, or_self, if_false, h1, h2, and_self]
  exact hg

/-- C147. `inc_group_layers` accepts exactly the well-formed stacks: as many thicknesses and letters as indices, infinite and incoherent outer layers, no
letter but `i` and `c`. It rejects all others, with ValueError unless a list is empty. -/
theorem C147_accepts (n : List ℂ) (d : List (Option ℝ)) (c : List String) :
    ((∃ g, incGroupLayers n d c = .ok g) ↔ Groupable n d c) ∧ (d ≠ [] → c ≠ [] → ¬ Groupable n d c → incGroupLayers n d c = .error .valueError) := by
  refine ⟨⟨fun ⟨g, hg⟩ => (groupable_of_ok hg).1, ok_of_groupable⟩, fun hd hc hb => ?_⟩
  have ld := List.length_pos_iff.2 hd
  have lc := List.length_pos_iff.2 hc
  obtain ⟨d0, hd0⟩ : ∃ x, d[0]? = some x := ⟨d[0], List.getElem?_eq_getElem _⟩
  obtain ⟨dN, hdN⟩ : ∃ x, d[d.length - 1]? = some x := ⟨_, List.getElem?_eq_getElem (by omega)⟩
  obtain ⟨c0, hc0⟩ : ∃ x, c[0]? = some x := ⟨c[0], List.getElem?_eq_getElem _⟩
  obtain ⟨cN, hcN⟩ : ∃ x, c[c.length - 1]? = some x := ⟨_, List.getElem?_eq_getElem (by omega)⟩
  unfold incGroupLayers
  rw [pyNth_zero.2 hd0, pyNth_last.2 hdN, pyNth_zero.2 hc0, pyNth_last.2 hcN]
  simp only [bind, Except.bind]
  split
  · rfl
  rename_i h1
  split
  · rfl
  rename_i h2
  split
  · rfl
  rename_i h3
  rw [not_or, not_not, not_not] at h1 h2
  rw [not_not] at h3
  obtain ⟨rfl, rfl⟩ := h1
  obtain ⟨rfl, rfl⟩ := h2
  refine loop_bad _ ?_ _
  by_contra hall
  push Not at hall
  refine hb ⟨h3.1.symm, by omega, hd0, hdN, hc0, hcN, fun x hx => ?_⟩
  obtain ⟨i, hi, rfl⟩ := List.getElem_of_mem hx
  have := hall i (List.mem_range.2 (by omega))
  rw [getD_at hi] at this
  tauto

/-- everything that is known of the groups -/
lemma groups_inv {n : List ℂ} {d : List (Option ℝ)} {c : List String} {g : IncState} (h : incGroupLayers n d c = .ok g) :
    Groupable n d c ∧ IncInv n d c n.length g ∧ 1 ≤ n.length ∧ g.allFromStack.length = g.stackIndex ∧ g.allFromInc[g.allFromInc.length - 1]? = some (n.length - 1) ∧ g.allFromInc[0]? = some 0 := by
  obtain ⟨hG, hl⟩ := groupable_of_ok h
  obtain ⟨h1, h2, h3, h4, h5, h6, h7⟩ := id hG
  have hp : 1 ≤ n.length := by
    have := (List.getElem?_eq_some_iff.1 h3).1
    omega
  have inv := incInv_loop (c := c) (by simp [List.getD, h5]) h1 n.length hp le_rfl g hl
  obtain ⟨B, a, hB, hl⟩ := inv.last
  rw [h2] at h6
  have hi : c.getD (n.length - 1) "" = "i" := by simp [List.getD, h6]
  refine ⟨hG, inv, hp, ?_⟩
  rcases hl with ⟨-, e, hF, -⟩ | ⟨-, -, -, -, -, -, -, hcc⟩
  · refine ⟨hF, ?_, ?_⟩
    · rw [hB, List.length_append, List.length_singleton, Nat.add_sub_cancel, app_at]
      congr 1
      omega
    · rw [inv.inc_def]
      obtain ⟨m, hm⟩ := Nat.exists_eq_add_of_le' hp
      rw [hm, List.range_succ_eq_map, List.filter_cons, if_pos (by simp [List.getD, h5])]
      rfl
  · rw [hi] at hcc; exact absurd hcc (by decide)

/-- C147. What the lists of `inc_group_layers` say: the incoherent layers are numbered in order; between two incoherent layers that follow each other there is either nothing, or
one stack, which lists the coherent layers between them and the two layers themselves; every stack is of that kind; every coherent layer is found in the stack and at the
place that are given for it. -/
theorem C147_groups (n : List ℂ) (d : List (Option ℝ)) (c : List String) (g : IncState) (h : incGroupLayers n d c = .ok g) :
    g.allFromInc = ((List.range n.length).filter fun k => c.getD k "" = "i") ∧
    g.incFromAll.length = n.length ∧ (∀ j k : ℕ, g.allFromInc[j]? = some k → g.incFromAll[k]? = some (some j)) ∧ (∀ k : ℕ, c[k]? = some "c" → g.incFromAll[k]? = some none) ∧
    g.stackFromAll.length = n.length ∧ (∀ k : ℕ, c[k]? = some "i" → g.stackFromAll[k]? = some none) ∧
    (∀ k : ℕ, c[k]? = some "c" → ∃ (j w : ℕ) (l : List ℕ), g.stackFromAll[k]? = some (some (j, w)) ∧ 1 ≤ w ∧ g.allFromStack[j]? = some l ∧ l[w]? = some k) ∧
    g.stackFromInc.length = g.allFromInc.length ∧ g.stackFromInc[0]? = some none ∧
    (∀ k a e : ℕ, g.allFromInc[k]? = some a → g.allFromInc[k + 1]? = some e → (g.stackFromInc[k + 1]? = some none ∧ e = a + 1) ∨
      ∃ j : ℕ, g.stackFromInc[k + 1]? = some (some j) ∧ g.incFromStack[j]? = some k ∧ a + 1 < e ∧ g.allFromStack[j]? = some (List.range' a (e + 1 - a)) ∧
        g.stackN[j]? = some ((n.drop a).take (e + 1 - a)) ∧ g.stackD[j]? = some (none :: ((d.drop (a + 1)).take (e - a - 1) ++ [none]))) ∧
    g.stackN.length = g.allFromStack.length ∧ g.stackD.length = g.allFromStack.length ∧ g.incFromStack.length = g.allFromStack.length ∧
    ∀ j < g.allFromStack.length, ∃ k a e : ℕ, g.incFromStack[j]? = some k ∧ g.stackFromInc[k + 1]? = some (some j) ∧ g.allFromInc[k]? = some a ∧ g.allFromInc[k + 1]? = some e ∧
      g.allFromStack[j]? = some (List.range' a (e + 1 - a)) := by
  obtain ⟨⟨h1, h2, -⟩, inv, hp, hF, -, -⟩ := groups_inv h
  have hcg : ∀ (k : ℕ) x, c[k]? = some x → k < n.length ∧ c.getD k "" = x := by
    intro k x hk
    refine ⟨by have := (List.getElem?_eq_some_iff.1 hk).1; omega, by simp [List.getD, hk]⟩
  refine ⟨inv.inc_def, inv.inc_all, inv.inc_some, fun k hk => inv.inc_none k (hcg _ _ hk).1 (hcg _ _ hk).2, inv.stack_all, fun k hk => inv.stack_none k (hcg _ _ hk).1 (hcg _ _ hk).2,
    fun k hk => inv.stack_some k (hcg _ _ hk).1 (hcg _ _ hk).2, inv.from_len, inv.first, ?_, by rw [hF]; exact inv.lens.2.1, by rw [hF]; exact inv.lens.1, inv.lens.2.2, ?_⟩
  · intro k a e ha he
    rcases inv.next k a e ha he with h3 | ⟨j, hj, hst⟩
    · exact .inl h3
    · exact .inr ⟨j, hst.stack_from, hst.inc_from, hst.gap, hst.layers, hst.indices, hst.thicknesses⟩
  · intro j hj
    obtain ⟨k, a, e, hst⟩ := inv.complete j (by omega)
    exact ⟨k, a, e, hst.inc_from, hst.stack_from, hst.before, hst.after, hst.layers⟩

/-- Non-vacuity: a stack of two coherent layers and a thick one behind it. -/
example : ∃ g, incGroupLayers [1, 2, 3, 1.5, 1] [none, some 0.1, some 0.2, some 300, none] ["i", "c", "c", "i", "i"] = .ok g ∧ g.allFromInc = [0, 3, 4] ∧ g.allFromStack = [[0, 1, 2, 3]] ∧
    g.stackFromInc = [none, some 0, none] ∧ g.stackFromAll = [none, some (0, 1), some (0, 2), none, none] ∧ g.stackD = [[none, some 0.1, some 0.2, none]] ∧ g.stackN = [[1, 2, 3, 1.5]] :=
  ⟨_, rfl, rfl, rfl, rfl, rfl, rfl, rfl⟩

/-- Non-vacuity: it is well-formed. -/
example : Groupable [1, 2, 3, 1.5, 1] [none, some 0.1, some 0.2, some 300, none] ["i", "c", "c", "i", "i"] := by
  refine ⟨rfl, rfl, rfl, rfl, rfl, rfl, ?_⟩
  intro x hx
  simp only [List.mem_cons, List.not_mem_nil, or_false] at hx
  tauto

end

end Nidn
