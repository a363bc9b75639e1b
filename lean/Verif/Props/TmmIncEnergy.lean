/-
C149: what `inc_tmm` and `inc_absorp_in_each_layer` say about energy.
-/
import Verif.Props.TmmIncoherent

namespace Nidn

noncomputable section

lemma tail_dropLast {a b : ℝ} {l : List ℝ} (h0 : l[0]? = some a) (h1 : l[l.length - 1]? = some b) (hl : 2 ≤ l.length) : l = a :: (l.tail.dropLast ++ [b]) := by
  cases l with
  | nil => simp at hl
  | cons x l =>
    simp only [List.getElem?_cons_zero, Option.some.injEq] at h0
    subst h0
    simp only [List.length_cons] at hl
    have hne : l ≠ [] := by rintro rfl; simp at hl
    rw [List.length_cons, Nat.add_sub_cancel, List.getElem?_cons, if_neg (by omega), ← List.getLast?_eq_getElem?, List.getLast?_eq_some_getLast hne, Option.some.injEq] at h1
    rw [List.tail_cons, ← h1, List.dropLast_append_getLast hne]

/-- the shares of the layers of a stack, and what they add up to without the first and the last one -/
lemma shares_shape {y : TmmData} {a : List ℝ} (h : absorpInEachLayer y = .ok a) (h3 : 3 ≤ y.d.length) : a.length = y.d.length ∧ a.tail.dropLast.sum = y.powerEntering - y.T ∧ a[0]? = some (1 - y.powerEntering) := by
  have hsum := C142_sum y a h
  unfold absorpInEachLayer at h
  simp only [bind_ok, pure, Except.pure, Except.ok.injEq] at h
  obtain ⟨p, hp, ha⟩ := h
  unfold powerEntering at hp
  rw [if_neg (by omega)] at hp
  obtain ⟨h1, h2⟩ := mapM_ok _ _ _ hp
  simp only [List.length_range, List.getElem_range] at h1 h2
  have hlen : a.length = y.d.length := by rw [← ha]; simpa using h1
  refine ⟨hlen, ?_⟩
  have e0 := h2 0 (by omega) (by omega)
  have e1 := h2 1 (by omega) (by omega)
  have eN := h2 (y.d.length - 1) (by omega) (by omega)
  rw [if_neg (by omega), if_pos rfl, Except.ok.injEq] at e0
  rw [if_neg (by omega), if_neg (by omega), if_pos rfl, Except.ok.injEq] at e1
  rw [if_pos rfl, Except.ok.injEq] at eN
  have a0 : a[0]? = some (1 - y.powerEntering) := by
    rw [← ha, List.getElem?_map, List.getElem?_range (by omega), Option.map_some, if_pos (by omega), getD_at (by omega), getD_at (by omega), ← e0, ← e1]
    congr 1; ring
  have aN : a[a.length - 1]? = some y.T := by
    rw [hlen, ← ha, List.getElem?_map, List.getElem?_range (by omega), Option.map_some, if_neg (by omega), getD_at (by omega), ← eN]
  have hshape := tail_dropLast a0 aN (by omega)
  rw [hshape, List.sum_cons, List.sum_append] at hsum
  simp only [List.sum_cons, List.sum_nil] at hsum
  exact ⟨by linarith, a0⟩

lemma zipWith_add_sum (a b : List ℝ) (h : a.length = b.length) : (List.zipWith (· + ·) a b).sum = a.sum + b.sum := by
  induction a generalizing b with
  | nil => cases b with
    | nil => simp
    | cons y b => simp at h
  | cons x a ih =>
    cases b with
    | nil => simp at h
    | cons y b =>
      simp only [List.zipWith_cons_cons, List.sum_cons]
      rw [ih b (by simpa using h)]
      ring

lemma map_mul_tail (q : ℝ) (a : List ℝ) : (a.map (q * ·)).tail.dropLast = a.tail.dropLast.map (q * ·) := by
  rw [List.map_dropLast, List.map_tail]

lemma cohTmm_keeps {asin : ℂ → ℂ} {pol : String} {n : List ℂ} {d : List (Option ℝ)} {th0 lam : ℂ} {y : TmmData} (h : cohTmm asin pol n d th0 lam = .ok y) : y.d = d := by
  unfold cohTmm at h
  by_cases hlen : n.length ≠ d.length
  · rw [if_pos hlen] at h; cases h
  rw [if_neg hlen] at h
  simp only [bind_ok, assertTrue_ok, pure, Except.pure, Except.ok.injEq, exists_const] at h
  obtain ⟨d0, hd0, dN, hdN, ⟨rfl, rfl⟩, n0, hn0, him, fwd, hfwd, rfl, th, hth, kz, hkz, ⟨tr, M⟩, htrM, ⟨t0, r0⟩, htr0, u, hu, r, hr, t, ht, nN, hnN, thN, hthN, T, hT, pe, hpe, hc⟩ := h
  rw [← hc]

lemma cohTmmReverse_keeps {asin : ℂ → ℂ} {pol : String} {n : List ℂ} {d : List (Option ℝ)} {th0 lam : ℂ} {y : TmmData} (h : cohTmmReverse asin pol n d th0 lam = .ok y) : y.d = d.reverse := by
  unfold cohTmmReverse at h
  simp only [bind_ok] at h
  obtain ⟨n0, hn0, nN, hnN, thf, hthf, hb⟩ := h
  exact cohTmm_keeps hb

/-- what an incoherent layer and the stack behind it lose is the difference of the flows into two incoherent layers; the shares are as many as the layers -/
lemma incPart_ok {asin : ℂ → ℂ} {pol : String} {n : List ℂ} {d : List (Option ℝ)} {c : List String} {th0 : ℂ} {lam : ℝ} {x : IncData} {th : List ℂ} (hr : IncRun asin pol n d c th0 lam x th) {k a e : ℕ} {l : List ℝ}
    (ha : x.groups.allFromInc[k]? = some a) (he : x.groups.allFromInc[k + 1]? = some e) (h : incAbsorpPart x k = .ok l) :
    l.length = e - a ∧ l.sum = x.entering.getD k 0 - x.entering.getD (k + 1) 0 := by
  obtain ⟨hG, inv, -⟩ := groups_inv hr.groups
  obtain ⟨pe, he1, he2, he3⟩ := hr.entering
  have hk := (List.getElem?_eq_some_iff.1 he).1
  unfold incAbsorpPart at h
  rcases inv.next k a e ha he with ⟨h3, rfl⟩ | ⟨j, hj, hst⟩
  · rw [show x.groups.stackFromInc.getD (k + 1) none = none by simp [List.getD, h3]] at h
    simp only [pure, Except.pure, Except.ok.injEq] at h
    rw [← h]
    simp
  · rw [show x.groups.stackFromInc.getD (k + 1) none = some j by simp [List.getD, hst.stack_from]] at h
    simp only [bind_ok, pure, Except.pure, Except.ok.injEq, pyNth_nat] at h
    obtain ⟨y, hy, z, hz, fb, hfb, ac, hac, ab, hab, h⟩ := h
    obtain ⟨y', hy', h6⟩ := hr.coh_at j k a e hst
    obtain ⟨z', hz', h7⟩ := hr.bcoh_at j k a e hst
    rw [hy, Option.some.injEq] at hy'
    rw [hz, Option.some.injEq] at hz'
    subst hy' hz'
    have gap := hst.gap
    have hen : e < n.length := by
      have := List.mem_of_getElem? he
      rw [inv.inc_def] at this
      exact List.mem_range.1 (List.mem_filter.1 this).1
    have hdl : d.length = n.length := hG.1
    have l1 : (none :: ((d.drop (a + 1)).take (e - a - 1) ++ [none])).length = e - a + 1 := by simp; omega
    have ly : y.d.length = e - a + 1 := by rw [cohTmm_keeps h6, l1]
    have lz : z.d.length = e - a + 1 := by rw [cohTmmReverse_keeps h7, List.length_reverse, l1]
    obtain ⟨c1, c2, -⟩ := shares_shape hac (by omega)
    obtain ⟨b1, b2, -⟩ := shares_shape hab (by omega)
    have e5 := he3 k (by omega)
    unfold incEntering at e5
    rw [show x.groups.stackFromInc.getD (k + 1) none = some j by simp [List.getD, hst.stack_from]] at e5
    simp only [bind_ok, pure, Except.pure, Except.ok.injEq, pyNth_nat] at e5
    obtain ⟨fb', hfb', y', hy', z', hz', e5⟩ := e5
    rw [hy, Option.some.injEq] at hy'
    rw [hz, Option.some.injEq] at hz'
    rw [hfb, Option.some.injEq] at hfb'
    subst hy' hz' hfb'
    have e6 : x.entering.getD (k + 1) 0 = fb.1 * y.T - fb.2 * z.powerEntering := by rw [he1, List.getD_cons_succ, ← e5]
    rw [← h]
    constructor
    · simp only [List.length_cons, List.length_zipWith, List.length_dropLast, List.length_tail, List.length_map, List.length_reverse]
      omega
    · rw [List.sum_cons, map_mul_tail, map_mul_tail, zipWith_add_sum _ _ (by simp; omega), List.sum_reverse, List.sum_map_mul_left, List.sum_map_mul_left, List.map_id', List.map_id', c2, b2, e6]
      ring

lemma parts_prefix {asin : ℂ → ℂ} {pol : String} {n : List ℂ} {d : List (Option ℝ)} {c : List String} {th0 : ℂ} {lam : ℝ} {x : IncData} {th : List ℂ} (hr : IncRun asin pol n d c th0 lam x th) {parts : List (List ℝ)}
    (hp : (List.range (x.entering.length - 1)).mapM (incAbsorpPart x) = .ok parts) : parts.length + 1 = x.groups.allFromInc.length ∧
    ∀ k a, x.groups.allFromInc[k]? = some a → (parts.take k).flatten.length = a ∧ (parts.take k).flatten.sum = 1 - x.entering.getD k 0 := by
  obtain ⟨pe, he1, he2, -⟩ := hr.entering
  obtain ⟨l1, l2⟩ := mapM_ok _ _ _ hp
  simp only [List.length_range, List.getElem_range, he1, List.length_cons, Nat.add_sub_cancel] at l1 l2
  have two := hr.two
  refine ⟨by omega, fun k => ?_⟩
  induction k with
  | zero =>
    intro a ha
    rw [(groups_inv hr.groups).2.2.2.2.2, Option.some.injEq] at ha
    simp [he1, ← ha]
  | succ k ih =>
    intro e he
    have hk := (List.getElem?_eq_some_iff.1 he).1
    obtain ⟨a, ha⟩ : ∃ a, x.groups.allFromInc[k]? = some a := ⟨_, List.getElem?_eq_getElem (by omega)⟩
    obtain ⟨i1, i2⟩ := ih a ha
    obtain ⟨q1, q2⟩ := incPart_ok hr ha he (l2 k (by omega) (by omega))
    rw [List.take_add_one, List.getElem?_eq_getElem (by omega), Option.toList_some, List.flatten_append, List.length_append, List.sum_append, i1, i2]
    simp only [List.flatten_cons, List.flatten_nil, List.append_nil]
    rw [q1, q2]
    have hs : x.groups.allFromInc.Pairwise (· < ·) := by rw [(groups_inv hr.groups).2.1.inc_def]; exact List.Pairwise.filter _ List.pairwise_lt_range
    rw [List.pairwise_iff_getElem] at hs
    obtain ⟨ka, ea⟩ := List.getElem?_eq_some_iff.1 ha
    obtain ⟨ke, ee⟩ := List.getElem?_eq_some_iff.1 he
    have := hs k (k + 1) ka ke (by omega)
    constructor
    · omega
    · ring

/-- the flow into the last layer is what is transmitted -/
lemma entering_last {asin : ℂ → ℂ} {pol : String} {n : List ℂ} {d : List (Option ℝ)} {c : List String} {th0 : ℂ} {lam : ℝ} {x : IncData} {th : List ℂ} (hr : IncRun asin pol n d c th0 lam x th) :
    x.entering.getD (x.groups.allFromInc.length - 1) 0 = x.T := by
  obtain ⟨hG, inv, -⟩ := groups_inv hr.groups
  obtain ⟨pe, he1, he2, he3⟩ := hr.entering
  have two := hr.two
  have hb := hr.balanced
  have hvl := hr.vw_len
  have hfl := hr.fs_len
  obtain ⟨k, hk⟩ : ∃ k, x.groups.allFromInc.length = k + 2 := ⟨_, (Nat.sub_add_cancel two).symm⟩
  rw [hk] at hb he2 he3 ⊢
  obtain ⟨a, ha⟩ : ∃ a, x.groups.allFromInc[k]? = some a := ⟨_, List.getElem?_eq_getElem (by omega)⟩
  obtain ⟨e, he⟩ : ∃ a, x.groups.allFromInc[k + 1]? = some a := ⟨_, List.getElem?_eq_getElem (by omega)⟩
  have e5 := he3 k (by omega)
  have hTl := hb.last_forward
  have hWl := hb.last_backward
  simp only [show k + 2 - 1 = k + 1 by omega] at hTl hWl ⊢
  rw [he1, List.getD_cons_succ]
  -- the forward intensity in front of the last interface
  have key : x.T = (if k = 0 then 1 else x.vw.getD k 0 0 * x.passes.getD k 0) * (x.interfaces.getD k ⟨0, 0, 0, 0⟩).T := by
    rcases Nat.eq_zero_or_pos k with rfl | h1
    · have := hb.first_forward
      rw [hWl, hTl] at this
      rw [if_pos rfl, this]; ring
    · have := hb.forward k h1 (by omega)
      rw [hWl, hTl] at this
      rw [if_neg (by omega), this]; ring
  unfold incEntering at e5
  rcases inv.next k a e ha he with ⟨h3, -⟩ | ⟨j, hj, hst⟩
  · rw [show x.groups.stackFromInc.getD (k + 1) none = none by simp [List.getD, h3]] at e5
    simp only [Nat.add_sub_cancel, bind_ok, pyNth_nat] at e5
    obtain ⟨f, hf, e5⟩ := e5
    rw [show x.interfaces.getD k ⟨0, 0, 0, 0⟩ = f by simp [List.getD, hf]] at key
    rw [key]
    split at e5
    · rename_i h1
      obtain rfl : k = 0 := by omega
      simp only [pure, Except.pure, Except.ok.injEq] at e5
      rw [← e5, if_pos rfl, show x.vw.getD 1 0 1 = 0 from hWl]; ring
    · rename_i h1
      simp only [pure, Except.pure, Except.ok.injEq] at e5
      rw [← e5, if_neg (by omega), hWl]; ring
  · rw [show x.groups.stackFromInc.getD (k + 1) none = some j by simp [List.getD, hst.stack_from]] at e5
    simp only [bind_ok, pure, Except.pure, Except.ok.injEq, pyNth_nat] at e5
    obtain ⟨fb, hfb, y, hy, z, hz, e5⟩ := e5
    rw [hr.link_stack j k a e hst y z hy hz] at key
    rw [hr.fb, incStackFB, List.getElem?_map, hst.inc_from, Option.map_some, Option.some.injEq] at hfb
    rw [← e5, ← hfb, key, hWl]; ring

/-- C149. `inc_absorp_in_each_layer` gives one share per layer, and they add up to 1. -/
theorem C149_sum (asin : ℂ → ℂ) (pol : String) (n : List ℂ) (d : List (Option ℝ)) (c : List String) (th0 : ℂ) (lam : ℝ) (x : IncData) (h : incTmm asin pol n d c th0 lam = .ok x) (a : List ℝ)
    (ha : incAbsorpInEachLayer x = .ok a) : a.length = n.length ∧ a.sum = 1 ∧ a[n.length - 1]? = some x.T := by
  obtain ⟨th, hr⟩ := incTmm_run h
  unfold incAbsorpInEachLayer at ha
  simp only [bind_ok, pure, Except.pure, Except.ok.injEq] at ha
  obtain ⟨parts, hp, ha⟩ := ha
  obtain ⟨l1, l2⟩ := parts_prefix hr hp
  obtain ⟨-, -, h1, -, hlast, -⟩ := groups_inv hr.groups
  obtain ⟨i1, i2⟩ := l2 _ _ hlast
  rw [List.take_of_length_le (by omega)] at i1 i2
  rw [entering_last hr] at i2
  rw [← ha]
  refine ⟨by rw [List.length_append, i1]; simp; omega, ?_, ?_⟩
  · rw [List.sum_append, i2]; simp
  · rw [List.getElem?_append_right (by omega), i1]; simp

/-- an interface or stack that does not create light and lets some through -/
structure PassiveLink (f : IncInterface) : Prop where
  R : 0 ≤ f.R
  T : 0 < f.T
  Rb : 0 ≤ f.Rb
  Tb : 0 < f.Tb
  front : f.R + f.T ≤ 1
  back : f.Rb + f.Tb ≤ 1

/-- one layer backwards: from the intensities behind a link to those in front of it -/
lemma passive_step {f : IncInterface} (hf : PassiveLink f) {F G V W : ℝ} (h1 : V = F * f.T + W * f.Rb) (h2 : G = F * f.R + W * f.Tb) (hV : 0 < V) (hW : 0 ≤ W) (hle : W ≤ V) :
    0 < F ∧ 0 ≤ G ∧ V - W ≤ F - G ∧ (f.R + f.T = 1 → f.Rb + f.Tb = 1 → V - W = F - G) := by
  obtain ⟨q1, q2, q3, q4, q5, q6⟩ := hf
  have hF : 0 < F * f.T := by
    have : F * f.T = V - W * f.Rb := by linarith
    rw [this]
    rcases hW.eq_or_lt with h | h
    · rw [← h]; linarith
    · have : W * f.Rb < W * 1 := mul_lt_mul_of_pos_left (by linarith) h
      linarith
  have hF' : 0 < F := by
    by_contra hn
    have := mul_nonpos_of_nonpos_of_nonneg (not_lt.1 hn) q2.le
    linarith
  refine ⟨hF', by rw [h2]; positivity, ?_, ?_⟩
  · rw [h1, h2]
    nlinarith [mul_le_mul_of_nonneg_left q5 hF'.le, mul_le_mul_of_nonneg_left q6 hW]
  · intro e1 e2
    rw [h1, h2]
    linear_combination F * e1 + W * e2

lemma passive_pass {P F G V W : ℝ} (hP : 0 < P) (hP1 : P ≤ 1) (hF : F = V * P) (hG : W = P * G) (h1 : 0 < F) (h2 : 0 ≤ G) (h3 : G ≤ F) : 0 < V ∧ 0 ≤ W ∧ W ≤ V ∧ F - G ≤ V - W ∧ (P = 1 → F - G = V - W) := by
  have hV : 0 < V := by
    by_contra hn
    have := mul_nonpos_of_nonpos_of_nonneg (not_lt.1 hn) hP.le
    linarith
  have e1 : F ≤ V := by rw [hF]; nlinarith
  have e2 : W ≤ G := by rw [hG]; nlinarith
  refine ⟨hV, by rw [hG]; positivity, by linarith, by linarith, fun e => ?_⟩
  rw [hF, hG, e]; ring

/-- the intensities in the layers, from the back to the front -/
lemma passive_back {N : ℕ} {P : ℕ → ℝ} {f : ℕ → IncInterface} {V W : ℕ → ℝ} (hP : ∀ k, 1 ≤ k → k + 1 < N → 0 < P k ∧ P k ≤ 1) (hf : ∀ k, k + 1 < N → PassiveLink (f k))
    (h1 : ∀ k, 1 ≤ k → k + 1 < N → V (k + 1) = V k * P k * (f k).T + W (k + 1) * (f k).Rb) (h2 : ∀ k, 1 ≤ k → k + 1 < N → W k = P k * (V k * P k * (f k).R + W (k + 1) * (f k).Tb))
    (h3 : 0 < V (N - 1)) (h4 : W (N - 1) = 0) (i : ℕ) : i + 1 < N → 0 < V (N - 1 - i) ∧ 0 ≤ W (N - 1 - i) ∧ W (N - 1 - i) ≤ V (N - 1 - i) ∧ V (N - 1) ≤ V (N - 1 - i) - W (N - 1 - i) ∧
      ((∀ k, 1 ≤ k → k + 1 < N → P k = 1 ∧ (f k).R + (f k).T = 1 ∧ (f k).Rb + (f k).Tb = 1) → V (N - 1) = V (N - 1 - i) - W (N - 1 - i)) := by
  induction i with
  | zero => intro _; rw [Nat.sub_zero, h4]; exact ⟨h3, le_rfl, h3.le, by simp, by simp⟩
  | succ i ih =>
    intro hi
    obtain ⟨j, hj⟩ : ∃ j, N - 1 - (i + 1) = j := ⟨_, rfl⟩
    have hj2 : N - 1 - i = j + 1 := by omega
    have ih := ih (by omega)
    rw [hj2] at ih
    rw [hj]
    obtain ⟨i1, i2, i3, i4, i5⟩ := ih
    have hj1 : 1 ≤ j := by omega
    have hjN : j + 1 < N := by omega
    obtain ⟨s1, s2, s3, s4⟩ := passive_step (hf j hjN) (h1 j hj1 hjN) rfl i1 i2 i3
    obtain ⟨t1, t2, t3, t4, t5⟩ := passive_pass (hP j hj1 hjN).1 (hP j hj1 hjN).2 rfl (h2 j hj1 hjN) s1 s2 (by linarith)
    refine ⟨t1, t2, t3, by linarith, fun hall => ?_⟩
    obtain ⟨e1, e2, e3⟩ := hall j hj1 hjN
    rw [i5 hall, s4 e2 e3, t5 e1]

/-- A balance between passive links: all intensities are at least zero, light is neither reflected nor transmitted in excess. -/
lemma balanced_passive {N : ℕ} {P : ℕ → ℝ} {f : ℕ → IncInterface} {V W : ℕ → ℝ} {R T : ℝ} (hN : 2 ≤ N) (hb : Balanced N P f V W R T) (hP : ∀ k, 1 ≤ k → k + 1 < N → 0 < P k ∧ P k ≤ 1)
    (hf : ∀ k, k + 1 < N → PassiveLink (f k)) : (∀ k, 1 ≤ k → k < N → 0 < V k ∧ 0 ≤ W k ∧ W k ≤ V k) ∧ 0 ≤ R ∧ 0 < T ∧ R + T ≤ 1 ∧
      ((∀ k, 1 ≤ k → k + 1 < N → P k = 1) → (∀ k, k + 1 < N → (f k).R + (f k).T = 1 ∧ (f k).Rb + (f k).Tb = 1) → R + T = 1) := by
  have hT : 0 < T := by
    rcases lt_trichotomy T 0 with h | h | h
    · exfalso
      have := passive_back (V := fun k => -V k) (W := fun k => -W k) hP hf (fun k h1 h2 => by simp only [hb.forward k h1 h2]; ring) (fun k h1 h2 => by simp only [hb.backward k h1 h2]; ring)
        (by simp only [hb.last_forward]; linarith) (by simp only [hb.last_backward, neg_zero]) (N - 2) (by omega)
      rw [show N - 1 - (N - 2) = 1 by omega] at this
      obtain ⟨i1, i2, i3, -⟩ := this
      have := (passive_step (hf 0 (by omega)) (F := -1) (V := -V 1) (W := -W 1) (by rw [hb.first_forward]; ring) rfl i1 i2 i3).1
      linarith
    · exfalso
      have hz : ∀ i, i + 1 < N → V (N - 1 - i) = 0 ∧ W (N - 1 - i) = 0 := by
        intro i
        induction i with
        | zero => intro _; rw [Nat.sub_zero]; exact ⟨by rw [hb.last_forward, h], hb.last_backward⟩
        | succ i ih =>
          intro hi
          obtain ⟨j, hj⟩ : ∃ j, N - 1 - (i + 1) = j := ⟨_, rfl⟩
          have hj2 : N - 1 - i = j + 1 := by omega
          have ih := ih (by omega)
          rw [hj2] at ih
          rw [hj]
          have e1 := hb.forward j (by omega) (by omega)
          have e2 := hb.backward j (by omega) (by omega)
          rw [ih.1, ih.2, zero_mul, add_zero] at e1
          have hTj := (hf j (by omega)).T
          have hPj := (hP j (by omega) (by omega)).1
          have hV : V j = 0 := by
            rcases mul_eq_zero.1 e1.symm with h | h
            · rcases mul_eq_zero.1 h with h | h
              · exact h
              · linarith
            · linarith
          exact ⟨hV, by rw [e2, hV, ih.2]; ring⟩
      have := hz (N - 2) (by omega)
      rw [show N - 1 - (N - 2) = 1 by omega] at this
      have e := hb.first_forward
      rw [this.1, this.2] at e
      have := (hf 0 (by omega)).T
      linarith
    · exact h
  have hall := passive_back hP hf hb.forward hb.backward (by rw [hb.last_forward]; exact hT) hb.last_backward
  have h1 := hall (N - 2) (by omega)
  rw [show N - 1 - (N - 2) = 1 by omega, hb.last_forward] at h1
  obtain ⟨i1, i2, i3, i4, i5⟩ := h1
  obtain ⟨s1, s2, s3, s4⟩ := passive_step (hf 0 (by omega)) hb.first_forward hb.first_backward i1 i2 i3
  refine ⟨fun k h1 h2 => ?_, s2, hT, by linarith, fun p1 p2 => ?_⟩
  · have := hall (N - 1 - k) (by omega)
    rw [show N - 1 - (N - 1 - k) = k by omega] at this
    exact ⟨this.1, this.2.1, this.2.2.1⟩
  · have e1 := i5 fun k h1 h2 => ⟨p1 k h1 h2, p2 k h2⟩
    have e2 := s4 (p2 0 (by omega)).1 (p2 0 (by omega)).2
    linarith

/-- an interface between two media of real index at real angles -/
lemma real_interface {pol : String} {a b α β R T : ℝ} (h1 : interfaceRPower pol a b α β = .ok R) (h2 : interfaceTPower pol a b α β = .ok T) (ha : 0 < a * Real.cos α) (hb : 0 < b * Real.cos β)
    (hab : 0 < a * b) : 0 ≤ R ∧ 0 < T ∧ R + T = 1 := by
  unfold interfaceRPower at h1
  unfold interfaceTPower at h2
  simp only [bind_ok, pure, Except.pure, Except.ok.injEq] at h1 h2
  obtain ⟨r, hr, h1⟩ := h1
  obtain ⟨t, ht, h2⟩ := h2
  obtain ⟨hp, h2⟩ := tFromT_ok h2
  have hPa : ∀ m x : ℝ, tmmP pol m x = m * Real.cos x := by
    intro m x
    unfold tmmP
    rw [← Complex.ofReal_cos, Complex.conj_ofReal, ← Complex.ofReal_mul, Complex.ofReal_re, ite_self]
  rw [hPa, hPa] at h2
  have hrn : ∀ z : ℝ, ‖(z : ℂ)‖ ^ 2 = z ^ 2 := fun z => by rw [Complex.norm_real, Real.norm_eq_abs, sq_abs]
  have hcc : 0 < Real.cos α * Real.cos β := by
    by_contra hn
    have := mul_pos ha hb
    have h5 : a * Real.cos α * (b * Real.cos β) = a * b * (Real.cos α * Real.cos β) := by ring
    have := mul_nonpos_of_nonneg_of_nonpos hab.le (not_lt.1 hn)
    linarith
  unfold interfaceR at hr
  unfold interfaceT at ht
  by_cases hs : pol = "s"
  · rw [if_pos hs, nanDiv_ok] at hr ht
    have er : r = (((a * Real.cos α - b * Real.cos β) / (a * Real.cos α + b * Real.cos β) : ℝ) : ℂ) := by rw [hr.2]; push_cast; rfl
    have et : t = ((2 * (a * Real.cos α) / (a * Real.cos α + b * Real.cos β) : ℝ) : ℂ) := by rw [ht.2]; push_cast; ring
    rw [er, rFromR, hrn] at h1
    rw [et, hrn] at h2
    generalize a * Real.cos α = u at *
    generalize b * Real.cos β = v at *
    have huv : 0 < u + v := by linarith
    refine ⟨by rw [← h1]; positivity, by rw [h2]; positivity, ?_⟩
    rw [← h1, h2]
    field_simp
    ring
  · rw [if_neg hs] at hr ht
    by_cases hp : pol = "p"
    · rw [if_pos hp, nanDiv_ok] at hr ht
      have er : r = (((b * Real.cos α - a * Real.cos β) / (b * Real.cos α + a * Real.cos β) : ℝ) : ℂ) := by rw [hr.2]; push_cast; rfl
      have et : t = ((2 * (a * Real.cos α) / (b * Real.cos α + a * Real.cos β) : ℝ) : ℂ) := by rw [ht.2]; push_cast; ring
      have hne : b * Real.cos α + a * Real.cos β ≠ 0 := by
        have := hr.1
        exact_mod_cast this
      rw [er, rFromR, hrn] at h1
      rw [et, hrn] at h2
      refine ⟨by rw [← h1]; positivity, by rw [h2]; positivity, ?_⟩
      rw [← h1, h2]
      have hca : Real.cos α ≠ 0 := by rintro e; rw [e, mul_zero] at ha; exact lt_irrefl _ ha
      have ha0 : a ≠ 0 := by rintro rfl; rw [zero_mul] at ha; exact lt_irrefl _ ha
      generalize Real.cos α = u at *
      generalize Real.cos β = v at *
      field_simp
      ring
    · rw [if_neg hp] at hr
      cases hr

/-- light that carries power in a medium of real index, at an angle the code takes for a forward one, travels at a real angle towards the back -/
lemma real_forward {pol : String} {m s : ℝ} {th : ℂ} (hm : 0 < m) (hs : (m : ℂ) * Complex.sin th = s) (hf : 0 ≤ (Complex.cos th).re ∨ TowardsBack (m * Complex.cos th)) (hp : tmmP pol m th ≠ 0) :
    th = (th.re : ℂ) ∧ 0 < m * Real.cos th.re := by
  obtain ⟨e1, e2, e3⟩ := real_last hm.ne' hs hp
  refine ⟨e1, ?_⟩
  rw [e3] at hp
  refine lt_of_le_of_ne ?_ hp.symm
  rcases hf with h | h
  · rw [e1, ← Complex.ofReal_cos, Complex.ofReal_re] at h
    positivity
  · rw [e2] at h
    rcases h with ⟨h, -⟩ | ⟨-, h⟩
    · rw [Complex.ofReal_im, abs_zero] at h
      have := tmmEps_pos
      linarith
    · rw [Complex.ofReal_re] at h; exact h

lemma interfaceT_power_ne {pol : String} {ni nf thi thf : ℂ} {T : ℝ} (h : interfaceTPower pol ni nf thi thf = .ok T) : tmmP pol ni thi ≠ 0 := by
  unfold interfaceTPower at h
  simp only [bind_ok] at h
  obtain ⟨t, -, h⟩ := h
  exact (tFromT_ok h).1

/-- what is needed of a coherent stack: shares that are not negative, and the incoming light is reflected or enters -/
def StackReal (y : TmmData) : Prop := ∃ ac, absorpInEachLayer y = .ok ac ∧ (∀ s ∈ ac, 0 ≤ s) ∧ y.powerEntering = 1 - y.R

lemma stack_real {asin : ℂ → ℂ} (hasin : ∀ z, Complex.sin (asin z) = z) {pol : String} {n : List ℂ} {d : List (Option ℝ)} {n0 θ lam : ℝ} (hl : 0 < lam) {y : TmmData}
    (h : cohTmm asin pol n d θ lam = .ok y) (h0 : n[0]? = some (n0 : ℂ)) (hn : ∀ z ∈ n, 0 ≤ z.re * z.im)
    (hx : ∀ (i : ℕ) x, d[i]? = some (some x) → 0 ≤ x ∧ (y.kz.getD i 0 * x).im ≤ 35) (h3 : 3 ≤ d.length) : StackReal y := by
  obtain ⟨ac, hac, -, hpos, hR, -⟩ := C142_shares asin hasin pol n d n0 θ lam hl y h h0 hn hx
  obtain ⟨-, -, h1⟩ := shares_shape hac (by rw [cohTmm_keeps h]; exact h3)
  rw [hR, Option.some.injEq] at h1
  exact ⟨ac, hac, hpos, by linarith⟩

/-- between two incoherent layers of real index: nothing is created, and without losses nothing is lost -/
lemma link_real {asin : ℂ → ℂ} (hasin : ∀ z, Complex.sin (asin z) = z) {pol : String} {n : List ℂ} {d : List (Option ℝ)} {th : List ℂ} {lam : ℝ} (hl : 0 < lam) {a e : ℕ} {f : IncInterface}
    (h : LinkOf asin pol n d th lam a e f) (he : e < n.length) {ma me s : ℝ} (hma : 0 < ma) (hme : 0 < me) (ga : n.getD a 0 = ma) (ge : n.getD e 0 = me)
    (sa : (ma : ℂ) * Complex.sin (th.getD a 0) = s) (se : (me : ℂ) * Complex.sin (th.getD e 0) = s)
    (fa : 0 ≤ (Complex.cos (th.getD a 0)).re ∨ TowardsBack (ma * Complex.cos (th.getD a 0))) (fe : 0 ≤ (Complex.cos (th.getD e 0)).re ∨ TowardsBack (me * Complex.cos (th.getD e 0)))
    (hn : ∀ z ∈ n, 0 ≤ z.re * z.im) (hT : f.T ≠ 0)
    (hx : ∀ y, cohTmm asin pol ((n.drop a).take (e + 1 - a)) (none :: ((d.drop (a + 1)).take (e - a - 1) ++ [none])) (th.getD a 0) lam = .ok y →
      ∀ (i : ℕ) z, y.d[i]? = some (some z) → 0 ≤ z ∧ (y.kz.getD i 0 * z).im ≤ 35) :
    PassiveLink f ∧ ((∀ z ∈ n, z.re * z.im = 0) → f.R + f.T = 1 ∧ f.Rb + f.Tb = 1) ∧ (th.getD a 0 = ((th.getD a 0).re : ℂ) ∧ 0 < ma * Real.cos (th.getD a 0).re) ∧
    (e = a + 1 → f.R + f.T = 1 ∧ f.Rb + f.Tb = 1) ∧ (a + 1 < e → ∀ y z, cohTmm asin pol ((n.drop a).take (e + 1 - a)) (none :: ((d.drop (a + 1)).take (e - a - 1) ++ [none])) (th.getD a 0) lam = .ok y →
      cohTmmReverse asin pol ((n.drop a).take (e + 1 - a)) (none :: ((d.drop (a + 1)).take (e - a - 1) ++ [none])) (th.getD a 0) lam = .ok z → StackReal y ∧ StackReal z) := by
  rcases h with ⟨hea, h1, h2, h3, h4⟩ | ⟨gap, y, z, hy, hz, h1, h2, h3, h4⟩
  · rw [ga, ge] at h1 h2 h3 h4
    obtain ⟨r1, r2⟩ := real_forward hma sa fa (interfaceT_power_ne h2)
    obtain ⟨q1, q2⟩ := real_forward hme se fe (interfaceT_power_ne h4)
    rw [r1, q1] at h1 h2 h3 h4
    obtain ⟨c1, c2, c3⟩ := real_interface h1 h2 r2 q2 (by positivity)
    obtain ⟨b1, b2, b3⟩ := real_interface h3 h4 q2 r2 (by positivity)
    exact ⟨⟨c1, c2, b1, b2, c3.le, b3.le⟩, fun _ => ⟨c3, b3⟩, ⟨r1, r2⟩, fun _ => ⟨c3, b3⟩, fun hgt => by omega⟩
  · set n' := (n.drop a).take (e + 1 - a) with hn'
    set d' := none :: ((d.drop (a + 1)).take (e - a - 1) ++ [none]) with hd'
    have hx := hx y hy
    rw [cohTmm_keeps hy] at hx
    have hlen : n'.length = e + 1 - a := by rw [hn']; simp; omega
    have g0 : n'[0]? = some (ma : ℂ) := by
      rw [hn', List.getElem?_take, if_pos (by omega), List.getElem?_drop, add_zero, List.getElem?_eq_getElem (by omega), ← getD_at (x := 0) (by omega), ga]
    have gN : n'[n'.length - 1]? = some (me : ℂ) := by
      rw [hlen, hn', List.getElem?_take, if_pos (by omega), List.getElem?_drop, show a + (e + 1 - a - 1) = e by omega, List.getElem?_eq_getElem (by omega), ← getD_at (x := 0) (by omega), ge]
    have hsub : ∀ z ∈ n', z ∈ n := fun z hz => List.mem_of_mem_drop (List.mem_of_mem_take hz)
    have hp := (cohTmm_run hasin hy).pow_ne
    rw [show n'.getD 0 0 = (ma : ℂ) by simp [List.getD, g0]] at hp
    obtain ⟨r1, r2⟩ := real_forward hma sa fa hp
    rw [r1] at hy hz
    obtain ⟨c1, c2, c3, c4⟩ := C142_RT asin hasin pol n' d' ma _ lam hl y hy g0 (fun z hz => hn z (hsub z hz)) hx
    have hTT := C146_transmittance asin hasin pol n' d' _ lam y z hy hz ma me g0 gN
    -- from the other side
    have hr := reverse_run hasin hy hz
    have two := hr.fwd.two
    have hcall := reverse_call hy two hz
    have gN' : n'.getD (n'.length - 1) 0 = me := by simp [List.getD, gN]
    have r0 : n'.reverse.getD 0 0 = me := by rw [getD_rev _ (by omega), Nat.sub_zero, gN']
    have hpN := hr.bwd.pow_ne
    rw [r0] at hpN
    have hne := (hr.fwd.snell_at (n'.length - 1) (by omega)).2
    rw [gN', show n'.getD 0 0 = (ma : ℂ) by simp [List.getD, g0]] at hne
    obtain ⟨e1, -, -⟩ := real_last (s := s) hme.ne' (by rw [hne, ← r1, sa]) hpN
    rw [e1] at hcall
    have hl2 := hr.fwd.len_d
    have hxr : ∀ (i : ℕ) x, d'.reverse[i]? = some (some x) → 0 ≤ x ∧ (z.kz.getD i 0 * x).im ≤ 35 := by
      intro i x hi
      have hi' : i < d'.length := by
        rw [List.getElem?_eq_some_iff] at hi
        simpa using hi.1
      rw [List.getElem?_reverse hi'] at hi
      have k := hr.kz_at (d'.length - 1 - i) (by omega)
      rw [show n'.length - 1 - (d'.length - 1 - i) = i by omega] at k
      rw [k]
      exact hx _ x hi
    have hdl : 3 ≤ d'.length := by omega
    have st1 := stack_real hasin hl hy g0 (fun z hz => hn z (hsub z hz)) hx hdl
    have st2 := stack_real hasin hl hcall (by rw [List.getElem?_reverse (by omega), Nat.sub_zero]; exact gN) (fun z hz => hn z (hsub z (List.mem_reverse.1 hz))) hxr (by rw [List.length_reverse]; exact hdl)
    obtain ⟨b1, b2, b3, b4⟩ := C142_RT asin hasin pol n'.reverse d'.reverse me _ lam hl z hcall (by rw [List.getElem?_reverse (by omega), Nat.sub_zero]; exact gN)
      (fun z hz => hn z (hsub z (List.mem_reverse.1 hz))) hxr
    rw [h2] at hT
    have hT' : 0 < y.T := lt_of_le_of_ne c2 hT.symm
    refine ⟨⟨by rw [h1]; exact c1, by rw [h2]; exact hT', by rw [h3]; exact b1, by rw [h4, hTT]; exact hT', by rw [h1, h2]; exact c3, by rw [h3, h4]; exact b3⟩, fun hz0 => ?_, ⟨r1, r2⟩, fun he => by omega, fun _ y' z' hy' hz' => ?_⟩
    swap
    · rw [r1, hy, Except.ok.injEq] at hy'
      rw [r1, hz, Except.ok.injEq] at hz'
      subst hy' hz'
      exact ⟨st1, st2⟩
    rw [h1, h2, h3, h4]
    exact ⟨c4 fun z hz => hz0 z (hsub z hz), b4 fun z hz => hz0 z (hsub z (List.mem_reverse.1 hz))⟩

/-- the incoherent layers have real indices and the coherent ones are passive and not opaque -/
structure WellGrouped (n : List ℂ) (c : List String) (x : IncData) : Prop where
  real : ∀ k : ℕ, c[k]? = some "i" → ∃ m : ℝ, 0 < m ∧ n[k]? = some (m : ℂ)
  passive : ∀ z ∈ n, 0 ≤ z.re * z.im
  clear : ∀ y ∈ x.coh, ∀ (i : ℕ) z, y.d[i]? = some (some z) → 0 ≤ z ∧ (y.kz.getD i 0 * z).im ≤ 35

lemma inc_links {asin : ℂ → ℂ} (hasin : ∀ z, Complex.sin (asin z) = z) (hcos : ∀ z, 0 ≤ (Complex.cos (asin z)).re) {pol : String} {n : List ℂ} {d : List (Option ℝ)} {c : List String} {θ : ℝ} {lam : ℝ} (hl : 0 < lam)
    {x : IncData} {th : List ℂ} (hr : IncRun asin pol n d c θ lam x th) (hw : WellGrouped n c x) :
    (∀ k, k + 1 < x.groups.allFromInc.length → PassiveLink (x.interfaces.getD k ⟨0, 0, 0, 0⟩) ∧
      ((∀ z ∈ n, z.re * z.im = 0) → (x.interfaces.getD k ⟨0, 0, 0, 0⟩).R + (x.interfaces.getD k ⟨0, 0, 0, 0⟩).T = 1 ∧ (x.interfaces.getD k ⟨0, 0, 0, 0⟩).Rb + (x.interfaces.getD k ⟨0, 0, 0, 0⟩).Tb = 1)) ∧
    (∀ k, 1 ≤ k → k + 1 < x.groups.allFromInc.length → x.passes.getD k 0 = 1) ∧
    (∀ k a, x.groups.allFromInc[k]? = some a → x.groups.allFromInc[k + 1]? = some (a + 1) →
      (x.interfaces.getD k ⟨0, 0, 0, 0⟩).R + (x.interfaces.getD k ⟨0, 0, 0, 0⟩).T = 1 ∧ (x.interfaces.getD k ⟨0, 0, 0, 0⟩).Rb + (x.interfaces.getD k ⟨0, 0, 0, 0⟩).Tb = 1) ∧
    ∀ j k a e, StackBetween n d x.groups j k a e → ∀ y z, x.coh[j]? = some y → x.bcoh[j]? = some z → StackReal y ∧ StackReal z := by
  obtain ⟨hG, inv, h1, -, hlast, hfirst⟩ := groups_inv hr.groups
  have two := hr.two
  have hmem : ∀ (k a : ℕ), x.groups.allFromInc[k]? = some a → a < n.length ∧ c[a]? = some "i" := by
    intro k a hk
    have := List.mem_of_getElem? hk
    rw [inv.inc_def, List.mem_filter, List.mem_range, decide_eq_true_eq] at this
    refine ⟨this.1, ?_⟩
    have hc : a < c.length := by have := hG.1; have := hG.2.1; omega
    rw [List.getElem?_eq_getElem hc, ← getD_at (x := "") hc, this.2]
  have hs : x.groups.allFromInc.Pairwise (· < ·) := by rw [inv.inc_def]; exact List.Pairwise.filter _ List.pairwise_lt_range
  have hn2 : 2 ≤ n.length := by
    rw [List.pairwise_iff_getElem] at hs
    have h01 := hs 0 1 (by omega) (by omega) (by omega)
    have := (hmem 1 _ (List.getElem?_eq_getElem (by omega))).1
    omega
  obtain ⟨m0, hm0, g0⟩ := hw.real 0 (hmem 0 0 hfirst).2
  have g0' : n.getD 0 0 = m0 := by simp [List.getD, g0]
  obtain ⟨-, s1, s2, s3⟩ := listSnell_ok hasin hr.angles hn2
  obtain ⟨a1, -⟩ := listSnell_angles hr.angles hn2
  have hlayer : ∀ (k a : ℕ), x.groups.allFromInc[k]? = some a → ∃ m : ℝ, 0 < m ∧ n.getD a 0 = m ∧ (m : ℂ) * Complex.sin (th.getD a 0) = ((m0 * Real.sin θ : ℝ) : ℂ) ∧
      (0 ≤ (Complex.cos (th.getD a 0)).re ∨ TowardsBack (m * Complex.cos (th.getD a 0))) := by
    intro k a hk
    obtain ⟨q1, q2⟩ := hmem k a hk
    obtain ⟨m, hm, g⟩ := hw.real a q2
    have g' : n.getD a 0 = m := by simp [List.getD, g]
    refine ⟨m, hm, g', ?_, ?_⟩
    · rw [← g', (s1 a q1).2, g0']; push_cast; rfl
    · by_cases h0 : a = 0
      · right; subst h0; rw [← g']; exact s2
      · by_cases hN : a = n.length - 1
        · right; subst hN; rw [← g']; exact s3
        · left; rw [a1 a (by omega) (by omega)]; exact hcos _
  have hall : ∀ k a e, k + 1 < x.groups.allFromInc.length → x.groups.allFromInc[k]? = some a → x.groups.allFromInc[k + 1]? = some e → PassiveLink (x.interfaces.getD k ⟨0, 0, 0, 0⟩) ∧
      ((∀ z ∈ n, z.re * z.im = 0) → (x.interfaces.getD k ⟨0, 0, 0, 0⟩).R + (x.interfaces.getD k ⟨0, 0, 0, 0⟩).T = 1 ∧ (x.interfaces.getD k ⟨0, 0, 0, 0⟩).Rb + (x.interfaces.getD k ⟨0, 0, 0, 0⟩).Tb = 1) ∧
      (th.getD a 0 = ((th.getD a 0).re : ℂ)) ∧
      (e = a + 1 → (x.interfaces.getD k ⟨0, 0, 0, 0⟩).R + (x.interfaces.getD k ⟨0, 0, 0, 0⟩).T = 1 ∧ (x.interfaces.getD k ⟨0, 0, 0, 0⟩).Rb + (x.interfaces.getD k ⟨0, 0, 0, 0⟩).Tb = 1) ∧
      (a + 1 < e → ∀ y z, cohTmm asin pol ((n.drop a).take (e + 1 - a)) (none :: ((d.drop (a + 1)).take (e - a - 1) ++ [none])) (th.getD a 0) lam = .ok y →
        cohTmmReverse asin pol ((n.drop a).take (e + 1 - a)) (none :: ((d.drop (a + 1)).take (e - a - 1) ++ [none])) (th.getD a 0) lam = .ok z → StackReal y ∧ StackReal z) := by
    intro k a e hk ha he
    obtain ⟨ma, hma, ga, sa, fa⟩ := hlayer k a ha
    obtain ⟨me, hme, ge, se, fe⟩ := hlayer (k + 1) e he
    have hlink := hr.links k a e ha he
    obtain ⟨r1, r2, ⟨r3, -⟩, r4, r5⟩ := link_real hasin hl hlink (hmem _ _ he).1 hma hme ga ge sa se fa fe hw.passive (hr.link_ne k hk) (by
      intro y hy
      rcases inv.next k a e ha he with ⟨h3, rfl⟩ | ⟨j, hj, hst⟩
      · -- no stack: the list is too short for a layer in it
        intro i z hi
        rw [cohTmm_keeps hy] at hi
        simp only [Nat.add_sub_cancel_left, Nat.sub_self, List.take_zero, List.nil_append] at hi
        rcases i with _ | _ | i <;> simp at hi
      · obtain ⟨y', hy', h6⟩ := hr.coh_at j k a e hst
        rw [hy, Except.ok.injEq] at h6
        subst h6
        exact hw.clear y (List.mem_of_getElem? hy'))
    exact ⟨r1, r2, r3, r4, r5⟩
  refine ⟨fun k hk => ?_, fun k h1 hk => ?_, fun k a ha he => ?_, fun j k a e hst y z hy hz => ?_⟩
  · obtain ⟨r1, r2, -⟩ := hall k _ _ hk (List.getElem?_eq_getElem (by omega)) (List.getElem?_eq_getElem hk)
    exact ⟨r1, r2⟩
  · obtain ⟨a, ha⟩ : ∃ a, x.groups.allFromInc[k]? = some a := ⟨_, List.getElem?_eq_getElem (by omega)⟩
    obtain ⟨-, -, r3, -⟩ := hall k a _ hk ha (List.getElem?_eq_getElem hk)
    obtain ⟨m, -, g, -⟩ := hlayer k a ha
    obtain ⟨z, -, hP⟩ := hr.passes k a h1 hk ha
    rw [hP, g, r3, ← Complex.ofReal_cos, ← Complex.ofReal_mul, Complex.ofReal_im, mul_zero, zero_div, neg_zero, Real.exp_zero]
    norm_num
  · exact (hall k a (a + 1) (List.getElem?_eq_some_iff.1 he).1 ha he).2.2.2.1 rfl
  · obtain ⟨y', hy', h6⟩ := hr.coh_at j k a e hst
    obtain ⟨z', hz', h7⟩ := hr.bcoh_at j k a e hst
    rw [hy, Option.some.injEq] at hy'
    rw [hz, Option.some.injEq] at hz'
    subst hy' hz'
    exact (hall k a e (List.getElem?_eq_some_iff.1 hst.after).1 hst.before hst.after).2.2.2.2 hst.gap y z h6 h7

/-- C149. Incoherent layers of real index with passive coherent layers between them: no light is created, some gets through, and nothing is lost without losses. -/
theorem C149_RT_partial (asin : ℂ → ℂ) (hasin : ∀ z, Complex.sin (asin z) = z) (hcos : ∀ z, 0 ≤ (Complex.cos (asin z)).re) (pol : String) (n : List ℂ) (d : List (Option ℝ)) (c : List String) (θ lam : ℝ) (hl : 0 < lam) (x : IncData)
    (h : incTmm asin pol n d c θ lam = .ok x) (hw : WellGrouped n c x) : 0 ≤ x.R ∧ 0 < x.T ∧ x.R + x.T ≤ 1 ∧ ((∀ z ∈ n, z.re * z.im = 0) → x.R + x.T = 1) := by
  obtain ⟨th, hr⟩ := incTmm_run h
  obtain ⟨h1, h2, -⟩ := inc_links hasin hcos hl hr hw
  obtain ⟨-, b1, b2, b3, b4⟩ := balanced_passive hr.two hr.balanced (fun k q1 q2 => by simp only [h2 k q1 q2]; norm_num) (fun k hk => (h1 k hk).1)
  exact ⟨b1, b2, b3, fun hz => b4 h2 fun k hk => (h1 k hk).2 hz⟩

lemma part_at {asin : ℂ → ℂ} {pol : String} {n : List ℂ} {d : List (Option ℝ)} {c : List String} {th0 : ℂ} {lam : ℝ} {x : IncData} {th : List ℂ} (hr : IncRun asin pol n d c th0 lam x th) {parts : List (List ℝ)}
    (hp : (List.range (x.entering.length - 1)).mapM (incAbsorpPart x) = .ok parts) {k a e w : ℕ} {l : List ℝ} (ha : x.groups.allFromInc[k]? = some a) (he : x.groups.allFromInc[k + 1]? = some e)
    (hl : incAbsorpPart x k = .ok l) (hw : w < e - a) : (parts.flatten ++ [x.T])[a + w]? = l[w]? := by
  obtain ⟨l1, l2⟩ := parts_prefix hr hp
  obtain ⟨pe, he1, he2, -⟩ := hr.entering
  obtain ⟨m1, m2⟩ := mapM_ok _ _ _ hp
  simp only [List.length_range, List.getElem_range] at m1 m2
  have hk := (List.getElem?_eq_some_iff.1 he).1
  obtain ⟨q1, -⟩ := incPart_ok hr ha he hl
  have hpk : parts[k]? = some l := by
    have := m2 k (by rw [← m1]; omega) (by omega)
    rw [hl, Except.ok.injEq] at this
    rw [this]
    exact List.getElem?_eq_getElem _
  obtain ⟨hk', ek⟩ := List.getElem?_eq_some_iff.1 hpk
  have hsplit : parts.flatten = (parts.take k).flatten ++ (l ++ (parts.drop (k + 1)).flatten) := by
    conv_lhs => rw [← List.take_append_drop k parts, List.flatten_append, List.drop_eq_getElem_cons hk', List.flatten_cons, ek]
  rw [hsplit, List.append_assoc, List.getElem?_append_right (by rw [(l2 k a ha).1]; omega), (l2 k a ha).1, Nat.add_sub_cancel_left, List.append_assoc, List.getElem?_append_left (by omega)]

/-- C149. Incoherent layers of real index with passive coherent layers between them: `inc_absorp_in_each_layer` returns one share per layer; none is negative, the first is the reflectance, and the
other incoherent layers but the last, which has the transmittance (`C149_sum`), take nothing. -/
theorem C149_shares_partial (asin : ℂ → ℂ) (hasin : ∀ z, Complex.sin (asin z) = z) (hcos : ∀ z, 0 ≤ (Complex.cos (asin z)).re) (pol : String) (n : List ℂ) (d : List (Option ℝ)) (c : List String) (θ lam : ℝ) (hl : 0 < lam)
    (x : IncData) (h : incTmm asin pol n d c θ lam = .ok x) (hw : WellGrouped n c x) :
    ∃ a, incAbsorpInEachLayer x = .ok a ∧ (∀ s ∈ a, 0 ≤ s) ∧ a[0]? = some x.R ∧ ∀ k, 1 ≤ k → k + 1 < n.length → c[k]? = some "i" → a[k]? = some 0 := by
  obtain ⟨th, hr⟩ := incTmm_run h
  obtain ⟨h1, h2, h3, h4⟩ := inc_links hasin hcos hl hr hw
  obtain ⟨hV, hR, hT, -⟩ := balanced_passive hr.two hr.balanced (fun k q1 q2 => by simp only [h2 k q1 q2]; norm_num) (fun k hk => (h1 k hk).1)
  obtain ⟨hG, inv, hn1, hF, hlast, hfirst⟩ := groups_inv hr.groups
  obtain ⟨pe, he1, he2, he3⟩ := hr.entering
  have hb := hr.balanced
  have two := hr.two
  have hfl := hr.fs_len
  obtain ⟨N, hN⟩ : ∃ N, x.groups.allFromInc.length = N := ⟨_, rfl⟩
  rw [hN] at hb hV two hfl he2 he3 h1 h2
  -- forward intensities in front of the links, and what they add to the layer behind
  set F : ℕ → ℝ := fun k => if k = 0 then 1 else x.vw.getD k 0 0 * x.passes.getD k 0 with hFd
  have hF0 : ∀ k, k + 1 < N → 0 < F k := by
    intro k hk
    simp only [hFd]
    split
    · norm_num
    · rw [h2 k (by omega) hk, mul_one]
      exact (hV k (by omega) (by omega)).1
  have hnext : ∀ k, k + 1 < N → x.vw.getD (k + 1) 0 0 = F k * (x.interfaces.getD k ⟨0, 0, 0, 0⟩).T + x.vw.getD (k + 1) 0 1 * (x.interfaces.getD k ⟨0, 0, 0, 0⟩).Rb := by
    intro k hk
    simp only [hFd]
    rcases Nat.eq_zero_or_pos k with rfl | q
    · rw [if_pos rfl]; exact hb.first_forward
    · rw [if_neg (by omega)]; exact hb.forward k q hk
  have hgone : ∀ k, k + 1 < N → F k * (x.interfaces.getD k ⟨0, 0, 0, 0⟩).R + x.vw.getD (k + 1) 0 1 * (x.interfaces.getD k ⟨0, 0, 0, 0⟩).Tb = if k = 0 then x.R else x.vw.getD k 0 1 := by
    intro k hk
    simp only [hFd]
    rcases Nat.eq_zero_or_pos k with rfl | q
    · rw [if_pos rfl, if_pos rfl]; exact hb.first_backward.symm
    · rw [if_neg (by omega), if_neg (by omega)]
      have := hb.backward k q hk
      simp only [h2 k q hk, one_mul] at this ⊢
      exact this.symm
  -- the flow into every layer
  have hent : ∀ k, k + 1 < N → x.entering.getD (k + 1) 0 = x.vw.getD (k + 1) 0 0 - x.vw.getD (k + 1) 0 1 := by
    intro k hk
    obtain ⟨a, ha⟩ : ∃ a, x.groups.allFromInc[k]? = some a := ⟨_, List.getElem?_eq_getElem (by omega)⟩
    obtain ⟨e, he⟩ : ∃ a, x.groups.allFromInc[k + 1]? = some a := ⟨_, List.getElem?_eq_getElem (by omega)⟩
    have e5 := he3 k (by omega)
    rw [he1, List.getD_cons_succ, hnext k hk]
    unfold incEntering at e5
    rcases inv.next k a e ha he with ⟨q3, rfl⟩ | ⟨j, hj, hst⟩
    · rw [show x.groups.stackFromInc.getD (k + 1) none = none by simp [List.getD, q3]] at e5
      simp only [Nat.add_sub_cancel, bind_ok, pyNth_nat] at e5
      obtain ⟨f, hf, e5⟩ := e5
      have hfk : x.interfaces.getD k ⟨0, 0, 0, 0⟩ = f := by simp [List.getD, hf]
      have hq := (h3 k a ha he).2
      rw [hfk] at hq ⊢
      have e6 : pe.getD k 0 = F k * f.T - x.vw.getD (k + 1) 0 1 * f.Tb := by
        split at e5
        · rename_i q
          obtain rfl : k = 0 := by omega
          simp only [pure, Except.pure, Except.ok.injEq] at e5
          rw [← e5]
          simp only [hFd, if_pos]
          ring
        · rename_i q
          simp only [pure, Except.pure, Except.ok.injEq] at e5
          rw [← e5]
          simp only [hFd, if_neg (show k ≠ 0 by omega)]
      rw [e6]
      linear_combination x.vw.getD (k + 1) 0 1 * (-hq)
    · rw [show x.groups.stackFromInc.getD (k + 1) none = some j by simp [List.getD, hst.stack_from]] at e5
      simp only [bind_ok, pure, Except.pure, Except.ok.injEq, pyNth_nat] at e5
      obtain ⟨fb, hfb, y, hy, z, hz, e5⟩ := e5
      rw [hr.link_stack j k a e hst y z hy hz]
      rw [hr.fb, incStackFB, List.getElem?_map, hst.inc_from, Option.map_some, Option.some.injEq] at hfb
      obtain ⟨-, ⟨ab, -, -, hpe⟩⟩ := h4 j k a e hst y z hy hz
      rw [← e5, ← hfb, hpe]
      simp only [hFd]
      ring
  -- the shares of a layer and the stack behind it
  have hpart : ∀ k a e, x.groups.allFromInc[k]? = some a → x.groups.allFromInc[k + 1]? = some e → ∃ l, incAbsorpPart x k = .ok l ∧ l[0]? = some (if k = 0 then x.R else 0) ∧ ∀ s ∈ l, 0 ≤ s := by
    intro k a e ha he
    have hk := (List.getElem?_eq_some_iff.1 he).1
    rw [hN] at hk
    -- the first share
    have hfirst : x.entering.getD k 0 - (F k - (F k * (x.interfaces.getD k ⟨0, 0, 0, 0⟩).R + x.vw.getD (k + 1) 0 1 * (x.interfaces.getD k ⟨0, 0, 0, 0⟩).Tb)) = if k = 0 then x.R else 0 := by
      rw [hgone k hk]
      rcases Nat.eq_zero_or_pos k with rfl | q
      · rw [he1, List.getD_cons_zero]
        simp only [hFd, if_pos]
        ring
      · obtain ⟨i, rfl⟩ := Nat.exists_eq_add_of_le' q
        rw [hent i (by omega)]
        simp only [hFd, if_neg (show i + 1 ≠ 0 by omega), h2 (i + 1) (by omega) hk]
        ring
    have hif : 0 ≤ (if k = 0 then x.R else 0) := by split
                                                    · exact hR
                                                    · exact le_rfl
    unfold incAbsorpPart
    rcases inv.next k a e ha he with ⟨q3, rfl⟩ | ⟨j, hj, hst⟩
    · rw [show x.groups.stackFromInc.getD (k + 1) none = none by simp [List.getD, q3]]
      refine ⟨_, rfl, ?_⟩
      obtain ⟨hq1, hq2⟩ := h3 k a ha he
      have e7 : x.entering.getD k 0 - x.entering.getD (k + 1) 0 = if k = 0 then x.R else 0 := by
        rw [← hfirst, hent k hk, hnext k hk]
        linear_combination -(F k) * hq1 - x.vw.getD (k + 1) 0 1 * hq2
      rw [e7]
      refine ⟨rfl, ?_⟩
      intro s hs
      rw [List.mem_singleton] at hs
      rw [hs]; exact hif
    · rw [show x.groups.stackFromInc.getD (k + 1) none = some j by simp [List.getD, hst.stack_from]]
      obtain ⟨y, hy, -⟩ := hr.coh_at j k a e hst
      obtain ⟨z, hz, -⟩ := hr.bcoh_at j k a e hst
      obtain ⟨⟨ac, hac, pac, pey⟩, ⟨ab, hab, pab, pez⟩⟩ := h4 j k a e hst y z hy hz
      have hfb : x.stackFB[j]? = some (F k, x.vw.getD (k + 1) 0 1) := by
        rw [hr.fb, incStackFB, List.getElem?_map, hst.inc_from]; rfl
      simp only [pyNth_nat.2 hy, pyNth_nat.2 hz, pyNth_nat.2 hfb, hac, hab, ok_bind]
      refine ⟨_, rfl, ?_, ?_⟩
      · rw [List.getElem?_cons_zero, ← hfirst, hr.link_stack j k a e hst y z hy hz, pey]
        congr 1
        ring
      · intro s hs
        rw [List.mem_cons] at hs
        rcases hs with rfl | hs
        · refine le_of_le_of_eq hif ?_
          rw [← hfirst, hr.link_stack j k a e hst y z hy hz, pey]
          ring
        · rw [map_mul_tail, map_mul_tail] at hs
          obtain ⟨i, hi, es⟩ := List.getElem_of_mem hs
          rw [List.getElem_zipWith] at es
          rw [← es]
          have q1 : ∀ u ∈ ac.tail.dropLast.map (F k * ·), 0 ≤ u := by
            intro u hu
            obtain ⟨v, hv, rfl⟩ := List.mem_map.1 hu
            exact mul_nonneg (hF0 k hk).le (pac v (List.mem_of_mem_tail (List.mem_of_mem_dropLast hv)))
          have q2 : ∀ u ∈ (ab.tail.dropLast.map (x.vw.getD (k + 1) 0 1 * ·)).reverse, 0 ≤ u := by
            intro u hu
            obtain ⟨v, hv, rfl⟩ := List.mem_map.1 (List.mem_reverse.1 hu)
            exact mul_nonneg (hV (k + 1) (by omega) hk).2.1 (pab v (List.mem_of_mem_tail (List.mem_of_mem_dropLast hv)))
          exact add_nonneg (q1 _ (List.getElem_mem _)) (q2 _ (List.getElem_mem _))
  -- all of them
  have hlen : x.entering.length - 1 = N - 1 := by rw [he1, List.length_cons]; omega
  obtain ⟨parts, hparts⟩ : ∃ parts, (List.range (x.entering.length - 1)).mapM (incAbsorpPart x) = .ok parts := by
    refine mapM_total _ _ fun k hk => ?_
    rw [hlen, List.mem_range] at hk
    obtain ⟨l, hl, -⟩ := hpart k _ _ (List.getElem?_eq_getElem (by omega)) (List.getElem?_eq_getElem (by omega))
    exact ⟨l, hl⟩
  refine ⟨parts.flatten ++ [x.T], by unfold incAbsorpInEachLayer; rw [hparts]; rfl, ?_, ?_, ?_⟩
  · intro s hs
    rw [List.mem_append] at hs
    rcases hs with hs | hs
    · obtain ⟨l, hl, hs⟩ := List.mem_flatten.1 hs
      obtain ⟨m1, m2⟩ := mapM_ok _ _ _ hparts
      simp only [List.length_range, List.getElem_range] at m1 m2
      obtain ⟨k, hk, ek⟩ := List.getElem_of_mem hl
      obtain ⟨l', hl', -, q⟩ := hpart k _ _ (List.getElem?_eq_getElem (by omega)) (List.getElem?_eq_getElem (by omega))
      have := m2 k (by omega) hk
      rw [hl', Except.ok.injEq, ek] at this
      rw [this] at q
      exact q s hs
    · rw [List.mem_singleton] at hs
      rw [hs]; exact hT.le
  · obtain ⟨e, he⟩ : ∃ e, x.groups.allFromInc[0 + 1]? = some e := ⟨_, List.getElem?_eq_getElem (by omega)⟩
    obtain ⟨l, hl, q, -⟩ := hpart 0 0 e hfirst he
    have hs : x.groups.allFromInc.Pairwise (· < ·) := by rw [inv.inc_def]; exact List.Pairwise.filter _ List.pairwise_lt_range
    rw [List.pairwise_iff_getElem] at hs
    obtain ⟨ka, ea⟩ := List.getElem?_eq_some_iff.1 hfirst
    obtain ⟨ke, ee⟩ := List.getElem?_eq_some_iff.1 he
    have hlt := hs 0 (0 + 1) ka ke (by omega)
    have := part_at hr hparts (w := 0) hfirst he hl (by omega)
    rw [q] at this
    exact this
  · intro k q1 q2 hc
    have hm : k ∈ x.groups.allFromInc := by
      rw [inv.inc_def, List.mem_filter, List.mem_range]
      exact ⟨by omega, by simp [List.getD, hc]⟩
    obtain ⟨i, hi, ei⟩ := List.getElem_of_mem hm
    have ei' : x.groups.allFromInc[i]? = some k := by rw [List.getElem?_eq_getElem hi, ei]
    have hs : x.groups.allFromInc.Pairwise (· < ·) := by rw [inv.inc_def]; exact List.Pairwise.filter _ List.pairwise_lt_range
    rw [List.pairwise_iff_getElem] at hs
    have hi0 : i ≠ 0 := by
      rintro rfl
      rw [hfirst, Option.some.injEq] at ei'
      omega
    have hiN : i + 1 < x.groups.allFromInc.length := by
      by_contra hh
      rw [show x.groups.allFromInc.length - 1 = i by omega, ei', Option.some.injEq] at hlast
      omega
    obtain ⟨l, hl, q, -⟩ := hpart i k _ ei' (List.getElem?_eq_getElem hiN)
    have hlt := hs i (i + 1) hi hiN (by omega)
    have := part_at hr hparts (w := 0) ei' (List.getElem?_eq_getElem hiN) hl (by omega)
    rw [q, if_neg hi0, add_zero] at this
    exact this

end

end Nidn
