import Verif.Props.TmmIncAccept
import Verif.Props.TmmFields

/-! C150: absorption inside the coherent layers of a stack with incoherent layers -/

namespace Nidn

noncomputable section

/-- C150 does not hold: `inc_find_absorp_analytic_fn` raises ValueError for every layer of every stack, also for the coherent ones it is made for. -/
theorem C150_find_false : (∃ x, incTmm stripArcsin "p" [1, 2 + 0.5 * Complex.I, 1.5, 1] [none, some 0.2, some 300, none] ["i", "c", "i", "i"] (0 : ℝ) 1 = .ok x) ∧
    ∀ (asin : ℂ → ℂ) (pol : String) (n : List ℂ) (d : List (Option ℝ)) (c : List String) (th0 : ℂ) (lam : ℝ) (x : IncData), incTmm asin pol n d c th0 lam = .ok x →
      ∀ k < n.length, incFindAbsorp k x = .error .valueError := by
  refine ⟨let ⟨x, hx, _⟩ := coated_glass; ⟨x, hx⟩, fun asin pol n d c th0 lam x h k hk => ?_⟩
  obtain ⟨th, hr⟩ := incTmm_run h
  obtain ⟨-, inv, -⟩ := groups_inv hr.groups
  obtain ⟨j, hj⟩ : ∃ j, x.groups.stackFromAll[k]? = some j := ⟨_, List.getElem?_eq_getElem (by rw [inv.stack_all]; exact hk)⟩
  unfold incFindAbsorp
  rw [pyNth_nat.2 hj, ok_bind]
  rcases j with _ | ⟨st, w⟩
  · rfl
  · rfl

lemma pyNth_neg {α : Type} {l : List α} {w : ℕ} (h : w < l.length) : pyNth l (-1 - (w : ℤ)) = pyNth l ((l.length - 1 - w : ℕ) : ℤ) := by
  unfold pyNth
  rw [if_pos (by omega), if_neg (by omega), show (-1 - (w : ℤ) + l.length).toNat = (((l.length - 1 - w : ℕ) : ℤ)).toNat by omega]
  cases l[(((l.length - 1 - w : ℕ) : ℤ)).toNat]? with
  | none => rfl
  | some x => simp only; rw [if_neg (by omega), if_neg (by omega)]

lemma fillIn_neg {pol : String} {n : List ℂ} {d : List (Option ℝ)} {th0 lam : ℂ} {c : TmmData} (h : TmmRun pol n d th0 lam c) {w : ℕ} (hw : w < n.length) :
    AbsorpFn.fillIn c (-1 - (w : ℤ)) = AbsorpFn.fillIn c ((n.length - 1 - w : ℕ) : ℤ) := by
  unfold AbsorpFn.fillIn
  obtain ⟨k1, k2, k3, k4, -⟩ := h.keeps
  rw [pyNth_neg (l := c.vw) (by rw [h.len_vw]; exact hw), pyNth_neg (l := c.kz) (by rw [h.len_kz]; exact hw), pyNth_neg (l := c.n) (by rw [k2]; exact hw),
    pyNth_neg (l := c.th) (by rw [h.len_th]; exact hw), pyNth_neg (l := c.d) (by rw [k3, h.len_d]; exact hw), h.len_vw, h.len_kz, k2, h.len_th, k3, h.len_d]

lemma fillIn_exps {c : TmmData} {i : ℕ} {f : AbsorpFn} (h : AbsorpFn.fillIn c i = .ok f) : f.a1 = 2 * (c.kz.getD i 0).im ∧ f.a3 = 2 * (c.kz.getD i 0).re := by
  unfold AbsorpFn.fillIn at h
  simp only [bind_ok, pyNth_nat] at h
  obtain ⟨v, -, kz, hk, m, -, n0, -, th, -, d, -, h⟩ := h
  have e : c.kz.getD i 0 = kz := by simp [List.getD, hk]
  rw [e]
  split at h
  · simp only [bind_ok, pure, Except.pure, Except.ok.injEq] at h
    obtain ⟨_, -, rfl⟩ := h
    exact ⟨rfl, rfl⟩
  · simp only [bind_ok, pure, Except.pure, Except.ok.injEq] at h
    obtain ⟨_, -, _, -, rfl⟩ := h
    exact ⟨rfl, rfl⟩

/-- C150, partly: what `inc_find_absorp_analytic_fn` would return without the faulty test. For every coherent layer the rest of the function, given the entry of the layer, returns a function of
depth whose integral over the layer is the share of `inc_absorp_in_each_layer`; it is the sum of what the light from the front and the light from behind lose at that depth. -/
theorem C150_rest_partial (asin : ℂ → ℂ) (hasin : ∀ z, Complex.sin (asin z) = z) (pol : String) (n : List ℂ) (d : List (Option ℝ)) (c : List String) (th0 : ℂ) (lam : ℝ) (x : IncData)
    (h : incTmm asin pol n d c th0 lam = .ok x) (hclear : ∀ y ∈ x.coh, ∀ (i : ℕ) z, y.d[i]? = some (some z) → 0 ≤ z ∧ (y.kz.getD i 0 * z).im ≤ 35) (s : List ℝ) (hs : incAbsorpInEachLayer x = .ok s)
    (k : ℕ) (hk : c[k]? = some "c") :
    ∃ (st w : ℕ) (f : AbsorpFn) (X : ℝ), x.groups.stackFromAll[k]? = some (some (st, w)) ∧ incFindRest x st w = .ok f ∧ d[k]? = some (some X) ∧
      s[k]? = some (∫ z in (0 : ℝ)..X, (f.run z).re) ∧
      ∃ y b fb, x.coh[st]? = some y ∧ x.bcoh[st]? = some b ∧ x.stackFB[st]? = some fb ∧ ∀ z, 0 ≤ z → z ≤ X → ∃ p q, positionResolved w z y = .ok p ∧
        positionResolved (y.n.length - 1 - w : ℕ) (X - z) b = .ok q ∧ f.run z = ((fb.1 * p.absor + fb.2 * q.absor : ℝ) : ℂ) := by
  obtain ⟨th, hr⟩ := incTmm_run h
  obtain ⟨hG, inv, -, hF, -, -⟩ := groups_inv hr.groups
  have hkn : k < n.length := by
    have := (List.getElem?_eq_some_iff.1 hk).1
    rw [hG.2.1] at this
    exact this
  obtain ⟨st, w, l, e1, hw1, e2, e3⟩ := inv.stack_some k hkn (by simp [List.getD, hk])
  have hst : st < x.groups.stackIndex := by rw [← hF]; exact (List.getElem?_eq_some_iff.1 e2).1
  obtain ⟨i, a, e, hsb⟩ := inv.complete st hst
  have hl := hsb.layers
  rw [e2, Option.some.injEq] at hl
  rw [hl] at e3
  obtain ⟨hw2, e4⟩ := List.getElem?_eq_some_iff.1 e3
  rw [List.length_range'] at hw2
  rw [List.getElem_range', one_mul] at e4
  have gap := hsb.gap
  have hec : e ∈ x.groups.allFromInc := List.mem_of_getElem? hsb.after
  rw [inv.inc_def, List.mem_filter, List.mem_range, decide_eq_true_eq] at hec
  have hke : k ≠ e := by
    rintro rfl
    have : c.getD k "" = "c" := by simp [List.getD, hk]
    rw [this] at hec
    exact absurd hec.2 (by decide)
  have hw3 : w < e - a := by omega
  obtain ⟨y, hy, cy⟩ := hr.coh_at st i a e hsb
  obtain ⟨b, hb, cb⟩ := hr.bcoh_at st i a e hsb
  obtain ⟨M, hM⟩ : ∃ M, M = e + 1 - a := ⟨_, rfl⟩
  have hnl : ((n.drop a).take (e + 1 - a)).length = M := by simp; omega
  have hdl : d.length = n.length := hG.1
  obtain ⟨D, hD⟩ : ∃ D, D = none :: ((d.drop (a + 1)).take (e - a - 1) ++ [none]) := ⟨_, rfl⟩
  obtain ⟨N, hN⟩ : ∃ N, N = (n.drop a).take (e + 1 - a) := ⟨_, rfl⟩
  rw [← hN, ← hD] at cy cb
  rw [← hN] at hnl
  have hDl : D.length = M := by rw [hD]; simp; omega
  have hDw : D[w]? = d[k]? := by
    obtain ⟨v, rfl⟩ := Nat.exists_eq_add_of_le' hw1
    rw [hD, List.getElem?_cons_succ, List.getElem?_append_left (by simp; omega), List.getElem?_take_of_lt (by omega), List.getElem?_drop, ← e4]
    congr 1
    omega
  have two : 2 ≤ N.length := by omega
  have rr := reverse_run hasin cy cb
  have cb' := reverse_call cy two cb
  have ky : y.d = D := cohTmm_keeps cy
  have hxy : ∀ (i : ℕ) x, D[i]? = some (some x) → 0 ≤ x ∧ (y.kz.getD i 0 * x).im ≤ 35 := by
    intro i x' hx
    rw [← ky] at hx
    exact hclear y (List.mem_of_getElem? hy) i x' hx
  have hxb : ∀ (i : ℕ) x, D.reverse[i]? = some (some x) → 0 ≤ x ∧ (b.kz.getD i 0 * x).im ≤ 35 := by
    intro i x' hx
    have hi := (List.getElem?_eq_some_iff.1 hx).1
    rw [List.length_reverse] at hi
    rw [List.getElem?_reverse hi] at hx
    have := hxy _ x' hx
    rw [← rr.kz_at _ (by omega), hnl, hDl, show M - 1 - (M - 1 - i) = i by omega] at this
    exact this
  obtain ⟨f1, ac, X, hf1, hac, hX, hacw⟩ := C144_integral asin hasin pol N D _ lam y cy hxy w hw1 (by omega)
  obtain ⟨f2, ab, X', hf2, hab, hX', habw⟩ := C144_integral asin hasin pol N.reverse D.reverse _ lam b cb' hxb (M - 1 - w) (by omega) (by rw [List.length_reverse]; omega)
  rw [List.getElem?_reverse (by omega), hDl, show M - 1 - (M - 1 - w) = w by omega, hX, Option.some.injEq, Option.some.injEq] at hX'
  subst hX'
  obtain ⟨f1', hf1', hd1, run1⟩ := C144_run asin hasin pol N D _ lam y cy w hw1 (by omega)
  rw [hf1, Except.ok.injEq] at hf1'
  subst hf1'
  obtain ⟨f2', hf2', hd2, run2⟩ := C144_run asin hasin pol N.reverse D.reverse _ lam b cb' (M - 1 - w) (by omega) (by rw [List.length_reverse]; omega)
  rw [hf2, Except.ok.injEq] at hf2'
  subst hf2'
  rw [List.getElem?_reverse (by omega), hDl, show M - 1 - (M - 1 - w) = w by omega, hX, Option.some.injEq] at hd2
  have hX0 := (hxy w X hX).1
  -- intensities on the two sides of the stack
  obtain ⟨fb, hfb⟩ : ∃ fb, x.stackFB[st]? = some fb := ⟨_, by rw [hr.fb, incStackFB, List.getElem?_map, hsb.inc_from]; rfl⟩
  -- the function
  obtain ⟨x1, x3⟩ := fillIn_exps hf1
  obtain ⟨z1, z3⟩ := fillIn_exps hf2
  have hkz := rr.kz_at w (by omega)
  rw [hnl] at hkz
  rw [hkz] at z1 z3
  obtain ⟨⟨g, hg, -, hgr⟩, -, -⟩ := C144_operations (f2.scale fb.2) f1 X 0 hd2.symm
  have hga : g.a1 = f2.a1 ∧ g.a3 = f2.a3 := by
    have hd2' : (f2.scale fb.2).d = some X := hd2.symm
    unfold AbsorpFn.flip at hg
    rw [hd2'] at hg
    simp only [Except.ok.injEq] at hg
    rw [← hg]
    exact ⟨rfl, rfl⟩
  obtain ⟨-, -, hadd, -⟩ := C144_operations (f1.scale fb.1) g X 0 (by rw [show (f1.scale fb.1).d = f1.d from rfl]; exact Option.some.inj (hd1.symm.trans hX))
  obtain ⟨f, hf, hrun⟩ := hadd (by rw [hga.1, z1]; exact x1.symm) (by rw [hga.2, z3]; exact x3.symm)
  have hsc1 := (C144_operations f1 f1 X fb.1 (Option.some.inj (hd1.symm.trans hX))).2.1
  have hsc2 := (C144_operations f2 f1 X fb.2 hd2.symm).2.1
  have hfz : ∀ z : ℝ, f.run z = fb.1 * f1.run z + fb.2 * f2.run (X - z) := fun z => by rw [hrun, hgr, hsc1, hsc2]
  refine ⟨st, w, f, X, e1, ?_, hDw ▸ hX, ?_, y, b, fb, hy, hb, hfb, fun z hz0 hzX => ?_⟩
  · unfold incFindRest
    rw [pyNth_nat.2 hy, ok_bind, hf1, ok_bind, pyNth_nat.2 hfb, ok_bind, pyNth_nat.2 hb, ok_bind, fillIn_neg rr.bwd (by rw [List.length_reverse]; omega), List.length_reverse, hnl, hf2, ok_bind, hg, ok_bind, hf]
  · unfold incAbsorpInEachLayer at hs
    simp only [bind_ok, pure, Except.pure, Except.ok.injEq] at hs
    obtain ⟨parts, hp, hs⟩ := hs
    have hpart : incAbsorpPart x i = .ok ((x.entering.getD i 0 - (fb.1 * y.powerEntering - fb.2 * b.T)) :: List.zipWith (· + ·) (ac.map (fb.1 * ·)).tail.dropLast (ab.map (fb.2 * ·)).tail.dropLast.reverse) := by
      unfold incAbsorpPart
      rw [show x.groups.stackFromInc.getD (i + 1) none = some st by simp [List.getD, hsb.stack_from]]
      simp only [pyNth_nat.2 hy, pyNth_nat.2 hb, pyNth_nat.2 hfb, hac, hab, ok_bind]
      rfl
    have hat := part_at hr hp hsb.before hsb.after hpart hw3
    rw [hs, e4] at hat
    rw [hat]
    have la : ac.length = M := by rw [(shares_shape hac (by rw [ky]; omega)).1, ky, hDl]
    have lb : ab.length = M := by
      have : b.d = D.reverse := cohTmm_keeps cb'
      rw [(shares_shape hab (by rw [this, List.length_reverse]; omega)).1, this, List.length_reverse, hDl]
    obtain ⟨v, rfl⟩ := Nat.exists_eq_add_of_le' hw1
    rw [List.getElem?_cons_succ, map_mul_tail, map_mul_tail, List.getElem?_zipWith]
    have q1 : (ac.tail.dropLast.map (fb.1 * ·))[v]? = some (fb.1 * ∫ z in (0 : ℝ)..X, (f1.run z).re) := by
      rw [List.getElem?_map, List.getElem?_dropLast, if_pos (by simp; omega), List.getElem?_tail, hacw]
      rfl
    have q2 : (ab.tail.dropLast.map (fb.2 * ·)).reverse[v]? = some (fb.2 * ∫ z in (0 : ℝ)..X, (f2.run z).re) := by
      have hlen : (ab.tail.dropLast.map (fb.2 * ·)).length = M - 2 := by simp; omega
      rw [List.getElem?_reverse (by omega), hlen, List.getElem?_map, List.getElem?_dropLast, if_pos (by simp; omega), List.getElem?_tail, show M - 2 - 1 - v + 1 = M - 1 - (v + 1) by omega, habw]
      rfl
    rw [q1, q2]
    simp only
    have hc1 : _root_.Continuous fun z : ℝ => (f1.run z).re := by unfold AbsorpFn.run; fun_prop
    have hc2 : _root_.Continuous fun z : ℝ => (f2.run (X - z)).re := by unfold AbsorpFn.run; fun_prop
    have hflip : ∫ z in (0 : ℝ)..X, (f2.run z).re = ∫ z in (0 : ℝ)..X, (f2.run (X - z)).re := by
      rw [intervalIntegral.integral_comp_sub_left (fun z => (f2.run z).re) X]
      simp
    rw [hflip, ← intervalIntegral.integral_const_mul, ← intervalIntegral.integral_const_mul, ← intervalIntegral.integral_add ((hc1.const_mul _).intervalIntegrable _ _) ((hc2.const_mul _).intervalIntegrable _ _)]
    congr 2
    funext z
    rw [hfz, Complex.add_re, Complex.re_ofReal_mul, Complex.re_ofReal_mul]
  · have kn : y.n.length = M := by rw [rr.fwd.keeps.2.1, hnl]
    obtain ⟨p, hp, hp2⟩ := run1 z hz0 fun x' hx' => by rw [hX] at hx'; cases hx'; exact hzX
    obtain ⟨q, hq, hq2⟩ := run2 (X - z) (by linarith) fun x' hx' => by
      rw [List.getElem?_reverse (by omega), hDl, show M - 1 - (M - 1 - w) = w by omega, hX] at hx'
      cases hx'
      linarith
    refine ⟨p, q, hp, by rw [kn]; exact hq, ?_⟩
    rw [hfz, hp2, hq2]
    push_cast
    rfl

/-- Non-vacuity of `C150_rest_partial`: the coating of a sheet of glass. -/
example : ∃ x s, incTmm stripArcsin "p" [1, 2 + 0.5 * Complex.I, 1.5, 1] [none, some 0.2, some 300, none] ["i", "c", "i", "i"] (0 : ℝ) 1 = .ok x ∧
    (∀ y ∈ x.coh, ∀ (i : ℕ) z, y.d[i]? = some (some z) → 0 ≤ z ∧ (y.kz.getD i 0 * z).im ≤ 35) ∧ incAbsorpInEachLayer x = .ok s := by
  obtain ⟨x, hx, hw⟩ := coated_glass
  obtain ⟨s, hs, -⟩ := C149_shares_partial stripArcsin stripArcsin_sin stripArcsin_cos _ _ _ _ 0 1 one_pos x hx hw
  exact ⟨x, s, hx, hw.clear, hs⟩

end

end Nidn
