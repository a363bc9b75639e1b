/-
C148: `inc_tmm` solves the balance of the intensities in the incoherent layers.
-/
import Verif.Props.TmmGroups
import Verif.Props.TmmReverse

namespace Nidn

noncomputable section

/-- what happens between the incoherent layers `a` and `e`, which follow each other: an interface, or a stack of coherent layers seen from both sides -/
def LinkOf (asin : ℂ → ℂ) (pol : String) (n : List ℂ) (d : List (Option ℝ)) (th : List ℂ) (lam : ℝ) (a e : ℕ) (f : IncInterface) : Prop :=
  (e = a + 1 ∧ interfaceRPower pol (n.getD a 0) (n.getD e 0) (th.getD a 0) (th.getD e 0) = .ok f.R ∧ interfaceTPower pol (n.getD a 0) (n.getD e 0) (th.getD a 0) (th.getD e 0) = .ok f.T ∧
    interfaceRPower pol (n.getD e 0) (n.getD a 0) (th.getD e 0) (th.getD a 0) = .ok f.Rb ∧ interfaceTPower pol (n.getD e 0) (n.getD a 0) (th.getD e 0) (th.getD a 0) = .ok f.Tb) ∨
  (a + 1 < e ∧ ∃ c b, cohTmm asin pol ((n.drop a).take (e + 1 - a)) (none :: ((d.drop (a + 1)).take (e - a - 1) ++ [none])) (th.getD a 0) lam = .ok c ∧
    cohTmmReverse asin pol ((n.drop a).take (e + 1 - a)) (none :: ((d.drop (a + 1)).take (e - a - 1) ++ [none])) (th.getD a 0) lam = .ok b ∧
    f.R = c.R ∧ f.T = c.T ∧ f.Rb = b.R ∧ f.Tb = b.T)

/-- the share of the intensity that a pass through an incoherent layer leaves, but never less than 10⁻³⁰ -/
def PassOf (n : List ℂ) (d : List (Option ℝ)) (th : List ℂ) (lam : ℝ) (a : ℕ) (P : ℝ) : Prop :=
  ∃ x, d[a]? = some (some x) ∧ P = max 1e-30 (Real.exp (-(4 * Real.pi * x * (n.getD a 0 * Complex.cos (th.getD a 0)).im / lam)))

/-- The balance of intensities in `N` incoherent layers. `V k` and `W k` travel forward and backward at the front of layer `k`, a pass leaves `P k` of them. Light of intensity 1 arrives
from the front, `R` leaves to the front and `T` to the back, where nothing comes from. -/
structure Balanced (N : ℕ) (P : ℕ → ℝ) (f : ℕ → IncInterface) (V W : ℕ → ℝ) (R T : ℝ) : Prop where
  first_forward : V 1 = 1 * (f 0).T + W 1 * (f 0).Rb
  first_backward : R = 1 * (f 0).R + W 1 * (f 0).Tb
  forward : ∀ k, 1 ≤ k → k + 1 < N → V (k + 1) = V k * P k * (f k).T + W (k + 1) * (f k).Rb
  backward : ∀ k, 1 ≤ k → k + 1 < N → W k = P k * (V k * P k * (f k).R + W (k + 1) * (f k).Tb)
  last_forward : V (N - 1) = T
  last_backward : W (N - 1) = 0

lemma incMatrix_ok {f : IncInterface} {m : Matrix (Fin 2) (Fin 2) ℝ} (h : incMatrix f = .ok m) (v w : Fin 2 → ℝ) :
    f.T ≠ 0 ∧ (m.mulVec v = w ↔ v 0 = w 0 * f.T + v 1 * f.Rb ∧ w 1 = w 0 * f.R + v 1 * f.Tb) := by
  unfold incMatrix at h
  simp only [bind_ok, nanDivR_ok, pure, Except.pure, Except.ok.injEq] at h
  obtain ⟨u, ⟨hT, rfl⟩, rfl⟩ := h
  refine ⟨hT, ?_⟩
  have e0 : (((1 / f.T) • !![1, -f.Rb; f.R, f.Tb * f.T - f.Rb * f.R] : Matrix (Fin 2) (Fin 2) ℝ).mulVec v) 0 = (v 0 - f.Rb * v 1) / f.T := by
    simp [Matrix.mulVec, dotProduct, Fin.sum_univ_two]; ring
  have e1 : (((1 / f.T) • !![1, -f.Rb; f.R, f.Tb * f.T - f.Rb * f.R] : Matrix (Fin 2) (Fin 2) ℝ).mulVec v) 1 = (f.R * v 0 + (f.Tb * f.T - f.Rb * f.R) * v 1) / f.T := by
    simp [Matrix.mulVec, dotProduct, Fin.sum_univ_two]; ring
  rw [funext_iff, Fin.forall_fin_two, e0, e1, div_eq_iff hT, div_eq_iff hT]
  constructor
  · rintro ⟨h1, h2⟩
    refine ⟨by linarith, mul_right_cancel₀ hT ?_⟩
    linear_combination -h2 + f.R * h1
  · rintro ⟨h1, h2⟩
    refine ⟨by linarith, ?_⟩
    rw [h1, h2]; ring

lemma incLayerMatrix_ok {P : ℝ} {f : IncInterface} {L : Matrix (Fin 2) (Fin 2) ℝ} (h : incLayerMatrix P f = .ok L) (v w : Fin 2 → ℝ) :
    P ≠ 0 ∧ f.T ≠ 0 ∧ (L.mulVec v = w ↔ v 0 = w 0 * P * f.T + v 1 * f.Rb ∧ w 1 = P * (w 0 * P * f.R + v 1 * f.Tb)) := by
  unfold incLayerMatrix at h
  simp only [bind_ok, nanDivR_ok, pure, Except.pure, Except.ok.injEq] at h
  obtain ⟨u, ⟨hP, rfl⟩, m, hm, rfl⟩ := h
  obtain ⟨hT, hi⟩ := incMatrix_ok hm v ![w 0 * P, w 1 / P]
  refine ⟨hP, hT, ?_⟩
  simp only [Matrix.cons_val_zero, Matrix.cons_val_one] at hi
  rw [← Matrix.mulVec_mulVec]
  have key : (!![1 / P, 0; 0, P] : Matrix (Fin 2) (Fin 2) ℝ).mulVec (m.mulVec v) = w ↔ m.mulVec v = ![w 0 * P, w 1 / P] := by
    generalize m.mulVec v = z
    have e0 : ((!![1 / P, 0; 0, P] : Matrix (Fin 2) (Fin 2) ℝ).mulVec z) 0 = z 0 / P := by
      simp [Matrix.mulVec, dotProduct, Fin.sum_univ_two]; ring
    have e1 : ((!![1 / P, 0; 0, P] : Matrix (Fin 2) (Fin 2) ℝ).mulVec z) 1 = P * z 1 := by
      simp [Matrix.mulVec, dotProduct, Fin.sum_univ_two]
    rw [funext_iff, Fin.forall_fin_two, e0, e1, funext_iff, Fin.forall_fin_two, div_eq_iff hP]
    simp only [Matrix.cons_val_zero, Matrix.cons_val_one, eq_div_iff hP, mul_comm P]
  rw [key, hi, div_eq_iff hP, mul_comm P]

lemma foldl_mulVec' (M : List (Matrix (Fin 2) (Fin 2) ℝ)) (A : Matrix (Fin 2) (Fin 2) ℝ) (v : Fin 2 → ℝ) :
    (M.foldl (· * ·) A).mulVec v = A.mulVec (M.foldr (fun m v => m.mulVec v) v) := by
  induction M generalizing A with
  | nil => rfl
  | cons m M ih => rw [List.foldl_cons, ih, List.foldr_cons, Matrix.mulVec_mulVec]

lemma incVwAt_step {M : List (Matrix (Fin 2) (Fin 2) ℝ)} {t : ℝ} {i : ℕ} (hi : i < M.length) : incVwAt M t (i + 1) = M[i].mulVec (incVwAt M t (i + 2)) := by
  unfold incVwAt
  rw [Nat.add_sub_cancel, show i + 2 - 1 = i + 1 by omega, List.drop_eq_getElem_cons hi, List.foldr_cons]

lemma incVwAt_end (M : List (Matrix (Fin 2) (Fin 2) ℝ)) (t : ℝ) : incVwAt M t (M.length + 1) = ![t, 0] := by
  unfold incVwAt
  rw [Nat.add_sub_cancel, List.drop_length, List.foldr_nil]

/-- the parts of a successful run of `inc_tmm` -/
structure IncRun (asin : ℂ → ℂ) (pol : String) (n : List ℂ) (d : List (Option ℝ)) (c : List String) (th0 : ℂ) (lam : ℝ) (x : IncData) (th : List ℂ) : Prop where
  groups : incGroupLayers n d c = .ok x.groups
  angles : listSnell asin n th0 = .ok th
  two : 2 ≤ x.groups.allFromInc.length
  coh_len : x.coh.length = x.groups.allFromStack.length
  bcoh_len : x.bcoh.length = x.groups.allFromStack.length
  coh_at : ∀ j k a e, StackBetween n d x.groups j k a e → ∃ y, x.coh[j]? = some y ∧ cohTmm asin pol ((n.drop a).take (e + 1 - a)) (none :: ((d.drop (a + 1)).take (e - a - 1) ++ [none])) (th.getD a 0) lam = .ok y
  bcoh_at : ∀ j k a e, StackBetween n d x.groups j k a e → ∃ y, x.bcoh[j]? = some y ∧ cohTmmReverse asin pol ((n.drop a).take (e + 1 - a)) (none :: ((d.drop (a + 1)).take (e - a - 1) ++ [none])) (th.getD a 0) lam = .ok y
  links : ∀ k a e, x.groups.allFromInc[k]? = some a → x.groups.allFromInc[k + 1]? = some e → LinkOf asin pol n d th lam a e (x.interfaces.getD k ⟨0, 0, 0, 0⟩)
  link_stack : ∀ j k a e, StackBetween n d x.groups j k a e → ∀ y z, x.coh[j]? = some y → x.bcoh[j]? = some z → x.interfaces.getD k ⟨0, 0, 0, 0⟩ = ⟨y.R, y.T, z.R, z.T⟩
  passes : ∀ k a, 1 ≤ k → k + 1 < x.groups.allFromInc.length → x.groups.allFromInc[k]? = some a → PassOf n d th lam a (x.passes.getD k 0)
  link_ne : ∀ k, k + 1 < x.groups.allFromInc.length → (x.interfaces.getD k ⟨0, 0, 0, 0⟩).T ≠ 0
  vw_len : x.vw.length = x.groups.allFromInc.length
  balanced : Balanced x.groups.allFromInc.length (fun k => x.passes.getD k 0) (fun k => x.interfaces.getD k ⟨0, 0, 0, 0⟩) (fun k => x.vw.getD k 0 0) (fun k => x.vw.getD k 0 1) x.R x.T
  unique : ∀ V W R T, Balanced x.groups.allFromInc.length (fun k => x.passes.getD k 0) (fun k => x.interfaces.getD k ⟨0, 0, 0, 0⟩) V W R T → R = x.R ∧ T = x.T
  fb : x.stackFB = incStackFB x.groups x.passes x.vw
  entering : ∃ pe, x.entering = 1 :: pe ∧ pe.length = x.groups.allFromInc.length - 1 ∧
    ∀ i < x.groups.allFromInc.length - 1, incEntering x.groups x.passes x.interfaces x.vw x.coh x.bcoh x.stackFB (i + 1) = .ok (pe.getD i 0)
  fs_len : x.interfaces.length = x.groups.allFromInc.length - 1

lemma passShare_ok {d : Option ℝ} {q : ℂ} {lam P : ℝ} (h : passShare d q lam = .ok P) : ∃ x, d = some x ∧ P = max 1e-30 (Real.exp (-(4 * Real.pi * x * q.im / lam))) := by
  unfold passShare at h
  cases d with
  | none => cases h
  | some x =>
    simp only [bind_ok, nanDivR_ok, pure, Except.pure, Except.ok.injEq] at h
    obtain ⟨e, ⟨-, rfl⟩, rfl⟩ := h
    refine ⟨x, rfl, ?_⟩
    rw [show -(4 * Real.pi * x * q.im / lam) = -4 * Real.pi * x * q.im / lam by ring]
    split
    · rename_i hh; rw [max_eq_left hh.le]
    · rename_i hh; rw [max_eq_right (not_lt.1 hh)]

lemma incTmm_run {asin : ℂ → ℂ} {pol : String} {n : List ℂ} {d : List (Option ℝ)} {c : List String} {th0 : ℂ} {lam : ℝ} {x : IncData} (h : incTmm asin pol n d c th0 lam = .ok x) :
    ∃ th, IncRun asin pol n d c th0 lam x th := by
  unfold incTmm at h
  obtain ⟨n0, hn0, h⟩ := bind_ok.1 h
  split at h
  · cases h
  simp only [bind_ok, pure, Except.pure, Except.ok.injEq] at h
  obtain ⟨g, hg, th, hth, coh, hcoh, bcoh, hbcoh, P, hP, fs, hfs, f0, hf0, m0, hm0, L, hL, T, hT, R, hR, pe, hpe, hx⟩ := h
  refine ⟨th, ?_⟩
  obtain ⟨hG, inv, hp, hF, hlast, hfirst⟩ := groups_inv hg
  obtain ⟨lc, ec⟩ := mapM_ok _ _ _ hcoh
  obtain ⟨lb, eb⟩ := mapM_ok _ _ _ hbcoh
  obtain ⟨lP, eP⟩ := mapM_ok _ _ _ hP
  obtain ⟨lf, ef⟩ := mapM_ok _ _ _ hfs
  obtain ⟨lL, eL⟩ := mapM_ok _ _ _ hL
  obtain ⟨lp, ep⟩ := mapM_ok _ _ _ hpe
  simp only [List.length_range, List.getElem_range] at lc ec lb eb lP eP lf ef lL eL lp ep
  rw [pyNth_zero] at hf0
  have two : 2 ≤ g.allFromInc.length := by
    have := (List.getElem?_eq_some_iff.1 hf0).1
    omega
  have hf0' : fs.getD 0 ⟨0, 0, 0, 0⟩ = f0 := by simp [List.getD, hf0]
  have Ls : ∀ k (hk : k < g.allFromInc.length - 2), incLayerMatrix (P.getD (k + 1) 0) (fs.getD (k + 1) ⟨0, 0, 0, 0⟩) = .ok (L[k]'(by omega)) := by
    intro k hk
    obtain ⟨f, hf, hl⟩ := bind_ok.1 (eL k hk (by omega))
    rw [pyNth_nat] at hf
    rw [show fs.getD (k + 1) ⟨0, 0, 0, 0⟩ = f by simp [List.getD, hf]]
    exact hl
  have hgx : x.groups = g := by rw [← hx]
  have hPx : x.passes = P := by rw [← hx]
  have hfx : x.interfaces = fs := by rw [← hx]
  have hvx : x.vw = 0 :: (List.range (g.allFromInc.length - 1)).map fun i => incVwAt L T (i + 1) := by rw [← hx]
  have vws : ∀ k, 1 ≤ k → k < g.allFromInc.length → x.vw.getD k 0 = incVwAt L T k := by
    intro k h1 h2
    obtain ⟨j, rfl⟩ := Nat.exists_eq_add_of_le' h1
    rw [hvx, List.getD_cons_succ, getD_at (by simp; omega)]
    simp
  obtain ⟨lt0, hT⟩ := nanDivR_ok.1 hT
  obtain ⟨-, hR⟩ := nanDivR_ok.1 hR
  have etop : ∀ t, m0.mulVec (incVwAt L t 1) = (L.foldl (· * ·) m0).mulVec ![t, 0] := by
    intro t
    rw [foldl_mulVec']
    rfl
  have emul : ∀ t : ℝ, (L.foldl (· * ·) m0).mulVec ![t, 0] = ![(L.foldl (· * ·) m0) 0 0 * t, (L.foldl (· * ·) m0) 1 0 * t] := by
    intro t
    generalize L.foldl (· * ·) m0 = Q
    funext i
    rw [Matrix.mulVec, dotProduct, Fin.sum_univ_two]
    fin_cases i <;> simp
  have hRT : m0.mulVec (incVwAt L T 1) = ![1, R] := by
    rw [etop, emul, hT, hR, mul_one_div, mul_one_div, div_self lt0]
  have cohs : ∀ j k a e, StackBetween n d g j k a e → ∃ y, coh[j]? = some y ∧ cohTmm asin pol ((n.drop a).take (e + 1 - a)) (none :: ((d.drop (a + 1)).take (e - a - 1) ++ [none])) (th.getD a 0) lam = .ok y := by
    intro j k a e hst
    have hj := (List.getElem?_eq_some_iff.1 hst.layers).1
    refine ⟨coh[j]'(by omega), List.getElem?_eq_getElem _, ?_⟩
    have := ec j hj (by omega)
    have hg := hst.gap
    rwa [show g.stackN.getD j [] = _ by simp [List.getD, hst.indices]; rfl, show g.stackD.getD j [] = _ by simp [List.getD, hst.thicknesses]; rfl,
      show (g.allFromStack.getD j []).getD 0 0 = a by
        rw [show g.allFromStack.getD j [] = _ by simp [List.getD, hst.layers]; rfl, show e + 1 - a = (e - a) + 1 by omega, List.range'_succ]; rfl] at this
  have bcohs : ∀ j k a e, StackBetween n d g j k a e → ∃ y, bcoh[j]? = some y ∧ cohTmmReverse asin pol ((n.drop a).take (e + 1 - a)) (none :: ((d.drop (a + 1)).take (e - a - 1) ++ [none])) (th.getD a 0) lam = .ok y := by
    intro j k a e hst
    have hj := (List.getElem?_eq_some_iff.1 hst.layers).1
    refine ⟨bcoh[j]'(by omega), List.getElem?_eq_getElem _, ?_⟩
    have := eb j hj (by omega)
    have hg := hst.gap
    rwa [show g.stackN.getD j [] = _ by simp [List.getD, hst.indices]; rfl, show g.stackD.getD j [] = _ by simp [List.getD, hst.thicknesses]; rfl,
      show (g.allFromStack.getD j []).getD 0 0 = a by
        rw [show g.allFromStack.getD j [] = _ by simp [List.getD, hst.layers]; rfl, show e + 1 - a = (e - a) + 1 by omega, List.range'_succ]; rfl] at this
  constructor
  case groups => rw [hgx]; exact hg
  case angles => exact hth
  case two => rw [hgx]; exact two
  case coh_len => rw [hgx, ← hx]; exact lc
  case bcoh_len => rw [hgx, ← hx]; exact lb
  case coh_at => rw [hgx, show x.coh = coh by rw [← hx]]; exact cohs
  case bcoh_at => rw [hgx, show x.bcoh = bcoh by rw [← hx]]; exact bcohs
  case links =>
    intro k a e ha he
    rw [hgx] at ha he
    rw [hfx]
    have hk := (List.getElem?_eq_some_iff.1 he).1
    have hfk := ef k (by omega) (by omega)
    rw [getD_at (show k < fs.length by omega)]
    unfold incInterface at hfk
    simp only [show g.allFromInc.getD k 0 = a by simp [List.getD, ha]] at hfk
    rcases inv.next k a e ha he with ⟨h3, rfl⟩ | ⟨j, hj, hst⟩
    · left
      rw [show g.stackFromInc.getD (k + 1) none = none by simp [List.getD, h3]] at hfk
      simp only [bind_ok, pure, Except.pure, Except.ok.injEq] at hfk
      obtain ⟨r1, h1, r2, h2, r3, h3, r4, h4, h5⟩ := hfk
      rw [← h5]
      exact ⟨rfl, h1, h2, h3, h4⟩
    · right
      rw [show g.stackFromInc.getD (k + 1) none = some j by simp [List.getD, hst.stack_from]] at hfk
      simp only [bind_ok, pure, Except.pure, Except.ok.injEq, pyNth_nat] at hfk
      obtain ⟨y, hy, z, hz, h5⟩ := hfk
      obtain ⟨y', hy', h6⟩ := cohs j k a e hst
      obtain ⟨z', hz', h7⟩ := bcohs j k a e hst
      rw [hy, Option.some.injEq] at hy'
      rw [hz, Option.some.injEq] at hz'
      subst hy' hz'
      rw [← h5]
      exact ⟨hst.gap, y, z, h6, h7, rfl, rfl, rfl, rfl⟩
  case link_stack =>
    intro j k a e hst y z hy hz
    rw [hgx] at hst
    rw [show x.coh = coh by rw [← hx]] at hy
    rw [show x.bcoh = bcoh by rw [← hx]] at hz
    rw [hfx]
    have hk := (List.getElem?_eq_some_iff.1 hst.after).1
    have hfk := ef k (by omega) (by omega)
    rw [getD_at (show k < fs.length by omega)]
    unfold incInterface at hfk
    simp only [show g.stackFromInc.getD (k + 1) none = some j by simp [List.getD, hst.stack_from], bind_ok, pure, Except.pure, Except.ok.injEq, pyNth_nat, hy, hz] at hfk
    obtain ⟨y', hy', z', hz', h5⟩ := hfk
    rw [Option.some.injEq] at hy' hz'
    subst hy' hz'
    exact h5.symm
  case passes =>
    intro k a h1 h2 ha
    rw [hgx] at h2 ha
    rw [hPx]
    have := eP k (by omega) (by omega)
    rw [if_neg (by omega)] at this
    obtain ⟨y, hy, hP'⟩ := passShare_ok this
    rw [show g.allFromInc.getD k 0 = a by simp [List.getD, ha]] at hy hP'
    refine ⟨y, ?_, by rw [getD_at (by omega)]; exact hP'⟩
    have hal : a < d.length := by
      have h3 : a ∈ g.allFromInc := List.mem_of_getElem? ha
      rw [inv.inc_def] at h3
      have := List.mem_range.1 (List.mem_filter.1 h3).1
      rw [hG.1]; exact this
    rw [getD_at hal] at hy
    rw [List.getElem?_eq_getElem hal, hy]
  case link_ne =>
    intro k hk
    rw [hgx] at hk
    rw [hfx]
    rcases Nat.eq_zero_or_pos k with rfl | h1
    · rw [hf0']; exact (incMatrix_ok hm0 0 0).1
    · obtain ⟨j, rfl⟩ := Nat.exists_eq_add_of_le' h1
      exact (incLayerMatrix_ok (Ls j (by omega)) 0 0).2.1
  case vw_len => rw [hgx, hvx]; simp; omega
  case balanced =>
    rw [hgx, hPx, hfx]
    have hRx : x.R = R := by rw [← hx]
    have hTx : x.T = T := by rw [← hx]
    have h0 := (incMatrix_ok hm0 (incVwAt L T 1) ![1, R]).2.1 hRT
    simp only [Matrix.cons_val_zero, Matrix.cons_val_one] at h0
    have hend : x.vw.getD (g.allFromInc.length - 1) 0 = ![T, 0] := by
      rw [vws _ (by omega) (by omega), show g.allFromInc.length - 1 = L.length + 1 by omega, incVwAt_end]
    constructor
    · show x.vw.getD 1 0 0 = _ + x.vw.getD 1 0 1 * _
      rw [vws 1 le_rfl (by omega), hf0']; exact h0.1
    · show _ = _ + x.vw.getD 1 0 1 * _
      rw [vws 1 le_rfl (by omega), hf0', hRx]; exact h0.2
    · intro k h1 h2
      show x.vw.getD (k + 1) 0 0 = x.vw.getD k 0 0 * _ * _ + x.vw.getD (k + 1) 0 1 * _
      rw [vws k h1 (by omega), vws (k + 1) (by omega) h2]
      obtain ⟨j, rfl⟩ := Nat.exists_eq_add_of_le' h1
      exact ((incLayerMatrix_ok (Ls j (by omega)) _ _).2.2.1 (incVwAt_step (t := T) (by omega)).symm).1
    · intro k h1 h2
      show x.vw.getD k 0 1 = _ * (x.vw.getD k 0 0 * _ * _ + x.vw.getD (k + 1) 0 1 * _)
      rw [vws k h1 (by omega), vws (k + 1) (by omega) h2]
      obtain ⟨j, rfl⟩ := Nat.exists_eq_add_of_le' h1
      exact ((incLayerMatrix_ok (Ls j (by omega)) _ _).2.2.1 (incVwAt_step (t := T) (by omega)).symm).2
    · show x.vw.getD _ 0 0 = _
      rw [hend, hTx]; rfl
    · show x.vw.getD _ 0 1 = _
      rw [hend]; rfl
  case unique =>
    rw [hgx, hPx, hfx]
    intro V W R' T' hb
    have hback : ∀ i, i + 1 < g.allFromInc.length → ![V (g.allFromInc.length - 1 - i), W (g.allFromInc.length - 1 - i)] = incVwAt L T' (g.allFromInc.length - 1 - i) := by
      intro i
      induction i with
      | zero =>
        intro _
        rw [Nat.sub_zero, hb.last_forward, hb.last_backward, show g.allFromInc.length - 1 = L.length + 1 by omega, incVwAt_end]
      | succ i ih =>
        intro hi
        obtain ⟨j, hj⟩ : ∃ j, g.allFromInc.length - 1 - (i + 1) = j + 1 := ⟨g.allFromInc.length - 3 - i, by omega⟩
        have ih' := ih (by omega)
        rw [show g.allFromInc.length - 1 - i = j + 2 by omega] at ih'
        rw [hj, incVwAt_step (by omega), ← ih']
        symm
        refine (incLayerMatrix_ok (Ls j (by omega)) _ _).2.2.2 ?_
        simp only [Matrix.cons_val_zero, Matrix.cons_val_one]
        exact ⟨hb.forward (j + 1) (by omega) (by omega), hb.backward (j + 1) (by omega) (by omega)⟩
    have h1 := hback (g.allFromInc.length - 2) (by omega)
    rw [show g.allFromInc.length - 1 - (g.allFromInc.length - 2) = 1 by omega] at h1
    have h2 : m0.mulVec ![V 1, W 1] = ![1, R'] := by
      refine (incMatrix_ok hm0 _ _).2.2 ?_
      simp only [Matrix.cons_val_zero, Matrix.cons_val_one]
      rw [← hf0']
      exact ⟨hb.first_forward, hb.first_backward⟩
    rw [h1, etop, emul] at h2
    have e0 : (L.foldl (· * ·) m0) 0 0 * T' = 1 := congrFun h2 0
    have e1 : (L.foldl (· * ·) m0) 1 0 * T' = R' := congrFun h2 1
    have hT' : T' = T := by rw [hT, eq_div_iff lt0, mul_comm]; exact e0
    have hRx : x.R = R := by rw [← hx]
    have hTx : x.T = T := by rw [← hx]
    rw [hRx, hTx]
    refine ⟨?_, hT'⟩
    rw [← e1, hT', hT, hR]; ring
  case fb => rw [← hx]
  case entering =>
    refine ⟨pe, by rw [← hx], by rw [hgx]; omega, ?_⟩
    rw [hgx]
    intro i hi
    have := ep i hi (by omega)
    rw [getD_at (by omega), ← this, ← hx]
  case fs_len => rw [hfx, hgx]; omega

lemma LinkOf.same {asin : ℂ → ℂ} {pol : String} {n : List ℂ} {d d' : List (Option ℝ)} {th : List ℂ} {lam : ℝ} {a e : ℕ} {f f' : IncInterface} (h : LinkOf asin pol n d th lam a e f)
    (h' : LinkOf asin pol n d' th lam a e f') (hd : (d.drop (a + 1)).take (e - a - 1) = (d'.drop (a + 1)).take (e - a - 1)) : f = f' := by
  cases f
  cases f'
  rcases h with ⟨h0, h1, h2, h3, h4⟩ | ⟨h0, y, z, hy, hz, h1, h2, h3, h4⟩ <;> rcases h' with ⟨g0, g1, g2, g3, g4⟩ | ⟨g0, y', z', hy', hz', g1, g2, g3, g4⟩
  · rw [g1, Except.ok.injEq] at h1
    rw [g2, Except.ok.injEq] at h2
    rw [g3, Except.ok.injEq] at h3
    rw [g4, Except.ok.injEq] at h4
    simp_all
  · omega
  · omega
  · rw [hd] at hy hz
    rw [hy, Except.ok.injEq] at hy'
    rw [hz, Except.ok.injEq] at hz'
    subst hy' hz'
    simp_all

/-- C148. `inc_tmm` solves the balance of intensities: with the reflectances and transmittances of the interfaces and coherent stacks between the incoherent layers, and the losses of a pass through
each incoherent layer, `R` and `T` are those of the only solution, and `VW_list` holds the intensities in the layers. -/
theorem C148_balance (asin : ℂ → ℂ) (pol : String) (n : List ℂ) (d : List (Option ℝ)) (c : List String) (th0 : ℂ) (lam : ℝ) (x : IncData) (h : incTmm asin pol n d c th0 lam = .ok x) :
    ∃ (inc : List ℕ) (th : List ℂ) (P : ℕ → ℝ) (f : ℕ → IncInterface), inc = ((List.range n.length).filter fun k => c.getD k "" = "i") ∧ listSnell asin n th0 = .ok th ∧ 2 ≤ inc.length ∧
      (∀ k a, 1 ≤ k → k + 1 < inc.length → inc[k]? = some a → PassOf n d th lam a (P k)) ∧
      (∀ k a e : ℕ, inc[k]? = some a → inc[k + 1]? = some e → LinkOf asin pol n d th lam a e (f k)) ∧
      x.vw.length = inc.length ∧ Balanced inc.length P f (fun k => x.vw.getD k 0 0) (fun k => x.vw.getD k 0 1) x.R x.T ∧
      ∀ V W R T, Balanced inc.length P f V W R T → R = x.R ∧ T = x.T := by
  obtain ⟨th, hr⟩ := incTmm_run h
  refine ⟨x.groups.allFromInc, th, fun k => x.passes.getD k 0, fun k => x.interfaces.getD k ⟨0, 0, 0, 0⟩, (groups_inv hr.groups).2.1.inc_def, hr.angles, hr.two, hr.passes, hr.links, hr.vw_len, hr.balanced, hr.unique⟩

/-- C148. The thickness of an incoherent layer without losses does not matter. -/
theorem C148_thickness (asin : ℂ → ℂ) (pol : String) (n : List ℂ) (d d' : List (Option ℝ)) (c : List String) (th0 : ℂ) (lam : ℝ) (x x' : IncData) (th : List ℂ) (h : incTmm asin pol n d c th0 lam = .ok x)
    (h' : incTmm asin pol n d' c th0 lam = .ok x') (hth : listSnell asin n th0 = .ok th)
    (hd : ∀ k : ℕ, d[k]? = d'[k]? ∨ c[k]? = some "i" ∧ (n.getD k 0 * Complex.cos (th.getD k 0)).im = 0) : x.R = x'.R ∧ x.T = x'.T := by
  obtain ⟨th1, hr⟩ := incTmm_run h
  obtain ⟨th2, hr'⟩ := incTmm_run h'
  obtain ⟨hG, inv, -⟩ := groups_inv hr.groups
  obtain ⟨hG', inv', -⟩ := groups_inv hr'.groups
  have e1 := hr.angles
  have e2 := hr'.angles
  rw [hth, Except.ok.injEq] at e1 e2
  subst e1 e2
  have hinc : x'.groups.allFromInc = x.groups.allFromInc := by rw [inv.inc_def, inv'.inc_def]
  have hb := hr'.balanced
  rw [hinc] at hb
  have hmem : ∀ (k a : ℕ), x.groups.allFromInc[k]? = some a → a < n.length := by
    intro k a hk
    have := List.mem_of_getElem? hk
    rw [inv.inc_def] at this
    exact List.mem_range.1 (List.mem_filter.1 this).1
  have hlink : ∀ k, k + 1 < x.groups.allFromInc.length → x'.interfaces.getD k ⟨0, 0, 0, 0⟩ = x.interfaces.getD k ⟨0, 0, 0, 0⟩ := by
    intro k hk
    obtain ⟨a, ha⟩ : ∃ a, x.groups.allFromInc[k]? = some a := ⟨_, List.getElem?_eq_getElem (by omega)⟩
    obtain ⟨e, he⟩ : ∃ a, x.groups.allFromInc[k + 1]? = some a := ⟨_, List.getElem?_eq_getElem hk⟩
    refine (hr'.links k a e (by rw [hinc]; exact ha) (by rw [hinc]; exact he)).same (hr.links k a e ha he) ?_
    refine List.ext_getElem? fun i => ?_
    rw [List.getElem?_take, List.getElem?_take]
    split
    · rename_i hi
      rw [List.getElem?_drop, List.getElem?_drop]
      rcases hd (a + 1 + i) with h3 | ⟨h3, -⟩
      · exact h3.symm
      · exfalso
        -- an incoherent layer between two that follow each other
        have hm : (a + 1 + i) ∈ x.groups.allFromInc := by
          rw [inv.inc_def, List.mem_filter, List.mem_range]
          have := hmem _ _ he
          exact ⟨by omega, by simp [List.getD, h3]⟩
        obtain ⟨q, hq, hq'⟩ := List.getElem_of_mem hm
        have hs : x.groups.allFromInc.Pairwise (· < ·) := by rw [inv.inc_def]; exact List.Pairwise.filter _ List.pairwise_lt_range
        rw [List.pairwise_iff_getElem] at hs
        obtain ⟨ka, ea⟩ := List.getElem?_eq_some_iff.1 ha
        obtain ⟨ke, ee⟩ := List.getElem?_eq_some_iff.1 he
        rcases Nat.lt_or_ge k q with h4 | h4
        · rcases Nat.lt_or_ge q (k + 1) with h5 | h5
          · omega
          · rcases Nat.eq_or_lt_of_le h5 with h6 | h6
            · subst h6; omega
            · have := hs (k + 1) q ke hq h6; omega
        · rcases Nat.eq_or_lt_of_le h4 with h6 | h6
          · subst h6; omega
          · have := hs q k hq ka h6; omega
    · rfl
  have hpass : ∀ k, 1 ≤ k → k + 1 < x.groups.allFromInc.length → x'.passes.getD k 0 = x.passes.getD k 0 := by
    intro k h1 h2
    obtain ⟨a, ha⟩ : ∃ a, x.groups.allFromInc[k]? = some a := ⟨_, List.getElem?_eq_getElem (by omega)⟩
    obtain ⟨y, hy, hP⟩ := hr.passes k a h1 h2 ha
    obtain ⟨y', hy', hP'⟩ := hr'.passes k a h1 (by rw [hinc]; exact h2) (by rw [hinc]; exact ha)
    rw [hP, hP']
    rcases hd a with h3 | ⟨-, h3⟩
    · rw [hy, hy', Option.some.injEq, Option.some.injEq] at h3
      rw [h3]
    · rw [h3, mul_zero, mul_zero]
  have hb' : Balanced x.groups.allFromInc.length (fun k => x.passes.getD k 0) (fun k => x.interfaces.getD k ⟨0, 0, 0, 0⟩) (fun k => x'.vw.getD k 0 0) (fun k => x'.vw.getD k 0 1) x'.R x'.T := by
    have two := hr.two
    constructor
    · rw [hb.first_forward, hlink 0 (by omega)]
    · rw [hb.first_backward, hlink 0 (by omega)]
    · intro k h1 h2; rw [hb.forward k h1 h2, hlink k h2, hpass k h1 h2]
    · intro k h1 h2; rw [hb.backward k h1 h2, hlink k h2, hpass k h1 h2]
    · exact hb.last_forward
    · exact hb.last_backward
  obtain ⟨h3, h4⟩ := hr.unique _ _ _ _ hb'
  exact ⟨h3.symm, h4.symm⟩

/-- C148. If only the two outer layers are incoherent, `inc_tmm` gives the reflectance and transmittance of `coh_tmm`, at the angle `θ` that `list_snell` finds in the first layer. -/
theorem C148_coherent (asin : ℂ → ℂ) (pol : String) (n : List ℂ) (d : List (Option ℝ)) (c : List String) (th0 : ℂ) (lam : ℝ) (x : IncData) (h : incTmm asin pol n d c th0 lam = .ok x)
    (hn : 3 ≤ n.length) (hc : ∀ k, 1 ≤ k → k + 1 < n.length → c[k]? = some "c") :
    ∃ th y, listSnell asin n th0 = .ok th ∧ cohTmm asin pol n d (th.getD 0 0) lam = .ok y ∧ x.R = y.R ∧ x.T = y.T := by
  obtain ⟨th, hr⟩ := incTmm_run h
  obtain ⟨hG, inv, -, -, hlast, hfirst⟩ := groups_inv hr.groups
  obtain ⟨g1, g2, g3, g4, -⟩ := hG
  have two := hr.two
  have hmem : ∀ a ∈ x.groups.allFromInc, a = 0 ∨ a = n.length - 1 := by
    intro a ha
    rw [inv.inc_def, List.mem_filter, List.mem_range] at ha
    by_contra hh
    have := hc a (by omega) (by omega)
    simp [List.getD, this] at ha
  have hs : x.groups.allFromInc.Pairwise (· < ·) := by rw [inv.inc_def]; exact List.Pairwise.filter _ List.pairwise_lt_range
  have hlen : x.groups.allFromInc.length = 2 := by
    by_contra hh
    rw [List.pairwise_iff_getElem] at hs
    have h01 := hs 0 1 (by omega) (by omega) (by omega)
    have h12 := hs 1 2 (by omega) (by omega) (by omega)
    rcases hmem _ (List.getElem_mem (l := x.groups.allFromInc) (n := 1) (by omega)) with h1 | h1 <;>
      rcases hmem _ (List.getElem_mem (l := x.groups.allFromInc) (n := 2) (by omega)) with h2 | h2 <;> omega
  rw [hlen] at hlast
  have hb := hr.balanced
  rw [hlen] at hb
  have e1 := hb.first_forward
  have e2 := hb.first_backward
  have e3 := hb.last_forward
  have e4 := hb.last_backward
  simp only [show 2 - 1 = 1 from rfl] at e3 e4
  rw [e4] at e1 e2
  rcases hr.links 0 0 (n.length - 1) hfirst hlast with ⟨h0, -⟩ | ⟨h0, y, z, hy, hz, h1, h2, h3, h4⟩
  · omega
  · refine ⟨th, y, hr.angles, ?_, by rw [e2, h1]; ring, by rw [← e3, e1, h2]; ring⟩
    have q1 : (n.drop 0).take (n.length - 1 + 1 - 0) = n := by rw [List.drop_zero, List.take_of_length_le (by omega)]
    have q2 : none :: ((d.drop (0 + 1)).take (n.length - 1 - 0 - 1) ++ [none]) = d := by
      have hd0 : d = none :: d.drop 1 := by
        cases d with
        | nil => simp at g3
        | cons a d => simp at g3; simp [g3]
      have hlast' : d.drop 1 = (d.drop 1).take (n.length - 2) ++ [none] := by
        conv_lhs => rw [← List.take_append_drop (n.length - 2) (d.drop 1)]
        congr 1
        rw [List.drop_drop, show 1 + (n.length - 2) = n.length - 1 by omega]
        refine List.ext_getElem? fun i => ?_
        rw [List.getElem?_drop]
        cases i with
        | zero => simpa [g1] using g4
        | succ i => rw [List.getElem?_eq_none (by omega)]; rfl
      conv_rhs => rw [hd0, hlast']
      rw [show n.length - 1 - 0 - 1 = n.length - 2 by omega]
    rw [q1, q2] at hy
    exact hy

/-- C148. One incoherent layer between two media: the sums over all internal reflections. -/
theorem C148_slab (asin : ℂ → ℂ) (pol : String) (n0 n1 n2 : ℂ) (d : ℝ) (th0 t0 th1 th2 : ℂ) (lam : ℝ) (x : IncData) (h : incTmm asin pol [n0, n1, n2] [none, some d, none] ["i", "i", "i"] th0 lam = .ok x)
    (hth : listSnell asin [n0, n1, n2] th0 = .ok [t0, th1, th2]) (R01 T01 R10 T10 R12 T12 P : ℝ) (h1 : interfaceRPower pol n0 n1 t0 th1 = .ok R01) (h2 : interfaceTPower pol n0 n1 t0 th1 = .ok T01)
    (h3 : interfaceRPower pol n1 n0 th1 t0 = .ok R10) (h4 : interfaceTPower pol n1 n0 th1 t0 = .ok T10) (h5 : interfaceRPower pol n1 n2 th1 th2 = .ok R12)
    (h6 : interfaceTPower pol n1 n2 th1 th2 = .ok T12) (hP : P = max 1e-30 (Real.exp (-(4 * Real.pi * d * (n1 * Complex.cos th1).im / lam)))) :
    1 - P ^ 2 * R10 * R12 ≠ 0 ∧ x.R = R01 + T01 * P ^ 2 * R12 * T10 / (1 - P ^ 2 * R10 * R12) ∧ x.T = T01 * P * T12 / (1 - P ^ 2 * R10 * R12) := by
  obtain ⟨th, hr⟩ := incTmm_run h
  have ha := hr.angles
  rw [hth, Except.ok.injEq] at ha
  subst ha
  obtain ⟨hG, inv, -⟩ := groups_inv hr.groups
  have hinc : x.groups.allFromInc = [0, 1, 2] := by rw [inv.inc_def]; rfl
  have hb := hr.balanced
  have hl0 := hr.links 0 0 1 (by rw [hinc]; rfl) (by rw [hinc]; rfl)
  have hl1 := hr.links 1 1 2 (by rw [hinc]; rfl) (by rw [hinc]; rfl)
  have hp := hr.passes 1 1 le_rfl (by rw [hinc]; decide) (by rw [hinc]; rfl)
  have hn0 := hr.link_ne 0 (by rw [hinc]; decide)
  have hn1 := hr.link_ne 1 (by rw [hinc]; decide)
  rw [hinc] at hb
  obtain ⟨b1, b2, b3, b4, b5, b6⟩ := hb
  have b3 := b3 1 le_rfl (by decide)
  have b4 := b4 1 le_rfl (by decide)
  simp only [show 1 + 1 = 2 from rfl, show ([0, 1, 2] : List ℕ).length - 1 = 2 from rfl] at b3 b4 b5 b6
  rw [b6] at b3 b4
  generalize x.interfaces.getD 0 ⟨0, 0, 0, 0⟩ = f at *
  generalize x.interfaces.getD 1 ⟨0, 0, 0, 0⟩ = g at *
  obtain ⟨y, hy, hP'⟩ := hp
  simp only [List.getElem?_cons_succ, List.getElem?_cons_zero, Option.some.injEq] at hy
  subst hy
  simp only [List.getD_cons_succ, List.getD_cons_zero] at hP'
  rw [← hP] at hP'
  rcases hl0 with ⟨-, k1, k2, k3, k4⟩ | ⟨k0, -⟩
  swap
  · omega
  rcases hl1 with ⟨-, m1, m2, m3, m4⟩ | ⟨k0, -⟩
  swap
  · omega
  simp only [List.getD_cons_succ, List.getD_cons_zero] at k1 k2 k3 k4 m1 m2
  rw [h1, Except.ok.injEq] at k1
  rw [h2, Except.ok.injEq] at k2
  rw [h3, Except.ok.injEq] at k3
  rw [h4, Except.ok.injEq] at k4
  rw [h5, Except.ok.injEq] at m1
  rw [h6, Except.ok.injEq] at m2
  rw [hP'] at b3 b4
  rw [← k1, ← k4] at b2
  rw [← k2, ← k3] at b1
  rw [← k2] at hn0
  rw [← m2] at hn1 b3
  rw [← m1] at b4
  generalize x.vw.getD 1 0 0 = v at *
  generalize x.vw.getD 1 0 1 = w at *
  rw [b5] at b3
  have key : v * (1 - P ^ 2 * R10 * R12) = T01 := by
    rw [b4] at b1
    linear_combination b1
  have hne : 1 - P ^ 2 * R10 * R12 ≠ 0 := by
    intro e; rw [e, mul_zero] at key; exact hn0 key.symm
  refine ⟨hne, ?_, ?_⟩
  · have hv : v = T01 / (1 - P ^ 2 * R10 * R12) := by rw [eq_div_iff hne, key]
    rw [b2, b4, hv]
    ring
  · have hv : v = T01 / (1 - P ^ 2 * R10 * R12) := by rw [eq_div_iff hne, key]
    rw [b3, hv]
    ring

end

end Nidn
