/-
C92: the wave front of the free-space simulation arrives at every plane exactly when it should.
-/
import Verif.Props.FdtdRows

namespace Nidn

/-- free space -/
noncomputable def freeSpace : Materials ℝ := ⟨fun _ _ => 1 / 1, fun _ _ => 0⟩

/-- H along x of rows zero and one after one more step -/
lemma built_Hx_next (c : FdtdCfg) (s wl : ℝ) (g : GridNumbers) (m : Materials ℝ) (prof : List ℝ) (k x y : ℕ) (hy' : y < 2) (h1 : (pmlCells c s).toNat ≤ x)
    (h2 : x < (xSize c s).toNat - (pmlCells c s).toNat) :
    ((builtGrid c s wl g m prof).run (k + 1)).H ![x, y, 0] 0 = ((builtGrid c s wl g m prof).run k).H ![x, y, 0] 0
      - g.courant * (((builtGrid c s wl g m prof).run (k + 1)).E ![x, y + 1, 0] 2 - ((builtGrid c s wl g m prof).run (k + 1)).E ![x, y, 0] 2) := by
  obtain ⟨B, hB, hH⟩ := built_H_step c s wl g m prof k
  rw [hH]
  unfold periodicH
  rw [if_neg (show ¬ (![x, y, 0] : Pos) 1 = (![(xSize c s).toNat, 3, 1] : Pos) 1 - 1 by show ¬ y = 3 - 1; omega), hB _ h1 h2]
  show _ - g.courant * 1 * (dUp _ _ 1 2 _ - dUp _ _ 2 1 _) = _
  unfold dUp
  rw [if_neg (show ¬ (![x, y, 0] : Pos) 2 + 1 < (![(xSize c s).toNat, 3, 1] : Pos) 2 by show ¬ 0 + 1 < 1; decide),
    if_pos (show (![x, y, 0] : Pos) 1 + 1 < (![(xSize c s).toNat, 3, 1] : Pos) 1 by show y + 1 < 3; omega)]
  rw [show Pos.up ![x, y, 0] 1 = ![x, y + 1, 0] by funext i; fin_cases i <;> rfl]
  ring

section
variable (c : FdtdCfg) (s wl : ℝ) (g : GridNumbers) (a b : ℝ)

/-- ahead of the wave front there is no field -/
lemma front_dark (h : LineSetup c s) (h0 : signalValue (lineSignal g (simSpec wl c.pulse)) 0 = 0) (k : ℕ) :
    (∀ x : ℕ, (k : ℤ) ≤ x - pmlCells c s + 1 → (k : ℤ) ≤ xSize c s - pmlCells c s - x → (k : ℤ) ≤ |(x : ℤ) - sourceCell c s| + 1 →
      ∀ y, y < 3 → ((builtGrid c s wl g freeSpace [a, b, a]).run k).E ![x, y, 0] 2 = 0) ∧
    (∀ x : ℕ, (k : ℤ) ≤ x - pmlCells c s + 1 → (k : ℤ) ≤ xSize c s - pmlCells c s - 1 - x → (k : ℤ) ≤ |(x : ℤ) - sourceCell c s| + 1 → (k : ℤ) ≤ |(x : ℤ) + 1 - sourceCell c s| + 1 →
      ∀ y, y < 3 → ((builtGrid c s wl g freeSpace [a, b, a]).run k).H ![x, y, 0] 1 = 0 ∧ ((builtGrid c s wl g freeSpace [a, b, a]).run k).H ![x, y, 0] 0 = 0) := by
  have hp := h.pml
  have hN := xSize_toNat c s h.geometry
  have hsl := h.sourceLow
  induction k with
  | zero => exact ⟨fun _ _ _ _ _ _ => rfl, fun _ _ _ _ _ _ _ => ⟨rfl, rfl⟩⟩
  | succ k ih =>
    obtain ⟨iE, iH⟩ := ih
    have sE : ∀ x : ℕ, ((k + 1 : ℕ) : ℤ) ≤ x - pmlCells c s + 1 → ((k + 1 : ℕ) : ℤ) ≤ xSize c s - pmlCells c s - x → ((k + 1 : ℕ) : ℤ) ≤ |(x : ℤ) - sourceCell c s| + 1 →
        ∀ y, y < 3 → ((builtGrid c s wl g freeSpace [a, b, a]).run (k + 1)).E ![x, y, 0] 2 = 0 := by
      intro x c1 c2 c3
      have main : ∀ y, 1 ≤ y → y < 3 → ((builtGrid c s wl g freeSpace [a, b, a]).run (k + 1)).E ![x, y, 0] 2 = 0 := by
        intro y hy hy'
        have hdrive : (if x = (sourceCell c s).toNat then ([a, b, a].getD y 0) * signalValue (lineSignal g (simSpec wl c.pulse)) k else 0) = 0 := by
          by_cases hx : x = (sourceCell c s).toNat
          · have hk : k = 0 := by
              rw [show (x : ℤ) - sourceCell c s = 0 by omega, abs_zero] at c3
              omega
            subst hk
            rw [h0, mul_zero, ite_self]
          · rw [if_neg hx]
        have t1 : (k : ℤ) ≤ |(x : ℤ) - sourceCell c s| + 1 := by omega
        have t2 : (k : ℤ) ≤ |(x : ℤ) + 1 - sourceCell c s| + 1 := by
          have : |(x : ℤ) - sourceCell c s| ≤ |(x : ℤ) + 1 - sourceCell c s| + 1 := by
            rcases abs_cases ((x : ℤ) - sourceCell c s) with ⟨e, _⟩ | ⟨e, _⟩ <;> rcases abs_cases ((x : ℤ) + 1 - sourceCell c s) with ⟨e', _⟩ | ⟨e', _⟩ <;> rw [e, e'] <;> omega
          omega
        have t3 : (k : ℤ) ≤ |((x - 1 : ℕ) : ℤ) - sourceCell c s| + 1 := by
          have : |(x : ℤ) - sourceCell c s| ≤ |((x - 1 : ℕ) : ℤ) - sourceCell c s| + 1 := by
            rcases abs_cases ((x : ℤ) - sourceCell c s) with ⟨e, _⟩ | ⟨e, _⟩ <;> rcases abs_cases (((x - 1 : ℕ) : ℤ) - sourceCell c s) with ⟨e', _⟩ | ⟨e', _⟩ <;> rw [e, e'] <;> omega
          omega
        have t4 : (k : ℤ) ≤ |((x - 1 : ℕ) : ℤ) + 1 - sourceCell c s| + 1 := by
          rw [show ((x - 1 : ℕ) : ℤ) + 1 = x by omega]
          exact t1
        rw [built_E_next c s wl g freeSpace a b a k x y hy hy' (by omega) (by omega) (by omega), hdrive, iE x (by omega) (by omega) t1 y hy',
          (iH x (by omega) (by omega) t1 t2 y hy').1, (iH (x - 1) (by omega) (by omega) t3 t4 y hy').1, (iH x (by omega) (by omega) t1 t2 y hy').2,
          (iH x (by omega) (by omega) t1 t2 (y - 1) (by omega)).2]
        ring
      intro y hy
      rcases Nat.eq_zero_or_pos y with rfl | hpos
      · rw [built_E_rows]
        exact main 2 (by norm_num) (by norm_num)
      · exact main y hpos hy
    refine ⟨sE, ?_⟩
    intro x c1 c2 c3 c4
    have main : ∀ y, y < 2 → ((builtGrid c s wl g freeSpace [a, b, a]).run (k + 1)).H ![x, y, 0] 1 = 0 ∧ ((builtGrid c s wl g freeSpace [a, b, a]).run (k + 1)).H ![x, y, 0] 0 = 0 := by
      intro y hy
      have e1 := sE x c1 (by omega) c3
      have e2 := sE (x + 1) (by push_cast at *; omega) (by push_cast at *; omega) (by push_cast at *; exact c4)
      have i := iH x (by omega) (by omega) (by omega) (by omega) y (by omega)
      rw [built_H_next c s wl g freeSpace _ k x y hy (by omega) (by omega) (by omega), built_Hx_next c s wl g freeSpace _ k x y hy (by omega) (by omega),
        e1 y (by omega), e2 y (by omega), e1 (y + 1) (by omega), i.1, i.2]
      constructor <;> ring
    intro y hy
    by_cases hy2 : y = 2
    · subst hy2
      rw [built_H_rows, built_H_rows]
      exact main 0 (by norm_num)
    · exact main y (by omega)

/-- the wave front itself -/
lemma front_value (h : LineSetup c s) (h0 : signalValue (lineSignal g (simSpec wl c.pulse)) 0 = 0) (d : ℕ) :
    ∀ x : ℕ, |(x : ℤ) - sourceCell c s| = d → ((d + 2 : ℕ) : ℤ) ≤ x - pmlCells c s + 1 → ((d + 2 : ℕ) : ℤ) ≤ xSize c s - pmlCells c s - x →
      ∀ y, y < 3 → ((builtGrid c s wl g freeSpace [a, b, a]).run (d + 2)).E ![x, y, 0] 2 =
        g.courant ^ (2 * d) * [a, b, a].getD y 0 * signalValue (lineSignal g (simSpec wl c.pulse)) 1 := by
  have hp := h.pml
  have hN := xSize_toNat c s h.geometry
  have hsl := h.sourceLow
  induction d with
  | zero =>
    intro x hx c1 c2
    have hx0 : (x : ℤ) = sourceCell c s := by
      rw [Nat.cast_zero, abs_eq_zero] at hx
      omega
    obtain ⟨iE, iH⟩ := front_dark c s wl g a b h h0 1
    have b1 : ∀ z : ℤ, ((1 : ℕ) : ℤ) ≤ |z| + 1 := fun z => by have := abs_nonneg z; omega
    have main : ∀ y, 1 ≤ y → y < 3 → ((builtGrid c s wl g freeSpace [a, b, a]).run (0 + 2)).E ![x, y, 0] 2 = [a, b, a].getD y 0 * signalValue (lineSignal g (simSpec wl c.pulse)) 1 := by
      intro y hy hy'
      rw [show 0 + 2 = 1 + 1 from rfl, built_E_next c s wl g freeSpace a b a 1 x y hy hy' (by omega) (by omega) (by omega), iE x (by omega) (by omega) (b1 _) y hy',
          (iH x (by omega) (by omega) (b1 _) (b1 _) y hy').1, (iH (x - 1) (by omega) (by omega) (b1 _) (b1 _) y hy').1, (iH x (by omega) (by omega) (b1 _) (b1 _) y hy').2,
          (iH x (by omega) (by omega) (b1 _) (b1 _) (y - 1) (by omega)).2, if_pos (by omega)]
      ring
    intro y hy
    rw [mul_zero, pow_zero, one_mul]
    rcases Nat.eq_zero_or_pos y with rfl | hpos
    · rw [built_E_rows]
      exact main 2 (by norm_num) (by norm_num)
    · exact main y hpos hy
  | succ d ih =>
    intro x hx c1 c2
    obtain ⟨iE, iH⟩ := front_dark c s wl g a b h h0 (d + 2)
    obtain ⟨iE', iH'⟩ := front_dark c s wl g a b h h0 (d + 1)
    have hEx : ∀ y, y < 3 → ((builtGrid c s wl g freeSpace [a, b, a]).run (d + 2)).E ![x, y, 0] 2 = 0 :=
      iE x (by omega) (by omega) (by rw [hx]; omega)
    have main : ∀ y, 1 ≤ y → y < 3 → ((builtGrid c s wl g freeSpace [a, b, a]).run (d + 1 + 2)).E ![x, y, 0] 2 =
        g.courant ^ (2 * (d + 1)) * [a, b, a].getD y 0 * signalValue (lineSignal g (simSpec wl c.pulse)) 1 := by
      intro y hy hy'
      have hne : ¬ x = (sourceCell c s).toNat := by
        intro he
        rw [show (x : ℤ) - sourceCell c s = 0 by omega, abs_zero] at hx
        omega
      rw [show d + 1 + 2 = d + 2 + 1 from rfl, built_E_next c s wl g freeSpace a b a (d + 2) x y hy hy' (by omega) (by omega) (by omega), if_neg hne, hEx y hy']
      rcases lt_or_gt_of_ne (show (x : ℤ) ≠ sourceCell c s by intro he; exact hne (by omega)) with hlt | hgt
      · -- left of the source: the field comes from the right
        have ha : sourceCell c s - x = (d + 1 : ℕ) := by rw [abs_of_neg (by omega)] at hx; omega
        have f1 := ih (x + 1) (by rw [abs_of_nonpos (by push_cast; omega)]; push_cast; omega) (by push_cast at *; omega) (by push_cast at *; omega)
        have z1 : ∀ z, z < 3 → ((builtGrid c s wl g freeSpace [a, b, a]).run (d + 1)).H ![x, z, 0] 1 = 0 := fun z hz =>
          (iH' x (by omega) (by omega) (by rw [hx]; omega) (by rw [abs_of_nonpos (by omega)]; omega) z hz).1
        have z2 := iH (x - 1) (by omega) (by omega) (by rw [abs_of_neg (by omega)]; omega) (by rw [abs_of_neg (by omega)]; omega)
        have hy1 : ∀ z, z < 2 → ((builtGrid c s wl g freeSpace [a, b, a]).run (d + 2)).H ![x, z, 0] 1 = g.courant * (g.courant ^ (2 * d) * [a, b, a].getD z 0 * signalValue (lineSignal g (simSpec wl c.pulse)) 1) := by
          intro z hz
          rw [show d + 2 = d + 1 + 1 from rfl, built_H_next c s wl g freeSpace _ (d + 1) x z hz (by omega) (by omega) (by omega), z1 z (by omega)]
          rw [show d + 1 + 1 = d + 2 from rfl, f1 z (by omega), hEx z (by omega)]
          ring
        have hyy : ((builtGrid c s wl g freeSpace [a, b, a]).run (d + 2)).H ![x, y, 0] 1 = g.courant * (g.courant ^ (2 * d) * [a, b, a].getD y 0 * signalValue (lineSignal g (simSpec wl c.pulse)) 1) := by
          by_cases hy2 : y = 2
          · subst hy2
            rw [built_H_rows]
            exact hy1 0 (by norm_num)
          · exact hy1 y (by omega)
        have hx0 : ∀ z, z < 3 → ((builtGrid c s wl g freeSpace [a, b, a]).run (d + 2)).H ![x, z, 0] 0 = 0 := by
          have hz : ∀ z, z < 2 → ((builtGrid c s wl g freeSpace [a, b, a]).run (d + 2)).H ![x, z, 0] 0 = 0 := by
            intro z hz
            rw [show d + 2 = d + 1 + 1 from rfl, built_Hx_next c s wl g freeSpace _ (d + 1) x z hz (by omega) (by omega),
              (iH' x (by omega) (by omega) (by rw [hx]; omega) (by rw [abs_of_nonpos (by omega)]; omega) z (by omega)).2]
            rw [show d + 1 + 1 = d + 2 from rfl, hEx z (by omega), hEx (z + 1) (by omega)]
            ring
          intro z hz'
          by_cases h2 : z = 2
          · subst h2
            rw [built_H_rows]
            exact hz 0 (by norm_num)
          · exact hz z (by omega)
        rw [hyy, (z2 y hy').1, hx0 y hy', hx0 (y - 1) (by omega)]
        show 0 * _ + g.courant * (1 / 1) * _ / (1 + 0) + 0 = _
        ring
      · have ha : (x : ℤ) - sourceCell c s = (d + 1 : ℕ) := by rw [abs_of_pos (by omega)] at hx; omega
        have f1 := ih (x - 1) (by rw [abs_of_nonneg (by omega)]; omega) (by omega) (by omega)
        have z1 : ∀ z, z < 3 → ((builtGrid c s wl g freeSpace [a, b, a]).run (d + 1)).H ![x - 1, z, 0] 1 = 0 := fun z hz =>
          (iH' (x - 1) (by omega) (by omega) (by rw [abs_of_nonneg (by omega)]; omega) (by rw [abs_of_nonneg (by omega)]; omega) z hz).1
        have z2 := iH x (by omega) (by omega) (by rw [hx]; omega) (by rw [abs_of_nonneg (by omega)]; omega)
        have hy1 : ∀ z, z < 2 → ((builtGrid c s wl g freeSpace [a, b, a]).run (d + 2)).H ![x - 1, z, 0] 1 = -(g.courant * (g.courant ^ (2 * d) * [a, b, a].getD z 0 * signalValue (lineSignal g (simSpec wl c.pulse)) 1)) := by
          intro z hz
          rw [show d + 2 = d + 1 + 1 from rfl, built_H_next c s wl g freeSpace _ (d + 1) (x - 1) z hz (by omega) (by omega) (by omega), z1 z (by omega)]
          rw [show d + 1 + 1 = d + 2 from rfl, f1 z (by omega), show x - 1 + 1 = x by omega, hEx z (by omega)]
          ring
        have hyy : ((builtGrid c s wl g freeSpace [a, b, a]).run (d + 2)).H ![x - 1, y, 0] 1 = -(g.courant * (g.courant ^ (2 * d) * [a, b, a].getD y 0 * signalValue (lineSignal g (simSpec wl c.pulse)) 1)) := by
          by_cases hy2 : y = 2
          · subst hy2
            rw [built_H_rows]
            exact hy1 0 (by norm_num)
          · exact hy1 y (by omega)
        rw [hyy, (z2 y hy').1, (z2 y hy').2, (z2 (y - 1) (by omega)).2]
        show 0 * _ + g.courant * (1 / 1) * _ / (1 + 0) + 0 = _
        ring
    intro y hy
    rcases Nat.eq_zero_or_pos y with rfl | hpos
    · rw [built_E_rows]
      exact main 2 (by norm_num) (by norm_num)
    · exact main y hpos hy

end

lemma courant_bounds (x : ℤ) (spacing : ℝ) (g : GridNumbers) (hg : gridInit [.int x, .int 3, .int 1] spacing none = .ok g) :
    1 / 2 ≤ g.courant ∧ g.courant < 1 ∧ g.timeStep = g.courant * spacing / SPEED_OF_LIGHT := by
  obtain ⟨sh, m, cc, hs, hm, hc, rfl⟩ := gridInit_inv hg
  obtain ⟨hd, hpos, hm'⟩ := maxCourant_ok hm
  simp only [chooseCourant] at hc
  cases hc
  have hle : gridDims sh ≤ 3 := by
    rw [gridDims_eq]
    exact (List.length_filter_le _ _)
  have h1 : 1 ≤ gridDims sh := by omega
  have hs1 : (1 : ℝ) ≤ Real.sqrt (gridDims sh) := Real.one_le_sqrt.2 (by exact_mod_cast h1)
  have hs2 : Real.sqrt (gridDims sh) ≤ 18 / 10 := by
    rw [show (18 / 10 : ℝ) = Real.sqrt ((18 / 10) ^ 2) by rw [Real.sqrt_sq (by norm_num)]]
    refine Real.sqrt_le_sqrt ?_
    have : ((gridDims sh : ℕ) : ℝ) ≤ 3 := by exact_mod_cast hle
    linarith
  have hm1 : m ≤ 1 := by rw [hm', div_le_one (by linarith)]; exact hs1
  have hm2 : 1 / (18 / 10) ≤ m := by rw [hm']; exact one_div_le_one_div_of_le (by linarith) hs2
  refine ⟨?_, ?_, rfl⟩
  · show 1 / 2 ≤ 0.99 * m
    norm_num at hm2 ⊢
    linarith
  · show 0.99 * m < 1
    norm_num
    linarith

/-- the first two samples of a continuous source -/
lemma sine_start (x : ℤ) (s wl : ℝ) (hs : 0 < s) (hwl : 10 * (UNIT_MAGNITUDE / s) ≤ wl) (g : GridNumbers) (hg : gridInit [.int x, .int 3, .int 1] (UNIT_MAGNITUDE / s) none = .ok g) :
    ∃ T : ℕ, 9 ≤ T ∧ |(T : ℝ) - wl / (g.courant * (UNIT_MAGNITUDE / s))| ≤ 1 / 2 ∧ lineSignal g (simSpec wl "continuous") 0 = .ok 0 ∧
      lineSignal g (simSpec wl "continuous") 1 = .ok (Real.sin (2 * Real.pi / T)) := by
  have hU : 0 < UNIT_MAGNITUDE / s := div_pos (by unfold UNIT_MAGNITUDE; norm_num) hs
  have hwl0 : 0 < wl := by linarith
  obtain ⟨hc1, hc2, hdt⟩ := courant_bounds _ _ _ hg
  have hc : (0 : ℝ) < SPEED_OF_LIGHT := by unfold SPEED_OF_LIGHT; norm_num
  have hper : wl / SPEED_OF_LIGHT / g.timeStep = wl / (g.courant * (UNIT_MAGNITUDE / s)) := by
    rw [hdt]
    field_simp
  have h10 : 10 ≤ wl / (g.courant * (UNIT_MAGNITUDE / s)) := by
    rw [le_div_iff₀ (by positivity)]
    nlinarith
  have hT : handleTime g.timeStep (simSpec wl "continuous").period = ⌊wl / (g.courant * (UNIT_MAGNITUDE / s)) + 1 / 2⌋ := by
    show pyTrunc (wl / SPEED_OF_LIGHT / g.timeStep + 1 / 2) = _
    rw [hper, pyTrunc_of_nonneg (by linarith)]
  have hf1 := Int.floor_le (wl / (g.courant * (UNIT_MAGNITUDE / s)) + 1 / 2)
  have hf2 := Int.lt_floor_add_one (wl / (g.courant * (UNIT_MAGNITUDE / s)) + 1 / 2)
  have hf9 : (9 : ℤ) ≤ ⌊wl / (g.courant * (UNIT_MAGNITUDE / s)) + 1 / 2⌋ := Int.le_floor.2 (by push_cast; linarith)
  generalize hz : ⌊wl / (g.courant * (UNIT_MAGNITUDE / s)) + 1 / 2⌋ = z at *
  have hzn : ((z.toNat : ℕ) : ℤ) = z := Int.toNat_of_nonneg (by omega)
  have hzr : ((z.toNat : ℕ) : ℝ) = (z : ℝ) := by exact_mod_cast congrArg (Int.cast (R := ℝ)) hzn
  have hsig : ∀ q : ℕ, lineSignal g (simSpec wl "continuous") q = .ok (Real.sin (2 * Real.pi * q / (z : ℝ) + 0)) := by
    intro q
    unfold lineSignal
    rw [if_neg (show (simSpec wl "continuous").period.val ≠ 0 from (div_pos hwl0 hc).ne'), if_neg (show ¬ (simSpec wl "continuous").signal = "hanning" by show ¬ "continuous" = "hanning"; decide),
      if_neg (show ¬ (simSpec wl "continuous").signal = "ricker" by show ¬ "continuous" = "ricker"; decide), hT, if_neg (by omega)]
    rfl
  refine ⟨z.toNat, by omega, ?_, ?_, ?_⟩
  · rw [hzr, abs_le]
    constructor <;> linarith
  · rw [hsig]
    simp
  · rw [hsig, hzr]
    simp

lemma average_rows (F : VField ℝ) (x : ℕ) : averageStep (([![x, 0, 0], ![x, 1, 0], ![x, 2, 0]] : List Pos).map fun p => F p) = (F ![x, 0, 0] 2 + F ![x, 1, 0] 2 + F ![x, 2, 0] 2) / 3 := by
  rw [averageStep_eq]
  show (_ + (_ + (_ + 0))) / ((3 : ℕ) : ℝ) = _
  push_cast
  ring

/-- C92: in the free-space run of a continuous line source the signal recorded by a detector `D` cells from the source is exactly zero in the first `D + 1` steps and positive in the next one, with the amplitude of the
source's first non-zero sample times the square of the Courant number per cell; provided nothing from the absorbing layers can have reached the detector by then. -/
theorem C92_arrival (c : FdtdCfg) (s : ℝ) (h : LineSetup c s) (wl : ℝ) (hpulse : c.pulse = "continuous") (hwl : 10 * (UNIT_MAGNITUDE / s) ≤ wl) :
    ∃ (C : ℝ) (T : ℕ) (t r : List ℝ), 1 / 2 ≤ C ∧ C < 1 ∧ 9 ≤ T ∧ |(T : ℝ) - wl / (C * (UNIT_MAGNITUDE / s))| ≤ 1 / 2 ∧ simulate c s none wl = .ok (t, r) ∧ t.length = c.niter.toNat ∧ r.length = c.niter.toNat ∧
      ∀ det sig, (det, sig) = (tDetectorX c s, t) ∨ (det, sig) = (rDetectorX c s, r) → ∀ D : ℕ, |det - sourceCell c s| = D →
        ((D + 2 : ℕ) : ℤ) ≤ det - pmlCells c s + 1 → ((D + 2 : ℕ) : ℤ) ≤ xSize c s - pmlCells c s - det → ((D + 2 : ℕ) : ℤ) ≤ c.niter →
        (∀ i ≤ D, sig[i]? = some 0) ∧ sig[D + 1]? = some (C ^ (2 * D) * Real.sin (2 * Real.pi / T) / 3) ∧ 0 < Real.sin (2 * Real.pi / T) := by
  obtain ⟨g, prof, hg, hp1, ⟨hp2, hp3⟩, hp4, H⟩ := initFdtd_line c s h wl
  obtain ⟨a, b, rfl⟩ := prof_three hp1 hp3
  have hsum : a + (b + (a + 0)) = 1 := hp2
  obtain ⟨hc1, hc2, -⟩ := courant_bounds _ _ _ hg
  obtain ⟨T, hT, hT', hs0, hs1⟩ := sine_start _ s wl h.geometry.scaling hwl g hg
  have hs0' : signalValue (lineSignal g (simSpec wl c.pulse)) 0 = 0 := by
    unfold signalValue
    rw [hpulse, hs0]
  have hs1' : signalValue (lineSignal g (simSpec wl c.pulse)) 1 = Real.sin (2 * Real.pi / T) := by
    unfold signalValue
    rw [hpulse, hs1]
  have hU : 0 < UNIT_MAGNITUDE / s := div_pos (by unfold UNIT_MAGNITUDE; norm_num) h.geometry.scaling
  choose v hv using lineSignal_ok _ s wl h.geometry.scaling (by linarith) c.pulse g hg
  have hvs := mapM_all_ok (lineSignal g (simSpec wl c.pulse)) v (List.range c.niter.toNat) fun q _ => hv q
  let sig : ℤ → List ℝ := fun det => (List.range c.niter.toNat).map fun i => averageStep ((crossCells det).map fun p => ((builtGrid c s wl g freeSpace [a, b, a]).run (i + 1)).E p)
  have hsim : simulate c s none wl = .ok (sig (tDetectorX c s), sig (rDetectorX c s)) := by
    unfold simulate
    rw [H none freeSpace rfl, ok_bind]
    unfold runSimulation
    have hsteps : ∀ ts : ℝ, runSteps ts (.int c.niter : PyNum ℝ) = c.niter.toNat := fun _ => rfl
    simp only [hsteps]
    rw [hvs, ok_bind, C56_samples]
    simp [builtGrid, detectorSignal, sig]
  refine ⟨g.courant, T, sig (tDetectorX c s), sig (rDetectorX c s), hc1, hc2, hT, hT', hsim, by simp [sig], by simp [sig], ?_⟩
  have main : ∀ (det : ℤ) (D : ℕ), |det - sourceCell c s| = D →
        ((D + 2 : ℕ) : ℤ) ≤ det - pmlCells c s + 1 → ((D + 2 : ℕ) : ℤ) ≤ xSize c s - pmlCells c s - det → ((D + 2 : ℕ) : ℤ) ≤ c.niter →
        (∀ i ≤ D, (sig det)[i]? = some 0) ∧ (sig det)[D + 1]? = some (g.courant ^ (2 * D) * Real.sin (2 * Real.pi / T) / 3) := by
    intro det D hD m1 m2 hn
    have hpm := h.pml
    have hdet : ((det.toNat : ℕ) : ℤ) = det := Int.toNat_of_nonneg (by omega)
    constructor
    · intro i hi
      have hi' : i < c.niter.toNat := by omega
      simp only [sig, List.getElem?_map, List.getElem?_range hi', Option.map_some]
      have hz := (front_dark c s wl g a b h hs0' (i + 1)).1 det.toNat (by omega) (by omega) (by rw [hdet, hD]; omega)
      congr 1
      rw [show crossCells det = [![det.toNat, 0, 0], ![det.toNat, 1, 0], ![det.toNat, 2, 0]] from rfl, average_rows, hz 0 (by norm_num), hz 1 (by norm_num), hz 2 (by norm_num)]
      norm_num
    · have hi' : D + 1 < c.niter.toNat := by omega
      simp only [sig, List.getElem?_map, List.getElem?_range hi', Option.map_some]
      have hz := front_value c s wl g a b h hs0' D det.toNat (by rw [hdet, hD]) (by omega) (by omega)
      congr 1
      rw [show crossCells det = [![det.toNat, 0, 0], ![det.toNat, 1, 0], ![det.toNat, 2, 0]] from rfl, average_rows, show D + 1 + 1 = D + 2 from rfl, hz 0 (by norm_num), hz 1 (by norm_num), hz 2 (by norm_num), hs1']
      simp only [List.getD_cons_zero, List.getD_cons_succ]
      linear_combination g.courant ^ (2 * D) * Real.sin (2 * Real.pi / T) / 3 * hsum
  have hpos : 0 < Real.sin (2 * Real.pi / T) := by
    have hT9 : (9 : ℝ) ≤ T := by exact_mod_cast hT
    have hpi := Real.pi_pos
    refine Real.sin_pos_of_pos_of_lt_pi (by positivity) ?_
    rw [div_lt_iff₀ (by linarith)]
    nlinarith
  intro det sg hds D hD m1 m2 hn
  rcases hds with e | e <;> cases e
  · exact ⟨(main _ D hD m1 m2 hn).1, (main _ D hD m1 m2 hn).2, hpos⟩
  · exact ⟨(main _ D hD m1 m2 hn).1, (main _ D hD m1 m2 hn).2, hpos⟩

end Nidn
