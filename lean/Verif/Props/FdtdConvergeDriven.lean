/-
C183: the FDTD steps converge to Maxwell's equations also with sources.
-/
import Verif.Props.FdtdConvergePieces
import Verif.Spec.MaxwellSheets

namespace Nidn

namespace Torus

/-- without the sources -/
def Medium.quiet (M : Medium ℝ) : Medium ℝ := ⟨M.courant, M.invEps, M.invMu, M.loss, fun _ _ _ => 0⟩

lemma stepE_quiet (L : Lattice) (M : Medium ℝ) (t : ℕ) (e h : VField ℝ) (p : Pos) (c : Fin 3) : stepE L M t e h p c = stepE L M.quiet t e h p c + M.drive t p c := by
  simp [stepE, Medium.quiet]

lemma stepMap_quiet (L : Lattice) (M : Medium ℝ) : stepMap L M.quiet = stepMap L M := rfl

/-- residuals accumulate in the same way when sources drive the steps -/
lemma accumulate_driven {L : Lattice} (hL : L.Closed) {M : Medium ℝ} {κ θ : ℝ} (hM : Decent L M κ) (hκ : 1 ≤ κ) (hc0 : 0 ≤ M.courant) (hc1 : M.courant ≤ 1) (hθ : 0 < θ) (hθ1 : θ ≤ 1)
    (hc : M.courant ^ 2 * L.dim ≤ 1 - θ) (e h : ℕ → VField ℝ) {b : ℝ} (hb : 0 ≤ b) (t0 k : ℕ)
    (hE : ∀ j < k, fieldSq L.cells (e (j + 1) - stepE L M (t0 + j) (e j) (h j)) ≤ b)
    (hH : ∀ j < k, fieldSq L.cells (h (j + 1) - stepH L M (e (j + 1)) (h j)) ≤ b) :
    fieldSq L.cells (e k - (run L M t0 (e 0) (h 0) k).1) + fieldSq L.cells (h k - (run L M t0 (e 0) (h 0) k).2) ≤ 210000 * κ / θ * ((k : ℝ) ^ 2 * b) := by
  set R := run L M t0 (e 0) (h 0) with hR
  have quiet : ∀ t p c, M.quiet.drive t p c = 0 := fun _ _ _ => rfl
  have sE : ∀ t e h e' h', stepE L M.quiet t (e - e') (h - h') = stepE L M t e h - stepE L M t e' h' := by
    intro t e h e' h'
    have a := congrArg Prod.fst ((stepMap L M).map_sub (e, h) (e', h'))
    have b : ∀ e h, stepE L M t e h = (stepMap L M (e, h)).1 + M.drive t := by
      intro e h; funext p c
      rw [stepE_quiet, stepE_free L M.quiet (fun _ _ => rfl)]; rfl
    rw [stepE_free L M.quiet (fun _ _ => rfl), b, b]
    rw [add_sub_add_right_eq_sub]
    exact a
  have sH : ∀ e h e' h', stepH L M.quiet (e - e') (h - h') = stepH L M e h - stepH L M e' h' := by
    intro e h e' h'
    funext p c
    simp only [stepH, Pi.sub_apply]
    have : curlFwd L (e - e') p c = curlFwd L e p c - curlFwd L e' p c := by
      have := curlFwd_add L (e - e') e' p c
      rw [show (fun q d => (e - e') q d + e' q d) = e by funext q d; simp] at this
      linarith
    show h p c - h' p c - M.courant * M.invMu p c * _ = _
    rw [this]; ring
  have := accumulate_mean hL (M := M.quiet) (κ := κ) (θ := θ) ⟨hM.eps, hM.mu, hM.loss⟩ hκ hc0 hc1 hθ hθ1 hc quiet (fun j => e j - (R j).1) (fun j => h j - (R j).2) hb t0 k ?_ ?_
  · have z : run L M.quiet t0 (e 0 - (R 0).1) (h 0 - (R 0).2) k = 0 := by
      have e1 : e 0 - (R 0).1 = 0 := sub_self _
      have e2 : h 0 - (R 0).2 = 0 := sub_self _
      rw [e1, e2, run_eq_iterate L M.quiet quiet]
      exact iterate_map_zero (stepMap L M.quiet) k
    rw [z] at this
    simpa using this
  · intro j hj
    show fieldSq L.cells (e (j + 1) - (R (j + 1)).1 - stepE L M.quiet (t0 + j) (e j - (R j).1) (h j - (R j).2)) ≤ b
    rw [sE, show (R (j + 1)).1 = stepE L M (t0 + j) (R j).1 (R j).2 from rfl]
    rw [show e (j + 1) - stepE L M (t0 + j) (R j).1 (R j).2 - (stepE L M (t0 + j) (e j) (h j) - stepE L M (t0 + j) (R j).1 (R j).2) = e (j + 1) - stepE L M (t0 + j) (e j) (h j) by abel]
    exact hE j hj
  · intro j hj
    show fieldSq L.cells (h (j + 1) - (R (j + 1)).2 - stepH L M.quiet (e (j + 1) - (R (j + 1)).1) (h j - (R j).2)) ≤ b
    rw [sH, show (R (j + 1)).2 = stepH L M (R (j + 1)).1 (R j).2 from rfl]
    rw [show h (j + 1) - stepH L M (R (j + 1)).1 (R j).2 - (stepH L M (e (j + 1)) (h j) - stepH L M (R (j + 1)).1 (R j).2) = h (j + 1) - stepH L M (e (j + 1)) (h j) by abel]
    exact hH j hj

end Torus

section sheets

variable {as : List (Fin 3)} {ℓ : Fin 3 → ℝ} {s : ℝ} {ie im sg : Place → Fin 3 → ℝ} {E H : ℝ → Place → Fin 3 → ℝ} {n : Pos}

/-- the part of a curl that a jump `S` across the first axis makes -/
def jumpCurl (S : Fin 3 → ℝ) (c : Fin 3) : ℝ := (if c + 1 = 0 then S (c + 2) else 0) - (if c + 2 = 0 then S (c + 1) else 0)

/-- residual of the electric step in any cell, when the source makes up for the jump of the magnetic field -/
lemma residual_E_driven (hn : ∀ a, (a ∈ as ∧ 2 ≤ n a) ∨ (a ∉ as ∧ n a = 1)) (hℓ : ∀ a ∈ as, ((n a : ℝ) - 1) * s = ℓ a)
    (hH : ∀ t c, Repeats as ℓ fun x => H t x c) {M : Torus.Medium ℝ} (hM : SampledMedium (torusOf n as) M s ie im sg) (hs : 0 < s) (hc0 : 0 < M.courant) (hc1 : M.courant ≤ 1)
    {p : Pos} (hp : p ∈ box (torusOf n as).cells) (c : Fin 3) (hie : 0 < ie (placeE s p c) c ∧ ie (placeE s p c) c ≤ 1) {Sg : ℝ} (hsg : 0 ≤ sg (placeE s p c) c ∧ sg (placeE s p c) c ≤ Sg)
    (t j : ℕ) {M0 : ℝ} (hM0 : 0 ≤ M0) (v1 : |E ((j + 1) * (M.courant * s)) (placeE s p c) c| ≤ M0) (v2 : |E (j * (M.courant * s)) (placeE s p c) c| ≤ M0)
    (v3 : |E ((j + 1) * (M.courant * s)) (placeE s p c) c - E (j * (M.courant * s)) (placeE s p c) c| ≤ M0 * (M.courant * s)) {S : Fin 3 → ℝ} {d0 A : ℝ}
    (v4 : ∀ a d, a ≠ c → a ≠ d → |H ((j + 1 / 2) * (M.courant * s)) (Function.update (placeE s p c) a (placeE s p c a + s / 2)) d
      - H ((j + 1 / 2) * (M.courant * s)) (Function.update (placeE s p c) a (placeE s p c a - s / 2)) d - (if a = 0 then S d else 0)| ≤ M0 * s)
    (w1 : |jumpCurl S c| ≤ 2 * M0) (w2 : |d0 + M.courant * ie (placeE s p c) c * jumpCurl S c| ≤ A * (M.courant * s)) :
    |E ((j + 1) * (M.courant * s)) (placeE s p c) c
      - Torus.stepE (torusOf n as) M t (fun p c => E (j * (M.courant * s)) (placeE s p c) c) (fun p c => H ((j + 1 / 2) * (M.courant * s)) (placeH s p c) c) p c - d0|
      ≤ (M0 * (3 + 2 * Sg) + A) * (M.courant * s) := by
  set δ := M.courant * s with hδ
  set x := placeE s p c with hx
  set τ := ((j : ℝ) + 1 / 2) * δ with hτ
  have hδ0 : 0 < δ := mul_pos hc0 hs
  obtain ⟨n1, n2, n3, n4⟩ := fin3_ne c
  have hcurl : Torus.curlBwd (torusOf n as) (fun p c => H τ (placeH s p c) c) p c
      = H τ (Function.update x (c + 1) (x (c + 1) + s / 2)) (c + 2) - H τ (Function.update x (c + 1) (x (c + 1) - s / 2)) (c + 2)
      - (H τ (Function.update x (c + 2) (x (c + 2) + s / 2)) (c + 1) - H τ (Function.update x (c + 2) (x (c + 2) - s / 2)) (c + 1)) := by
    unfold Torus.curlBwd
    rw [bwd_sampled hn hℓ (hH τ) n1 n2 n3 hp, bwd_sampled hn hℓ (hH τ) n2 n1 n4 hp]
  set Q := jumpCurl S c with hQ
  have r3 : |Torus.curlBwd (torusOf n as) (fun p c => H τ (placeH s p c) c) p c - Q| ≤ 2 * (M0 * s) := by
    rw [hcurl, hQ, jumpCurl]
    have u1 := v4 (c + 1) (c + 2) n1 n3
    have u2 := v4 (c + 2) (c + 1) n2 n4
    rw [abs_le] at u1 u2 ⊢
    constructor <;> linarith [u1.1, u1.2, u2.1, u2.2]
  have hl : M.loss p c = δ / 2 * ie x c * sg x c := by rw [hM.loss p hp c]
  have hl0 : 0 ≤ M.loss p c := by rw [hl]; have := hie.1.le; have := hsg.1; positivity
  unfold Torus.stepE
  rw [hM.drive, add_zero, hM.eps p hp c, ← hx]
  set K := Torus.curlBwd (torusOf n as) (fun p c => H τ (placeH s p c) c) p c with hK
  set Ep := E (((j : ℝ) + 1) * δ) x c with hEp
  set Em := E ((j : ℝ) * δ) x c with hEm
  set B := ie x c with hB
  set lo := M.loss p c with hlo
  have key : Ep - ((1 - lo) * Em + M.courant * B * K) / (1 + lo) - d0
      = (((Ep - Em) + lo * (Ep + Em) - M.courant * B * (K - Q)) - (d0 + M.courant * B * Q) * (1 + lo) + M.courant * B * Q * lo) / (1 + lo) := by
    rw [eq_div_iff (by linarith), sub_mul, sub_mul, div_mul_cancel₀ _ (by linarith)]
    ring
  rw [key, abs_div, abs_of_pos (by linarith : 0 < 1 + lo), div_le_iff₀ (by linarith)]
  have hSg : 0 ≤ Sg := hsg.1.trans hsg.2
  have h1 : lo ≤ δ / 2 * Sg := by
    rw [hl]
    have : B * sg x c ≤ 1 * Sg := mul_le_mul hie.2 hsg.2 hsg.1 zero_le_one
    nlinarith
  have q2 : |lo * (Ep + Em)| ≤ M0 * Sg * δ := by
    rw [abs_mul, abs_of_nonneg hl0]
    calc _ ≤ (δ / 2 * Sg) * (2 * M0) := mul_le_mul h1 ((abs_add_le _ _).trans (by linarith)) (abs_nonneg _) (by positivity)
      _ = _ := by ring
  have q3 : |M.courant * B * (K - Q)| ≤ 2 * M0 * δ := by
    rw [abs_mul, abs_of_nonneg (mul_nonneg hc0.le hie.1.le)]
    calc _ ≤ (M.courant * 1) * (2 * (M0 * s)) := mul_le_mul (mul_le_mul_of_nonneg_left hie.2 hc0.le) r3 (abs_nonneg _) (by linarith)
      _ = _ := by rw [hδ]; ring
  have hA : 0 ≤ A * δ := (abs_nonneg _).trans w2
  have q4 : |(d0 + M.courant * B * Q) * (1 + lo)| ≤ A * δ * (1 + lo) := by
    rw [abs_mul, abs_of_pos (by linarith : 0 < 1 + lo)]
    exact mul_le_mul_of_nonneg_right w2 (by linarith)
  have q5 : |M.courant * B * Q * lo| ≤ M0 * Sg * δ := by
    have cB : M.courant * B ≤ 1 := by
      have := mul_le_mul hc1 hie.2 hie.1.le zero_le_one
      linarith
    rw [abs_mul, abs_mul, abs_of_nonneg hl0, abs_of_nonneg (mul_nonneg hc0.le hie.1.le)]
    calc _ ≤ (1 * (2 * M0)) * (δ / 2 * Sg) := mul_le_mul (mul_le_mul cB w1 (abs_nonneg _) zero_le_one) h1 hl0 (by positivity)
      _ = _ := by ring
  have big : 0 ≤ M0 * (3 + 2 * Sg) * δ * lo := by positivity
  have t1 := abs_add_le ((Ep - Em) + lo * (Ep + Em) - M.courant * B * (K - Q) - (d0 + M.courant * B * Q) * (1 + lo)) (M.courant * B * Q * lo)
  have t2 := abs_sub ((Ep - Em) + lo * (Ep + Em) - M.courant * B * (K - Q)) ((d0 + M.courant * B * Q) * (1 + lo))
  have t3 := abs_sub ((Ep - Em) + lo * (Ep + Em)) (M.courant * B * (K - Q))
  have t4 := abs_add_le (Ep - Em) (lo * (Ep + Em))
  have e : (M0 * (3 + 2 * Sg) + A) * δ * (1 + lo) = M0 * (3 + 2 * Sg) * δ + M0 * (3 + 2 * Sg) * δ * lo + A * δ * (1 + lo) := by ring
  rw [e]
  linarith

/-- currents added up over the faces, from some face on -/
noncomputable def piled (K : ℤ → ℝ) (i : ℤ) : ℝ := ∑ k ∈ Finset.Icc 1 i, K k - ∑ k ∈ Finset.Icc (i + 1) 0, K k

lemma piled_succ (K : ℤ → ℝ) (i : ℤ) : piled K (i + 1) = piled K i + K (i + 1) := by
  unfold piled
  rcases le_or_gt 0 i with h | h
  · have e1 : Finset.Icc 1 (i + 1) = insert (i + 1) (Finset.Icc 1 i) := by ext k; simp only [Finset.mem_Icc, Finset.mem_insert]; omega
    have e2 : Finset.Icc (i + 1 + 1) 0 = (∅ : Finset ℤ) := Finset.Icc_eq_empty (by omega)
    have e3 : Finset.Icc (i + 1) 0 = (∅ : Finset ℤ) := Finset.Icc_eq_empty (by omega)
    rw [e1, e2, e3, Finset.sum_insert (by simp)]
    simp; ring
  · have e1 : Finset.Icc (i + 1) 0 = insert (i + 1) (Finset.Icc (i + 1 + 1) 0) := by ext k; simp only [Finset.mem_Icc, Finset.mem_insert]; omega
    have e2 : Finset.Icc 1 (i + 1) = (∅ : Finset ℤ) := Finset.Icc_eq_empty (by omega)
    have e3 : Finset.Icc 1 i = (∅ : Finset ℤ) := Finset.Icc_eq_empty (by omega)
    rw [e1, e2, e3, Finset.sum_insert (by simp)]
    simp

lemma piled_same {K : ℤ → ℝ} {i : ℤ} (m : ℕ) (h : ∀ k, i < k → k ≤ i + m → K k = 0) : piled K (i + m) = piled K i := by
  induction m with
  | zero => simp
  | succ m ih =>
    have e : i + ((m + 1 : ℕ) : ℤ) = i + m + 1 := by push_cast; ring
    rw [e, piled_succ, ih fun k a b => h k a (by push_cast; omega), h _ (by omega) (by push_cast; omega), add_zero]

lemma piled_between {K : ℤ → ℝ} {i k : ℤ} (hik : i ≤ k) (h : ∀ l, i < l → l ≤ k → K l = 0) : piled K k = piled K i := by
  obtain ⟨m, rfl⟩ : ∃ m : ℕ, k = i + m := ⟨(k - i).toNat, by omega⟩
  exact piled_same m h

/-- one sheet between two layers -/
lemma piled_one {K : ℤ → ℝ} {i k q : ℤ} (h1 : i < q) (h2 : q ≤ k) (h : ∀ l, i < l → l ≤ k → l ≠ q → K l = 0) : piled K k = piled K i + K q := by
  rw [piled_between h2 fun l a b => h l (by omega) b (by omega)]
  have := piled_succ K (q - 1)
  rw [sub_add_cancel] at this
  rw [this, piled_between (show i ≤ q - 1 by omega) fun l a b => h l a (by omega) (by omega)]

end sheets

section main_driven

variable {as : List (Fin 3)} {ℓ : Fin 3 → ℝ} {s : ℝ} {ie im sg : Place → Fin 3 → ℝ} {E H : ℝ → Place → Fin 3 → ℝ} {edge : ℤ → ℝ} {J : ℤ → ℝ → Place → Fin 3 → ℝ}

lemma sheet_between (hs : StrictMono edge) {K : ℤ → ℝ} {x0 : ℝ} {P : ℕ} (hs0 : 0 < s) (hx : x0 = s * P) (planes : ∀ k, K k ≠ 0 → ∃ m : ℤ, edge k = s * m) {i k : ℤ} (i1 : edge i ≤ x0 - s / 2)
    (i2 : x0 - s / 2 < edge (i + 1)) (k1 : edge k ≤ x0 + s / 2) (k2 : x0 + s / 2 < edge (k + 1)) :
    (∀ q, edge q = x0 → piled K k = piled K i + K q) ∧ ((∀ q, edge q ≠ x0) → piled K k = piled K i) := by
  have only : ∀ l, i < l → l ≤ k → K l ≠ 0 → edge l = x0 := by
    intro l h1 h2 h3
    obtain ⟨m, hm⟩ := planes l h3
    have a1 : x0 - s / 2 < edge l := i2.trans_le (hs.monotone (by omega))
    have a2 : edge l ≤ x0 + s / 2 := (hs.monotone h2).trans k1
    rw [hm, hx] at a1 a2
    have b1 : (P : ℝ) - 1 / 2 < m := by
      by_contra hcon
      have := mul_le_mul_of_nonneg_left (not_lt.mp hcon) hs0.le
      linarith
    have b2 : (m : ℝ) ≤ P + 1 / 2 := by
      by_contra hcon
      have := mul_lt_mul_of_pos_left (not_le.mp hcon) hs0
      linarith
    have c1 : (2 * (P : ℤ) - 1 : ℤ) < 2 * m := by
      have : (((2 * (P : ℤ) - 1 : ℤ)) : ℝ) < ((2 * m : ℤ) : ℝ) := by push_cast; linarith
      exact_mod_cast this
    have c2 : (2 * m : ℤ) ≤ 2 * (P : ℤ) + 1 := by
      have : ((2 * m : ℤ) : ℝ) ≤ ((2 * (P : ℤ) + 1 : ℤ) : ℝ) := by push_cast; linarith
      exact_mod_cast this
    have : m = P := by omega
    rw [hm, hx, this]; simp
  have hik : i ≤ k := by
    by_contra h
    have := hs.monotone (show k + 1 ≤ i by omega)
    linarith
  constructor
  · intro q hq
    refine piled_one ?_ ?_ fun l h1 h2 h3 => ?_
    · exact hs.lt_iff_lt.mp (by linarith)
    · have := hs.lt_iff_lt.mp (show edge q < edge (k + 1) by linarith)
      omega
    · by_contra hK
      exact h3 (hs.injective ((only l h1 h2 hK).trans hq.symm))
  · intro hq
    refine piled_between hik fun l h1 h2 => ?_
    by_contra hK
    exact hq l (only l h1 h2 hK)

lemma sheetJump_zero {j : Fin 3 → ℝ} {d : Fin 3} (h : sheetJump j d ≠ 0) : ∃ c, j c ≠ 0 := by
  by_contra hcon
  push Not at hcon
  apply h
  unfold sheetJump
  simp [hcon]

lemma jumpCurl_sheet (j : Fin 3 → ℝ) {c : Fin 3} (hc : c ≠ 0) : jumpCurl (sheetJump j) c = j c := by
  unfold jumpCurl sheetJump
  fin_cases c
  · exact absurd rfl hc
  · simp [show (1 : Fin 3) + 1 = 2 from rfl, show (1 : Fin 3) + 2 = 0 from rfl]
  · simp [show (2 : Fin 3) + 1 = 0 from rfl, show (2 : Fin 3) + 2 = 1 from rfl]

lemma jumpCurl_none (c : Fin 3) : jumpCurl (fun _ => 0) c = 0 := by simp [jumpCurl]

lemma sheetJump_smooth (hJ : ∀ i c, ContDiff ℝ 3 fun z : ℝ × Place => J i z.1 z.2 c) (i : ℤ) (c : Fin 3) : ContDiff ℝ 3 fun z : ℝ × Place => sheetJump (J i z.1 z.2) c := by
  unfold sheetJump
  split_ifs
  · exact hJ i 2
  · exact (hJ i 1).neg
  · exact contDiff_const

lemma piled_smooth (hJ : ∀ i c, ContDiff ℝ 3 fun z : ℝ × Place => J i z.1 z.2 c) (i : ℤ) (c : Fin 3) : ContDiff ℝ 3 fun z : ℝ × Place => piled (fun k => sheetJump (J k z.1 z.2) c) i := by
  unfold piled
  exact (ContDiff.sum fun k _ => sheetJump_smooth hJ k c).sub (ContDiff.sum fun k _ => sheetJump_smooth hJ k c)

/-- the fields change gradually in time and along the faces -/
lemma gradual_within {F : ℝ → Place → Fin 3 → ℝ} {P : ℤ → ℝ → Place → Fin 3 → ℝ} (sP : ∀ i c, ContDiff ℝ 3 fun z : ℝ × Place => P i z.1 z.2 c)
    (val : ∀ i t x c, edge i ≤ x 0 → x 0 < edge (i + 1) → F t x c = P i t x c) {I : Finset ℤ} {T Λ M : ℝ} (hB : Bounded I (region T Λ) P M) {i : ℤ} (hi : i ∈ I) {x : Place} (h1 : edge i ≤ x 0) (h2 : x 0 < edge (i + 1)) :
    (∀ c t t', (∀ b, -(2 * Λ) ≤ x b ∧ x b ≤ 2 * Λ) → 0 ≤ t → t ≤ t' → t' ≤ T + Λ → |F t' x c - F t x c| ≤ M * (t' - t))
    ∧ ∀ a d t r, a ≠ 0 → 0 ≤ t → t ≤ T + Λ → 0 < r → (∀ y, |y - x a| ≤ r → ∀ b, -(2 * Λ) ≤ Function.update x a y b ∧ Function.update x a y b ≤ 2 * Λ) →
      |F t (Function.update x a (x a + r)) d - F t (Function.update x a (x a - r)) d| ≤ M * (2 * r) := by
  constructor
  · intro c t t' hx ht0 htt ht1
    rw [val i _ _ _ h1 h2, val i _ _ _ h1 h2]
    exact gradual (f := fun τ => P i τ x c) (hasDeriv_t ((sP i c).of_le (by norm_num)) x) htt fun y a b => hB.t1 i hi c _ (mem_region (ht0.trans a) (b.trans ht1) hx)
  · intro a d t r h0 ht0 ht1 hr hx
    have rng : ∀ y, x a - r ≤ y → y ≤ x a + r → ∀ b, -(2 * Λ) ≤ Function.update x a y b ∧ Function.update x a y b ≤ 2 * Λ := fun y h1 h2 => hx y (by rw [abs_le]; constructor <;> linarith)
    have e : ∀ y, F t (Function.update x a y) d = P i t (Function.update x a y) d := by
      intro y
      refine val i t _ d ?_ ?_ <;> rw [Function.update_of_ne (Ne.symm h0)] <;> assumption
    rw [e, e]
    have := gradual (f := fun y => P i t (Function.update x a y) d) (hasDeriv_x ((sP i d).of_le (by norm_num)) t x a) (show x a - r ≤ x a + r by linarith) fun w a b =>
      hB.x1 i hi d _ _ (mem_region ht0 ht1 (rng w a b))
    calc _ ≤ M * (x a + r - (x a - r)) := this
      _ = _ := by ring

/-- How a grid samples a problem with currents in the faces: the soft sources of the grid stand in the planes of the currents, which are planes of the grid, and add what the surface current adds to the electric
field of one cell in one step, up to `A` times the time step (so the current may be taken at another time in the step). -/
structure DrivenGrid (g : FGrid ℝ) (as : List (Fin 3)) (ℓ : Fin 3 → ℝ) (s : ℝ) (edge : ℤ → ℝ) (J : ℤ → ℝ → Place → Fin 3 → ℝ) (invEps invMu sigma : Place → Fin 3 → ℝ) (E H : ℝ → Place → Fin 3 → ℝ) (A : ℝ) : Prop where
  periodic : AllPeriodic g as
  soft : AllSoft g.sources
  wraps : DriveWraps g as
  planes : ∀ i, (∃ t x c, J i t x c ≠ 0) → ∃ m : ℤ, edge i = s * m
  silent : ∀ t p c, p ∈ box g.n → (c = 0 ∨ ∀ i, s * (p 0 : ℝ) ≠ edge i) → totalDrive g.sources t p c = 0
  drive : ∀ (j : ℕ) p c i, p ∈ box g.n → c ≠ 0 → s * (p 0 : ℝ) = edge i →
    |totalDrive g.sources (g.time + j) p c + g.courant * invEps (placeE s p c) c * J i ((j + 1 / 2) * (g.courant * s)) (placeE s p c) c| ≤ A * (g.courant * s)
  size : ∀ a ∈ as, ((g.n a : ℝ) - 1) * s = ℓ a
  eps : ∀ p ∈ box g.n, ∀ c, g.invEps p c = invEps (placeE s p c) c
  mu : ∀ p ∈ box g.n, ∀ c, g.invMu p c = invMu (placeH s p c) c
  loss : ∀ p ∈ box g.n, ∀ c, g.absorb p c = g.courant * s / 2 * invEps (placeE s p c) c * sigma (placeE s p c) c
  startE : ∀ p ∈ box g.n, ∀ c, g.E p c = E 0 (placeE s p c) c
  startH : ∀ p ∈ box g.n, ∀ c, g.H p c = H (g.courant * s / 2) (placeH s p c) c

set_option maxHeartbeats 2000000 in
/-- C183: the simulation follows Maxwell's equations with sources too. Let `E`, `H` be fields of Maxwell's equations in a periodic medium of layers, driven by surface currents in some of the faces. For every duration `T`
and every Courant number below the limit there is a constant `C` such that on every grid that starts with samples of these fields and whose soft sources add what the currents add, with cells of any size `s`, the mean
square of the errors of all field components is at most `C s` in every step up to the time `T`; so the simulation converges. -/
theorem C183_driven (hX : DrivenFields edge J ie im sg E H) (h0 : 0 ∈ as) (hE : ∀ t c, Repeats as ℓ fun x => E t x c) (hH : ∀ t c, Repeats as ℓ fun x => H t x c)
    (pie : ∀ a ∈ as, ∀ x, ie (Function.update x a (x a + ℓ a)) = ie x) (psg : ∀ a ∈ as, ∀ x, sg (Function.update x a (x a + ℓ a)) = sg x)
    {κ Sg : ℝ} (hie : ∀ x c, 0 < ie x c ∧ ie x c ≤ 1 ∧ 1 / ie x c ≤ κ) (him : ∀ x c, 0 < im x c ∧ im x c ≤ 1 ∧ 1 / im x c ≤ κ) (hsg : ∀ x c, 0 ≤ sg x c ∧ sg x c ≤ Sg) (T : ℝ) {θ A : ℝ} (hθ : 0 < θ) (hA : 0 ≤ A) :
    ∃ C, ∀ s, 0 < s → ∀ g : FGrid ℝ, DrivenGrid g as ℓ s edge J ie im sg E H A → 0 < g.courant → g.courant ^ 2 * ((Finset.univ.filter fun a => a ∈ as).card : ℝ) ≤ 1 - θ → ∀ k : ℕ, k * (g.courant * s) ≤ T →
      fieldSq (onceCells g as) (fun p c => E (k * (g.courant * s)) (placeE s p c) c - (g.run k).E p c)
        + fieldSq (onceCells g as) (fun p c => H ((k + 1 / 2) * (g.courant * s)) (placeH s p c) c - (g.run k).H p c) ≤ C * s * (box (onceCells g as)).card := by
  classical
  set Λ : ℝ := ∑ a, |ℓ a| with hΛ
  have hΛa : ∀ a, |ℓ a| ≤ Λ := fun a => Finset.single_le_sum (f := fun i => |ℓ i|) (fun _ _ => abs_nonneg _) (Finset.mem_univ a)
  have hΛ0 : 0 ≤ Λ := (abs_nonneg _).trans (hΛa 0)
  -- the layers that reach into the box
  obtain ⟨i1, hi1⟩ := hX.below (-(2 * Λ))
  obtain ⟨i2, hi2⟩ := hX.above (2 * Λ)
  set I := Finset.Icc i1 i2 with hIdef
  have low : ∀ {i y}, -(2 * Λ) ≤ y → y ≤ edge (i + 1) → i1 ≤ i := fun {i y} h1 h2 => by
    have := hX.sorted.lt_iff_lt.mp (show edge i1 < edge (i + 1) by linarith)
    omega
  have high : ∀ {i y}, y ≤ 2 * Λ → edge i ≤ y → i < i2 := fun {i y} h1 h2 => hX.sorted.lt_iff_lt.mp (show edge i < edge i2 by linarith)
  have hI : ∀ i y, -(2 * Λ) ≤ y → y ≤ 2 * Λ → edge i ≤ y → y < edge (i + 1) → i ∈ I := fun i y a b c d => Finset.mem_Icc.mpr ⟨low a d.le, (high b c).le⟩
  have hI' : ∀ i y z, -(2 * Λ) ≤ y → z ≤ 2 * Λ → edge i ≤ y → y ≤ z → z ≤ edge (i + 1) → y < z → i ∈ I := fun i y z a b c d e _ =>
    Finset.mem_Icc.mpr ⟨low (a.trans d) e, (high b (c.trans d)).le⟩
  choose EP HP sE sH eqs faces using hX.smooth
  have pE : Pieces edge E EP := ⟨sE, fun i t x c a b => by
    rcases b with b | ⟨b, b'⟩
    · exact (eqs i t x c a b).1
    · exact (faces i t x c b b').1⟩
  have pH : ∀ i t x c, edge i ≤ x 0 → x 0 < edge (i + 1) → H t x c = HP i t x c := fun i t x c a b => (eqs i t x c a b).2
  -- without the jumps at the currents the magnetic field fits together
  choose lay lay1 lay2 using layer_of hX.sorted hX.below hX.above
  have lay_eq : ∀ i y, edge i ≤ y → y < edge (i + 1) → lay y = i := by
    intro i y h1 h2
    have := hX.sorted.lt_iff_lt.mp ((lay1 y).trans_lt h2)
    have := hX.sorted.lt_iff_lt.mp (h1.trans_lt (lay2 y))
    omega
  set HT : ℝ → Place → Fin 3 → ℝ := fun t x c => H t x c - piled (fun k => sheetJump (J k t x) c) (lay (x 0)) with hHT
  set PT : ℤ → ℝ → Place → Fin 3 → ℝ := fun i t x c => HP i t x c - piled (fun k => sheetJump (J k t x) c) i with hPT
  have sT : ∀ i c, ContDiff ℝ 3 fun z : ℝ × Place => PT i z.1 z.2 c := fun i c => (sH i c).sub (piled_smooth hX.current i c)
  have pT : Pieces edge HT PT := by
    refine ⟨sT, fun i t x c a b => ?_⟩
    simp only [hHT, hPT]
    rcases b with b | ⟨b, b'⟩
    · rw [lay_eq i _ a b, pH i t x c a b]
    · rw [lay_eq (i + 1) _ b'.ge (by rw [b']; exact hX.sorted (by omega)), (faces i t x c b b').2, piled_succ]
      ring
  obtain ⟨ME, pME, bE'⟩ := bounded_pieces I (region_compact T Λ) sE
  obtain ⟨MH, pMH, bH'⟩ := bounded_pieces I (region_compact T Λ) sH
  obtain ⟨MT, pMT, bT'⟩ := bounded_pieces I (region_compact T Λ) sT
  obtain ⟨MJ, pMJ, bJ'⟩ := bounded_pieces I (region_compact T Λ) hX.current
  set M0 := ME + MH + MT + MJ with hM0
  have pM0 : 0 ≤ M0 := by positivity
  have bE := bE'.mono (show ME ≤ M0 by linarith)
  have bH := bH'.mono (show MH ≤ M0 by linarith)
  have bT := bT'.mono (show MT ≤ M0 by linarith)
  have bJ := bJ'.mono (show MJ ≤ M0 by linarith)
  have hSg : 0 ≤ Sg := (hsg 0 0).1.trans (hsg 0 0).2
  have hκ : 1 ≤ κ := by
    obtain ⟨h1, h2, h3⟩ := hie 0 0
    exact le_trans (by rw [le_div_iff₀ h1]; linarith) h3
  set N0 := M0 * (3 + 2 * Sg) + A with hN0
  have pN0 : 0 ≤ N0 := by positivity
  set C1 := 3 * (M0 * (1 + Sg)) ^ 2 * Λ ^ 3 + 9 * I.card * (N0) ^ 2 / ℓ 0 with hC1
  refine ⟨210000 * κ / θ * (T ^ 2 * C1), fun s hs g hg hc0 hc k hk => ?_⟩
  set δ := g.courant * s with hδ
  have hδ0 : 0 < δ := mul_pos hc0 hs
  have hn := hg.periodic.2
  have hℓ := hg.size
  set L := torusOf g.n as with hL
  have hdim : (L.dim : ℝ) = ((Finset.univ.filter fun a => a ∈ as).card : ℝ) := by simp [hL, Torus.Lattice.dim, torusOf]
  rw [← hdim] at hc
  have hdim1 : (1 : ℝ) ≤ L.dim := by
    rw [hdim]
    exact_mod_cast Finset.card_pos.mpr ⟨0, by simp [h0]⟩
  obtain ⟨hθ1, hc1⟩ := courant_small hdim1 hθ hc hc0
  have hδs : δ ≤ s := mul_le_of_le_one_left hs.le hc1
  have n0 : 2 ≤ g.n 0 := by rcases hn 0 with ⟨-, h⟩ | ⟨h, -⟩; exacts [h, absurd h0 h]
  have hsℓ : s ≤ ℓ 0 := by
    have e := hℓ 0 h0
    have h3 : (2 : ℝ) ≤ g.n 0 := by exact_mod_cast n0
    rw [← e]
    exact le_mul_of_one_le_left hs.le (by linarith)
  have hℓ0 : 0 < ℓ 0 := lt_of_lt_of_le hs hsℓ
  have hsΛ : s ≤ Λ := hsℓ.trans ((le_abs_self _).trans (hΛa 0))
  have hΛas : ∀ a ∈ as, ℓ a ≤ Λ := fun a _ => (le_abs_self _).trans (hΛa a)
  set M := mediumOf g as with hM
  have hmem : ∀ p, p ∈ box L.cells → p ∈ box g.n := fun p hp => (hg.periodic.once hp).1
  have hrep : ∀ p ∈ box L.cells, ∀ c, ie (placeE s (repE g.n as p) c) c = ie (placeE s p c) c ∧ sg (placeE s (repE g.n as p) c) c = sg (placeE s p c) c := by
    intro p _ c
    have h : ∀ b, p b = repE g.n as p b ∨ (b ∈ as ∧ p b = 0 ∧ repE g.n as p b = g.n b - 1) := fun b => repE_wrapped b
    exact ⟨((same_sample hn hℓ h (G := fun x => ie x c) (fun a ha x => congrFun (pie a ha x) c) c).1).symm,
      ((same_sample hn hℓ h (G := fun x => sg x c) (fun a ha x => congrFun (psg a ha x) c) c).1).symm⟩
  have hMed : SampledMedium L M.quiet s ie im sg := by
    refine ⟨fun p hp c => ?_, fun p hp c => ?_, fun p hp c => ?_, fun t p c => ?_⟩
    · show g.invEps (repE g.n as p) c = _
      rw [hg.eps _ (repE_mem hn (hmem p hp)), (hrep p hp c).1]
    · exact hg.mu p (hmem p hp) c
    · show g.absorb (repE g.n as p) c = _
      rw [hg.loss _ (repE_mem hn (hmem p hp)), (hrep p hp c).1, (hrep p hp c).2]; rfl
    · rfl
  have hDec : Torus.Decent L M κ := by
    refine ⟨fun p hp c => by rw [show M.invEps p c = _ from hMed.eps p hp c]; exact hie _ c, fun p hp c => by rw [show M.invMu p c = _ from hMed.mu p hp c]; exact him _ c, fun p hp c => ?_⟩
    rw [show M.loss p c = _ from hMed.loss p hp c]
    have := (hie (placeE s p c) c).1.le
    have := (hsg (placeE s p c) c).1
    have : 0 ≤ M.quiet.courant := hc0.le
    positivity
  -- the sampled fields
  set e : ℕ → VField ℝ := fun j p c => E (j * δ) (placeE s p c) c with he
  set h : ℕ → VField ℝ := fun j p c => H ((j + 1 / 2) * δ) (placeH s p c) c with hh
  have uE : ∀ c b : Fin 3, 0 ≤ (if b = c then (1 : ℝ) / 2 else 0) ∧ (if b = c then (1 : ℝ) / 2 else 0) ≤ 1 / 2 := by
    intro c b; split_ifs <;> norm_num
  have uH : ∀ c b : Fin 3, 0 ≤ (if b = c then (0 : ℝ) else 1 / 2) ∧ (if b = c then (0 : ℝ) else 1 / 2) ≤ 1 / 2 := by
    intro c b; split_ifs <;> norm_num
  have nearby : ∀ {x : Place}, (∀ b, 0 ≤ x b ∧ x b ≤ Λ) → ∀ a y, |y - x a| ≤ s / 2 → ∀ b, -(2 * Λ) ≤ Function.update x a y b ∧ Function.update x a y b ≤ 2 * Λ := by
    intro x hx a y hy b
    have := hx b
    by_cases hb : b = a
    · subst hb
      rw [Function.update_self]
      rw [abs_le] at hy
      constructor <;> linarith [hy.1, hy.2]
    · rw [Function.update_of_ne hb]
      constructor <;> linarith
  set near : Pos → Prop := fun p => ∃ i ∈ I, |s * (p 0 : ℝ) - edge i| ≤ s with hnear
  -- a cell that is not beside a face lies in one layer with its neighbourhood
  have inside : ∀ {p : Pos}, ¬ near p → ∀ {u : ℝ}, 0 ≤ u → u ≤ 1 / 2 → 0 ≤ s * ((p 0 : ℝ) + u) → s * ((p 0 : ℝ) + u) ≤ Λ →
      ∃ i ∈ I, edge i ≤ s * ((p 0 : ℝ) + u) - s / 2 ∧ s * ((p 0 : ℝ) + u) + s / 2 < edge (i + 1) := by
    intro p hp u u0 u1 x0 x1
    obtain ⟨i, a, b⟩ := layer_of hX.sorted hX.below hX.above (s * ((p 0 : ℝ) + u) - s / 2)
    have y0 : -(2 * Λ) ≤ s * ((p 0 : ℝ) + u) - s / 2 := by linarith
    have y1 : s * ((p 0 : ℝ) + u) - s / 2 ≤ 2 * Λ := by linarith
    refine ⟨i, hI i _ y0 y1 a b, a, ?_⟩
    by_contra hcon
    refine hp ⟨i + 1, Finset.mem_Icc.mpr ⟨by have := low y0 b.le; omega, by have := high y1 a; omega⟩, ?_⟩
    have su : s * u ≤ s * (1 / 2) := mul_le_mul_of_nonneg_left u1 hs.le
    have su0 : 0 ≤ s * u := mul_nonneg hs.le u0
    rw [mul_add] at b hcon
    rw [not_lt] at hcon
    rw [abs_le]
    constructor <;> linarith
  have B0 : 0 ≤ 3 * (M0 * (1 + Sg) * δ * s ^ 2) ^ 2 + 9 * I.card * (N0 * δ) ^ 2 * (s / ℓ 0) := by positivity
  set b := (3 * (M0 * (1 + Sg) * δ * s ^ 2) ^ 2 + 9 * I.card * (N0 * δ) ^ 2 * (s / ℓ 0)) * ((box L.cells).card : ℝ) with hb
  have hcard : (0:ℝ) ≤ (box L.cells).card := Nat.cast_nonneg _
  have few : (((box L.cells).filter near).card : ℝ) ≤ 3 * I.card * (s / ℓ 0) * (box L.cells).card := by
    have c1 : ((box L.cells).filter near).card ≤ I.card * (3 * (L.cells 1 * L.cells 2)) := by
      refine le_trans (Finset.card_le_card ?_) (Finset.card_biUnion_le_card_mul I (fun i => (box L.cells).filter fun p => |s * (p 0 : ℝ) - edge i| ≤ s) _ fun i _ => card_beside hs (edge i))
      intro p hp
      rw [Finset.mem_filter] at hp
      obtain ⟨hp, i, hi, hy⟩ := hp
      exact Finset.mem_biUnion.mpr ⟨i, hi, Finset.mem_filter.mpr ⟨hp, hy⟩⟩
    have c2 : (((box L.cells).filter near).card : ℝ) ≤ I.card * (3 * ((L.cells 1 : ℝ) * L.cells 2)) := by exact_mod_cast c1
    have c3 : (L.cells 0 : ℝ) * s = ℓ 0 := by
      have e1 : L.cells 0 = g.n 0 - 1 := by simp [hL, Torus.Lattice.cells, torusOf, h0]
      rw [e1, Nat.cast_sub (by omega), Nat.cast_one, hℓ 0 h0]
    refine c2.trans (le_of_eq ?_)
    rw [card_box]
    push_cast
    rw [← c3]
    have c4 : (L.cells 0 : ℝ) ≠ 0 := fun hz => by rw [hz, zero_mul] at c3; linarith
    field_simp
  have total : ∀ F : VField ℝ, (∀ p ∈ box L.cells, ∀ c, ¬ near p → |F p c| ≤ M0 * (1 + Sg) * δ * s ^ 2) → (∀ p ∈ box L.cells, ∀ c, |F p c| ≤ N0 * δ) → fieldSq L.cells F ≤ b := by
    intro F f1 f2
    refine (fieldSq_mixed f1 f2).trans ?_
    have := mul_le_mul_of_nonneg_left few (show 0 ≤ 3 * (N0 * δ) ^ 2 by positivity)
    rw [hb]
    linarith
  have hT : ∀ j < k, ((j : ℝ) + 1) * δ ≤ T := by
    intro j hj
    have : (j : ℝ) + 1 ≤ k := by exact_mod_cast hj
    exact (mul_le_mul_of_nonneg_right this hδ0.le).trans hk
  have acc := Torus.accumulate_driven hg.periodic.closed hDec hκ hc0.le hc1 hθ hθ1 hc e h (mul_nonneg B0 hcard) g.time k ?_ ?_
  · have r := C48_torus g as hg.periodic.1 hg.periodic.two hg.soft hg.wraps (e 0) (h 0) (fun p hp c => ?_) k
    · have fE : fieldSq (onceCells g as) (fun p c => E (k * δ) (placeE s p c) c - (g.run k).E p c) = fieldSq L.cells (e k - (Torus.run L M g.time (e 0) (h 0) k).1) := by
        refine Finset.sum_congr rfl fun p hpp => Finset.sum_congr rfl fun c _ => ?_
        obtain ⟨hin, hw⟩ := hg.periodic.once hpp
        have a1 := r p (by rw [run_n]; exact hin) c
        rw [run_n, hw] at a1
        simp only [a1.1]; rfl
      have fH : fieldSq (onceCells g as) (fun p c => H ((k + 1 / 2) * δ) (placeH s p c) c - (g.run k).H p c) = fieldSq L.cells (h k - (Torus.run L M g.time (e 0) (h 0) k).2) := by
        refine Finset.sum_congr rfl fun p hpp => Finset.sum_congr rfl fun c _ => ?_
        obtain ⟨hin, hw⟩ := hg.periodic.once hpp
        have a1 := r p (by rw [run_n]; exact hin) c
        rw [run_n, hw] at a1
        simp only [a1.2]; rfl
      rw [fE, fH]
      refine acc.trans ?_
      have hq : 0 ≤ 210000 * κ / θ := by positivity
      have hk2 : ((k : ℝ) * δ) ^ 2 ≤ T ^ 2 := pow_le_pow_left₀ (by positivity) hk 2
      have s4 : s ^ 3 ≤ Λ ^ 3 := pow_le_pow_left₀ hs.le hsΛ 3
      have e1 : (k : ℝ) ^ 2 * b = ((k : ℝ) * δ) ^ 2 * ((3 * (M0 * (1 + Sg)) ^ 2 * s ^ 3 + 9 * I.card * (N0) ^ 2 / ℓ 0) * s * (box L.cells).card) := by rw [hb]; ring
      have e2 : 3 * (M0 * (1 + Sg)) ^ 2 * s ^ 3 + 9 * I.card * (N0) ^ 2 / ℓ 0 ≤ C1 := by
        rw [hC1]
        have := mul_le_mul_of_nonneg_left s4 (show 0 ≤ 3 * (M0 * (1 + Sg)) ^ 2 by positivity)
        linarith
      have e3 : 0 ≤ 3 * (M0 * (1 + Sg)) ^ 2 * s ^ 3 + 9 * I.card * (N0) ^ 2 / ℓ 0 := by positivity
      have e4 : (k : ℝ) ^ 2 * b ≤ T ^ 2 * (C1 * s * (box L.cells).card) := by
        rw [e1]
        refine mul_le_mul hk2 ?_ (by positivity) (sq_nonneg _)
        exact mul_le_mul_of_nonneg_right (mul_le_mul_of_nonneg_right e2 hs.le) hcard
      calc _ ≤ 210000 * κ / θ * (T ^ 2 * (C1 * s * (box L.cells).card)) := mul_le_mul_of_nonneg_left e4 hq
        _ = _ := by unfold onceCells; ring
    · obtain ⟨q1, q2⟩ := (same_sample hn hℓ (fun b => wrap_same hp b) (G := fun x => E 0 x c) (hE 0 c).period c)
      obtain ⟨q3, q4⟩ := (same_sample hn hℓ (fun b => wrap_same hp b) (G := fun x => H (δ / 2) x c) (hH (δ / 2) c).period c)
      constructor
      · rw [hg.startE p hp c]
        show _ = E (((0 : ℕ) : ℝ) * δ) _ c
        rw [Nat.cast_zero, zero_mul]; exact q1.symm
      · rw [hg.startH p hp c]
        show _ = H ((((0 : ℕ) : ℝ) + 1 / 2) * δ) _ c
        rw [Nat.cast_zero, show ((0:ℝ) + 1 / 2) * δ = δ / 2 by ring]; exact q4.symm
  · intro j hj
    have hjk := hT j hj
    obtain ⟨⟨a1, a2, a3, a4⟩, ⟨c1, c2, c3, c4⟩, d1, d2⟩ := step_times j hδ0 (hδs.trans hsΛ) hjk
    refine total _ (fun p hp c hfar => ?_) fun p hp c => ?_
    · have hx := fun b => place_range hn hℓ hs hΛas hsΛ hp (uE c) b
      have hx' : ∀ b, 0 ≤ placeE s p c b ∧ placeE s p c b ≤ Λ := hx
      have hx2 : ∀ b, -(2 * Λ) ≤ placeE s p c b ∧ placeE s p c b ≤ 2 * Λ := fun b => by
        have := hx' b
        constructor <;> linarith
      have tm := times_E j hδ0 (hδs.trans hsΛ) hjk
      obtain ⟨i, hi, l1, l2⟩ := inside hfar (uE c 0).1 (uE c 0).2 (hx 0).1 (hx 0).2
      replace l1 : edge i ≤ placeE s p c 0 - s / 2 := l1
      replace l2 : placeE s p c 0 + s / 2 < edge (i + 1) := l2
      have loc : ∀ a y, |y - placeE s p c a| ≤ s / 2 → edge i ≤ Function.update (placeE s p c) a y 0 ∧ Function.update (placeE s p c) a y 0 < edge (i + 1) := by
        intro a y hy
        by_cases ha : (0 : Fin 3) = a
        · subst ha
          rw [Function.update_self]
          rw [abs_le] at hy
          constructor <;> linarith [hy.1, hy.2]
        · rw [Function.update_of_ne ha]
          constructor <;> linarith
      have ne : ∀ m, placeE s p c 0 ≠ edge m := by
        intro m hm
        rcases le_or_gt m i with h' | h'
        · have := hX.sorted.monotone h'; linarith
        · have := hX.sorted.monotone (show i + 1 ≤ m by omega); linarith
      have vE : ∀ t, E t (placeE s p c) c = EP i t (placeE s p c) c := fun t => pE.value (by linarith) (by linarith) t c
      have vH : ∀ t a d y, |y - placeE s p c a| ≤ s / 2 → H t (Function.update (placeE s p c) a y) d = HP i t (Function.update (placeE s p c) a y) d :=
        fun t a d y hy => pH i t _ d (loc a y hy).1 (loc a y hy).2
      have amp : ∀ t, deriv (fun τ => EP i τ (placeE s p c) c) t = ie (placeE s p c) c * (curlAt (HP i t) (placeE s p c) c - sg (placeE s p c) c * EP i t (placeE s p c) c) := by
        intro t
        have a := hX.ampere t (placeE s p c) c ne
        rw [show (fun τ => E τ (placeE s p c) c) = fun τ => EP i τ (placeE s p c) c from funext vE, vE, curl_congr (by linarith : 0 < s / 2) (vH t)] at a
        exact a
      have key := residual_E_at hn hℓ hH hMed hs hc0 hc1 hp c ⟨(hie _ c).1, (hie _ c).2.1⟩ (hsg _ c) (sE i c) (sH i) vE vH amp (g.time + j) j pM0
        (fun a d y hy => bH.x3 i hi d a _ (mem_region a2 c2 (nearby hx' a y hy)))
        (fun y hy => bE.t3 i hi c _ (mem_region (tm y hy).1 (tm y hy).2 hx2))
        (fun y hy => bE.t2 i hi c _ (mem_region (tm y hy).1 (tm y hy).2 hx2))
      have quiet : totalDrive g.sources (g.time + j) p c = 0 := by
        refine hg.silent _ p c (hmem p hp) (Or.inr fun m hm => hfar ⟨m, ?_, by rw [hm, sub_self, abs_zero]; exact hs.le⟩)
        have r1 : 0 ≤ s * (p 0 : ℝ) := by positivity
        have r2 : s * (p 0 : ℝ) ≤ Λ := by
          have := mul_le_mul_of_nonneg_left (show (p 0 : ℝ) ≤ p 0 + (if (0 : Fin 3) = c then (1 : ℝ) / 2 else 0) by linarith [(uE c 0).1]) hs.le
          exact this.trans (hx 0).2
        exact hI m _ (by linarith) (by linarith) hm.ge (by rw [hm]; exact hX.sorted (by omega))
      rw [he, hh]
      simp only [Pi.sub_apply]
      rw [Torus.stepE_quiet, show M.drive (g.time + j) p c = 0 from quiet, add_zero]
      push_cast
      exact key
    · have hx := fun b => place_range hn hℓ hs hΛas hsΛ hp (uE c) b
      have hx' : ∀ b, 0 ≤ placeE s p c b ∧ placeE s p c b ≤ Λ := hx
      have hx2 : ∀ b, -(2 * Λ) ≤ placeE s p c b ∧ placeE s p c b ≤ 2 * Λ := fun b => by
        have := hx' b
        constructor <;> linarith
      obtain ⟨i, l1, l2⟩ := layer_of hX.sorted hX.below hX.above (placeE s p c 0)
      have hi := hI i _ (hx2 0).1 (hx2 0).2 l1 l2
      have v1 : |E (((j : ℝ) + 1) * δ) (placeE s p c) c| ≤ M0 := by rw [pE.value l1 l2]; exact bE.val i hi c _ (mem_region a3 c3 hx2)
      have v2 : |E ((j : ℝ) * δ) (placeE s p c) c| ≤ M0 := by rw [pE.value l1 l2]; exact bE.val i hi c _ (mem_region a1 c1 hx2)
      have v3 : |E (((j : ℝ) + 1) * δ) (placeE s p c) c - E ((j : ℝ) * δ) (placeE s p c) c| ≤ M0 * δ := by
        have := gradual_t pE bE hi l1 l2 hx2 c a1 d1 c3
        rwa [show ((j : ℝ) + 1) * δ - (j : ℝ) * δ = δ by ring] at this
      have slow : ∀ a d, a ≠ 0 → |H (((j : ℝ) + 1 / 2) * δ) (Function.update (placeE s p c) a (placeE s p c a + s / 2)) d
          - H (((j : ℝ) + 1 / 2) * δ) (Function.update (placeE s p c) a (placeE s p c a - s / 2)) d| ≤ M0 * s := by
        intro a d ha
        have := (gradual_within sH pH bH hi l1 l2).2 a d _ _ ha a2 c2 (by linarith : 0 < s / 2) (fun y hy => nearby hx' a y hy)
        rwa [show 2 * (s / 2) = s by ring] at this
      obtain ⟨S, v4, w1, w2⟩ : ∃ S : Fin 3 → ℝ, (∀ a d, a ≠ c → a ≠ d → |H (((j : ℝ) + 1 / 2) * δ) (Function.update (placeE s p c) a (placeE s p c a + s / 2)) d
          - H (((j : ℝ) + 1 / 2) * δ) (Function.update (placeE s p c) a (placeE s p c a - s / 2)) d - (if a = 0 then S d else 0)| ≤ M0 * s)
          ∧ |jumpCurl S c| ≤ 2 * M0 ∧ |totalDrive g.sources (g.time + j) p c + g.courant * ie (placeE s p c) c * jumpCurl S c| ≤ A * δ := by
        by_cases hc0' : c = 0
        · refine ⟨fun _ => 0, fun a d hac had => ?_, ?_, ?_⟩
          · rw [ite_self, sub_zero]
            exact slow a d (by rw [← hc0']; exact hac)
          · rw [jumpCurl_none, abs_zero]; linarith
          · rw [jumpCurl_none, hg.silent _ p c (hmem p hp) (Or.inl hc0'), mul_zero, add_zero, abs_zero]
            exact mul_nonneg hA hδ0.le
        have x0 : placeE s p c 0 = s * (p 0 : ℕ) := by simp [placeE, Ne.symm hc0']
        have across0 : ∀ d, (0 : Fin 3) ≠ d → |H (((j : ℝ) + 1 / 2) * δ) (Function.update (placeE s p c) 0 (placeE s p c 0 + s / 2)) d
            - H (((j : ℝ) + 1 / 2) * δ) (Function.update (placeE s p c) 0 (placeE s p c 0 - s / 2)) d
            - (piled (fun k => sheetJump (J k (((j : ℝ) + 1 / 2) * δ) (placeE s p c)) d) (lay (placeE s p c 0 + s / 2))
              - piled (fun k => sheetJump (J k (((j : ℝ) + 1 / 2) * δ) (placeE s p c)) d) (lay (placeE s p c 0 - s / 2)))| ≤ M0 * s := by
          intro d had
          have := gradual_x hX.sorted hX.below hX.above pT hI hI' bT had a2 c2 (by linarith : 0 < s / 2) (fun y hy => nearby hx' 0 y hy)
          rw [show 2 * (s / 2) = s by ring] at this
          simp only [hHT, hX.planar, Function.update_self] at this
          refine le_trans (le_of_eq (congrArg abs ?_)) this
          ring
        have btw := fun d => sheet_between (K := fun k => sheetJump (J k (((j : ℝ) + 1 / 2) * δ) (placeE s p c)) d) hX.sorted hs x0
          (fun k hk => hg.planes k (by obtain ⟨d', hd'⟩ := sheetJump_zero hk; exact ⟨_, _, d', hd'⟩))
          (lay1 (placeE s p c 0 - s / 2)) (lay2 _) (lay1 (placeE s p c 0 + s / 2)) (lay2 _)
        by_cases hq : ∃ q, edge q = placeE s p c 0
        · obtain ⟨q, hq⟩ := hq
          have hqI : q ∈ I := hI q _ (hx2 0).1 (hx2 0).2 hq.le (by rw [← hq]; exact hX.sorted (by omega))
          refine ⟨sheetJump (J q (((j : ℝ) + 1 / 2) * δ) (placeE s p c)), fun a d hac had => ?_, ?_, ?_⟩
          · by_cases ha : a = 0
            · subst ha
              have := across0 d had
              rw [(btw d).1 q hq, add_sub_cancel_left] at this
              rw [if_pos rfl]
              exact this
            · rw [if_neg ha, sub_zero]; exact slow a d ha
          · rw [jumpCurl_sheet _ hc0']
            have := bJ.val q hqI c _ (mem_region a2 c2 hx2)
            exact this.trans (by linarith)
          · rw [jumpCurl_sheet _ hc0']
            exact hg.drive j p c q (hmem p hp) hc0' (by rw [hq, x0])
        · push Not at hq
          refine ⟨fun _ => 0, fun a d hac had => ?_, ?_, ?_⟩
          · by_cases ha : a = 0
            · subst ha
              have := across0 d had
              rw [(btw d).2 hq, sub_self] at this
              rw [if_pos rfl]
              exact this
            · rw [if_neg ha, sub_zero]; exact slow a d ha
          · rw [jumpCurl_none, abs_zero]; linarith
          · rw [jumpCurl_none, hg.silent _ p c (hmem p hp) (Or.inr fun i hi' => hq i (by rw [x0]; exact hi'.symm)), mul_zero, add_zero, abs_zero]
            exact mul_nonneg hA hδ0.le
      have key := residual_E_driven hn hℓ hH hMed hs hc0 hc1 hp c ⟨(hie _ c).1, (hie _ c).2.1⟩ (hsg _ c) (g.time + j) j pM0 v1 v2 v3 v4 w1 w2
      rw [he, hh]
      simp only [Pi.sub_apply]
      rw [Torus.stepE_quiet, ← sub_sub]
      push_cast
      exact key
  · intro j hj
    have hjk := hT j hj
    obtain ⟨⟨a1, a2, a3, a4⟩, ⟨c1, c2, c3, c4⟩, d1, d2⟩ := step_times j hδ0 (hδs.trans hsΛ) hjk
    refine total _ (fun p hp c hfar => ?_) fun p hp c => ?_
    · have hx := fun b => place_range hn hℓ hs hΛas hsΛ hp (uH c) b
      have hx' : ∀ b, 0 ≤ placeH s p c b ∧ placeH s p c b ≤ Λ := hx
      have hx2 : ∀ b, -(2 * Λ) ≤ placeH s p c b ∧ placeH s p c b ≤ 2 * Λ := fun b => by
        have := hx' b
        constructor <;> linarith
      have tm := times_H j hδ0 (hδs.trans hsΛ) hjk
      obtain ⟨i, hi, l1, l2⟩ := inside hfar (uH c 0).1 (uH c 0).2 (hx 0).1 (hx 0).2
      replace l1 : edge i ≤ placeH s p c 0 - s / 2 := l1
      replace l2 : placeH s p c 0 + s / 2 < edge (i + 1) := l2
      have loc : ∀ a y, |y - placeH s p c a| ≤ s / 2 → edge i ≤ Function.update (placeH s p c) a y 0 ∧ Function.update (placeH s p c) a y 0 < edge (i + 1) := by
        intro a y hy
        by_cases ha : (0 : Fin 3) = a
        · subst ha
          rw [Function.update_self]
          rw [abs_le] at hy
          constructor <;> linarith [hy.1, hy.2]
        · rw [Function.update_of_ne ha]
          constructor <;> linarith
      have ne : ∀ m, placeH s p c 0 ≠ edge m := by
        intro m hm
        rcases le_or_gt m i with h' | h'
        · have := hX.sorted.monotone h'; linarith
        · have := hX.sorted.monotone (show i + 1 ≤ m by omega); linarith
      have vH : ∀ t, H t (placeH s p c) c = HP i t (placeH s p c) c := fun t => pH i t _ c (by linarith) (by linarith)
      have vE : ∀ t a d y, |y - placeH s p c a| ≤ s / 2 → E t (Function.update (placeH s p c) a y) d = EP i t (Function.update (placeH s p c) a y) d :=
        fun t a d y hy => pE.value (loc a y hy).1 (loc a y hy).2 t d
      have far : ∀ t, deriv (fun τ => HP i τ (placeH s p c) c) t = -(im (placeH s p c) c * curlAt (EP i t) (placeH s p c) c) := by
        intro t
        have a := hX.faraday t (placeH s p c) c ne
        rw [show (fun τ => H τ (placeH s p c) c) = fun τ => HP i τ (placeH s p c) c from funext vH, curl_congr (by linarith : 0 < s / 2) (vE t)] at a
        exact a
      have key := residual_H_at hn hℓ hE hMed hs hc0 hc1 hp c ⟨(him _ c).1, (him _ c).2.1⟩ (sH i c) (sE i) vH vE far j pM0
        (fun a d y hy => bE.x3 i hi d a _ (mem_region a3 c3 (nearby hx' a y hy)))
        (fun y hy => bH.t3 i hi c _ (mem_region (tm y hy).1 (tm y hy).2 hx2))
      have le : M0 * δ * s ^ 2 ≤ M0 * (1 + Sg) * δ * s ^ 2 := by
        have : 0 ≤ M0 * δ * s ^ 2 * Sg := by positivity
        linarith
      rw [he, hh]
      simp only [Pi.sub_apply]
      push_cast
      exact key.trans le
    · have hx := fun b => place_range hn hℓ hs hΛas hsΛ hp (uH c) b
      have hx' : ∀ b, 0 ≤ placeH s p c b ∧ placeH s p c b ≤ Λ := hx
      have hx2 : ∀ b, -(2 * Λ) ≤ placeH s p c b ∧ placeH s p c b ≤ 2 * Λ := fun b => by
        have := hx' b
        constructor <;> linarith
      obtain ⟨i, l1, l2⟩ := layer_of hX.sorted hX.below hX.above (placeH s p c 0)
      have hi := hI i _ (hx2 0).1 (hx2 0).2 l1 l2
      have v3 : |H (((j : ℝ) + 1 + 1 / 2) * δ) (placeH s p c) c - H (((j : ℝ) + 1 / 2) * δ) (placeH s p c) c| ≤ M0 * δ := by
        have := (gradual_within sH pH bH hi l1 l2).1 c _ _ hx2 a2 d2 c4
        rwa [show ((j : ℝ) + 1 + 1 / 2) * δ - ((j : ℝ) + 1 / 2) * δ = δ by ring] at this
      have v4 : ∀ a d, a ≠ d → |E (((j : ℝ) + 1) * δ) (Function.update (placeH s p c) a (placeH s p c a + s / 2)) d
          - E (((j : ℝ) + 1) * δ) (Function.update (placeH s p c) a (placeH s p c a - s / 2)) d| ≤ M0 * s := by
        intro a d had
        have := gradual_x hX.sorted hX.below hX.above pE hI hI' bE had a3 c3 (by linarith : 0 < s / 2) (fun y hy => nearby hx' a y hy)
        rwa [show 2 * (s / 2) = s by ring] at this
      have key := residual_H_near hn hℓ hE hMed hc0 hp c ⟨(him _ c).1, (him _ c).2.1⟩ j (M0 := M0) v3 v4
      have le : 3 * M0 * δ ≤ N0 * δ := by
        have h1 : 0 ≤ M0 * δ * Sg := by positivity
        have h2 : 0 ≤ A * δ := by positivity
        rw [hN0]
        linarith
      rw [he, hh]
      simp only [Pi.sub_apply]
      push_cast
      exact key.trans le

end main_driven

section example_driven

/-- the wave between two sheets of current, at the distances `i` and `i + 1` -/
noncomputable def betweenE (i : ℤ) : ℝ → Place → Fin 3 → ℝ := fun t x c => if c = 2 then Real.cos (x 0 - i - 1 / 2) * Real.cos t else 0

/-- its magnetic field -/
noncomputable def betweenH (i : ℤ) : ℝ → Place → Fin 3 → ℝ := fun t x c => if c = 1 then -(Real.sin (x 0 - i - 1 / 2) * Real.sin t) else 0

/-- the wave of sheets of current in vacuum at all whole distances -/
noncomputable def sheetE : ℝ → Place → Fin 3 → ℝ := fun t x c => betweenE ⌊x 0⌋ t x c

/-- its magnetic field -/
noncomputable def sheetH : ℝ → Place → Fin 3 → ℝ := fun t x c => betweenH ⌊x 0⌋ t x c

/-- the current of the sheets -/
noncomputable def sheetCurrent : ℤ → ℝ → Place → Fin 3 → ℝ := fun _ t _ c => if c = 2 then 2 * Real.sin (1 / 2) * Real.sin t else 0

lemma place_smooth : ContDiff ℝ 3 fun z : ℝ × Place => z.2 0 := (contDiff_apply ℝ ℝ (0 : Fin 3)).comp contDiff_snd

lemma betweenE_smooth (i : ℤ) (c : Fin 3) : ContDiff ℝ 3 fun z : ℝ × Place => betweenE i z.1 z.2 c := by
  unfold betweenE
  split_ifs
  · exact (Real.contDiff_cos.comp ((place_smooth.sub contDiff_const).sub contDiff_const)).mul (Real.contDiff_cos.comp contDiff_fst)
  · exact contDiff_const

lemma betweenH_smooth (i : ℤ) (c : Fin 3) : ContDiff ℝ 3 fun z : ℝ × Place => betweenH i z.1 z.2 c := by
  unfold betweenH
  split_ifs
  · exact ((Real.contDiff_sin.comp ((place_smooth.sub contDiff_const).sub contDiff_const)).mul (Real.contDiff_sin.comp contDiff_fst)).neg
  · exact contDiff_const

lemma between_x (i : ℤ) (y : ℝ) : HasDerivAt (fun y : ℝ => y - i - 1 / 2) 1 y := ((hasDerivAt_id y).sub_const _).sub_const _

lemma betweenE_partial (i : ℤ) (t : ℝ) (x : Place) (c a : Fin 3) : partialAt (fun y => betweenE i t y c) a x = if c = 2 ∧ a = 0 then -(Real.sin (x 0 - i - 1 / 2) * Real.cos t) else 0 := by
  unfold partialAt betweenE
  by_cases h : c = 2
  · by_cases ha : a = 0
    · subst ha
      simp only [Function.update_self, h, and_self, if_true]
      rw [((between_x i (x 0)).cos.mul_const _).deriv]
      ring
    · have : (0 : Fin 3) ≠ a := fun e => ha e.symm
      simp [h, ha, Function.update_of_ne this]
  · simp [h]

lemma betweenH_partial (i : ℤ) (t : ℝ) (x : Place) (c a : Fin 3) : partialAt (fun y => betweenH i t y c) a x = if c = 1 ∧ a = 0 then -(Real.cos (x 0 - i - 1 / 2) * Real.sin t) else 0 := by
  unfold partialAt betweenH
  by_cases h : c = 1
  · by_cases ha : a = 0
    · subst ha
      simp only [Function.update_self, h, and_self, if_true]
      rw [deriv.fun_neg, ((between_x i (x 0)).sin.mul_const _).deriv]
      ring
    · have : (0 : Fin 3) ≠ a := fun e => ha e.symm
      simp [h, ha, Function.update_of_ne this]
  · simp [h]

lemma betweenE_time (i : ℤ) (t : ℝ) (x : Place) (c : Fin 3) : deriv (fun τ => betweenE i τ x c) t = if c = 2 then -(Real.cos (x 0 - i - 1 / 2) * Real.sin t) else 0 := by
  unfold betweenE
  by_cases h : c = 2
  · simp only [if_pos h]
    rw [((Real.hasDerivAt_cos t).const_mul _).deriv]
    ring
  · simp [if_neg h]

lemma betweenH_time (i : ℤ) (t : ℝ) (x : Place) (c : Fin 3) : deriv (fun τ => betweenH i τ x c) t = if c = 1 then -(Real.sin (x 0 - i - 1 / 2) * Real.cos t) else 0 := by
  unfold betweenH
  by_cases h : c = 1
  · simp only [if_pos h]
    rw [deriv.fun_neg, ((Real.hasDerivAt_sin t).const_mul _).deriv]
  · simp [if_neg h]

lemma whole_inside {x : Place} (h : ∀ i : ℤ, x 0 ≠ (i : ℝ)) : ∃ ε, 0 < ε ∧ ∀ a y, |y - x a| ≤ ε → ⌊Function.update x a y 0⌋ = ⌊x 0⌋ := by
  set i := ⌊x 0⌋ with hi
  have f1 : (i : ℝ) ≤ x 0 := Int.floor_le _
  have f2 : x 0 < i + 1 := Int.lt_floor_add_one _
  have f3 : (i : ℝ) < x 0 := lt_of_le_of_ne f1 (h i).symm
  refine ⟨min (x 0 - i) ((i : ℝ) + 1 - x 0) / 2, by have := lt_min (sub_pos.mpr f3) (show 0 < (i : ℝ) + 1 - x 0 by linarith); linarith, fun a y hy => ?_⟩
  have m1 := min_le_left (x 0 - i) ((i : ℝ) + 1 - x 0)
  have m2 := min_le_right (x 0 - i) ((i : ℝ) + 1 - x 0)
  rw [Int.floor_eq_iff]
  by_cases ha : (0 : Fin 3) = a
  · subst ha
    rw [Function.update_self]
    rw [abs_le] at hy
    constructor <;> linarith [hy.1, hy.2]
  · rw [Function.update_of_ne ha]; exact ⟨f1, f2⟩

lemma sheet_maxwell : DrivenFields (fun i => (i : ℝ)) sheetCurrent (fun _ _ => 1) (fun _ _ => 1) (fun _ _ => 0) sheetE sheetH := by
  refine ⟨fun i j h => by exact_mod_cast h, fun r => ?_, fun r => ?_, fun i c => ?_, fun _ _ _ _ => rfl,
    fun i => ⟨betweenE i, betweenH i, betweenE_smooth i, betweenH_smooth i, fun t x c h1 h2 => ?_, fun t x c hc hx => ?_⟩, fun t x c hx => ?_, fun t x c hx => ?_⟩
  · obtain ⟨k, hk⟩ := exists_int_lt r; exact ⟨k, hk⟩
  · obtain ⟨k, hk⟩ := exists_int_gt r; exact ⟨k, hk⟩
  · unfold sheetCurrent
    split_ifs
    · exact contDiff_const.mul (Real.contDiff_sin.comp contDiff_fst)
    · exact contDiff_const
  · have : ⌊x 0⌋ = i := by rw [Int.floor_eq_iff]; push_cast at h2; exact ⟨h1, h2⟩
    unfold sheetE sheetH
    rw [this]
    exact ⟨rfl, rfl⟩
  · have : ⌊x 0⌋ = i + 1 := by rw [hx]; exact Int.floor_intCast _
    unfold sheetE sheetH
    rw [this]
    unfold betweenE betweenH sheetJump sheetCurrent
    rw [hx]
    push_cast
    rw [show (i : ℝ) + 1 - (i + 1) - 1 / 2 = -(1 / 2) by ring, show (i : ℝ) + 1 - i - 1 / 2 = 1 / 2 by ring, Real.cos_neg, Real.sin_neg]
    refine ⟨rfl, ?_⟩
    fin_cases c <;> simp
    ring
  · obtain ⟨ε, hε, hl⟩ := whole_inside hx
    have e := curl_congr (F := sheetH t) (G := betweenH ⌊x 0⌋ t) hε (fun a d y hy => by unfold sheetH; rw [hl a y hy]) c
    rw [e]
    show deriv (fun τ => betweenE ⌊x 0⌋ τ x c) t = _
    rw [betweenE_time, curlAt, betweenH_partial, betweenH_partial]
    fin_cases c <;> simp
  · obtain ⟨ε, hε, hl⟩ := whole_inside hx
    have e := curl_congr (F := sheetE t) (G := betweenE ⌊x 0⌋ t) hε (fun a d y hy => by unfold sheetE; rw [hl a y hy]) c
    rw [e]
    show deriv (fun τ => betweenH ⌊x 0⌋ τ x c) t = _
    rw [betweenH_time, curlAt, betweenE_partial, betweenE_partial]
    fin_cases c <;> simp

lemma sheet_repeats (t : ℝ) (c : Fin 3) : (Repeats [0] (fun _ => 1) fun x => sheetE t x c) ∧ (Repeats [0] (fun _ => 1) fun x => sheetH t x c) := by
  have shift : ∀ a ∈ [(0 : Fin 3)], ∀ x : Place, sheetE t (Function.update x a (x a + 1)) c = sheetE t x c ∧ sheetH t (Function.update x a (x a + 1)) c = sheetH t x c := by
    intro a ha x
    obtain rfl : a = 0 := by simpa using ha
    unfold sheetE sheetH betweenE betweenH
    rw [Function.update_self, Int.floor_add_one]
    push_cast
    rw [show x 0 + 1 - ((⌊x 0⌋ : ℝ) + 1) - 1 / 2 = x 0 - ⌊x 0⌋ - 1 / 2 by ring]
    exact ⟨rfl, rfl⟩
  have flat : ∀ a, a ∉ [(0 : Fin 3)] → ∀ x y, sheetE t (Function.update x a y) c = sheetE t x c ∧ sheetH t (Function.update x a y) c = sheetH t x c := by
    intro a ha x y
    have : (0 : Fin 3) ≠ a := by intro e; apply ha; simp [← e]
    unfold sheetE sheetH betweenE betweenH
    rw [Function.update_of_ne this]
    exact ⟨rfl, rfl⟩
  exact ⟨⟨fun a ha x => (shift a ha x).1, fun a ha x y => (flat a ha x y).1⟩, ⟨fun a ha x => (shift a ha x).2, fun a ha x y => (flat a ha x y).2⟩⟩

/-- a sine source of `N` cells per period in the first plane, and in its copy -/
noncomputable def sheetDrive (N : ℕ) : ℕ → VField ℝ := fun t p c => if c = 2 ∧ (p 0 = 0 ∨ p 0 = N) then -(7 / 10 * (2 * Real.sin (1 / 2))) * Real.sin (t * (7 / 10 * (1 / N))) else 0

/-- the grid with this source -/
noncomputable def sheetGrid (N : ℕ) : FGrid ℝ :=
  { FGrid.fresh ![N + 1, 1, 1] (7 / 10) 1 1 with
    boundaries := [0].map FBoundary.periodic
    sources := [.soft (sheetDrive N)]
    E := fun p c => sheetE 0 (placeE (1 / N) p c) c
    H := fun p c => sheetH (7 / 10 * (1 / N) / 2) (placeH (1 / N) p c) c }

lemma sheet_total (N t : ℕ) (p : Pos) (c : Fin 3) : totalDrive (sheetGrid N).sources t p c = sheetDrive N t p c := by
  simp [totalDrive, sheetGrid]

lemma sin_near (a b : ℝ) : |Real.sin a - Real.sin b| ≤ |a - b| := by
  rw [Real.sin_sub_sin, abs_mul, abs_mul, abs_two]
  have h1 := Real.abs_cos_le_one ((a + b) / 2)
  have h2 : |Real.sin ((a - b) / 2)| ≤ |(a - b) / 2| := Real.abs_sin_le_abs
  rw [abs_div, abs_two] at h2
  calc 2 * |Real.sin ((a - b) / 2)| * |Real.cos ((a + b) / 2)| ≤ 2 * (|a - b| / 2) * 1 := by gcongr
    _ = _ := by ring

lemma sheetGrid_driven {N : ℕ} (hN : 1 ≤ N) : DrivenGrid (sheetGrid N) [0] (fun _ => 1) (1 / N) (fun i => (i : ℝ)) sheetCurrent (fun _ _ => 1) (fun _ _ => 1) (fun _ _ => 0) sheetE sheetH 1 := by
  have hN0 : (0 : ℝ) < N := by exact_mod_cast hN
  have n0 : (sheetGrid N).n 0 = N + 1 := rfl
  refine ⟨⟨rfl, ?_⟩, ?_, ?_, fun i _ => ⟨N * i, by push_cast; field_simp⟩, ?_, ?_, ?_, ?_, ?_, ?_, fun _ _ _ => rfl, fun _ _ _ => rfl⟩
  · intro a
    fin_cases a
    · left; refine ⟨by simp, ?_⟩; show 2 ≤ N + 1; omega
    · right; refine ⟨by simp, rfl⟩
    · right; refine ⟨by simp, rfl⟩
  · intro s hs
    obtain rfl : s = .soft (sheetDrive N) := by simpa [sheetGrid] using hs
    exact ⟨_, rfl⟩
  · intro t p c hp
    rw [sheet_total, sheet_total]
    unfold sheetDrive
    have hp0 : p 0 < N + 1 := mem_box.mp hp 0
    have : (p 0 = 0 ∨ p 0 = N) ↔ ((torusOf (sheetGrid N).n [0]).wrap p 0 = 0 ∨ (torusOf (sheetGrid N).n [0]).wrap p 0 = N) := by
      simp only [Torus.Lattice.wrap, torusOf, n0, List.mem_singleton, decide_true, if_true, Nat.add_sub_cancel]
      rcases Nat.lt_or_ge (p 0) N with h | h
      · simp only [Nat.mod_eq_of_lt h]
      · have : p 0 = N := by omega
        simp [this]
    simp only [this]
  · intro t p c hp h
    rw [sheet_total]
    unfold sheetDrive
    rw [if_neg]
    rintro ⟨rfl, h0⟩
    rcases h with h | h
    · exact absurd h (by decide)
    · rcases h0 with h0 | h0
      · exact h 0 (by rw [h0]; simp)
      · exact h 1 (by rw [h0]; push_cast; field_simp)
  · intro j p c i hp hc hi
    have hp0 : p 0 < N + 1 := mem_box.mp hp 0
    rw [sheet_total, show (sheetGrid N).courant = 7 / 10 from rfl, show (sheetGrid N).time + j = j from Nat.zero_add j]
    have edge : p 0 = 0 ∨ p 0 = N := by
      have e : (p 0 : ℝ) = i * N := by field_simp at hi; linarith
      have e' : (p 0 : ℤ) = i * N := by exact_mod_cast e
      rcases lt_trichotomy i 0 with h | h | h
      · nlinarith
      · left; rw [h] at e'; omega
      · right
        have : i < 2 := by
          by_contra hcon
          nlinarith
        have : i = 1 := by omega
        rw [this] at e'; omega
    unfold sheetDrive sheetCurrent
    by_cases h2 : c = 2
    · simp only [h2, edge, and_self, if_true]
      have near := sin_near ((j + 1 / 2) * (7 / 10 * (1 / N))) (j * (7 / 10 * (1 / N)))
      rw [show ((j : ℝ) + 1 / 2) * (7 / 10 * (1 / N)) - j * (7 / 10 * (1 / N)) = 7 / 20 * (1 / N) by ring, abs_of_pos (show (0 : ℝ) < 7 / 20 * (1 / N) by positivity)] at near
      rw [show -(7 / 10 * (2 * Real.sin (1 / 2))) * Real.sin (j * (7 / 10 * (1 / N))) + 7 / 10 * 1 * (2 * Real.sin (1 / 2) * Real.sin ((j + 1 / 2) * (7 / 10 * (1 / N))))
        = 7 / 5 * Real.sin (1 / 2) * (Real.sin ((j + 1 / 2) * (7 / 10 * (1 / N))) - Real.sin (j * (7 / 10 * (1 / N)))) by ring, abs_mul]
      have b : |7 / 5 * Real.sin (1 / 2)| ≤ 7 / 5 := by
        rw [abs_mul, abs_of_pos (by norm_num : (0:ℝ) < 7 / 5)]
        have := Real.abs_sin_le_one (1 / 2)
        linarith
      calc _ ≤ 7 / 5 * (7 / 20 * (1 / (N : ℝ))) := mul_le_mul b near (abs_nonneg _) (by norm_num)
        _ ≤ _ := by
          have : (0 : ℝ) < 1 / N := by positivity
          linarith
    · simp only [h2, false_and, if_false, mul_zero, add_zero, abs_zero]
      positivity
  · intro a ha
    obtain rfl : a = 0 := by simpa using ha
    show (((N + 1 : ℕ) : ℝ) - 1) * (1 / N) = 1
    push_cast; field_simp; ring
  · intro p _ c; simp [sheetGrid, FGrid.fresh]
  · intro p _ c; simp [sheetGrid, FGrid.fresh]
  · intro p _ c; simp [sheetGrid, FGrid.fresh]

/-- not vacuous: a sine source in one plane of a periodic box in vacuum, on grids of any number of cells; the mean square of the errors is at most a constant divided by the number of cells -/
example : ∃ C, ∀ N : ℕ, 1 ≤ N → ∀ k : ℕ, (k : ℝ) * (7 / 10 * (1 / N)) ≤ 10 →
    fieldSq ![N, 1, 1] (fun p c => sheetE (k * (7 / 10 * (1 / N))) (placeE (1 / N) p c) c - ((sheetGrid N).run k).E p c) / N ≤ C * (1 / N) := by
  obtain ⟨C, hC⟩ := C183_driven sheet_maxwell (as := [0]) (ℓ := fun _ => 1) (by simp) (fun t c => (sheet_repeats t c).1) (fun t c => (sheet_repeats t c).2)
    (fun _ _ _ => rfl) (fun _ _ _ => rfl) (κ := 1) (Sg := 0) (fun _ _ => by norm_num) (fun _ _ => by norm_num) (fun _ _ => by norm_num) 10 (θ := 1 / 2) (A := 1) (by norm_num) (by norm_num)
  refine ⟨C, fun N hN k hk => ?_⟩
  have hN0 : (0 : ℝ) < N := by exact_mod_cast hN
  have := hC (1 / N) (by positivity) (sheetGrid N) (sheetGrid_driven hN) (by show (0:ℝ) < 7 / 10; norm_num) (by
    show (7 / 10 : ℝ) ^ 2 * _ ≤ _
    have : (Finset.univ.filter fun a : Fin 3 => a ∈ [(0 : Fin 3)]).card = 1 := by decide
    rw [this]; norm_num) k hk
  have cells : onceCells (sheetGrid N) [0] = ![N, 1, 1] := by
    funext a
    fin_cases a
    · show (N + 1) - 1 = N; omega
    · rfl
    · rfl
  have nH := fieldSq_nonneg (onceCells (sheetGrid N) [0]) (fun p c => sheetH ((k + 1 / 2) * ((sheetGrid N).courant * (1 / N))) (placeH (1 / N) p c) c - ((sheetGrid N).run k).H p c)
  have card : ((box ![N, 1, 1]).card : ℝ) = N := by rw [card_box]; simp
  have main := (le_add_of_nonneg_right nH).trans this
  rw [cells, card] at main
  rw [div_le_iff₀ hN0]
  exact main

end example_driven

end Nidn
