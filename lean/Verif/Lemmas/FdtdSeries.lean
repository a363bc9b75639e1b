/-
Fields that obey Yee updates with memory (stretched derivatives) on a lattice, seen as power series in the step number: exchanging source and receiver.
-/
import Mathlib.RingTheory.PowerSeries.Basic
import Mathlib.RingTheory.PowerSeries.NoZeroDivisors
import Mathlib.RingTheory.Localization.FractionRing
import Verif.Props.FdtdWalls

set_option linter.unusedSectionVars false

namespace Nidn

namespace Torus

section
variable {R : Type} [Field R]

/-- curl with backward differences, the difference along axis `a` multiplied by `κ a i` in plane `i` -/
noncomputable def curlBwdS (L : Lattice) (κ : Fin 3 → ℕ → R) (F : VField R) : VField R := fun p c =>
  κ (c + 1) (p (c + 1)) * bwd L F (c + 1) (c + 2) p - κ (c + 2) (p (c + 2)) * bwd L F (c + 2) (c + 1) p

/-- curl with forward differences, likewise -/
noncomputable def curlFwdS (L : Lattice) (κ : Fin 3 → ℕ → R) (F : VField R) : VField R := fun p c =>
  κ (c + 1) (p (c + 1)) * fwd L F (c + 1) (c + 2) p - κ (c + 2) (p (c + 2)) * fwd L F (c + 2) (c + 1) p

/-- one over the product of the stretching of the two axes other than `c` in `κ` and that of `c` in `μ` -/
noncomputable def stretchWeight (κ μ : Fin 3 → ℕ → R) (p : Pos) (c : Fin 3) : R :=
  (κ (c + 1) (p (c + 1)) * κ (c + 2) (p (c + 2)) * μ c (p c))⁻¹

lemma fwd_scaled (L : Lattice) (Z : Pos → R) (F : VField R) (b c : Fin 3) (hZ : ∀ p, Z (L.next p b) = Z p) (p : Pos) :
    fwd L (fun p _ => Z p * F p c) b 0 p = Z p * fwd L F b c p := by
  unfold fwd
  beta_reduce
  rw [hZ p]
  split_ifs <;> ring

/-- one pair of terms of the adjointness of the stretched curls -/
lemma stretched_pair {L : Lattice} {f h : VField R} (hf : DarkE L f) (hh : DarkH L h) (b c d : Fin 3) (hc : c ≠ b) (hd : d ≠ b) (Z : Pos → R)
    (hZ : ∀ p, Z (L.next p b) = Z p) :
    ∑ p ∈ box L.cells, Z p * f p c * bwd L h b d p = -∑ p ∈ box L.cells, Z p * h p d * fwd L f b c p := by
  have key := fwd_adjoint_dark (L := L) b (fun p _ => Z p * f p c) h 0 d fun ha h1 p hp hpa => by
    rcases hpa with hpa | hpa
    · show Z p * f p c * h p d = 0
      rw [(hf b ha h1 p hp).1 hpa c hc]; ring
    · show Z p * f p c * h p d = 0
      rw [(hh b ha h1 p hp).2 hpa d hd]; ring
  simp only [fwd_scaled L Z f b c hZ] at key
  rw [eq_neg_iff_add_eq_zero, add_comm, ← eq_neg_iff_add_eq_zero, ← key]
  exact Finset.sum_congr rfl fun p _ => by ring

/-- the stretched curls are adjoint with suitable weights -/
theorem stretched_adjoint {L : Lattice} {κ μ : Fin 3 → ℕ → R} (hκ : ∀ a i, κ a i ≠ 0) (hμ : ∀ a i, μ a i ≠ 0) {f h : VField R} (hf : DarkE L f) (hh : DarkH L h) :
    ∑ p ∈ box L.cells, ∑ c, stretchWeight κ μ p c * f p c * curlBwdS L κ h p c
      = ∑ p ∈ box L.cells, ∑ c, stretchWeight μ κ p c * h p c * curlFwdS L μ f p c := by
  have i1 : (1 : Fin 3) + 1 = 2 := rfl
  have i2 : (1 : Fin 3) + 2 = 0 := rfl
  have i3 : (2 : Fin 3) + 1 = 0 := rfl
  have i4 : (2 : Fin 3) + 2 = 1 := rfl
  set Z : Fin 3 → Fin 3 → Pos → R := fun c d p => (κ d (p d) * μ c (p c))⁻¹ with hZdef
  have hZ : ∀ b c d : Fin 3, c ≠ b → d ≠ b → ∀ p, Z c d (L.next p b) = Z c d p := by
    intro b c d hc hd p
    simp only [hZdef, next_other hc, next_other hd]
  have l1 : ∀ p, ∑ c, stretchWeight κ μ p c * f p c * curlBwdS L κ h p c
      = (Z 0 2 p * f p 0 * bwd L h 1 2 p - Z 0 1 p * f p 0 * bwd L h 2 1 p) + (Z 1 0 p * f p 1 * bwd L h 2 0 p - Z 1 2 p * f p 1 * bwd L h 0 2 p)
        + (Z 2 1 p * f p 2 * bwd L h 0 1 p - Z 2 0 p * f p 2 * bwd L h 1 0 p) := by
    intro p
    have a0 := hκ 0 (p 0); have a1 := hκ 1 (p 1); have a2 := hκ 2 (p 2)
    have b0 := hμ 0 (p 0); have b1 := hμ 1 (p 1); have b2 := hμ 2 (p 2)
    simp only [Fin.sum_univ_three, stretchWeight, curlBwdS, i1, i2, i3, i4, zero_add, hZdef]
    field_simp
  have l2 : ∀ p, ∑ c, stretchWeight μ κ p c * h p c * curlFwdS L μ f p c
      = (Z 2 0 p * h p 0 * fwd L f 1 2 p - Z 1 0 p * h p 0 * fwd L f 2 1 p) + (Z 0 1 p * h p 1 * fwd L f 2 0 p - Z 2 1 p * h p 1 * fwd L f 0 2 p)
        + (Z 1 2 p * h p 2 * fwd L f 0 1 p - Z 0 2 p * h p 2 * fwd L f 1 0 p) := by
    intro p
    have a0 := hκ 0 (p 0); have a1 := hκ 1 (p 1); have a2 := hκ 2 (p 2)
    have b0 := hμ 0 (p 0); have b1 := hμ 1 (p 1); have b2 := hμ 2 (p 2)
    simp only [Fin.sum_univ_three, stretchWeight, curlFwdS, i1, i2, i3, i4, zero_add, hZdef]
    field_simp
  simp only [l1, l2, Finset.sum_add_distrib, Finset.sum_sub_distrib]
  rw [stretched_pair hf hh 1 0 2 (by decide) (by decide) _ (hZ 1 0 2 (by decide) (by decide)),
    stretched_pair hf hh 2 0 1 (by decide) (by decide) _ (hZ 2 0 1 (by decide) (by decide)),
    stretched_pair hf hh 2 1 0 (by decide) (by decide) _ (hZ 2 1 0 (by decide) (by decide)),
    stretched_pair hf hh 0 1 2 (by decide) (by decide) _ (hZ 0 1 2 (by decide) (by decide)),
    stretched_pair hf hh 0 2 1 (by decide) (by decide) _ (hZ 0 2 1 (by decide) (by decide)),
    stretched_pair hf hh 1 2 0 (by decide) (by decide) _ (hZ 1 2 0 (by decide) (by decide))]
  ring

/-- reciprocity of two solutions of the stretched equations with different sources -/
theorem reciprocity_abstract {L : Lattice} {κ μ : Fin 3 → ℕ → R} (hκ : ∀ a i, κ a i ≠ 0) (hμ : ∀ a i, μ a i ≠ 0) {A D S T e h f g : VField R}
    (de : DarkE L e) (dh : DarkH L h) (df : DarkE L f) (dg : DarkH L g)
    (eqE : ∀ p ∈ box L.cells, ∀ c, A p c * e p c = curlBwdS L κ h p c + S p c) (eqH : ∀ p ∈ box L.cells, ∀ c, D p c * h p c = -curlFwdS L μ e p c)
    (eqF : ∀ p ∈ box L.cells, ∀ c, A p c * f p c = curlBwdS L κ g p c + T p c) (eqG : ∀ p ∈ box L.cells, ∀ c, D p c * g p c = -curlFwdS L μ f p c) :
    ∑ p ∈ box L.cells, ∑ c, stretchWeight κ μ p c * f p c * S p c = ∑ p ∈ box L.cells, ∑ c, stretchWeight κ μ p c * e p c * T p c := by
  have h1 := stretched_adjoint hκ hμ df dh
  have h2 := stretched_adjoint hκ hμ de dg
  have e1 : ∑ p ∈ box L.cells, ∑ c, stretchWeight κ μ p c * f p c * S p c
      = ∑ p ∈ box L.cells, ∑ c, stretchWeight κ μ p c * f p c * (A p c * e p c) - ∑ p ∈ box L.cells, ∑ c, stretchWeight κ μ p c * f p c * curlBwdS L κ h p c := by
    rw [← Finset.sum_sub_distrib]
    refine Finset.sum_congr rfl fun p hp => ?_
    rw [← Finset.sum_sub_distrib]
    refine Finset.sum_congr rfl fun c _ => ?_
    rw [eqE p hp c]; ring
  have e2 : ∑ p ∈ box L.cells, ∑ c, stretchWeight κ μ p c * e p c * T p c
      = ∑ p ∈ box L.cells, ∑ c, stretchWeight κ μ p c * f p c * (A p c * e p c) - ∑ p ∈ box L.cells, ∑ c, stretchWeight κ μ p c * e p c * curlBwdS L κ g p c := by
    rw [← Finset.sum_sub_distrib]
    refine Finset.sum_congr rfl fun p hp => ?_
    rw [← Finset.sum_sub_distrib]
    refine Finset.sum_congr rfl fun c _ => ?_
    linear_combination (-stretchWeight κ μ p c * e p c) * eqF p hp c
  have e3 : ∑ p ∈ box L.cells, ∑ c, stretchWeight μ κ p c * h p c * curlFwdS L μ f p c = ∑ p ∈ box L.cells, ∑ c, stretchWeight μ κ p c * g p c * curlFwdS L μ e p c := by
    refine Finset.sum_congr rfl fun p hp => Finset.sum_congr rfl fun c _ => ?_
    linear_combination (stretchWeight μ κ p c * h p c) * eqG p hp c - (stretchWeight μ κ p c * g p c) * eqH p hp c
  rw [e1, e2, h1, h2, e3]

end

/-! ### Sequences as series -/

/-- the field of fractions of the power series -/
abbrev Ser := FractionRing (PowerSeries ℝ)

/-- the series of a sequence -/
noncomputable def toSer (u : ℕ → ℝ) : Ser := algebraMap (PowerSeries ℝ) Ser (PowerSeries.mk u)

/-- a number as series -/
noncomputable def numSer (a : ℝ) : Ser := algebraMap (PowerSeries ℝ) Ser (PowerSeries.C a)

/-- the delay by one step -/
noncomputable def delay : Ser := algebraMap (PowerSeries ℝ) Ser PowerSeries.X

/-- convolution with a kernel -/
noncomputable def convAt (w u : ℕ → ℝ) (k : ℕ) : ℝ := ∑ j ∈ Finset.range (k + 1), w (k - j) * u j

lemma toSer_injective : Function.Injective toSer := by
  intro u v h
  have := IsFractionRing.injective (PowerSeries ℝ) Ser h
  funext k
  have hk := congrArg (PowerSeries.coeff k) this
  rwa [PowerSeries.coeff_mk, PowerSeries.coeff_mk] at hk

lemma toSer_zero : toSer (fun _ => 0) = 0 := by
  unfold toSer
  have : (PowerSeries.mk fun _ => (0 : ℝ)) = 0 := by ext; simp
  rw [this, map_zero]

lemma toSer_eq_zero {u : ℕ → ℝ} (h : toSer u = 0) : ∀ k, u k = 0 := fun k => congrFun (toSer_injective (h.trans toSer_zero.symm)) k

lemma toSer_add (u v : ℕ → ℝ) : toSer (fun k => u k + v k) = toSer u + toSer v := by
  unfold toSer
  rw [← map_add]
  congr 1

lemma toSer_sub (u v : ℕ → ℝ) : toSer (fun k => u k - v k) = toSer u - toSer v := by
  unfold toSer
  rw [← map_sub]
  congr 1

lemma toSer_smul (a : ℝ) (u : ℕ → ℝ) : toSer (fun k => a * u k) = numSer a * toSer u := by
  unfold toSer numSer
  rw [← map_mul]
  congr 1
  ext; simp

lemma toSer_conv (w u : ℕ → ℝ) : toSer (convAt w u) = toSer w * toSer u := by
  unfold toSer
  rw [← map_mul]
  congr 1
  ext k
  rw [PowerSeries.coeff_mk, PowerSeries.coeff_mul, Finset.Nat.sum_antidiagonal_eq_sum_range_succ_mk]
  unfold convAt
  rw [← Finset.sum_range_reflect]
  refine Finset.sum_congr rfl fun j hj => ?_
  have := Finset.mem_range.1 hj
  simp only [PowerSeries.coeff_mk]
  rw [show k - (k + 1 - 1 - j) = j by omega, show k + 1 - 1 - j = k - j by omega]

lemma toSer_shift {u : ℕ → ℝ} (h0 : u 0 = 0) : delay * toSer (fun k => u (k + 1)) = toSer u := by
  unfold toSer delay
  rw [← map_mul]
  congr 1
  ext k
  cases k with
  | zero => simp [h0]
  | succ k => rw [mul_comm, PowerSeries.coeff_succ_mul_X, PowerSeries.coeff_mk, PowerSeries.coeff_mk]

lemma delay_ne_zero : delay ≠ 0 := by
  unfold delay
  rw [Ne, ← map_zero (algebraMap (PowerSeries ℝ) Ser)]
  exact fun h => PowerSeries.X_ne_zero (IsFractionRing.injective (PowerSeries ℝ) Ser h)

lemma numSer_ne_zero {a : ℝ} (h : a ≠ 0) : numSer a ≠ 0 := by
  unfold numSer
  rw [Ne, ← map_zero (algebraMap (PowerSeries ℝ) Ser)]
  intro hh
  have h1 : PowerSeries.C a = 0 := IsFractionRing.injective (PowerSeries ℝ) Ser hh
  refine h ?_
  have := congrArg (PowerSeries.coeff 0) h1
  simpa using this

lemma numSer_inv {a : ℝ} (h : a ≠ 0) : numSer a * numSer a⁻¹ = 1 := by
  unfold numSer
  rw [← map_mul, ← map_mul, mul_inv_cancel₀ h, map_one, map_one]

lemma toSer_ne_zero {w : ℕ → ℝ} (h : w 0 ≠ 0) : toSer w ≠ 0 := fun hh => h (toSer_eq_zero hh 0)

lemma toSer_one : toSer (fun k => if k = 0 then 1 else 0) = 1 := by
  unfold toSer
  rw [← map_one (algebraMap (PowerSeries ℝ) Ser)]
  congr 1
  ext k
  rw [PowerSeries.coeff_mk, PowerSeries.coeff_one]

lemma toSer_sum {ι : Type} (s : Finset ι) (u : ι → ℕ → ℝ) : toSer (fun k => ∑ i ∈ s, u i k) = ∑ i ∈ s, toSer (u i) := by
  classical
  induction s using Finset.induction_on with
  | empty => simpa using toSer_zero
  | insert i s hi ih =>
    rw [Finset.sum_insert hi, ← ih, ← toSer_add]
    congr 1
    funext k
    rw [Finset.sum_insert hi]

lemma convAt_zero (w : ℕ → ℝ) {u : ℕ → ℝ} {k : ℕ} (h : ∀ j ≤ k, u j = 0) : convAt w u k = 0 :=
  Finset.sum_eq_zero fun j hj => by rw [h j (by have := Finset.mem_range.1 hj; omega), mul_zero]

/-! ### Lattice fields with memory -/

/-- the curl of step `k` when the difference along axis `a` in plane `i` is convolved with the kernel `w a i` -/
noncomputable def curlBwdM (L : Lattice) (w : Fin 3 → ℕ → ℕ → ℝ) (h : ℕ → VField ℝ) (k : ℕ) : VField ℝ := fun p c =>
  convAt (w (c + 1) (p (c + 1))) (fun j => bwd L (h j) (c + 1) (c + 2) p) k - convAt (w (c + 2) (p (c + 2))) (fun j => bwd L (h j) (c + 2) (c + 1) p) k

noncomputable def curlFwdM (L : Lattice) (w : Fin 3 → ℕ → ℕ → ℝ) (e : ℕ → VField ℝ) (k : ℕ) : VField ℝ := fun p c =>
  convAt (w (c + 1) (p (c + 1))) (fun j => fwd L (e j) (c + 1) (c + 2) p) k - convAt (w (c + 2) (p (c + 2))) (fun j => fwd L (e j) (c + 2) (c + 1) p) k

/-- Fields starting at zero that obey the Yee equations with memory, fed by the signal `s` through the profile `u`. -/
structure Response (L : Lattice) (w v : Fin 3 → ℕ → ℕ → ℝ) (a b d u : VField ℝ) (s : ℕ → ℝ) (e h : ℕ → VField ℝ) : Prop where
  startE : ∀ p c, e 0 p c = 0
  startH : ∀ p c, h 0 p c = 0
  stepE : ∀ k, ∀ p ∈ box L.cells, ∀ c, e (k + 1) p c = a p c * e k p c + b p c * curlBwdM L w h k p c + s k * u p c
  stepH : ∀ k, ∀ p ∈ box L.cells, ∀ c, h (k + 1) p c = h k p c - d p c * curlFwdM L v e (k + 1) p c

variable {L : Lattice} {w v : Fin 3 → ℕ → ℕ → ℝ} {a b d : VField ℝ} {s : ℕ → ℝ}

lemma curlBwdM_dark {h : ℕ → VField ℝ} {k : ℕ} (hh : ∀ j ≤ k, DarkH L (h j)) : DarkE L (curlBwdM L w h k) := by
  intro a ha h1 p hp
  refine ⟨fun h0 c hc => ?_, fun h0 => ?_⟩
  · have hz : ∀ j ≤ k, ∀ p ∈ box L.cells, p a = 0 → h j p a = 0 := fun j hj q hq hq0 => (hh j hj a ha h1 q hq).1 hq0
    unfold curlBwdM
    rcases two_others a c hc with ⟨u, v⟩ | ⟨u, v⟩
    · rw [u, convAt_zero _ fun j _ => bwd_first ha (h j) _ h0, convAt_zero _ fun j hj => bwd_zero (Ne.symm v) (hz j hj) hp h0, sub_zero]
    · rw [u, convAt_zero _ fun j hj => bwd_zero (Ne.symm v) (hz j hj) hp h0, convAt_zero _ fun j _ => bwd_first ha (h j) _ h0, sub_zero]
  · have hi : p a = L.n a - 1 := by omega
    have hz : ∀ d, d ≠ a → ∀ j ≤ k, ∀ p ∈ box L.cells, p a = L.n a - 1 → h j p d = 0 := fun d hd j hj q hq hq0 => by
      have hn : 0 < L.n a := by omega
      exact (hh j hj a ha h1 q hq).2 (by omega) d hd
    unfold curlBwdM
    obtain ⟨n1, n2, -⟩ := ne_shift a
    rw [convAt_zero _ fun j hj => bwd_zero n1 (hz _ n2.symm j hj) hp hi, convAt_zero _ fun j hj => bwd_zero n2 (hz _ n1.symm j hj) hp hi, sub_zero]

lemma curlFwdM_dark {e : ℕ → VField ℝ} {k : ℕ} (he : ∀ j ≤ k, DarkE L (e j)) : DarkH L (curlFwdM L w e k) := by
  intro a ha h1 p hp
  refine ⟨fun h0 => ?_, fun h0 c hc => ?_⟩
  · have hz : ∀ d, d ≠ a → ∀ j ≤ k, ∀ p ∈ box L.cells, p a = 0 → e j p d = 0 := fun d hd j hj q hq hq0 => (he j hj a ha h1 q hq).1 hq0 d hd
    unfold curlFwdM
    obtain ⟨n1, n2, -⟩ := ne_shift a
    rw [convAt_zero _ fun j hj => fwd_zero n1 (hz _ n2.symm j hj) hp h0, convAt_zero _ fun j hj => fwd_zero n2 (hz _ n1.symm j hj) hp h0, sub_zero]
  · have hi : p a = L.n a - 1 := by omega
    have hz : ∀ j ≤ k, ∀ p ∈ box L.cells, p a = L.n a - 1 → e j p a = 0 := fun j hj q hq hq0 => by
      have hn : 0 < L.n a := by omega
      exact (he j hj a ha h1 q hq).2 (by omega)
    unfold curlFwdM
    rcases two_others a c hc with ⟨u, v⟩ | ⟨u, v⟩
    · rw [u, convAt_zero _ fun j _ => fwd_last ha (e j) _ h0, convAt_zero _ fun j hj => fwd_zero (Ne.symm v) (hz j hj) hp hi, sub_zero]
    · rw [u, convAt_zero _ fun j hj => fwd_zero (Ne.symm v) (hz j hj) hp hi, convAt_zero _ fun j _ => fwd_last ha (e j) _ h0, sub_zero]

/-- a response fed inside the walls is dark at the walls -/
lemma Response.dark {u : VField ℝ} {e h : ℕ → VField ℝ} (r : Response L w v a b d u s e h) (hu : DarkE L u) :
    ∀ k, ∀ j ≤ k, DarkE L (e j) ∧ DarkH L (h j) := by
  intro k
  induction k with
  | zero =>
    intro j hj
    obtain rfl : j = 0 := by omega
    exact ⟨fun a _ _ p _ => ⟨fun _ c _ => r.startE p c, fun _ => r.startE p a⟩, fun a _ _ p _ => ⟨fun _ => r.startH p a, fun _ c _ => r.startH p c⟩⟩
  | succ k ih =>
    intro j hj
    rcases Nat.lt_or_ge j (k + 1) with hlt | hge
    · exact ih j (by omega)
    obtain rfl : j = k + 1 := by omega
    have hE : DarkE L (e (k + 1)) := by
      have hc := curlBwdM_dark (w := w) (fun j hj => (ih j hj).2)
      have he := (ih k le_rfl).1
      intro a ha h1 p hp
      refine ⟨fun h0 c hca => ?_, fun h0 => ?_⟩
      · rw [r.stepE k p hp c, (he a ha h1 p hp).1 h0 c hca, (hc a ha h1 p hp).1 h0 c hca, (hu a ha h1 p hp).1 h0 c hca]; ring
      · rw [r.stepE k p hp a, (he a ha h1 p hp).2 h0, (hc a ha h1 p hp).2 h0, (hu a ha h1 p hp).2 h0]; ring
    refine ⟨hE, ?_⟩
    have hc := curlFwdM_dark (w := v) (e := e) (k := k + 1) (fun j hj => by
      rcases Nat.lt_or_ge j (k + 1) with hlt | hge
      · exact (ih j (by omega)).1
      · obtain rfl : j = k + 1 := by omega
        exact hE)
    have hh := (ih k le_rfl).2
    intro a ha h1 p hp
    refine ⟨fun h0 => ?_, fun h0 c hca => ?_⟩
    · rw [r.stepH k p hp a, (hh a ha h1 p hp).1 h0, (hc a ha h1 p hp).1 h0]; ring
    · rw [r.stepH k p hp c, (hh a ha h1 p hp).2 h0 c hca, (hc a ha h1 p hp).2 h0 c hca]; ring

/-- a response to silence is zero -/
lemma Response.silent {u : VField ℝ} {e h : ℕ → VField ℝ} (r : Response L w v a b d u s e h) (hs : ∀ k, s k = 0) :
    ∀ k, ∀ j ≤ k, ∀ p ∈ box L.cells, ∀ c, e j p c = 0 ∧ h j p c = 0 := by
  have bz : ∀ F : VField ℝ, (∀ p ∈ box L.cells, ∀ c, F p c = 0) → ∀ p ∈ box L.cells, ∀ x y, bwd L F x y p = 0 ∧ fwd L F x y p = 0 := by
    intro F hF p hp x y
    constructor
    · unfold bwd
      rw [hF p hp y, hF _ (prev_in hp) y, sub_zero]; exact ite_self _
    · unfold fwd
      split_ifs with hn
      · rw [hF p hp y, hF _ (next_in hp hn) y, sub_zero]
      · rfl
  intro k
  induction k with
  | zero =>
    intro j hj p _ c
    obtain rfl : j = 0 := by omega
    exact ⟨r.startE p c, r.startH p c⟩
  | succ k ih =>
    intro j hj
    rcases Nat.lt_or_ge j (k + 1) with hlt | hge
    · exact ih j (by omega)
    obtain rfl : j = k + 1 := by omega
    have hE : ∀ p ∈ box L.cells, ∀ c, e (k + 1) p c = 0 := by
      intro p hp c
      rw [r.stepE k p hp c, hs, (ih k le_rfl p hp c).1]
      unfold curlBwdM
      rw [convAt_zero _ fun j hj => (bz (h j) (fun q hq c => (ih j hj q hq c).2) p hp _ _).1,
        convAt_zero _ fun j hj => (bz (h j) (fun q hq c => (ih j hj q hq c).2) p hp _ _).1]
      ring
    intro p hp c
    refine ⟨hE p hp c, ?_⟩
    have hall : ∀ j ≤ k + 1, ∀ q ∈ box L.cells, ∀ c, e j q c = 0 := by
      intro j hj q hq c
      rcases Nat.lt_or_ge j (k + 1) with hlt | hge
      · exact (ih j (by omega) q hq c).1
      · obtain rfl : j = k + 1 := by omega
        exact hE q hq c
    rw [r.stepH k p hp c, (ih k le_rfl p hp c).2]
    unfold curlFwdM
    rw [convAt_zero _ fun j hj => (bz (e j) (hall j hj) p hp _ _).2, convAt_zero _ fun j hj => (bz (e j) (hall j hj) p hp _ _).2]
    ring

lemma bwd_toSer (h : ℕ → VField ℝ) (x y : Fin 3) (p : Pos) :
    bwd L (fun q c => toSer fun k => h k q c) x y p = toSer fun k => bwd L (h k) x y p := by
  unfold bwd
  split_ifs
  · rw [toSer_sub]
  · rw [toSer_zero]

lemma fwd_toSer (h : ℕ → VField ℝ) (x y : Fin 3) (p : Pos) :
    fwd L (fun q c => toSer fun k => h k q c) x y p = toSer fun k => fwd L (h k) x y p := by
  unfold fwd
  split_ifs
  · rw [toSer_sub]
  · rw [toSer_zero]

lemma curlBwdM_toSer (h : ℕ → VField ℝ) (p : Pos) (c : Fin 3) :
    (toSer fun k => curlBwdM L w h k p c) = curlBwdS L (fun x i => toSer (w x i)) (fun q c => toSer fun k => h k q c) p c := by
  unfold curlBwdM curlBwdS
  rw [toSer_sub, bwd_toSer, bwd_toSer]
  rw [← toSer_conv, ← toSer_conv]

lemma curlFwdM_toSer (e : ℕ → VField ℝ) (p : Pos) (c : Fin 3) :
    (toSer fun k => curlFwdM L w e k p c) = curlFwdS L (fun x i => toSer (w x i)) (fun q c => toSer fun k => e k q c) p c := by
  unfold curlFwdM curlFwdS
  rw [toSer_sub, fwd_toSer, fwd_toSer]
  rw [← toSer_conv, ← toSer_conv]

/-- the electric equation as series -/
lemma Response.eqE {u : VField ℝ} {e h : ℕ → VField ℝ} (r : Response L w v a b d u s e h) (hb : ∀ p ∈ box L.cells, ∀ c, b p c ≠ 0) :
    ∀ p ∈ box L.cells, ∀ c, (numSer (b p c)⁻¹ * delay⁻¹ * (1 - delay * numSer (a p c))) * (toSer fun k => e k p c)
      = curlBwdS L (fun x i => toSer (w x i)) (fun q c => toSer fun k => h k q c) p c + numSer (b p c)⁻¹ * numSer (u p c) * toSer s := by
  intro p hp c
  have h1 := toSer_shift (u := fun k => e k p c) (r.startE p c)
  have h2 : (fun k => e (k + 1) p c) = fun k => a p c * e k p c + b p c * curlBwdM L w h k p c + u p c * s k := by
    funext k
    rw [r.stepE k p hp c]; ring
  rw [h2, toSer_add, toSer_add, toSer_smul, toSer_smul, toSer_smul, curlBwdM_toSer] at h1
  have hbi := numSer_inv (hb p hp c)
  have hd := mul_inv_cancel₀ delay_ne_zero
  set C := curlBwdS L (fun x i => toSer (w x i)) (fun q c => toSer fun k => h k q c) p c
  set X := toSer fun k => e k p c
  linear_combination (-numSer (b p c)⁻¹ * delay⁻¹) * h1 + (numSer (b p c)⁻¹ * (numSer (a p c) * X + numSer (b p c) * C + numSer (u p c) * toSer s) - numSer (b p c)⁻¹ * numSer (a p c) * X) * hd + C * hbi

/-- the magnetic equation as series -/
lemma Response.eqH {u : VField ℝ} {e h : ℕ → VField ℝ} (r : Response L w v a b d u s e h) (hd : ∀ p ∈ box L.cells, ∀ c, d p c ≠ 0) :
    ∀ p ∈ box L.cells, ∀ c, (numSer (d p c)⁻¹ * (1 - delay)) * (toSer fun k => h k p c)
      = -curlFwdS L (fun x i => toSer (v x i)) (fun q c => toSer fun k => e k q c) p c := by
  intro p hp c
  have h1 := toSer_shift (u := fun k => h k p c) (r.startH p c)
  have h3 := toSer_shift (u := fun k => curlFwdM L v e k p c) (by
    unfold curlFwdM
    have z : ∀ x y, fwd L (e 0) x y p = 0 := by
      intro x y
      unfold fwd
      rw [r.startE, r.startE, sub_zero]; exact ite_self _
    have z' : ∀ x y, ∀ j ≤ 0, fwd L (e j) x y p = 0 := fun x y j hj => by rw [Nat.le_zero.1 hj]; exact z x y
    rw [convAt_zero _ (z' _ _), convAt_zero _ (z' _ _), sub_zero])
  have h2 : (fun k => h (k + 1) p c) = fun k => h k p c - d p c * curlFwdM L v e (k + 1) p c := by
    funext k
    rw [r.stepH k p hp c]
  rw [h2, toSer_sub, toSer_smul] at h1
  rw [curlFwdM_toSer] at h3
  have hdi := numSer_inv (hd p hp c)
  set C := curlFwdS L (fun x i => toSer (v x i)) (fun q c => toSer fun k => e k q c) p c
  set X := toSer fun k => h k p c
  linear_combination (-numSer (d p c)⁻¹) * h1 - numSer (d p c)⁻¹ * numSer (d p c) * h3 - C * hdi

/-- no memory, no stretching -/
def plainKernel (k : ℕ) : ℝ := if k = 0 then 1 else 0

/-- Reciprocity on the lattice: the response to the profile `u`, weighted with the profile `u'`, is the response to the profile `u'` weighted with `u`, at every step. -/
theorem response_reciprocal (hw : ∀ x i, w x i 0 ≠ 0) (hv : ∀ x i, v x i 0 ≠ 0) (hb : ∀ p ∈ box L.cells, ∀ c, b p c ≠ 0) (hd : ∀ p ∈ box L.cells, ∀ c, d p c ≠ 0)
    {u u' : VField ℝ} (hu : DarkE L u) (hu' : DarkE L u')
    (plain : ∀ p ∈ box L.cells, ∀ c, u p c ≠ 0 ∨ u' p c ≠ 0 → ∀ x, w x (p x) = plainKernel ∧ v x (p x) = plainKernel)
    {e h e' h' : ℕ → VField ℝ} (r : Response L w v a b d u s e h) (r' : Response L w v a b d u' s e' h') (k : ℕ) :
    ∑ p ∈ box L.cells, ∑ c, u p c / b p c * e' k p c = ∑ p ∈ box L.cells, ∑ c, u' p c / b p c * e k p c := by
  by_cases hs : ∀ k, s k = 0
  · rw [Finset.sum_eq_zero fun p hp => Finset.sum_eq_zero fun c _ => by rw [(r'.silent hs k k le_rfl p hp c).1, mul_zero],
      Finset.sum_eq_zero fun p hp => Finset.sum_eq_zero fun c _ => by rw [(r.silent hs k k le_rfl p hp c).1, mul_zero]]
  have hs' : toSer s ≠ 0 := fun hh => hs (toSer_eq_zero hh)
  have darkSer : ∀ {F : ℕ → VField ℝ}, (∀ k, DarkE L (F k)) → DarkE L (fun q c => toSer fun k => F k q c) := by
    intro F hF a ha h1 p hp
    refine ⟨fun h0 c hc => ?_, fun h0 => ?_⟩
    · have : (fun k => F k p c) = fun _ => 0 := funext fun k => (hF k a ha h1 p hp).1 h0 c hc
      show toSer (fun k => F k p c) = 0
      rw [this, toSer_zero]
    · have : (fun k => F k p a) = fun _ => 0 := funext fun k => (hF k a ha h1 p hp).2 h0
      show toSer (fun k => F k p a) = 0
      rw [this, toSer_zero]
  have darkSerH : ∀ {F : ℕ → VField ℝ}, (∀ k, DarkH L (F k)) → DarkH L (fun q c => toSer fun k => F k q c) := by
    intro F hF a ha h1 p hp
    refine ⟨fun h0 => ?_, fun h0 c hc => ?_⟩
    · have : (fun k => F k p a) = fun _ => 0 := funext fun k => (hF k a ha h1 p hp).1 h0
      show toSer (fun k => F k p a) = 0
      rw [this, toSer_zero]
    · have : (fun k => F k p c) = fun _ => 0 := funext fun k => (hF k a ha h1 p hp).2 h0 c hc
      show toSer (fun k => F k p c) = 0
      rw [this, toSer_zero]
  have key := reciprocity_abstract (L := L) (fun x i => toSer_ne_zero (hw x i)) (fun x i => toSer_ne_zero (hv x i))
    (darkSer fun k => (r.dark hu k k le_rfl).1) (darkSerH fun k => (r.dark hu k k le_rfl).2) (darkSer fun k => (r'.dark hu' k k le_rfl).1) (darkSerH fun k => (r'.dark hu' k k le_rfl).2)
    (r.eqE hb) (r.eqH hd) (r'.eqE hb) (r'.eqH hd)
  have one : ∀ p ∈ box L.cells, ∀ c, u p c ≠ 0 ∨ u' p c ≠ 0 → stretchWeight (fun x i => toSer (w x i)) (fun x i => toSer (v x i)) p c = 1 := by
    intro p hp c h
    have hpl := plain p hp c h
    unfold stretchWeight
    have t1 : toSer plainKernel = 1 := toSer_one
    simp only [(hpl _).1, (hpl _).2, t1, mul_one, inv_one]
  have nz : numSer 0 = 0 := by unfold numSer; rw [map_zero, map_zero]
  have lhs : ∀ (x y : VField ℝ) (F : ℕ → VField ℝ), (∀ p ∈ box L.cells, ∀ c, x p c ≠ 0 → stretchWeight (fun x i => toSer (w x i)) (fun x i => toSer (v x i)) p c = 1) →
      ∑ p ∈ box L.cells, ∑ c, stretchWeight (fun x i => toSer (w x i)) (fun x i => toSer (v x i)) p c * (toSer fun k => F k p c) * (numSer (b p c)⁻¹ * numSer (x p c) * toSer s)
      = toSer s * toSer (fun k => ∑ p ∈ box L.cells, ∑ c, x p c / b p c * F k p c) := by
    intro x y F hx
    rw [toSer_sum, Finset.mul_sum]
    refine Finset.sum_congr rfl fun p hp => ?_
    rw [toSer_sum, Finset.mul_sum]
    refine Finset.sum_congr rfl fun c _ => ?_
    rw [toSer_smul]
    have hdiv : numSer (x p c / b p c) = numSer (x p c) * numSer (b p c)⁻¹ := by
      unfold numSer
      rw [div_eq_mul_inv, map_mul, map_mul]
    rw [hdiv]
    by_cases h0 : x p c = 0
    · rw [h0, nz]; ring
    · rw [hx p hp c h0]; ring
  rw [lhs u u e' fun p hp c h => one p hp c (Or.inl h), lhs u' u' e fun p hp c h => one p hp c (Or.inr h)] at key
  exact congrFun (toSer_injective (mul_left_cancel₀ hs' key)) k

end Torus

end Nidn
