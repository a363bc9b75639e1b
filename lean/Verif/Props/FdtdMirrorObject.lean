/-
C173: an object placed at the mirrored slice is the mirror image of the object.
-/
import Verif.Props.FdtdMirror
import Verif.Props.FdtdObjects
import Mathlib.Tactic.IntervalCases

namespace Nidn

section
variable {K : Type} [Field K]

/-- the cells of a slice with both bounds inside the axis -/
lemma bounded_slice {N s e : ℕ} (he : e ≤ N) (i : ℕ) : keySelects N (.slice ⟨some s, some e, none⟩) i ↔ s ≤ i ∧ i < e := by
  show sliceSelects N _ i ↔ _
  unfold sliceSelects sliceBound
  simp only
  split_ifs <;> omega

lemma bounded_key {N s e : ℕ} (hs : s ≤ e) (he : e ≤ N) : ObjectKey N (.slice ⟨some s, some e, none⟩) := by
  refine ⟨.inl rfl, ?_, ?_, ?_⟩
  · intro a h; injection h with h; omega
  · intro a h; injection h with h; omega
  · simp only [sliceBound]; split_ifs <;> omega

/-- the keys of an object that runs from plane `s` to plane `e - 1` along axis `a` -/
def alongAxis (k : Fin 3 → AxisKey) (a : Fin 3) (s e : ℕ) : Fin 3 → AxisKey := Function.update k a (.slice ⟨some (s : ℤ), some (e : ℤ), none⟩)

lemma alongAxis_self (k : Fin 3 → AxisKey) (a : Fin 3) (s e : ℕ) : alongAxis k a s e a = .slice ⟨some (s : ℤ), some (e : ℤ), none⟩ := Function.update_self ..
lemma alongAxis_other (k : Fin 3 → AxisKey) {a b : Fin 3} (h : b ≠ a) (s e : ℕ) : alongAxis k a s e b = k b := Function.update_of_ne h ..

/-- **C173.** Of two objects of the same permittivity, the second at the mirrored slice (at least two planes thick, off the first and the last plane of the axis), the second is the mirror image of the first, border components
included, in grids that were mirror images before and have one background for the component along the axis. -/
theorem C173_object_partial (n : Pos) (courant spacing eta0 : K) (a : Fin 3) (m m' : Materials K) (eps v : K) (k : Fin 3 → AxisKey) (hk : ∀ b, b ≠ a → ObjectKey (n b) (k b)) (hz : (k 2).isList = false)
    {s e s' e' S : ℕ} (h1 : 1 ≤ s) (h2 : s + 2 ≤ e) (h3 : e + 1 ≤ n a) (h1' : 1 ≤ s') (h3' : e' + 1 ≤ n a) (hS : s + e' = S + 1) (hS' : e + s' = S + 1)
    (hm : MirrorOn n a S (halfE a) (fun _ => (1 : K)) (fun _ => True) m.invEps m'.invEps) (hv : ∀ p, m.invEps p a = v) (hv' : ∀ p, m'.invEps p a = v) :
    ∃ o o', objectPlace n courant spacing eta0 m ⟨eps, none⟩ (alongAxis k a s e) = .ok o ∧ objectPlace n courant spacing eta0 m' ⟨eps, none⟩ (alongAxis k a s' e') = .ok o' ∧
      MirrorOn n a S (halfE a) (fun _ => (1 : K)) (fun _ => True) o.invEps o'.invEps := by
  have keys : ∀ x y : ℕ, x ≤ y → y ≤ n a → (∀ b, ObjectKey (n b) (alongAxis k a x y b)) ∧ ((alongAxis k a x y) 2).isList = false := by
    intro x y hx hy
    refine ⟨fun b => ?_, ?_⟩
    · by_cases hb : b = a
      · subst hb; rw [alongAxis_self]; exact bounded_key hx hy
      · rw [alongAxis_other k hb]; exact hk b hb
    · by_cases hb : 2 = a
      · subst hb; rw [alongAxis_self]; rfl
      · rw [alongAxis_other k hb]; exact hz
  obtain ⟨o, ho, out, inn, top, -, -⟩ := C54_inside n courant spacing eta0 m ⟨eps, none⟩ (alongAxis k a s e) (keys s e (by omega) (by omega)).1 (keys s e (by omega) (by omega)).2
  obtain ⟨o', ho', out', inn', top', -, -⟩ := C54_inside n courant spacing eta0 m' ⟨eps, none⟩ (alongAxis k a s' e') (keys s' e' (by omega) (by omega)).1 (keys s' e' (by omega) (by omega)).2
  refine ⟨o, o', ho, ho', ?_⟩
  have sel : ∀ x y : ℕ, y ≤ n a → ∀ i, keySelects (n a) (alongAxis k a x y a) i ↔ x ≤ i ∧ i < y := by
    intro x y hy i
    rw [alongAxis_self]; exact bounded_slice hy i
  intro c p p' hp _ _
  have l := mem_box.1 hp.mem a
  have l' := mem_box.1 hp.mem' a
  -- on a ring of `n a - 1` places the sum can only be `S`, one round less or one round more
  have hsum : (p a : ℤ) + p' a + (if halfE a c then 1 else 0) = S ∨ (p a : ℤ) + p' a + (if halfE a c then 1 else 0) + (n a - 1) ≤ S ∨ S + ((n a : ℤ) - 1) ≤ p a + p' a + (if halfE a c then 1 else 0) := by
    obtain ⟨z, hz⟩ := hp.sum.dvd
    have hpos : (0 : ℤ) < n a - 1 := by omega
    rcases lt_trichotomy z 0 with h | h | h
    · right; right; nlinarith
    · left; rw [h, mul_zero] at hz; linarith
    · right; left; nlinarith
  have oth : (∀ b, b ≠ a → keySelects (n b) (alongAxis k a s e b) (p b)) ↔ ∀ b, b ≠ a → keySelects (n b) (alongAxis k a s' e' b) (p' b) := by
    refine forall_congr' fun b => forall_congr' fun hb => ?_
    rw [alongAxis_other k hb, alongAxis_other k hb, hp.other b hb]
  have add : ∀ (x y : ℕ) (q : Pos), y ≤ n a → (addressed n (alongAxis k a x y) q ↔ (x ≤ q a ∧ q a < y) ∧ ∀ b, b ≠ a → keySelects (n b) (alongAxis k a x y b) (q b)) := by
    intro x y q hy
    constructor
    · exact fun h => ⟨(sel x y hy _).1 (h a), fun b _ => h b⟩
    · intro h b
      by_cases hb : b = a
      · subst hb; exact (sel x y hy _).2 h.1
      · exact h.2 b hb
  rw [one_mul]
  by_cases hca : c = a
  · -- the component along the axis sits half a cell further
    subst hca
    have hh : halfE c c = true := by simp [halfE]
    rw [hh] at hsum
    simp only [if_true] at hsum
    have val : ∀ (x y : ℕ) (w : Materials K) (u : VField K) (q : Pos), x + 2 ≤ y → y ≤ n c → (∀ p, w.invEps p c = v) → (∀ p c', ¬ addressed n (alongAxis k c x y) p → u p c' = w.invEps p c') →
        (∀ p c', addressed n (alongAxis k c x y) p → ¬ topPlane n (alongAxis k c x y) c' p → u p c' = 1 / eps) →
        (∀ p c', addressed n (alongAxis k c x y) p → topPlane n (alongAxis k c x y) c' p → u p c' = w.invEps (Function.update p c' (n c' - 1)) c') →
        ∀ (P : Prop), (P ↔ (x ≤ q c ∧ q c + 1 < y) ∧ ∀ b, b ≠ c → keySelects (n b) (alongAxis k c x y b) (q b)) → (P → u q c = 1 / eps) ∧ (¬ P → u q c = v) := by
      intro x y w u q hxy hy hw o1 o2 o3 P hP
      have ht : addressed n (alongAxis k c x y) q → (topPlane n (alongAxis k c x y) c q ↔ q c + 1 = y) := by
        intro ha
        have hr := ((add x y q hy).1 ha).1
        unfold topPlane
        simp only [sel x y hy]
        constructor
        · rintro ⟨-, h, -⟩; omega
        · intro h; exact ⟨hr, by omega, x, by omega, by omega, by omega⟩
      constructor
      · intro hPt
        have hh := hP.1 hPt
        have ha := (add x y q hy).2 ⟨⟨hh.1.1, by omega⟩, hh.2⟩
        exact o2 q c ha fun h => by have := (ht ha).1 h; omega
      · intro hPf
        by_cases ha : addressed n (alongAxis k c x y) q
        · have hr := (add x y q hy).1 ha
          have : topPlane n (alongAxis k c x y) c q := (ht ha).2 (by
            by_contra hne
            exact hPf (hP.2 ⟨⟨hr.1.1, by omega⟩, hr.2⟩))
          rw [o3 q c ha this]; exact hw _
        · rw [o1 q c ha]; exact hw _
    have va := val s e m o.invEps p h2 (by omega) hv (fun p c h => (out p c h).1) inn top _ Iff.rfl
    have vb := val s' e' m' o'.invEps p' (by omega) (by omega) hv' (fun p c h => (out' p c h).1) inn' top' _ Iff.rfl
    have key : ((s ≤ p c ∧ p c + 1 < e) ∧ ∀ b, b ≠ c → keySelects (n b) (alongAxis k c s e b) (p b)) ↔
        ((s' ≤ p' c ∧ p' c + 1 < e') ∧ ∀ b, b ≠ c → keySelects (n b) (alongAxis k c s' e' b) (p' b)) := by
      rw [oth]
      refine and_congr_left fun _ => ?_
      omega
    by_cases hP : (s ≤ p c ∧ p c + 1 < e) ∧ ∀ b, b ≠ c → keySelects (n b) (alongAxis k c s e b) (p b)
    · rw [va.1 hP, vb.1 (key.1 hP)]
    · rw [va.2 hP, vb.2 (mt key.2 hP)]
  · have hh : halfE a c = false := by simpa [halfE] using hca
    rw [hh] at hsum
    simp only [Bool.false_eq_true, if_false, add_zero] at hsum
    have hadd : addressed n (alongAxis k a s e) p ↔ addressed n (alongAxis k a s' e') p' := by
      rw [add s e p (by omega), add s' e' p' (by omega), oth]
      refine and_congr_left fun _ => ?_
      omega
    have htop : topPlane n (alongAxis k a s e) c p ↔ topPlane n (alongAxis k a s' e') c p' := by
      unfold topPlane
      rw [alongAxis_other k hca, alongAxis_other k hca, hp.other c hca]
    by_cases ha : addressed n (alongAxis k a s e) p
    · by_cases ht : topPlane n (alongAxis k a s e) c p
      · rw [top p c ha ht, top' p' c (hadd.1 ha) (htop.1 ht)]
        have hpc := mem_box.1 hp.mem c
        rw [hm c _ _ (hp.update_other hca (v := n c - 1) (by omega)) trivial trivial, one_mul]
      · rw [inn p c ha ht, inn' p' c (hadd.1 ha) (mt htop.2 ht)]
    · rw [(out p c ha).1, (out' p' c (mt hadd.2 ha)).1, hm c p p' hp trivial trivial, one_mul]

end

/-- **C173 is false of objects that are one plane thick**: the component along the axis is changed half a cell above the plane and not below it. The objects at plane 2 and at plane 4 are mirror images at plane 3, but the changed
component sits at 2 1/2 and at 4 1/2 instead of 3 1/2. -/
theorem C173_thin_false : ∃ o o', objectPlace ![7, 1, 1] (1 / 2) 1 1 vacuumMaterials ⟨4, none⟩ (xSlice 2 3) = .ok o ∧ objectPlace ![7, 1, 1] (1 / 2) 1 1 vacuumMaterials ⟨4, none⟩ (xSlice 4 5) = .ok o' ∧
    o.invEps ![2, 0, 0] 0 = 1 / 4 ∧ o'.invEps ![3, 0, 0] 0 = 1 ∧ o'.invEps ![4, 0, 0] 0 = 1 / 4 := by
  refine ⟨_, _, rfl, rfl, ?_, ?_, ?_⟩ <;> decide +kernel

/-- **C173 is false of absorbing objects**: the border component keeps the permittivity of the background but gets an absorption. Of the mirror images 2:4 and 3:5 the first absorbs at 3 1/2 along the axis, the second not at the
mirrored place 2 1/2 but at 4 1/2. -/
theorem C173_absorbing_false : ∃ o o', objectPlace ![7, 1, 1] (1 / 2) 1 1 vacuumMaterials ⟨4, some 8⟩ (xSlice 2 4) = .ok o ∧ objectPlace ![7, 1, 1] (1 / 2) 1 1 vacuumMaterials ⟨4, some 8⟩ (xSlice 3 5) = .ok o' ∧
    (∀ p p' c, p 0 + p' 0 + (if c = 0 then 1 else 0) = 6 → p 1 = 0 → p' 1 = 0 → p 2 = 0 → p' 2 = 0 → p 0 < 7 → p' 0 < 7 → o'.invEps p' c = o.invEps p c) ∧
    o.absorb ![3, 0, 0] 0 = 2 ∧ o'.absorb ![2, 0, 0] 0 = 0 ∧ o'.absorb ![4, 0, 0] 0 = 2 := by
  refine ⟨_, _, rfl, rfl, ?_, by decide +kernel, by decide +kernel, by decide +kernel⟩
  intro p p' c h h1 h1' h2 h2' l l'
  have e : p = ![p 0, 0, 0] := by
    funext b; fin_cases b
    · rfl
    · exact h1
    · exact h2
  have e' : p' = ![p' 0, 0, 0] := by
    funext b; fin_cases b
    · rfl
    · exact h1'
    · exact h2'
  rw [e, e']
  generalize p 0 = x at *
  generalize p' 0 = y at *
  clear e e' h1 h1' h2 h2'
  revert c
  interval_cases x <;> interval_cases y <;> decide +kernel

lemma full_key (N : ℕ) : ObjectKey N (.slice fullSlice) := by
  refine ⟨.inl rfl, fun a h => ?_, fun a h => ?_, ?_⟩
  · cases h
  · cases h
  · simp [sliceBound, fullSlice]

/-- mirror images with respect to the middle of a ring: the slices 2:4 and 3:5 of an axis of seven planes -/
example : ∃ o o', objectPlace ![7, 3, 1] (1 / 2) 1 1 vacuumMaterials ⟨4, none⟩ (alongAxis ![.slice fullSlice, .slice ⟨some 0, some 2, none⟩, .slice fullSlice] 0 2 4) = .ok o ∧
    objectPlace ![7, 3, 1] (1 / 2) 1 1 vacuumMaterials ⟨4, none⟩ (alongAxis ![.slice fullSlice, .slice ⟨some 0, some 2, none⟩, .slice fullSlice] 0 3 5) = .ok o' ∧
    MirrorOn ![7, 3, 1] 0 6 (halfE 0) (fun _ => (1 : ℚ)) (fun _ => True) o.invEps o'.invEps :=
  C173_object_partial ![7, 3, 1] (1 / 2) 1 1 0 vacuumMaterials vacuumMaterials 4 1 _ (by
      intro b hb
      fin_cases b
      · exact absurd rfl hb
      · exact bounded_key (N := 3) (s := 0) (e := 2) (by decide) (by decide)
      · exact full_key 1) rfl (S := 6) (by decide) (by decide) (by decide) (by decide) (by decide) (by decide) (by decide)
    (fun _ _ _ _ _ _ => (one_mul _).symm) (fun _ => rfl) (fun _ => rfl)

end Nidn
