/-
C54: what placing objects does to the material tensors.
-/
import Verif.Model.FdtdObjects
import Verif.Spec.PySlice
import Verif.Lemmas.Py
import Mathlib.Tactic.Linarith
import Mathlib.Tactic.NormNum

namespace Nidn

/-- specification: the cells an index or slice addresses on an axis with `N` cells -/
def keySelects (N : ℕ) : AxisKey → ℕ → Prop
  | .list l, i => ∃ v ∈ l, indexSelects N v i
  | .slice s, i => sliceSelects N s i

/-- keys for which placement is documented: a single index or a slice with unit step, bounds inside the axis (negative ones counted from the end), start not after stop. The index −1 is excluded, see `C54_last_false`. -/
def ObjectKey (N : ℕ) : AxisKey → Prop
  | .list l => ∃ v : ℤ, l = [v] ∧ -(N : ℤ) ≤ v ∧ v < N ∧ v ≠ -1
  | .slice s => (s.step = none ∨ s.step = some 1) ∧ (∀ a, s.start = some a → -(N : ℤ) ≤ a ∧ a ≤ N) ∧ (∀ b, s.stop = some b → -(N : ℤ) ≤ b ∧ b ≤ N) ∧
      sliceBound N 0 s.start ≤ sliceBound N N s.stop

lemma objectKey_range (N : ℕ) (k : AxisKey) (h : ObjectKey N k) :
    ∃ r, objectSlice N k = .ok r ∧ r.lo N ≤ r.hi N ∧ r.size = r.hi N - r.lo N ∧
      rawLo N k = r.lo N ∧ rawHi N k = r.hi N ∧ rawInRange N k = true ∧ (∀ i, keySelects N k i ↔ r.lo N ≤ i ∧ i < r.hi N) ∧ (k.isList = true → r.size = 1) := by
  cases k with
  | list l =>
    obtain ⟨v, rfl, h1, h2, h3⟩ := h
    refine ⟨⟨v, v + 1⟩, rfl, ?_⟩
    have hlo : AxisRange.lo N ⟨v, v + 1⟩ = if v < 0 then (N + v).toNat else v.toNat := by
      show clampIndex N v = _
      unfold clampIndex
      split_ifs <;> omega
    have hhi : AxisRange.hi N ⟨v, v + 1⟩ = (if v < 0 then (N + v).toNat else v.toNat) + 1 := by
      show clampIndex N (v + 1) = _
      unfold clampIndex
      split_ifs <;> omega
    rw [hlo, hhi]
    refine ⟨by omega, ?_, rfl, rfl, ?_, ?_, ?_⟩
    · show (v + 1 - v).natAbs = _
      omega
    · show decide _ = true
      rw [decide_eq_true_eq]; omega
    · intro i
      show (∃ u ∈ [v], indexSelects N u i) ↔ _
      constructor
      · rintro ⟨u, hu, hi⟩
        rw [List.mem_singleton] at hu
        subst hu
        obtain ⟨h4, h5⟩ := hi
        split_ifs <;> omega
      · intro hi
        refine ⟨v, List.mem_singleton_self v, ?_⟩
        unfold indexSelects
        split_ifs at hi <;> omega
    · intro _
      show (v + 1 - v).natAbs = 1
      omega
  | slice s =>
    obtain ⟨hst, ha, hb, hle⟩ := h
    obtain ⟨start, stop, step⟩ := s
    simp only at hst ha hb hle
    have e : objectSlice N (.slice ⟨start, stop, step⟩) = .ok ⟨objectStart N start, objectStop N stop⟩ := if_pos hst
    have hA : clampIndex N (objectStart N start) = (sliceBound N 0 start).toNat := by
      cases start with
      | none => simp [clampIndex, sliceBound, objectStart]
      | some a =>
        have := ha a rfl
        simp only [clampIndex, sliceBound, objectStart]
        split_ifs <;> omega
    have hB : clampIndex N (objectStop N stop) = (sliceBound N N stop).toNat := by
      cases stop with
      | none => simp [clampIndex, sliceBound, objectStop]
      | some b =>
        have := hb b rfl
        simp only [clampIndex, sliceBound, objectStop]
        split_ifs <;> omega
    have hA0 : 0 ≤ sliceBound N 0 start := by
      cases start with
      | none => simp [sliceBound]
      | some a => simp only [sliceBound]; split_ifs <;> omega
    refine ⟨_, e, ?_⟩
    unfold AxisRange.lo AxisRange.hi AxisRange.size
    simp only
    rw [hA, hB]
    refine ⟨by omega, ?_, ?_, ?_, rfl, ?_, ?_⟩
    · cases start with
      | none =>
        cases stop with
        | none => simp [sliceBound, objectStart, objectStop]
        | some b =>
          have := hb b rfl
          simp only [sliceBound, objectStart, objectStop] at *
          split_ifs at * <;> omega
      | some a =>
        have := ha a rfl
        cases stop with
        | none => simp only [sliceBound, objectStart, objectStop] at *; split_ifs at * <;> omega
        | some b =>
          have := hb b rfl
          simp only [sliceBound, objectStart, objectStop] at *
          split_ifs at * <;> omega
    · cases start with
      | none => simp [rawLo, sliceBound]
      | some a =>
        have := ha a rfl
        simp only [rawLo, clampIndex, sliceBound]
        split_ifs <;> omega
    · cases stop with
      | none => simp [rawHi, sliceBound]
      | some b =>
        have := hb b rfl
        simp only [rawHi, clampIndex, sliceBound]
        split_ifs <;> omega
    · intro i
      show sliceSelects N _ i ↔ _
      unfold sliceSelects
      simp only
      omega
    · intro h; cases h

section
variable {K : Type} [Field K]

/-- addressed by the three keys -/
def addressed (n : Pos) (k : Fin 3 → AxisKey) (p : Pos) : Prop := ∀ a, keySelects (n a) (k a) (p a)

/-- last of several addressed planes along axis `c` -/
def topPlane (n : Pos) (k : Fin 3 → AxisKey) (c : Fin 3) (p : Pos) : Prop :=
  keySelects (n c) (k c) (p c) ∧ ¬ keySelects (n c) (k c) (p c + 1) ∧ ∃ j, j ≠ p c ∧ keySelects (n c) (k c) j

lemma objectLocal_eq (n : Pos) (inv : VField K) (eps : K) (r : Fin 3 → AxisRange) (k : Fin 3 → AxisKey) (p : Pos) (c : Fin 3)
    (hsz : ∀ b, (r b).size = (r b).hi (n b) - (r b).lo (n b)) (hk : ∀ b i, keySelects (n b) (k b) i ↔ (r b).lo (n b) ≤ i ∧ i < (r b).hi (n b))
    (hp : addressed n k p) :
    (topPlane n k c p → objectLocal n inv eps r (fun b => (r b).loc (n b) (p b)) c = inv (Function.update p c (n c - 1)) c) ∧
    (¬ topPlane n k c p → objectLocal n inv eps r (fun b => (r b).loc (n b) (p b)) c = 1 / eps) := by
  have hp' : ∀ b, (r b).lo (n b) ≤ p b ∧ p b < (r b).hi (n b) := fun b => (hk b _).mp (hp b)
  have hloc : ∀ b, (r b).lo (n b) + (r b).loc (n b) (p b) = p b := by
    intro b
    have h1 := hp' b
    have h2 := hsz b
    unfold AxisRange.loc
    split_ifs <;> omega
  have hb : (1 < (r c).size ∧ (r c).loc (n c) (p c) + 1 = (r c).size) ↔ topPlane n k c p := by
    have h1 := hp' c
    have h2 := hsz c
    unfold topPlane
    simp only [hk]
    have h3 := hloc c
    constructor
    · rintro ⟨h4, h5⟩
      refine ⟨h1, by omega, ?_⟩
      exact ⟨(r c).lo (n c), by omega, by omega, by omega⟩
    · rintro ⟨-, h5, j, hj, h6, h7⟩
      omega
  constructor
  · intro ht
    unfold objectLocal
    rw [if_pos (hb.mpr ht)]
    congr 1
    funext b
    by_cases hbc : b = c
    · subst hbc; simp
    · rw [if_neg hbc, hloc b, Function.update_of_ne hbc]
  · intro ht
    unfold objectLocal
    rw [if_neg (mt hb.mp ht)]

/-- C54: placing an object (all slices, or a single index on x or y) with keys inside the grid succeeds and
* changes nothing outside the addressed cells;
* inside sets the inverse permittivity to `1/ε`, except that in the last of several planes along an axis the component normal to it gets the value from the grid's own last plane;
* and, for absorbing objects, the absorption to the documented factor. -/
theorem C54_inside (n : Pos) (courant spacing eta0 : K) (m : Materials K) (o : ObjectSpec K) (k : Fin 3 → AxisKey) (hk : ∀ a, ObjectKey (n a) (k a))
    (hz : (k 2).isList = false) :
    ∃ m', objectPlace n courant spacing eta0 m o k = .ok m' ∧
      (∀ p c, ¬ addressed n k p → m'.invEps p c = m.invEps p c ∧ m'.absorb p c = m.absorb p c) ∧
      (∀ p c, addressed n k p → ¬ topPlane n k c p → m'.invEps p c = 1 / o.eps) ∧
      (∀ p c, addressed n k p → topPlane n k c p → m'.invEps p c = m.invEps (Function.update p c (n c - 1)) c) ∧
      (∀ s, o.cond = some s → ∀ p c, addressed n k p → m'.absorb p c = 1 / 2 * courant * m'.invEps p c * s * spacing * eta0) ∧
      (o.cond = none → m'.absorb = m.absorb) := by
  obtain ⟨rx, e0, a0, b0, c0, d0, f0, s0, l0⟩ := objectKey_range _ _ (hk 0)
  obtain ⟨ry, e1, a1, b1, c1, d1, f1, s1, l1⟩ := objectKey_range _ _ (hk 1)
  obtain ⟨rz, e2, a2, b2, c2, d2, f2, s2, l2⟩ := objectKey_range _ _ (hk 2)
  set r : Fin 3 → AxisRange := ![rx, ry, rz] with hr
  have hsz : ∀ b, (r b).size = (r b).hi (n b) - (r b).lo (n b) := by intro b; fin_cases b; exacts [b0, b1, b2]
  have hks : ∀ b i, keySelects (n b) (k b) i ↔ (r b).lo (n b) ≤ i ∧ i < (r b).hi (n b) := by intro b; fin_cases b; exacts [s0, s1, s2]
  have hrl : ∀ b, rawLo (n b) (k b) = (r b).lo (n b) := by intro b; fin_cases b; exacts [c0, c1, c2]
  have hrh : ∀ b, rawHi (n b) (k b) = (r b).hi (n b) := by intro b; fin_cases b; exacts [d0, d1, d2]
  have hrr : ∀ b, rawInRange (n b) (k b) = true := by intro b; fin_cases b; exacts [f0, f1, f2]
  have hbf : bordersFit n r = true := by
    rw [bordersFit, decide_eq_true_eq]
    intro c b _ _
    exact Or.inl (hsz b).symm
  have hof : objectFits n r = true := by
    rw [objectFits, decide_eq_true_eq]
    exact fun b => Or.inl (hsz b).symm
  have hadd : ∀ p, addressed n k p ↔ ∀ b, (r b).lo (n b) ≤ p b ∧ p b < (r b).hi (n b) := fun p =>
    forall_congr' fun b => hks b (p b)
  have hinv : ∀ p c, (¬ addressed n k p → writeInv n m.invEps o.eps r p c = m.invEps p c) ∧
      (addressed n k p → writeInv n m.invEps o.eps r p c = objectLocal n m.invEps o.eps r (fun b => (r b).loc (n b) (p b)) c) := by
    intro p c
    unfold writeInv
    exact ⟨fun h => if_neg (mt (hadd p).mpr h), fun h => if_pos ((hadd p).mp h)⟩
  have hplace : objectPlace n courant spacing eta0 m o k = match o.cond with
    | none => .ok ⟨writeInv n m.invEps o.eps r, m.absorb⟩
    | some s => .ok ⟨writeInv n m.invEps o.eps r, writeAbsorb n courant spacing eta0 m o.eps s k r⟩ := by
    unfold objectPlace
    rw [e0, e1, e2]
    simp only [ok_bind]
    rw [← hr, if_neg (by rw [hbf, hof]; simp)]
    cases o.cond with
    | none => rfl
    | some s =>
      have haf : absorbFits n k r = true := by
        unfold absorbFits
        rw [hz]
        simp only [Bool.and_false, Bool.not_false, Bool.true_or, Bool.and_true, decide_eq_true_eq]
        intro b
        rw [hrl, hrh]
        exact Or.inl (hsz b).symm
      show (if _ then _ else _) = _
      rw [if_neg, if_neg (by rw [haf]; simp)]
      rintro ⟨b, hb⟩
      rw [hrr b] at hb
      cases hb
  cases hcond : o.cond with
  | none =>
    rw [hcond] at hplace
    refine ⟨_, hplace, fun p c h => ⟨(hinv p c).1 h, rfl⟩, fun p c h ht => ?_, fun p c h ht => ?_, fun s hs => by simp at hs, fun _ => rfl⟩
    · exact ((hinv p c).2 h).trans ((objectLocal_eq n m.invEps o.eps r k p c hsz hks h).2 ht)
    · exact ((hinv p c).2 h).trans ((objectLocal_eq n m.invEps o.eps r k p c hsz hks h).1 ht)
  | some s =>
    rw [hcond] at hplace
    refine ⟨_, hplace, fun p c h => ⟨(hinv p c).1 h, ?_⟩, fun p c h ht => ?_, fun p c h ht => ?_, fun s' hs p c h => ?_, fun h => by cases h⟩
    · show writeAbsorb n courant spacing eta0 m o.eps s k r p c = _
      unfold writeAbsorb
      refine if_neg fun h' => h ((hadd p).mpr fun b => ?_)
      rw [← hrl b, ← hrh b]; exact h' b
    · exact ((hinv p c).2 h).trans ((objectLocal_eq n m.invEps o.eps r k p c hsz hks h).2 ht)
    · exact ((hinv p c).2 h).trans ((objectLocal_eq n m.invEps o.eps r k p c hsz hks h).1 ht)
    · cases hs
      show writeAbsorb n courant spacing eta0 m o.eps s k r p c = 1 / 2 * courant * writeInv n m.invEps o.eps r p c * s * spacing * eta0
      rw [(hinv p c).2 h]
      unfold writeAbsorb
      rw [if_pos (fun b => by rw [hrl b, hrh b]; exact (hadd p).mp h b)]
      have : (fun b => rawLoc (n b) (k b) (r b) (p b)) = fun b => (r b).loc (n b) (p b) := by
        funext b
        unfold rawLoc AxisRange.loc
        rw [hrl b]
      rw [this]

/-- C54: a later object decides: whatever was placed before, the cells it addresses have its permittivity (outside the border components) and, if it is absorbing, its absorption. -/
theorem C54_latest (n : Pos) (courant spacing eta0 : K) (m : Materials K) (o1 o2 : ObjectSpec K) (k1 k2 : Fin 3 → AxisKey)
    (hk1 : ∀ a, ObjectKey (n a) (k1 a)) (hk2 : ∀ a, ObjectKey (n a) (k2 a)) (hz1 : (k1 2).isList = false) (hz2 : (k2 2).isList = false) :
    ∃ m1 m2, objectPlace n courant spacing eta0 m o1 k1 = .ok m1 ∧ objectPlace n courant spacing eta0 m1 o2 k2 = .ok m2 ∧
      ∀ p c, addressed n k2 p → ¬ topPlane n k2 c p → m2.invEps p c = 1 / o2.eps ∧
        ∀ s, o2.cond = some s → m2.absorb p c = 1 / 2 * courant * (1 / o2.eps) * s * spacing * eta0 := by
  obtain ⟨m1, h1, -⟩ := C54_inside n courant spacing eta0 m o1 k1 hk1 hz1
  obtain ⟨m2, h2, -, h3, -, h4, -⟩ := C54_inside n courant spacing eta0 m1 o2 k2 hk2 hz2
  exact ⟨m1, m2, h1, h2, fun p c hp ht => ⟨h3 p c hp ht, fun s hs => by rw [h4 s hs p c hp, h3 p c hp ht]⟩⟩

/-- C54: an absorbing object with relative permittivity one and conductivity zero placed into vacuum changes no material entry, hence no update of any field. -/
theorem C54_vacuum (n : Pos) (courant spacing eta0 : K) (m : Materials K) (hm : ∀ p c, m.invEps p c = 1 ∧ m.absorb p c = 0) (k : Fin 3 → AxisKey)
    (hk : ∀ a, ObjectKey (n a) (k a)) (hz : (k 2).isList = false) :
    objectPlace n courant spacing eta0 m ⟨1, some 0⟩ k = .ok m ∧ objectPlace n courant spacing eta0 m ⟨1, none⟩ k = .ok m := by
  have key : ∀ m' : Materials K, (∀ p c, ¬ addressed n k p → m'.invEps p c = m.invEps p c ∧ m'.absorb p c = m.absorb p c) →
      (∀ p c, addressed n k p → ¬ topPlane n k c p → m'.invEps p c = 1 / (1 : K)) →
      (∀ p c, addressed n k p → topPlane n k c p → m'.invEps p c = m.invEps (Function.update p c (n c - 1)) c) → m'.invEps = m.invEps := by
    intro m' h1 h2 h3
    funext p c
    by_cases h : addressed n k p
    · by_cases ht : topPlane n k c p
      · rw [h3 p c h ht, (hm _ _).1, (hm _ _).1]
      · rw [h2 p c h ht, (hm _ _).1]; simp
    · exact (h1 p c h).1
  constructor
  · obtain ⟨m', h, h1, h2, h3, h4, -⟩ := C54_inside n courant spacing eta0 m ⟨1, some 0⟩ k hk hz
    rw [h]
    have e1 := key m' h1 h2 h3
    have e2 : m'.absorb = m.absorb := by
      funext p c
      by_cases h : addressed n k p
      · rw [h4 0 rfl p c h, (hm p c).2]; ring
      · exact (h1 p c h).2
    obtain ⟨a, b⟩ := m'
    obtain ⟨a', b'⟩ := m
    simp only at e1 e2
    rw [e1, e2]
  · obtain ⟨m', h, h1, h2, h3, -, h5⟩ := C54_inside n courant spacing eta0 m ⟨1, none⟩ k hk hz
    rw [h]
    have e1 := key m' h1 h2 h3
    have e2 : m'.absorb = m.absorb := h5 rfl
    obtain ⟨a, b⟩ := m'
    obtain ⟨a', b'⟩ := m
    simp only at e1 e2
    rw [e1, e2]

end

/-! ### deviations -/

/-- vacuum -/
def vacuumMaterials : Materials ℚ := ⟨fun _ _ => 1, fun _ _ => 0⟩

/-- slice `a:b` on x, everything on y and z -/
def xSlice (a b : ℤ) : Fin 3 → AxisKey := ![.slice ⟨some a, some b, none⟩, .slice fullSlice, .slice fullSlice]

example : (∀ a, ObjectKey (![6, 3, 1] a) (xSlice 1 3 a)) ∧ (xSlice 1 3 2).isList = false ∧ addressed ![6, 3, 1] (xSlice 1 3) ![2, 1, 0] ∧
    ¬ addressed ![6, 3, 1] (xSlice 1 3) ![3, 1, 0] := by
  refine ⟨?_, rfl, ?_, ?_⟩
  · intro a
    fin_cases a
    · refine ⟨Or.inl rfl, ?_, ?_, by decide⟩ <;> rintro x ⟨⟩ <;> decide
    · refine ⟨Or.inl rfl, ?_, ?_, by decide⟩ <;> rintro x ⟨⟩
    · refine ⟨Or.inl rfl, ?_, ?_, by decide⟩ <;> rintro x ⟨⟩
  · intro a; fin_cases a <;> (show sliceSelects _ _ _; unfold sliceSelects; decide)
  · intro h
    have := h 0
    revert this
    show ¬ sliceSelects _ _ _
    unfold sliceSelects; decide

/-- C54 is false of borders: an object at the far end of the grid changes a component of another object placed later, which has then neither its own permittivity nor that of the background. -/
theorem C54_border_false :
    ∃ m1 m2, objectPlace ![6, 1, 1] (1 / 2) 1 1 vacuumMaterials ⟨4, none⟩ (xSlice 5 6) = .ok m1 ∧
      objectPlace ![6, 1, 1] (1 / 2) 1 1 m1 ⟨2, none⟩ (xSlice 0 2) = .ok m2 ∧
      m2.invEps ![1, 0, 0] 0 = 1 / 4 ∧ m2.invEps ![0, 0, 0] 0 = 1 / 2 ∧ m2.invEps ![2, 0, 0] 0 = 1 := by
  refine ⟨_, _, rfl, rfl, ?_, ?_, ?_⟩ <;> decide +kernel

/-- C54 is false of plain objects on top of absorbing ones: the absorption of the earlier object stays. -/
theorem C54_absorption_false :
    ∃ m1 m2, objectPlace ![6, 1, 1] (1 / 2) 1 1 vacuumMaterials ⟨4, some 8⟩ (xSlice 1 3) = .ok m1 ∧
      objectPlace ![6, 1, 1] (1 / 2) 1 1 m1 ⟨1, none⟩ (xSlice 1 3) = .ok m2 ∧ m2.invEps ![1, 0, 0] 2 = 1 ∧ m2.absorb ![1, 0, 0] 2 = 1 / 2 := by
  refine ⟨_, _, rfl, rfl, ?_, ?_⟩ <;> decide +kernel

/-- the key `[-1, :, :]` -/
def lastPlane : Fin 3 → AxisKey := ![.list [-1], .slice fullSlice, .slice fullSlice]

/-- C54 is false of the index −1: the permittivity of the last plane is not set (without an error), while the absorption of an absorbing object is. -/
theorem C54_last_false :
    ∃ m1, objectPlace ![6, 1, 1] (1 / 2) 1 1 vacuumMaterials ⟨4, some 8⟩ lastPlane = .ok m1 ∧
      keySelects 6 (lastPlane 0) 5 ∧ (∀ p c, m1.invEps p c = 1) ∧ m1.absorb ![5, 0, 0] 2 ≠ 0 := by
  refine ⟨_, rfl, ⟨-1, List.mem_singleton_self _, by decide, by decide⟩, ?_, by decide +kernel⟩
  intro p c
  refine if_neg fun h => ?_
  have h0 := h 0
  have e1 : AxisRange.lo 6 ⟨-1, 0⟩ = 5 := by decide
  have e2 : AxisRange.hi 6 ⟨-1, 0⟩ = 0 := by decide
  have h1 : AxisRange.lo 6 ⟨-1, 0⟩ ≤ p 0 ∧ p 0 < AxisRange.hi 6 ⟨-1, 0⟩ := h0
  omega

/-- C54 is false of single z indices: an absorbing object on `grid[5, :, 0]` fails although a plain one is accepted. -/
theorem C54_zindex_false :
    let k : Fin 3 → AxisKey := ![.list [2], .slice fullSlice, .list [0]]
    objectPlace ![6, 3, 1] (1 / 2) 1 1 vacuumMaterials ⟨4, some 8⟩ k = .error .runtimeError ∧
      (objectPlace ![6, 3, 1] (1 / 2) 1 1 vacuumMaterials ⟨4, none⟩ k).isOk = true := by
  constructor <;> rfl

end Nidn
