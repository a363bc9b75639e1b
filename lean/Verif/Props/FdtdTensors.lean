/-
C158: objects whose material is given cell by cell.
-/
import Verif.Model.FdtdTensors
import Verif.Props.FdtdObjects

namespace Nidn

section
variable {K : Type} [Field K]

/-! ### specification -/

/-- the tensor gives material `f` to the cells of a block of `N` cells: one number for all, one number per cell, or one per cell and component -/
def Describes (t : TTensor K) (N : Pos) (f : VField K) : Prop :=
  (t.shape = [] ∧ ∀ q c, f q c = t.val []) ∨ (t.shape = [N 0, N 1, N 2] ∧ ∀ q c, f q c = t.val [q 0, q 1, q 2]) ∨
    (t.shape = [N 0, N 1, N 2, 3] ∧ ∀ q c, f q c = t.val [q 0, q 1, q 2, c.val])

/-- the keys address exactly the block of `N` cells that starts at `a` -/
def Block (n : Pos) (k : Fin 3 → AxisKey) (a N : Pos) : Prop := ∀ b i, keySelects (n b) (k b) i ↔ a b ≤ i ∧ i < a b + N b

/-! ### lemmas -/

omit [Field K] in
/-- reading a padded tensor at a position inside the block -/
lemma at4_three (f : List ℕ → K) (x y z : ℕ) (q : Pos) (c : Fin 3) (hq : (x = 1 → q 0 = 0) ∧ (y = 1 → q 1 = 0) ∧ (z = 1 → q 2 = 0)) :
    TTensor.at4 ⟨[x, y, z, 1], fun i => f (i.take 3)⟩ q c = f [q 0, q 1, q 2] := by
  unfold TTensor.at4
  have e : ∀ d i : ℕ, (d = 1 → i = 0) → (if d = 1 then 0 else i) = i := fun d i h => by split_ifs with h'; exacts [(h h').symm, rfl]
  simp only [List.zipWith_cons_cons, List.zipWith_nil_right, e _ _ hq.1, e _ _ hq.2.1, e _ _ hq.2.2]
  rfl

omit [Field K] in
lemma at4_four (f : List ℕ → K) (x y z : ℕ) (q : Pos) (c : Fin 3) (hq : (x = 1 → q 0 = 0) ∧ (y = 1 → q 1 = 0) ∧ (z = 1 → q 2 = 0)) :
    TTensor.at4 ⟨[x, y, z, 3], f⟩ q c = f [q 0, q 1, q 2, c.val] := by
  unfold TTensor.at4
  have e : ∀ d i : ℕ, (d = 1 → i = 0) → (if d = 1 then 0 else i) = i := fun d i h => by split_ifs with h'; exacts [(h h').symm, rfl]
  simp only [List.zipWith_cons_cons, List.zipWith_nil_right, e _ _ hq.1, e _ _ hq.2.1, e _ _ hq.2.2]
  rfl

omit [Field K] in
/-- both paddings of a described tensor fit and hold the described values -/
lemma describes_padded (t : TTensor K) (N : Pos) (f : VField K) (h : Describes t N f) :
    (t.addAxis.shape.length ≤ 4 ∧ t.addAxis.padFront.fitsTo [N 0, N 1, N 2, 3] = true ∧ t.shape.length ≤ 4 ∧ t.padBack.fitsTo [N 0, N 1, N 2, 3] = true) ∧
    ∀ q c, (N 0 = 1 → q 0 = 0) ∧ (N 1 = 1 → q 1 = 0) ∧ (N 2 = 1 → q 2 = 0) → t.addAxis.padFront.at4 q c = f q c ∧ t.padBack.at4 q c = f q c := by
  obtain ⟨shape, val⟩ := t
  rcases h with ⟨h, hf⟩ | ⟨h, hf⟩ | ⟨h, hf⟩ <;> simp only at h <;> subst h
  · refine ⟨⟨by simp [TTensor.addAxis], ?_, by simp, ?_⟩, fun q c _ => ⟨?_, ?_⟩⟩
    · simp [TTensor.fitsTo, TTensor.padFront, TTensor.addAxis, List.replicate]
    · simp [TTensor.fitsTo, TTensor.padBack, List.replicate]
    · rw [hf]; rfl
    · rw [hf]; rfl
  · refine ⟨⟨by simp [TTensor.addAxis, TTensor.padBack], ?_, by simp, ?_⟩, fun q c hq => ⟨?_, ?_⟩⟩
    · simp [TTensor.fitsTo, TTensor.padFront, TTensor.addAxis, TTensor.padBack]
    · simp [TTensor.fitsTo, TTensor.padBack]
    · rw [hf]
      exact at4_three val _ _ _ q c hq
    · rw [hf]
      exact at4_three val _ _ _ q c hq
  · refine ⟨⟨by simp [TTensor.addAxis], ?_, by simp, ?_⟩, fun q c hq => ⟨?_, ?_⟩⟩
    · simp [TTensor.fitsTo, TTensor.padFront, TTensor.addAxis]
    · simp [TTensor.fitsTo, TTensor.padBack]
    · rw [hf]
      exact at4_four val _ _ _ q c hq
    · rw [hf]
      exact at4_four (fun i => val (i.take 4)) _ _ _ q c hq

lemma tensorLocal_eq (n : Pos) (inv eps : VField K) (r : Fin 3 → AxisRange) (q : Pos) (c : Fin 3) : tensorLocal n inv eps r q c = objectLocal n inv (eps q c) r q c := rfl

/-- C158: an object placed on a block of cells gives every cell its own material: permittivity and conductivity may be numbers, tensors with one value per cell, or with one per cell and component,
independently of each other. Cells outside are not touched. (In the last of several planes along an axis the component normal to it gets the permittivity of the grid's last plane, as in C54.) -/
theorem C158_cells (n : Pos) (courant spacing eta0 : K) (m : Materials K) (o : TensorObject K) (k : Fin 3 → AxisKey) (hk : ∀ a, ObjectKey (n a) (k a)) (hz : (k 2).isList = false) (a N : Pos)
    (hb : Block n k a N) (f : VField K) (hf : Describes o.eps N f) (g : VField K) (hg : ∀ s, o.cond = some s → Describes s N g) :
    ∃ m' o', placeTensors n courant spacing eta0 m o k = .ok (m', o') ∧
      (∀ p c, ¬ addressed n k p → m'.invEps p c = m.invEps p c ∧ m'.absorb p c = m.absorb p c) ∧
      (∀ p c, addressed n k p → ¬ topPlane n k c p → m'.invEps p c = 1 / f (fun b => p b - a b) c) ∧
      (∀ p c, addressed n k p → topPlane n k c p → m'.invEps p c = m.invEps (Function.update p c (n c - 1)) c) ∧
      (∀ s, o.cond = some s → ∀ p c, addressed n k p → m'.absorb p c = 1 / 2 * courant * m'.invEps p c * g (fun b => p b - a b) c * spacing * eta0) ∧
      (o.cond = none → m'.absorb = m.absorb) := by
  obtain ⟨rx, e0, a0, b0, c0, d0, f0, s0, l0⟩ := objectKey_range _ _ (hk 0)
  obtain ⟨ry, e1, a1, b1, c1, d1, f1, s1, l1⟩ := objectKey_range _ _ (hk 1)
  obtain ⟨rz, e2, a2, b2, c2, d2, f2, s2, l2⟩ := objectKey_range _ _ (hk 2)
  set r : Fin 3 → AxisRange := ![rx, ry, rz] with hr
  have hsz : ∀ b, (r b).size = (r b).hi (n b) - (r b).lo (n b) := by intro b; fin_cases b; exacts [b0, b1, b2]
  have hks : ∀ b i, keySelects (n b) (k b) i ↔ (r b).lo (n b) ≤ i ∧ i < (r b).hi (n b) := by intro b; fin_cases b; exacts [s0, s1, s2]
  have hrl : ∀ b, rawLo (n b) (k b) = (r b).lo (n b) := by intro b; fin_cases b; exacts [c0, c1, c2]
  have hrh : ∀ b, rawHi (n b) (k b) = (r b).hi (n b) := by intro b; fin_cases b; exacts [d0, d1, d2]
  have hrr : ∀ b, rawInRange (n b) (k b) = true := by intro b; fin_cases b; exacts [f0, f1, f2]
  -- the block has the size of the object
  have hNr : ∀ b, (r b).size = N b := by
    intro b
    have key : ∀ i, (a b ≤ i ∧ i < a b + N b) ↔ (r b).lo (n b) ≤ i ∧ i < (r b).hi (n b) := fun i => (hb b i).symm.trans (hks b i)
    rw [hsz b]
    rcases Nat.eq_zero_or_pos (N b) with h0 | h0
    · have := key ((r b).lo (n b))
      omega
    · have k1 := (key (a b)).1 (by omega)
      have k2 := (key (a b + N b - 1)).1 (by omega)
      have k3 := (key ((r b).lo (n b))).2 (by omega)
      have k4 := (key ((r b).hi (n b) - 1)).2 (by omega)
      omega
  have hlist : [rx.size, ry.size, rz.size, 3] = [N 0, N 1, N 2, 3] := by
    have h0 := hNr 0
    have h1 := hNr 1
    have h2 := hNr 2
    simp only [hr, Matrix.cons_val_zero, Matrix.cons_val_one, Matrix.cons_val] at h0 h1 h2
    rw [h0, h1, h2]
  have hbf : bordersFit n r = true := by
    rw [bordersFit, decide_eq_true_eq]
    intro c b _ _
    exact Or.inl (hsz b).symm
  have hof : objectFits n r = true := by
    rw [objectFits, decide_eq_true_eq]
    exact fun b => Or.inl (hsz b).symm
  have hadd : ∀ p, addressed n k p ↔ ∀ b, (r b).lo (n b) ≤ p b ∧ p b < (r b).hi (n b) := fun p => forall_congr' fun b => hks b (p b)
  have hloc : ∀ p, addressed n k p → (fun b => (r b).loc (n b) (p b)) = fun b => p b - a b := by
    intro p hp
    funext b
    have h1 := (hks b (p b)).1 (hp b)
    have h2 := (hb b (p b)).1 (hp b)
    have h3 := (hb b ((r b).lo (n b))).1 ((hks b _).2 (by omega))
    have h4 := (hks b (a b)).1 ((hb b _).2 (by omega))
    have h5 := hNr b
    unfold AxisRange.loc
    split_ifs <;> omega
  have hone : ∀ p, addressed n k p → (N 0 = 1 → p 0 - a 0 = 0) ∧ (N 1 = 1 → p 1 - a 1 = 0) ∧ (N 2 = 1 → p 2 - a 2 = 0) := by
    intro p hp
    have h0 := (hb 0 (p 0)).1 (hp 0)
    have h1 := (hb 1 (p 1)).1 (hp 1)
    have h2 := (hb 2 (p 2)).1 (hp 2)
    omega
  obtain ⟨⟨w1, w2, -, -⟩, hev⟩ := describes_padded o.eps N f hf
  set E := o.eps.addAxis.padFront.at4 with hE
  have hinv : ∀ p c, (¬ addressed n k p → writeInvT n m.invEps E r p c = m.invEps p c) ∧
      (addressed n k p → writeInvT n m.invEps E r p c = objectLocal n m.invEps (f (fun b => p b - a b) c) r (fun b => (r b).loc (n b) (p b)) c) := by
    intro p c
    unfold writeInvT
    refine ⟨fun h => if_neg (mt (hadd p).mpr h), fun h => ?_⟩
    rw [if_pos ((hadd p).mp h), tensorLocal_eq, hloc p h, (hev _ c (hone p h)).1]
  have hplace : ∃ A o', placeTensors n courant spacing eta0 m o k = .ok (⟨writeInvT n m.invEps E r, A⟩, o') ∧ (o.cond = none → A = m.absorb) ∧
      ∀ s, o.cond = some s → A = writeAbsorbT n courant spacing eta0 m E s.padBack.at4 k r := by
    unfold placeTensors
    rw [e0, e1, e2]
    simp only [ok_bind]
    rw [← hr, hlist, if_neg (by rw [w2]; simp; omega), if_neg (by rw [hbf, hof]; simp)]
    cases hc : o.cond with
    | none => exact ⟨_, _, rfl, fun _ => rfl, fun s hs => by cases hs⟩
    | some s =>
      obtain ⟨⟨-, -, w3, w4⟩, -⟩ := describes_padded s N g (hg s hc)
      have haf : absorbFits n k r = true := by
        unfold absorbFits
        rw [hz]
        simp only [Bool.and_false, Bool.not_false, Bool.true_or, Bool.and_true, decide_eq_true_eq]
        intro b
        rw [hrl, hrh]
        exact Or.inl (hsz b).symm
      refine ⟨writeAbsorbT n courant spacing eta0 m E s.padBack.at4 k r, ⟨o.eps.addAxis, some (s.padBack.broadcast [N 0, N 1, N 2, 3])⟩, ?_, fun h => (by cases h), fun s' hs => (by cases hs; rfl)⟩
      show (if _ then _ else _) = _
      rw [if_neg (by rw [w4]; simp; omega), if_neg, if_neg (by rw [haf]; simp)]
      rintro ⟨b, hb'⟩
      rw [hrr b] at hb'
      cases hb'
  obtain ⟨A, o', hp, hn, hs⟩ := hplace
  refine ⟨_, o', hp, fun p c h => ⟨(hinv p c).1 h, ?_⟩, fun p c h ht => ?_, fun p c h ht => ?_, fun s hc p c h => ?_, hn⟩
  · cases hc : o.cond with
    | none => rw [hn hc]
    | some s =>
      show A p c = _
      rw [hs s hc]
      unfold writeAbsorbT
      refine if_neg fun h' => h ((hadd p).mpr fun b => ?_)
      rw [← hrl b, ← hrh b]
      exact h' b
  · exact ((hinv p c).2 h).trans ((objectLocal_eq n m.invEps _ r k p c hsz hks h).2 ht)
  · exact ((hinv p c).2 h).trans ((objectLocal_eq n m.invEps _ r k p c hsz hks h).1 ht)
  · show A p c = 1 / 2 * courant * writeInvT n m.invEps E r p c * _ * spacing * eta0
    rw [hs s hc, (hinv p c).2 h]
    unfold writeAbsorbT
    rw [if_pos (fun b => by rw [hrl b, hrh b]; exact (hadd p).mp h b)]
    have : (fun b => rawLoc (n b) (k b) (r b) (p b)) = fun b => (r b).loc (n b) (p b) := by
      funext b
      unfold rawLoc AxisRange.loc
      rw [hrl b]
    rw [this, tensorLocal_eq, hloc p h, (hev _ c (hone p h)).1, ((describes_padded s N g (hg s hc)).2 _ c (hone p h)).2]

/-- numbers as tensors: the model of Model/FdtdObjects.lean -/
lemma placeTensors_scalar (n : Pos) (courant spacing eta0 : K) (m : Materials K) (eps : K) (cond : Option K) (k : Fin 3 → AxisKey) :
    (placeTensors n courant spacing eta0 m ⟨.num eps, cond.map .num⟩ k).map Prod.fst = objectPlace n courant spacing eta0 m ⟨eps, cond⟩ k := by
  unfold placeTensors objectPlace
  cases h0 : objectSlice (n 0) (k 0) with
  | error e => rfl
  | ok rx =>
  cases h1 : objectSlice (n 1) (k 1) with
  | error e => rfl
  | ok ry =>
  cases h2 : objectSlice (n 2) (k 2) with
  | error e => rfl
  | ok rz =>
  simp only [ok_bind]
  have e1 : ∀ v : K, ¬ (4 < (TTensor.num v).addAxis.shape.length ∨ (TTensor.num v).addAxis.padFront.fitsTo [rx.size, ry.size, rz.size, 3] = false) := by
    intro v
    simp [TTensor.num, TTensor.addAxis, TTensor.fitsTo, TTensor.padFront, List.replicate]
  have e2 : ∀ v : K, ¬ (4 < (TTensor.num v).shape.length ∨ (TTensor.num v).padBack.fitsTo [rx.size, ry.size, rz.size, 3] = false) := by
    intro v
    simp [TTensor.num, TTensor.fitsTo, TTensor.padBack, List.replicate]
  rw [if_neg (e1 eps)]
  by_cases hb : bordersFit n ![rx, ry, rz] = false ∨ objectFits n ![rx, ry, rz] = false
  · rw [if_pos hb, if_pos hb]
    rfl
  rw [if_neg hb, if_neg hb]
  cases cond with
  | none => rfl
  | some s =>
    simp only [Option.map_some]
    rw [if_neg (e2 s)]
    by_cases h3 : ∃ b : Fin 3, rawInRange (n b) (k b) = false
    · rw [if_pos h3, if_pos h3]
      rfl
    rw [if_neg h3, if_neg h3]
    by_cases h4 : absorbFits n k ![rx, ry, rz] = false
    · rw [if_pos h4, if_pos h4]
      rfl
    rw [if_neg h4, if_neg h4]
    rfl

/-- C158: a permittivity with one value per cell of a block of another size is refused with a RuntimeError (unless it has length one along that axis). -/
theorem C158_rejected (n : Pos) (courant spacing eta0 : K) (m : Materials K) (o : TensorObject K) (k : Fin 3 → AxisKey) (hk : ∀ a, ObjectKey (n a) (k a)) (a N : Pos) (hb : Block n k a N) (d : Pos)
    (hd : o.eps.shape = [d 0, d 1, d 2]) (b : Fin 3) (h : d b ≠ N b) (h1 : d b ≠ 1) : placeTensors n courant spacing eta0 m o k = .error .runtimeError := by
  obtain ⟨rx, e0, a0, b0, c0, d0, f0, s0, l0⟩ := objectKey_range _ _ (hk 0)
  obtain ⟨ry, e1, a1, b1, c1, d1, f1, s1, l1⟩ := objectKey_range _ _ (hk 1)
  obtain ⟨rz, e2, a2, b2, c2, d2, f2, s2, l2⟩ := objectKey_range _ _ (hk 2)
  have size : ∀ (b : Fin 3) (r : AxisRange), r.size = r.hi (n b) - r.lo (n b) → (∀ i, keySelects (n b) (k b) i ↔ r.lo (n b) ≤ i ∧ i < r.hi (n b)) → r.size = N b := by
    intro b r hs hsel
    have key : ∀ i, (a b ≤ i ∧ i < a b + N b) ↔ r.lo (n b) ≤ i ∧ i < r.hi (n b) := fun i => (hb b i).symm.trans (hsel i)
    rw [hs]
    rcases Nat.eq_zero_or_pos (N b) with h0 | h0
    · have := key (r.lo (n b))
      omega
    · have k1 := (key (a b)).1 (by omega)
      have k2 := (key (a b + N b - 1)).1 (by omega)
      have k3 := (key (r.lo (n b))).2 (by omega)
      have k4 := (key (r.hi (n b) - 1)).2 (by omega)
      omega
  unfold placeTensors
  rw [e0, e1, e2]
  simp only [ok_bind]
  rw [size 0 rx b0 s0, size 1 ry b1 s1, size 2 rz b2 s2, if_pos]
  right
  simp only [TTensor.fitsTo, TTensor.padFront, TTensor.addAxis, TTensor.padBack, hd, decide_eq_false_iff_not]
  intro hall
  simp only [List.length_cons, List.length_nil, List.replicate, List.cons_append, List.nil_append, Nat.reduceAdd, Nat.reduceSub, if_true, List.forall₂_cons] at hall
  obtain ⟨q0, q1, q2, -⟩ := hall
  fin_cases b
  · exact q0.elim h h1
  · exact q1.elim h h1
  · exact q2.elim h h1

end

/-- the values of a tensor with one axis -/
def vecTensor (l : List ℚ) : TTensor ℚ := ⟨[l.length], fun i => l.getD (i.getD 0 0) 0⟩

/-- one value per cell of a row of cells along x -/
def rowTensor (l : List ℚ) : TTensor ℚ := ⟨[l.length, 1, 1], fun i => l.getD (i.getD 0 0) 0⟩

/-- not vacuous: two cells of permittivity 2 and 4 and conductivity 1 and 3, from x = 1 on -/
example : (∀ a, ObjectKey ((![6, 1, 1] : Pos) a) (xSlice 1 3 a)) ∧ (xSlice 1 3 2).isList = false ∧ Block ![6, 1, 1] (xSlice 1 3) ![1, 0, 0] ![2, 1, 1] ∧
    Describes (rowTensor [2, 4]) ![2, 1, 1] (fun q _ => [2, 4].getD (q 0) 0) ∧ Describes (rowTensor [1, 3]) ![2, 1, 1] (fun q _ => [1, 3].getD (q 0) 0) ∧
    ∃ m' o', placeTensors ![6, 1, 1] (1 / 2) 1 1 vacuumMaterials ⟨rowTensor [2, 4], some (rowTensor [1, 3])⟩ (xSlice 1 3) = .ok (m', o') ∧ m'.invEps ![1, 0, 0] 2 = 1 / 2 ∧
      m'.invEps ![2, 0, 0] 2 = 1 / 4 ∧ m'.absorb ![1, 0, 0] 2 = 1 / 8 ∧ m'.absorb ![2, 0, 0] 2 = 3 / 16 := by
  refine ⟨?_, rfl, ?_, .inr (.inl ⟨rfl, fun _ _ => rfl⟩), .inr (.inl ⟨rfl, fun _ _ => rfl⟩), ?_⟩
  · intro a
    fin_cases a
    · exact ⟨Or.inl rfl, fun a h => by cases h; decide, fun b h => by cases h; decide, by decide⟩
    · exact ⟨Or.inl rfl, fun a h => (by cases h), fun b h => (by cases h), by decide⟩
    · exact ⟨Or.inl rfl, fun a h => (by cases h), fun b h => (by cases h), by decide⟩
  · intro b i
    fin_cases b <;> simp [keySelects, sliceSelects, xSlice, fullSlice, sliceBound]
  · refine ⟨_, _, rfl, ?_, ?_, ?_, ?_⟩ <;> decide +kernel

/-- C158 is false of lists of values (tensors with one axis), because permittivities are aligned with the last axes and conductivities with the first: the same three numbers for three cells along x are
values of the three field components of every cell if given as permittivity, and values of the three cells if given as conductivity. -/
theorem C158_alignment_false : ∃ m' o', placeTensors ![6, 3, 1] (1 / 2) 1 1 vacuumMaterials ⟨vecTensor [1, 2, 4], some (vecTensor [1, 2, 4])⟩ (xSlice 1 4) = .ok (m', o') ∧
    (∀ x ∈ [1, 2], m'.invEps ![x, 0, 0] 0 = 1) ∧ (∀ x ∈ [1, 2, 3], m'.invEps ![x, 0, 0] 1 = 1 / 2 ∧ m'.invEps ![x, 0, 0] 2 = 1 / 4) ∧
    m'.absorb ![1, 0, 0] 2 = 1 / 16 ∧ m'.absorb ![2, 0, 0] 2 = 2 / 16 ∧ m'.absorb ![3, 0, 0] 2 = 4 / 16 := by
  refine ⟨_, _, rfl, ?_, ?_, ?_, ?_, ?_⟩ <;> decide +kernel

/-- C158 is false of absorbing objects used a second time: the object remembers its conductivity in the shape of the first place, and a place of another size is refused although a new object made from the same
numbers is accepted there. Plain objects may be used again. -/
theorem C158_reuse_false : ∃ m' o', placeTensors ![6, 1, 1] (1 / 2) 1 1 vacuumMaterials ⟨.num 2, some (.num 1)⟩ (xSlice 0 2) = .ok (m', o') ∧
    placeTensors ![6, 1, 1] (1 / 2) 1 1 m' o' (xSlice 3 6) = .error .runtimeError ∧
    (placeTensors ![6, 1, 1] (1 / 2) 1 1 m' ⟨.num 2, some (.num 1)⟩ (xSlice 3 6)).isOk = true ∧
    (placeTensors ![6, 1, 1] (1 / 2) 1 1 m' ⟨o'.eps, none⟩ (xSlice 3 6)).isOk = true := by
  refine ⟨_, _, rfl, ?_, ?_, ?_⟩ <;> rfl

end Nidn
