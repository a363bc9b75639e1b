/-
C167: the stand-ins for numpy functions (products, transposes, constants) against the numpy functions they stand for.
-/
import Verif.Model.TorchOps
import Mathlib.Data.Matrix.Mul
import Mathlib.LinearAlgebra.Matrix.Notation
import Mathlib.Tactic.NormNum
import Mathlib.Algebra.BigOperators.Fin

namespace Nidn

/-! ### Specification -/

/-- a matrix as a tensor -/
def tenMat {m n : ℕ} (d : TorchType) (A : Matrix (Fin m) (Fin n) ℂ) : Ten := ⟨d, [m, n], fun idx => match idx with
  | [i, j] => if h : i < m ∧ j < n then A ⟨i, h.1⟩ ⟨j, h.2⟩ else 0
  | _ => 0⟩

/-- a vector as a tensor -/
def tenVec {n : ℕ} (d : TorchType) (v : Fin n → ℂ) : Ten := ⟨d, [n], fun idx => match idx with
  | [i] => if h : i < n then v ⟨i, h⟩ else 0
  | _ => 0⟩

/-- a number as a tensor -/
def tenNum (d : TorchType) (z : ℂ) : Ten := ⟨d, [], fun idx => if idx = [] then z else 0⟩

/-- the type of a numpy product: real becomes complex, single becomes double, integers become double beside floats -/
def numpyType : TorchType → TorchType → TorchType
  | .i64, .i64 => .i64
  | .i64, .f32 | .f32, .i64 | .i64, .f64 | .f64, .i64 | .f32, .f64 | .f64, .f32 | .f64, .f64 => .f64
  | .f32, .f32 => .f32
  | .f32, .c64 | .c64, .f32 | .c64, .c64 => .c64
  | _, _ => .c128

/-- `numpy.dot` of vectors and matrices -/
inductive NumpyDot : Ten → Ten → Ten → Prop
  | vv {n : ℕ} (d e : TorchType) (u v : Fin n → ℂ) : NumpyDot (tenVec d u) (tenVec e v) (tenNum (numpyType d e) (u ⬝ᵥ v))
  | mv {m n : ℕ} (d e : TorchType) (A : Matrix (Fin m) (Fin n) ℂ) (v : Fin n → ℂ) : NumpyDot (tenMat d A) (tenVec e v) (tenVec (numpyType d e) (A.mulVec v))
  | vm {n p : ℕ} (d e : TorchType) (u : Fin n → ℂ) (B : Matrix (Fin n) (Fin p) ℂ) : NumpyDot (tenVec d u) (tenMat e B) (tenVec (numpyType d e) (Matrix.vecMul u B))
  | mm {m n p : ℕ} (d e : TorchType) (A : Matrix (Fin m) (Fin n) ℂ) (B : Matrix (Fin n) (Fin p) ℂ) : NumpyDot (tenMat d A) (tenMat e B) (tenMat (numpyType d e) (A * B))

/-- the pairs of types for which `torch_dot` keeps the type numpy would choose -/
def KeepsType (d e : TorchType) : Prop := d = e ∨ (d = .c128 ∧ e ≠ .c128) ∨ (e = .c128 ∧ d ≠ .c64) ∨ (d = .c64 ∧ e = .f32) ∨ (d = .f32 ∧ e = .c64)

/-! ### Products -/

lemma sum_fin_range {n : ℕ} (f : Fin n → ℂ) (g : ℕ → ℂ) (h : ∀ k : Fin n, f k = g k) : ∑ k : Fin n, f k = ∑ k ∈ Finset.range n, g k := by
  rw [Finset.sum_range]
  exact Finset.sum_congr rfl fun k _ => h k

lemma dot1_spec {n : ℕ} (d : TorchType) (u v : Fin n → ℂ) : torchDot1 (tenVec d u) (tenVec d v) = .ok (tenNum d (u ⬝ᵥ v)) := by
  unfold torchDot1
  refine (if_pos ⟨rfl, rfl⟩).trans ?_
  dsimp only [tenVec]
  unfold tenNum
  congr 2
  funext idx
  congr 1
  unfold dotProduct
  symm
  refine sum_fin_range _ _ fun k => ?_
  rw [dif_pos k.2, dif_pos k.2]

lemma mv_spec {m n : ℕ} (d : TorchType) (A : Matrix (Fin m) (Fin n) ℂ) (v : Fin n → ℂ) : torchMv (tenMat d A) (tenVec d v) = .ok (tenVec d (A.mulVec v)) := by
  unfold torchMv
  refine (if_pos ⟨rfl, rfl⟩).trans ?_
  dsimp only [tenVec, tenMat]
  congr 2
  funext idx
  rcases idx with _ | ⟨i, _ | ⟨j, l⟩⟩
  · rfl
  · dsimp only
    by_cases hi : i < m
    · rw [if_pos hi, dif_pos hi]
      unfold Matrix.mulVec dotProduct
      symm
      refine sum_fin_range _ _ fun k => ?_
      rw [dif_pos ⟨hi, k.2⟩, dif_pos k.2]
    · rw [if_neg hi, dif_neg hi]
  · rfl

lemma mm_spec {m n p : ℕ} (d : TorchType) (A : Matrix (Fin m) (Fin n) ℂ) (B : Matrix (Fin n) (Fin p) ℂ) : torchMm (tenMat d A) (tenMat d B) = .ok (tenMat d (A * B)) := by
  unfold torchMm
  refine (if_pos ⟨rfl, rfl⟩).trans ?_
  dsimp only [tenMat]
  congr 2
  funext idx
  rcases idx with _ | ⟨i, _ | ⟨j, _ | ⟨l, r⟩⟩⟩
  · rfl
  · rfl
  · dsimp only
    by_cases h : i < m ∧ j < p
    · rw [if_pos h, dif_pos h, Matrix.mul_apply]
      symm
      refine sum_fin_range _ _ fun k => ?_
      rw [dif_pos ⟨h.1, k.2⟩, dif_pos ⟨k.2, h.2⟩]
    · rw [if_neg h, dif_neg h]
  · rfl

/-- the type `torch_dot` works in -/
def workType (d e : TorchType) : TorchType := if d = e then d else if d.isComplex then d else if e.isComplex then e else d

lemma align_ok {a b : Ten} (h : a.dtype = b.dtype ∨ a.dtype.isComplex = true ∨ b.dtype.isComplex = true) :
    alignTypes a b = (a.cast (workType a.dtype b.dtype), b.cast (workType a.dtype b.dtype)) := by
  unfold alignTypes workType
  by_cases h1 : a.dtype = b.dtype
  · rw [if_neg (not_not.2 h1), if_pos h1]
    cases a; cases b
    cases h1
    rfl
  · rw [if_pos h1, if_neg h1]
    by_cases h2 : a.dtype.isComplex
    · rw [if_pos h2, if_pos h2]
      rfl
    · rw [if_neg h2, if_neg h2]
      have h3 : b.dtype.isComplex = true := by tauto
      rw [if_pos h3, if_pos h3]
      rfl

/-- `torch_dot` of what numpy can multiply, apart from vector times matrix and from two different real types -/
lemma dot_values {a b r : Ten} (h : NumpyDot a b r) (hs : b.shape.length ≤ a.shape.length) (ht : a.dtype = b.dtype ∨ a.dtype.isComplex = true ∨ b.dtype.isComplex = true) :
    torchDot a b = .ok (r.cast (workType a.dtype b.dtype)) := by
  unfold torchDot
  rw [align_ok ht]
  dsimp only
  cases h with
  | vv d e u v =>
    rw [if_neg (by simp [Ten.cast, tenVec]), if_neg (by simp [Ten.cast, tenVec])]
    exact dot1_spec _ u v
  | mv d e A v =>
    rw [if_pos (by simp [Ten.cast, tenVec, tenMat])]
    exact mv_spec _ A v
  | vm d e u B => exact absurd hs (by simp [tenVec, tenMat])
  | mm d e A B =>
    rw [if_neg (by simp [Ten.cast, tenMat]), if_pos (by simp [Ten.cast, tenMat])]
    exact mm_spec _ A B

lemma numpy_result_type {a b r : Ten} (h : NumpyDot a b r) : r.dtype = numpyType a.dtype b.dtype := by cases h <;> rfl

lemma work_keeps {d e : TorchType} (h : KeepsType d e) : (d = e ∨ d.isComplex = true ∨ e.isComplex = true) ∧ workType d e = numpyType d e := by
  revert h
  unfold KeepsType
  cases d <;> cases e <;> decide

/-- C167: `torch_dot` gives the numpy product of two vectors, of a matrix and a vector, and of two matrices, in the type numpy would choose, when the types are equal, or one is double complex (as the first operand, or beside a second operand that is not single complex), or they are single complex and single. -/
theorem C167_dot_partial {a b r : Ten} (h : NumpyDot a b r) (hs : b.shape.length ≤ a.shape.length) (ht : KeepsType a.dtype b.dtype) : torchDot a b = .ok r := by
  obtain ⟨h1, h2⟩ := work_keeps ht
  rw [dot_values h hs h1, h2, ← numpy_result_type h]
  rfl

/-- a tensor of one or two axes whose value outside the shape is 0 (the values there have no meaning) -/
def Ten.Proper (t : Ten) : Prop := ∀ idx : List ℕ, (¬ List.Forall₂ (· < ·) idx t.shape) → t.val idx = 0

lemma proper_vec {t : Ten} (ht : t.Proper) {n : ℕ} (hs : t.shape = [n]) : ∃ v : Fin n → ℂ, t = tenVec t.dtype v := by
  obtain ⟨d, s, val⟩ := t
  dsimp only at hs
  subst hs
  refine ⟨fun i => val [i], ?_⟩
  unfold tenVec
  congr 1
  funext idx
  rcases idx with _ | ⟨i, _ | ⟨j, l⟩⟩
  · exact ht [] (by simp)
  · dsimp only
    by_cases hi : i < n
    · rw [dif_pos hi]
    · rw [dif_neg hi]
      exact ht [i] (by simpa using hi)
  · exact ht _ (by simp)

lemma proper_mat {t : Ten} (ht : t.Proper) {m n : ℕ} (hs : t.shape = [m, n]) : ∃ A : Matrix (Fin m) (Fin n) ℂ, t = tenMat t.dtype A := by
  obtain ⟨d, s, val⟩ := t
  dsimp only at hs
  subst hs
  refine ⟨fun i j => val [i, j], ?_⟩
  unfold tenMat
  congr 1
  funext idx
  rcases idx with _ | ⟨i, _ | ⟨j, _ | ⟨l, r⟩⟩⟩
  · exact ht [] (by simp)
  · exact ht _ (by simp)
  · dsimp only
    by_cases h : i < m ∧ j < n
    · rw [dif_pos h]
    · rw [dif_neg h]
      exact ht [i, j] (by simpa using h)
  · exact ht _ (by simp)

lemma align_shapes (a b : Ten) : (alignTypes a b).1.shape = a.shape ∧ (alignTypes a b).2.shape = b.shape ∧ (alignTypes a b).1.val = a.val ∧ (alignTypes a b).2.val = b.val ∧
    ((alignTypes a b).1.dtype = (alignTypes a b).2.dtype → a.dtype = b.dtype ∨ a.dtype.isComplex = true ∨ b.dtype.isComplex = true) := by
  unfold alignTypes
  split_ifs with h1 h2 h3
  · exact ⟨rfl, rfl, rfl, rfl, fun _ => Or.inr (Or.inl h2)⟩
  · exact ⟨rfl, rfl, rfl, rfl, fun _ => Or.inr (Or.inr h3)⟩
  · exact ⟨rfl, rfl, rfl, rfl, fun h => Or.inl h⟩
  · exact ⟨rfl, rfl, rfl, rfl, fun h => Or.inl h⟩

/-- C167: nothing is stretched or cut silently: whenever `torch_dot` returns, the operands are vectors or matrices of fitting sizes and the numbers are those of the numpy product. -/
theorem C167_sound {a b t : Ten} (ha : a.Proper) (hb : b.Proper) (h : torchDot a b = .ok t) : ∃ r, NumpyDot a b r ∧ t.shape = r.shape ∧ t.val = r.val := by
  obtain ⟨s1, s2, -, -, s5⟩ := align_shapes a b
  have shapes : (∃ n, a.shape = [n] ∧ b.shape = [n]) ∨ (∃ m n, a.shape = [m, n] ∧ b.shape = [n]) ∨ ∃ m n p, a.shape = [m, n] ∧ b.shape = [n, p] := by
    unfold torchDot at h
    dsimp only at h
    split_ifs at h with h1 h2
    · unfold torchMv at h
      split at h
      · rename_i m n n' e1 e2
        split_ifs at h with h3
        obtain ⟨rfl, -⟩ := h3
        exact Or.inr (Or.inl ⟨m, n, s1 ▸ e1, s2 ▸ e2⟩)
      · cases h
    · unfold torchMm at h
      split at h
      · rename_i m n n' p e1 e2
        split_ifs at h with h3
        obtain ⟨rfl, -⟩ := h3
        exact Or.inr (Or.inr ⟨m, n, p, s1 ▸ e1, s2 ▸ e2⟩)
      · cases h
    · unfold torchDot1 at h
      split at h
      · rename_i n n' e1 e2
        split_ifs at h with h3
        obtain ⟨rfl, -⟩ := h3
        exact Or.inl ⟨n, s1 ▸ e1, s2 ▸ e2⟩
      · cases h
  have types : a.dtype = b.dtype ∨ a.dtype.isComplex = true ∨ b.dtype.isComplex = true := by
    apply s5
    unfold torchDot at h
    dsimp only at h
    split_ifs at h with h1 h2
    · unfold torchMv at h
      split at h
      · split_ifs at h with h3
        exact h3.2
      · cases h
    · unfold torchMm at h
      split at h
      · split_ifs at h with h3
        exact h3.2
      · cases h
    · unfold torchDot1 at h
      split at h
      · split_ifs at h with h3
        exact h3.2
      · cases h
  have fin : ∀ r, NumpyDot a b r → b.shape.length ≤ a.shape.length → ∃ r, NumpyDot a b r ∧ t.shape = r.shape ∧ t.val = r.val := by
    intro r hr hl
    refine ⟨r, hr, ?_⟩
    rw [dot_values hr hl types] at h
    cases h
    exact ⟨rfl, rfl⟩
  rcases shapes with ⟨n, e1, e2⟩ | ⟨m, n, e1, e2⟩ | ⟨m, n, p, e1, e2⟩
  · obtain ⟨u, hu⟩ := proper_vec ha e1
    obtain ⟨v, hv⟩ := proper_vec hb e2
    exact fin _ (by rw [hu, hv]; exact NumpyDot.vv _ _ u v) (by rw [e1, e2])
  · obtain ⟨A, hA⟩ := proper_mat ha e1
    obtain ⟨v, hv⟩ := proper_vec hb e2
    exact fin _ (by rw [hA, hv]; exact NumpyDot.mv _ _ A v) (by rw [e1, e2]; simp)
  · obtain ⟨A, hA⟩ := proper_mat ha e1
    obtain ⟨B, hB⟩ := proper_mat hb e2
    exact fin _ (by rw [hA, hB]; exact NumpyDot.mm _ _ A B) (by rw [e1, e2]; simp)

/-- C167: `torch_dot` is not numpy's product: it refuses a vector times a matrix and a single times a double real matrix, and a product of a single complex and a double complex (or a double real) matrix is single. -/
theorem C167_dot_false :
    (∃ a b r, NumpyDot a b r ∧ a.dtype = b.dtype ∧ torchDot a b = .error .runtimeError) ∧
    (∃ a b r, NumpyDot a b r ∧ b.shape.length ≤ a.shape.length ∧ torchDot a b = .error .runtimeError) ∧
    (∃ a b r t, NumpyDot a b r ∧ a.dtype = .c64 ∧ b.dtype = .c128 ∧ r.dtype = .c128 ∧ torchDot a b = .ok t ∧ t.dtype = .c64) ∧
    (∃ a b r t, NumpyDot a b r ∧ a.dtype = .f64 ∧ b.dtype = .c64 ∧ r.dtype = .c128 ∧ torchDot a b = .ok t ∧ t.dtype = .c64) := by
  refine ⟨⟨_, _, _, NumpyDot.vm (n := 1) (p := 1) .c128 .c128 (fun _ => 1) (fun _ _ => 1), rfl, rfl⟩, ⟨_, _, _, NumpyDot.mm (m := 1) (n := 1) (p := 1) .f32 .f64 (fun _ _ => 1) (fun _ _ => 1), le_rfl, ?_⟩,
    ⟨_, _, _, _, NumpyDot.mm (m := 1) (n := 1) (p := 1) .c64 .c128 (fun _ _ => 1) (fun _ _ => 1), rfl, rfl, rfl, dot_values (NumpyDot.mm _ _ _ _) le_rfl (Or.inr (Or.inl rfl)), rfl⟩,
    ⟨_, _, _, _, NumpyDot.mm (m := 1) (n := 1) (p := 1) .f64 .c64 (fun _ _ => 1) (fun _ _ => 1), rfl, rfl, rfl, dot_values (NumpyDot.mm _ _ _ _) le_rfl (Or.inr (Or.inr rfl)), rfl⟩⟩
  unfold torchDot torchMm alignTypes
  rfl

/-- C167: what is multiplied in double precision stays in double precision. -/
theorem C167_double {a b t : Ten} (h : torchDot a b = .ok t) (ha : a.dtype = .f64 ∨ a.dtype = .c128) (hb : b.dtype = .f64 ∨ b.dtype = .c128) : t.dtype = .f64 ∨ t.dtype = .c128 := by
  have hh : (alignTypes a b).1.dtype = .f64 ∨ (alignTypes a b).1.dtype = .c128 := by
    unfold alignTypes
    split_ifs <;> simp [Ten.cast, ha, hb]
  unfold torchDot at h
  dsimp only at h
  have e : t.dtype = (alignTypes a b).1.dtype := by
    split_ifs at h
    · unfold torchMv at h
      split at h
      · split_ifs at h
        cases h
        rfl
      · cases h
    · unfold torchMm at h
      split at h
      · split_ifs at h
        cases h
        rfl
      · cases h
    · unfold torchDot1 at h
      split at h
      · split_ifs at h
        cases h
        rfl
      · cases h
  rw [e]
  exact hh

/-! ### Transposes -/

lemma reverse_indices (n : ℕ) : (List.range n).map (fun i => n - i - 1) = (List.range n).reverse := by
  apply List.ext_getElem
  · simp
  · intro i h1 h2
    simp at h1 ⊢
    omega

/-- C167: `torch_transpose` reverses the order of the axes, whatever their number, as numpy's `.T` does. -/
theorem C167_transpose (t : Ten) : (torchTranspose t).shape = t.shape.reverse ∧ (torchTranspose t).dtype = t.dtype ∧
    ∀ idx : List ℕ, idx.length = t.shape.length → (torchTranspose t).val idx = t.val idx.reverse := by
  unfold torchTranspose Ten.permute
  rw [reverse_indices]
  refine ⟨?_, rfl, ?_⟩
  · dsimp only
    apply List.ext_getElem
    · simp
    · intro i h1 h2
      simp at h1 h2 ⊢
      rw [List.getElem?_eq_getElem (by omega)]
      rfl
  · intro idx hl
    dsimp only
    congr 1
    apply List.ext_getElem
    · simp [hl]
    · intro i h1 h2
      simp only [List.length_map, List.length_range] at h1
      have hn : ((List.range t.shape.length).reverse).Nodup := List.nodup_reverse.2 List.nodup_range
      have hi : (List.range t.shape.length).reverse.idxOf i = t.shape.length - 1 - i := by
        have hlt : t.shape.length - 1 - i < (List.range t.shape.length).reverse.length := by
          rw [List.length_reverse, List.length_range]
          omega
        have := hn.idxOf_getElem (t.shape.length - 1 - i) hlt
        rw [List.getElem_reverse] at this
        simp only [List.getElem_range, List.length_range] at this
        rwa [show t.shape.length - 1 - (t.shape.length - 1 - i) = i by omega] at this
      rw [List.getElem_map, List.getElem_range, hi, List.getElem_reverse, List.getD_eq_getElem?_getD, List.getElem?_eq_getElem (by omega), Option.getD_some]
      congr 1
      omega

/-- C167: the transposed matrix. -/
theorem C167_transpose_matrix {m n : ℕ} (d : TorchType) (A : Matrix (Fin m) (Fin n) ℂ) (i j : ℕ) : (torchTranspose (tenMat d A)).shape = [n, m] ∧
    (torchTranspose (tenMat d A)).val [i, j] = (tenMat d A.transpose).val [i, j] := by
  obtain ⟨h1, -, h3⟩ := C167_transpose (tenMat d A)
  refine ⟨h1, ?_⟩
  rw [h3 [i, j] rfl]
  show (if h : j < m ∧ i < n then A ⟨j, h.1⟩ ⟨i, h.2⟩ else 0) = (if h : i < n ∧ j < m then A ⟨j, h.2⟩ ⟨i, h.1⟩ else 0)
  split_ifs <;> first | rfl | tauto

/-! ### Constants -/

/-- C167: `torch_eye` is the unit matrix and `torch_zeros` the zero tensor, real or complex; asked for `complex` they have the precision of torch's default type. -/
theorem C167_constants (dflt : TorchType) (hd : dflt = .f32 ∨ dflt = .f64) (arg : TypeArg) : ∃ d : TorchType,
    d = (match arg with | .pyComplex => (if dflt = .f64 then .c128 else .c64) | .torch d => d | .none => dflt) ∧
    (∀ n : ℕ, torchEye dflt n arg = .ok (tenMat d (1 : Matrix (Fin n) (Fin n) ℂ))) ∧ ∀ shape, torchZeros dflt shape arg = .ok ⟨d, shape, fun _ => 0⟩ := by
  have val : ∀ n : ℕ, eyeVal n = fun idx => match idx with
      | [i, j] => if h : i < n ∧ j < n then (1 : Matrix (Fin n) (Fin n) ℂ) ⟨i, h.1⟩ ⟨j, h.2⟩ else 0
      | _ => 0 := by
    intro n
    funext idx
    rcases idx with _ | ⟨i, _ | ⟨j, _ | ⟨l, r⟩⟩⟩
    · rfl
    · rfl
    · show (if i < n ∧ j < n ∧ i = j then (1 : ℂ) else 0) = _
      dsimp only
      by_cases h : i < n ∧ j < n
      · rw [dif_pos h, Matrix.one_apply]
        by_cases hij : i = j
        · rw [if_pos ⟨h.1, h.2, hij⟩, if_pos (by simpa using hij)]
        · rw [if_neg (by tauto), if_neg (by simpa using hij)]
      · rw [dif_neg h, if_neg (by tauto)]
    · rfl
  refine ⟨_, rfl, ?_, ?_⟩
  · intro n
    unfold torchEye tenMat
    rw [val n]
    rcases hd with rfl | rfl <;> cases arg <;> rfl
  · intro shape
    unfold torchZeros
    rcases hd with rfl | rfl <;> cases arg <;> rfl

/-- C167: multiplying with the complex unit matrix changes nothing while torch's default type is double (as `import nidn` sets it); after it was set to single (as `run_training` does on a GPU) the product of the same unit matrix with a double complex matrix is single. -/
theorem C167_unit {n p : ℕ} (A : Matrix (Fin n) (Fin p) ℂ) :
    (∃ one, torchEye .f64 n .pyComplex = .ok one ∧ torchDot one (tenMat .c128 A) = .ok (tenMat .c128 A)) ∧
    ∃ one, torchEye .f32 n .pyComplex = .ok one ∧ torchDot one (tenMat .c128 A) = .ok (tenMat .c64 A) := by
  obtain ⟨d, hd, he, -⟩ := C167_constants .f64 (Or.inr rfl) .pyComplex
  obtain ⟨d', hd', he', -⟩ := C167_constants .f32 (Or.inl rfl) .pyComplex
  dsimp only at hd hd'
  rw [if_pos rfl] at hd
  rw [if_neg (by decide)] at hd'
  subst hd hd'
  refine ⟨⟨_, he n, ?_⟩, ⟨_, he' n, ?_⟩⟩
  · rw [C167_dot_partial (NumpyDot.mm .c128 .c128 1 A) le_rfl (Or.inl rfl), Matrix.one_mul]
    rfl
  · rw [dot_values (NumpyDot.mm .c64 .c128 1 A) le_rfl (Or.inr (Or.inl rfl)), Matrix.one_mul]
    rfl

/-- a matrix times a vector, complex times real -/
example : ∃ a b r : Ten, NumpyDot a b r ∧ b.shape.length ≤ a.shape.length ∧ KeepsType a.dtype b.dtype ∧ r.val [1] = 17 ∧ a.Proper ∧ b.Proper := by
  refine ⟨_, _, _, NumpyDot.mv (m := 2) (n := 2) .c128 .f64 !![1, 2; 3, 4] ![3, 2], by decide, Or.inr (Or.inl ⟨rfl, by decide⟩), ?_, ?_, ?_⟩
  · show Matrix.mulVec !![(1 : ℂ), 2; 3, 4] ![3, 2] 1 = 17
    simp [Matrix.mulVec, dotProduct, Fin.sum_univ_two]
    norm_num
  · intro idx hidx
    rcases idx with _ | ⟨i, _ | ⟨j, _ | ⟨l, r⟩⟩⟩
    · rfl
    · rfl
    · exact dif_neg fun h => hidx (by simpa [tenMat] using h)
    · rfl
  · intro idx hidx
    rcases idx with _ | ⟨i, _ | ⟨j, l⟩⟩
    · rfl
    · exact dif_neg fun h => hidx (by simpa [tenVec] using h)
    · rfl

end Nidn
