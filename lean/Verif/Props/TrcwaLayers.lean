/-
Properties C11 and C12: layer bookkeeping and stack construction of the RCWA solver.
-/
import Verif.Model.TrcwaLayers
import Verif.Lemmas.Py
import Mathlib.Data.List.Induction
import Mathlib.Tactic.Linarith
import Mathlib.Tactic.Ring

namespace Nidn

variable {E P T K : Type}

/-! ## C11 -/

lemma build_snoc (ops : List (AddOp E P T)) (op : AddOp E P T) :
    TrcwaState.build (ops ++ [op]) = (TrcwaState.build ops).add op := by
  simp [TrcwaState.build]

/-- Counting invariant of the bookkeeping. -/
structure Counts (s : TrcwaState E P T) (n : ℕ) : Prop where
  layerN : s.layerN = n
  ids : s.idList.length = n
  thick : s.thicknessList.length = n
  uni : s.uniformN = s.uniformEpList.length
  grid : s.gridLayerN = s.gridLayerNxyList.length
  four : s.fourierLayerN = s.fourierLayerParams.length
  pat : s.patternedN = s.gridLayerN + s.fourierLayerN
  sum : n = s.uniformN + s.patternedN

lemma counts_build (ops : List (AddOp E P T)) : Counts (TrcwaState.build ops) ops.length := by
  induction ops using List.reverseRecOn with
  | nil => constructor <;> rfl
  | append_singleton ops op ih =>
    obtain ⟨h1, h2, h3, h4, h5, h6, h7, h8⟩ := ih
    rw [build_snoc]
    cases op <;> constructor <;>
      simp [TrcwaState.add, TrcwaState.addLayerUniform, TrcwaState.addLayerGrid, TrcwaState.addLayerFourier, *] <;> omega

lemma getElem?_append_some {α : Type} {l l' : List α} {i : ℕ} {a : α} (h : l[i]? = some a) : (l ++ l')[i]? = some a := by
  rw [List.getElem?_append_left, h]
  exact (List.getElem?_eq_some_iff.1 h).1

lemma readLayer_mono {s s' : TrcwaState E P T} {i : ℕ} {o : AddOp E P T}
    (hid : ∃ l, s'.idList = s.idList ++ l) (ht : ∃ l, s'.thicknessList = s.thicknessList ++ l)
    (hu : ∃ l, s'.uniformEpList = s.uniformEpList ++ l) (hg : ∃ l, s'.gridLayerNxyList = s.gridLayerNxyList ++ l)
    (hf : ∃ l, s'.fourierLayerParams = s.fourierLayerParams ++ l)
    (h : s.readLayer i = some o) : s'.readLayer i = some o := by
  obtain ⟨l1, e1⟩ := hid; obtain ⟨l2, e2⟩ := ht; obtain ⟨l3, e3⟩ := hu; obtain ⟨l4, e4⟩ := hg; obtain ⟨l5, e5⟩ := hf
  unfold TrcwaState.readLayer at h ⊢
  simp only [Option.bind_eq_bind, Option.bind_eq_some_iff] at h ⊢
  obtain ⟨id, h1, t, h2, h⟩ := h
  refine ⟨id, e1 ▸ getElem?_append_some h1, t, e2 ▸ getElem?_append_some h2, ?_⟩
  rcases htype : id.type with _ | _ | n
  · rw [htype] at h
    simp only [Option.bind_eq_some_iff] at h ⊢
    obtain ⟨e, he, h⟩ := h
    exact ⟨e, e3 ▸ getElem?_append_some he, h⟩
  · rw [htype] at h
    simp only [Option.bind_eq_some_iff] at h ⊢
    obtain ⟨e, he, x, hx, h⟩ := h
    exact ⟨e, he, x, e4 ▸ getElem?_append_some hx, h⟩
  · rw [htype] at h
    simp only [Option.bind_eq_some_iff] at h ⊢
    obtain ⟨e, he, x, hx, h⟩ := h
    exact ⟨e, he, x, e5 ▸ getElem?_append_some hx, h⟩

lemma readLayer_build (ops : List (AddOp E P T)) (i : ℕ) (h : i < ops.length) :
    (TrcwaState.build ops).readLayer i = ops[i]? := by
  induction ops using List.reverseRecOn with
  | nil => simp at h
  | append_singleton ops op ih =>
    rw [build_snoc]
    have hc := counts_build ops
    rw [List.length_append, List.length_singleton] at h
    by_cases hi : i < ops.length
    · have h0 := ih hi
      rw [List.getElem?_append_left hi, List.getElem?_eq_getElem hi] at *
      refine readLayer_mono ?_ ?_ ?_ ?_ ?_ h0 <;> cases op <;>
        simp [TrcwaState.add, TrcwaState.addLayerUniform, TrcwaState.addLayerGrid, TrcwaState.addLayerFourier]
    · have e : i = ops.length := by omega
      subst e
      rw [List.getElem?_append_right (le_refl _)]
      obtain ⟨h1, h2, h3, h4, h5, h6, h7, h8⟩ := hc
      cases op <;>
        simp [TrcwaState.readLayer, TrcwaState.add, TrcwaState.addLayerUniform, TrcwaState.addLayerGrid,
          TrcwaState.addLayerFourier, h1, h2, h3, h4, h5, h6]

/-- C11: after any sequence of layer additions the number of layers is the number of calls, the per-kind counters count the calls of
their kind, and reading layer `i` back through the id table gives exactly the arguments of call `i`; nothing exists beyond. -/
theorem C11_bookkeeping (ops : List (AddOp E P T)) :
    let s := TrcwaState.build ops
    s.layerN = ops.length ∧ s.layerN = s.uniformN + s.patternedN ∧ s.patternedN = s.gridLayerN + s.fourierLayerN ∧
    (∀ i, s.readLayer i = ops[i]?) := by
  have hc := counts_build ops
  refine ⟨hc.layerN, by rw [hc.layerN]; exact hc.sum, hc.pat, fun i => ?_⟩
  by_cases h : i < ops.length
  · exact readLayer_build ops i h
  · rw [List.getElem?_eq_none (by omega)]
    unfold TrcwaState.readLayer
    rw [List.getElem?_eq_none (by rw [hc.ids]; omega)]; rfl

/-- C11: each kind's counter equals the number of calls of that kind. -/
theorem C11_kind_counts (ops : List (AddOp E P T)) :
    let s := TrcwaState.build ops
    s.uniformN = (ops.filter fun o => match o with | .uniform _ _ => true | _ => false).length ∧
    s.gridLayerN = (ops.filter fun o => match o with | .grid _ _ _ => true | _ => false).length ∧
    s.fourierLayerN = (ops.filter fun o => match o with | .fourier _ _ => true | _ => false).length := by
  induction ops using List.reverseRecOn with
  | nil => simp [TrcwaState.build]
  | append_singleton ops op ih =>
    simp only [build_snoc, List.filter_append, List.length_append] at ih ⊢
    obtain ⟨h1, h2, h3⟩ := ih
    cases op <;>
      simp [TrcwaState.add, TrcwaState.addLayerUniform, TrcwaState.addLayerGrid, TrcwaState.addLayerFourier, h1, h2, h3]

/-- C11: the numbers under which patterned layers store their matrices (`id_list[i][2]`, trcwa.py:245-246) are all different and below
the length of the table allocated in `Init_Setup` (trcwa.py:134-135). -/
theorem C11_patterned_slots (ops : List (AddOp E P T)) :
    let s := TrcwaState.build ops
    (s.idList.filter fun d => d.type ≠ 0).map LayerId.noInKind = List.range s.patternedN := by
  induction ops using List.reverseRecOn with
  | nil => rfl
  | append_singleton ops op ih =>
    simp only [build_snoc] at ih ⊢
    cases op <;>
      simp_all [TrcwaState.add, TrcwaState.addLayerUniform, TrcwaState.addLayerGrid, TrcwaState.addLayerFourier,
        List.range_succ]

example : (TrcwaState.build [AddOp.uniform (1 : ℚ) (1 : ℚ), .grid 2 4 5, .fourier 3 (), .uniform 4 7]).readLayer 3
    = some (.uniform 4 7) := by
  rw [(C11_bookkeeping _).2.2.2]; rfl

/-! ## C12 -/

/-- The user's thickness of layer `i`: the common one if a single thickness was given, the `i`-th otherwise. -/
def UserThickness (perLayer : List T) (i : ℕ) (t : T) : Prop :=
  (perLayer = [t]) ∨ (perLayer.length ≠ 1 ∧ perLayer[i]? = some t)

lemma layerThickness_ok {perLayer : List T} {i : ℕ} {t : T} (h : UserThickness perLayer i t) :
    layerThickness perLayer i = .ok t := by
  unfold layerThickness
  rcases h with rfl | ⟨h1, h2⟩
  · simp
  · simp [h1, h2]

/-- The calls `_init_trcwa` makes for material layers `ls`. -/
def materialOp (nx ny : ℕ) (g : ℕ → K) (th : ℕ → T) (i : ℕ) : AddOp K Unit T :=
  if nx > 1 ∨ ny > 1 then .grid (th i) nx ny else .uniform (th i) (g i)

lemma addMaterialLayers_ok (nx ny : ℕ) (eps : EpsTensor K) (g : ℕ → K) (perLayer : List T) (th : ℕ → T) (ls : List ℕ)
    (hth : ∀ i ∈ ls, UserThickness perLayer i (th i))
    (hg : ¬ (nx > 1 ∨ ny > 1) → ∃ n, eps = .d1 n g ∧ ∀ i ∈ ls, i < n) (s : TrcwaState K Unit T) :
    addMaterialLayers nx ny eps perLayer ls s = .ok (ls.foldl (fun s i => s.add (materialOp nx ny g th i)) s) := by
  induction ls generalizing s with
  | nil => rfl
  | cons i ls ih =>
    have ih := ih (fun j hj => hth j (by simp [hj])) (fun h => by
      obtain ⟨n, hn, hl⟩ := hg h; exact ⟨n, hn, fun j hj => hl j (by simp [hj])⟩)
    simp only [addMaterialLayers, layerThickness_ok (hth i (by simp)), bind, Except.bind, List.foldl_cons]
    by_cases h : nx > 1 ∨ ny > 1
    · rw [if_pos h, ih]; simp [materialOp, h, TrcwaState.add]
    · obtain ⟨n, hn, hl⟩ := hg h
      rw [if_neg h]
      subst hn
      simp only [hl i (by simp), if_true]
      rw [ih]; simp [materialOp, h, TrcwaState.add]

/-- All calls of `_init_trcwa`, in order. -/
def stackOps (nx ny nl : ℕ) (g : ℕ → K) (th : ℕ → T) (top bottom : K) (one : T) : List (AddOp K Unit T) :=
  .uniform one top :: ((List.range nl).map (materialOp nx ny g th) ++ [.uniform one bottom])

lemma stack_state (nx ny nl : ℕ) (g : ℕ → K) (th : ℕ → T) (top bottom : K) (one : T) :
    ((List.range nl).foldl (fun s i => s.add (materialOp nx ny g th i)) (TrcwaState.addLayerUniform {} one top)).addLayerUniform
      one bottom = TrcwaState.build (stackOps nx ny nl g th top bottom one) := by
  simp [stackOps, TrcwaState.build, List.foldl_map, TrcwaState.add]

lemma stack_ids (nx ny nl : ℕ) (g : ℕ → K) (th : ℕ → T) (top bottom : K) (one : T) (h : nx > 1 ∨ ny > 1) :
    (TrcwaState.build (stackOps nx ny nl g th top bottom one)).idList =
      ⟨0, 0, 0, none⟩ :: ((List.range nl).map (fun i => ⟨1, i + 1, i, some i⟩) ++ [⟨0, nl + 1, 1, none⟩]) ∧
    (TrcwaState.build (stackOps nx ny nl g th top bottom one)).gridLayerNxyList = List.replicate nl (nx, ny) := by
  rw [← stack_state]
  have key : ∀ n, ∀ s : TrcwaState K Unit T, s = ((List.range n).foldl (fun (s : TrcwaState K Unit T) i =>
        s.add (materialOp nx ny g th i)) (TrcwaState.addLayerUniform ({} : TrcwaState K Unit T) one top)) →
      s.idList = ⟨0, 0, 0, none⟩ :: (List.range n).map (fun i => (⟨1, i + 1, i, some i⟩ : LayerId)) ∧
      s.gridLayerNxyList = List.replicate n (nx, ny) ∧ s.layerN = n + 1 ∧ s.patternedN = n ∧ s.gridLayerN = n ∧
      s.uniformN = 1 := by
    intro n
    induction n with
    | zero => rintro s rfl; simp [TrcwaState.addLayerUniform]
    | succ n ih =>
      rintro s rfl
      simp only [List.range_succ, List.foldl_append, List.foldl_cons, List.foldl_nil]
      obtain ⟨h1, h2, h3, h4, h5, h6⟩ := ih _ rfl
      generalize (List.range n).foldl (fun (s : TrcwaState K Unit T) i => s.add (materialOp nx ny g th i))
        (TrcwaState.addLayerUniform ({} : TrcwaState K Unit T) one top) = F at h1 h2 h3 h4 h5 h6 ⊢
      simp [materialOp, h, TrcwaState.add, TrcwaState.addLayerGrid, h1, h2, h3, h4, h5, h6, List.replicate_succ']
  obtain ⟨h1, h2, h3, h4, h5, h6⟩ := key nl _ rfl
  generalize (List.range nl).foldl (fun (s : TrcwaState K Unit T) i => s.add (materialOp nx ny g th i))
    (TrcwaState.addLayerUniform ({} : TrcwaState K Unit T) one top) = F at h1 h2 h3 h6 ⊢
  simp [TrcwaState.addLayerUniform, h1, h2, h3, h6]

/-- C12 (uniform layers, `Nx = Ny = 1`): the stack has `N_layers + 2` layers; layer 0 is the top half-space, layer `i+1` has the user's
thickness of layer `i` and the permittivity of cell (0,0,i), the last layer is the bottom half-space; no patterns are set. -/
theorem C12_uniform_stack (nl : ℕ) (f : ℕ → ℕ → ℕ → K) (top bottom : K) (perLayer : List T) (one : T) (th : ℕ → T)
    (hth : ∀ i < nl, UserThickness perLayer i (th i)) :
    ∃ st, initTrcwa 1 1 nl f top bottom perLayer one = .ok st ∧
      st.state.layerN = nl + 2 ∧
      st.state.readLayer 0 = some (.uniform one top) ∧
      (∀ i < nl, st.state.readLayer (i + 1) = some (.uniform (th i) (f 0 0 i))) ∧
      st.state.readLayer (nl + 1) = some (.uniform one bottom) ∧ st.patterns = [] := by
  refine ⟨⟨TrcwaState.build (stackOps 1 1 nl (f 0 0) th top bottom one), []⟩, ?_, ?_⟩
  · unfold initTrcwa
    simp only [EpsTensor.squeeze0, if_true]
    rw [addMaterialLayers_ok 1 1 (.d1 nl (f 0 0)) (f 0 0) perLayer th (List.range nl)
      (fun i hi => hth i (List.mem_range.1 hi)) (fun _ => ⟨nl, rfl, fun i hi => List.mem_range.1 hi⟩)]
    simp [bind, Except.bind, pure, Except.pure, stack_state]
  · obtain ⟨h1, -, -, h4⟩ := C11_bookkeeping (stackOps 1 1 nl (f 0 0) th top bottom one)
    refine ⟨by rw [h1]; simp [stackOps], by rw [h4]; simp [stackOps], fun i hi => ?_, ?_, rfl⟩
    · rw [h4]; simp [stackOps, List.getElem?_append_left, hi, materialOp]
    · rw [h4]; simp [stackOps]

lemma geteps_go (s : TrcwaState K Unit T) (nx ny nl : ℕ) (f : ℕ → ℕ → ℕ → K) (hx3 : nx ≠ 3)
    (hs : s.gridLayerNxyList = List.replicate nl (nx, ny)) (last : LayerId) (hl : last.type ≠ 1) (m k : ℕ) (hk : k + m = nl) :
    gridLayerGeteps.go s (EpsTensor.d3 nx ny nl f)
      ((List.range' k m).map (fun i => ⟨1, i + 1, i, some i⟩) ++ [last]) (k + 1) k (k * (nx * ny)) =
    .ok ((List.range' k m).map fun i => (i + 1, .iso fun p q => f p q i)) := by
  induction m generalizing k with
  | zero => simp [gridLayerGeteps.go, hl]
  | succ m ih =>
    have ih := ih (k + 1) (by omega)
    have hk' : k < nl := by omega
    rw [show (k + 1) * (nx * ny) = k * (nx * ny) + nx * ny by ring] at ih
    simp [List.range'_succ, gridLayerGeteps.go, hs, hk', epGridFor, EpsTensor.len, hx3,
      bind, Except.bind, ih, pure, Except.pure]

/-- C12 (patterned layers, `Nx > 1` and `Nx ≠ 3`): as `C12_uniform_stack`, but the material layers are `Nx` x `Ny` grids and layer `i+1`
receives exactly the pattern `eps[:, :, i]`. Missing from the full property: `Nx = 3`, and `Nx = 1` with `Ny > 1`, where the code fails
(see `C12_three_columns_false` and `C12_single_row_false`). -/
theorem C12_patterned_stack_partial (nx ny nl : ℕ) (f : ℕ → ℕ → ℕ → K) (top bottom : K) (perLayer : List T) (one : T)
    (th : ℕ → T) (hx : 1 < nx) (hx3 : nx ≠ 3) (hth : ∀ i < nl, UserThickness perLayer i (th i)) :
    ∃ st, initTrcwa nx ny nl f top bottom perLayer one = .ok st ∧
      st.state.layerN = nl + 2 ∧
      st.state.readLayer 0 = some (.uniform one top) ∧
      (∀ i < nl, st.state.readLayer (i + 1) = some (.grid (th i) nx ny)) ∧
      st.state.readLayer (nl + 1) = some (.uniform one bottom) ∧
      st.patterns = (List.range nl).map fun i => (i + 1, .iso fun p q => f p q i) := by
  have hxy : nx > 1 ∨ ny > 1 := .inl hx
  obtain ⟨hid, hnxy⟩ := stack_ids nx ny nl (f 0 0) th top bottom one hxy
  have hgo := geteps_go (TrcwaState.build (stackOps nx ny nl (f 0 0) th top bottom one)) nx ny nl f hx3 hnxy
    ⟨0, nl + 1, 1, none⟩ (by simp) nl 0 (by omega)
  refine ⟨⟨TrcwaState.build (stackOps nx ny nl (f 0 0) th top bottom one),
    (List.range nl).map fun i => (i + 1, .iso fun p q => f p q i)⟩, ?_, ?_⟩
  · have hx1 : nx ≠ 1 := by omega
    unfold initTrcwa
    simp only [EpsTensor.squeeze0, hx1, if_false]
    rw [addMaterialLayers_ok nx ny _ (f 0 0) perLayer th (List.range nl)
      (fun i hi => hth i (List.mem_range.1 hi)) (fun h => absurd hxy h)]
    simp only [bind, Except.bind, pure, Except.pure, stack_state, hxy, if_true]
    rw [gridLayerGeteps, hid]
    simp only [gridLayerGeteps.go, ne_eq, zero_ne_one, not_false_eq_true, if_true]
    rw [← List.range_eq_range', zero_mul] at hgo
    rw [hgo]
  · obtain ⟨h1, -, -, h4⟩ := C11_bookkeeping (stackOps nx ny nl (f 0 0) th top bottom one)
    refine ⟨by rw [h1]; simp [stackOps], by rw [h4]; simp [stackOps], fun i hi => ?_, ?_, rfl⟩
    · rw [h4]; simp [stackOps, List.getElem?_append_left, hi, materialOp, hx]
    · rw [h4]; simp [stackOps]

example : ∃ st, initTrcwa 2 4 2 (fun i j k => (i + 2 * j + 8 * k : ℤ)) 1 1 [(1 : ℚ), 2] 1 = .ok st ∧ st.state.layerN = 4 := by
  obtain ⟨st, h, h', -⟩ := C12_patterned_stack_partial 2 4 2 (fun i j k => (i + 2 * j + 8 * k : ℤ)) 1 1 [(1 : ℚ), 2] 1
    (fun i => if i = 0 then 1 else 2) (by omega) (by omega) (by
      intro i hi; right
      have : i = 0 ∨ i = 1 := by omega
      rcases this with rfl | rfl <;> simp)
  exact ⟨st, h, h'⟩

example : ∃ st, initTrcwa 1 1 3 (fun _ _ k => (k : ℤ)) 1 1 [(1 : ℚ)] 1 = .ok st ∧ st.state.layerN = 5 := by
  obtain ⟨st, h, h', -⟩ := C12_uniform_stack 3 (fun _ _ k => (k : ℤ)) 1 1 [(1 : ℚ)] 1 (fun _ => 1) (fun _ _ => .inl rfl)
  exact ⟨st, h, h'⟩

/-- C12 is false of the code for three grid columns: whatever the epsilon grid, an `Nx = 3` structure with at least one layer is
mistaken for an anisotropic one (`len(ep_all) == 3`) and the run dies with a reshape error. -/
theorem C12_three_columns_false (ny nl : ℕ) (f : ℕ → ℕ → ℕ → K) (top bottom : K) (perLayer : List T) (one : T) (th : ℕ → T)
    (hny : 1 ≤ ny) (hnl : 1 ≤ nl) (hth : ∀ i < nl, UserThickness perLayer i (th i)) :
    initTrcwa 3 ny nl f top bottom perLayer one = .error .runtimeError := by
  have hxy : 3 > 1 ∨ ny > 1 := .inl (by omega)
  obtain ⟨hid, hnxy⟩ := stack_ids 3 ny nl (f 0 0) th top bottom one hxy
  unfold initTrcwa
  simp only [EpsTensor.squeeze0, OfNat.ofNat_ne_one, if_false]
  rw [addMaterialLayers_ok 3 ny _ (f 0 0) perLayer th (List.range nl)
    (fun i hi => hth i (List.mem_range.1 hi)) (fun h => absurd hxy h)]
  simp only [bind, Except.bind, stack_state, hxy, if_true]
  rw [gridLayerGeteps, hid]
  obtain ⟨n, rfl⟩ : ∃ n, nl = n + 1 := ⟨nl - 1, by omega⟩
  rw [List.range_eq_range', List.range'_succ, List.map_cons]
  simp only [gridLayerGeteps.go, ne_eq, zero_ne_one, not_false_eq_true, if_true, List.cons_append, not_true, if_false,
    hnxy, List.getElem?_replicate, Nat.zero_lt_succ, epGridFor, EpsTensor.len, EpsTensor.ndim0, gt_iff_lt,
    Nat.ofNat_pos, and_self, reshapeSlice2, zero_add, Nat.sub_zero]
  have hmin : min ny (3 * ny) = ny := by omega
  rw [hmin]
  by_cases h3 : n + 1 = 3
  · -- three layers: the first reshape succeeds by accident, the second fails
    have hn : n = 2 := by omega
    subst hn
    have e : ny * (2 + 1) = 3 * ny := by omega
    have hmin2 : min ny (3 * ny + 3 * ny) - 3 * ny = 0 := by omega
    have hne : ¬ (0 = 3 * ny) := by omega
    simp [bind, Except.bind, pure, Except.pure, e, List.range', gridLayerGeteps.go, epGridFor, EpsTensor.len,
      EpsTensor.ndim0, reshapeSlice2, hnxy, hmin2, hne]
  · have hne : ¬ (ny * (n + 1) = 3 * ny) := by
      intro h
      have : ny * (n + 1) = ny * 3 := by rw [h]; ring
      exact h3 (Nat.eq_of_mul_eq_mul_left (by omega) this)
    simp [bind, Except.bind, hne]

example : initTrcwa 3 2 1 (fun _ _ _ => (1 : ℤ)) 1 1 [(1 : ℚ)] 1 = .error .runtimeError :=
  C12_three_columns_false 2 1 _ 1 1 _ 1 (fun _ => 1) (by omega) (by omega) (fun _ _ => .inl rfl)

/-- C12 is false of the code for a single row of cells: an `Nx = 1`, `Ny > 1` structure with at least two layers dies with a reshape
error (after squeezing, the layer axis is taken for part of the pattern). -/
theorem C12_single_row_false (ny nl : ℕ) (f : ℕ → ℕ → ℕ → K) (top bottom : K) (perLayer : List T) (one : T) (th : ℕ → T)
    (hny : 2 ≤ ny) (hny3 : ny ≠ 3) (hnl : 2 ≤ nl) (hth : ∀ i < nl, UserThickness perLayer i (th i)) :
    initTrcwa 1 ny nl f top bottom perLayer one = .error .runtimeError := by
  have hxy : 1 > 1 ∨ ny > 1 := .inr (by omega)
  obtain ⟨hid, hnxy⟩ := stack_ids 1 ny nl (f 0 0) th top bottom one hxy
  have hny1 : ny ≠ 1 := by omega
  unfold initTrcwa
  simp only [EpsTensor.squeeze0, if_true, hny1, if_false]
  rw [addMaterialLayers_ok 1 ny _ (f 0 0) perLayer th (List.range nl)
    (fun i hi => hth i (List.mem_range.1 hi)) (fun h => absurd hxy h)]
  simp only [bind, Except.bind, stack_state, hxy, if_true]
  rw [gridLayerGeteps, hid]
  obtain ⟨n, rfl⟩ : ∃ n, nl = n + 1 := ⟨nl - 1, by omega⟩
  rw [List.range_eq_range', List.range'_succ, List.map_cons]
  simp only [gridLayerGeteps.go, ne_eq, zero_ne_one, not_false_eq_true, if_true, List.cons_append, not_true, if_false,
    hnxy, List.getElem?_replicate, Nat.zero_lt_succ, epGridFor, EpsTensor.len, EpsTensor.ndim0, gt_iff_lt,
    hny3, false_and, reshapeSlice2, zero_add, Nat.sub_zero, one_mul, min_self]
  have hne : ¬ (ny * (n + 1) = ny) := by
    intro h
    have : ny * (n + 1) = ny * 1 := by rw [h]; ring
    have := Nat.eq_of_mul_eq_mul_left (by omega) this
    omega
  simp [bind, Except.bind, hne, Functor.map, Except.map]

example : initTrcwa 1 4 2 (fun _ _ _ => (1 : ℤ)) 1 1 [(1 : ℚ)] 1 = .error .runtimeError :=
  C12_single_row_false 4 2 _ 1 1 _ 1 (fun _ => 1) (by omega) (by omega) (by omega) (fun _ _ => .inl rfl)

end Nidn
