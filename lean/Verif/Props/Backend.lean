/-
C70 (backend names and padding), C80 (frequency-domain routine), C81 (unit conversions), C82 (pulses).
-/
import Mathlib.Analysis.SpecialFunctions.Log.Basic
import Mathlib.Analysis.Real.Pi.Bounds
import Mathlib.Tactic.Ring
import Mathlib.Tactic.Linarith
import Mathlib.Tactic.FieldSimp
import Verif.Model.Backend
import Verif.Lemmas.Py

namespace Nidn

/-- the string "torch." -/
abbrev nTorchDot : List Char := ['t', 'o', 'r', 'c', 'h', '.']

/-- the string "torch.cpu." -/
abbrev nTorchCpuDot : List Char := ['t', 'o', 'r', 'c', 'h', '.', 'c', 'p', 'u', '.']

/-- the string "torch.cuda." -/
abbrev nTorchCudaDot : List Char := ['t', 'o', 'r', 'c', 'h', '.', 'c', 'u', 'd', 'a', '.']

/-- the string "float16" -/
abbrev nFloat16 : List Char := ['f', 'l', 'o', 'a', 't', '1', '6']

/-- the string "float32" -/
abbrev nFloat32 : List Char := ['f', 'l', 'o', 'a', 't', '3', '2']

/-! ### C70 names -/

lemma splitDots_plain (a : List Char) (h : '.' ∉ a) : splitDots a = [a] := by
  induction a with
  | nil => rfl
  | cons c a ih =>
    rw [List.mem_cons, not_or] at h
    show (if c = '.' then _ else _) = _
    rw [if_neg (fun e => h.1 e.symm), ih h.2]

lemma splitDots_cons (a b : List Char) (h : '.' ∉ a) : splitDots (a ++ '.' :: b) = a :: splitDots b := by
  induction a with
  | nil =>
    show (if '.' = '.' then _ else _) = _
    rw [if_pos rfl]
  | cons c a ih =>
    rw [List.mem_cons, not_or] at h
    show (if c = '.' then _ else match splitDots (a ++ '.' :: b) with | [] => _ | p :: ps => _) = _
    rw [if_neg (fun e => h.1 e.symm), ih h.2]

/-- every string has no dot or is split at its first dot -/
lemma dots_cases (s : List Char) : '.' ∉ s ∨ ∃ a b, '.' ∉ a ∧ s = a ++ '.' :: b := by
  induction s with
  | nil => exact Or.inl (by simp)
  | cons c s ih =>
    by_cases hc : c = '.'
    · exact Or.inr ⟨[], s, by simp, by rw [hc]; rfl⟩
    · rcases ih with h | ⟨a, b, ha, rfl⟩
      · exact Or.inl (by rw [List.mem_cons, not_or]; exact ⟨fun e => hc e.symm, h⟩)
      · exact Or.inr ⟨c :: a, b, by rw [List.mem_cons, not_or]; exact ⟨fun e => hc e.symm, ha⟩, rfl⟩

lemma setDevice_ok {V : Type} (env : TorchEnv V) (st st' : BackendState V) (n dev d : List Char) :
    setDevice env st n dev d = (.ok (), st') ↔
      n = nTorch ∧ ∃ v, env.attr d = some v ∧ ((dev = nCpu ∧ st' = ⟨.torch, v⟩) ∨ (dev = nCuda ∧ st' = ⟨.torchCuda, v⟩)) := by
  unfold setDevice
  by_cases hn : n = nTorch
  · rw [if_pos hn]
    by_cases h1 : dev = nCpu
    · rw [if_pos h1]
      have h2 : dev ≠ nCuda := by rw [h1]; decide
      cases ha : env.attr d with
      | none => simp
      | some v =>
        simp only [Prod.mk.injEq, true_and, hn, Option.some.injEq, h1]
        constructor
        · intro h
          exact ⟨v, rfl, Or.inl h.symm⟩
        · rintro ⟨w, rfl, h | ⟨h, -⟩⟩
          · exact h.symm
          · exact absurd h (by decide)
    · rw [if_neg h1]
      by_cases h2 : dev = nCuda
      · rw [if_pos h2]
        cases ha : env.attr d with
        | none => simp
        | some v =>
          simp only [Prod.mk.injEq, true_and, hn, Option.some.injEq, h2]
          constructor
          · intro h
            exact ⟨v, rfl, Or.inr h.symm⟩
          · rintro ⟨w, rfl, ⟨h, -⟩ | h⟩
            · exact absurd h (by decide)
            · exact h.symm
      · rw [if_neg h2]
        simp [h1, h2]
  · rw [if_neg hn]
    simp [hn]

/-- What the docstring of `set_backend` lists: `torch[.cuda][.float16|.float32|.float64]`. Device, dtype. -/
inductive Documented : List Char → BackendClass → List Char → Prop
  | torch : Documented nTorch .torch nFloat64
  | typed (d : List Char) : d ∈ [nFloat16, nFloat32, nFloat64] → Documented (nTorchDot ++ d) .torch d
  | cuda : Documented nTorchCuda .torchCuda nFloat64
  | cudaTyped (d : List Char) : d ∈ [nFloat16, nFloat32, nFloat64] → Documented (nTorchCudaDot ++ d) .torchCuda d

/-- C70: every documented name is accepted (the cuda ones on machines with CUDA) and selects the device and the number type it says. -/
theorem C70_documented {V : Type} (env : TorchEnv V) (st : BackendState V) (name d : List Char) (k : BackendClass) (v : V) (h : Documented name k d) (hv : env.attr d = some v) (hc : k = .torchCuda → env.cuda = true) :
    setBackend env st name = (.ok (), ⟨k, v⟩) := by
  unfold setBackend
  cases h with
  | torch =>
    rw [if_neg (fun h => absurd h.1 (by decide))]
    exact (setDevice_ok ..).2 ⟨rfl, v, hv, Or.inl ⟨rfl, rfl⟩⟩
  | typed _ hd =>
    simp only [List.mem_cons, List.not_mem_nil, or_false] at hd
    rcases hd with rfl | rfl | rfl
    all_goals
      rw [if_neg (fun h => absurd h.1 (by decide))]
      exact (setDevice_ok ..).2 ⟨rfl, v, hv, Or.inl ⟨rfl, rfl⟩⟩
  | cuda =>
    rw [if_neg (fun h => by rw [hc rfl] at h; exact absurd h.2 (by decide))]
    exact (setDevice_ok ..).2 ⟨rfl, v, hv, Or.inr ⟨rfl, rfl⟩⟩
  | cudaTyped _ hd =>
    rw [if_neg (fun h => by rw [hc rfl] at h; exact absurd h.2 (by decide))]
    simp only [List.mem_cons, List.not_mem_nil, or_false] at hd
    rcases hd with rfl | rfl | rfl
    all_goals exact (setDevice_ok ..).2 ⟨rfl, v, hv, Or.inr ⟨rfl, rfl⟩⟩

example : Documented ['t', 'o', 'r', 'c', 'h', '.', 'c', 'u', 'd', 'a', '.', 'f', 'l', 'o', 'a', 't', '1', '6'] .torchCuda nFloat16 := .cudaTyped _ (by decide)

/-- C70: exactly which names are accepted, and the backend they select. Missing for the property: only the documented names (C70_names_false). -/
theorem C70_accepts_partial {V : Type} (env : TorchEnv V) (st st' : BackendState V) (name : List Char) :
    setBackend env st name = (.ok (), st') ↔
      (nTorchCuda <+: name → env.cuda = true) ∧
      ∃ d v, env.attr d = some v ∧
        ((name = nTorch ∧ d = nFloat64 ∧ st' = ⟨.torch, v⟩) ∨
         (name = nTorchCuda ∧ d = nFloat64 ∧ st' = ⟨.torchCuda, v⟩) ∨
         ('.' ∉ d ∧ d ≠ nCuda ∧ name = nTorchDot ++ d ∧ st' = ⟨.torch, v⟩) ∨
         ('.' ∉ d ∧ name = nTorchCpuDot ++ d ∧ st' = ⟨.torch, v⟩) ∨
         ('.' ∉ d ∧ name = nTorchCudaDot ++ d ∧ st' = ⟨.torchCuda, v⟩)) := by
  unfold setBackend
  rw [← List.isPrefixOf_iff_prefix]
  by_cases hp : nTorchCuda.isPrefixOf name = true ∧ env.cuda = false
  · rw [if_pos hp]
    constructor
    · intro h
      cases h
    · rintro ⟨h, -⟩
      rw [h hp.1] at hp
      cases hp.2
  rw [if_neg hp]
  have hp' : nTorchCuda.isPrefixOf name = true → env.cuda = true := by
    intro h
    by_contra hc
    exact hp ⟨h, by simpa using hc⟩
  have e1 : ∀ d : List Char, nTorchDot ++ d = nTorch ++ '.' :: d := fun _ => rfl
  have e2 : ∀ d : List Char, nTorchCpuDot ++ d = nTorch ++ '.' :: (nCpu ++ '.' :: d) := fun _ => rfl
  have e3 : ∀ d : List Char, nTorchCudaDot ++ d = nTorch ++ '.' :: (nCuda ++ '.' :: d) := fun _ => rfl
  have e4 : nTorchCuda = nTorch ++ '.' :: nCuda := rfl
  have t0 : '.' ∉ nTorch := by decide
  constructor
  · intro h
    refine ⟨hp', ?_⟩
    rcases dots_cases name with h0 | ⟨n, r, hn, rfl⟩
    · rw [splitDots_plain _ h0] at h
      obtain ⟨rfl, v, hv, hs | hs⟩ := (setDevice_ok ..).1 h
      · exact ⟨_, v, hv, Or.inl ⟨rfl, rfl, hs.2⟩⟩
      · exact absurd hs.1 (by decide)
    · rw [splitDots_cons _ _ hn] at h
      rcases dots_cases r with h1 | ⟨dev, r2, hd, rfl⟩
      · rw [splitDots_plain _ h1] at h
        change (if r = nCuda then setDevice env st n nCuda nFloat64 else setDevice env st n nCpu r) = _ at h
        by_cases hc : r = nCuda
        · rw [if_pos hc] at h
          obtain ⟨rfl, v, hv, hs | hs⟩ := (setDevice_ok ..).1 h
          · exact absurd hs.1 (by decide)
          · exact ⟨_, v, hv, Or.inr (Or.inl ⟨by rw [hc]; rfl, rfl, hs.2⟩)⟩
        · rw [if_neg hc] at h
          obtain ⟨rfl, v, hv, hs | hs⟩ := (setDevice_ok ..).1 h
          · exact ⟨_, v, hv, Or.inr (Or.inr (Or.inl ⟨h1, hc, rfl, hs.2⟩))⟩
          · exact absurd hs.1 (by decide)
      · rw [splitDots_cons _ _ hd] at h
        rcases dots_cases r2 with h2 | ⟨x, y, hx, rfl⟩
        · rw [splitDots_plain _ h2] at h
          obtain ⟨rfl, v, hv, ⟨rfl, hs⟩ | ⟨rfl, hs⟩⟩ := (setDevice_ok ..).1 h
          · exact ⟨_, v, hv, Or.inr (Or.inr (Or.inr (Or.inl ⟨h2, rfl, hs⟩)))⟩
          · exact ⟨_, v, hv, Or.inr (Or.inr (Or.inr (Or.inr ⟨h2, rfl, hs⟩)))⟩
        · rw [splitDots_cons _ _ hx] at h
          cases hy : splitDots y with
          | nil =>
            exfalso
            rcases dots_cases y with h3 | ⟨a, b, ha, rfl⟩
            · rw [splitDots_plain _ h3] at hy
              cases hy
            · rw [splitDots_cons _ _ ha] at hy
              cases hy
          | cons z zs =>
            rw [hy] at h
            cases h
  · rintro ⟨-, d, v, hv, ⟨rfl, rfl, rfl⟩ | ⟨rfl, rfl, rfl⟩ | ⟨hd, hc, rfl, rfl⟩ | ⟨hd, rfl, rfl⟩ | ⟨hd, rfl, rfl⟩⟩
    · rw [splitDots_plain _ t0]
      exact (setDevice_ok ..).2 ⟨rfl, v, hv, Or.inl ⟨rfl, rfl⟩⟩
    · rw [e4, splitDots_cons _ _ t0, splitDots_plain _ (by decide)]
      exact (setDevice_ok ..).2 ⟨rfl, v, hv, Or.inr ⟨rfl, rfl⟩⟩
    · rw [e1, splitDots_cons _ _ t0, splitDots_plain _ hd]
      show (if d = nCuda then _ else _) = _
      rw [if_neg hc]
      exact (setDevice_ok ..).2 ⟨rfl, v, hv, Or.inl ⟨rfl, rfl⟩⟩
    · rw [e2, splitDots_cons _ _ t0, splitDots_cons _ _ (by decide), splitDots_plain _ hd]
      exact (setDevice_ok ..).2 ⟨rfl, v, hv, Or.inl ⟨rfl, rfl⟩⟩
    · rw [e3, splitDots_cons _ _ t0, splitDots_cons _ _ (by decide), splitDots_plain _ hd]
      exact (setDevice_ok ..).2 ⟨rfl, v, hv, Or.inr ⟨rfl, rfl⟩⟩

/-- C70 is false of the accepted names: the name of anything in the torch module is accepted as number type, for example an integer type or a function; so is the undocumented device "cpu". -/
theorem C70_names_false {V : Type} (env : TorchEnv V) (st : BackendState V) (v : V) (d : List Char) (hd : d ∈ [['i', 'n', 't', '6', '4'], ['s', 'i', 'n'], ['n', 'n']]) (hv : env.attr d = some v) :
    (∀ k d', ¬ Documented (nTorchDot ++ d) k d') ∧ setBackend env st (nTorchDot ++ d) = (.ok (), ⟨.torch, v⟩) ∧ setBackend env st (nTorchCpuDot ++ d) = (.ok (), ⟨.torch, v⟩) := by
  have key : '.' ∉ d ∧ d ≠ nCuda ∧ ¬ nTorchCuda <+: nTorchDot ++ d ∧ ¬ nTorchCuda <+: nTorchCpuDot ++ d := by
    simp only [List.mem_cons, List.not_mem_nil, or_false] at hd
    rcases hd with rfl | rfl | rfl <;> decide
  refine ⟨?_, ?_, ?_⟩
  · intro k d' h
    generalize hx : nTorchDot ++ d = x at h
    simp only [List.mem_cons, List.not_mem_nil, or_false] at hd
    cases h with
    | torch => rcases hd with rfl | rfl | rfl <;> exact absurd hx (by decide)
    | typed d1 h1 =>
      simp only [List.mem_cons, List.not_mem_nil, or_false] at h1
      rcases hd with rfl | rfl | rfl <;> rcases h1 with rfl | rfl | rfl <;> exact absurd hx (by decide)
    | cuda => rcases hd with rfl | rfl | rfl <;> exact absurd hx (by decide)
    | cudaTyped d1 h1 =>
      simp only [List.mem_cons, List.not_mem_nil, or_false] at h1
      rcases hd with rfl | rfl | rfl <;> rcases h1 with rfl | rfl | rfl <;> exact absurd hx (by decide)
  · exact (C70_accepts_partial ..).2 ⟨fun h => absurd h key.2.2.1, d, v, hv, Or.inr (Or.inr (Or.inl ⟨key.1, key.2.1, rfl, rfl⟩))⟩
  · exact (C70_accepts_partial ..).2 ⟨fun h => absurd h key.2.2.2, d, v, hv, Or.inr (Or.inr (Or.inr (Or.inl ⟨key.1, rfl, rfl⟩)))⟩

lemma setDevice_rejects {V : Type} (env : TorchEnv V) (st : BackendState V) (n dev d : List Char) (e : PyErr) (h : (setDevice env st n dev d).1 = .error e) :
    (e = .valueError ∧ (setDevice env st n dev d).2 = st) ∨ (e = .attributeError ∧ env.attr d = none ∧ (setDevice env st n dev d).2.float = st.float) := by
  unfold setDevice at *
  by_cases hn : n = nTorch
  · rw [if_pos hn] at h ⊢
    by_cases h1 : dev = nCpu
    · rw [if_pos h1] at h ⊢
      cases ha : env.attr d with
      | none =>
        rw [ha] at h
        cases h
        exact Or.inr ⟨rfl, rfl, rfl⟩
      | some v =>
        rw [ha] at h
        cases h
    · rw [if_neg h1] at h ⊢
      by_cases h2 : dev = nCuda
      · rw [if_pos h2] at h ⊢
        cases ha : env.attr d with
        | none =>
          rw [ha] at h
          cases h
          exact Or.inr ⟨rfl, rfl, rfl⟩
        | some v =>
          rw [ha] at h
          cases h
      · rw [if_neg h2] at h ⊢
        cases h
        exact Or.inl ⟨rfl, rfl⟩
  · rw [if_neg hn] at h ⊢
    cases h
    exact Or.inl ⟨rfl, rfl⟩

/-- C70: a rejected name raises RuntimeError (cuda asked for without CUDA), ValueError or AttributeError (unknown number type); in the first two cases the backend is unchanged, in the last one its number type is.
Missing: in the last case the device may have changed (C70_rejected_false). -/
theorem C70_rejected_partial {V : Type} (env : TorchEnv V) (st : BackendState V) (name : List Char) (e : PyErr) (h : (setBackend env st name).1 = .error e) :
    (e = .runtimeError ∧ env.cuda = false ∧ nTorchCuda <+: name ∧ (setBackend env st name).2 = st) ∨
    (e = .valueError ∧ (setBackend env st name).2 = st) ∨
    (e = .attributeError ∧ (setBackend env st name).2.float = st.float) := by
  unfold setBackend at *
  by_cases hp : nTorchCuda.isPrefixOf name = true ∧ env.cuda = false
  · rw [if_pos hp] at h ⊢
    cases h
    exact Or.inl ⟨rfl, hp.2, List.isPrefixOf_iff_prefix.1 hp.1, rfl⟩
  · rw [if_neg hp] at h ⊢
    right
    generalize splitDots name = l at h ⊢
    match l, h with
    | [n], h => exact (setDevice_rejects _ _ _ _ _ _ h).imp id (fun h => ⟨h.1, h.2.2⟩)
    | [n, d], h =>
      change (if d = nCuda then setDevice env st n nCuda nFloat64 else setDevice env st n nCpu d).1 = _ at h
      show _ ∨ (_ ∧ (if d = nCuda then setDevice env st n nCuda nFloat64 else setDevice env st n nCpu d).2.float = _)
      show (_ ∧ (if d = nCuda then setDevice env st n nCuda nFloat64 else setDevice env st n nCpu d).2 = st) ∨ _
      by_cases hd : d = nCuda
      · rw [if_pos hd] at h ⊢
        exact (setDevice_rejects _ _ _ _ _ _ h).imp id (fun h => ⟨h.1, h.2.2⟩)
      · rw [if_neg hd] at h ⊢
        exact (setDevice_rejects _ _ _ _ _ _ h).imp id (fun h => ⟨h.1, h.2.2⟩)
    | [n, dev, d], h => exact (setDevice_rejects _ _ _ _ _ _ h).imp id (fun h => ⟨h.1, h.2.2⟩)
    | [], h =>
      cases h
      exact Or.inl ⟨rfl, rfl⟩
    | _ :: _ :: _ :: _ :: _, h =>
      cases h
      exact Or.inl ⟨rfl, rfl⟩

example : (setBackend (⟨false, fun _ => none⟩ : TorchEnv ℕ) ⟨.torch, 64⟩ ['n', 'u', 'm', 'p', 'y']).1 = .error .valueError := by decide

/-- C70 is false of rejected names: on a machine with CUDA, asking for an unknown number type raises and nevertheless moves the backend from the graphics card to the processor. -/
theorem C70_rejected_false {V : Type} (env : TorchEnv V) (x : V) (h : env.attr ['f', 'l', 'o', 'a', 't', '6', '3'] = none) :
    setBackend env ⟨.torchCuda, x⟩ ['t', 'o', 'r', 'c', 'h', '.', 'f', 'l', 'o', 'a', 't', '6', '3'] = (.error .attributeError, ⟨.torch, x⟩) := by
  unfold setBackend
  rw [if_neg (fun h => absurd h.1 (by decide))]
  show (match env.attr ['f', 'l', 'o', 'a', 't', '6', '3'] with | some v => _ | none => _) = _
  rw [h]

/-! ### C70 padding -/

/-- Bins of the padded signal that fall into a window of width `w`: spacing of the frequencies of `N` samples is `1/(N·dt)`. -/
noncomputable def binsInWindow (N : ℤ) (dt w : ℝ) : ℝ := w * (N * dt)

/-- C70, number of bins: a positive number of bins requested for a proper window is met by the padded signal, with no sample to spare.
Missing: the padding may be negative (C70_negative_false) and requests of a resolution fail (C70_resolution_false). -/
theorem C70_bins_partial (len : ℕ) (dt b e n : ℝ) (res : Option ℝ) (hl : 0 < len) (hdt : 0 < dt) (hw : b < e) (hn : 0 < n) :
    ∃ p : ℤ, computePadding len dt (some (b, e)) (some n) res = .ok (p, len * dt) ∧ n ≤ binsInWindow (len + p) dt (e - b) ∧ binsInWindow (len + p - 1) dt (e - b) < n := by
  have hL : (len : ℝ) ≠ 0 := by exact_mod_cast hl.ne'
  have hwd : 0 < (e - b) * dt := mul_pos (by linarith) hdt
  refine ⟨⌈n / ((e - b) * dt)⌉ - len, ?_, ?_, ?_⟩
  · unfold computePadding freqWindow fftBins
    rw [ok_bind]
    show (if n = 0 ∧ _ then _ else _) >>= _ = _
    rw [if_neg (fun h => hn.ne' h.1), ok_bind]
    simp only [pyDiv]
    rw [if_neg (mul_ne_zero hL hdt.ne'), ok_bind, if_neg hdt.ne', ok_bind, if_neg hn.ne', ok_bind, if_neg hwd.ne', ok_bind]
    rfl
  · unfold binsInWindow
    have h1 : n / ((e - b) * dt) ≤ ⌈n / ((e - b) * dt)⌉ := Int.le_ceil _
    rw [div_le_iff₀ hwd] at h1
    calc n ≤ ⌈n / ((e - b) * dt)⌉ * ((e - b) * dt) := h1
      _ = _ := by push_cast; ring
  · unfold binsInWindow
    have h1 : (⌈n / ((e - b) * dt)⌉ : ℝ) < n / ((e - b) * dt) + 1 := Int.ceil_lt_add_one _
    have h2 : ((⌈n / ((e - b) * dt)⌉ : ℝ) - 1) * ((e - b) * dt) < n := by
      rw [← lt_div_iff₀ hwd]
      linarith
    calc _ = ((⌈n / ((e - b) * dt)⌉ : ℝ) - 1) * ((e - b) * dt) := by push_cast; ring
      _ < n := h2

/-- C70, default: without any request the signal is padded to twice its length, so the bins between zero and the Nyquist frequency are as many as there are samples. -/
theorem C70_default (len : ℕ) (dt : ℝ) (hl : 0 < len) (hdt : 0 < dt) : computePadding len dt none none none = .ok ((len : ℤ), len * dt) := by
  have hL : (len : ℝ) ≠ 0 := by exact_mod_cast hl.ne'
  unfold computePadding freqWindow fftBins
  simp only [pyDiv]
  rw [if_neg (mul_ne_zero hdt.ne' hL), ok_bind]
  show (Except.ok _ : Except PyErr (ℝ × ℝ)) >>= _ = _
  rw [ok_bind, ok_bind]
  have hx : (len : ℝ) / 2 / (dt * len) * dt = 1 / 2 := by
    field_simp
  have hx' : ((len : ℝ) / 2 / (dt * len) - 0) * dt = 1 / 2 := by rw [sub_zero, hx]
  simp only []
  rw [if_neg (mul_ne_zero hL hdt.ne'), ok_bind, if_neg hdt.ne', ok_bind, if_neg hL, ok_bind, hx', if_neg (by norm_num), ok_bind]
  have hc : ⌈(len : ℝ) / (1 / 2)⌉ = 2 * (len : ℤ) := by
    rw [show (len : ℝ) / (1 / 2) = ((2 * (len : ℤ) : ℤ) : ℝ) by push_cast; ring, Int.ceil_intCast]
  rw [hc]
  show Except.ok (2 * (len : ℤ) - len, _) = _
  rw [show 2 * (len : ℤ) - len = len by ring]

/-- C70 is false: asking for fewer bins than the signal has anyway gives a negative padding (for the default window: for every request below half the number of samples). -/
theorem C70_negative_false (len : ℕ) (dt n : ℝ) (hdt : 0 < dt) (hn : 0 < n) (hsmall : n ≤ ((len : ℝ) - 1) / 2) : ∃ p < 0, computePadding len dt none (some n) none = .ok (p, len * dt) := by
  have hL0 : (0 : ℝ) < len := by linarith
  have hL : (len : ℝ) ≠ 0 := hL0.ne'
  refine ⟨⌈n / (1 / 2)⌉ - len, ?_, ?_⟩
  · have : ⌈n / (1 / 2)⌉ ≤ (len : ℤ) - 1 := by
      rw [Int.ceil_le]
      push_cast
      linarith
    omega
  · unfold computePadding freqWindow fftBins
    simp only [pyDiv]
    rw [if_neg (mul_ne_zero hdt.ne' hL), ok_bind]
    show (Except.ok _ : Except PyErr (ℝ × ℝ)) >>= _ = _
    rw [ok_bind]
    rw [if_neg (fun h => hn.ne' h.1), ok_bind]
    have hx' : ((len : ℝ) / 2 / (dt * len) - 0) * dt = 1 / 2 := by
      rw [sub_zero]
      field_simp
    simp only []
    rw [if_neg (mul_ne_zero hL hdt.ne'), ok_bind, if_neg hdt.ne', ok_bind, if_neg hn.ne', ok_bind, hx', if_neg (by norm_num), ok_bind]
    rfl

example : (0 : ℝ) < 10 ∧ (10 : ℝ) ≤ ((100 : ℕ) - 1) / 2 := by norm_num

/-- C70 is false of resolutions: for every signal, window and requested resolution the window's limits are subtracted in the wrong order, and the padded signal has no samples left (a length of zero or less), instead of at
least `1/(r·dt)`. -/
theorem C70_resolution_false (len : ℕ) (dt b e r : ℝ) (hl : 0 < len) (hdt : 0 < dt) (hw : b < e) (hr : 0 < r) :
    ∃ p : ℤ, computePadding len dt (some (b, e)) none (some r) = .ok (p, len * dt) ∧ (len : ℤ) + p ≤ 0 ∧ ((len : ℤ) + p : ℝ) < 1 / (r * dt) := by
  have hL : (len : ℝ) ≠ 0 := by exact_mod_cast hl.ne'
  have hwd : 0 < (e - b) * dt := mul_pos (by linarith) hdt
  have hbe : (b - e) / r < 0 := div_neg_of_neg_of_pos (by linarith) hr
  have hneg : ⌈(b - e) / r / ((e - b) * dt)⌉ ≤ 0 := by
    rw [Int.ceil_le]
    exact_mod_cast (div_neg_of_neg_of_pos hbe hwd).le
  refine ⟨⌈(b - e) / r / ((e - b) * dt)⌉ - len, ?_, by omega, ?_⟩
  · unfold computePadding freqWindow fftBins
    rw [ok_bind]
    simp only [pyDiv]
    rw [if_neg hr.ne', ok_bind]
    show (Except.ok _ : Except PyErr (Option ℝ)) >>= _ = _
    rw [ok_bind]
    simp only []
    rw [if_neg (mul_ne_zero hL hdt.ne'), ok_bind, if_neg hdt.ne', ok_bind, if_neg hbe.ne, ok_bind, if_neg hwd.ne', ok_bind]
    rfl
  · have h1 : (⌈(b - e) / r / ((e - b) * dt)⌉ : ℝ) ≤ 0 := by exact_mod_cast hneg
    have h2 : 0 < 1 / (r * dt) := by positivity
    push_cast
    linarith

/-! ### C80 the frequency-domain routine -/

/-- C80 is false: once the simulation has run, the frequency-domain routine raises for every signal, time step, window and request, whatever Fourier transform it is given (the padding mode it uses is not one of torch's). -/
theorem C80_fft_false (steps : ℕ) (hs : steps ≠ 0) (fft : List ℝ → Except PyErr (List ℂ)) (x : List ℝ) (dt : ℝ) (window : Option (ℝ × ℝ)) (bins res : Option ℝ) : ∀ s, fftRoutine steps fft x dt window bins res ≠ .ok s := by
  intro s h
  unfold fftRoutine at h
  rw [if_neg hs] at h
  obtain ⟨p, -, h⟩ := bind_ok.1 h
  obtain ⟨y, hy, h⟩ := bind_ok.1 h
  unfold bdPad at hy
  rw [if_neg (by decide)] at hy
  cases hy

/-- C80, what does hold: the routine returns exactly before the first step, and then two empty lists. Missing: every other case (C80_fft_false). -/
theorem C80_start_partial (steps : ℕ) (fft : List ℝ → Except PyErr (List ℂ)) (x : List ℝ) (dt : ℝ) (window : Option (ℝ × ℝ)) (bins res : Option ℝ) (s : List ℝ × List ℂ) :
    fftRoutine steps fft x dt window bins res = .ok s ↔ steps = 0 ∧ s = ([], []) := by
  constructor
  · intro h
    by_cases hs : steps = 0
    · refine ⟨hs, ?_⟩
      unfold fftRoutine at h
      rw [if_pos hs] at h
      exact (Except.ok.inj h).symm
    · exact absurd h (C80_fft_false steps hs fft x dt window bins res s)
  · rintro ⟨rfl, rfl⟩
    unfold fftRoutine
    rw [if_pos rfl]

/-- C80: the frequencies belonging to the entries of a Fourier transform of `n` samples: entry `k` has the multiple of `1 / (n dt)` that is `k` modulo `n` and not outside the band (negative in the second half). -/
theorem C80_frequencies (n : ℕ) (dt : ℝ) (hn : n ≠ 0) (hdt : dt ≠ 0) : ∃ fs, computeFrequencies n dt none = .ok (fs, 0, -1) ∧ fs.length = n ∧
    ∀ k (_ : k < n), ∃ z : ℤ, fs[k]? = some ((z : ℝ) / (n * dt)) ∧ (n : ℤ) ∣ z - k ∧ -(n : ℤ) ≤ 2 * z ∧ 2 * z < n := by
  unfold computeFrequencies
  rw [if_neg (by tauto)]
  refine ⟨_, rfl, by simp, fun k hk => ?_⟩
  rw [List.getElem?_map, List.getElem?_range hk, Option.map_some]
  by_cases h : k < (n + 1) / 2
  · exact ⟨k, by rw [if_pos h]; simp, by simp, by omega, by omega⟩
  · exact ⟨k - n, by rw [if_neg h]; simp, ⟨-1, by ring⟩, by omega, by omega⟩

example : ∃ fs : List ℝ, computeFrequencies 5 2 none = .ok (fs, 0, -1) ∧ fs[3]? = some (-1 / 5 : ℝ) := by
  obtain ⟨fs, h1, -, h3⟩ := C80_frequencies 5 2 (by decide) (by norm_num)
  obtain ⟨z, hz, ⟨q, hq⟩, h4, h5⟩ := h3 3 (by decide)
  obtain rfl : z = -2 := by omega
  exact ⟨fs, h1, by rw [hz]; norm_num⟩

/-! ### C81 unit conversions -/

lemma eps0_pos : 0 < EPS_0 := by unfold EPS_0; norm_num

lemma mu0_pos : 0 < MU_0 := by
  unfold MU_0
  exact mul_pos (by norm_num) Real.pi_pos

/-- C81: the conversions between simulation and world units are inverse to each other. -/
theorem C81_inverse (x : ℝ) :
    worldE_to_simE (simE_to_worldE x) = x ∧ simE_to_worldE (worldE_to_simE x) = x ∧ worldH_to_simH (simH_to_worldH x) = x ∧ simH_to_worldH (worldH_to_simH x) = x := by
  have h1 := (Real.sqrt_pos.2 eps0_pos).ne'
  have h2 := (Real.sqrt_pos.2 mu0_pos).ne'
  unfold worldE_to_simE simE_to_worldE worldH_to_simH simH_to_worldH
  refine ⟨?_, ?_, ?_, ?_⟩ <;> field_simp

/-- C81: in simulation units the impedance of free space is one: fields with ratio `r` in simulation units have the ratio `r·√(μ₀/ε₀)` in world units, and both energy densities carry over. -/
theorem C81_impedance (E H : ℝ) :
    simE_to_worldE E / simH_to_worldH H = E / H * Real.sqrt (MU_0 / EPS_0) ∧ EPS_0 * simE_to_worldE E ^ 2 = E ^ 2 ∧ MU_0 * simH_to_worldH H ^ 2 = H ^ 2 := by
  have h1 := Real.sqrt_pos.2 eps0_pos
  have h2 := Real.sqrt_pos.2 mu0_pos
  unfold simE_to_worldE simH_to_worldH
  refine ⟨?_, ?_, ?_⟩
  · rw [Real.sqrt_div mu0_pos.le]
    by_cases hH : H = 0
    · simp [hH]
    · field_simp
  · rw [div_pow, Real.sq_sqrt eps0_pos.le]
    field_simp [eps0_pos.ne']
  · rw [div_pow, Real.sq_sqrt mu0_pos.le]
    field_simp [mu0_pos.ne']

/-! ### C82 pulses -/

lemma fwhm_sq : fwhmConstant ^ 2 = 8 * Real.log 2 := by
  unfold fwhmConstant
  rw [mul_pow, Real.sq_sqrt (by have := Real.log_pos (show (1 : ℝ) < 2 by norm_num); linarith)]
  ring

lemma fwhm_pos : 0 < fwhmConstant := by
  unfold fwhmConstant
  have := Real.log_pos (show (1 : ℝ) < 2 by norm_num)
  exact mul_pos two_pos (Real.sqrt_pos.2 (by linarith))

/-- C82: the normalised Gaussian pulse is positive, at most one, equal to one exactly at its centre, and equal to one half exactly at half the width from it: the width is the full width at half maximum. -/
theorem C82_gaussian (x fwhm center : ℝ) (hf : 0 < fwhm) :
    0 < gaussianPulse x fwhm center ∧ gaussianPulse x fwhm center ≤ 1 ∧ (gaussianPulse x fwhm center = 1 ↔ x = center) ∧
    (gaussianPulse x fwhm center = 1 / 2 ↔ |x - center| = fwhm / 2) ∧ (1 / 2 < gaussianPulse x fwhm center ↔ |x - center| < fwhm / 2) := by
  have hlog := Real.log_pos (show (1 : ℝ) < 2 by norm_num)
  set u := (x - center) ^ 2 / (2 * (fwhm / fwhmConstant) ^ 2) with hu
  have hu' : u = 4 * Real.log 2 * (x - center) ^ 2 / fwhm ^ 2 := by
    rw [hu, div_pow, fwhm_sq]
    field_simp
    ring
  have hu0 : 0 ≤ u := by
    rw [hu']
    positivity
  have hhalf : (1 / 2 : ℝ) = Real.exp (-Real.log 2) := by rw [Real.exp_neg, Real.exp_log two_pos]; norm_num
  have hcmp : u - Real.log 2 = Real.log 2 * 4 / fwhm ^ 2 * ((x - center) ^ 2 - (fwhm / 2) ^ 2) := by
    rw [hu']
    field_simp
    ring
  have hk : 0 < Real.log 2 * 4 / fwhm ^ 2 := by positivity
  show 0 < Real.exp (-u) ∧ Real.exp (-u) ≤ 1 ∧ (Real.exp (-u) = 1 ↔ _) ∧ (Real.exp (-u) = 1 / 2 ↔ _) ∧ (1 / 2 < Real.exp (-u) ↔ _)
  refine ⟨Real.exp_pos _, ?_, ?_, ?_, ?_⟩
  · rw [Real.exp_le_one_iff]
    linarith
  · rw [Real.exp_eq_one_iff, neg_eq_zero, hu', div_eq_zero_iff]
    constructor
    · rintro (h | h)
      · rcases mul_eq_zero.1 h with h | h
        · linarith
        · have := pow_eq_zero_iff (two_ne_zero) |>.1 h
          linarith
      · exact absurd h (by positivity)
    · intro h
      left
      rw [h, sub_self]
      ring
  · rw [hhalf, Real.exp_eq_exp, neg_inj, ← sub_eq_zero, hcmp, mul_eq_zero, or_iff_right hk.ne', sub_eq_zero, sq_eq_sq_iff_abs_eq_abs, abs_of_pos (show 0 < fwhm / 2 by linarith)]
  · rw [hhalf, Real.exp_lt_exp, neg_lt_neg_iff, ← sub_neg, hcmp]
    constructor
    · intro h
      have h1 : (x - center) ^ 2 - (fwhm / 2) ^ 2 < 0 := by
        by_contra hc
        have := mul_nonneg hk.le (not_lt.1 hc)
        linarith
      exact abs_lt_of_sq_lt_sq (by linarith) (by linarith)
    · intro h
      have h1 : (x - center) ^ 2 < (fwhm / 2) ^ 2 := by
        rw [← sq_abs (x - center)]
        exact pow_lt_pow_left₀ h (abs_nonneg _) two_ne_zero
      exact mul_neg_of_pos_of_neg hk (by linarith)

/-- C82: the normalised derivative pulse stays between minus one and one and attains them one standard deviation before and after its centre. It is a multiple of the derivative of the Gaussian pulse: odd about the centre. -/
theorem C82_derivative (x fwhm center : ℝ) (hf : 0 < fwhm) :
    |gaussianDerivativePulse x fwhm center| ≤ 1 ∧ gaussianDerivativePulse (center + fwhm / fwhmConstant) fwhm center = 1 ∧ gaussianDerivativePulse (center - fwhm / fwhmConstant) fwhm center = -1 ∧
    gaussianDerivativePulse (2 * center - x) fwhm center = -gaussianDerivativePulse x fwhm center ∧
    gaussianDerivativePulse x fwhm center = Real.exp (1 / 2) * ((x - center) / (fwhm / fwhmConstant)) * gaussianPulse x fwhm center := by
  unfold gaussianDerivativePulse gaussianPulse
  have hs : 0 < fwhm / fwhmConstant := div_pos hf fwhm_pos
  generalize fwhm / fwhmConstant = s at hs
  refine ⟨?_, ?_, ?_, ?_, ?_⟩
  · set u := (x - center) / s with hu
    have e1 : Real.exp (1 / 2 - (x - center) ^ 2 / (2 * s ^ 2)) * (x - center) / s = Real.exp (1 / 2 - u ^ 2 / 2) * u := by
      rw [hu, div_pow]
      rw [show (x - center) ^ 2 / s ^ 2 / 2 = (x - center) ^ 2 / (2 * s ^ 2) by field_simp]
      ring
    rw [e1]
    have h1 : (Real.exp (1 / 2 - u ^ 2 / 2) * u) ^ 2 ≤ 1 := by
      rw [mul_pow, ← Real.exp_nat_mul]
      have h2 : u ^ 2 ≤ Real.exp (u ^ 2 - 1) := by
        have := Real.add_one_le_exp (u ^ 2 - 1)
        linarith
      calc _ ≤ Real.exp (((2 : ℕ) : ℝ) * (1 / 2 - u ^ 2 / 2)) * Real.exp (u ^ 2 - 1) := mul_le_mul_of_nonneg_left h2 (Real.exp_pos _).le
        _ = 1 := by
          rw [← Real.exp_add, Real.exp_eq_one_iff]
          push_cast
          ring
    exact (sq_le_one_iff_abs_le_one _).1 h1
  · rw [add_sub_cancel_left, show 1 / 2 - s ^ 2 / (2 * s ^ 2) = 0 by field_simp; norm_num, Real.exp_zero, one_mul, div_self hs.ne']
  · rw [show center - s - center = -s by ring, show (1 / 2 - (-s) ^ 2 / (2 * s ^ 2) : ℝ) = 0 by field_simp; ring, Real.exp_zero, one_mul, neg_div, div_self hs.ne']
  · rw [show 2 * center - x - center = -(x - center) by ring, neg_sq]
    ring
  · rw [sub_eq_add_neg, Real.exp_add]
    ring

end Nidn
