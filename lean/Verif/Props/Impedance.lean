/-
C188: the impedance of a node.
-/
import Mathlib.Tactic.Ring
import Mathlib.Tactic.Linarith
import Verif.Model.Impedance
import Verif.Lemmas.Py

namespace Nidn

/-- C188 is false: once the simulation has run, `impedance` raises for every node, record, time step, window and request, whatever reshaping, Fourier transform and division it is given (the padding mode it uses is not one of torch's). -/
theorem C188_impedance_false (steps : ℕ) (hs : steps ≠ 0) (reshape : Record → ℕ → Except PyErr (List ℝ)) (fft : List ℝ → Except PyErr (List ℂ)) (divide : List ℂ → List ℂ → Except PyErr (List ℂ))
    (node : ImpedanceNode) (dt : ℝ) (window : Option (ℝ × ℝ)) (bins res : Option ℝ) : ∀ s, impedanceRoutine steps reshape fft divide node dt window bins res ≠ .ok s := by
  intro s h
  unfold impedanceRoutine at h
  rw [if_neg hs] at h
  obtain ⟨r, -, h⟩ := bind_ok.1 h
  obtain ⟨n, -, h⟩ := bind_ok.1 h
  obtain ⟨p, -, h⟩ := bind_ok.1 h
  obtain ⟨v, -, h⟩ := bind_ok.1 h
  obtain ⟨c, -, h⟩ := bind_ok.1 h
  obtain ⟨y, hy, h⟩ := bind_ok.1 h
  unfold bdPad at hy
  rw [if_neg (by decide)] at hy
  cases hy

/-- C188, what does hold: `impedance` returns exactly before the first step, and then two empty lists. Missing: every other case (C188_impedance_false). -/
theorem C188_start_partial (steps : ℕ) (reshape : Record → ℕ → Except PyErr (List ℝ)) (fft : List ℝ → Except PyErr (List ℂ)) (divide : List ℂ → List ℂ → Except PyErr (List ℂ))
    (node : ImpedanceNode) (dt : ℝ) (window : Option (ℝ × ℝ)) (bins res : Option ℝ) (s : List ℝ × List ℂ) :
    impedanceRoutine steps reshape fft divide node dt window bins res = .ok s ↔ steps = 0 ∧ s = ([], []) := by
  constructor
  · intro h
    by_cases hs : steps = 0
    · refine ⟨hs, ?_⟩
      unfold impedanceRoutine at h
      rw [if_pos hs] at h
      exact (Except.ok.inj h).symm
    · exact absurd h (C188_impedance_false steps hs reshape fft divide node dt window bins res s)
  · rintro ⟨rfl, rfl⟩
    unfold impedanceRoutine
    rw [if_pos rfl]

/-- C188: the records are not to blame. For a voltage and a current of one sample per step (read without error and reshaped to themselves), a time step and a number of bins that are not zero, the refusal is the `NotImplementedError` of the padding. -/
theorem C188_reason (steps : ℕ) (hs : steps ≠ 0) (reshape : Record → ℕ → Except PyErr (List ℝ)) (fft : List ℝ → Except PyErr (List ℂ)) (divide : List ℂ → List ℂ → Except PyErr (List ℂ))
    (V I : List ℝ) (hV : V.length = steps) (hI : I.length = steps) (hr : ∀ x : List ℝ, x.length = steps → reshape ([steps], x) steps = .ok x)
    (dt n : ℝ) (hdt : dt ≠ 0) (hn : n ≠ 0) :
    impedanceRoutine steps reshape fft divide (.source (.ok ([steps], V)) (.ok ([steps], I))) dt none (some n) none = .error .notImplementedError := by
  have hL : (steps : ℝ) ≠ 0 := by exact_mod_cast hs
  have hp : ∃ p, computePadding steps dt none (some n) none = .ok p := by
    have hw : (steps : ℝ) / 2 / (dt * steps) ≠ 0 := div_ne_zero (div_ne_zero hL two_ne_zero) (mul_ne_zero hdt hL)
    refine ⟨(⌈n / (((steps : ℝ) / 2 / (dt * steps) - 0) * dt)⌉ - (steps : ℤ), (steps : ℝ) * dt), ?_⟩
    unfold computePadding freqWindow fftBins
    simp only [pyDiv]
    rw [if_neg (mul_ne_zero hdt hL), ok_bind]
    show (Except.ok _ : Except PyErr (ℝ × ℝ)) >>= _ = _
    rw [ok_bind]
    rw [if_neg (fun h => hn h.1), ok_bind]
    simp only []
    rw [if_neg (mul_ne_zero hL hdt), ok_bind, if_neg hdt, ok_bind, if_neg hn, ok_bind, if_neg (mul_ne_zero (by rw [sub_zero]; exact hw) hdt), ok_bind]
    rfl
  obtain ⟨p, hp⟩ := hp
  unfold impedanceRoutine
  rw [if_neg hs]
  show (Except.ok _ : Except PyErr (Record × Record)) >>= _ = _
  rw [ok_bind]
  show (Except.ok steps : Except PyErr ℕ) >>= _ = _
  rw [ok_bind, hp, ok_bind, hr V hV, ok_bind, hr I hI, ok_bind]
  unfold bdPad
  rw [if_neg (by decide)]
  rfl

example : impedanceRoutine 2 (fun r n => if r.2.length = n then .ok r.2 else .error .runtimeError) (fun _ => .ok []) (fun a _ => .ok a)
    (.source (.ok ([2], [1, 2])) (.ok ([2], [3, 5]))) 1 none (some 4) none = .error .notImplementedError :=
  C188_reason 2 (by decide) _ _ _ [1, 2] [3, 5] rfl rfl (fun x hx => by simp [hx]) 1 4 (by norm_num) (by norm_num)

end Nidn
