/-
Property C10: exception classes of config validation.
-/
import Verif.Props.Config

namespace Nidn

/-! ## C10 exception classes -/

/-- All errors of `x` satisfy `S`. -/
def ErrIn {α : Type} (S : PyErr → Prop) (x : Except PyErr α) : Prop := ∀ e, x = .error e → S e

lemma ErrIn.bind {α β : Type} {S : PyErr → Prop} {x : Except PyErr α} {f : α → Except PyErr β}
    (hx : ErrIn S x) (hf : ∀ a, x = .ok a → ErrIn S (f a)) : ErrIn S (x >>= f) := by
  intro e h
  rcases bind_err.1 h with h | ⟨a, ha, h⟩
  · exact hx e h
  · exact hf a ha e h

lemma ErrIn.require {S : PyErr → Prop} {b : Bool} {e : PyErr} (h : S e) : ErrIn S (require b e) := by
  intro e' h'; rw [← (require_err.1 h').2]; exact h

lemma ErrIn.forEach {α : Type} {S : PyErr → Prop} {l : List α} {f : α → Except PyErr Unit}
    (h : ∀ x ∈ l, ErrIn S (f x)) : ErrIn S (forEach l f) := by
  intro e he; obtain ⟨x, hx, hxe⟩ := forEach_err he; exact h x hx e hxe

lemma ErrIn.ok {α : Type} {S : PyErr → Prop} {a : α} : ErrIn S (.ok a : Except PyErr α) := by
  intro e h; cases h

lemma ErrIn.pure {α : Type} {S : PyErr → Prop} {a : α} : ErrIn S (pure a : Except PyErr α) := ErrIn.ok

lemma ErrIn.get {S : PyErr → Prop} {c : Cfg} {k : String} (h : S .keyError) : ErrIn S (c.get k) := by
  intro e he; rw [(get_err.1 he).1]; exact h

lemma ErrIn.num {S : PyErr → Prop} {v : Val} (h : S .typeError) : ErrIn S v.num := by
  intro e he; rw [num_err he]; exact h

lemma ErrIn.len {S : PyErr → Prop} {v : Val} (h : S .typeError) : ErrIn S v.len := by
  intro e he; cases v <;> simp_all [Val.len]

lemma ErrIn.all {S : PyErr → Prop} {v : Val} (h : S .typeError) : ErrIn S v.all := by
  intro e he; cases v <;> simp_all [Val.all]

lemma ErrIn.lt {S : PyErr → Prop} {v w : Val} (h : S .typeError) : ErrIn S (Val.lt v w) := by
  intro e he
  cases v <;> cases w <;> simp_all [Val.lt, Val.num, Bind.bind, Except.bind, Pure.pure, Except.pure]

lemma ErrIn.index {S : PyErr → Prop} {v : Val} {i : ℕ} (h : S .typeError) (h' : S .indexError) : ErrIn S (v.index i) := by
  intro e he
  unfold Val.index at he
  split at he
  · split at he <;> simp_all
  · split at he <;> simp_all
  · simp_all

lemma ErrIn.multipleOf {S : PyErr → Prop} {c : Cfg} {a b : String} (hk : S .keyError) (ht : S .typeError) :
    ErrIn S (multipleOf c a b) := by
  unfold Nidn.multipleOf
  refine (ErrIn.get hk).bind fun v _ => (ErrIn.get hk).bind fun w _ => ?_
  intro e he
  cases v <;> cases w <;> simp only [Pure.pure, Except.pure, reduceCtorEq, Except.error.injEq] at he <;> exact he ▸ ht

/-- The part of the range check whose errors are never arithmetic: everything except reading the wavelengths, dividing by
the first one and subscripting the lattice. -/
lemma ErrIn.checkValueRanges {S : PyErr → Prop} {c : Cfg} (hk : S .keyError) (ht : S .typeError) (hr : S .runtimeError)
    (hw : ErrIn S (wlOrdered c)) (hs : ErrIn S (cfgScaling c)) (hl : ∀ i < 2, ∀ j < 2, ErrIn S (lGrid c i j)) :
    ErrIn S (checkValueRanges c) := by
  have le : ∀ a b, ErrIn S (leKeys c a b) := fun a b =>
    (ErrIn.get hk).bind fun _ _ => (ErrIn.num ht).bind fun _ _ => (ErrIn.get hk).bind fun _ _ =>
      (ErrIn.num ht).bind fun _ _ => ErrIn.pure
  unfold Nidn.checkValueRanges
  refine (le _ _).bind fun _ _ => (ErrIn.require hr).bind fun _ _ => ?_
  refine (le _ _).bind fun _ _ => (ErrIn.require hr).bind fun _ _ => ?_
  refine hw.bind fun _ _ => (ErrIn.require hr).bind fun _ _ => ?_
  refine hs.bind fun _ _ => (ErrIn.get hk).bind fun _ _ => (ErrIn.num ht).bind fun _ _ => ?_
  refine (ErrIn.get hk).bind fun _ _ => (ErrIn.num ht).bind fun _ _ => (ErrIn.require hr).bind fun _ _ => ?_
  refine (ErrIn.forEach fun k _ => (ErrIn.get hk).bind fun _ _ => (ErrIn.num ht).bind fun _ _ => ErrIn.require hr).bind
    fun _ _ => ?_
  refine (ErrIn.multipleOf hk ht).bind fun _ _ => (ErrIn.require hr).bind fun _ _ => ?_
  refine (ErrIn.multipleOf hk ht).bind fun _ _ => (ErrIn.require hr).bind fun _ _ => ?_
  refine (ErrIn.get hk).bind fun _ _ => (ErrIn.require hr).bind fun _ _ => ?_
  refine (hl 1 (by omega) 0 (by omega)).bind fun _ _ => (hl 1 (by omega) 1 (by omega)).bind fun _ _ =>
    (ErrIn.lt ht).bind fun _ _ => (ErrIn.require hr).bind fun _ _ => ?_
  refine (hl 0 (by omega) 1 (by omega)).bind fun _ _ => (hl 0 (by omega) 0 (by omega)).bind fun _ _ =>
    (ErrIn.lt ht).bind fun _ _ => (ErrIn.require hr).bind fun _ _ => ?_
  refine (ErrIn.forEach fun k _ => ?_).bind fun _ _ => ?_
  · unfold checkAllPositive
    split
    · exact (ErrIn.get hk).bind fun _ _ => (ErrIn.all ht).bind fun _ _ => ErrIn.require hr
    · exact ErrIn.ok
  refine (ErrIn.forEach fun k _ => (ErrIn.get hk).bind fun _ _ => (ErrIn.all ht).bind fun _ _ => ErrIn.require hr).bind
    fun _ _ => ?_
  refine ((ErrIn.get hk).bind fun _ _ => (ErrIn.len ht).bind fun _ _ => (ErrIn.get hk).bind fun _ _ =>
    (ErrIn.num ht).bind fun _ _ => ErrIn.pure).bind fun _ _ => (ErrIn.require hr).bind fun _ _ => ?_
  refine (ErrIn.get hk).bind fun _ _ => (ErrIn.require hr).bind fun _ _ => ?_
  refine (ErrIn.get hk).bind fun _ _ => (ErrIn.len ht).bind fun _ _ => (ErrIn.require hr).bind fun _ _ => ?_
  refine (ErrIn.get hk).bind fun _ _ => (ErrIn.require hr).bind fun _ _ => ?_
  exact (ErrIn.get hk).bind fun _ _ => ErrIn.require hr

lemma ErrIn.pyDiv {S : PyErr → Prop} {a b : ℚ} (h : b = 0 → S .zeroDivisionError) : ErrIn S (pyDiv a b) := by
  intro e he; unfold Nidn.pyDiv at he; split at he
  · rename_i hb; cases he; exact h hb
  · cases he

lemma ErrIn.validate {S : PyErr → Prop} {c : Cfg} (hk : S .keyError) (ht : S .typeError) (hr : S .runtimeError)
    (hw : ErrIn S (wlOrdered c)) (hs : ErrIn S (cfgScaling c)) (hl : ∀ i < 2, ∀ j < 2, ErrIn S (lGrid c i j)) :
    ErrIn S (validateConfig c) := by
  unfold Nidn.validateConfig
  refine ErrIn.bind ?_ fun _ _ => ErrIn.bind ?_ fun _ _ => ErrIn.bind ?_ fun _ hrg => ?_
  · exact (ErrIn.forEach fun _ _ => ErrIn.require hk).bind fun _ _ => ErrIn.forEach fun _ _ => ErrIn.require hk
  · have : ∀ (p : Val → Bool) k, ErrIn S (checkType c p k) := fun p k =>
      (ErrIn.get hk).bind fun _ _ => ErrIn.require ht
    refine (ErrIn.forEach fun _ _ => this _ _).bind fun _ _ => (ErrIn.forEach fun _ _ => this _ _).bind fun _ _ =>
      (ErrIn.forEach fun _ _ => this _ _).bind fun _ _ => (ErrIn.forEach fun _ _ => this _ _).bind fun _ _ =>
      (ErrIn.forEach fun _ _ => this _ _)
  · exact ErrIn.checkValueRanges hk ht hr hw hs hl
  · -- after a successful range check the scaling is positive
    have hpos : ∀ s, cfgScaling c = .ok s → s ≠ 0 := by
      intro s hs
      simp only [Nidn.checkValueRanges, bind_ok, forEach_ok] at hrg
      obtain ⟨_, _, _, _, _, _, _, _, _, _, _, _, _, _, _, _, _, _, _, _, _, _, _, _, _, hpos, _⟩ := hrg
      have := hpos "FDTD_min_gridpoints_per_unit_magnitude" (by decide)
      simp only [checkPositive, bind_ok, get_ok, require_ok, decide_eq_true_eq] at this
      obtain ⟨v, hv, x, hx, hx'⟩ := this
      simp only [cfgScaling, bind_ok, get_ok, Pure.pure, Except.pure, Except.ok.injEq] at hs
      obtain ⟨_, _, _, _, _, _, r, _, w, hw, y, hy, rfl⟩ := hs
      rw [hv] at hw; cases hw
      rw [hx] at hy; cases hy
      exact (lt_of_lt_of_le hx' (le_max_right _ _)).ne'
    refine (ErrIn.get hk).bind fun s _ => ?_
    split
    · unfold checkGridScale
      refine hs.bind fun sc hsc => (ErrIn.get hk).bind fun _ _ => (ErrIn.num ht).bind fun _ _ =>
        (ErrIn.get hk).bind fun _ _ => (ErrIn.num ht).bind fun _ _ => (ErrIn.get hk).bind fun v _ => ?_
      cases v with
      | list l =>
        refine ErrIn.forEach fun t _ => (ErrIn.num ht).bind fun _ _ => ?_
        exact (ErrIn.pyDiv fun h0 => absurd h0 (hpos sc hsc)).bind fun _ _ => ErrIn.pure
      | _ => intro e he; cases he; exact ht
    · exact ErrIn.pure

/-- C10 (the part about training): validation of any config whatsoever never raises ValueError, the class that `run_training`
swallows; its errors are KeyError, TypeError, RuntimeError, ZeroDivisionError or IndexError. -/
theorem C10_never_value_error_partial (c : Cfg) (e : PyErr) (h : validateConfig c = .error e) :
    e ∈ [PyErr.keyError, .typeError, .runtimeError, .zeroDivisionError, .indexError] := by
  have idx : ∀ {v : Val} {i : ℕ}, ErrIn (· ∈ [PyErr.keyError, .typeError, .runtimeError, .zeroDivisionError, .indexError])
      (v.index i) := ErrIn.index (by decide) (by decide)
  refine ErrIn.validate (S := (· ∈ [PyErr.keyError, .typeError, .runtimeError, .zeroDivisionError, .indexError]))
    (by decide) (by decide) (by decide) ?_ ?_ ?_ e h
  · exact (ErrIn.get (by decide)).bind fun _ _ => idx.bind fun _ _ => idx.bind fun _ _ => ErrIn.lt (by decide)
  · exact (ErrIn.get (by decide)).bind fun _ _ => idx.bind fun _ _ => (ErrIn.num (by decide)).bind fun _ _ =>
      (ErrIn.pyDiv fun _ => by decide).bind fun _ _ => (ErrIn.get (by decide)).bind fun _ _ =>
      (ErrIn.num (by decide)).bind fun _ _ => ErrIn.pure
  · intro i _ j _
    exact (ErrIn.get (by decide)).bind fun _ _ => idx.bind fun _ _ => idx

/-- C10 (missing: exactly the two degenerate inputs of `C10_documented_classes_false`): if the wavelength range has at least two
entries of which the first is a non-zero number, and the lattice is a list of at least two rows of at least two entries,
then validation succeeds or raises KeyError, TypeError or RuntimeError. -/
theorem C10_documented_classes_partial (c : Cfg) (v w a b d e : Val) (x : ℚ) (r r1 r2 r3 : List Val)
    (hwl : c.lookup "physical_wavelength_range" = some (.list (v :: w :: r))) (hx : Denotes v x) (hx0 : x ≠ 0)
    (hlg : c.lookup "TRCWA_L_grid" = some (.list (.list (a :: b :: r1) :: .list (d :: e :: r2) :: r3))) :
    validateConfig c = .ok () ∨ ∃ e ∈ [PyErr.keyError, .typeError, .runtimeError], validateConfig c = .error e := by
  cases hv : validateConfig c with
  | ok u => left; rfl
  | error err =>
    right
    refine ⟨err, ?_, rfl⟩
    have hg := get_ok.2 hwl
    have hg' := get_ok.2 hlg
    refine ErrIn.validate (S := (· ∈ [PyErr.keyError, .typeError, .runtimeError]))
      (by decide) (by decide) (by decide) ?_ ?_ ?_ err hv
    · unfold wlOrdered
      simp only [hg, Bind.bind, Except.bind, Val.index, List.getElem?_cons_zero, List.getElem?_cons_succ]
      exact ErrIn.lt (by decide)
    · unfold cfgScaling
      simp only [hg, Bind.bind, Except.bind, Val.index, List.getElem?_cons_zero, num_ok.2 hx]
      refine ErrIn.bind (x := pyDiv (1 / 1000000 : ℚ) (x * FDTD_GRID_SCALE)) ?_ fun _ _ => ?_
      · refine ErrIn.pyDiv fun h0 => ?_
        rcases mul_eq_zero.1 h0 with h0 | h0
        · exact absurd h0 hx0
        · norm_num [FDTD_GRID_SCALE] at h0
      · exact (ErrIn.get (by decide)).bind fun _ _ => (ErrIn.num (by decide)).bind fun _ _ => ErrIn.pure
    · intro i hi j hj
      unfold lGrid
      simp only [hg', Bind.bind, Except.bind]
      interval_cases i <;> interval_cases j <;>
        simp only [Val.index, List.getElem?_cons_zero, List.getElem?_cons_succ] <;> exact ErrIn.ok

example : ∃ r, defaultConfig.lookup "physical_wavelength_range" =
      some (.list (.float (1 / 1000000) :: .float (30 / 1000000) :: r)) ∧
    Denotes (.float (1 / 1000000)) (1 / 1000000) ∧ (1 / 1000000 : ℚ) ≠ 0 ∧
    defaultConfig.lookup "TRCWA_L_grid" =
      some (.list (.list (.float (1 / 10) :: .float 0 :: []) :: .list (.float 0 :: .float (1 / 10) :: []) :: [])) :=
  ⟨[], by rfl, .float _, by norm_num, by rfl⟩

/-- C10 is false of the code: with all keys present and every setting of its container type, a lower wavelength of zero raises
ZeroDivisionError and a lattice with a single row raises IndexError. -/
theorem C10_documented_classes_false :
    (∃ c, checkForKeys c = .ok () ∧ checkEntryTypes c = .ok () ∧ validateConfig c = .error .zeroDivisionError) ∧
    (∃ c, checkForKeys c = .ok () ∧ checkEntryTypes c = .ok () ∧ validateConfig c = .error .indexError) :=
  ⟨⟨defaultConfig.set "physical_wavelength_range" (.list [.float 0, .float 1]), by decide +kernel, by decide +kernel,
      by decide +kernel⟩,
   ⟨defaultConfig.set "TRCWA_L_grid" (.list [.list [.float 1, .float 0]]), by decide +kernel, by decide +kernel,
      by decide +kernel⟩⟩

end Nidn
