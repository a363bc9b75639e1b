/-
C197: the type of a run decides how its model becomes a permittivity grid.
-/
import Verif.Model.EpsDispatch
import Verif.Props.Config

namespace Nidn

variable {G W : Type}

/-- C197. For every accepted config exactly one of the two conversions is used, the one its `type` names: its grid is returned, with the material weights for a classification and without for a regression, and it fails exactly
when that conversion fails, with the same error. -/
theorem C197_dispatch (c : Cfg) (h : validateConfig c = .ok ()) (classify : Except PyErr (G × W)) (regress : Except PyErr G) :
    (c.lookup "type" = some (.str "classification") ∧ (∀ g w, classify = .ok (g, w) → modelToEpsGrid classify regress c = .ok (some (g, some w))) ∧
        ∀ e, classify = .error e → modelToEpsGrid classify regress c = .error e) ∨
      (c.lookup "type" = some (.str "regression") ∧ (∀ g, regress = .ok g → modelToEpsGrid classify regress c = .ok (some (g, none))) ∧
        ∀ e, regress = .error e → modelToEpsGrid classify regress c = .error e) := by
  obtain ⟨t, ht, hty⟩ := (C07_ranges c h).type
  simp only [List.mem_cons, List.not_mem_nil, or_false] at ht
  rcases ht with rfl | rfl
  · refine Or.inl ⟨hty, fun g w hg => ?_, fun e he => ?_⟩
    · simp [modelToEpsGrid, hty, Val.eqStr, hg, Except.map]
    · simp [modelToEpsGrid, hty, Val.eqStr, he, Except.map]
  · refine Or.inr ⟨hty, fun g hg => ?_, fun e he => ?_⟩
    · simp [modelToEpsGrid, hty, Val.eqStr, hg, Except.map]
    · simp [modelToEpsGrid, hty, Val.eqStr, he, Except.map]

/-- C197, for every config, accepted or not: if a grid is returned, it comes with material weights exactly if the type is "classification". -/
theorem C197_weights (c : Cfg) (classify : Except PyErr (G × W)) (regress : Except PyErr G) (g : G) (w : Option W) (h : modelToEpsGrid classify regress c = .ok (some (g, w))) :
    (w.isSome = true ↔ c.lookup "type" = some (.str "classification")) ∧ (w = none ↔ c.lookup "type" = some (.str "regression")) := by
  unfold modelToEpsGrid at h
  cases hl : c.lookup "type" with
  | none => simp [hl] at h
  | some v =>
    cases v with
    | str t =>
      by_cases h1 : t = "classification"
      · subst h1
        cases classify with
        | error e => simp [hl, Val.eqStr, Except.map] at h
        | ok r =>
          simp [hl, Val.eqStr, Except.map] at h
          simp [← h.2]
      · by_cases h2 : t = "regression"
        · subst h2
          cases regress with
          | error e => simp [hl, Val.eqStr, Except.map] at h
          | ok r =>
            simp [hl, Val.eqStr, Except.map] at h
            simp [← h.2]
        · simp [hl, Val.eqStr, h1, h2] at h
    | _ => simp [hl, Val.eqStr] at h

/-- C197 is false of configs that were not validated, which the plots never do: for any other type, or none, no conversion is tried, nothing is returned, and the plots raise a TypeError. -/
theorem C197_unknown_false (c : Cfg) (h1 : c.lookup "type" ≠ some (.str "classification")) (h2 : c.lookup "type" ≠ some (.str "regression"))
    (classify : Except PyErr (G × W)) (regress : Except PyErr G) :
    modelToEpsGrid classify regress c = .ok none ∧ plottedGrid classify regress c = .error .typeError := by
  have key : modelToEpsGrid classify regress c = .ok none := by
    unfold modelToEpsGrid
    cases hl : c.lookup "type" with
    | none => simp
    | some v =>
      cases v with
      | str t =>
        have e1 : t ≠ "classification" := fun e => h1 (by rw [hl, e])
        have e2 : t ≠ "regression" := fun e => h2 (by rw [hl, e])
        simp [Val.eqStr, e1, e2]
      | _ => simp [Val.eqStr]
  refine ⟨key, ?_⟩
  rw [plottedGrid, key]
  rfl

/-- the default config is accepted and takes the regression; the failing classification does not matter -/
example : modelToEpsGrid (.error .runtimeError : Except PyErr (ℕ × ℕ)) (.ok 7) defaultConfig = .ok (some (7, none)) := by
  rcases C197_dispatch defaultConfig default_config_accepted (.error .runtimeError : Except PyErr (ℕ × ℕ)) (.ok 7) with ⟨h, -⟩ | ⟨-, h, -⟩
  · exact absurd h (by
      rw [show defaultConfig.lookup "type" = some (.str "regression") from rfl]
      simp)
  · exact h 7 rfl

/-- a misspelt type -/
example : plottedGrid (.ok (1, 2) : Except PyErr (ℕ × ℕ)) (.ok 7) (defaultConfig.set "type" (.str "Regression")) = .error .typeError :=
  (C197_unknown_false _ (by rw [show (defaultConfig.set "type" (.str "Regression")).lookup "type" = some (.str "Regression") from rfl]; simp)
    (by rw [show (defaultConfig.set "type" (.str "Regression")).lookup "type" = some (.str "Regression") from rfl]; simp) _ _).2

end Nidn
