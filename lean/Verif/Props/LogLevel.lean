/-
C194: which messages the package shows.
-/
import Verif.Model.LogLevel

namespace Nidn

/-- Spec: the seven names of the documentation and what they rank as. -/
def DocumentedLevel (s : String) (n : ℕ) : Prop :=
  s = "TRACE" ∧ n = 5 ∨ s = "DEBUG" ∧ n = 10 ∨ s = "INFO" ∧ n = 20 ∨ s = "SUCCESS" ∧ n = 25 ∨ s = "WARNING" ∧ n = 30 ∨ s = "ERROR" ∧ n = 40 ∨ s = "CRITICAL" ∧ n = 50

/-- Spec: a module of the package, the package itself included. -/
def OfPackage (sender : List Char) : Prop := sender = "nidn".toList ∨ ∃ rest, sender = "nidn.".toList ++ rest

lemma nidnFilter_iff (sender : List Char) : nidnFilter sender = true ↔ OfPackage sender := by
  unfold nidnFilter OfPackage
  rw [decide_eq_true_iff]
  constructor
  · intro h
    rcases sender with _ | ⟨a, _ | ⟨b, _ | ⟨c, _ | ⟨d, _ | ⟨e, rest⟩⟩⟩⟩⟩ <;> simp_all
  · rintro (rfl | ⟨rest, rfl⟩) <;> simp

lemma lookup_level (s : String) (n : ℕ) (h : DocumentedLevel s n) : logLevels.lookup s.toList = some n := by
  rcases h with ⟨rfl, rfl⟩ | ⟨rfl, rfl⟩ | ⟨rfl, rfl⟩ | ⟨rfl, rfl⟩ | ⟨rfl, rfl⟩ | ⟨rfl, rfl⟩ | ⟨rfl, rfl⟩ <;> decide

lemma lookup_documented (l : List Char) (n : ℕ) (h : logLevels.lookup l = some n) : ∃ s : String, s.toList = l ∧ DocumentedLevel s n := by
  simp only [logLevels, List.lookup] at h
  repeat' split at h
  all_goals first
    | (simp only [Option.some.injEq] at h; subst h; rename_i hb; rw [beq_iff_eq] at hb; subst hb
       exact ⟨_, rfl, by simp [DocumentedLevel]⟩)
    | simp at h

open Classical in
/-- C194: a level given by a documented name, in any mix of cases, is accepted whatever was set up before; afterwards a message is shown exactly once if it comes from the package and ranks at least as high, and not at all otherwise. -/
theorem C194_set_partial (upper : List Char → List Char) (name : List Char) (s : String) (n : ℕ) (hs : DocumentedLevel s n) (hu : upper name = s.toList) (sinks : List LogSink) :
    (setLogLevel upper name sinks).2 = .ok () ∧ ∀ m, timesShown (setLogLevel upper name sinks).1 m = if OfPackage m.sender ∧ n ≤ m.level then 1 else 0 := by
  have h : setLogLevel upper name sinks = ([⟨n, nidnFilter⟩], .ok ()) := by
    simp [setLogLevel, removeSinks, addSink, hu, lookup_level s n hs]
  rw [h]
  refine ⟨rfl, fun m => ?_⟩
  by_cases h1 : n ≤ m.level <;> by_cases h2 : OfPackage m.sender
  · simp [timesShown, h1, h2, (nidnFilter_iff _).2 h2]
  · have : nidnFilter m.sender = false := by rw [← Bool.not_eq_true, nidnFilter_iff]; exact h2
    simp [timesShown, h1, h2, this]
  · simp [timesShown, h1]
  · simp [timesShown, h1]

/-- C194: any other name is refused, and from then on nothing is shown, whatever the level was before and whoever sends the message. -/
theorem C194_refused_false (upper : List Char → List Char) (name : List Char) (hn : ∀ s n, DocumentedLevel s n → upper name ≠ s.toList) (sinks : List LogSink) :
    (setLogLevel upper name sinks).2 = .error .valueError ∧ ∀ m, timesShown (setLogLevel upper name sinks).1 m = 0 := by
  have hl : logLevels.lookup (upper name) = none := by
    by_contra h
    obtain ⟨n, hn'⟩ := Option.ne_none_iff_exists'.1 h
    obtain ⟨s, h1, h2⟩ := lookup_documented _ n hn'
    exact hn s n h2 h1.symm
  have h : setLogLevel upper name sinks = ([], .error .valueError) := by
    simp [setLogLevel, removeSinks, addSink, hl]
  rw [h]
  exact ⟨rfl, fun m => rfl⟩

/-- C194: only the last call counts. -/
theorem C194_last (upper : List Char → List Char) (first last : List Char) (sinks : List LogSink) : setLogLevel upper last (setLogLevel upper first sinks).1 = setLogLevel upper last sinks := rfl

open Classical in
/-- C194: after `import nidn` the warnings and errors of the package are shown once each, and nothing else is. -/
theorem C194_import (upper : List Char → List Char) (hu : upper "WARNING".toList = "WARNING".toList) (sinks : List LogSink) (m : LogMessage) :
    timesShown (importSinks upper sinks) m = if OfPackage m.sender ∧ 30 ≤ m.level then 1 else 0 :=
  (C194_set_partial upper _ "WARNING" 30 (by simp [DocumentedLevel]) hu _).2 m

/-- C194: so a program's own messages, which were shown before, are lost by importing the package, however severe. -/
theorem C194_foreign_false (upper : List Char → List Char) (hu : upper "WARNING".toList = "WARNING".toList) (level : ℕ) :
    ∃ (sinks : List LogSink) (m : LogMessage), m.level = level ∧ timesShown sinks m = 1 ∧ timesShown (importSinks upper sinks) m = 0 := by
  refine ⟨[⟨0, fun _ => true⟩], ⟨level, "__main__".toList⟩, rfl, by simp [timesShown], ?_⟩
  rw [C194_import upper hu, if_neg]
  rintro ⟨h | ⟨rest, h⟩, -⟩ <;> simp at h

/-- a level in small letters, as str.upper treats it -/
example : (setLogLevel (List.map Char.toUpper) "debug".toList []).2 = .ok () ∧ timesShown (setLogLevel (List.map Char.toUpper) "debug".toList []).1 ⟨10, "nidn.utils.set_log_level".toList⟩ = 1 ∧
    timesShown (setLogLevel (List.map Char.toUpper) "debug".toList []).1 ⟨5, "nidn.utils.set_log_level".toList⟩ = 0 ∧ timesShown (setLogLevel (List.map Char.toUpper) "debug".toList []).1 ⟨50, "nidnext".toList⟩ = 0 := by
  decide

/-- the abbreviation "warn" is refused and turns every message off -/
example : (setLogLevel (List.map Char.toUpper) "warn".toList (importSinks (List.map Char.toUpper) [])).2 = .error .valueError ∧
    timesShown (importSinks (List.map Char.toUpper) []) ⟨40, "nidn".toList⟩ = 1 ∧
    timesShown (setLogLevel (List.map Char.toUpper) "warn".toList (importSinks (List.map Char.toUpper) [])).1 ⟨40, "nidn".toList⟩ = 0 := by
  decide

example : ∀ s n, DocumentedLevel s n → (List.map Char.toUpper) "warn".toList ≠ s.toList := by
  rintro s n (⟨rfl, -⟩ | ⟨rfl, -⟩ | ⟨rfl, -⟩ | ⟨rfl, -⟩ | ⟨rfl, -⟩ | ⟨rfl, -⟩ | ⟨rfl, -⟩) <;> decide

end Nidn
