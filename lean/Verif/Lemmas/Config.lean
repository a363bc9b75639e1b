import Verif.Model.Config
import Verif.Lemmas.Py

namespace Nidn

lemma require_ok {b : Bool} {e : PyErr} {u : Unit} : require b e = .ok u ↔ b = true := by
  unfold require; split <;> simp_all

lemma require_err {b : Bool} {e e' : PyErr} : require b e = .error e' ↔ b = false ∧ e = e' := by
  unfold require; split <;> simp_all

lemma forEach_ok {α : Type} {l : List α} {f : α → Except PyErr Unit} {u : Unit} :
    forEach l f = .ok u ↔ ∀ x ∈ l, f x = .ok () := by
  induction l with
  | nil => simp [forEach]
  | cons x xs ih =>
    simp only [forEach, bind_ok, ih, List.mem_cons, forall_eq_or_imp]
    constructor
    · rintro ⟨_, h, h'⟩; exact ⟨h, h'⟩
    · rintro ⟨h, h'⟩; exact ⟨(), h, h'⟩

lemma forEach_err {α : Type} {l : List α} {f : α → Except PyErr Unit} {e : PyErr} :
    forEach l f = .error e → ∃ x ∈ l, f x = .error e := by
  induction l with
  | nil => simp [forEach]
  | cons x xs ih =>
    intro h
    simp only [forEach, bind_err] at h
    rcases h with h | ⟨_, _, h⟩
    · exact ⟨x, by simp, h⟩
    · obtain ⟨y, hy, h⟩ := ih h; exact ⟨y, by simp [hy], h⟩

lemma get_ok {c : Cfg} {k : String} {v : Val} : c.get k = .ok v ↔ c.lookup k = some v := by
  unfold Cfg.get; cases c.lookup k <;> simp

lemma keys_contains_iff {c : Cfg} {k : String} : c.keys.contains k = true ↔ ∃ v, c.lookup k = some v := by
  unfold Cfg.keys
  induction c with
  | nil => simp
  | cons p ps ih =>
    obtain ⟨a, b⟩ := p
    simp only [List.map_cons, List.contains_cons, Bool.or_eq_true, beq_iff_eq, List.lookup_cons]
    by_cases h : k = a
    · subst h; simp
    · simp only [h, false_or, ih]
      have : (k == a) = false := by simp [h]
      simp [this]

lemma get_err {c : Cfg} {k : String} {e : PyErr} : c.get k = .error e ↔ e = .keyError ∧ c.lookup k = none := by
  unfold Cfg.get; cases c.lookup k <;> simp [eq_comm]

end Nidn
