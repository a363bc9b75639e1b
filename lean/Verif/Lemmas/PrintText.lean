/-
Lemmas on the texts of Model/FdtdPrint.lean: replacing in texts, decimal numbers, slices.
-/
import Mathlib.Data.List.Basic
import Verif.Model.FdtdPrint

namespace Nidn

lemma pyReplace_nil (o w : Str) : pyReplace o w [] = [] := by rw [pyReplace]

lemma pyReplace_miss {o w : Str} {c : Char} {cs : Str} (h : o.isPrefixOf (c :: cs) = false) : pyReplace o w (c :: cs) = c :: pyReplace o w cs := by
  rw [pyReplace, if_neg (by rw [h]; simp)]

lemma pyReplace_skip {a : Char} {o w : Str} : ∀ {u : Str} (v : Str), a ∉ u → pyReplace (a :: o) w (u ++ v) = u ++ pyReplace (a :: o) w v
  | [], _, _ => rfl
  | c :: cs, v, h => by
    rw [List.cons_append, pyReplace_miss, pyReplace_skip v (fun hh => h (List.mem_cons_of_mem _ hh)), List.cons_append]
    rw [List.isPrefixOf]
    have : (a == c) = false := by
      rw [beq_eq_false_iff_ne]
      exact fun hh => h (hh ▸ List.mem_cons_self)
    rw [this, Bool.false_and]

lemma pyReplace_none {a : Char} {o w u : Str} (h : a ∉ u) : pyReplace (a :: o) w u = u := by
  have := pyReplace_skip (o := o) (w := w) [] h
  rwa [List.append_nil, pyReplace_nil, List.append_nil] at this

lemma pyReplace_hit (a : Char) (o w v : Str) : pyReplace (a :: o) w (a :: o ++ v) = w ++ pyReplace (a :: o) w v := by
  rw [List.cons_append, pyReplace, if_pos]
  · rw [List.length_cons, Nat.add_sub_cancel, List.drop_left]
  · refine ⟨by simp, ?_⟩
    rw [List.isPrefixOf_iff_prefix, ← List.cons_append]
    exact List.prefix_append _ _

/-- the characters of a decimal number -/
lemma intStr_chars {i : ℤ} {c : Char} (h : c ∈ intStr i) : c = '-' ∨ c.isDigit = true := by
  unfold intStr at h
  split_ifs at h
  · rcases List.mem_cons.1 h with h | h
    · exact .inl h
    · exact .inr (Nat.isDigit_of_mem_toDigits (by omega) (by omega) h)
  · exact .inr (Nat.isDigit_of_mem_toDigits (by omega) (by omega) h)

lemma intStr_not_mem (i : ℤ) {c : Char} (h1 : c ≠ '-') (h2 : c.isDigit = false) : c ∉ intStr i := fun h => by
  rcases intStr_chars h with h | h
  · exact h1 h
  · rw [h2] at h
    cases h

lemma intStr_ne_nil (i : ℤ) : intStr i ≠ [] := by
  unfold intStr
  split_ifs
  · simp
  · exact Nat.toDigits_ne_nil

lemma toDigits_value (k : ℕ) : Nat.ofDigitChars 10 (Nat.toDigits 10 k) 0 = k := by simp

/-- different numbers have different texts -/
lemma intStr_injective : Function.Injective intStr := by
  intro i j h
  have hd : ∀ k : ℕ, '-' ∉ Nat.toDigits 10 k := fun k hh => by
    have := Nat.isDigit_of_mem_toDigits (by omega) (by omega) hh
    revert this
    decide
  have hv : ∀ a b : ℕ, Nat.toDigits 10 a = Nat.toDigits 10 b → a = b := fun a b hab => by
    rw [← toDigits_value a, hab, toDigits_value]
  unfold intStr at h
  split_ifs at h with h1 h2 h2
  · have := hv _ _ (List.cons.inj h).2
    omega
  · exact absurd (h ▸ List.mem_cons_self) (hd _)
  · exact absurd (h.symm ▸ List.mem_cons_self) (hd _)
  · have := hv _ _ h
    omega

/-- what is left of an optional number when `None` is deleted -/
def boundStr : Option ℤ → Str
  | none => []
  | some i => intStr i

lemma boundStr_not_mem (o : Option ℤ) {c : Char} (h1 : c ≠ '-') (h2 : c.isDigit = false) : c ∉ boundStr o := by
  cases o with
  | none => simp [boundStr]
  | some i => exact intStr_not_mem i h1 h2

lemma optStr_not_mem (o : Option ℤ) {c : Char} (h1 : c ≠ '-') (h2 : c.isDigit = false) (h3 : c ∉ noneStr) : c ∉ optStr o := by
  cases o with
  | none => exact h3
  | some i => exact intStr_not_mem i h1 h2

lemma replace_optStr (o : Option ℤ) (v : Str) : pyReplace noneStr [] (optStr o ++ v) = boundStr o ++ pyReplace noneStr [] v := by
  cases o with
  | none => exact pyReplace_hit _ _ _ _
  | some i => exact pyReplace_skip v (intStr_not_mem i (by decide) (by decide))

/-- a slice without `slice(`, `)` and `None`, with colons -/
lemma cleanText_slice (s : PySlice ℤ) : cleanText (sliceStr s) = boundStr s.start ++ (':' :: (boundStr s.stop ++ (':' :: boundStr s.step))) := by
  have hs : ∀ (o : Option ℤ), 's' ∉ optStr o := fun o => optStr_not_mem o (by decide) (by decide) (by decide)
  have hp : ∀ (o : Option ℤ), ')' ∉ optStr o := fun o => optStr_not_mem o (by decide) (by decide) (by decide)
  have hc : ∀ (o : Option ℤ), ',' ∉ optStr o := fun o => optStr_not_mem o (by decide) (by decide) (by decide)
  have e1 : pyReplace sliceOpen [] (sliceStr s) = optStr s.start ++ ([',', ' '] ++ (optStr s.stop ++ ([',', ' '] ++ (optStr s.step ++ [')'])))) := by
    unfold sliceStr
    have := pyReplace_hit 's' ['l', 'i', 'c', 'e', '('] [] (optStr s.start ++ ([',', ' '] ++ (optStr s.stop ++ ([',', ' '] ++ (optStr s.step ++ [')'])))))
    refine this.trans ?_
    rw [List.nil_append]
    refine pyReplace_none ?_
    simp only [List.mem_append, not_or]
    exact ⟨hs _, by decide, hs _, by decide, hs _, by decide⟩
  have e2 : pyReplace [')'] [] (optStr s.start ++ ([',', ' '] ++ (optStr s.stop ++ ([',', ' '] ++ (optStr s.step ++ [')']))))) =
      optStr s.start ++ ([',', ' '] ++ (optStr s.stop ++ ([',', ' '] ++ optStr s.step))) := by
    rw [pyReplace_skip _ (hp _), pyReplace_skip _ (by decide), pyReplace_skip _ (hp _), pyReplace_skip _ (by decide), pyReplace_skip _ (hp _)]
    have := pyReplace_hit ')' [] [] []
    rw [List.append_nil] at this
    rw [this, pyReplace_nil, List.append_nil, List.append_nil]
  have e3 : pyReplace [',', ' '] [':'] (optStr s.start ++ ([',', ' '] ++ (optStr s.stop ++ ([',', ' '] ++ optStr s.step)))) =
      optStr s.start ++ ([':'] ++ (optStr s.stop ++ ([':'] ++ optStr s.step))) := by
    rw [pyReplace_skip _ (hc _), pyReplace_hit, pyReplace_skip _ (hc _), pyReplace_hit, pyReplace_none (hc _)]
  unfold cleanText
  rw [e1, e2, e3, replace_optStr]
  have e4 : ∀ v, pyReplace noneStr [] ([':'] ++ v) = [':'] ++ pyReplace noneStr [] v := fun v => pyReplace_skip v (by decide)
  rw [e4, replace_optStr, e4]
  have e5 := replace_optStr s.step []
  rw [pyReplace_nil, List.append_nil, List.append_nil] at e5
  rw [e5]
  rfl

lemma cleanText_int (i : ℤ) : cleanText (intStr i) = intStr i := by
  unfold cleanText
  rw [show pyReplace sliceOpen [] (intStr i) = intStr i from pyReplace_none (intStr_not_mem i (by decide) (by decide)),
    pyReplace_none (intStr_not_mem i (by decide) (by decide)), pyReplace_none (intStr_not_mem i (by decide) (by decide))]
  exact pyReplace_none (intStr_not_mem i (by decide) (by decide))

/-- a colon that no comma follows stays -/
lemma colon_stays {v : Str} (h : v.head? ≠ some ',') : pyReplace [':', ','] [','] (':' :: v) = ':' :: pyReplace [':', ','] [','] v := by
  refine pyReplace_miss ?_
  cases v with
  | nil => rfl
  | cons c cs =>
    have : (',' == c) = false := by
      rw [beq_eq_false_iff_ne]
      exact fun hh => h (by rw [List.head?_cons, hh])
    rw [List.isPrefixOf, List.isPrefixOf, this]
    simp

/-- two texts cut at their first separator -/
lemma cut_eq {c : Char} : ∀ {u u' v v' : Str}, c ∉ u → c ∉ u' → u ++ c :: v = u' ++ c :: v' → u = u' ∧ v = v'
  | [], [], _, _, _, _, h => ⟨rfl, (List.cons.inj h).2⟩
  | [], b :: u', _, _, _, h2, h => absurd (List.mem_cons.2 (.inl (List.cons.inj h).1)) h2
  | a :: u, [], _, _, h1, _, h => absurd (List.mem_cons.2 (.inl (List.cons.inj h).1.symm)) h1
  | a :: u, b :: u', v, v', h1, h2, h => by
    have hh := List.cons.inj h
    obtain ⟨e1, e2⟩ := cut_eq (fun hx => h1 (List.mem_cons_of_mem _ hx)) (fun hx => h2 (List.mem_cons_of_mem _ hx)) hh.2
    exact ⟨by rw [hh.1, e1], e2⟩

end Nidn
