/-
Property C125: stored results can be loaded again and do not replace one another.
-/
import Verif.Model.Runs
import Verif.Lemmas.Py

namespace Nidn

/-! ### paths -/

lemma splitSlash_ne (p : Str) : splitSlash p ≠ [] := by
  cases p with
  | nil => simp [splitSlash]
  | cons c cs =>
    rw [splitSlash]
    split_ifs
    · simp
    · split <;> simp

lemma splitSlash_slash (a b : Str) : splitSlash (a ++ '/' :: b) = splitSlash a ++ splitSlash b := by
  induction a with
  | nil => simp [splitSlash]
  | cons c a ih =>
    rw [List.cons_append, splitSlash, splitSlash]
    split_ifs with h
    · rw [ih]; rfl
    · rw [ih]
      obtain ⟨w, ws, e⟩ := List.exists_cons_of_ne_nil (splitSlash_ne a)
      rw [e]
      rfl

lemma splitSlash_word {w : Str} (h : '/' ∉ w) : splitSlash w = [w] := by
  induction w with
  | nil => rfl
  | cons c w ih =>
    rw [List.mem_cons, not_or] at h
    rw [splitSlash, if_neg (fun e => h.1 e.symm), ih h.2]

lemma pathParts_slash (a b : Str) : pathParts (a ++ '/' :: b) = pathParts a ++ pathParts b := by
  rw [pathParts, splitSlash_slash, List.filter_append]; rfl

lemma pathParts_nil : pathParts [] = [] := by decide

lemma pathParts_slash_end (a : Str) : pathParts (a ++ ['/']) = pathParts a := by
  rw [pathParts_slash, pathParts_nil, List.append_nil]

lemma pathParts_word {w : Str} (h : '/' ∉ w) (h0 : w ≠ []) (h1 : w ≠ ['.']) : pathParts w = [w] := by
  rw [pathParts, splitSlash_word h, List.filter_cons, if_pos (by simp [h0, h1])]; rfl

/-! ### times -/

lemma digitChar_inj : ∀ a < 10, ∀ b < 10, Nat.digitChar a = Nat.digitChar b → a = b := by decide

lemma digitChar_plain : ∀ a < 10, Nat.digitChar a ≠ '/' ∧ Nat.digitChar a ≠ '.' := by decide

lemma twoDigits_inj {a b : ℕ} (h : twoDigits a = twoDigits b) : a % 100 = b % 100 := by
  simp only [twoDigits, List.cons.injEq, and_true] at h
  have h1 := digitChar_inj _ (Nat.mod_lt _ (by norm_num)) _ (Nat.mod_lt _ (by norm_num)) h.1
  have h2 := digitChar_inj _ (Nat.mod_lt _ (by norm_num)) _ (Nat.mod_lt _ (by norm_num)) h.2
  omega

/-- a calendar time -/
def Stamp.Valid (t : Stamp) : Prop := t.day ≤ 31 ∧ t.month ≤ 12 ∧ t.year < 10000 ∧ t.hour < 24 ∧ t.minute < 60 ∧ t.second ≤ 61

lemma stamp_inj {t s : Stamp} (ht : t.Valid) (hs : s.Valid) (h : t.str = s.str) : t = s := by
  obtain ⟨a1, a2, a3, a4, a5, a6⟩ := ht
  obtain ⟨b1, b2, b3, b4, b5, b6⟩ := hs
  simp only [Stamp.str, twoDigits, List.cons_append, List.nil_append, List.cons.injEq, and_true, true_and] at h
  obtain ⟨h1, h2, h3, h4, h5, h6, h7, h8, h9, h10, h11, h12, h13, h14⟩ := h
  have d1 : t.day % 100 = s.day % 100 := twoDigits_inj (by simp [twoDigits, h1, h2])
  have d2 : t.month % 100 = s.month % 100 := twoDigits_inj (by simp [twoDigits, h3, h4])
  have d3 : t.year / 100 % 100 = s.year / 100 % 100 := twoDigits_inj (by simp [twoDigits, h5, h6])
  have d4 : t.year % 100 = s.year % 100 := twoDigits_inj (by simp [twoDigits, h7, h8])
  have d5 : t.hour % 100 = s.hour % 100 := twoDigits_inj (by simp [twoDigits, h9, h10])
  have d6 : t.minute % 100 = s.minute % 100 := twoDigits_inj (by simp [twoDigits, h11, h12])
  have d7 : t.second % 100 = s.second % 100 := twoDigits_inj (by simp [twoDigits, h13, h14])
  have : t.day = s.day ∧ t.month = s.month ∧ t.year = s.year ∧ t.hour = s.hour ∧ t.minute = s.minute ∧ t.second = s.second := by omega
  cases t; cases s; simp_all

lemma stamp_length (t : Stamp) : t.str.length = 19 := by simp [Stamp.str, twoDigits]

lemma stamp_plain (t : Stamp) : '/' ∉ t.str := by
  have h : ∀ n, '/' ∉ twoDigits n := by
    intro n hn
    simp only [twoDigits, List.mem_cons, List.not_mem_nil, or_false] at hn
    rcases hn with hn | hn
    · exact (digitChar_plain _ (Nat.mod_lt _ (by norm_num))).1 hn.symm
    · exact (digitChar_plain _ (Nat.mod_lt _ (by norm_num))).1 hn.symm
  simp only [Stamp.str, List.mem_append, not_or]
  simp [h]

/-- the name of the file in its folder -/
def runWord (name : Str) (now : Stamp) : Str := name ++ ['_'] ++ now.str ++ runEnding

lemma runWord_inj {a b : Str} {t s : Stamp} (ht : t.Valid) (hs : s.Valid) (h : runWord a t = runWord b s) : a = b ∧ t = s := by
  rw [runWord, runWord, List.append_cancel_right_eq] at h
  have hl := congrArg List.length h
  simp only [List.length_append, stamp_length] at hl
  obtain ⟨h1, h2⟩ := List.append_inj' h (by rw [stamp_length, stamp_length])
  rw [List.append_cancel_right_eq] at h1
  exact ⟨h1, stamp_inj ht hs h2⟩

lemma runWord_plain {name : Str} (h : '/' ∉ name) (t : Stamp) : pathParts (runWord name t) = [runWord name t] := by
  have hl : (runWord name t).length ≥ 19 := by simp only [runWord, List.length_append, stamp_length]; omega
  refine pathParts_word ?_ (fun e => by rw [e] at hl; simp at hl) (fun e => by rw [e] at hl; simp at hl)
  simp only [runWord, List.mem_append, not_or]
  exact ⟨⟨⟨h, by decide⟩, stamp_plain t⟩, by decide⟩

lemma inResults_parts (r : Str) : pathParts (inResults r) = dotDot :: resultsWord :: pathParts r := by
  rw [inResults, pathParts_slash, pathParts_slash, pathParts_word (w := dotDot) (by decide) (by decide) (by decide),
    pathParts_word (w := resultsWord) (by decide) (by decide) (by decide)]
  rfl

lemma resultsFolder_parts (sub : Str) : pathParts (resultsFolder sub) = dotDot :: resultsWord :: pathParts sub := by
  rw [resultsFolder, inResults_parts, pathParts_slash_end]

lemma runFile_parts {name : Str} (h : '/' ∉ name) (sub : Str) (t : Stamp) :
    pathParts (runFile name sub t) = (dotDot :: resultsWord :: pathParts sub) ++ [runWord name t] := by
  rw [runFile, inResults_parts, List.append_assoc, List.singleton_append, pathParts_slash, ← runWord, runWord_plain h]
  rfl

/-! ### the disk -/

variable {α : Type}

lemma mkdirs_file {d d' : Disk α} {p : List Str} (h : d.mkdirs p = .ok d') : d'.file = d.file ∧ (∀ q, q ∈ d'.dirs ↔ q ∈ d.dirs ∨ q ∈ p.inits) := by
  rw [Disk.mkdirs] at h
  split_ifs at h
  cases h
  exact ⟨rfl, fun q => List.mem_append⟩

lemma write_file {d d' : Disk α} {p : List Str} {x : α} (h : d.write p x = .ok d') : d'.dirs = d.dirs ∧ d'.file p = some x ∧ ∀ q, q ≠ p → d'.file q = d.file q := by
  rw [Disk.write] at h
  split_ifs at h
  cases h
  exact ⟨rfl, if_pos rfl, fun q hq => if_neg hq⟩

/-- C125: what was saved is what is loaded, and no file but the one that was written changes. -/
theorem C125_roundtrip {d d' : Disk α} {name : Str} {cfg : α} {sub : Str} {now : Stamp} (h : saveRun d name cfg sub now = .ok d') :
    loadRun d' (runFile name sub now) = .ok cfg ∧ ∀ f, pathParts f ≠ pathParts (runFile name sub now) → loadRun d' f = loadRun d f := by
  rw [saveRun] at h
  obtain ⟨d1, h1, h2⟩ := bind_ok.1 h
  obtain ⟨-, e2, e3⟩ := write_file h2
  constructor
  · rw [loadRun, Disk.read, e2]
  · intro f hf
    rw [loadRun, loadRun, Disk.read, Disk.read, e3 _ hf, (mkdirs_file h1).1]

/-- C125: a file that was not there and that none of the saved runs went to cannot be loaded; the loader raises the error of a missing file and does not return anything else. -/
theorem C125_missing {d d' : Disk α} (runs : List (Str × α × Str × Stamp)) (h : runs.foldlM (fun d r => saveRun d r.1 r.2.1 r.2.2.1 r.2.2.2) d = .ok d') {f : Str}
    (h0 : d.file (pathParts f) = none) (hf : ∀ r ∈ runs, pathParts f ≠ pathParts (runFile r.1 r.2.2.1 r.2.2.2)) : loadRun d' f = .error .osError := by
  have key : loadRun d' f = loadRun d f := by
    clear h0
    induction runs generalizing d with
    | nil => cases h; rfl
    | cons r rs ih =>
      rw [List.foldlM_cons] at h
      obtain ⟨d1, h1, h2⟩ := bind_ok.1 h
      rw [ih h2 fun x hx => hf x (List.mem_cons_of_mem _ hx)]
      exact (C125_roundtrip h1).2 f (hf r List.mem_cons_self)
  rw [key, loadRun, Disk.read, h0]

/-- C125, names: runs of names without a slash are stored in different files unless folder, name and second are the same. -/
theorem C125_distinct {a b sub sub' : Str} {t s : Stamp} (ha : '/' ∉ a) (hb : '/' ∉ b) (ht : t.Valid) (hs : s.Valid)
    (h : pathParts (runFile a sub t) = pathParts (runFile b sub' s)) : pathParts sub = pathParts sub' ∧ a = b ∧ t = s := by
  rw [runFile_parts ha, runFile_parts hb] at h
  obtain ⟨h1, h2⟩ := List.append_inj' h rfl
  simp only [List.cons.injEq, true_and] at h1
  simp only [List.cons.injEq, and_true] at h2
  exact ⟨h1, runWord_inj ht hs h2⟩

/-- C125, success: a run is stored unless a file stands in the way of its folder or a folder has the name of its file. -/
theorem C125_saves {d : Disk α} {name : Str} (hn : '/' ∉ name) (cfg : α) (sub : Str) (now : Stamp)
    (h1 : ∀ q, q <+: (dotDot :: resultsWord :: pathParts sub) → d.file q = none) (h2 : pathParts (runFile name sub now) ∉ d.dirs) :
    ∃ d', saveRun d name cfg sub now = .ok d' := by
  rw [saveRun, Disk.mkdirs, if_neg]
  · rw [resultsFolder_parts]
    show ∃ d', Disk.write _ _ _ = _
    rw [Disk.write, if_neg]
    · exact ⟨_, rfl⟩
    · rw [runFile_parts hn]
      rw [runFile_parts hn] at h2
      rintro (h | h | h)
      · simp at h
      · simp only [List.mem_append] at h
        rcases h with h | h
        · exact h2 h
        · have := (List.mem_inits _ _).1 h
          have := this.length_le
          simp at this
      · apply h
        rw [List.dropLast_concat]
        exact List.mem_append_right _ ((List.mem_inits _ _).2 (List.prefix_refl _))
  · rintro ⟨q, hq, hs⟩
    rw [resultsFolder_parts, List.mem_inits] at hq
    rw [h1 q hq] at hs
    exact absurd hs (by simp)

/-- C125: two runs stored one after the other can both be loaded, provided that they differ in folder, name or second. Missing for the full claim: runs with the
same name in the same folder within the same second (`C125_replaced_false`), names with a slash (`C125_slash_false`). -/
theorem C125_both_partial {d d1 d2 : Disk α} {a b sub sub' : Str} {t s : Stamp} {x y : α} (ha : '/' ∉ a) (hb : '/' ∉ b) (ht : t.Valid) (hs : s.Valid)
    (hne : pathParts sub ≠ pathParts sub' ∨ a ≠ b ∨ t ≠ s) (h1 : saveRun d a x sub t = .ok d1) (h2 : saveRun d1 b y sub' s = .ok d2) :
    loadRun d2 (runFile a sub t) = .ok x ∧ loadRun d2 (runFile b sub' s) = .ok y := by
  refine ⟨?_, (C125_roundtrip h2).1⟩
  rw [(C125_roundtrip h2).2 _ fun e => ?_, (C125_roundtrip h1).1]
  obtain ⟨e1, e2, e3⟩ := C125_distinct ha hb ht hs e
  rcases hne with h | h | h
  · exact h e1
  · exact h e2
  · exact h e3

/-- noon of a day -/
def noon : Stamp := ⟨24, 11, 2022, 12, 0, 0⟩

def exName : Str := ['e', 'x', 'a', 'm', 'p', 'l', 'e', '_', 'n', 'a', 'm', 'e']

/-- an empty disk with the working directory and its parent -/
def emptyDisk : Disk ℕ := ⟨[[], [dotDot]], fun _ => none⟩

/-- a second later there is no such file -/
example {d : Disk ℕ} (h : saveRun emptyDisk exName 1 [] noon = .ok d) : loadRun d (runFile exName [] { noon with second := 1 }) = .error .osError := by
  refine C125_missing (d := emptyDisk) [(exName, 1, [], noon)] ?_ rfl ?_
  · rw [List.foldlM_cons, h]; rfl
  · intro r hr
    rw [List.mem_singleton] at hr
    subst hr
    decide +kernel

/-- C125 is false: two runs that keep the default name and are stored in the same folder within one second; both calls succeed and the first run is gone. -/
theorem C125_replaced_false : ∃ d1 d2 : Disk ℕ, saveRun emptyDisk exName 1 [] noon = .ok d1 ∧ saveRun d1 exName 2 [] noon = .ok d2 ∧
    loadRun d1 (runFile exName [] noon) = .ok 1 ∧ loadRun d2 (runFile exName [] noon) = .ok 2 ∧ ∀ f, loadRun d2 f ≠ .ok 1 := by
  obtain ⟨d1, h1⟩ := C125_saves (d := emptyDisk) (name := exName) (by decide) 1 [] noon (fun _ _ => rfl) (by decide)
  obtain ⟨d2, h2⟩ := C125_saves (d := d1) (name := exName) (by decide) 2 [] noon (fun q hq => by
      rw [saveRun] at h1
      obtain ⟨d', e1, e2⟩ := bind_ok.1 h1
      rw [(write_file e2).2.2 q, (mkdirs_file e1).1]
      · rfl
      · rintro rfl
        rw [runFile_parts (by decide)] at hq
        have := hq.length_le
        simp at this) (by
      rw [saveRun] at h1
      obtain ⟨d', e1, e2⟩ := bind_ok.1 h1
      rw [(write_file e2).1, (mkdirs_file e1).2]
      decide)
  refine ⟨d1, d2, h1, h2, (C125_roundtrip h1).1, (C125_roundtrip h2).1, fun f hf => ?_⟩
  by_cases e : pathParts f = pathParts (runFile exName [] noon)
  · rw [loadRun, e, ← loadRun, (C125_roundtrip h2).1] at hf
    cases hf
  · rw [(C125_roundtrip h2).2 f e, (C125_roundtrip h1).2 f e] at hf
    cases hf

/-- C125 is false for names with a slash: the folder part of the name is not created and the finished run is not stored. -/
theorem C125_slash_false : saveRun emptyDisk ['a', '/', 'b'] 1 [] noon = .error .osError := by
  rfl

/-! ### the batch script -/

/-- the folder of one config of the batch -/
def batchParts (start : Stamp) (name : Str) : List Str := [dotDot, resultsWord, start.str ++ '_' :: resultsWord, name ++ ['_'] ++ start.str]

lemma long_word {w : Str} (h : '/' ∉ w) (hl : 2 ≤ w.length) : pathParts w = [w] :=
  pathParts_word h (fun e => by rw [e] at hl; simp at hl) (fun e => by rw [e] at hl; simp at hl)

lemma batchFolder_parts {name : Str} (h : '/' ∉ name) (start : Stamp) :
    pathParts (batchFolder start name) = [start.str ++ '_' :: resultsWord, name ++ ['_'] ++ start.str] := by
  have h1 : pathParts (start.str ++ '_' :: resultsWord) = [start.str ++ '_' :: resultsWord] := by
    refine long_word ?_ (by rw [List.length_append, stamp_length]; omega)
    rw [List.mem_append, not_or]
    exact ⟨stamp_plain _, by decide⟩
  have h2 : pathParts (name ++ ['_'] ++ start.str) = [name ++ ['_'] ++ start.str] := by
    refine long_word ?_ (by simp only [List.length_append, stamp_length]; omega)
    simp only [List.mem_append, not_or]
    exact ⟨⟨h, by decide⟩, stamp_plain _⟩
  rw [batchFolder, List.append_assoc, List.append_assoc, List.singleton_append, pathParts_slash, pathParts_slash_end, h1, h2]
  rfl

/-- a plain file name of a plot: no slash, not empty, not `.`, and not the ending of a stored run -/
def PlotName (f : Str) : Prop := '/' ∉ f ∧ f ≠ [] ∧ f ≠ ['.'] ∧ ¬ runEnding <:+ f

lemma plot_path {name f : Str} (h : '/' ∉ name) (hf : PlotName f) (start : Stamp) :
    pathParts (inResults (batchFolder start name) ++ ['/'] ++ f) = batchParts start name ++ [f] := by
  rw [List.append_assoc, List.singleton_append, pathParts_slash, inResults_parts, batchFolder_parts h, pathParts_word hf.1 hf.2.1 hf.2.2.1]
  rfl

lemma run_path {name : Str} (h : '/' ∉ name) (start now : Stamp) :
    pathParts (runFile name (batchFolder start name) now) = batchParts start name ++ [runWord name now] := by
  rw [runFile_parts h, batchFolder_parts h]
  rfl

lemma batchParts_inj {a b : Str} {start : Stamp} (h : batchParts start a = batchParts start b) : a = b := by
  simp only [batchParts, List.cons.injEq, true_and, and_true, List.append_cancel_right_eq] at h
  exact h

lemma savePlots_file {d d' : Disk α} {start : Stamp} {name : Str} (hn : '/' ∉ name) : ∀ {l : List (Str × α)}, (∀ x ∈ l, PlotName x.1) →
    (l.map Prod.fst).Nodup → savePlots d (inResults (batchFolder start name)) l = .ok d' →
    (∀ x ∈ l, d'.file (batchParts start name ++ [x.1]) = some x.2) ∧ ∀ q, (∀ x ∈ l, q ≠ batchParts start name ++ [x.1]) → d'.file q = d.file q
  | [], _, _, h => by cases h; exact ⟨fun x hx => absurd hx (by simp), fun q _ => rfl⟩
  | (f, x) :: l, hl, hd, h => by
    rw [savePlots] at h
    obtain ⟨d1, h1, h2⟩ := bind_ok.1 h
    rw [plot_path hn (hl _ List.mem_cons_self)] at h1
    rw [List.map_cons, List.nodup_cons] at hd
    obtain ⟨e1, e2⟩ := savePlots_file hn (fun x hx => hl x (List.mem_cons_of_mem _ hx)) hd.2 h2
    obtain ⟨-, w2, w3⟩ := write_file h1
    constructor
    · intro y hy
      rcases List.mem_cons.1 hy with rfl | hy
      · rw [e2, w2]
        intro z hz e
        have := (List.append_inj' e rfl).2
        simp only [List.cons.injEq, and_true] at this
        exact hd.1 (List.mem_map.2 ⟨z, hz, this.symm⟩)
      · exact e1 y hy
    · intro q hq
      rw [e2 q fun z hz => hq z (List.mem_cons_of_mem _ hz), w3 q (hq (f, x) List.mem_cons_self)]

/-- what the batch script needs of one config -/
structure BatchItem.Good (i : BatchItem α) : Prop where
  name : '/' ∉ i.name
  plots : ∀ x ∈ i.plots, PlotName x.1
  nodup : (i.plots.map Prod.fst).Nodup

/-- the run and the plots of a config are on the disk -/
def BatchItem.Stored (i : BatchItem α) (start : Stamp) (d : Disk α) : Prop :=
  loadRun d (runFile i.name (batchFolder start i.name) i.now) = .ok i.run ∧
    ∀ x ∈ i.plots, d.read (pathParts (inResults (batchFolder start i.name) ++ ['/'] ++ x.1)) = .ok x.2

lemma batchStep_file {start : Stamp} {d d' : Disk α} {i : BatchItem α} (hi : i.Good) (h : batchStep start d i = .ok d') :
    i.Stored start d' ∧ ∀ q, q.dropLast ≠ batchParts start i.name → d'.file q = d.file q := by
  rw [batchStep] at h
  obtain ⟨d1, h1, h⟩ := bind_ok.1 h
  obtain ⟨d2, h2, h3⟩ := bind_ok.1 h
  obtain ⟨p1, p2⟩ := savePlots_file hi.name hi.plots hi.nodup h3
  rw [saveRun] at h1
  obtain ⟨d0, h0, h1⟩ := bind_ok.1 h1
  obtain ⟨-, w2, w3⟩ := write_file h1
  rw [run_path hi.name] at w2 w3
  refine ⟨⟨?_, fun x hx => ?_⟩, fun q hq => ?_⟩
  · rw [loadRun, Disk.read, run_path hi.name, p2, (mkdirs_file h2).1, w2]
    intro x hx e
    have := (List.append_inj' e rfl).2
    simp only [List.cons.injEq, and_true] at this
    apply (hi.plots x hx).2.2.2
    rw [← this, runWord]
    exact List.suffix_append _ _
  · rw [Disk.read, plot_path hi.name (hi.plots x hx), p1 x hx]
  · have hne : ∀ w, q ≠ batchParts start i.name ++ [w] := fun w e => hq (by rw [e, List.dropLast_concat])
    rw [p2 q fun x _ => hne _, (mkdirs_file h2).1, w3 q (hne _), (mkdirs_file h0).1]

lemma stored_keeps {start : Stamp} {d d' : Disk α} {i j : BatchItem α} (hi : i.Good) (hj : j.Good) (hne : i.name ≠ j.name) (h : batchStep start d j = .ok d')
    (hs : i.Stored start d) : i.Stored start d' := by
  have hp : ∀ w, (batchParts start i.name ++ [w]).dropLast ≠ batchParts start j.name := fun w e => by
    rw [List.dropLast_concat] at e
    exact hne (batchParts_inj e)
  obtain ⟨s1, s2⟩ := hs
  refine ⟨?_, fun x hx => ?_⟩
  · rw [← s1, loadRun, loadRun, Disk.read, Disk.read, run_path hi.name, (batchStep_file hj h).2 _ (hp _)]
  · rw [← s2 x hx, Disk.read, Disk.read, plot_path hi.name (hi.plots x hx), (batchStep_file hj h).2 _ (hp _)]

/-- C125, batch: when the batch script has gone through configs with different names, the run and all plots of every config are there. Missing for the full claim: configs
with the same name (`C125_batch_false`). -/
theorem C125_batch_partial {start : Stamp} {d d' : Disk α} {items : List (BatchItem α)} (hg : ∀ i ∈ items, i.Good) (hn : (items.map BatchItem.name).Nodup)
    (h : batchRun start d items = .ok d') : ∀ i ∈ items, i.Stored start d' := by
  have key : ∀ (items : List (BatchItem α)) (d : Disk α), (∀ i ∈ items, i.Good) → (items.map BatchItem.name).Nodup → batchRun start d items = .ok d' →
      (∀ i ∈ items, i.Stored start d') ∧ ∀ j : BatchItem α, j.Good → (∀ i ∈ items, j.name ≠ i.name) → j.Stored start d → j.Stored start d' := by
    intro items
    induction items with
    | nil => intro d _ _ h; cases h; exact ⟨fun i hi => absurd hi (by simp), fun j _ _ hj => hj⟩
    | cons a l ih =>
      intro d hg hn h
      rw [batchRun, List.foldlM_cons] at h
      obtain ⟨d1, h1, h2⟩ := bind_ok.1 h
      rw [List.map_cons, List.nodup_cons] at hn
      have hga := hg a List.mem_cons_self
      obtain ⟨i1, i2⟩ := ih d1 (fun i hi => hg i (List.mem_cons_of_mem _ hi)) hn.2 h2
      refine ⟨fun i hi => ?_, fun j hj hjn hs => ?_⟩
      · rcases List.mem_cons.1 hi with rfl | hi
        · exact i2 i hga (fun b hb e => hn.1 (List.mem_map.2 ⟨b, hb, e.symm⟩)) (batchStep_file hga h1).1
        · exact i1 i hi
      · exact i2 j hj (fun i hi => hjn i (List.mem_cons_of_mem _ hi)) (stored_keeps hj hga (hjn a List.mem_cons_self) h1 hs)
  exact (key items d hg hn h).1

/-- `losses.png` -/
def lossesPng : Str := ['l', 'o', 's', 's', 'e', 's', '.', 'p', 'n', 'g']

def laterNoon : Stamp := ⟨24, 11, 2022, 12, 30, 0⟩

/-- A batch of two configs, half an hour apart. -/
def twoRuns (a b : Str) : List (BatchItem ℕ) := [⟨a, 1, [(lossesPng, 10)], noon⟩, ⟨b, 2, [(lossesPng, 20)], laterNoon⟩]

lemma plotName_losses : PlotName lossesPng := ⟨by decide, by decide, by decide, by decide⟩

lemma batch_ok_iff {start : Stamp} {d : Disk ℕ} {l : List (BatchItem ℕ)} : (∃ d', batchRun start d l = .ok d') ↔ (batchRun start d l).isOk := by
  cases h : batchRun start d l <;> simp [Except.isOk, Except.toBool]

lemma batchStep_origin {start : Stamp} {d d' : Disk ℕ} {name f : Str} {r v : ℕ} {now : Stamp} (hn : '/' ∉ name) (hf : PlotName f)
    (h : batchStep start d ⟨name, r, [(f, v)], now⟩ = .ok d') (p : List Str) :
    d'.file p = some v ∨ d'.file p = some r ∨ (p ≠ batchParts start name ++ [f] ∧ d'.file p = d.file p) := by
  rw [batchStep] at h
  obtain ⟨d1, h1, h⟩ := bind_ok.1 h
  obtain ⟨d2, h2, h3⟩ := bind_ok.1 h
  rw [savePlots, plot_path hn hf] at h3
  obtain ⟨d3, h3, h4⟩ := bind_ok.1 h3
  cases h4
  rw [saveRun] at h1
  obtain ⟨d0, h0, h1⟩ := bind_ok.1 h1
  obtain ⟨-, w2, w3⟩ := write_file h1
  obtain ⟨-, x2, x3⟩ := write_file h3
  by_cases e : p = batchParts start name ++ [f]
  · rw [e, x2]; exact Or.inl rfl
  · rw [x3 p e, (mkdirs_file h2).1]
    by_cases e' : p = pathParts (runFile name (batchFolder start name) now)
    · rw [e', w2]; exact Or.inr (Or.inl rfl)
    · rw [w3 p e', (mkdirs_file h0).1]; exact Or.inr (Or.inr ⟨e, rfl⟩)

/-- C125 is false of the batch script: two configs in one folder that both keep the default name. The script finishes, both runs are stored, and the plots of the first
config are gone. -/
theorem C125_batch_false : ∃ d' : Disk ℕ, batchRun noon emptyDisk (twoRuns exName exName) = .ok d' ∧ ∀ p, d'.read p ≠ .ok 10 := by
  obtain ⟨d', h⟩ := batch_ok_iff.2 (show (batchRun noon emptyDisk (twoRuns exName exName)).isOk from by decide +kernel)
  refine ⟨d', h, fun p hp => ?_⟩
  rw [twoRuns, batchRun, List.foldlM_cons] at h
  obtain ⟨d1, h1, h⟩ := bind_ok.1 h
  rw [List.foldlM_cons] at h
  obtain ⟨d2, h2, h⟩ := bind_ok.1 h
  cases h
  have hv : d'.file p = some 10 := by
    rw [Disk.read] at hp
    split at hp
    · cases hp; assumption
    · cases hp
  rcases batchStep_origin (by decide) plotName_losses h2 p with e | e | ⟨e, e2⟩
  · rw [hv] at e; cases e
  · rw [hv] at e; cases e
  · rw [hv] at e2
    rw [batchStep] at h1
    obtain ⟨d3, k1, h1⟩ := bind_ok.1 h1
    obtain ⟨d4, k2, k3⟩ := bind_ok.1 h1
    rw [savePlots, plot_path (by decide) plotName_losses] at k3
    obtain ⟨d5, k3, k4⟩ := bind_ok.1 k3
    cases k4
    rw [(write_file k3).2.2 p e, (mkdirs_file k2).1] at e2
    rw [saveRun] at k1
    obtain ⟨d6, k0, k1⟩ := bind_ok.1 k1
    by_cases e' : p = pathParts (runFile exName (batchFolder noon exName) noon)
    · rw [e', (write_file k1).2.1] at e2; cases e2
    · rw [(write_file k1).2.2 p e', (mkdirs_file k0).1] at e2; cases e2

/-- Two configs with different names: everything is stored. -/
example : ∃ d' : Disk ℕ, batchRun noon emptyDisk (twoRuns ['a'] ['b']) = .ok d' ∧ ∀ i ∈ twoRuns ['a'] ['b'], i.Stored noon d' := by
  obtain ⟨d', h⟩ := batch_ok_iff.2 (show (batchRun noon emptyDisk (twoRuns ['a'] ['b'])).isOk from by decide +kernel)
  refine ⟨d', h, C125_batch_partial (fun i hi => ?_) (by decide) h⟩
  simp only [twoRuns, List.mem_cons, List.not_mem_nil, or_false] at hi
  rcases hi with rfl | rfl
  · exact ⟨by decide, by simpa using plotName_losses, by simp⟩
  · exact ⟨by decide, by simpa using plotName_losses, by simp⟩

/-- Two runs of one name half an hour apart are both kept. -/
example : ∃ d1 d2 : Disk ℕ, saveRun emptyDisk exName 1 [] noon = .ok d1 ∧ saveRun d1 exName 2 [] laterNoon = .ok d2 ∧
    loadRun d2 (runFile exName [] noon) = .ok 1 ∧ loadRun d2 (runFile exName [] laterNoon) = .ok 2 := by
  have ok : ∀ {x : Except PyErr (Disk ℕ)}, x.isOk → ∃ d', x = .ok d' := fun {x} h => by cases x <;> simp_all [Except.isOk, Except.toBool]
  obtain ⟨d1, h1⟩ := ok (show (saveRun emptyDisk exName 1 [] noon).isOk from by decide +kernel)
  obtain ⟨d2, h2⟩ := ok (show ((saveRun emptyDisk exName 1 [] noon).bind fun d => saveRun d exName 2 [] laterNoon).isOk from by decide +kernel)
  rw [h1] at h2
  exact ⟨d1, d2, h1, h2, C125_both_partial (by decide) (by decide) (by unfold Stamp.Valid; decide) (by unfold Stamp.Valid; decide) (Or.inr (Or.inr (by decide))) h1 h2⟩

end Nidn
