/-
C131: the frames of a simulation and the video made of them.
-/
import Mathlib.Data.List.Basic
import Verif.Model.FdtdVisual

namespace Nidn

/-- the number a string of decimal digits stands for -/
def decimalValue (ds : Str) : ℕ := ds.foldl (fun v c => 10 * v + (c.toNat - '0'.toNat)) 0

/-- a name `file0012.png`: at least four digits, which stand for `i` -/
def IsFrame (i : ℕ) (f : Str) : Prop := ∃ ds : Str, f = "file".toList ++ ds ++ ".png".toList ∧ 4 ≤ ds.length ∧ (∀ c ∈ ds, c.isDigit = true) ∧ decimalValue ds = i

lemma zfill4_value (i : ℕ) : decimalValue (zfill4 i) = i := by
  show Nat.ofDigitChars 10 (zfill4 i) 0 = i
  unfold zfill4
  rw [Nat.ofDigitChars_append, Nat.ofDigitChars_replicate_zero]
  simp

/-- C131, frames: frame `i` is stored under a name made of `file`, at least four digits with the value `i`, and `.png`; frames of different numbers never overwrite each other. -/
theorem C131_frames (i : ℕ) : IsFrame i (frameName i) ∧ ∀ j, frameName i = frameName j → i = j := by
  refine ⟨⟨zfill4 i, ?_, ?_, ?_, zfill4_value i⟩, fun j h => ?_⟩
  · rfl
  · unfold zfill4
    rw [List.length_append, List.length_replicate]
    omega
  · intro c hc
    unfold zfill4 at hc
    rcases List.mem_append.1 hc with h | h
    · rw [(List.mem_replicate.1 h).2]
      decide
    · exact Nat.isDigit_of_mem_toDigits (by omega) (by omega) h
  · have h1 : zfill4 i = zfill4 j := by
      unfold frameName at h
      exact List.append_cancel_left (List.append_cancel_right h)
    rw [← zfill4_value i, h1, zfill4_value]

/-- frames are among the files deleted on request -/
lemma frame_isPng (i : ℕ) : isPng (frameName i) = true := by
  unfold isPng frameName
  rw [Bool.and_eq_true]
  refine ⟨?_, by simp⟩
  rw [List.isSuffixOf_iff_suffix]
  exact List.suffix_append _ _

/-- C131, video: when ffmpeg succeeds the working directory is what it was, the result is the path of the video in the folder of the simulation, the video is there, all other files that are not pictures are untouched, no file is
new, and the pictures are deleted exactly on request. -/
theorem C131_video (folder : List Str) (video : Str) (hv : ∀ f, video ≠ f ++ ".png".toList) (del : Bool) (s : VideoState) :
    ∃ s', generateVideo (some folder) video del .success s = (s', .ok (folder ++ [video])) ∧ s'.cwd = s.cwd ∧
      (∀ f, f ∈ s'.files ↔ f = video ∨ (f ∈ s.files ∧ (del = true → isPng f = false))) ∧
      (del = true → ∀ i, frameName i ∉ s'.files) ∧ (del = false → ∀ i, frameName i ∈ s.files → frameName i ∈ s'.files) := by
  have hvp : isPng video = false := by
    unfold isPng
    rw [Bool.and_eq_false_iff]
    left
    rw [Bool.eq_false_iff]
    intro h
    rw [List.isSuffixOf_iff_suffix] at h
    obtain ⟨f, hf⟩ := h
    exact hv f hf.symm
  have hfr : ∀ i, frameName i ≠ video := by
    intro i h
    have := frame_isPng i
    rw [h, hvp] at this
    cases this
  have hmem : ∀ f, f ∈ (if video ∈ s.files then s.files else s.files ++ [video]) ↔ f = video ∨ f ∈ s.files := by
    intro f
    split_ifs with h
    · constructor
      · exact Or.inr
      · rintro (rfl | h')
        · exact h
        · exact h'
    · simp [or_comm]
  have hfiles : ∀ f, f ∈ (generateVideo (some folder) video del .success s).1.files ↔ f = video ∨ (f ∈ s.files ∧ (del = true → isPng f = false)) := by
    intro f
    show f ∈ List.filter _ _ ↔ _
    rw [List.mem_filter, hmem]
    constructor
    · rintro ⟨rfl | h, h2⟩
      · exact Or.inl rfl
      · refine Or.inr ⟨h, fun hd => ?_⟩
        rw [hd] at h2
        simpa using h2
    · rintro (rfl | ⟨h, h2⟩)
      · exact ⟨Or.inl rfl, by simp [hvp]⟩
      · refine ⟨Or.inr h, ?_⟩
        cases del with
        | false => rfl
        | true => simp [h2 rfl]
  refine ⟨_, rfl, rfl, hfiles, fun hd i h => ?_, fun hd i h => ?_⟩
  · rcases (hfiles _).1 h with h | ⟨-, h⟩
    · exact hfr i h
    · have := h hd
      rw [frame_isPng] at this
      cases this
  · exact (hfiles _).2 (Or.inr ⟨h, fun h' => absurd (hd.symm.trans h') (by decide)⟩)

/-- C131, not saved: without `save_simulation` nothing changes and the call is refused. -/
theorem C131_unsaved (video : Str) (del : Bool) (out : FfmpegOutcome) (s : VideoState) : generateVideo none video del out s = (s, .error .exception) := rfl

/-- C131 is false when ffmpeg is missing or fails: instead of the announced error a TypeError is raised (the exception class needs two arguments), and the process is left in the folder of the simulation. -/
theorem C131_failure_false (folder : List Str) (video : Str) (del : Bool) (out : FfmpegOutcome) (hout : out ≠ .success) (s : VideoState) (hf : s.cwd ≠ folder) :
    ∃ s', generateVideo (some folder) video del out s = (s', .error .typeError) ∧ s'.cwd = folder ∧ s'.cwd ≠ s.cwd ∧ s'.files = s.files := by
  cases out with
  | success => exact absurd rfl hout
  | notFound => exact ⟨_, rfl, rfl, Ne.symm hf, rfl⟩
  | failed => exact ⟨_, rfl, rfl, Ne.symm hf, rfl⟩

/-! ### Examples -/

example : frameName 7 = "file0007.png".toList ∧ frameName 12345 = "file12345.png".toList := ⟨by decide +kernel, by decide +kernel⟩

example : ∀ f : Str, "fdtd_sim_video_2026.mp4".toList ≠ f ++ ".png".toList := by
  intro f h
  have := congrArg List.getLast? h
  rw [List.getLast?_append, show (".png".toList : Str).getLast? = some 'g' by decide +kernel, show ("fdtd_sim_video_2026.mp4".toList : Str).getLast? = some '4' by decide +kernel] at this
  exact absurd this (by simp)

example : (generateVideo (some ["out".toList]) "v.mp4".toList true .success ⟨["home".toList], [frameName 0, frameName 1, "notes.txt".toList]⟩).1.files = ["notes.txt".toList, "v.mp4".toList] := by
  decide +kernel

end Nidn
