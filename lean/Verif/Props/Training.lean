/-
C39 (training logs), C40 (the best model is returned), C41 (solver failures), C73 (recovery from a failure).
-/
import Verif.Model.Training
import Mathlib.Tactic.Ring
import Mathlib.Tactic.Linarith
import Mathlib.Tactic.NormNum
import Mathlib.Tactic.Positivity
import Mathlib.Tactic.FieldSimp
import Mathlib.Algebra.Order.Ring.Rat
import Mathlib.Algebra.Field.Rat

namespace Nidn

variable {W K : Type} [Field K] [LinearOrder K] [IsStrictOrderedRing K]

/-! ### Specification vocabulary: what happened in a run -/

/-- Iteration `i` computed a spectrum with this loss. -/
def LossAt (xs : List (IterOutcome W K)) (i : ℕ) (loss : K) : Prop := ∃ l1 ren u s, xs[i]? = some (.success loss l1 ren u s)

/-- Iteration `i` computed a physical (not renormalised) spectrum with this loss. -/
def PhysicalAt (xs : List (IterOutcome W K)) (i : ℕ) (loss : K) : Prop := ∃ l1 u s, xs[i]? = some (.success loss l1 false u s)

/-- The losses of the successful iterations, in order. -/
def lossesOf (xs : List (IterOutcome W K)) : List K := xs.filterMap fun | .failure => none | .success loss _ _ _ _ => some loss

/-- The L1 errors of the successful iterations, in order. -/
def l1sOf (xs : List (IterOutcome W K)) : List K := xs.filterMap fun | .failure => none | .success _ l1 _ _ _ => some l1

/-- The number of iterations in which the solver raised ValueError. -/
def failuresOf (xs : List (IterOutcome W K)) : ℕ := xs.countP fun | .failure => true | .success .. => false

/-- The mean of the last at most 20 elements of the first `n` losses. -/
def meanLast20 (losses : List K) (n : ℕ) : K := ((losses.take n).drop (n - 20)).sum / ((min n 20 : ℕ) : K)

/-- The weights of the model when iteration `i` starts. -/
def weightsAt (w : W) (lr : K) (xs : List (IterOutcome W K)) (i : ℕ) : W := (trainLoop w lr (xs.take i)).weights

set_option linter.unusedSectionVars false

lemma trainLoop_snoc (w : W) (lr : K) (xs : List (IterOutcome W K)) (x : IterOutcome W K) :
    trainLoop w lr (xs ++ [x]) = trainStep (trainLoop w lr xs) x := by
  simp [trainLoop]

lemma recordBest_logs (s : TrainState W K) (loss : K) (ren : Bool) :
    (recordBest s loss ren).lossLog = s.lossLog ∧ (recordBest s loss ren).avgLog = s.avgLog ∧ (recordBest s loss ren).l1Log = s.l1Log ∧
    (recordBest s loss ren).window = s.window ∧ (recordBest s loss ren).weights = s.weights ∧ (recordBest s loss ren).lr = s.lr := by
  unfold recordBest
  split_ifs <;> simp

lemma drop_append_last (l : List K) (x : K) :
    (l.drop (l.length - 20) ++ [x]).drop ((l.drop (l.length - 20) ++ [x]).length - 20) = (l ++ [x]).drop ((l ++ [x]).length - 20) := by
  have e : l.drop (l.length - 20) ++ [x] = (l ++ [x]).drop (l.length - 20) := by
    rw [List.drop_append_of_le_length (by omega)]
  rw [e, List.drop_drop]
  congr 1
  simp
  omega

lemma train_logs (w : W) (lr : K) (xs : List (IterOutcome W K)) :
    (trainLoop w lr xs).lossLog = lossesOf xs ∧ (trainLoop w lr xs).l1Log = l1sOf xs ∧
    (trainLoop w lr xs).window = (lossesOf xs).drop ((lossesOf xs).length - 20) ∧
    (trainLoop w lr xs).avgLog = (List.range (lossesOf xs).length).map fun i => meanLast20 (lossesOf xs) (i + 1) := by
  induction xs using List.reverseRecOn with
  | nil => simp [trainLoop, trainInit, lossesOf, l1sOf]
  | append_singleton xs x ih =>
    obtain ⟨h1, h2, h3, h4⟩ := ih
    rw [trainLoop_snoc]
    cases x with
    | failure => simp [trainStep, loadBest, lossesOf, l1sOf] at *; exact ⟨h1, h2, h3, h4⟩
    | success loss l1 ren u sc =>
      obtain ⟨g1, g2, g3, g4, g5, g6⟩ := recordBest_logs (trainLoop w lr xs) loss ren
      have hl : lossesOf (xs ++ [IterOutcome.success loss l1 ren u sc]) = lossesOf xs ++ [loss] := by simp [lossesOf]
      have hw : dequeAppend (trainLoop w lr xs).window loss = (lossesOf xs ++ [loss]).drop ((lossesOf xs ++ [loss]).length - 20) := by
        rw [dequeAppend, h3, drop_append_last]
      simp only [trainStep, writeLogs, g1, g2, g3, g4]
      refine ⟨by rw [h1, hl], by rw [h2]; simp [l1sOf], by rw [hw, hl], ?_⟩
      rw [hw, h4, hl, List.length_append, List.length_singleton, List.range_succ, List.map_append]
      congr 1
      · apply List.map_congr_left
        intro i hi
        rw [List.mem_range] at hi
        rw [meanLast20, meanLast20, List.take_append_of_le_length (by omega)]
      · simp only [List.map_cons, List.map_nil, meanOf, meanLast20]
        rw [List.take_of_length_le (by simp)]
        simp only [List.length_drop, List.length_append, List.length_singleton]
        congr 4
        omega

/-- C39: the three logs account for exactly the iterations in which the solver did not fail, in order; entry `i` of the averaged log is the mean of the
last at most 20 logged losses up to it. -/
theorem C39_logs (w : W) (lr : K) (xs : List (IterOutcome W K)) :
    (runTraining w lr xs).lossLog = lossesOf xs ∧ (runTraining w lr xs).l1Log = l1sOf xs ∧
    (runTraining w lr xs).avgLog.length = (lossesOf xs).length ∧
    ∀ i, i < (lossesOf xs).length → (runTraining w lr xs).avgLog[i]? = some (meanLast20 (lossesOf xs) (i + 1)) := by
  obtain ⟨h1, h2, -, h4⟩ := train_logs w lr xs
  refine ⟨h1, h2, ?_, fun i hi => ?_⟩
  · rw [runTraining, loadBest, h4]; simp
  · rw [runTraining, loadBest, h4]; simp [hi]

/-- C39: the common length of the logs is the number of iterations minus the number of solver failures. -/
theorem C39_length (w : W) (lr : K) (xs : List (IterOutcome W K)) :
    (runTraining w lr xs).lossLog.length + failuresOf xs = xs.length ∧
    (runTraining w lr xs).l1Log.length = (runTraining w lr xs).lossLog.length ∧ (runTraining w lr xs).avgLog.length = (runTraining w lr xs).lossLog.length := by
  obtain ⟨h1, h2, h3, -⟩ := C39_logs w lr xs
  rw [h1, h2, h3]
  have e1 : (l1sOf xs).length = (lossesOf xs).length := by
    unfold l1sOf lossesOf
    clear h1 h2 h3
    induction xs with
    | nil => rfl
    | cons x xs ih => cases x <;> simp_all
  have e2 : (lossesOf xs).length + failuresOf xs = xs.length := by
    unfold failuresOf lossesOf
    clear h1 h2 h3 e1
    induction xs with
    | nil => rfl
    | cons x xs ih => cases x <;> simp_all <;> omega
  exact ⟨e2, e1, rfl⟩

/-- C39: a failed iteration leaves all logs (and the averaging window) as they were. -/
theorem C39_failure_silent (w : W) (lr : K) (xs ys : List (IterOutcome W K)) :
    (runTraining w lr (xs ++ .failure :: ys)).lossLog = (runTraining w lr (xs ++ ys)).lossLog ∧
    (runTraining w lr (xs ++ .failure :: ys)).avgLog = (runTraining w lr (xs ++ ys)).avgLog ∧
    (runTraining w lr (xs ++ .failure :: ys)).l1Log = (runTraining w lr (xs ++ ys)).l1Log := by
  have h := train_logs w lr (xs ++ .failure :: ys)
  have h' := train_logs w lr (xs ++ ys)
  have e : lossesOf (xs ++ .failure :: ys) = lossesOf (xs ++ ys) := by simp [lossesOf]
  have e2 : l1sOf (xs ++ .failure :: ys) = l1sOf (xs ++ ys) := by simp [l1sOf]
  simp only [runTraining, loadBest]
  rw [h.1, h'.1, h.2.1, h'.2.1, h.2.2.2, h'.2.2.2, e, e2]
  exact ⟨rfl, rfl, rfl⟩

/-- a run of three iterations whose second one fails -/
example : (runTraining (0 : ℕ) (1 : ℚ) [.success 4 2 false (· + 1) id, .failure, .success 2 1 true (· + 1) id]).avgLog = [4, 3] := by
  decide +kernel

/-! ### C40 -/

lemma lossAt_snoc (xs : List (IterOutcome W K)) (x : IterOutcome W K) (j : ℕ) (hj : j < xs.length) (l : K) : LossAt (xs ++ [x]) j l ↔ LossAt xs j l := by
  simp [LossAt, List.getElem?_append_left hj]

lemma physicalAt_loss {xs : List (IterOutcome W K)} {i : ℕ} {l : K} (h : PhysicalAt xs i l) : LossAt xs i l := by
  obtain ⟨a, b, c, h⟩ := h
  exact ⟨a, false, b, c, h⟩

lemma lossAt_lt {xs : List (IterOutcome W K)} {i : ℕ} {l : K} (h : LossAt xs i l) : i < xs.length := by
  obtain ⟨a, b, c, d, h⟩ := h
  exact (List.getElem?_eq_some_iff.mp h).1

/-- The best loss is the minimum over all successful iterations. -/
lemma bestLoss_spec (w : W) (lr : K) (xs : List (IterOutcome W K)) :
    (∀ j l, LossAt xs j l → ∃ b, (trainLoop w lr xs).bestLoss = some b ∧ b ≤ l) ∧
    (∀ b, (trainLoop w lr xs).bestLoss = some b → ∃ j, LossAt xs j b) := by
  induction xs using List.reverseRecOn with
  | nil => simp [trainLoop, trainInit, LossAt]
  | append_singleton xs x ih =>
    obtain ⟨h1, h2⟩ := ih
    rw [trainLoop_snoc]
    cases x with
    | failure =>
      refine ⟨fun j l h => ?_, fun b hb => ?_⟩
      · by_cases hj : j < xs.length
        · rw [lossAt_snoc xs _ j hj] at h
          exact h1 j l h
        · have hlt := lossAt_lt h
          have : j = xs.length := by simp at hlt; omega
          subst this
          obtain ⟨a, b, c, d, h⟩ := h
          simp at h
      · obtain ⟨j, hj⟩ := h2 b hb
        exact ⟨j, (lossAt_snoc xs _ j (lossAt_lt hj) b).mpr hj⟩
    | success loss l1 ren u sc =>
      have hlast : LossAt (xs ++ [IterOutcome.success loss l1 ren u sc]) xs.length loss := ⟨l1, ren, u, sc, by simp⟩
      have hb : (trainStep (trainLoop w lr xs) (.success loss l1 ren u sc)).bestLoss = if beats loss (trainLoop w lr xs).bestLoss then some loss else
          (trainLoop w lr xs).bestLoss := by
        simp only [trainStep, writeLogs, recordBest]
        split_ifs <;> rfl
      rw [hb]
      refine ⟨fun j l h => ?_, fun b hb => ?_⟩
      · by_cases hj : j < xs.length
        · rw [lossAt_snoc xs _ j hj] at h
          obtain ⟨b, hbest, hle⟩ := h1 j l h
          rw [hbest, beats]
          by_cases hlt : loss < b
          · exact ⟨loss, by simp [hlt], hlt.le.trans hle⟩
          · exact ⟨b, by simp [hlt], hle⟩
        · have hlt := lossAt_lt h
          have : j = xs.length := by simp at hlt; omega
          subst this
          have : l = loss := by
            obtain ⟨a, b, c, d, h⟩ := h
            simp at h
            exact h.1.symm
          subst this
          rcases hbest : (trainLoop w lr xs).bestLoss with _ | b
          · exact ⟨l, by simp [beats], le_refl _⟩
          · by_cases hlt : l < b
            · exact ⟨l, by simp [beats, hlt], le_refl _⟩
            · exact ⟨b, by simp [beats, hlt], not_lt.mp hlt⟩
      · split_ifs at hb with hc
        · rw [Option.some.injEq] at hb
          subst hb
          exact ⟨_, hlast⟩
        · obtain ⟨j, hj⟩ := h2 b hb
          exact ⟨j, (lossAt_snoc xs _ j (lossAt_lt hj) b).mpr hj⟩

lemma beats_iff (w : W) (lr : K) (xs : List (IterOutcome W K)) (loss : K) :
    beats loss (trainLoop w lr xs).bestLoss = true ↔ ∀ j l, LossAt xs j l → loss < l := by
  obtain ⟨h1, h2⟩ := bestLoss_spec w lr xs
  constructor
  · intro hb j l hl
    obtain ⟨b, hbest, hle⟩ := h1 j l hl
    rw [hbest] at hb
    simp only [beats, decide_eq_true_eq] at hb
    exact hb.trans_le hle
  · intro h
    rcases hbest : (trainLoop w lr xs).bestLoss with _ | b
    · rfl
    · obtain ⟨j, hj⟩ := h2 b hbest
      simp only [beats, decide_eq_true_eq]
      exact h j b hj

lemma saved_step (s : TrainState W K) (x : IterOutcome W K) :
    (trainStep s x).saved = match x with
      | .failure => s.saved
      | .success loss _ ren _ _ => if beats loss s.bestLoss = true ∧ ren = false then some s.weights else s.saved := by
  cases x with
  | failure => rfl
  | success loss l1 ren u sc =>
    simp only [trainStep, writeLogs, recordBest]
    cases ren <;> split_ifs <;> simp_all

/-- If iteration `i` is physical, beats all earlier losses and is not beaten by a later physical one that sets a record, it is the stored one. -/
lemma saved_of_best (w : W) (lr : K) (xs : List (IterOutcome W K)) (i : ℕ) (m : K) (hi : PhysicalAt xs i m)
    (hbefore : ∀ j l, j < i → LossAt xs j l → m < l) (hafter : ∀ j l, i < j → LossAt xs j l → m ≤ l) :
    (trainLoop w lr xs).saved = some (weightsAt w lr xs i) := by
  induction xs using List.reverseRecOn with
  | nil => obtain ⟨_, _, _, h⟩ := hi; simp at h
  | append_singleton xs x ih =>
    rw [trainLoop_snoc, saved_step]
    have hlt := lossAt_lt (physicalAt_loss hi)
    simp only [List.length_append, List.length_singleton] at hlt
    have ht : weightsAt w lr (xs ++ [x]) i = weightsAt w lr xs i := by
      rw [weightsAt, weightsAt, List.take_append_of_le_length (by omega)]
    rw [ht]
    rcases Nat.lt_or_ge i xs.length with h | h
    · have hi' : PhysicalAt xs i m := by
        obtain ⟨a, b, c, hh⟩ := hi
        rw [List.getElem?_append_left h] at hh
        exact ⟨a, b, c, hh⟩
      have ih := ih hi' (fun j l hj hl => hbefore j l hj ((lossAt_snoc xs x j (lossAt_lt hl) l).mpr hl))
        (fun j l hj hl => hafter j l hj ((lossAt_snoc xs x j (lossAt_lt hl) l).mpr hl))
      cases x with
      | failure => exact ih
      | success loss l1 ren u sc =>
        have hge : m ≤ loss := hafter xs.length loss h ⟨l1, ren, u, sc, by simp⟩
        have hnb : ¬ beats loss (trainLoop w lr xs).bestLoss = true := by
          rw [beats_iff]
          intro hcon
          have := hcon i m (physicalAt_loss hi')
          exact absurd this (not_lt.mpr hge)
        simp only [hnb]
        exact ih
    · have : i = xs.length := by omega
      subst this
      obtain ⟨l1, u, sc, hh⟩ := hi
      simp at hh
      subst hh
      have hb : beats m (trainLoop w lr xs).bestLoss = true := by
        rw [beats_iff]
        intro j l hl
        exact hbefore j l (lossAt_lt hl) ((lossAt_snoc xs _ j (lossAt_lt hl) l).mpr hl)
      simp [hb, weightsAt]

/-- C40 is false: if the first iteration is renormalised with a small loss and the only physical iteration has a larger loss, the physical model is not
kept; the returned weights (2) were not even evaluated, they are the ones left after the last optimiser step (evaluated were 0 and 1). -/
theorem C40_false : ∃ (xs : List (IterOutcome ℕ ℚ)), PhysicalAt xs 1 (1/2) ∧ (∀ j l, PhysicalAt xs j l → j = 1) ∧
    weightsAt 0 1 xs 0 = 0 ∧ weightsAt 0 1 xs 1 = 1 ∧ (runTraining 0 1 xs).weights = 2 := by
  refine ⟨[.success (1/10) 0 true (· + 1) id, .success (1/2) 0 false (· + 1) id], ⟨0, _, _, rfl⟩, ?_, by decide +kernel, by decide +kernel, by decide +kernel⟩
  rintro (_ | _ | j) l ⟨a, b, c, h⟩
  · simp at h
  · rfl
  · simp at h

/-- C40, the part that holds (missing: renormalised iterations whose loss is below the best physical one): if the lowest loss of the whole run is first
reached by a physical iteration, the returned weights are those that iteration was evaluated with. -/
theorem C40_partial (w : W) (lr : K) (xs : List (IterOutcome W K)) (i : ℕ) (m : K) (hi : PhysicalAt xs i m)
    (hbefore : ∀ j l, j < i → LossAt xs j l → m < l) (hafter : ∀ j l, i < j → LossAt xs j l → m ≤ l) :
    (runTraining w lr xs).weights = weightsAt w lr xs i := by
  rw [runTraining, loadBest]
  simp only
  rw [saved_of_best w lr xs i m hi hbefore hafter]
  rfl

lemma exists_first_min (xs : List (IterOutcome W K)) (hne : ∃ j l, LossAt xs j l) :
    ∃ i m, LossAt xs i m ∧ (∀ j l, j < i → LossAt xs j l → m < l) ∧ ∀ j l, i < j → LossAt xs j l → m ≤ l := by
  induction xs using List.reverseRecOn with
  | nil => obtain ⟨j, l, h⟩ := hne; have := lossAt_lt h; simp at this
  | append_singleton xs x ih =>
    by_cases hold : ∃ j l, LossAt xs j l
    · obtain ⟨i, m, h1, h2, h3⟩ := ih hold
      have hil := lossAt_lt h1
      by_cases hx : ∃ l, LossAt (xs ++ [x]) xs.length l ∧ l < m
      · obtain ⟨l, hl, hlm⟩ := hx
        refine ⟨xs.length, l, hl, fun j l' hj hl' => ?_, fun j l' hj hl' => ?_⟩
        · rw [lossAt_snoc xs x j hj] at hl'
          rcases lt_trichotomy j i with h | h | h
          · exact hlm.trans (h2 j l' h hl')
          · subst h
            obtain ⟨_, _, _, _, e1⟩ := h1
            obtain ⟨_, _, _, _, e2⟩ := hl'
            rw [e1] at e2
            simp only [Option.some.injEq, IterOutcome.success.injEq] at e2
            rw [← e2.1]; exact hlm
          · exact hlm.trans_le (h3 j l' h hl')
        · have := lossAt_lt hl'
          simp at this; omega
      · push Not at hx
        refine ⟨i, m, (lossAt_snoc xs x i hil m).mpr h1, fun j l hj hl => h2 j l hj ((lossAt_snoc xs x j (by omega) l).mp hl), fun j l hj hl => ?_⟩
        by_cases hjl : j < xs.length
        · exact h3 j l hj ((lossAt_snoc xs x j hjl l).mp hl)
        · have := lossAt_lt hl
          have hj' : j = xs.length := by simp at this; omega
          subst hj'
          exact hx l hl
    · obtain ⟨j, l, hl⟩ := hne
      have hj : ∀ j l, LossAt (xs ++ [x]) j l → j = xs.length := by
        intro j l hl
        by_contra hcon
        have := lossAt_lt hl
        simp at this
        exact hold ⟨j, l, (lossAt_snoc xs x j (by omega) l).mp hl⟩
      refine ⟨j, l, hl, fun k l' hk hl' => ?_, fun k l' hk hl' => ?_⟩
      · have := hj k l' hl'; have := hj j l hl; omega
      · have := hj k l' hl'; have := hj j l hl; omega

/-- C40, the part that holds: in a run without renormalised iterations (and at least one successful one) the returned weights are those of an
iteration with the lowest loss of the run; ties go to the earliest. Failures may be interspersed arbitrarily. -/
theorem C40_physical_run_partial (w : W) (lr : K) (xs : List (IterOutcome W K)) (hphys : ∀ j l, LossAt xs j l → PhysicalAt xs j l) (hne : ∃ j l, LossAt xs j l) :
    ∃ i m, PhysicalAt xs i m ∧ (∀ j l, LossAt xs j l → m ≤ l) ∧ (∀ j l, j < i → LossAt xs j l → m < l) ∧
      (runTraining w lr xs).weights = weightsAt w lr xs i := by
  obtain ⟨i, m, h1, h2, h3⟩ := exists_first_min xs hne
  refine ⟨i, m, hphys i m h1, fun j l hl => ?_, h2, C40_partial w lr xs i m (hphys i m h1) h2 h3⟩
  rcases lt_trichotomy j i with h | h | h
  · exact (h2 j l h hl).le
  · subst h
    obtain ⟨_, _, _, _, e1⟩ := h1
    obtain ⟨_, _, _, _, e2⟩ := hl
    rw [e1] at e2
    simp only [Option.some.injEq, IterOutcome.success.injEq] at e2
    rw [e2.1]
  · exact h3 j l h hl

/-- C40, the part that holds for every run: once something has been stored, it is the weights of a physical iteration that beat every earlier loss. -/
theorem C40_stored_partial (w : W) (lr : K) (xs : List (IterOutcome W K)) (v : W) (h : (trainLoop w lr xs).saved = some v) :
    (runTraining w lr xs).weights = v ∧ ∃ i m, PhysicalAt xs i m ∧ v = weightsAt w lr xs i ∧ ∀ j l, j < i → LossAt xs j l → m < l := by
  refine ⟨by simp [runTraining, loadBest, h], ?_⟩
  induction xs using List.reverseRecOn with
  | nil => simp [trainLoop, trainInit] at h
  | append_singleton xs x ih =>
    rw [trainLoop_snoc, saved_step] at h
    have lift : (∃ i m, PhysicalAt xs i m ∧ v = weightsAt w lr xs i ∧ ∀ j l, j < i → LossAt xs j l → m < l) →
        ∃ i m, PhysicalAt (xs ++ [x]) i m ∧ v = weightsAt w lr (xs ++ [x]) i ∧ ∀ j l, j < i → LossAt (xs ++ [x]) j l → m < l := by
      rintro ⟨i, m, h1, h2, h3⟩
      have hil := lossAt_lt (physicalAt_loss h1)
      refine ⟨i, m, ?_, ?_, fun j l hj hl => h3 j l hj ((lossAt_snoc xs x j (by omega) l).mp hl)⟩
      · obtain ⟨a, b, c, hh⟩ := h1
        exact ⟨a, b, c, by rw [List.getElem?_append_left hil]; exact hh⟩
      · rw [h2, weightsAt, weightsAt, List.take_append_of_le_length (by omega)]
    cases x with
    | failure => exact lift (ih h)
    | success loss l1 ren u sc =>
      simp only at h
      split_ifs at h with hc
      · rw [Option.some.injEq] at h
        obtain ⟨hb, hr⟩ := hc
        subst hr
        refine ⟨xs.length, loss, ⟨l1, u, sc, by simp⟩, by simp [weightsAt, h], fun j l hj hl => ?_⟩
        exact (beats_iff w lr xs loss).mp hb j l ((lossAt_snoc xs _ j hj l).mp hl)
      · exact lift (ih h)

/-- hypotheses of the C40 theorems are met by a run with a failure in the middle -/
example : (∀ j l, LossAt [IterOutcome.success (3 : ℚ) 0 false (fun n : ℕ => n + 1) id, .failure, .success 1 0 false (fun n => n + 1) id] j l →
    PhysicalAt [IterOutcome.success (3 : ℚ) 0 false (fun n : ℕ => n + 1) id, .failure, .success 1 0 false (fun n => n + 1) id] j l) ∧
    ∃ j l, LossAt [IterOutcome.success (3 : ℚ) 0 false (fun n : ℕ => n + 1) id, .failure, .success 1 0 false (fun n => n + 1) id] j l := by
  refine ⟨?_, 0, 3, 0, false, _, _, rfl⟩
  rintro (_ | _ | _ | j) l ⟨a, b, c, d, h⟩
  · simp at h; exact ⟨a, c, d, by simp [h]⟩
  · simp at h
  · simp at h; exact ⟨a, c, d, by simp [h]⟩
  · simp at h

/-! ### C41 -/

/-- C41: when the scheduler does not intervene, the learning rate after a run with k failures is the initial one times 2^-k. -/
theorem C41_halving (w : W) (lr : K) (xs : List (IterOutcome W K)) (hs : ∀ loss l1 ren u sc, .success loss l1 ren u sc ∈ xs → sc = id) :
    (runTraining w lr xs).lr = lr / 2 ^ failuresOf xs := by
  rw [runTraining, loadBest]
  simp only
  induction xs using List.reverseRecOn with
  | nil => simp [trainLoop, trainInit, failuresOf]
  | append_singleton xs x ih =>
    have ih := ih fun loss l1 ren u sc h => hs loss l1 ren u sc (List.mem_append_left _ h)
    rw [trainLoop_snoc]
    cases x with
    | failure =>
      simp only [trainStep, failuresOf, List.countP_append, List.countP_singleton] at ih ⊢
      rw [ih, if_pos trivial, pow_succ]
      field_simp
    | success loss l1 ren u sc =>
      have hid := hs loss l1 ren u sc (by simp)
      subst hid
      simp only [trainStep, writeLogs, (recordBest_logs (trainLoop w lr xs) loss ren).2.2.2.2.2, failuresOf, List.countP_append, List.countP_singleton, id] at ih ⊢
      rw [ih]
      simp

/-- C41: the learning rate stays positive as long as the scheduler keeps it so. -/
theorem C41_positive (w : W) (lr : K) (hlr : 0 < lr) (xs : List (IterOutcome W K))
    (hs : ∀ loss l1 ren u sc, .success loss l1 ren u sc ∈ xs → ∀ r, 0 < r → 0 < sc r) : 0 < (runTraining w lr xs).lr := by
  rw [runTraining, loadBest]
  simp only
  induction xs using List.reverseRecOn with
  | nil => simpa [trainLoop, trainInit] using hlr
  | append_singleton xs x ih =>
    have ih := ih fun loss l1 ren u sc h => hs loss l1 ren u sc (List.mem_append_left _ h)
    rw [trainLoop_snoc]
    cases x with
    | failure => simp only [trainStep]; positivity
    | success loss l1 ren u sc =>
      simp only [trainStep, writeLogs, (recordBest_logs (trainLoop w lr xs) loss ren).2.2.2.2.2]
      exact hs loss l1 ren u sc (by simp) _ ih

/-- C41: the scheduler configured by the code keeps the rate positive, never raises it, and reduces it by at most the factor 0.66. Even a rate that failures
have pushed below the scheduler's minimum is not raised again. -/
theorem C41_scheduler (reduce : Bool) (lr : K) (h : 0 < lr) :
    0 < plateauLr reduce lr ∧ plateauLr reduce lr ≤ lr ∧ lr * (66 / 100) ≤ plateauLr reduce lr := by
  have h66 : lr * (66 / 100) ≤ lr := by nlinarith
  have hpos : (0 : K) < max (lr * (66 / 100)) (1 / 1000000) := lt_max_of_lt_left (by positivity)
  unfold plateauLr
  split_ifs with h1 h2
  · refine ⟨hpos, ?_, le_max_left _ _⟩
    have : (0 : K) < 1 / 100000000 := by positivity
    linarith
  · exact ⟨h, le_refl _, h66⟩
  · exact ⟨h, le_refl _, h66⟩

/-- C41: after a failure the weights are the ones training would return if it ended there, the stored state, best loss and logs are untouched, and the
learning rate is half of what it was. -/
theorem C41_failure (w : W) (lr : K) (xs : List (IterOutcome W K)) :
    (trainLoop w lr (xs ++ [.failure])).weights = (runTraining w lr xs).weights ∧
    (trainLoop w lr (xs ++ [.failure])).saved = (trainLoop w lr xs).saved ∧
    (trainLoop w lr (xs ++ [.failure])).bestLoss = (trainLoop w lr xs).bestLoss ∧
    (trainLoop w lr (xs ++ [.failure])).lossLog = (trainLoop w lr xs).lossLog ∧
    2 * (trainLoop w lr (xs ++ [.failure])).lr = (trainLoop w lr xs).lr := by
  rw [trainLoop_snoc]
  refine ⟨rfl, rfl, rfl, rfl, ?_⟩
  simp only [trainStep]
  field_simp

/-- C41: several failures in a row restore the same weights each time. -/
theorem C41_repeated (w : W) (lr : K) (xs : List (IterOutcome W K)) (k : ℕ) :
    (trainLoop w lr (xs ++ List.replicate (k + 1) .failure)).weights = (runTraining w lr xs).weights ∧
    (trainLoop w lr (xs ++ List.replicate (k + 1) .failure)).lr = (trainLoop w lr xs).lr / 2 ^ (k + 1) := by
  induction k with
  | zero =>
    obtain ⟨h, -, -, -, h2⟩ := C41_failure w lr xs
    refine ⟨h, ?_⟩
    rw [← h2]; simp
  | succ k ih =>
    have e : xs ++ List.replicate (k + 1 + 1) IterOutcome.failure = (xs ++ List.replicate (k + 1) IterOutcome.failure) ++ [IterOutcome.failure] := by
      rw [List.replicate_succ', List.append_assoc]
    obtain ⟨h1, h2⟩ := ih
    have hsaved : (trainLoop w lr (xs ++ List.replicate (k + 1) .failure)).saved = (trainLoop w lr xs).saved := by
      clear e h1 h2
      induction (k + 1) with
      | zero => simp
      | succ n ih =>
        rw [List.replicate_succ', ← List.append_assoc, (C41_failure w lr _).2.1, ih]
    rw [e]
    obtain ⟨h, -, -, -, h3⟩ := C41_failure w lr (xs ++ List.replicate (k + 1) .failure)
    refine ⟨?_, ?_⟩
    · rw [h]
      simp only [runTraining, loadBest, hsaved] at h1 ⊢
      rw [h1]
      cases (trainLoop w lr xs).saved <;> rfl
    · have h4 : (trainLoop w lr (xs ++ List.replicate (k + 1) IterOutcome.failure ++ [IterOutcome.failure])).lr =
          (trainLoop w lr (xs ++ List.replicate (k + 1) .failure)).lr / 2 := by rw [← h3]; field_simp
      rw [h4, h2, pow_succ _ (k + 1)]
      field_simp

example : (runTraining (0 : ℕ) (1 : ℚ) [.failure, .success 4 2 false (· + 1) id, .failure]).lr = 1 / 4 := by decide +kernel

/-! ### C73 -/

/-- A solver that is a function of the weights: iterating it for `n` steps. -/
def deterministicRun (f : W → IterOutcome W K) : ℕ → TrainState W K → TrainState W K
  | 0, s => s
  | n + 1, s => deterministicRun f n (trainStep s (f s.weights))

/-- C73 is false: with a deterministic solver, if the very first iteration fails then every iteration fails, however many there are: the "best" state that is
reloaded is the live one. Training ends with the initial weights, empty logs, and the learning rate halved every time. -/
theorem C73_false (f : W → IterOutcome W K) (w : W) (lr : K) (hfail : f w = .failure) (n : ℕ) :
    (loadBest (deterministicRun f n (trainInit w lr))).weights = w ∧ (deterministicRun f n (trainInit w lr)).lossLog = [] ∧
    (deterministicRun f n (trainInit w lr)).lr = lr / 2 ^ n := by
  have key : ∀ n lr, deterministicRun f n (trainInit w lr) = trainInit w (lr / 2 ^ n) := by
    intro n
    induction n with
    | zero => intro lr; simp [deterministicRun]
    | succ n ih =>
      intro lr
      have : trainStep (trainInit w lr) (f (trainInit w lr).weights) = trainInit w (lr * (1 / 2)) := by
        simp only [trainInit, hfail]
        rfl
      rw [deterministicRun, this, ih, pow_succ]
      congr 1
      field_simp
  rw [key]
  exact ⟨rfl, rfl, rfl⟩

/-- C73, the part that holds (missing: failures before the first stored model): once a model has been stored, the weights restored after a failure are ones
with which an earlier iteration ran without failure and without renormalisation. -/
theorem C73_partial (w : W) (lr : K) (xs : List (IterOutcome W K)) (i : ℕ) (m : K) (hi : PhysicalAt xs i m) (hbefore : ∀ j l, j < i → LossAt xs j l → m < l) :
    ∃ i' m', PhysicalAt xs i' m' ∧ (trainLoop w lr (xs ++ [.failure])).weights = weightsAt w lr xs i' := by
  have hsome : ∀ xs : List (IterOutcome W K), PhysicalAt xs i m → (∀ j l, j < i → LossAt xs j l → m < l) → ∃ v, (trainLoop w lr xs).saved = some v := by
    intro xs
    induction xs using List.reverseRecOn with
    | nil => rintro ⟨_, _, _, h⟩; simp at h
    | append_singleton xs x ih =>
      intro hi hb
      rw [trainLoop_snoc, saved_step]
      by_cases h : i < xs.length
      · have hi' : PhysicalAt xs i m := by
          obtain ⟨a, b, c, hh⟩ := hi
          rw [List.getElem?_append_left h] at hh
          exact ⟨a, b, c, hh⟩
        obtain ⟨v, hv⟩ := ih hi' fun j l hj hl => hb j l hj ((lossAt_snoc xs x j (lossAt_lt hl) l).mpr hl)
        cases x with
        | failure => exact ⟨v, hv⟩
        | success loss l1 ren u sc =>
          simp only
          split_ifs
          · exact ⟨_, rfl⟩
          · exact ⟨v, hv⟩
      · have hlt := lossAt_lt (physicalAt_loss hi)
        have : i = xs.length := by simp at hlt; omega
        subst this
        obtain ⟨l1, u, sc, hh⟩ := hi
        simp at hh
        subst hh
        have hbt : beats m (trainLoop w lr xs).bestLoss = true := by
          rw [beats_iff]
          intro j l hl
          exact hb j l (lossAt_lt hl) ((lossAt_snoc xs _ j (lossAt_lt hl) l).mpr hl)
        simp [hbt]
  obtain ⟨v, hv⟩ := hsome xs hi hbefore
  obtain ⟨h1, i', m', h2, h3, -⟩ := C40_stored_partial w lr xs v hv
  exact ⟨i', m', h2, by rw [(C41_failure w lr xs).1, h1, h3]⟩

example : (fun n : ℕ => if n = 0 then (IterOutcome.failure : IterOutcome ℕ ℚ) else .success 1 1 false (· + 1) id) 0 = .failure := rfl

example : PhysicalAt [IterOutcome.success (3 : ℚ) 0 false (fun n : ℕ => n + 1) id] 0 3 ∧
    ∀ j l, j < 0 → LossAt [IterOutcome.success (3 : ℚ) 0 false (fun n : ℕ => n + 1) id] j l → 3 < l := by
  exact ⟨⟨0, _, _, rfl⟩, fun j l hj => absurd hj (by omega)⟩

end Nidn
