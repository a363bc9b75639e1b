/-
C159: what the seed of the config fixes about a training run, and what it does not.
-/
import Verif.Model.TrainSeed
import Verif.Lemmas.Py
import Mathlib.Tactic.NormNum
import Mathlib.Data.Rat.Lemmas

namespace Nidn

section
variable {W K Z A O T N : Type} [Field K] [LinearOrder K]

/-- What a user sees of a finished run: the logs, the weights of the network, the stored best weights and the final learning rate. -/
structure Seen (W K : Type) where
  losses : List K
  averages : List K
  l1s : List K
  weights : W
  best : Option W
  rate : K

/-- The visible part of a run; a run that ends with an exception shows the exception. -/
def seen (r : Except PyErr (TrainState W K × SeedCfg W K × Gens T N)) : Except PyErr (Seen W K) :=
  r.map fun x => ⟨x.1.lossLog, x.1.avgLog, x.1.l1Log, x.1.weights, x.1.saved, x.1.lr⟩

/-- Anything that happened in the process before: other calls that draw numbers, and other training runs (finished or not), in any order. -/
inductive Before (E : TrainEnv W K Z A O T N) : Gens T N → Gens T N → Prop
  | nothing (g) : Before E g g
  | drawn (g h) (t : T) : Before E g h → Before E g { h with torch := t }
  | drawnNumpy (g h) (n : N) : Before E g h → Before E g { h with numpy := n }
  | trained (g h h') (c c' : SeedCfg W K) (s) : Before E g h → runSeeded E c h = .ok (s, c', h') → Before E g h'

omit [Field K] [LinearOrder K] in
theorem reseed_ok {E : TrainEnv W K Z A O T N} {v : Val} {g g' : Gens T N} (h : reseed E v g = .ok g') :
    ∃ s, v.num = .ok s ∧ 0 ≤ s ∧ s < 2 ^ 32 ∧ g' = ⟨E.seedTorch s, E.seedNumpy s⟩ := by
  unfold reseed fixSeeds at h
  simp only [bind_ok] at h
  obtain ⟨_, ⟨s, hs, h1⟩, s', hs', h2⟩ := h
  rw [hs] at hs'
  cases hs'
  cases h2
  split at h1
  · cases h1
  · split at h1
    · cases h1
    · rename_i h3 h4
      rw [not_or, not_lt, not_le] at h4
      exact ⟨s, hs, h4.1, h4.2, rfl⟩

omit [Field K] [LinearOrder K] in
theorem reseed_run {E : TrainEnv W K Z A O T N} {v : Val} {s : ℚ} (g : Gens T N) (hv : v.num = .ok s) (h0 : 0 ≤ s) (h1 : s < 2 ^ 32) :
    reseed E v g = .ok ⟨E.seedTorch s, E.seedNumpy s⟩ := by
  have hf : fixSeeds v = .ok () := by
    unfold fixSeeds
    rw [hv, ok_bind, if_neg, if_neg]
    · rw [not_or, not_lt, not_le]; exact ⟨h0, h1⟩
    · rw [not_or, not_lt, not_le]
      exact ⟨by linarith [show (0:ℚ) ≤ 2 ^ 63 by norm_num], by linarith [show (2 ^ 32 : ℚ) < 2 ^ 64 by norm_num]⟩
  unfold reseed
  rw [hf, ok_bind, hv, ok_bind]
  rfl

/-- **C159 (reproducible).** A run shows the same logs, weights and learning rate no matter what happened before in the process; in particular a second run with the returned config repeats the
first one once its network is taken out again. The generators are left in the same state as well. -/
theorem C159_reproducible (E : TrainEnv W K Z A O T N) (c : SeedCfg W K) (g : Gens T N) :
    (∀ h, Before E g h → runSeeded E c h = runSeeded E c g) ∧
    (c.model = none → ∀ s c' h, runSeeded E c g = .ok (s, c', h) → runSeeded E { c' with model := none } h = .ok (s, c', h)) := by
  refine ⟨fun h _ => rfl, fun hm s c' h hr => ?_⟩
  have hc : { c' with model := none } = c := by
    unfold runSeeded at hr
    simp only [bind_ok] at hr
    obtain ⟨x, _, y, _, hy⟩ := hr
    cases hy
    cases c
    cases hm
    rfl
  rw [hc]
  exact hr

/-! Without noise no numbers are drawn. -/

theorem seedPass_quiet {E : TrainEnv W K Z A O T N} {c : SeedCfg W K} (hc : c.addNoise = false) (s : TrainState W K) (o : O) :
    ∃ r : Except PyErr (TrainState W K × O), ∀ g : Gens T N, seedPass E c (s, o, g) = r.map fun y => (y.1, y.2, g) := by
  have hz : ∀ g, noiseOf E c.addNoise g = (none, g) := fun g => by rw [hc]; rfl
  cases hj : E.judge (E.grid s.weights none) with
  | error e =>
    by_cases he : e = .valueError
    · subst he
      refine ⟨.ok (trainStep s .failure, o), fun g => ?_⟩
      unfold seedPass
      simp only [hz, hj]
      rfl
    · refine ⟨.error e, fun g => ?_⟩
      unfold seedPass
      simp only [hz, hj]
      rfl
  | ok v =>
    obtain ⟨l, l1, ren⟩ := v
    refine ⟨.ok (trainStep s (.success l l1 ren (fun _ => (E.step s.weights none o s.lr).1) (fun _ => (E.step s.weights none o s.lr).2.2)), (E.step s.weights none o s.lr).2.1), fun g => ?_⟩
    unfold seedPass
    simp only [hz, hj]
    rfl

theorem seedLoop_quiet {E : TrainEnv W K Z A O T N} {c : SeedCfg W K} (hc : c.addNoise = false) (n : ℕ) (s : TrainState W K) (o : O) :
    ∃ r : Except PyErr (TrainState W K × O), ∀ g : Gens T N, seedLoop E c n (s, o, g) = r.map fun y => (y.1, y.2, g) := by
  induction n generalizing s o with
  | zero => exact ⟨.ok (s, o), fun g => rfl⟩
  | succ n ih =>
    obtain ⟨r, hr⟩ := seedPass_quiet (E := E) hc s o
    cases r with
    | error e => exact ⟨.error e, fun g => by rw [seedLoop, hr g]; rfl⟩
    | ok y =>
      obtain ⟨r', hr'⟩ := ih y.1 y.2
      exact ⟨r', fun g => by rw [seedLoop, hr g]; exact hr' g⟩

/-- The same loop for configs that differ only in the seed. -/
theorem seedLoop_config {E : TrainEnv W K Z A O T N} {c c' : SeedCfg W K} (h : c.addNoise = c'.addNoise) (n : ℕ) (x : TrainState W K × O × Gens T N) :
    seedLoop E c n x = seedLoop E c' n x := by
  induction n generalizing x with
  | zero => rfl
  | succ n ih =>
    have hp : seedPass E c x = seedPass E c' x := by unfold seedPass; rw [h]
    rw [seedLoop, seedLoop, hp]
    exact bind_congr fun y => ih y

/-- **C159 (what the seed is for).** The seed acts through the start weights and the noise only: a run without noise that starts from a given network shows the same for every valid seed. -/
theorem C159_seed_unused (E : TrainEnv W K Z A O T N) (c : SeedCfg W K) (w : W) (hm : c.model = some w) (hn : c.addNoise = false) (v v' : Val) (s s' : ℚ)
    (hv : v.num = .ok s) (h0 : 0 ≤ s) (h1 : s < 2 ^ 32) (hv' : v'.num = .ok s') (h0' : 0 ≤ s') (h1' : s' < 2 ^ 32) (g : Gens T N) :
    seen (runSeeded E { c with seed := v } g) = seen (runSeeded E { c with seed := v' } g) := by
  obtain ⟨r, hr⟩ := seedLoop_quiet (E := E) (c := c) hn c.iterations (trainInit w c.learningRate) (E.fresh w)
  have key : ∀ (u : Val) (q : ℚ), u.num = .ok q → 0 ≤ q → q < 2 ^ 32 →
      seen (runSeeded E { c with seed := u } g) = r.map fun y => (⟨y.1.lossLog, y.1.avgLog, y.1.l1Log, (loadBest y.1).weights, y.1.saved, y.1.lr⟩ : Seen W K) := by
    intro u q hu h0 h1
    unfold runSeeded startRun
    simp only [hm]
    rw [reseed_run g hu h0 h1, ok_bind]
    simp only [pure_bind]
    rw [seedLoop_config (c := ⟨u, c.iterations, c.addNoise, c.learningRate, some w⟩) (c' := c) rfl, hr]
    cases r <;> rfl
  rw [key v s hv h0 h1, key v' s' hv' h0' h1']

/-- A pass keeps the generator of numpy, and without noise the one of torch as well. -/
theorem seedPass_gens {E : TrainEnv W K Z A O T N} {c : SeedCfg W K} {s s' : TrainState W K} {o o' : O} {g g' : Gens T N} (h : seedPass E c (s, o, g) = .ok (s', o', g')) :
    g'.numpy = g.numpy ∧ (c.addNoise = false → g' = g) := by
  have hg : (noiseOf E c.addNoise g).2.numpy = g.numpy ∧ (c.addNoise = false → (noiseOf E c.addNoise g).2 = g) := by
    unfold noiseOf
    constructor
    · split <;> rfl
    · intro hc
      rw [if_neg (by rw [hc]; exact Bool.false_ne_true)]
  unfold seedPass at h
  dsimp only at h
  split at h
  · cases h; exact hg
  · cases h
  · cases h; exact hg

theorem seedLoop_gens {E : TrainEnv W K Z A O T N} {c : SeedCfg W K} (n : ℕ) {s s' : TrainState W K} {o o' : O} {g g' : Gens T N}
    (h : seedLoop E c n (s, o, g) = .ok (s', o', g')) : g'.numpy = g.numpy ∧ (c.addNoise = false → g' = g) := by
  induction n generalizing s o g with
  | zero => cases h; exact ⟨rfl, fun _ => rfl⟩
  | succ n ih =>
    rw [seedLoop] at h
    simp only [bind_ok] at h
    obtain ⟨⟨s1, o1, g1⟩, h1, h2⟩ := h
    have a := seedPass_gens h1
    have b := ih h2
    exact ⟨b.1.trans a.1, fun hc => (b.2 hc).trans (a.2 hc)⟩

/-- **C159 (the generators afterwards).** A run takes the generators of the process over: afterwards the one of numpy is as if just seeded, and so is the one of torch up to what building the network (and the noise, if any)
drew. Numbers a user draws after a run therefore do not depend on what was seeded before it. -/
theorem C159_generators (E : TrainEnv W K Z A O T N) (c c' : SeedCfg W K) (g h : Gens T N) (s : TrainState W K) (hr : runSeeded E c g = .ok (s, c', h)) :
    ∃ q, c.seed.num = .ok q ∧ h.numpy = E.seedNumpy q ∧
      (c.addNoise = false → h.torch = match c.model with | none => (E.build (E.seedTorch q)).2 | some _ => E.seedTorch q) := by
  unfold runSeeded at hr
  simp only [bind_ok] at hr
  obtain ⟨⟨s0, o0, g0⟩, h0, ⟨s1, o1, g1⟩, h1, h2⟩ := hr
  cases h2
  have a := seedLoop_gens _ h1
  unfold startRun at h0
  simp only [bind_ok] at h0
  obtain ⟨g2, h3, h4⟩ := h0
  obtain ⟨q, hq, _, _, rfl⟩ := reseed_ok h3
  refine ⟨q, hq, ?_⟩
  split at h4
  · rename_i w hw
    cases h4
    exact ⟨a.1, fun hc => by rw [a.2 hc, hw]⟩
  · rename_i hw
    cases h4
    exact ⟨a.1, fun hc => by rw [a.2 hc, hw]⟩

theorem seedLoop_add {E : TrainEnv W K Z A O T N} {c : SeedCfg W K} (m k : ℕ) (x : TrainState W K × O × Gens T N) :
    seedLoop E c (m + k) x = seedLoop E c m x >>= seedLoop E c k := by
  induction m generalizing x with
  | zero => rw [Nat.zero_add]; rfl
  | succ m ih =>
    rw [show m + 1 + k = (m + k) + 1 by omega, seedLoop, seedLoop]
    cases seedPass E c x with
    | error e => rfl
    | ok y => exact ih y

/-- `s'` comes later in a run than `s`: its logs extend those of `s`, and its best loss is no worse. -/
def Later (s s' : TrainState W K) : Prop :=
  s.lossLog <+: s'.lossLog ∧ s.avgLog <+: s'.avgLog ∧ s.l1Log <+: s'.l1Log ∧ ∀ b, s.bestLoss = some b → ∃ b', s'.bestLoss = some b' ∧ b' ≤ b

omit [Field K] in
theorem Later.trans {s s' s'' : TrainState W K} (h : Later s s') (h' : Later s' s'') : Later s s'' := by
  refine ⟨h.1.trans h'.1, h.2.1.trans h'.2.1, h.2.2.1.trans h'.2.2.1, fun b hb => ?_⟩
  obtain ⟨b', hb', h1⟩ := h.2.2.2 b hb
  obtain ⟨b'', hb'', h2⟩ := h'.2.2.2 b' hb'
  exact ⟨b'', hb'', h2.trans h1⟩

theorem trainStep_later (s : TrainState W K) (x : IterOutcome W K) : Later s (trainStep s x) := by
  cases x with
  | failure => exact ⟨List.prefix_rfl, List.prefix_rfl, List.prefix_rfl, fun b hb => ⟨b, hb, le_rfl⟩⟩
  | success l l1 ren u sc =>
    have key : ∀ s' : TrainState W K, recordBest s l ren = s' → s'.lossLog = s.lossLog ∧ s'.avgLog = s.avgLog ∧ s'.l1Log = s.l1Log ∧
        ∀ b, s.bestLoss = some b → ∃ b', s'.bestLoss = some b' ∧ b' ≤ b := by
      intro s' hs
      unfold recordBest at hs
      split at hs
      · rename_i hb
        cases hs
        refine ⟨rfl, rfl, rfl, fun b h => ⟨l, rfl, ?_⟩⟩
        rw [h] at hb
        exact (of_decide_eq_true hb).le
      · cases hs
        exact ⟨rfl, rfl, rfl, fun b h => ⟨b, h, le_rfl⟩⟩
    obtain ⟨h1, h2, h3, h4⟩ := key _ rfl
    refine ⟨?_, ?_, ?_, h4⟩
    · show s.lossLog <+: (recordBest s l ren).lossLog ++ _
      rw [h1]; exact List.prefix_append _ _
    · show s.avgLog <+: (recordBest s l ren).avgLog ++ _
      rw [h2]; exact List.prefix_append _ _
    · show s.l1Log <+: (recordBest s l ren).l1Log ++ _
      rw [h3]; exact List.prefix_append _ _

theorem seedLoop_later {E : TrainEnv W K Z A O T N} {c : SeedCfg W K} (n : ℕ) {x y : TrainState W K × O × Gens T N} (h : seedLoop E c n x = .ok y) : Later x.1 y.1 := by
  induction n generalizing x with
  | zero => cases h; exact ⟨List.prefix_rfl, List.prefix_rfl, List.prefix_rfl, fun b hb => ⟨b, hb, le_rfl⟩⟩
  | succ n ih =>
    rw [seedLoop] at h
    simp only [bind_ok] at h
    obtain ⟨z, h1, h2⟩ := h
    refine Later.trans ?_ (ih h2)
    unfold seedPass at h1
    dsimp only at h1
    split at h1
    · cases h1; exact trainStep_later _ _
    · cases h1
    · cases h1; exact trainStep_later _ _

/-- **C159 (longer runs).** A run with more iterations begins like the shorter one: if it finishes, so does the shorter one, the logs of the shorter run are the first entries of the logs of the longer one, and the best loss of the
longer one is no worse. -/
theorem C159_longer (E : TrainEnv W K Z A O T N) (c : SeedCfg W K) (g : Gens T N) (m n : ℕ) (hmn : m ≤ n) (r : TrainState W K × SeedCfg W K × Gens T N)
    (hr : runSeeded E { c with iterations := n } g = .ok r) :
    ∃ r', runSeeded E { c with iterations := m } g = .ok r' ∧ r'.1.lossLog <+: r.1.lossLog ∧ r'.1.avgLog <+: r.1.avgLog ∧ r'.1.l1Log <+: r.1.l1Log ∧
      (∀ b', r'.1.bestLoss = some b' → ∃ b, r.1.bestLoss = some b ∧ b ≤ b') := by
  obtain ⟨k, rfl⟩ := Nat.exists_eq_add_of_le hmn
  unfold runSeeded at hr
  simp only [bind_ok] at hr
  obtain ⟨x, h0, y, h1, h2⟩ := hr
  rw [seedLoop_config (c := { c with iterations := m + k }) (c' := c) rfl, seedLoop_add] at h1
  simp only [bind_ok] at h1
  obtain ⟨z, h3, h4⟩ := h1
  have hl := seedLoop_later _ h4
  cases h2
  refine ⟨(loadBest z.1, { c with iterations := m, model := some (loadBest z.1).weights }, z.2.2), ?_, hl.1, hl.2.1, hl.2.2.1, hl.2.2.2⟩
  unfold runSeeded
  rw [show startRun E { c with iterations := m } g = .ok x from h0, ok_bind, seedLoop_config (c := { c with iterations := m }) (c' := c) rfl]
  dsimp only
  rw [h3]
  rfl

end

/-! What the seed does not do. -/

/-- A small training problem: the weight is one number, drawn at the start; its loss is its square; each step halves it; noise is added to it. -/
def halving : TrainEnv ℚ ℚ ℚ ℚ Unit ℚ ℚ where
  seedTorch s := s
  seedNumpy s := s
  build t := (t, t + 1)
  draw t := (t, t + 1)
  grid w z := w + z.getD 0
  judge a := .ok (a ^ 2, |a|, false)
  fresh _ := ()
  step w _ _ lr := (w / 2, (), lr)

/-- hypotheses of the C159 theorems are met: a noisy run of two iterations after numbers were drawn, which finishes, and a noise-free run from a given network -/
example : Before halving ⟨0, 0⟩ ⟨7, 0⟩ ∧ (∃ r, runSeeded halving ⟨.int 8, 2, true, 1, none⟩ ⟨0, 0⟩ = .ok r ∧ r.1.lossLog = [17 ^ 2, 14 ^ 2] ∧ r.2.2 = ⟨11, 8⟩) ∧
    (∃ r, runSeeded halving ⟨.int 8, 1, true, 1, none⟩ ⟨7, 0⟩ = .ok r ∧ r.1.lossLog = [17 ^ 2]) ∧
    (∃ r, runSeeded halving ⟨.int 3, 2, false, 1, some 5⟩ ⟨0, 0⟩ = .ok r ∧ r.1.lossLog = [25, 25 / 4]) ∧ (Val.int 3).num = .ok 3 := by
  refine ⟨.drawn _ _ 7 (.nothing _), ⟨_, rfl, ?_, ?_⟩, ⟨_, rfl, ?_⟩, ⟨_, rfl, ?_⟩, rfl⟩ <;> with_unfolding_all rfl

/-- **C159 (repeating a run).** Running the same config twice does not show the same: after the first run the config holds the trained network, and the second run goes on from it. -/
theorem C159_again_false : ∃ (E : TrainEnv ℚ ℚ ℚ ℚ Unit ℚ ℚ) (c c' : SeedCfg ℚ ℚ) (g h : Gens ℚ ℚ) (s : TrainState ℚ ℚ), c.model = none ∧ c.addNoise = false ∧
    runSeeded E c g = .ok (s, c', h) ∧ seen (runSeeded E c' h) ≠ seen (runSeeded E c g) := by
  refine ⟨halving, ⟨.int 8, 2, false, 1, none⟩, ⟨.int 8, 2, false, 1, some 4⟩, ⟨0, 0⟩, ⟨9, 8⟩, ⟨4, some 4, some 16, 1, [64, 16], [64, 16], [64, 40], [8, 4]⟩, rfl, rfl, ?_, fun h => ?_⟩
  · with_unfolding_all rfl
  · have := congrArg (fun r => r.toOption.map (·.losses)) h
    revert this
    decide +kernel

/-- **C159 (resuming).** Nor does the second run go on where a longer first run would be: two runs of one iteration each do not show what one run of two iterations does. -/
theorem C159_resume_false : ∃ (E : TrainEnv ℚ ℚ ℚ ℚ Unit ℚ ℚ) (c c' : SeedCfg ℚ ℚ) (g h h' h'' : Gens ℚ ℚ) (s s' s'' : TrainState ℚ ℚ) (c'' c₂ : SeedCfg ℚ ℚ), c.iterations = 1 ∧ 
    runSeeded E c g = .ok (s, c', h) ∧ runSeeded E c' h = .ok (s', c'', h') ∧ runSeeded E { c with iterations := 2 } g = .ok (s'', c₂, h'') ∧
    s.lossLog ++ s'.lossLog ≠ s''.lossLog := by
  refine ⟨halving, ⟨.int 8, 1, false, 1, none⟩, ⟨.int 8, 1, false, 1, some 8⟩, ⟨0, 0⟩, ⟨9, 8⟩, ⟨8, 8⟩, ⟨9, 8⟩, ⟨8, some 8, some 64, 1, [64], [64], [64], [8]⟩, ⟨8, some 8, some 64, 1, [64], [64], [64], [8]⟩,
    ⟨4, some 4, some 16, 1, [64, 16], [64, 16], [64, 40], [8, 4]⟩, ⟨.int 8, 1, false, 1, some 8⟩, ⟨.int 8, 2, false, 1, some 4⟩, rfl, ?_, ?_, ?_, by decide +kernel⟩
  · with_unfolding_all rfl
  · with_unfolding_all rfl
  · with_unfolding_all rfl

end Nidn
