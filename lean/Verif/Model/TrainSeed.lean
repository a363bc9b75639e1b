/-
Model of the random numbers of a training run: nidn/utils/fix_random_seeds.py:5-12 and nidn/training/run_training.py:22-69, 71-199.

`Model/Training.lean` takes what happens in an iteration as given. Here it is computed: the global generators of torch and numpy are part of the state, the network is
built from the torch generator, and the noise of an iteration is drawn from it. What torch, the solver and the losses compute for given inputs is an arbitrary function
(`TrainEnv`), so that the same inputs give the same outputs; hardware on which this is not so (some CUDA kernels) is outside the model.
-/
import Verif.Model.Training
import Verif.Model.TrainConfig

namespace Nidn

/-- The global random generators of torch and numpy. -/
structure Gens (T N : Type) where
  torch : T
  numpy : N

/-- What the libraries compute during a run with a fixed config. `W` are weights, `Z` noise tensors, `A` permittivity grids, `O` the states of optimiser and scheduler, `T` and `N` the states of the generators. -/
structure TrainEnv (W K Z A O T N : Type) where
  /-- `torch.manual_seed` (fix_random_seeds.py:11) -/
  seedTorch : ℚ → T
  /-- `np.random.seed` (fix_random_seeds.py:12) -/
  seedNumpy : ℚ → N
  /-- `init_network(run_cfg)` (run_training.py:60): weights are drawn from the generator of torch (siren.py, nerf.py, voxel.py) -/
  build : T → W × T
  /-- the `torch.randn_like` calls of one evaluation (model_to_eps_grid.py:205, 212, 267) -/
  draw : T → Z × T
  /-- the rest of `model_to_eps_grid` (run_training.py:106); `none` is an evaluation without noise -/
  grid : W → Option Z → A
  /-- `compute_spectrum` and the losses (run_training.py:111-155): loss, L1 error, renormalisation flag -/
  judge : A → Except PyErr (K × K × Bool)
  /-- the states of `Adam` and `ReduceLROnPlateau` before the first step (run_training.py:63-66) -/
  fresh : W → O
  /-- `loss.backward(); optimizer.step(); scheduler.step(loss)` (run_training.py:187-193): new weights, states and learning rate -/
  step : W → Option Z → O → K → W × O × K

/-- The entries of the config that decide about random numbers. `model = none` also stands for a config without the entry (run_training.py:59). -/
structure SeedCfg (W K : Type) where
  seed : Val
  iterations : ℕ
  addNoise : Bool
  learningRate : K
  model : Option W

section
variable {W K Z A O T N : Type} [Field K] [LinearOrder K]

/-- fix_random_seeds.py:5-12 with its effect on the generators. -/
def reseed (E : TrainEnv W K Z A O T N) (v : Val) (_g : Gens T N) : Except PyErr (Gens T N) := do
  fixSeeds v
  let s ← v.num
  pure ⟨E.seedTorch s, E.seedNumpy s⟩

/-- run_training.py:55-66: seeding, then the network if there is none yet, then a new optimiser. -/
def startRun (E : TrainEnv W K Z A O T N) (c : SeedCfg W K) (g₀ : Gens T N) : Except PyErr (TrainState W K × O × Gens T N) := do
  let g ← reseed E c.seed g₀                                                                  -- line 56
  match c.model with
  | some w => pure (trainInit w c.learningRate, E.fresh w, g)                                -- line 59 skipped
  | none =>
    let b := E.build g.torch                                                                 -- line 60
    pure (trainInit b.1 c.learningRate, E.fresh b.1, { g with torch := b.2 })

/-- model_to_eps_grid.py:203 and 266: noise is drawn only if `add_noise` is set. -/
def noiseOf (E : TrainEnv W K Z A O T N) (addNoise : Bool) (g : Gens T N) : Option Z × Gens T N :=
  if addNoise then (some (E.draw g.torch).1, { g with torch := (E.draw g.torch).2 }) else (none, g)

/-- run_training.py:102-193: one pass of the loop. Errors other than ValueError end the run. -/
def seedPass (E : TrainEnv W K Z A O T N) (c : SeedCfg W K) (x : TrainState W K × O × Gens T N) : Except PyErr (TrainState W K × O × Gens T N) :=
  let (s, o, g) := x
  let (z, g) := noiseOf E c.addNoise g
  match E.judge (E.grid s.weights z) with                                                    -- lines 106-155
  | .error .valueError => .ok (trainStep s .failure, o, g)                                   -- lines 114-123
  | .error e => .error e
  | .ok (loss, l1, ren) =>
    let (w, o, lr) := E.step s.weights z o s.lr                                              -- lines 184-193
    .ok (trainStep s (.success loss l1 ren (fun _ => w) (fun _ => lr)), o, g)

/-- run_training.py:102: the loop. -/
def seedLoop (E : TrainEnv W K Z A O T N) (c : SeedCfg W K) : ℕ → TrainState W K × O × Gens T N → Except PyErr (TrainState W K × O × Gens T N)
  | 0, x => .ok x
  | n + 1, x => do seedLoop E c n (← seedPass E c x)

/-- run_training.py:71-199 `run_training`: the final state, the generators it leaves behind, and the config, which now holds the network (line 60). -/
def runSeeded (E : TrainEnv W K Z A O T N) (c : SeedCfg W K) (g : Gens T N) : Except PyErr (TrainState W K × SeedCfg W K × Gens T N) := do
  let x ← startRun E c g                                                                     -- line 85
  let (s, _, g) ← seedLoop E c c.iterations x                                                -- lines 102-193
  let s := loadBest s                                                                        -- line 197
  pure (s, { c with model := some s.weights }, g)

end

end Nidn
