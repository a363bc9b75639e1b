/-
Model of the training loop: nidn/training/run_training.py:82-199.

The loop is a state machine. What the environment decides in one iteration (the solver raising ValueError, or the loss values, the renormalisation flag, the
optimiser's weight update and the scheduler's learning rate) is an `IterOutcome`; any real run induces such a list of outcomes, so a statement for all lists is a
statement for all runs. Weights are an arbitrary type `W`; losses and learning rates are elements of an ordered field. NaN losses are not modelled. Progress
logging and the CUDA cache are left out.
-/
import Verif.Model.Py
import Mathlib.Algebra.Order.Field.Basic

namespace Nidn

/-- What happens in one iteration of run_training.py:102-193. -/
inductive IterOutcome (W K : Type)
  /-- `compute_spectrum` raised ValueError (lines 114-123) -/
  | failure
  /-- the spectrum was computed: the total loss (lines 147-155), the L1 error (lines 137-145), the flag (line 126), what `optimizer.step()` does to the weights
  (line 190) and what `scheduler.step` does to the learning rate (line 193) -/
  | success (loss l1 : K) (renormalized : Bool) (update : W → W) (schedule : K → K)

/-- The variables of the training loop. `saved = none` means that `best_model_state_dict` is still `model.state_dict()` of line 98, which refers to
the live weights; `some w` is a `deepcopy` (line 165). `bestLoss = none` is `np.inf` (line 97). -/
structure TrainState (W K : Type) where
  weights : W
  saved : Option W
  bestLoss : Option K
  lr : K
  /-- `deque([], maxlen=20)` (line 94) -/
  window : List K
  lossLog : List K
  avgLog : List K
  l1Log : List K

section
variable {W K : Type} [Field K] [LinearOrder K]

/-- run_training.py:85-98: the state before the first iteration. -/
def trainInit (w : W) (lr : K) : TrainState W K :=
  { weights := w, saved := none, bestLoss := none, lr := lr, window := [], lossLog := [], avgLog := [], l1Log := [] }

/-- `model.load_state_dict(best_model_state_dict)` (lines 118 and 197): copying the live weights onto themselves changes nothing. -/
def loadBest (s : TrainState W K) : TrainState W K := { s with weights := s.saved.getD s.weights }

/-- `deque.append` with `maxlen=20`: the oldest element falls out. -/
def dequeAppend (q : List K) (x : K) : List K := (q ++ [x]).drop ((q ++ [x]).length - 20)

/-- `np.mean` of the deque -/
def meanOf (q : List K) : K := q.sum / q.length

/-- `loss < best_loss` with `best_loss` possibly infinite (line 158). -/
def beats (loss : K) : Option K → Bool
  | none => true
  | some b => decide (loss < b)

/-- run_training.py:158-165 -/
def recordBest (s : TrainState W K) (loss : K) (renormalized : Bool) : TrainState W K :=
  if beats loss s.bestLoss then
    { s with bestLoss := some loss, saved := if renormalized then s.saved else some s.weights }
  else s

/-- run_training.py:168-173 -/
def writeLogs (s : TrainState W K) (loss l1 : K) : TrainState W K :=
  { s with
    window := dequeAppend s.window loss                             -- line 168
    avgLog := s.avgLog ++ [meanOf (dequeAppend s.window loss)]      -- line 171
    lossLog := s.lossLog ++ [loss]                                  -- line 172
    l1Log := s.l1Log ++ [l1] }                                      -- line 173

/-- run_training.py:102-193: one iteration. -/
def trainStep (s : TrainState W K) : IterOutcome W K → TrainState W K
  | .failure => { loadBest s with lr := s.lr * (1 / 2) }            -- lines 118-123
  | .success loss l1 ren update schedule =>
    let s := recordBest s loss ren
    let s := writeLogs s loss l1
    { s with weights := update s.weights, lr := schedule s.lr }     -- lines 184-193

/-- run_training.py:102: the loop. `range(iterations)` has as many passes as the list has outcomes. -/
def trainLoop (w : W) (lr : K) (outcomes : List (IterOutcome W K)) : TrainState W K := outcomes.foldl trainStep (trainInit w lr)

/-- run_training.py:71-199: the loop followed by reloading the best state (line 197). -/
def runTraining (w : W) (lr : K) (outcomes : List (IterOutcome W K)) : TrainState W K := loadBest (trainLoop w lr outcomes)

end

/-- The learning-rate decision of `torch.optim.lr_scheduler.ReduceLROnPlateau(factor=0.66, min_lr=1e-6)` with its default `eps=1e-8`, as used at
run_training.py:64-66 and :193: when the patience is exhausted (`reduce`) the rate becomes `max(lr*0.66, min_lr)` if that is a reduction by more than `eps`. -/
def plateauLr {K : Type} [Field K] [LinearOrder K] (reduce : Bool) (lr : K) : K :=
  if reduce then
    if lr - max (lr * (66 / 100)) (1 / 1000000) > 1 / 100000000 then max (lr * (66 / 100)) (1 / 1000000) else lr
  else lr

end Nidn
