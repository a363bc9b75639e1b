/-
Model of storing results: nidn/training/save_run.py, nidn/training/load_run.py, nidn/scripts/run_cfgs.py and where save_all_plots.py puts its files.

Strings are lists of characters, the disk is a set of directories and a partial map from paths to contents. `pickle` is taken to give back an equal object.
Simplifications: `..` inside a folder name is an ordinary component, there are no links, permissions or full disks.
-/
import Verif.Model.Py
import Mathlib.Data.List.Infix

namespace Nidn

/-- a Python string -/
abbrev Str := List Char

/-- split at every `/` -/
def splitSlash : Str → List Str
  | [] => [[]]
  | c :: cs => if c = '/' then [] :: splitSlash cs else
    match splitSlash cs with
    | [] => [[c]]
    | w :: ws => (c :: w) :: ws

/-- The components of a path as the operating system sees them: empty components and `.` do not count. -/
def pathParts (p : Str) : List Str := (splitSlash p).filter fun w => w ≠ [] ∧ w ≠ ['.']

/-- What is on the disk. -/
structure Disk (α : Type) where
  dirs : List (List Str)
  file : List Str → Option α

/-- `Path(p).mkdir(parents=True, exist_ok=True)`, save_run.py:21, save_all_plots.py:21: a file on the way raises. -/
def Disk.mkdirs {α : Type} (d : Disk α) (p : List Str) : Except PyErr (Disk α) :=
  if ∃ q ∈ p.inits, (d.file q).isSome then .error .osError else .ok { d with dirs := d.dirs ++ p.inits }

/-- `open(p, "wb")` and writing, save_run.py:26-27; `plt.savefig(p)`. The folder must exist, and a folder cannot be written to. -/
def Disk.write {α : Type} (d : Disk α) (p : List Str) (x : α) : Except PyErr (Disk α) :=
  if p = [] ∨ p ∈ d.dirs ∨ p.dropLast ∉ d.dirs then .error .osError else .ok { d with file := fun q => if q = p then some x else d.file q }

/-- `open(p, "rb")` and reading, load_run.py:14-15. -/
def Disk.read {α : Type} (d : Disk α) (p : List Str) : Except PyErr α :=
  match d.file p with
  | some x => .ok x
  | none => .error .osError

/-- A time as `datetime.now()` gives it, down to the second. -/
structure Stamp where
  day : ℕ
  month : ℕ
  year : ℕ
  hour : ℕ
  minute : ℕ
  second : ℕ
  deriving DecidableEq

/-- two digits -/
def twoDigits (n : ℕ) : Str := [Nat.digitChar (n / 10 % 10), Nat.digitChar (n % 10)]

/-- `now.strftime("%d-%m-%Y %H-%M-%S")`, save_run.py:18, run_cfgs.py:36. -/
def Stamp.str (t : Stamp) : Str :=
  twoDigits t.day ++ ['-'] ++ twoDigits t.month ++ ['-'] ++ twoDigits (t.year / 100) ++ twoDigits t.year ++ [' '] ++ twoDigits t.hour ++ ['-'] ++ twoDigits t.minute ++ ['-'] ++
    twoDigits t.second

/-- `..` -/
def dotDot : Str := ['.', '.']

/-- `results` -/
def resultsWord : Str := ['r', 'e', 's', 'u', 'l', 't', 's']

/-- `_run.pk` -/
def runEnding : Str := ['_', 'r', 'u', 'n', '.', 'p', 'k']

/-- the path `"../results/" + rest`, save_run.py:21, 23, run_cfgs.py:60 -/
def inResults (rest : Str) : Str := dotDot ++ '/' :: (resultsWord ++ '/' :: rest)

/-- the folder `"../results/" + subfolder + "/"`, save_run.py:21 -/
def resultsFolder (subfolder : Str) : Str := inResults (subfolder ++ ['/'])

/-- the file name of save_run.py:23 -/
def runFile (name subfolder : Str) (now : Stamp) : Str := inResults (subfolder ++ ['/'] ++ (name ++ ['_'] ++ now.str ++ runEnding))

/-- save_run.py:8-27 `save_run(run_cfg, subfolder)` at the time `now`. -/
def saveRun {α : Type} (d : Disk α) (name : Str) (cfg : α) (subfolder : Str) (now : Stamp) : Except PyErr (Disk α) := do
  let d ← d.mkdirs (pathParts (resultsFolder subfolder))
  d.write (pathParts (runFile name subfolder now)) cfg

/-- load_run.py:6-17 `load_run(filename)`. -/
def loadRun {α : Type} (d : Disk α) (filename : Str) : Except PyErr α := d.read (pathParts filename)

/-- The plots of one config, save_all_plots.py:11-39: the files in `save_path`, one after the other. -/
def savePlots {α : Type} (d : Disk α) (savePath : Str) : List (Str × α) → Except PyErr (Disk α)
  | [] => .ok d
  | (f, x) :: rest => do
    let d ← d.write (pathParts (savePath ++ ['/'] ++ f)) x
    savePlots d savePath rest

/-- One config file of the batch script: the name in it, what is stored for it after training, its plots (file names and contents), and when it is stored. -/
structure BatchItem (α : Type) where
  name : Str
  run : α
  plots : List (Str × α)
  now : Stamp

/-- `subfolder_name = cfg.name + "_" + dt_string`, run_cfgs.py:57, inside the folder of line 37 -/
def batchFolder (start : Stamp) (name : Str) : Str := start.str ++ '_' :: resultsWord ++ ['/'] ++ (name ++ ['_'] ++ start.str) ++ ['/']

/-- run_cfgs.py:57-61 for one config whose training succeeded. -/
def batchStep {α : Type} (start : Stamp) (d : Disk α) (i : BatchItem α) : Except PyErr (Disk α) := do
  let d ← saveRun d i.name i.run (batchFolder start i.name) i.now
  let d ← d.mkdirs (pathParts (inResults (batchFolder start i.name)))
  savePlots d (inResults (batchFolder start i.name)) i.plots

/-- run_cfgs.py:41-64: all configs in turn; the first exception ends the script. -/
def batchRun {α : Type} (start : Stamp) (d : Disk α) (items : List (BatchItem α)) : Except PyErr (Disk α) := items.foldlM (batchStep start) d

end Nidn
