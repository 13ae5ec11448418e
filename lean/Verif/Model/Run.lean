import Mathlib.Data.List.Basic
import Mathlib.Data.List.Range

/-!
# Run lifecycle: `run()`, `run_single()` and the numba thread count

Mirrors `openamundsen/model.py:211-285` and `457-491`. The body of a time step
(`model.py:266-282`) is abstracted to whether it raises; the log messages are left out.
-/

namespace Verif.Run

/-- `_run_method`. -/
inductive Method
  | run
  | runSingle
  deriving DecidableEq

/-- How a call ends. -/
inductive Outcome
  /-- returns normally -/
  | ok
  /-- "Model run already finished" (`model.py:260`) -/
  | finished
  /-- "run() cannot be called multiple times" (`model.py:217`) -/
  | runTwice
  /-- "run() cannot be called after run_single() has been called" (`model.py:219`) -/
  | runAfterSingle
  /-- `self.dates[self.date_idx]` out of range (`model.py:264`) -/
  | indexError
  /-- an exception in the body of the time step (`model.py:266-282`) -/
  | stepError
  deriving DecidableEq

/-- What a run depends on: number of dates, resolved thread count, and whether the body of the
time step of a date succeeds. -/
structure Env where
  n : ℕ
  threads : Option ℕ
  bodyOk : ℕ → Bool

/-- Run state: `_run_method`, `date_idx`, the process-wide numba thread count, the indices of the
dates whose time step has been started, and of those completed. -/
structure State where
  method : Option Method
  idx : Option ℕ
  procThreads : ℕ
  started : List ℕ
  completed : List ℕ

/-- A model after `initialize()`. -/
def State.fresh (procThreads : ℕ) : State :=
  { method := none, idx := none, procThreads := procThreads, started := [], completed := [] }

/-- The new `date_idx`, `model.py:257-262`; `none` if the run is already finished.
`date_idx == len(dates) - 1` with python integers is never true for an empty list. -/
def nextIdx (n : ℕ) (idx : Option ℕ) : Option ℕ :=
  match idx with
  | none => some 0
  | some i => if i + 1 = n then none else some (i + 1)

/-- `run_single()`, `model.py:238-285`. -/
def runSingle (e : Env) (s : State) : Outcome × State :=
  let s1 := { s with method := match s.method with
                                | none => some .runSingle
                                | some m => some m }
  let s2 := { s1 with procThreads := match e.threads with
                                      | none => s1.procThreads
                                      | some t => t }
  match nextIdx e.n s.idx with
  | none => (.finished, s2)
  | some i =>
    if i < e.n then
      let s3 := { s2 with idx := some i, started := s.started ++ [i] }
      if e.bodyOk i then
        (.ok, { s3 with procThreads := s.procThreads, completed := s.completed ++ [i] })
      else (.stepError, s3)
    else (.indexError, { s2 with idx := some i })

/-- The loop of `run()`, `model.py:233-234`. -/
def runLoop (e : Env) : ℕ → State → Outcome × State
  | 0, s => (.ok, s)
  | k + 1, s =>
    match runSingle e s with
    | (.ok, s') => runLoop e k s'
    | r => r

/-- `run()`, `model.py:211-236`. -/
def run (e : Env) (s : State) : Outcome × State :=
  match s.method with
  | some .run => (.runTwice, s)
  | some .runSingle => (.runAfterSingle, s)
  | none => runLoop e e.n { s with method := some .run }

/-- A call by the user. -/
inductive Call
  | run
  | runSingle
  deriving DecidableEq

/-- One call. -/
def call (e : Env) (c : Call) (s : State) : Outcome × State :=
  match c with
  | .run => run e s
  | .runSingle => runSingle e s

/-- A sequence of calls: outcomes and final state. -/
def calls (e : Env) : List Call → State → List Outcome × State
  | [], s => ([], s)
  | c :: cs, s =>
    let r := call e c s
    let t := calls e cs r.2
    (r.1 :: t.1, t.2)

/-- `numba_threads` in the configuration. -/
inductive ThreadsCfg
  | systemDefault
  | auto
  | fixed (k : ℕ)

/-- `_resolve_numba_threads`, `model.py:457-491`: `envSet` is whether `NUMBA_NUM_THREADS` is in the
environment, `avail` is `numba.config.NUMBA_NUM_THREADS`. -/
def resolveThreads (c : ThreadsCfg) (envSet : Bool) (rows cols avail : ℕ) : Option ℕ :=
  match c with
  | .systemDefault => none
  | .auto =>
    if envSet then none
    else
      let px := rows * cols
      let threads := if px < 100 then 1 else if px < 10000 then 2 else 4
      some (min threads avail)
  | .fixed k => some (min k avail)

end Verif.Run
