import Mathlib.Data.Int.Notation
import Mathlib.Data.List.Count
import Mathlib.Logic.Function.Basic
/-
Model of the tasklet runner (opm/models/parallel/tasklets.hh).

The threaded mode is an interleaving machine.  Every critical section (the code between locking and unlocking of a
mutex) is one atomic step, everything else is cut into steps which touch shared data at most once.  The threads are the
main thread, which executes an arbitrary list of calls and destroys the runner at the end, and `n` workers.

Simplifications:
* only the main thread dispatches tasklets (tasklets do not dispatch further tasklets);
* the body of a tasklet is a single step, which returns or throws at the discretion of the scheduler; it terminates;
* memory is sequentially consistent (all shared data but the failure flag are accessed under a mutex).
-/

set_option autoImplicit false

namespace Verif.Tasklets

/-- The kinds of objects in the queue: user tasklets (numbered in the order of their dispatch), barriers (numbered as
well, opm/models/parallel/tasklets.hh:113-151), the end marker (opm/models/parallel/tasklets.hh:153-163). -/
inductive Kind where
  | task (t : ℕ)
  | barrier (b : ℕ)
  | endMarker
  deriving DecidableEq, Repr

/-- The calls of the main thread: `dispatchFunction(fn, numInvocations)` (opm/models/parallel/tasklets.hh:266-273) and `barrier()`
(opm/models/parallel/tasklets.hh:278-290). -/
inductive Op where
  | dispatch (numInvocations : ℤ)
  | barrier
  deriving DecidableEq, Repr

/-- The main thread. -/
inductive MainPc where
  | ready                -- between two calls
  | notify (k : Kind)    -- in `dispatch`, after the push, opm/models/parallel/tasklets.hh:259
  | arrive (b : ℕ)       -- in `barrier`, before `wait`, opm/models/parallel/tasklets.hh:289
  | barNotify (b : ℕ)    -- in `wait`, last thread to arrive, opm/models/parallel/tasklets.hh:132-135
  | barSleep (b : ℕ)     -- in `wait`, waiting for the condition variable, opm/models/parallel/tasklets.hh:141
  | barCheck (b : ℕ)     -- in `wait`, woken up, evaluates the predicate, opm/models/parallel/tasklets.hh:137-141
  | join                 -- in the destructor, opm/models/parallel/tasklets.hh:197-198
  | done                 -- the destructor returned
  deriving DecidableEq, Repr

/-- A worker thread. -/
inductive WorkerPc where
  | check                -- before the critical section of `run_`, opm/models/parallel/tasklets.hh:319-345
  | asleep               -- waiting for the condition variable, opm/models/parallel/tasklets.hh:326
  | run (k : Kind)       -- took a tasklet, about to run it, opm/models/parallel/tasklets.hh:349
  | barNotify (b : ℕ)    -- in `wait`, last thread to arrive, opm/models/parallel/tasklets.hh:132-135
  | barSleep (b : ℕ)     -- in `wait`, waiting for the condition variable, opm/models/parallel/tasklets.hh:141
  | barCheck (b : ℕ)     -- in `wait`, woken up, opm/models/parallel/tasklets.hh:137-141
  | leaving              -- unlocked the mutex by hand, the `unique_lock` not yet destroyed, opm/models/parallel/tasklets.hh:336-337
  | terminated           -- `run_` returned
  | crashed              -- `run_` threw, i.e. `std::terminate`, opm/models/parallel/tasklets.hh:335
  deriving DecidableEq, Repr

/-- What can be observed. -/
inductive Event where
  | dispatch (k : Kind) (count : ℤ)   -- pushed to the queue
  | start (k : Kind)                  -- a worker took an invocation
  | ran (t : ℕ) (thrown : Bool)       -- an invocation of a user tasklet is over
  | returned (b : ℕ)                  -- `barrier()` returned
  | destroyed                         -- the destructor returned
  deriving DecidableEq, Repr

structure State (n : ℕ) where
  prog : List Op                -- the remaining calls of the main thread
  main : MainPc
  pc : Fin n → WorkerPc
  queue : List (Kind × ℤ)       -- `taskletQueue_` with the reference counts
  waiting : ℕ → ℕ               -- `numWaiting_` of each barrier
  failure : Bool                -- `failureFlag_`
  doubleUnlock : Bool           -- has a thread unlocked a mutex it does not own?
  nextTask : ℕ                  -- number of tasklets dispatched so far (ghost)
  nextBarrier : ℕ               -- number of barriers so far (ghost)
  log : List Event              -- ghost

/-- Which thread does the next step; for a worker whether the tasklet it runs throws; the `wake` actions are spurious
wakeups of condition variables, which the C++ standard permits. -/
inductive Action (n : ℕ) where
  | main
  | worker (w : Fin n) (throws : Bool)
  | wakeMain
  | wake (w : Fin n)
  deriving DecidableEq, Repr

def Action.spurious {n : ℕ} : Action n → Bool
  | .main => false
  | .worker _ _ => false
  | .wakeMain => true
  | .wake _ => true

variable {n : ℕ}

/-- `TaskletRunner(numWorkers)`, opm/models/parallel/tasklets.hh:175-181. -/
def init (n : ℕ) (prog : List Op) : State n :=
  { prog := prog, main := .ready, pc := fun _ => .check, queue := [], waiting := fun _ => 0, failure := false,
    doubleUnlock := false, nextTask := 0, nextBarrier := 0, log := [] }

/-- The critical section of `dispatch`, opm/models/parallel/tasklets.hh:252-257. -/
def push (s : State n) (k : Kind) (refs : ℤ) : State n :=
  { s with queue := s.queue ++ [(k, refs)], main := .notify k, log := s.log ++ [.dispatch k refs] }

/-- `workAvailableCondition_.notify_all()`, opm/models/parallel/tasklets.hh:259. -/
def wakeAll (pc : Fin n → WorkerPc) : Fin n → WorkerPc :=
  fun w => if pc w = .asleep then .check else pc w

/-- `barrierCondition_.notify_all()`, opm/models/parallel/tasklets.hh:134. -/
def wakeBarrier (b : ℕ) (pc : Fin n → WorkerPc) : Fin n → WorkerPc :=
  fun w => if pc w = .barSleep b then .barCheck b else pc w

/-- `barrier()` returns. -/
def leaveBarrier (b : ℕ) (s : State n) : State n := { s with main := .ready, log := s.log ++ [.returned b] }

/-- A step of the main thread; `none`: it cannot do one. -/
def mainStep (s : State n) : Option (State n) :=
  match s.main with
  | .ready =>
    match s.prog with
    | .dispatch c :: rest => -- `dispatchFunction`, opm/models/parallel/tasklets.hh:267-273
      some { push s (.task s.nextTask) c with prog := rest, nextTask := s.nextTask + 1 }
    | .barrier :: rest => -- `barrier`, opm/models/parallel/tasklets.hh:286-287
      some { push s (.barrier s.nextBarrier) n with prog := rest, nextBarrier := s.nextBarrier + 1 }
    | [] => -- the destructor, opm/models/parallel/tasklets.hh:194
      some (push s .endMarker 1)
  | .notify k =>
    some { s with pc := wakeAll s.pc, main := match k with
      | .task _ => .ready
      | .barrier b => .arrive b
      | .endMarker => .join }
  | .arrive b => -- `wait`, opm/models/parallel/tasklets.hh:129-141
    let k := s.waiting b + 1
    some { s with waiting := Function.update s.waiting b k, main := if n + 1 ≤ k then .barNotify b else .barSleep b }
  | .barNotify b => some (leaveBarrier b { s with pc := wakeBarrier b s.pc })
  | .barSleep _ => none
  | .barCheck b => if n + 1 ≤ s.waiting b then some (leaveBarrier b s) else some { s with main := .barSleep b }
  | .join => -- opm/models/parallel/tasklets.hh:197-198
    if ∀ w, s.pc w = .terminated then some { s with main := .done, log := s.log ++ [.destroyed] } else none
  | .done => none

/-- A step of worker `w`. -/
def workerStep (s : State n) (w : Fin n) (throws : Bool) : Option (State n) :=
  match s.pc w with
  | .check => -- opm/models/parallel/tasklets.hh:319-345
    match s.queue with
    | [] => some { s with pc := Function.update s.pc w .asleep }
    | (.endMarker, _) :: rest =>
      some { s with pc := Function.update s.pc w (if 0 < rest.length then .crashed else .leaving) }
    | (k, refs) :: rest =>
      some { s with queue := if refs - 1 = 0 then rest else (k, refs - 1) :: rest,
                    pc := Function.update s.pc w (.run k), log := s.log ++ [.start k] }
  | .asleep => none
  | .run (.task t) => -- opm/models/parallel/tasklets.hh:348-358
    some { s with pc := Function.update s.pc w .check, failure := if throws then true else s.failure,
                  log := s.log ++ [.ran t throws] }
  | .run (.barrier b) => -- `wait`, opm/models/parallel/tasklets.hh:129-141
    let k := s.waiting b + 1
    some { s with waiting := Function.update s.waiting b k,
                  pc := Function.update s.pc w (if n + 1 ≤ k then .barNotify b else .barSleep b) }
  | .run .endMarker => some { s with pc := Function.update s.pc w .check }
  | .barNotify b =>
    some { s with pc := Function.update (wakeBarrier b s.pc) w .check,
                  main := if s.main = .barSleep b then .barCheck b else s.main }
  | .barSleep _ => none
  | .barCheck b =>
    some { s with pc := Function.update s.pc w (if n + 1 ≤ s.waiting b then .check else .barSleep b) }
  | .leaving => -- the destructor of `lock` unlocks the mutex, which the thread no longer owns, opm/models/parallel/tasklets.hh:319, 336-337
    some { s with pc := Function.update s.pc w .terminated, doubleUnlock := true }
  | .terminated => none
  | .crashed => none

/-- One step of the machine. -/
def act (s : State n) : Action n → Option (State n)
  | .main => mainStep s
  | .worker w throws => workerStep s w throws
  | .wakeMain =>
    match s.main with
    | .barSleep b => some { s with main := .barCheck b }
    | _ => none
  | .wake w =>
    match s.pc w with
    | .asleep => some { s with pc := Function.update s.pc w .check }
    | .barSleep b => some { s with pc := Function.update s.pc w (.barCheck b) }
    | _ => none

/-- Execute a schedule; `none` if an action of it is not possible. -/
def exec (s : State n) : List (Action n) → Option (State n)
  | [] => some s
  | a :: as => (act s a).bind fun s' => exec s' as

/-- Synchronous mode (no workers): the loop of `dispatch`, opm/models/parallel/tasklets.hh:234-247.  `throws i` says whether the `i`-th
invocation throws.  The result is the list of invocations (thrown or not) and the failure flag. -/
def syncLoop (throws : ℕ → Bool) (fuel : ℕ) (refs : ℤ) (i : ℕ) (failure : Bool) : List Bool × Bool :=
  match fuel with
  | 0 => ([], failure)
  | fuel + 1 =>
    if 0 < refs then
      let r := syncLoop throws fuel (refs - 1) (i + 1) (if throws i then true else failure)
      (throws i :: r.1, r.2)
    else ([], failure)

/-- `dispatch` in synchronous mode.  The loop ends after at most `refs` rounds, so this fuel is enough. -/
def syncDispatch (throws : ℕ → Bool) (refs : ℤ) (failure : Bool) : List Bool × Bool :=
  syncLoop throws (refs.toNat + 1) refs 0 failure

end Verif.Tasklets
