import Mathlib.Logic.Function.Basic
import Mathlib.Data.Fintype.Basic
/-
Model of the thread-safe entity iterator (`opm/models/parallel/threadedentityiterator.hh`) and of the loop with which
the linearizer uses it (`opm/models/discretization/common/fvbaselinearizer.hh`, `linearize_`).

The entities of the grid view are numbered `0 … N-1` in grid order; the iterator which points behind the last entity
is `N`.  A critical section of the mutex is one atomic step.
-/

set_option autoImplicit false

namespace Verif.EntityIter

/-! ### The iterator -/

/-- The calls of the interface which use the mutex. -/
inductive Call
  /-- `beginParallel()` -/
  | begin
  /-- `increment()` -/
  | increment
  /-- `setFinished()` -/
  | setFinished
deriving DecidableEq, Repr

/-- `if (sequentialIt_ != sequentialEnd_) ++sequentialIt_;`
(opm/models/parallel/threadedentityiterator.hh lines 58-59, 84-85). -/
def bump (N pos : ℕ) : ℕ := if pos ≠ N then pos + 1 else pos

/-- One call: the new position of `sequentialIt_` and the iterator which is returned (if any).
`beginParallel` (opm/models/parallel/threadedentityiterator.hh lines 54-64), `increment` (lines 79-89),
`setFinished` (lines 71-76). -/
def call (N pos : ℕ) : Call → ℕ × Option ℕ
  | .begin => (bump N pos, some pos)
  | .increment => (bump N pos, some pos)
  | .setFinished => (N, none)

/-- `isFinished` (opm/models/parallel/threadedentityiterator.hh lines 67-68). -/
def isFinished (N it : ℕ) : Bool := decide (it = N)

/-- A sequence of calls, each made by some thread: the threads with the iterators which were returned to them. -/
def calls {T : Type} (N : ℕ) : ℕ → List (T × Call) → List (T × ℕ)
  | _, [] => []
  | pos, (t, c) :: rest =>
    match (call N pos c).2 with
    | some it => (t, it) :: calls N (call N pos c).1 rest
    | none => calls N (call N pos c).1 rest

/-! ### The loop of the linearizer -/

/-- Where a thread is in the parallel block of `linearize_`
(opm/models/discretization/common/fvbaselinearizer.hh lines 541-577). -/
inductive Pc
  /-- before `beginParallel` (line 542) -/
  | start
  /-- before the test of the loop, with the value of `elemIt` (line 545) -/
  | test (elem : ℕ)
  /-- after `increment` (line 548), with the values of `elemIt` and `nextElemIt` -/
  | body (elem next : ℕ)
  /-- in the exception handler (lines 573-577) -/
  | handler
  /-- behind the parallel block -/
  | done
deriving DecidableEq, Repr

/-- What can be observed. -/
inductive Event (n : ℕ)
  /-- an entity was handed to a thread -/
  | handed (w : Fin n) (e : ℕ)
  /-- the body was executed for an entity; the flag says whether `linearizeElement_` was called -/
  | visited (w : Fin n) (e : ℕ) (linearized : Bool)
  /-- the body for an entity was left by an exception -/
  | threw (w : Fin n) (e : ℕ)
  /-- `setFinished` -/
  | abort
deriving DecidableEq, Repr

structure State (n : ℕ) where
  /-- `sequentialIt_` -/
  pos : ℕ
  pc : Fin n → Pc
  /-- `exceptionPtr` is set -/
  exception : Bool
  log : List (Event n)

def init (n : ℕ) : State n := { pos := 0, pc := fun _ => .start, exception := false, log := [] }

/-- The event that the iterator at position `e` was returned to `w`; the end is no entity. -/
def handOut {n : ℕ} (N : ℕ) (w : Fin n) (e : ℕ) : List (Event n) := if isFinished N e then [] else [.handed w e]

/-- A step of thread `w` in `linearize_` (opm/models/discretization/common/fvbaselinearizer.hh lines 541-577).
`interior e` says whether the entity has to be linearized (lines 559-561); `throws` chooses whether the prefetching
or linearizing of the entity throws (lines 549-563).  The increment of the `for` statement is merged into the body, the
test and `increment()` into one step. -/
def step {n : ℕ} (N : ℕ) (interior : ℕ → Bool) (s : State n) (w : Fin n) (throws : Bool) : State n :=
  match s.pc w with
  | .start =>
    { s with pos := bump N s.pos, pc := Function.update s.pc w (.test s.pos), log := s.log ++ handOut N w s.pos }
  | .test e =>
    if isFinished N e then { s with pc := Function.update s.pc w .done }
    else { s with pos := bump N s.pos, pc := Function.update s.pc w (.body e s.pos),
                  log := s.log ++ handOut N w s.pos }
  | .body e next =>
    if throws then { s with pc := Function.update s.pc w .handler, log := s.log ++ [.threw w e] }
    else { s with pc := Function.update s.pc w (.test next), log := s.log ++ [.visited w e (interior e)] }
  | .handler =>
    { s with pos := N, exception := true, pc := Function.update s.pc w .done, log := s.log ++ [.abort] }
  | .done => s

/-- A schedule: which thread makes the next step, and whether its body throws. -/
def exec {n : ℕ} (N : ℕ) (interior : ℕ → Bool) (s : State n) : List (Fin n × Bool) → State n
  | [] => s
  | (w, throws) :: rest => exec N interior (step N interior s w throws) rest

end Verif.EntityIter
