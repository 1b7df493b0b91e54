import Mathlib.Data.Int.Notation
import Mathlib.Data.Nat.Notation
set_option autoImplicit false
/-!
# The thread manager

Models `ThreadManager`, opm/models/parallel/threadmanager.hh 45-138.
-/
namespace Threads

/-- How the program was compiled: without OpenMP; with OpenMP, assertions and the
interface checks of Dune; or with OpenMP and without them
(opm/models/parallel/threadmanager.hh 84-100). -/
inductive Build | serial | checked | openmp
  deriving DecidableEq, Repr

/-- Whether OpenMP is available, opm/models/parallel/threadmanager.hh 49-56. -/
def Build.hasOpenMP : Build → Bool
  | .serial => false
  | _ => true

/-- The state: the static member `numThreads_` (an `int`, initially 1,
opm/models/parallel/threadmanager.hh 134-138) and the number of threads the OpenMP
runtime would use (`omp_get_max_threads`). -/
structure State where
  numThreads : ℤ
  ompMax : ℕ
  deriving DecidableEq, Repr

/-- `init`, opm/models/parallel/threadmanager.hh 77-113.  `query` is its argument and
`param` the value of the parameter `ThreadsPerProcess`.  The flag in the result tells
whether an exception was thrown. -/
def init (b : Build) (query : Bool) (param : ℤ) (s : State) : State × Bool :=
  let queried : State × Bool :=
    if query then
      let s := { s with numThreads := param }
      match b with
      | .serial =>
        if s.numThreads ≠ 1 ∧ s.numThreads ≠ -1 then (s, true)
        else ({ s with numThreads := 1 }, false)
      | .checked =>
        if s.numThreads ≠ 1 then (s, true)
        else ({ numThreads := 1, ompMax := 1 }, false)
      | .openmp =>
        if s.numThreads = 0 then (s, true)
        else if s.numThreads > 0 then ({ s with ompMax := s.numThreads.toNat }, false)
        else (s, false)
    else (s, false)
  if queried.2 then queried
  else if b.hasOpenMP then ({ queried.1 with numThreads := queried.1.ompMax }, false)
  else queried

/-- `maxThreads`, opm/models/parallel/threadmanager.hh 118-119: the conversion to
`unsigned` is modulo 2^32. -/
def maxThreads (s : State) : ℕ := (s.numThreads % 2 ^ 32).toNat

/-- `threadId`, opm/models/parallel/threadmanager.hh 124-131.  `ompThread` is
`omp_get_thread_num`. -/
def threadId (b : Build) (ompThread : ℕ) : ℕ := if b.hasOpenMP then ompThread else 0

/-- The state when the program starts; `ompMax` comes from the environment. -/
def start (ompMax : ℕ) : State := { numThreads := 1, ompMax := ompMax }

end Threads
