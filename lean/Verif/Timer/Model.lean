import Mathlib.Algebra.Order.Field.Basic
/-
Model of `opm/models/utils/timer.hh` and `opm/models/utils/timerguard.hh`.

The wall clock time and the CPU time are accounted for by the same statements, so the model has one clock with values
in an ordered field.  Reading the clock is explicit: each operation carries the value the clock had.
-/

set_option autoImplicit false

namespace Verif.Timer

variable {K : Type} [Field K] [LinearOrder K] [IsStrictOrderedRing K]

/-- The members of `Timer` (opm/models/utils/timer.hh lines 210-213); `start = none` while `startTime_` has not been
written (the constructor does not initialise it). -/
structure Clock (K : Type) where
  stopped : Bool
  elapsed : K
  start : Option K
deriving DecidableEq

/-- The operations with the value of the clock at which they are executed. -/
inductive Op (K : Type)
  | start
  | stop
  | halt
  | reset
  /-- `operator+=` with a timer which reports `d` -/
  | add (d : K)
deriving DecidableEq

/-- The constructor calls `halt()` (opm/models/utils/timer.hh lines 56-57, 96-101). -/
def init : Clock K := { stopped := true, elapsed := 0, start := none }

/-- `realTimeElapsed()`, `cpuTimeElapsed()` at the time `now`; `none`: the uninitialised start time is read
(opm/models/utils/timer.hh lines 117-131, 147-159). -/
def elapsed (now : K) (t : Clock K) : Option K :=
  if t.stopped then some t.elapsed else t.start.map fun s => t.elapsed + (now - s)

/-- One operation at the time `now`: `start` (opm/models/utils/timer.hh lines 62-66), `stop` (lines 73-93), `halt`
(lines 98-103), `reset` (lines 108-114), `operator+=` (lines 187-193). -/
def step (now : K) (t : Clock K) : Op K → Option (Clock K)
  | .start => some { t with stopped := false, start := some now }
  | .stop =>
    if t.stopped then some t
    else t.start.map fun s => { t with elapsed := t.elapsed + (now - s), stopped := true }
  | .halt => some { t with stopped := true, elapsed := 0 }
  | .reset => some { t with elapsed := 0, start := some now }
  | .add d => some { t with elapsed := t.elapsed + d }

/-- The value which `stop()` returns (opm/models/utils/timer.hh line 92). -/
def stopValue (now : K) (t : Clock K) : Option K := (step now t .stop).map Clock.elapsed

/-- A sequence of operations, each with the value of the clock. -/
def exec : Clock K → List (Op K × K) → Option (Clock K)
  | t, [] => some t
  | t, (op, now) :: rest => (step now t op).bind fun t => exec t rest

/-- A scope with a `TimerGuard` for the timer: whatever the scope does, and wherever it is left (by an exception or
regularly), the destructor of the guard calls `stop()` when it is left (opm/models/utils/timerguard.hh lines 42-52).
The constructor does not start the timer. -/
def guarded (done : List (Op K × K)) (left : K) : List (Op K × K) := done ++ [(.stop, left)]

end Verif.Timer
