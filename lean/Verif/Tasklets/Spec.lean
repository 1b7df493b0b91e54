import Verif.Tasklets.Model
/-
What the theorems about the tasklet runner are expressed with: functions of the list of observable events.
-/

set_option autoImplicit false

namespace Verif.Tasklets

/-- The dispatched objects with their numbers of invocations, in the order of dispatch. -/
def dispatchedOf (log : List Event) : List (Kind × ℤ) :=
  log.filterMap fun e => match e with
    | .dispatch k c => some (k, c)
    | _ => none

/-- The invocations which were taken by workers, in this order. -/
def startsOf (log : List Event) : List Kind :=
  log.filterMap fun e => match e with
    | .start k => some k
    | _ => none

/-- How often an invocation of tasklet `t` has run to its end (by returning or throwing). -/
def runsOf (t : ℕ) (log : List Event) : ℕ :=
  log.countP fun e => match e with
    | .ran t' _ => t' = t
    | _ => false

/-- Has an invocation thrown? -/
def hasThrown (log : List Event) : Bool :=
  log.any fun e => match e with
    | .ran _ thrown => thrown
    | _ => false

/-- The invocations a list of dispatched objects requests: each object as often as requested, one object after the
other. -/
def expand (l : List (Kind × ℤ)) : List Kind := l.flatMap fun e => List.replicate e.2.toNat e.1

/-- The states which the pool can reach with some schedule, if the main thread executes `prog`. -/
def Reachable {n : ℕ} (prog : List Op) (s : State n) : Prop := ∃ as, exec (init n prog) as = some s

/-- Every tasklet is requested to run at least once. -/
def Positive (prog : List Op) : Prop := ∀ c, Op.dispatch c ∈ prog → 1 ≤ c

end Verif.Tasklets
