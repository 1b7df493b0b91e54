import Verif.EntityIter.Model
/-
What the theorems about threaded iteration are expressed with.
-/

set_option autoImplicit false

namespace Verif.EntityIter

variable {n : ℕ}

/-- The entities which were handed to some thread, in this order. -/
def handedOf (log : List (Event n)) : List ℕ :=
  log.filterMap fun e => match e with
    | .handed _ e => some e
    | _ => none

/-- The entities which were linearized, in this order. -/
def linearizedOf (log : List (Event n)) : List ℕ :=
  log.filterMap fun e => match e with
    | .visited _ e true => some e
    | _ => none

/-- Some body was left by an exception. -/
def hasThrown (log : List (Event n)) : Prop := ∃ w e, Event.threw w e ∈ log

/-- All threads have left the parallel block. -/
def Finished (s : State n) : Prop := ∀ w, s.pc w = .done

end Verif.EntityIter
