import Mathlib.Logic.Function.Basic
import Mathlib.Data.Nat.Notation
/-
Model of `opm/models/utils/genericguard.hh`.
-/

set_option autoImplicit false

namespace Verif.Guard

/-- What happens to guard objects, which are named by numbers. -/
inductive Op
  /-- construction for a callback; the callback is named by the number of the guard -/
  | create (g : ℕ)
  /-- `GenericGuard to(std::move(from))` -/
  | move (src dst : ℕ)
  | setEnabled (g : ℕ) (value : Bool)
  | destroy (g : ℕ)
deriving DecidableEq, Repr

structure Obj where
  callback : ℕ
  enabled : Bool
deriving DecidableEq, Repr

structure State where
  /-- the objects which exist -/
  objs : ℕ → Option Obj
  /-- the names which were used -/
  used : ℕ → Bool
  /-- the calls of callbacks, the latest first -/
  calls : List ℕ

def init : State := { objs := fun _ => none, used := fun _ => false, calls := [] }

/-- One operation; `none`: the program is not well-formed (an object is used which does not exist, or created twice).
Constructor (opm/models/utils/genericguard.hh lines 44-47), move constructor (lines 50-55), destructor (lines 60-64),
`setEnabled` (lines 72-73). -/
def step (s : State) : Op → Option State
  | .create g =>
    if s.used g then none
    else some { s with objs := Function.update s.objs g (some ⟨g, true⟩), used := Function.update s.used g true }
  | .move src dst =>
    match s.objs src with
    | none => none
    | some o =>
      if s.used dst then none
      else some { s with objs := Function.update (Function.update s.objs dst (some o)) src (some { o with enabled := false }),
                         used := Function.update s.used dst true }
  | .setEnabled g value =>
    match s.objs g with
    | none => none
    | some o => some { s with objs := Function.update s.objs g (some { o with enabled := value }) }
  | .destroy g =>
    match s.objs g with
    | none => none
    | some o => some { s with objs := Function.update s.objs g none,
                              calls := if o.enabled then o.callback :: s.calls else s.calls }

def exec : State → List Op → Option State
  | s, [] => some s
  | s, op :: rest => (step s op).bind fun s => exec s rest

end Verif.Guard
