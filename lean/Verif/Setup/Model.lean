import Verif.MpiUtil.Model
import Verif.Util.Chars
import Mathlib.Data.Fin.Basic

/-
Setting up the simulator on all processes.

Models the constructor of `Opm::Simulator` (opm/models/utils/simulator.hh lines 121-251): six steps, after each of which the processes agree on
whether one of them has thrown an exception.

Simplifications: the steps themselves are not modelled here.  What a process does in a step is data: the collective operations it takes
part in, and how the step ends.  Printing and the reading of parameters are left out.
-/

set_option autoImplicit false

namespace Verif.Setup

open MpiUtil

/-- How a step ends on a process: normally, with an exception which is derived from `std::exception` and has the text `what()`, or with
another exception. -/
inductive Ending where
  | normal
  | std (what : List Byte)
  | foreign

/-- What a process does in a step: the collective operations in which it takes part (each has a number which says which one it is) until
the step ends. -/
structure Step where
  calls : List ℕ
  ending : Ending

/-- A collective operation as a process calls it: one of a step, `comm.max(flag)`, or `gatherStrings(text)`. -/
inductive Call where
  | other (n : ℕ)
  | max (flag : ℕ)
  | gather (text : List Byte)

/-- What a process gets from a collective operation.  `gatherStrings` gives nothing if the program is aborted. -/
inductive Answer where
  | other
  | max (flag : ℕ)
  | gather (texts : Option (List (List Byte)))

/-- How the constructor ends on a process: it returns, throws `std::runtime_error` with a text, passes on an exception it does not catch, or
fails (an assertion fails, the first element of an empty vector is read, or MPI aborts the program). -/
inductive Outcome where
  | ready
  | threw (text : List Byte)
  | passed
  | crashed

/-- What a process still has to do. -/
inductive Process where
  | done (outcome : Outcome)
  | call (c : Call) (next : Answer → Process)

/-- Characters as bytes -/
def ascii (l : List Char) : List Byte := l.map fun c => UInt8.ofNat c.toNat

/-- The text of an exception as `catchAction` keeps it (opm/models/utils/simulator.hh lines 156-168) -/
def kept (size rank : ℕ) (what : List Byte) : List Byte :=
  if size > 1 then what ++ (ascii c!" (on rank " ++ ascii (Nat.toDigits 10 rank) ++ ascii c!")") else what

/-- `throw std::runtime_error(prefix + all_what.front())` after `assert(!all_what.empty())` (opm/models/utils/simulator.hh lines 177-178) -/
def throwFirst (pref : List Byte) : Option (List (List Byte)) → Outcome
  | some (text :: _) => .threw (pref ++ text)
  | _ => .crashed

/-- `checkParallelException(prefix, exceptionThrown, what)` (opm/models/utils/simulator.hh lines 170-180) and then what follows -/
def checkParallelException (pref : List Byte) (exceptionThrown : ℕ) (what : List Byte) (next : Process) : Process :=
  .call (.max exceptionThrown) fun a =>
    match a with
    | .max 0 => next
    | .max _ => .call (.gather what) fun a =>
      match a with
      | .gather texts => .done (throwFirst pref texts)
      | _ => .done .crashed
    | _ => .done .crashed

/-- The collective operations of a step and then what follows -/
def calls : List ℕ → Process → Process
  | [], next => next
  | n :: l, next => .call (.other n) fun _ => calls l next

/-- The steps with their prefixes (opm/models/utils/simulator.hh lines 182-245); `step` says what the process does in each of them.  The
variables `exceptionThrown` and `what` are those of the constructor, and are never reset. -/
def steps (size rank : ℕ) : List (List Byte × Step) → ℕ → List Byte → Process
  | [], _, _ => .done .ready
  | (pref, s) :: rest, exceptionThrown, what =>
    calls s.calls
      (match s.ending with
      | .normal => checkParallelException pref exceptionThrown what (steps size rank rest exceptionThrown what)
      | .std text => checkParallelException pref 1 (kept size rank text) (steps size rank rest 1 (kept size rank text))
      | .foreign => .done .passed)

/-- The prefixes (opm/models/utils/simulator.hh lines 187, 197, 208, 221, 233, 245) -/
def prefixes : List (List Byte) :=
  [ascii c!"Allocating the simulation vanguard failed: ", ascii c!"Could not distribute the vanguard data: ",
    ascii c!"Could not allocate model: ", ascii c!"Could not allocate the problem: ",
    ascii c!"Could not initialize the  model: ", ascii c!"Could not initialize the problem: "]

/-- The constructor on the process `rank` (opm/models/utils/simulator.hh lines 121-251) -/
def construct (size rank : ℕ) (step : ℕ → Step) : Process :=
  steps size rank (prefixes.zipIdx.map fun x => (x.1, step x.2)) 0 []

variable {P : ℕ}

/-- The flags of `comm.max`, if all processes call it -/
def flags : List Call → Option (List ℕ)
  | [] => some []
  | .max f :: l => (flags l).map (f :: ·)
  | _ => none

/-- The texts of `gatherStrings`, if all processes call it -/
def texts : List Call → Option (List (List Byte))
  | [] => some []
  | .gather t :: l => (texts l).map (t :: ·)
  | _ => none

/-- All processes call the operation `n` of a step. -/
def others (n : ℕ) : List Call → Bool
  | [] => true
  | .other k :: l => k == n && others n l
  | _ => false

/-- What all processes get when all of them call the same collective operation; nothing if they do not.  `comm.max` gives the maximum of the
flags, `gatherStrings` (opm/models/parallel/mpiutil.hh lines 152-190) is that of `MpiUtil`. -/
def answer (m : Packing) (asserts : Bool) (c : Fin P → Call) : Option Answer :=
  match List.ofFn c with
  | [] => none
  | .other n :: l => if others n l then some .other else none
  | .max f :: l => (flags l).map fun fs => .max (fs.foldl Nat.max f)
  | .gather t :: l => (texts l).map fun ts => .gather (gatherStrings m asserts (t :: ts))

/-- How all processes end: `none` if they do not, since some have ended while others wait in a collective operation, or since they have
called different ones. -/
inductive Ends (m : Packing) (asserts : Bool) : (Fin P → Process) → Option (Fin P → Outcome) → Prop where
  | done (outcome : Fin P → Outcome) : Ends m asserts (fun p => .done (outcome p)) (some outcome)
  | together (c : Fin P → Call) (next : Fin P → Answer → Process) (a : Answer) (r : Option (Fin P → Outcome))
    (h : answer m asserts c = some a) (h' : Ends m asserts (fun p => next p a) r) : Ends m asserts (fun p => .call (c p) (next p)) r
  | differ (c : Fin P → Call) (next : Fin P → Answer → Process) (h : answer m asserts c = none) :
    Ends m asserts (fun p => .call (c p) (next p)) none
  | missing (s : Fin P → Process) (p q : Fin P) (o : Outcome) (c : Call) (next : Answer → Process) (hp : s p = .done o)
    (hq : s q = .call c next) : Ends m asserts s none

end Verif.Setup
