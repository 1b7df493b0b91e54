import Verif.Newton.Model
import Verif.GridComm.Model
import Verif.ParSolve.BlockModel

/-
The Newton method on several processes.

Models `apply` of `NewtonMethod` (opm/models/nonlinear/newtonmethod.hh lines 228-438) when all processes call it, with `beginIteration_` and
`update_` of `FvBaseNewtonMethod` (opm/models/discretization/common/fvbasenewtonmethod.hh lines 121-148), `syncOverlap` of the cell-centred
discretization (opm/models/discretization/ecfv/ecfvdiscretization.hh lines 189-203), the linearizer
(opm/models/discretization/common/fvbaselinearizer.hh lines 195-241, 508-590) and the calls of the linear solver
(opm/simulators/linalg/parallelbasebackend.hh lines 182-283).

What a single process does with its own data are the functions of `Verif.Newton`; here is what the processes do together.

Simplifications: no auxiliary equations; numbers are exact, so that updates are always finite.
The processes take part in collective calls in lockstep: a process which leaves the common path while others go on makes the result
`deadlock`, as in reality the others would wait for it for ever.  What the processes do if they agree on exceptions is `Verif.Agree`.
-/

set_option autoImplicit false

namespace Verif.ParNewton

open Verif.Mpi Verif.Sync Verif.Overlap Verif.OverlapMatrix Verif.Newton Verif.ParSolve.Block

variable {P E : ℕ} {K V : Type} [Field K] [LinearOrder K]

/-- What all processes work with, for `E` equations per cell.  The first argument of the functions counts the Newton iterations: messages may take another course
each time.
* `env p` are the functions and numbers of the process `p` (without its linearizer and its linear solver).
* `cache p` are the primary variables for which intensive quantities are cached and valid when `apply` is called.
* `syncOverlap` fetches the values of copies from their owners.
* `linearize n p x` are the Jacobian matrix and the residual of the process `p`, or an exception.
* `residual n b` is what `setResidual` and `getResidual` make of the residuals of all processes.
* `solve n a b` is `none` if the linear solver throws, or the flag which it returns and the updates for all processes. -/
structure Machine (P E : ℕ) (K V : Type) where
  env : Fin (P + 1) → Newton.Env K V (Blk E K)
  cache : Fin (P + 1) → ℕ → Option V
  syncOverlap : ℕ → (Fin (P + 1) → ℕ → V) → Fin (P + 1) → ℕ → V
  linearize : ℕ → Fin (P + 1) → (ℕ → V) → Option (NativeMatrix (Mat E K) × (ℕ → Blk E K))
  residual : ℕ → (Fin (P + 1) → ℕ → Blk E K) → Fin (P + 1) → ℕ → Blk E K
  solve : ℕ → (Fin (P + 1) → NativeMatrix (Mat E K)) → (Fin (P + 1) → ℕ → Blk E K) → Option (Bool × (Fin (P + 1) → ℕ → Blk E K))

/-- The Newton methods of all processes and their solutions -/
abbrev State (P : ℕ) (K V : Type) := Fin (P + 1) → NState K V

/-- How one pass through the loop ends on all processes -/
inductive Result (P : ℕ) (K V : Type) where
  | again (st : State P K V)
  | leave (st : State P K V)
  | failure (st : State P K V)
  | deadlock

/-- Each process decides for itself. -/
def vote {α : Type} (f : Fin (P + 1) → Bool) (yes no mixed : α) : α :=
  if ∀ p, f p = true then yes else if ∀ p, f p = false then no else mixed

/-- `comm_.max` (opm/models/nonlinear/newtonmethod.hh line 597) -/
def commMax (f : Fin (P + 1) → Fl K) : Fl K := (List.finRange P).foldl (fun a p => Fl.max a (f p.succ)) (f 0)

/-- `endIteration_` (opm/models/nonlinear/newtonmethod.hh lines 755-783) on all processes: all of them throw if one of them failed. -/
def endIteration (M : Machine P E K V) (st : State P K V) (k : State P K V → Result P K V) : Result P K V :=
  let st := fun p => { st p with iterations := (st p).iterations + 1 }
  if ∀ p, (M.env p).endIterationOk (st p).iterations = true then k st else .failure st

/-- The primary variables which the linearization sees: those of cached intensive quantities as long as they are valid.  `update_` makes
all of them invalid (opm/models/discretization/common/fvbasenewtonmethod.hh lines 129-136), `syncOverlap` does not. -/
def seen (M : Machine P E K V) (st : State P K V) (p : Fin (P + 1)) (i : ℕ) : V :=
  if (st p).iterations = 0 then (M.cache p i).getD ((st p).sol i) else (st p).sol i

/-- The body of the loop of `apply` (opm/models/nonlinear/newtonmethod.hh lines 266-370) and the handlers (372-395) on all processes -/
def pass (M : Machine P E K V) (n : ℕ) (st : State P K V) : Result P K V :=
  -- beginIteration_ (opm/models/discretization/common/fvbasenewtonmethod.hh lines 143-148, opm/models/nonlinear/newtonmethod.hh lines 532-555)
  let st : State P K V := fun p => { st p with sol := M.syncOverlap n (fun q => (st q).sol) p }
  if ¬∀ p, (M.env p).beginIterationOk (st p).iterations = true then .failure st
  else
    let current := fun p => (st p).sol
    -- linearizeDomain_ (opm/models/discretization/common/fvbaselinearizer.hh lines 202-241, 508-575)
    let st : State P K V := fun p => { st p with lastError := (st p).error, sol := applyConstraints (M.env p) (st p).sol }
    let lin := fun p => M.linearize n p (seen M st p)
    if ¬∀ p, (lin p).isSome = true then .failure st
    else
      let a := fun p => ((lin p).map Prod.fst).getD { numRows := 0, cols := fun _ => [], value := fun _ _ => 0 }
      let b := fun p => ((lin p).map Prod.snd).getD fun _ => 0
      -- setResidual, getResidual, preSolve_ (opm/models/nonlinear/newtonmethod.hh lines 292-305, 572-607)
      let r := M.residual n b
      let st : State P K V := fun p =>
        { st p with lastError := (st p).error
                    error := commMax fun q => computeError (M.env q) fun i => List.ofFn fun j => .num (r q i j) }
      vote (fun p => (Fl.num (M.env p).maxError).lt (st p).error) (.failure st)
        (vote (fun p => !proceed (M.env p) (st p)) (endIteration M st .leave)
          -- opm/models/nonlinear/newtonmethod.hh lines 327-370
          (match M.solve n a b with
          | none => .failure st
          | some (false, _) => .failure st
          | some (true, u) =>
            endIteration M (fun p => { st p with sol := updateSolution (M.env p) (st p).sol (current p) (u p) }) .again)
          .deadlock)
        .deadlock

/-- How `apply` ends: on each process with an outcome and a state, or some processes wait for others for ever -/
inductive Ended (P : ℕ) (K V : Type) where
  | finished (r : Fin (P + 1) → Newton.Outcome × NState K V)
  | deadlock

/-- The loop of `apply` (opm/models/nonlinear/newtonmethod.hh lines 266-370) and what is behind it (397-438) on all processes, for at most
`fuel` evaluations of the condition; `none` if it is not finished then. -/
def loop (M : Machine P E K V) : ℕ → ℕ → State P K V → Option (Ended P K V)
  | 0, _, _ => none
  | fuel + 1, n, st =>
    vote (fun p => proceed (M.env p) (st p))
      (match pass M n st with
      | .again st' => loop M fuel (n + 1) st'
      | .leave st' => some (.finished fun p => afterLoop (M.env p) (st' p))
      | .failure st' => some (.finished fun p => (.failure, failedState (M.env p) (st' p)))
      | .deadlock => some .deadlock)
      (some (.finished fun p => afterLoop (M.env p) (st p)))
      (some .deadlock)

/-- `apply` (opm/models/nonlinear/newtonmethod.hh lines 228-438) on all processes, started with the solutions `s` -/
def apply (M : Machine P E K V) (s : Fin (P + 1) → ℕ → V) (error lastError : Fl K) (fuel : ℕ) : Option (Ended P K V) :=
  loop M fuel 0 fun p => { sol := s p, error := error, lastError := lastError, iterations := 0 }

/-! ### Where the functions come from -/

/-- `setMatrix` (opm/simulators/linalg/parallelbasebackend.hh lines 241-245) -/
def setMatrixProgram (o : Fin (P + 1) → Sync.Overlap (P + 1)) (black : Fin (P + 1) → ℕ → Option ℕ) (a : Fin (P + 1) → NativeMatrix (Mat E K))
    (p : Fin (P + 1)) : List (Op (Fin (P + 1)) (OverlapMatrix.Matrix (P + 1) (Mat E K)) (OverlapMatrix.Msg (Mat E K))) :=
  [.compute (assignFromNative (o p) (black p) (a p))] ++ roundProgram (fun p => (o p).peerSet) OverlapMatrix.syncAdd p

/-- The overlapping matrices `m` of all processes after `setMatrix` has been called with the native matrices `a`: in the first iteration
`prepare` has set them up; as long as the grid stays the same, they are used again
(opm/simulators/linalg/parallelbasebackend.hh lines 182-210, 241-245). -/
inductive Assigned (o : Fin (P + 1) → Sync.Overlap (P + 1)) (black : Fin (P + 1) → ℕ → Option ℕ) :
    (Fin (P + 1) → NativeMatrix (Mat E K)) → (Fin (P + 1) → OverlapMatrix.Matrix (P + 1) (Mat E K)) → Prop where
  | first (a : Fin (P + 1) → NativeMatrix (Mat E K)) (any : Fin (P + 1) → ℕ → ℕ → Mat E K)
      (w : System (Fin (P + 1)) (OverlapMatrix.Matrix (P + 1) (Mat E K)) (OverlapMatrix.Msg (Mat E K)))
      (h : Reach (start (matrixProgram o black a) fun p => Matrix.start (o p) (black p) (a p) (any p)) w) (hf : Finished w) :
      Assigned o black a w.state
  | next (a a' : Fin (P + 1) → NativeMatrix (Mat E K)) (m : Fin (P + 1) → OverlapMatrix.Matrix (P + 1) (Mat E K)) (hm : Assigned o black a m)
      (same : ∀ p, (a' p).numRows = (a p).numRows ∧ (a' p).cols = (a p).cols)
      (w : System (Fin (P + 1)) (OverlapMatrix.Matrix (P + 1) (Mat E K)) (OverlapMatrix.Msg (Mat E K)))
      (h : Reach (start (setMatrixProgram o black a') m) w) (hf : Finished w) : Assigned o black a' w.state

end Verif.ParNewton
