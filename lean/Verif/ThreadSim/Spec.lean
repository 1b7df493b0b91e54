import Verif.ThreadSim.Model
import Verif.FvLin.Props2

/-
Ways to assemble a linear system.
-/

set_option autoImplicit false

namespace Verif.ThreadSim

open Verif.Tpfa Verif.FvLin Verif.Balance

variable {K V M C : Type} [Field K] [AddCommGroup V] [AddCommGroup M] [Module K V] [Module K M]

/-- Threads which have not begun: `updates k` is what is to be added for cell `k`. -/
def threads (n : ℕ) (updates : ℕ → List (Upd V M)) (k : ℕ) : Thread V M := { todo := if k < n then updates k else [], reg := none }

/-- The linear system which a linearizer can leave behind for the network `p`, whatever was in the matrix before (`s`).
* `tpfa`: `TpfaLinearizer` with any number of threads, the loads and stores of which are interleaved in any way
* `general`: `FvBaseLinearizer` with any number of threads without a lock (cells are the degrees of freedom)
* `locked`: `FvBaseLinearizer` where threads lock the matrix, in any order -/
inductive Assembled (p : Net K V M C) : System V M → Prop
  | tpfa (s : System V M) (schedule : List ℕ) (s' : System V M) (ts' : ℕ → Thread V M)
      (hrun : interleave (resetAll s) (threads p.numCells (cellUpdates p)) schedule = (s', ts')) (hdone : ∀ k, (ts' k).todo = []) :
      Assembled p (applyAll s' (boundaryUpdates p))
  | general (s : System V M) (schedule : List ℕ) (s' : System V M) (ts' : ℕ → Thread V M)
      (hrun : interleave (resetAll s) (threads p.numCells fun k => elementUpdates (fun _ => 1) p.dt (cellElem p k)) schedule = (s', ts'))
      (hdone : ∀ k, (ts' k).todo = []) : Assembled p s'
  | locked (s : System V M) (es : List (Elem K V M)) (hperm : es.Perm ((List.range p.numCells).map (cellElem p))) :
      Assembled p (applyAll (resetAll s) (es.flatMap (elementUpdates (fun _ => 1) p.dt)))

/-- Each linearization of a simulation is one of these. -/
def Runs {X PV : Type} {m : ℕ} (f : Physics K PV M C X m) (lin : Linearized K PV M X m) : Prop :=
  ∀ own attempt dt old it s, Assembled (net f own dt s old) (lin own attempt dt old it s)

end Verif.ThreadSim
