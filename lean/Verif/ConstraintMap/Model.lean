import Verif.EntityIter.Model

/-
Model of how the linearizer collects the constraints of the problem: `updateConstraintsMap_`
(opm/models/discretization/common/fvbaselinearizer.hh lines 462-506), with several threads.

Threads take elements from a `ThreadedEntityIterator` (model of C27, `EntityIter`), ask the problem for constraints of the primary degrees
of freedom of the element and insert those into one `std::map`, which all threads share.  Nothing protects the map.  An insertion is modelled
with a beginning and an end; if another thread begins one in between, that is a data race, i.e. undefined behaviour (`none`).

Simplifications: the stencil of an element is given by the list of its primary degrees of freedom; the answers of the problem depend on
the element and the degree of freedom only; the query does not throw (an exception which leaves the parallel block terminates the program).
-/

set_option autoImplicit false

namespace Verif.ConstraintMap

open Verif.EntityIter (bump isFinished)

/-- The grid with the answers of the problem: the number of elements, the global indices of the primary degrees of freedom of an element
(`globalSpaceIndex`, opm/models/discretization/common/fvbaselinearizer.hh lines 489-491, 499), and `constraints(…)`, which is active or not
(lines 493-498). -/
structure Grid (C : Type) where
  size : ℕ
  dofs : ℕ → List ℕ
  constraint : ℕ → ℕ → Option C

/-- Where a thread is in the parallel block (opm/models/discretization/common/fvbaselinearizer.hh lines 477-505). -/
inductive Pc (C : Type)
  /-- before `beginParallel` (line 479) -/
  | start
  /-- in the loop over the primary degrees of freedom of an element, with those which are left (lines 489-491) -/
  | dofs (elem : ℕ) (rest : List ℕ)
  /-- within `constraintsMap_[globI] = constraints` (line 500) -/
  | insert (elem dof : ℕ) (c : C) (rest : List ℕ)
  /-- behind the loop -/
  | done
deriving DecidableEq

/-- The thread is within an insertion. -/
def Pc.inserting {C : Type} : Pc C → Bool
  | .insert .. => true
  | _ => false

structure State (n : ℕ) (C : Type) where
  /-- `sequentialIt_` of the iterator -/
  pos : ℕ
  pc : Fin n → Pc C
  /-- `constraintsMap_` -/
  map : ℕ → Option C

/-- `constraintsMap_.clear()` and the construction of the iterator (opm/models/discretization/common/fvbaselinearizer.hh lines 470-473);
`old` is what the map contained. -/
def start {C : Type} (n : ℕ) (_old : ℕ → Option C) : State n C := { pos := 0, pc := fun _ => .start, map := fun _ => none }

/-- The test of the loop for an iterator which was just obtained (opm/models/discretization/common/fvbaselinearizer.hh line 480) -/
def enter {C : Type} (g : Grid C) (it : ℕ) : Pc C := if isFinished g.size it then .done else .dofs it (g.dofs it)

/-- A step of the thread `w` (opm/models/discretization/common/fvbaselinearizer.hh lines 477-505): `beginParallel` and `increment`
(opm/models/parallel/threadedentityiterator.hh lines 54-64, 79-89, atomic), the query of a degree of freedom, and the end of an insertion. -/
def step {n : ℕ} {C : Type} (g : Grid C) (s : State n C) (w : Fin n) : Option (State n C) :=
  match s.pc w with
  | .start => some { s with pos := bump g.size s.pos, pc := Function.update s.pc w (enter g s.pos) }
  | .dofs _ [] => some { s with pos := bump g.size s.pos, pc := Function.update s.pc w (enter g s.pos) }
  | .dofs e (i :: rest) =>
    match g.constraint e i with
    | none => some { s with pc := Function.update s.pc w (.dofs e rest) }
    | some c =>
      if ∃ v, v ≠ w ∧ (s.pc v).inserting = true then none
      else some { s with pc := Function.update s.pc w (.insert e i c rest) }
  | .insert e i c rest => some { s with map := Function.update s.map i (some c), pc := Function.update s.pc w (.dofs e rest) }
  | .done => some s

/-- A schedule: which thread makes the next step. -/
def exec {n : ℕ} {C : Type} (g : Grid C) : State n C → List (Fin n) → Option (State n C)
  | s, [] => some s
  | s, w :: rest => (step g s w).bind fun s' => exec g s' rest

end Verif.ConstraintMap
