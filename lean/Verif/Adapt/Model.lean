import Mathlib.Algebra.Order.Field.Basic
import Mathlib.Algebra.BigOperators.Group.List.Basic

/-!
# Marking elements for grid adaptation
-/

set_option autoImplicit false

namespace Verif.Adapt

variable {K : Type*} [Field K] [LinearOrder K]

/-- An interior element as seen by `markForGridAdaptation`: its level and the saturations (phase, then degree of
freedom) of its degrees of freedom, opm/models/common/multiphasebaseproblem.hh:327-342. -/
structure Elem (K : Type*) where
  level : ℕ
  sats : List (List K)

/-- The indicator of a phase, opm/models/common/multiphasebaseproblem.hh:332-345. -/
def indicator (sats : List K) : K :=
  let minSat := sats.foldl min (10 ^ 100)
  let maxSat := sats.foldl max (-(10 ^ 100))
  (maxSat - minSat) / (max (1 / 100) (maxSat + minSat) / 2)

/-- What one phase does to the mark of the element and to the counter, opm/models/common/multiphasebaseproblem.hh:346-357. -/
def markPhase (level : ℕ) (st : Int × ℕ) (sats : List K) : Int × ℕ :=
  if 1 / 5 < indicator sats ∧ level < 2 then (1, st.2 + 1)
  else if indicator sats < 1 / 40 then (-1, st.2 + 1)
  else (0, st.2)

/-- The loop over the phases of an element, opm/models/common/multiphasebaseproblem.hh:331-358; marks are initially zero. -/
def markElem (e : Elem K) (count : ℕ) : Int × ℕ := e.sats.foldl (markPhase e.level) (0, count)

/-- The loop over the interior elements of a process, opm/models/common/multiphasebaseproblem.hh:327-359: the marks and the counter. -/
def markElems : List (Elem K) → ℕ → List Int × ℕ
  | [], count => ([], count)
  | e :: es, count =>
    let (m, count) := markElem e count
    let (ms, count) := markElems es count
    (m :: ms, count)

/-- `markForGridAdaptation` on all processes, opm/models/common/multiphasebaseproblem.hh:319-365: the marks per process and the number
which every process returns. -/
def markForGridAdaptation (procs : List (List (Elem K))) : List (List Int) × ℕ :=
  (procs.map fun es => (markElems es 0).1, (procs.map fun es => (markElems es 0).2).sum)

end Verif.Adapt
