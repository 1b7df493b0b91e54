import Mathlib.Algebra.Order.Field.Basic
import Mathlib.Algebra.Order.AbsoluteValue.Basic
import Mathlib.Algebra.Order.Group.MinMax

/-
The output for analysing the convergence of the Newton method: `relativeDofError` and `addConvergenceVtkFields`
(opm/models/discretization/common/fvbasediscretization.hh lines 1226-1239, 1587-1669) and `FvBaseNewtonConvergenceWriter`
(opm/models/discretization/common/fvbasenewtonconvergencewriter.hh lines 75-147).

Simplifications: numbers are elements of an ordered field; the buffers are functions of the index of the degree of freedom; the residual
is given (`globalResidual` is the subject of `Verif.Initial`); fields which output modules append are not modelled.
-/
set_option autoImplicit false

namespace Verif.Convergence

variable {K : Type} [Field K] [LinearOrder K]

/-- `relativeDofError` (opm/models/discretization/common/fvbasediscretization.hh lines 1226-1239); `weight` is `primaryVarWeight` for this
degree of freedom -/
def relativeDofError (numEq : ℕ) (weight pv1 pv2 : ℕ → K) : K :=
  (List.range numEq).foldl (fun result j => max result |(pv1 j - pv2 j) * weight j|) 0

/-- The loop over degrees of freedom (opm/models/discretization/common/fvbasediscretization.hh lines 1613-1634): smallest and largest
relative error so far -/
def extremes (err : ℕ → K) (numGridDof : ℕ) : K × K :=
  (List.range numGridDof).foldl (fun s i => (min (err i) s.1, max (err i) s.2)) (10 ^ 30, -10 ^ 30)

/-- What is written for each degree of freedom (opm/models/discretization/common/fvbasediscretization.hh lines 1601-1612, 1642-1667) -/
structure Fields (K : Type) where
  relError : ℕ → K
  normalized : ℕ → K
  priVar : ℕ → ℕ → K
  weight : ℕ → ℕ → K
  delta : ℕ → ℕ → K
  defect : ℕ → ℕ → K

/-- `addConvergenceVtkFields` (opm/models/discretization/common/fvbasediscretization.hh lines 1587-1669): `u` is the solution of the last
iteration, `deltaU` what the linear solver has found and `residual` the residual at `u`; the arguments of fields are the index of the
degree of freedom and the number of the primary variable or equation. -/
def fields (numEq numGridDof : ℕ) (weight u deltaU residual : ℕ → ℕ → K) : Fields K :=
  let err := fun i => relativeDofError numEq (weight i) (u i) (fun j => u i j - deltaU i j)
  let s := extremes err numGridDof
  let alpha := max (1 / 10 ^ 20) (max |s.2| |s.1|)
  { relError := err, normalized := fun i => err i / alpha, priVar := u, weight := weight, delta := fun i j => -deltaU i j
    defect := residual }

/-- The members of the writer (opm/models/discretization/common/fvbasenewtonconvergencewriter.hh lines 144-145) and the times which have
been passed to `beginWrite` so far -/
structure Writer (K : Type) where
  timeStepIdx : ℕ
  iteration : ℕ
  stamps : List K

/-- opm/models/discretization/common/fvbasenewtonconvergencewriter.hh lines 76-78 -/
def Writer.start : Writer K := ⟨0, 0, []⟩

/-- `beginTimeStep` (opm/models/discretization/common/fvbasenewtonconvergencewriter.hh lines 88-92) -/
def Writer.beginTimeStep (w : Writer K) : Writer K := { w with timeStepIdx := w.timeStepIdx + 1, iteration := 0 }

/-- `beginIteration` (opm/models/discretization/common/fvbasenewtonconvergencewriter.hh lines 98-108) -/
def Writer.beginIteration (w : Writer K) : Writer K :=
  { w with iteration := w.iteration + 1, stamps := w.stamps ++ [(w.timeStepIdx : K) + ((w.iteration + 1 : ℕ) : K) / 100] }

/-- `endTimeStep` (opm/models/discretization/common/fvbasenewtonconvergencewriter.hh lines 147-148) -/
def Writer.endTimeStep (w : Writer K) : Writer K := { w with iteration := 0 }

/-- One call of the Newton method with `n` updates of the solution: `begin_` (opm/models/nonlinear/newtonmethod.hh lines 520-527), one
`writeConvergence_` for each update (lines 674, 739-747) and `end_` (lines 812-817), which failures skip or not (`ended`). -/
def Writer.newton (w : Writer K) (n : ℕ) (ended : Bool) : Writer K :=
  let w := Nat.iterate Writer.beginIteration n w.beginTimeStep
  if ended then w.endTimeStep else w

/-- All calls of a simulation -/
def stamps (calls : List (ℕ × Bool)) : List K := (calls.foldl (fun w c => w.newton c.1 c.2) Writer.start).stamps

end Verif.Convergence
