import Mathlib.Logic.Function.Basic
import Mathlib.Algebra.Order.Field.Basic
/-
Model of what numeric differentiation does with an element context:
`opm/models/discretization/common/fvbaseelementcontext.hh` (primary variables, intensive quantities, stash) and
`opm/models/discretization/common/fvbasefdlocallinearizer.hh` (`evalPartialDerivative_`).
-/

set_option autoImplicit false

namespace Verif.ElemCtx

/-- Where the pointer `dofVars_[dofIdx].priVars[0]` points to. -/
inductive Ptr
  /-- the entry of the global solution -/
  | global
  /-- `priVarsStashed_` -/
  | stash
  /-- the local variable of `evalPartialDerivative_` -/
  | localVar
deriving DecidableEq, Repr

/-- The state of an element context for the current time index (opm/models/discretization/common/
opm/models/discretization/common/fvbaseelementcontext.hh lines 63-67, 588-601).  `dofs` are local indices. -/
structure Ctx (PV IQ : Type) where
  /-- the entries of the global solution which belong to the degrees of freedom of the element -/
  globalSol : ℕ → PV
  ptr : ℕ → Ptr
  iq : ℕ → IQ
  priVarsStashed : PV
  iqStashed : IQ
  /-- the local variable `priVars` of `evalPartialDerivative_` -/
  localVar : PV

variable {PV IQ : Type}

/-- `primaryVars(dofIdx, 0)` (opm/models/discretization/common/fvbaseelementcontext.hh lines 452-459). -/
def primaryVars (c : Ctx PV IQ) (d : ℕ) : PV :=
  match c.ptr d with
  | .global => c.globalSol d
  | .stash => c.priVarsStashed
  | .localVar => c.localVar

/-- `updateIntensiveQuantities_` for time index 0 (opm/models/discretization/common/fvbaseelementcontext.hh lines
548-573): all pointers point to the global solution and all quantities belong to it. -/
def updateAll (upd : PV → IQ) (c : Ctx PV IQ) : Ctx PV IQ :=
  { c with ptr := fun _ => .global, iq := fun d => upd (c.globalSol d) }

/-- `stashIntensiveQuantities` (opm/models/discretization/common/fvbaseelementcontext.hh lines 481-488). -/
def stash (c : Ctx PV IQ) (d : ℕ) : Ctx PV IQ := { c with iqStashed := c.iq d, priVarsStashed := primaryVars c d }

/-- `restoreIntensiveQuantities` (opm/models/discretization/common/fvbaseelementcontext.hh lines 495-500). -/
def restore (c : Ctx PV IQ) (d : ℕ) : Ctx PV IQ :=
  { c with ptr := Function.update c.ptr d .stash, iq := Function.update c.iq d c.iqStashed }

/-- `updateIntensiveQuantities(priVars, dofIdx, 0)`, i.e. `updateSingleIntQuants_`
(opm/models/discretization/common/fvbaseelementcontext.hh lines 575-586), with the local variable. -/
def deflect (upd : PV → IQ) (c : Ctx PV IQ) (d : ℕ) (v : PV) : Ctx PV IQ :=
  { c with localVar := v, ptr := Function.update c.ptr d .localVar, iq := Function.update c.iq d (upd v) }

/-- `evalPartialDerivative_` (opm/models/discretization/common/fvbasefdlocallinearizer.hh lines 416-485), as far as the
state of the context is concerned: stash, evaluate with deflected primary variables, restore.  `f` gives the values the
variables are deflected to. -/
def partialDerivative (upd : PV → IQ) (c : Ctx PV IQ) (d : ℕ) (f : PV → List PV) : Ctx PV IQ :=
  restore ((f (primaryVars c d)).foldl (fun c v => deflect upd c d v) (stash c d)) d

/-- The local linearizer computes one derivative after the other
(opm/models/discretization/common/fvbasefdlocallinearizer.hh lines 228-246). -/
def linearize (upd : PV → IQ) (c : Ctx PV IQ) (derivs : List (ℕ × (PV → List PV))) : Ctx PV IQ :=
  derivs.foldl (fun c e => partialDerivative upd c e.1 e.2) c

/-! ### The difference quotient -/

/-- The value which `evalPartialDerivative_` computes for one equation: `r` is the residual as a function of the primary
variable (opm/models/discretization/common/fvbasefdlocallinearizer.hh lines 424-475).  `method`: > 0 forward, < 0 backward,
0 central differences.  `rx` is `residual_`, the residual at the undeflected state. -/
def differenceQuotient {K : Type} [Field K] (method : ℤ) (r : K → K) (rx x eps : K) : K :=
  -- numericDifferenceMethod_() >= 0
  let priVars := if 0 ≤ method then x + eps else x
  let delta := if 0 ≤ method then 0 + eps else 0
  let deriv := if 0 ≤ method then r priVars else rx
  -- numericDifferenceMethod_() <= 0
  let priVars' := if method ≤ 0 then priVars - (delta + eps) else priVars
  let delta' := if method ≤ 0 then delta + eps else delta
  let deriv' := if method ≤ 0 then deriv - r priVars' else deriv - rx
  deriv' / delta'

end Verif.ElemCtx
