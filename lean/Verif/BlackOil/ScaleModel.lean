import Verif.BlackOil.ScaleSpec

/-
The evaluations of primary variables (`makeEvaluation`) and the Newton iterations which use them.
-/

set_option autoImplicit false

namespace Verif.BlackOil

variable {K : Type} [Field K] [LinearOrder K]

/-- A number and its derivatives with regard to the primary variables of the cell in focus (`Evaluation`) -/
structure VarEval (K : Type) where
  value : K
  deriv : ℤ → K

/-- Multiplying by a number -/
def VarEval.scale (e : VarEval K) (s : K) : VarEval K := ⟨e.value * s, fun j => e.deriv j * s⟩

/-- `makeEvaluation` (opm/models/blackoil/blackoilprimaryvariables.hh:217-234) with automatic differentiation.  `focus` says that the variables are
those of the cell with regard to whose variables derivatives are taken, at the time of the linearization; otherwise the evaluation is
a constant.  (That other cells are constants is what the intensive quantities make of it.) -/
def makeEvaluation (L : Layout) (f : Fluid K) (v : PriVars K) (varIdx : ℤ) (focus : Bool) : VarEval K :=
  let scale := if varIdx = L.pressureSwitchIdx then f.scale else 1
  if focus then VarEval.scale ⟨v.val varIdx, fun j => if j = varIdx then 1 else 0⟩ scale
  else VarEval.scale ⟨v.val varIdx, fun _ => 0⟩ scale

/-- What is seen of the variables through their evaluations -/
def seen (L : Layout) (f : Fluid K) (v : PriVars K) : PriVars K := { v with val := fun i => (makeEvaluation L f v i false).value }

variable {C E : Type} [Fintype C] [DecidableEq C]

/-- The entry of the Jacobian for an equation and a variable `j` of the cell `c`: the chain rule, as automatic differentiation
applies it to the evaluations of the variables of all cells, the cell `c` in focus
(opm/models/discretization/common/fvbaseadlocallinearizer.hh:271-294). -/
def jacobianEntry (L : Layout) (f : Fluid K) (q : Equations K C E) (st : C → PriVars K) (e : E) (c : C) (j : ℤ) : K :=
  ∑ d, ∑ i ∈ Finset.range L.numEq,
    q.partialDeriv (fun d => seen L f (st d)) e d i * (makeEvaluation L f (st d) i (decide (d = c))).deriv j

/-- A Newton iteration: `x` solves the linear system exactly, and every cell is updated with its part of it
(opm/models/nonlinear/newtonmethod.hh:281-360,665-712, opm/models/discretization/common/fvbasenewtonmethod.hh:123-139,
opm/models/blackoil/blackoilnewtonmethod.hh:226-427). -/
structure NewtonStep (L : Layout) (f : Fluid K) (l : Limits K) (s : SwitchParams K) (q : Equations K C E)
    (st st' : C → PriVars K × Bool) (x : C → ℤ → K) : Prop where
  solves : ∀ e, ∑ c, ∑ j ∈ Finset.range L.numEq, jacobianEntry L f q (fun c => (st c).1) e c j * x c j =
    q.residual (fun c => seen L f (st c).1) e
  updates : ∀ c, updatePrimaryVariables L f l s (st c).2 (st c).1 (x c) = some (st' c)

end Verif.BlackOil
