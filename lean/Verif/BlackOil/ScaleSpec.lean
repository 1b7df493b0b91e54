import Verif.BlackOil.FluidState
import Mathlib.Algebra.BigOperators.Group.Finset.Basic
import Mathlib.Data.Fintype.Basic
import Mathlib.Order.Interval.Finset.Nat

/-
What the statement about the scaling of pressures (C178) talks about: the same physical state, stored in variables with and without
scaling, and Newton's method for a system of equations which depends only on what variables mean.
-/

set_option autoImplicit false

namespace Verif.BlackOil

variable {K : Type} [Field K] [LinearOrder K]

/-- The fluid system and problem, with the pressure variable scaled by `s` -/
def Fluid.withScale (f : Fluid K) (s : K) : Fluid K := { f with scale := s }

/-- Numbers for the variables, with that of the pressure divided by `s` -/
def scaleDown (L : Layout) (s : K) (x : ℤ → K) (i : ℤ) : K := if i = L.pressureSwitchIdx then x i / s else x i

/-- The state `v` (with the pressure in Pascal), as it is stored if the pressure variable is scaled by `s` -/
def PriVars.stored (L : Layout) (s : K) (v : PriVars K) : PriVars K := { v with val := scaleDown L s v.val }

/-- The limits of pressures do not matter for a cell with pressure `p`, neither for the pressure nor for the scaled pressure: in one
iteration the pressure changes by at most `dpMaxRel` times itself. -/
structure InLimits (l : Limits K) (s p : K) : Prop where
  nonneg : 0 ≤ p
  min : l.pressMin ≤ p - l.dpMaxRel * p
  max : p + l.dpMaxRel * p ≤ l.pressMax
  minScaled : l.pressMin ≤ (p - l.dpMaxRel * p) / s
  maxScaled : (p + l.dpMaxRel * p) / s ≤ l.pressMax

/-- A discretized system: residuals of `E` as functions of the physical states of the cells `C`, and their partial derivatives.
(That these are the derivatives does not matter here.) -/
structure Equations (K C E : Type) where
  residual : (C → PriVars K) → E → K
  partialDeriv : (C → PriVars K) → E → C → ℤ → K

end Verif.BlackOil
