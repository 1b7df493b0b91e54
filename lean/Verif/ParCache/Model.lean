import Verif.ParSim.Props

/-
Simulations on several processes which keep intensive quantities in a cache.

Models what `FvBaseDiscretization` does with cached intensive quantities between calls of the Newton method: they are calculated from the
solution vector of the process when they are needed (opm/models/discretization/common/fvbasediscretization.hh lines 655-690, 714-740,
opm/models/discretization/common/fvbaseelementcontext.hh lines 545-585), and all of them are for the present solution after `updateFailed`
(opm/models/discretization/common/fvbasediscretization.hh lines 1362-1379).  The Newton method makes them invalid when it updates the
solution (opm/models/discretization/common/fvbasenewtonmethod.hh lines 121-138), but not when copies are fetched from their owners (lines
143-148 there, opm/models/discretization/ecfv/ecfvdiscretization.hh lines 189-203).
-/

set_option autoImplicit false

namespace Verif.ParCache

open Verif.ParSim Verif.ParNewton

variable {P E : ℕ} {K V : Type}

/-- The processes when they call the Newton method: where `filled` is true, intensive quantities for the solution `s` have been stored
since the last update. -/
def withCache (M : ParNewton.Machine P E K V) (filled : Fin (P + 1) → ℕ → Bool) (s : Fin (P + 1) → ℕ → V) : ParNewton.Machine P E K V :=
  { M with cache := fun p i => if filled p i then some (s p i) else none }

/-- The Newton methods of all processes as solver, called at the solution `s` (opm/models/discretization/common/fvbasediscretization.hh line
1275) with the intensive quantities which are cached then.  Which ones have been stored can differ from call to call. -/
def cachedSolver [Field K] [LinearOrder K] (machine : K → Memory K → (Fin (P + 1) → ℕ → V) → ParNewton.Machine P E K V)
    (filled : K → Memory K → Fin (P + 1) → ℕ → Bool) (fuel : ℕ) : Solver K (Fin (P + 1) → ℕ → V) :=
  fun dt mem s old => allSolver (fun dt mem old => withCache (machine dt mem old) (filled dt mem) s) fuel dt mem s old

end Verif.ParCache
