import Verif.Restart.Continue
import Verif.Balance.Model

/-
Whole simulations with restart files: the simulation of `Verif.Balance`, the files of `Verif.Restart`.

Simplifications, besides those of the parts: each degree of freedom has `p` numbers (models with meanings of variables are `C64` and
`C115`), the problem saves nothing (`EnableVtkOutput` is off), one process.
-/

set_option autoImplicit false

namespace Verif.RestartSim

open Verif.TimeLoop Verif.Balance Verif.Restart

variable {K W M C X : Type} {m p : ℕ} [Field K] [LinearOrder K]

/-- What is written for the degrees of freedom: `serializeEntity` for each of them (opm/models/discretization/common/fvbasediscretization.hh
lines 1439-1454, opm/models/discretization/ecfv/ecfvdiscretization.hh lines 205-215). -/
def values (n : ℕ) (s : ℕ → Fin p → K) : List (List K) := (List.range n).map fun i => List.ofFn (s i)

/-- The solution after reading: `deserializeEntity` (opm/models/discretization/common/fvbasediscretization.hh lines 1464-1476) assigns each
number which is read; what is not read keeps its value. -/
def assign (d : List (List K)) (s : ℕ → Fin p → K) : ℕ → Fin p → K := fun i k => (((d[i]?).getD [])[k.val]?).getD (s i k)

/-- How numbers are written, and the cookies of the file. -/
structure Style (K : Type) where
  integer : Format ℤ
  number : Format K
  magic : List Char
  cookie : List Char

/-- The restart file which a simulation writes (`Simulator::serialize`, opm/models/utils/simulator.hh lines 906-920). -/
def file (y : Style K) (n : ℕ) (c : Conf K (St (Fin p → K) X)) : List Char :=
  writeFile y.integer y.number y.magic y.cookie (save c.sim) (values n c.prob.sol0)

/-- A process which is started with a restart file (opm/models/utils/simulator.hh lines 650-673): `fresh` is its clock, `own` the state of
the problem and `s` the contents of the solution vector before the file is read.  Both time levels become what is read
(opm/models/discretization/ecfv/ecfvdiscretization.hh lines 222-227). -/
def restart (y : Style K) (n : ℕ) (text : List Char) (fresh : Sim K) (own : X) (s : ℕ → Fin p → K) : Except Err (Conf K (St (Fin p → K) X)) :=
  match readFile y.integer y.number y.magic y.cookie (save fresh) (values n s) (some text) with
  | .error e => .error e
  | .ok (clock, d) => .ok (restarted clock fresh ⟨own, assign d s, assign d s⟩)

end Verif.RestartSim
