import Verif.TimeLoop.Model
import Verif.TimeInt.Model
import Verif.Newton.Model
import Verif.Tpfa.Model
import Mathlib.Algebra.Module.Pi
import Mathlib.Algebra.Module.Prod

set_option autoImplicit false
/-
A whole simulation: the time loop of `Verif.TimeLoop`, whose time integration is that of `Verif.TimeInt`, which calls the Newton
method of `Verif.Newton`, which gets its residuals from the two-point flux linearizer of `Verif.Tpfa`.  Nothing is modelled anew here,
the parts are only put together the way the code does it.

Simplifications, besides those of the parts: one process, no auxiliary equations, no constraints, no grid adaptation; solutions are
changed by the time integration and by `advanceTimeLevel` only; intensive quantities are functions of the primary variables (that
caches change nothing is `C31` and `C68`); if the time step size is zero the residual is undefined in all entries (division by zero in
opm/models/discretization/common/tpfalinearizer.hh line 778).
-/
namespace Verif.Balance

open TimeLoop Newton

/-- What the grid, the problem and the local residual provide, see `Verif.Tpfa.Net`: `PV` are primary variables, `X` is the state of
the problem. -/
structure Physics (K PV M C X : Type) (m : ℕ) where
  numCells : ℕ
  nb : ℕ → List (ℕ × C)
  area : C → K
  volume : ℕ → K
  storage : ℕ → PV → (Fin m → K) × M
  flux : X → K → (ℕ → PV) → ℕ → ℕ → C → (Fin m → K) × M
  source : X → K → (ℕ → PV) → ℕ → (Fin m → K) × M
  boundary : X → K → (ℕ → PV) → List (Tpfa.BFace K (Fin m → K) M)

variable {K PV W M C X : Type} {m : ℕ}

/-- What the linearizer sees in an iteration: current solution `cur`, solution of the previous time level `old`
(opm/models/discretization/common/tpfalinearizer.hh lines 711-866). -/
def net (f : Physics K PV M C X m) (own : X) (dt : K) (cur old : ℕ → PV) : Tpfa.Net K (Fin m → K) M C :=
  { numCells := f.numCells, nb := f.nb, area := f.area, flux := f.flux own dt cur, volume := f.volume, dt := dt,
    storage := fun i => f.storage i (cur i), oldStorage := fun i => (f.storage i (old i)).1,
    source := f.source own dt cur, boundary := f.boundary own dt cur }

/-- Everything else the Newton method depends on: tolerances, weights of equations, the linear solver, updates of primary variables
(`base`, of which the fields about residuals are replaced below), errors left over from earlier calls, exceptions while linearizing,
and what is in the linear system before it is reset.  All of it may depend on the state of the problem, the number of the attempt,
the time step size and the solution of the previous time level. -/
structure Numerics (K PV W M X : Type) (m : ℕ) where
  weight : ℕ → ℕ → K
  tolerance : K
  base : X → ℕ → K → (ℕ → PV) → Env K PV W
  leftError : X → ℕ → K → (ℕ → PV) → Fl K
  leftLastError : X → ℕ → K → (ℕ → PV) → Fl K
  failure : X → ℕ → K → (ℕ → PV) → ℕ → (ℕ → PV) → Option Bool
  system : X → ℕ → K → (ℕ → PV) → ℕ → Tpfa.System (Fin m → K) M
  fuel : ℕ
  maxFails : ℕ
  minDt : K
  continueOnError : Bool

variable [Field K] [LinearOrder K] [AddCommGroup M] [Module K M]

/-- The residual of one equation in one cell which the linearizer computes; there are entries for the cells only. -/
def residual (f : Physics K PV M C X m) (s : Tpfa.System (Fin m → K) M) (own : X) (dt : K) (cur old : ℕ → PV) (i : ℕ) (k : Fin m) : K :=
  if i < f.numCells then (Tpfa.linearizeFull (net f own dt cur old) s).res i k else 0

/-- The environment of the Newton method: `linearizeDomain_` of opm/models/nonlinear/newtonmethod.hh lines 561-564 calls the linearizer. -/
def env (f : Physics K PV M C X m) (q : Numerics K PV W M X m) (own : X) (attempt : ℕ) (dt : K) (old : ℕ → PV) : Env K PV W :=
  { q.base own attempt dt old with
    numGridDof := f.numCells
    numTotalDof := f.numCells
    volume := f.volume
    weight := q.weight
    tolerance := q.tolerance
    constraints := fun _ => none
    linearize := fun it s =>
      match q.failure own attempt dt old it s with
      | some true => .caught
      | some false => .other
      | none => .residual fun i => List.ofFn fun k : Fin m =>
          if dt = 0 then .nan else .num (residual f (q.system own attempt dt old it) own dt s old i k) }

/-- One call of the Newton method by `update` (opm/models/discretization/common/fvbasediscretization.hh lines 1247-1321).  That it does
not end within `fuel` iterations is treated like an exception; `C10_terminates` says how many are enough. -/
def solver (f : Physics K PV M C X m) (q : Numerics K PV W M X m) (own : X) : TimeInt.Solver K (ℕ → PV) := fun attempt dt s old =>
  match Newton.apply (env f q own attempt dt old) s (q.leftError own attempt dt old) (q.leftLastError own attempt dt old) q.fuel with
  | none => .thrown s
  | some (.success, st) => .returned st.sol true
  | some (.failure, st) => .returned st.sol false
  | some (.thrown, st) => .thrown st.sol

/-- The state of the problem, and the solutions of the current and the previous time level. -/
structure St (PV X : Type) where
  own : X
  sol0 : ℕ → PV
  sol1 : ℕ → PV

/-- A callback of the problem, which sees the solution. -/
abbrev Hook (K PV X : Type) := X → (ℕ → PV) → Sim K → Option (X × List (Cmd K))

/-- The callbacks of the problem (`Verif.TimeLoop.Problem`). -/
structure Hooks (K PV X : Type) where
  beginEpisode : Hook K PV X
  endEpisode : Hook K PV X
  beginTimeStep : Hook K PV X
  endTimeStep : Hook K PV X
  writeOutput : Hook K PV X
  advanceTimeLevel : Hook K PV X
  writeRestart : Hook K PV X
  finalize : Hook K PV X
  nextTimeStepSize : X → (ℕ → PV) → Sim K → K
  forcedTimeSteps : List K

/-- A callback which leaves the solutions alone. -/
def lift (h : Hook K PV X) : Callback K (St PV X) := fun p s => (h p.own p.sol0 s).map fun r => ({ p with own := r.1 }, r.2)

/-- The problem which the time loop works with.  `advanceTimeLevel` copies the current solution to the previous time level
(opm/models/discretization/common/fvbaseproblem.hh lines 638-639, opm/models/discretization/common/fvbasediscretization.hh lines
1388-1401); `timeIntegration` is opm/models/discretization/common/fvbaseproblem.hh lines 512-557. -/
def problem (f : Physics K PV M C X m) (q : Numerics K PV W M X m) (h : Hooks K PV X) : Problem K (St PV X) :=
  { beginEpisode := lift h.beginEpisode
    endEpisode := lift h.endEpisode
    beginTimeStep := lift h.beginTimeStep
    endTimeStep := lift h.endTimeStep
    writeOutput := lift h.writeOutput
    advanceTimeLevel := fun p s => (h.advanceTimeLevel p.own p.sol0 s).map fun r => ({ p with own := r.1, sol1 := p.sol0 }, r.2)
    writeRestart := lift h.writeRestart
    finalize := lift h.finalize
    timeIntegration := fun p s =>
      let r := TimeInt.timeIntegration q.maxFails q.minDt q.continueOnError (solver f q p.own) ⟨p.sol0, p.sol1, s.dt⟩
      match r.outcome with
      | .converged => some ({ p with sol0 := r.st.sol0, sol1 := r.st.sol1 }, r.st.dt)
      | .accepted => some ({ p with sol0 := r.st.sol0, sol1 := r.st.sol1 }, r.st.dt)
      | .gaveUp => none
      | .thrown => none
    nextTimeStepSize := fun p s => h.nextTimeStepSize p.own p.sol0 s
    forcedTimeSteps := h.forcedTimeSteps }

end Verif.Balance
