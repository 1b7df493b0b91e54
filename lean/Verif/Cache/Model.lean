import Verif.Newton.Model
import Mathlib.Logic.Function.Basic
/-
Model of the solution vectors and of the cache for intensive quantities of
`opm/models/discretization/common/fvbasediscretization.hh`, with everything in the code which reads or writes them.

Degrees of freedom and time indices are numbers.  The update of the intensive quantities is a function of the primary
variables: that it may also depend on the problem, the time and thermodynamic hints is not modelled.
-/

set_option autoImplicit false

namespace Verif.Cache

/-- The run-time and compile-time switches: `historySize`, `enableIntensiveQuantityCache_`,
`enableThermodynamicHints_`, `enableStorageCache_`
(opm/models/discretization/common/fvbasediscretization.hh lines 400-404) and what
`problem().recycleFirstIterationStorage()` returns. -/
structure Cfg where
  hist : ℕ
  cache : Bool
  hints : Bool
  storageCache : Bool
  recycle : Bool

structure State (PV IQ : Type) where
  /-- `solution(timeIdx)[globalIdx]` -/
  sol : ℕ → ℕ → PV
  /-- `intensiveQuantityCache_[timeIdx][globalIdx]` -/
  cache : ℕ → ℕ → IQ
  /-- `intensiveQuantityCacheUpToDate_[timeIdx][globalIdx]` -/
  valid : ℕ → ℕ → Bool

variable {PV IQ : Type}

/-- `storeIntensiveQuantities()` (opm/models/discretization/common/fvbasediscretization.hh lines 1799-1800,
`enableIntensiveQuantityCache_ || enableThermodynamicHints_`). -/
def store (c : Cfg) : Bool := c.cache || c.hints

/-- `cachedIntensiveQuantities` (opm/models/discretization/common/fvbasediscretization.hh lines 655-671); the cache is
allocated for all time indices (lines 1840-1850), so the test for an empty one is left out. -/
def cached (c : Cfg) (s : State PV IQ) (t d : ℕ) : Option IQ :=
  if !c.cache || !s.valid t d then none else some (s.cache t d)

/-- Overwrite row `t`. -/
def setRow {α : Type} (f : ℕ → ℕ → α) (t : ℕ) (row : ℕ → α) : ℕ → ℕ → α := Function.update f t row

/-- Overwrite one entry. -/
def setEntry {α : Type} (f : ℕ → ℕ → α) (t d : ℕ) (a : α) : ℕ → ℕ → α :=
  Function.update f t (Function.update (f t) d a)

/-- `updateCachedIntensiveQuantities` (opm/models/discretization/common/fvbasediscretization.hh lines 681-690). -/
def updateCached (c : Cfg) (s : State PV IQ) (q : IQ) (t d : ℕ) : State PV IQ :=
  if !store c then s else { s with cache := setEntry s.cache t d q, valid := setEntry s.valid t d true }

/-- An element context gets the intensive quantities of a degree of freedom: the body of the loop of
`updateIntensiveQuantities_` (opm/models/discretization/common/fvbaseelementcontext.hh lines 554-572).  The result is
what the context hands out afterwards. -/
def access (c : Cfg) (upd : PV → IQ) (s : State PV IQ) (t d : ℕ) : IQ × State PV IQ :=
  match cached c s t d with
  | some q => (q, s)
  | none => (upd (s.sol t d), updateCached c s (upd (s.sol t d)) t d)

/-- Several accesses. -/
def accessAll (c : Cfg) (upd : PV → IQ) (s : State PV IQ) (t : ℕ) : List ℕ → State PV IQ
  | [] => s
  | d :: ds => accessAll c upd (access c upd s t d).2 t ds

/-- `invalidateIntensiveQuantitiesCache` (opm/models/discretization/common/fvbasediscretization.hh lines 714-721). -/
def invalidate (c : Cfg) (s : State PV IQ) (t : ℕ) : State PV IQ :=
  if store c then { s with valid := setRow s.valid t fun _ => false } else s

/-- `setIntensiveQuantitiesCacheEntryValidity(d, t, false)`
(opm/models/discretization/common/fvbasediscretization.hh lines 699-707). -/
def invalidateEntry (c : Cfg) (s : State PV IQ) (t d : ℕ) : State PV IQ :=
  if !store c then s else { s with valid := setEntry s.valid t d false }

/-- The solution is updated by the Newton method, then all entries of the cache are invalidated:
`FvBaseNewtonMethod::update_` (opm/models/discretization/common/fvbasenewtonmethod.hh lines 124-139).  The cache has an
entry for each degree of freedom of the grid, so that the loop is the same as invalidating the row. -/
def newtonUpdate (c : Cfg) (s : State PV IQ) (next : ℕ → PV) : State PV IQ :=
  invalidate c { s with sol := setRow s.sol 0 next } 0

/-- `updateFailed` (opm/models/discretization/common/fvbasediscretization.hh lines 1362-1368) with
`invalidateAndUpdateIntensiveQuantities` (lines 723-741), which accesses all degrees of freedom. -/
def updateFailed (c : Cfg) (upd : PV → IQ) (s : State PV IQ) (dofs : List ℕ) : State PV IQ :=
  accessAll c upd (invalidate c { s with sol := setRow s.sol 0 (s.sol 1) } 0) 0 dofs

/-- The loop of `shiftIntensiveQuantityCache` (opm/models/discretization/common/fvbasediscretization.hh lines 798-801)
for the time indices `timeIdx … timeIdx + fuel - 1`, with one slot. -/
def shiftLoop (s : State PV IQ) : ℕ → ℕ → State PV IQ
  | _, 0 => s
  | timeIdx, fuel + 1 =>
    shiftLoop { s with cache := setRow s.cache (timeIdx + 1) (s.cache timeIdx),
                       valid := setRow s.valid (timeIdx + 1) (s.valid timeIdx) } (timeIdx + 1) fuel

/-- `shiftIntensiveQuantityCache` (opm/models/discretization/common/fvbasediscretization.hh lines 781-806). -/
def shift (c : Cfg) (s : State PV IQ) : State PV IQ :=
  if !store c then s
  else if c.storageCache && c.recycle then s
  else shiftLoop s 0 (c.hist - 1)

/-- `advanceTimeLevel` (opm/models/discretization/common/fvbasediscretization.hh lines 1388-1401), without grid
adaptation. -/
def advance (c : Cfg) (s : State PV IQ) : State PV IQ := shift c { s with sol := setRow s.sol 1 (s.sol 0) }

/-- `applyConstraintsToSolution_` for one constrained degree of freedom
(opm/models/discretization/common/fvbaselinearizer.hh lines 640-644). -/
def constrain (s : State PV IQ) (d : ℕ) (v : PV) : State PV IQ :=
  { s with sol := setEntry (setEntry s.sol 0 d v) 1 d v }

/-- `globalResidual(dest, u)` (opm/models/discretization/common/fvbasediscretization.hh lines 866-874), of which the
accesses to the intensive quantities matter here. -/
def residualFor (c : Cfg) (upd : PV → IQ) (s : State PV IQ) (u : ℕ → PV) (dofs : List ℕ) : State PV IQ :=
  let s' := accessAll c upd { s with sol := setRow s.sol 0 u } 0 dofs
  { s' with sol := setRow s'.sol 0 (s.sol 0) }

/-- The grid was adapted: new solutions, and the cache is reset (`resizeAndResetIntensiveQuantitiesCache_`,
opm/models/discretization/common/fvbasediscretization.hh lines 1831-1851). -/
def adapt (c : Cfg) (s : State PV IQ) (sol : ℕ → ℕ → PV) : State PV IQ :=
  if store c then { s with sol := sol, valid := fun t d => if t < c.hist then false else s.valid t d }
  else { s with sol := sol }

/-- What can happen to the solutions and the cache. -/
inductive Op (PV : Type)
  | access (t d : ℕ)
  | newtonUpdate (next : ℕ → PV)
  | updateFailed (dofs : List ℕ)
  | advance
  | invalidate (t : ℕ)
  | invalidateEntry (t d : ℕ)
  /-- somebody writes to the solution and invalidates the entry of the cache -/
  | write (t d : ℕ) (v : PV)
  | adapt (sol : ℕ → ℕ → PV)
  | constrain (d : ℕ) (v : PV)
  | residualFor (u : ℕ → PV) (dofs : List ℕ)

def step (c : Cfg) (upd : PV → IQ) (s : State PV IQ) : Op PV → State PV IQ
  | .access t d => (access c upd s t d).2
  | .newtonUpdate next => newtonUpdate c s next
  | .updateFailed dofs => updateFailed c upd s dofs
  | .advance => advance c s
  | .invalidate t => invalidate c s t
  | .invalidateEntry t d => invalidateEntry c s t d
  | .write t d v => invalidateEntry c { s with sol := setEntry s.sol t d v } t d
  | .adapt sol => adapt c s sol
  | .constrain d v => constrain s d v
  | .residualFor u dofs => residualFor c upd s u dofs

def exec (c : Cfg) (upd : PV → IQ) (s : State PV IQ) (ops : List (Op PV)) : State PV IQ := ops.foldl (step c upd) s

/-- After `finishInit` (opm/models/discretization/common/fvbasediscretization.hh lines 529-534) no entry is valid. -/
def Fresh (c : Cfg) (s : State PV IQ) : Prop := ∀ t d, t < c.hist → s.valid t d = false

/-! ### A time step solve -/

/-- How `FvBaseDiscretization::update` ends. -/
inductive Result
  | converged | failed | rethrown
deriving DecidableEq

/-- `FvBaseDiscretization::update` (opm/models/discretization/common/fvbasediscretization.hh lines 1247-1321) around
the Newton method as modelled in `Verif.Newton`: exceptions which leave the Newton method are rethrown (lines
1276-1283), otherwise `updateSuccessful` (no-op) or `updateFailed` is called.  `noise` is whatever the Newton method
has left in the cache; `linearized` says whether the constraints were applied to the old solution as well. -/
def update {K W : Type} [Field K] [LinearOrder K] (c : Cfg) (upd : PV → IQ) (env : Newton.Env K PV W)
    (error lastError : Newton.Fl K) (fuel : ℕ) (noise : State PV IQ) (linearized : Bool) (dofs : List ℕ)
    (s : State PV IQ) : Option (Result × State PV IQ) :=
  (Newton.apply env (s.sol 0) error lastError fuel).map fun r =>
    let old := if linearized then Newton.applyConstraints env (s.sol 1) else s.sol 1
    let s' : State PV IQ := { sol := setRow (setRow s.sol 0 r.2.sol) 1 old, cache := noise.cache, valid := noise.valid }
    match r.1 with
    | .success => (.converged, s')
    | .failure => (.failed, updateFailed c upd s' dofs)
    | .thrown => (.rethrown, s')

end Verif.Cache
