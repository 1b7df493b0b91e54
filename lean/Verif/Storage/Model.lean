import Verif.Cache.Model
import Mathlib.Algebra.Order.Field.Basic
/-
Model of the storage terms: `globalStorage` (`opm/models/discretization/common/fvbasediscretization.hh`) and
`evalStorage`, `evalVolumeTerms_` (`opm/models/discretization/common/fvbaselocalresidual.hh`).

One conservation equation is modelled; the loops over the equations are the same for each of them.
-/

set_option autoImplicit false

namespace Verif.Storage

open Verif.Cache

variable {PV IQ K : Type} [Field K]

/-- What the physical model provides. -/
structure Law (IQ K : Type) where
  /-- `computeStorage`: amount per volume -/
  storage : IQ → K
  /-- `extrusionFactor()` -/
  extrusion : IQ → K

/-- The amount in one sub-control volume, as `evalStorage` gives it
(opm/models/discretization/common/fvbaselocalresidual.hh lines 204-276).  `ctxCache` is what
`elemCtx.enableStorageCache()` returns, `stored` the entry `storageCache_[timeIdx][globalDofIdx]`. -/
def evalStorage (law : Law IQ K) (ctxCache : Bool) (stored : K) (volume : K) (q : IQ) (timeIdx : ℕ) : K :=
  if timeIdx = 0 then law.storage q * (volume * law.extrusion q)
  else if ctxCache then stored
  else law.storage q * (volume * law.extrusion q)

/-- `globalStorage` (opm/models/discretization/common/fvbasediscretization.hh lines 943-986) on one process and one
thread: the element context gets the intensive quantities of all sub-control volumes (degree of freedom, volume), with
the storage cache of the context switched off, and their amounts are summed up. -/
def globalStorage (c : Cfg) (upd : PV → IQ) (law : Law IQ K) (storageCache : ℕ → ℕ → K) (s : State PV IQ)
    (timeIdx : ℕ) : List (ℕ × K) → K × State PV IQ
  | [] => (0, s)
  | (d, volume) :: rest =>
    let r := access c upd s timeIdx d
    let r' := globalStorage c upd law storageCache r.2 timeIdx rest
    (evalStorage law false (storageCache timeIdx d) volume r.1 timeIdx + r'.1, r'.2)

/-- The storage part of `evalVolumeTerms_` for one degree of freedom
(opm/models/discretization/common/fvbaselocalresidual.hh lines 519-584): the value which is added to the residual and
the new entry `storageCache_[1][globalDofIdx]`.  `cur` and `old` are the intensive quantities of the two time levels,
`first`: it is the first Newton iteration, `stashed`: the numeric derivatives are being computed. -/
def volumeTerm (law : Law IQ K) (ctxCache recycle first stashed : Bool) (volume dt : K) (cur old : IQ) (stored : K) :
    K × K :=
  let storedOld :=
    if ctxCache then
      if first && !stashed then (if !recycle then law.storage old else law.storage cur) else stored
    else law.storage old
  ((law.storage cur - storedOld) * (volume * law.extrusion cur / dt),
   if ctxCache && (first && !stashed) then storedOld else stored)

end Verif.Storage
