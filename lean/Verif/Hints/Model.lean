import Verif.Cache.Model

/-!
# Thermodynamic hints

How an element context hands the quantities which are in the cache to the models as hints, and how the models use them.  The cache and
the solution vectors are those of `Verif/Cache/Model.lean`.  A hint is a pointer into the cache, i.e. a time index and the index of a
degree of freedom.  One thread.
-/

set_option autoImplicit false

namespace Verif.Hints

open Verif.Cache

variable {PV IQ G : Type}

/-- What an element context stores for a local degree of freedom: intensive quantities and hints for each time index (`DofStore_`,
opm/models/discretization/common/fvbaseelementcontext.hh lines 63-67); the pointers to primary variables are left out. -/
structure Slot (IQ : Type) where
  iq : ℕ → IQ
  hint : ℕ → Option (ℕ × ℕ)

/-- A slot which has just been created.  (`resize` of the vector value-initializes it: pointers are null.) -/
def Slot.fresh [Inhabited IQ] : Slot IQ := ⟨fun _ => default, fun _ => none⟩

/-- `dofVars_.resize`, opm/models/discretization/common/fvbaseelementcontext.hh lines 140-143 and line 160: slots which exist are kept. -/
def resize [Inhabited IQ] (ctx : List (Slot IQ)) (n : ℕ) : List (Slot IQ) :=
  ctx.take n ++ List.replicate (n - ctx.length) Slot.fresh

/-- `FvBaseDiscretization::thermodynamicHint`, opm/models/discretization/common/fvbasediscretization.hh lines 635-642. -/
def thermodynamicHint (c : Cfg) (st : State PV IQ) (d t : ℕ) : Option (ℕ × ℕ) :=
  if !c.hints then none
  else if (cached c st t d).isSome then some (t, d) else none

/-- The update of quantities of a degree of freedom: its primary variables, the hints of the context for each time index, and the
time index. -/
abbrev Update (PV IQ : Type) := PV → (ℕ → Option IQ) → ℕ → IQ

/-- What the pointers of a slot point to. -/
def look (st : State PV IQ) (slot : Slot IQ) (t : ℕ) : Option IQ := (slot.hint t).map fun p => st.cache p.1 p.2

/-- The body of the loop of `updateIntensiveQuantities_`, opm/models/discretization/common/fvbaseelementcontext.hh lines 553-572. -/
def updateDof (c : Cfg) (upd : Update PV IQ) (t d : ℕ) (slot : Slot IQ) (st : State PV IQ) : Slot IQ × State PV IQ :=
  let slot := { slot with hint := Function.update slot.hint t (thermodynamicHint c st d t) }
  match cached c st t d with
  | some q => ({ slot with iq := Function.update slot.iq t q }, st)
  | none =>
    let q := upd (st.sol t d) (look st slot) t
    ({ slot with iq := Function.update slot.iq t q }, updateCached c st q t d)

/-- `updateIntensiveQuantities_`, opm/models/discretization/common/fvbaseelementcontext.hh lines 547-573, for the degrees of freedom
with the given global indices. -/
def updateLevel (c : Cfg) (upd : Update PV IQ) (t : ℕ) : List ℕ → List (Slot IQ) → State PV IQ → List (Slot IQ) × State PV IQ
  | d :: ds, slot :: ctx, st =>
    let r := updateDof c upd t d slot st
    let r' := updateLevel c upd t ds ctx r.2
    (r.1 :: r'.1, r'.2)
  | _, ctx, st => (ctx, st)

/-- Several time indices, one after the other. -/
def updateLevels (c : Cfg) (upd : Update PV IQ) (dofs : List ℕ) : List ℕ → List (Slot IQ) × State PV IQ → List (Slot IQ) × State PV IQ
  | [], s => s
  | t :: ts, s => updateLevels c upd dofs ts (updateLevel c upd t dofs s.1 s.2)

/-- An element is visited: `updateStencil` or `updatePrimaryStencil`, then `updateIntensiveQuantities` for some time indices,
opm/models/discretization/common/fvbaseelementcontext.hh lines 131-161 and 180-214. -/
def visit [Inhabited IQ] (c : Cfg) (upd : Update PV IQ) (s : List (Slot IQ) × State PV IQ) (v : List ℕ × List ℕ) :
    List (Slot IQ) × State PV IQ :=
  updateLevels c upd v.1 v.2 (resize s.1 v.1.length, s.2)

/-- The time indices of `updateAllIntensiveQuantities`, opm/models/discretization/common/fvbaseelementcontext.hh lines 180-194. -/
def allLevels (c : Cfg) : List ℕ := if !c.storageCache then List.range c.hist else [0]

/-- The flash model and the model with complementarity conditions: the solver starts with the hint for the time index, or with a guess,
opm/models/flash/flashintensivequantities.hh lines 117-138 and opm/models/ncp/ncpintensivequantities.hh lines 140-158. -/
def ownHint (guess : PV → G) (start : IQ → G) (solve : PV → G → IQ) : Update PV IQ := fun pv hint t =>
  solve pv (match hint t with
    | some h => start h
    | none => guess pv)

/-- The model based on PT-flash calculations, opm/models/ptflash/flashintensivequantities.hh lines 139-175: for the current solution the
hint for the previous one is used as well. -/
def ownOrOlderHint (guess : PV → G) (start : IQ → G) (solve : PV → G → IQ) : Update PV IQ := fun pv hint t =>
  solve pv (match hint t with
    | some h => start h
    | none =>
      match (if t = 0 then hint 1 else none) with
      | some h => start h
      | none => guess pv)

end Verif.Hints
