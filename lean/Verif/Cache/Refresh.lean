import Verif.Cache.Model

/-!
# Refreshing the cache of intensive quantities

The two overloads of `invalidateAndUpdateIntensiveQuantities`
(opm/models/discretization/common/fvbasediscretization.hh lines 723-770).  Elements are visited one after another; the
threads which share the loop and the thermodynamic hints (see `Verif.Hints`) are left out.
-/

set_option autoImplicit false

namespace Verif.Cache

variable {PV IQ : Type}

/-- An element of a grid view: whether its `partitionType()` is `Dune::InteriorEntity`, and the global indices of the
primary degrees of freedom of its stencil. -/
structure Elem where
  interior : Bool
  dofs : List ℕ

/-- `invalidateAndUpdateIntensiveQuantities(timeIdx)`
(opm/models/discretization/common/fvbasediscretization.hh lines 723-741): all elements of the grid view of the model
are visited, whatever their partition is. -/
def refreshAll (c : Cfg) (upd : PV → IQ) (s : State PV IQ) (t : ℕ) (elems : List Elem) : State PV IQ :=
  elems.foldl (fun s e => accessAll c upd s t e.dofs) (invalidate c s t)

/-- The body of the loop of `invalidateAndUpdateIntensiveQuantities(timeIdx, gridView)`
(opm/models/discretization/common/fvbasediscretization.hh lines 754-768): the entries of `timeIdx` are marked, and the
quantities of time index 0 are updated. -/
def refreshElem (c : Cfg) (upd : PV → IQ) (s : State PV IQ) (t : ℕ) (e : Elem) : State PV IQ :=
  if !e.interior then s else accessAll c upd (e.dofs.foldl (fun s d => invalidateEntry c s t d) s) 0 e.dofs

/-- `invalidateAndUpdateIntensiveQuantities(timeIdx, gridView)`
(opm/models/discretization/common/fvbasediscretization.hh lines 743-770). -/
def refreshView (c : Cfg) (upd : PV → IQ) (s : State PV IQ) (t : ℕ) (elems : List Elem) : State PV IQ :=
  elems.foldl (fun s e => refreshElem c upd s t e) s

end Verif.Cache
